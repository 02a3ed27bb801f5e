import Verif.Model.Machine
import Verif.Spec.Whole

/-! # Specification vocabulary: the machine with its interrupt -/

namespace Asdf.Spec

open Machine

/-- The contacts in this step, if it is a pass through the body. -/
def seenNow (m : Machine) : Machine.Step → List (Nat → Whole.Contacts)
  | .isr => []
  | .main mx => match m.pc with
    | .body => [mx]
    | _ => []

/-- The contacts in each pass through the body, in an interleaving from the machine
`m`. -/
def seenFrom (T : Whole.Target) (cfg : Config) : Machine → List Machine.Step →
    List (Nat → Whole.Contacts)
  | _, [] => []
  | m, x :: l =>
    seenNow m x ++ match Machine.step T cfg m x with
      | .ok m' => seenFrom T cfg m' l
      | .error _ => []

/-- The same from power-up. -/
def seen (T : Whole.Target) (cfg : Config) (r0 : Avr.Regs) (flag : Bool) (l : List Machine.Step) :
    List (Nat → Whole.Contacts) :=
  match Whole.powerUp T cfg r0 with
  | .ok w => seenFrom T cfg ⟨flag, .poll, w, if flag then [.tick] else []⟩ l
  | .error _ => []

end Asdf.Spec
