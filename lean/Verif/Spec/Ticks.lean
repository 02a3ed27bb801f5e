import Verif.Spec.Interrupts

/-! # Accounting for timer ticks -/

namespace Asdf.Spec

open Machine

/-- The ticks lost in this step: an interrupt while an earlier tick has not been taken
yet; clearing the flag after it was read as 0, if a tick came in between; initialising
the hardware while a tick is waiting. -/
def lostNow (T : Whole.Target) (cfg : Config) (m : Machine) : Machine.Step → Nat
  | .isr => if m.flag = true then 1 else 0
  | .main mx =>
    if m.flag = false then 0
    else if m.pc = .clear false then 1
    else if m.pc = .body then
      match Whole.pass T cfg m.board mx with
      | .ok w => if reinits m.board.fw w.fw = true then 1 else 0
      | .error _ => 0
    else 0

/-- The ticks lost in an interleaving from the machine `m`. -/
def lostFrom (T : Whole.Target) (cfg : Config) : Machine → List Machine.Step → Nat
  | _, [] => 0
  | m, x :: l =>
    lostNow T cfg m x + match Machine.step T cfg m x with
      | .ok m' => lostFrom T cfg m' l
      | .error _ => 0

/-- The same from power-up. -/
def lostTicks (T : Whole.Target) (cfg : Config) (r0 : Avr.Regs) (flag : Bool)
    (l : List Machine.Step) : Nat :=
  match Whole.powerUp T cfg r0 with
  | .ok w => lostFrom T cfg ⟨flag, .poll, w, if flag then [.tick] else []⟩ l
  | .error _ => 0

/-- The ticks that are waiting to be answered by a scan. -/
def waitingTicks (m : Machine) : Nat :=
  (if m.flag = true then 1 else 0) + (if m.pc = .test true then 1 else 0)

end Asdf.Spec
