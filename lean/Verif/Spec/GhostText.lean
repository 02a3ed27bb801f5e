import Verif.Spec.Ghosts
import Verif.Spec.Computer

/-! # Specification vocabulary: a computer at a keyboard without diodes -/

namespace Asdf.Spec

open Avr Pcb

/-- A computer sees the levels `v` at a connector of the interface (`SeesLines`) of a keyboard without diodes. -/
def SeesBare (A : Assembly) (k : Nat) (lines : List (Nat × Signal)) (closed : Sw → Bool)
    (low high : Net → Prop) (v : Nat → Bool) : Prop :=
  ∀ x ∈ lines, x.2.isLine = true → ∀ n, A.plug k x.1 = some n →
    (PulledLow (bare A) closed low n → v x.1 = false) ∧ (high n → v x.1 = true)

/-- What a computer may see there, whatever switches are closed, whatever the shift register puts out and whatever
outside pulls other nets low (`AtSocket328`). -/
def AtBare328 (A : Assembly) (k : Nat) (lines : List (Nat × Signal)) (r : Regs) (v : Nat → Bool) : Prop :=
  ∃ (q : Bool) (closed : Sw → Bool) (ext : Net → Prop), LinesFree A k lines ext ∧
    SeesBare A k lines closed (fun m => Low328 A r q m ∨ ext m) (High328 A r) v

/-- The same for a board with the ATmega2560. -/
def AtBare2560 (A : Assembly) (k : Nat) (lines : List (Nat × Signal)) (r : Regs) (v : Nat → Bool) : Prop :=
  ∃ (closed : Sw → Bool) (ext : Net → Prop), LinesFree A k lines ext ∧
    SeesBare A k lines closed (fun m => Low2560 A r m ∨ ext m) (High2560 A r) v

end Asdf.Spec
