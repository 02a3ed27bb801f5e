import Verif.Spec.AnyBoard
import Verif.Spec.Keystrokes

/-! # The texts that are on the keys of a board -/

namespace Asdf.Spec

open Pcb

/-- A character is on a key of the board with keymap `i`: some key gives it, under some modifiers. -/
def OnKeyOf (ps : List Place) (i : UInt8) (x : Code) : Prop :=
  x.toNat < 0xA0 ∧ ∃ p ∈ ps, p.row < 8 ∧ ∃ shift caps ctrl : Bool, codeUnder fourMaps i 8 p.row p.col shift caps ctrl = x

instance (ps : List Place) (i : UInt8) (x : Code) : Decidable (OnKeyOf ps i x) := by
  unfold OnKeyOf
  infer_instance

end Asdf.Spec
