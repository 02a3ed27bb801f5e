import Verif.Spec.Trap

/-! # What the strobe and autorepeat switches select -/

namespace Asdf.Spec

/-- Negative strobe polarity is in force after the readings `inps`: DIP switch 6 was
seen to open, it has been open since, and the switches that select the keymap have
not moved since the scan in which it opened. -/
def Negative (inps : List Input) : Prop :=
  ∃ pre inp post, inps = pre ++ inp :: post ∧
    dip pre 6 = true ∧ dip (pre ++ [inp]) 6 = false ∧
    ∀ q, q <+: post → dip (pre ++ inp :: q) 6 = false ∧
      dip (pre ++ inp :: q) 0 = dip (pre ++ [inp]) 0 ∧
      dip (pre ++ inp :: q) 1 = dip (pre ++ [inp]) 1

/-- DIP switch `n` was closed at some time. -/
def WasClosed (inps : List Input) (n : Nat) : Prop := ∃ pre, pre <+: inps ∧ dip pre n = true

end Asdf.Spec
