import Verif.Spec.Repeat

/-! # Specification: when fast repeat is in force -/

namespace Asdf.Spec

/-- Fast repeat is in force: at some moment since REPEAT was last released it was pressed while no
repetition of a held key was due within 66 scans. -/
def Fast (h : List RepOp) : Prop :=
  ∃ h1 h2, h = h1 ++ [.repeatDown] ++ h2 ∧ .repeatUp ∉ h2 ∧
    ∀ k, 1 ≤ k → k ≤ 66 → firesAt (repAfter h1) k = false

end Asdf.Spec
