import Verif.Spec.Typist

/-! # Holding keys

How often a code repeats while keys are held and none is pressed or released. -/

namespace Asdf.Spec

/-- The repetitions in `n` ticks if the first is due with tick `d` (0: never); the others follow after
66 ticks each. -/
def repsIn (d n : Nat) : Nat := if d = 0 ∨ n < d then 0 else 1 + (n - d) / 66

/-- The ticks of one scan: one for every key that is down and read as closed and has the code `x`. -/
def ticksIn (L : Layout) (down : Down) (code : Nat → Nat → Code) (x : Code) (inp : Input) : Nat :=
  (keysOf L).countP fun y => down y.1 y.2 && sample inp y.1 y.2 && decide (code y.1 y.2 = x)

/-- The ticks of several scans. -/
def ticks (L : Layout) (down : Down) (code : Nat → Nat → Code) (x : Code) (more : List Input) : Nat :=
  (more.map (ticksIn L down code x)).sum

/-- During the readings `more` after the readings `pre` no press or release is accepted. -/
def Unmoved (L : Layout) (pre more : List Input) : Prop :=
  ∀ u v, more = u ++ v → ∀ r c, r < L.rows → c < L.cols → downAfter (pre ++ u) r c = downAfter pre r c

end Asdf.Spec
