import Verif.Spec.Queue

/-! # Reservations of any size, negative sizes included -/

namespace Asdf.Spec

/-- The caller asks for `k` elements when `g` are the sizes granted so far: the request is granted
while there are fewer than four buffers and the sizes add up to at most 144. -/
def grant (g : List Int) (k : Int) : List Int :=
  if g.length < 4 ∧ g.sum + k ≤ 144 then g ++ [k] else g

/-- The sizes granted after one more call. -/
def granted (g : List Int) : BufOp → List Int
  | .init => []
  | .new k => grant g k
  | _ => g

/-- The sizes granted by a sequence of calls since the last initialisation. -/
def grants (ops : List BufOp) : List Int := ops.foldl granted []

/-- A request is granted although the sizes granted before add up to less than nothing: its buffer
would begin before the pool. -/
def Overdraws (g : List Int) (k : Int) : Prop := g.length < 4 ∧ g.sum < 0 ∧ g.sum + k ≤ 144

instance (g : List Int) (k : Int) : Decidable (Overdraws g k) :=
  inferInstanceAs (Decidable (_ ∧ _ ∧ _))

/-- The sizes asked for are numbers of type `int16_t`. -/
def BufOp.int16 : BufOp → Prop
  | .new k => -32768 ≤ k ∧ k ≤ 32767
  | _ => True

end Asdf.Spec
