import Verif.Spec.Typed
import Verif.Spec.Letters

/-! # The characters a host receives -/

namespace Asdf.Spec

/-- What the host receives, in order; `true` marks message characters (which the pause
before each of them announces). -/
def heard : List Event → List (Bool × Code)
  | [] => []
  | .delayMs _ :: .send c :: es => (true, c) :: heard es
  | .send c :: es => (false, c) :: heard es
  | _ :: es => heard es

/-- `x` is the character of a key, under some modifiers, in one of the layout's keymaps. -/
def OnKeyboard (cfg : Config) (L : Layout) (x : Code) : Prop :=
  x.toNat < 0xA0 ∧ ∃ i ∈ L.maps, ∃ r c shift caps ctrl, r < L.rows ∧ c < L.cols ∧
    codeUnder cfg i L.cols r c shift caps ctrl = x

/-- `x` is a character of a message of one of the layout's keymaps. -/
def InMessage (cfg : Config) (L : Layout) (x : Code) : Prop :=
  ∃ i ∈ L.maps, ∃ text, .print text ∈ hooksOf (cfg.setup i) ∧ x ∈ withCR text

/-- Every line feed of a message comes directly after a carriage return. -/
def CrBeforeLf (l : List (Bool × Code)) : Prop :=
  ∀ i, l[i]? = some (true, (0x0A : Code)) →
    ∃ j, i = j + 1 ∧ l[j]? = some (true, (0x0D : Code))

end Asdf.Spec
