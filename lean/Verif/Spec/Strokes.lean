import Verif.Spec.Typist
import Verif.Spec.Legends
import Verif.Spec.Circuit

/-! # Key strokes on the classic keyboard

A text as a typist types it: key after key, some of them with SHIFT or CTRL held around them. -/

namespace Asdf.Spec

/-- What is read from the matrix while exactly these keys are closed. -/
def keysClosed (l : List Place) : Input := closedKeys classicPlaces fun s => (l.map (·.sw)).contains s

/-- One key stroke: the key, the SHIFT or CTRL key held around it if there is one, and how many
scans each part takes. -/
structure Stroke where
  mod : Option Place
  key : Place
  /-- the modifier alone, before the key -/
  lead : Nat
  /-- the key -/
  hold : Nat
  /-- the modifier alone, after the key -/
  tail : Nat
  /-- nothing, before the next key stroke -/
  gap : Nat
  deriving DecidableEq, Repr

/-- The readings of a key stroke. -/
def Stroke.readings (s : Stroke) : List Input :=
  match s.mod with
  | none => List.replicate s.hold (keysClosed [s.key]) ++ List.replicate s.gap (keysClosed [])
  | some q => List.replicate s.lead (keysClosed [q]) ++ List.replicate s.hold (keysClosed [q, s.key]) ++
      List.replicate s.tail (keysClosed [q]) ++ List.replicate s.gap (keysClosed [])

/-- The keys with characters on the classic keyboard. -/
def charLegends : List Legend := letterLegends ++ digitLegends ++ classicLegends

/-- A clean key stroke that types the character `x`: the key has that character on it, nothing is
shorter than 10 scans, and the key is not held for more than 525 scans.  With CTRL the letters and
`@`, `[`, `\\`, `]` type control characters. -/
def Stroke.Types (s : Stroke) (x : Code) : Prop :=
  s.key ∈ classicPlaces ∧ 10 ≤ s.hold ∧ s.hold ≤ 525 ∧ 10 ≤ s.gap ∧
  ∃ l ∈ charLegends, l.label = s.key.label ∧
    match s.mod with
    | none => x = l.plain
    | some q => q ∈ classicPlaces ∧ 10 ≤ s.lead ∧ 10 ≤ s.tail ∧
        (((q.label = "L_Shift" ∨ q.label = "R_Shift") ∧ x = l.shifted) ∨
          (q.label = "CTRL" ∧ 0x40 ≤ l.plain.toNat ∧ l.plain.toNat ≤ 0x7A ∧ x = l.plain &&& 0x1F))

/-- The readings of a text: key strokes and the characters they type. -/
def strokesRead (ss : List (Stroke × Code)) : List Input := ss.flatMap fun s => s.1.readings

/-- The readings of two key strokes that overlap: `p` is pressed, then `q`, then `p` is released,
then `q`. -/
def rollRead (p q : Place) (n1 n2 n3 n4 : Nat) : List Input :=
  List.replicate n1 (keysClosed [p]) ++ (List.replicate n2 (keysClosed [p, q]) ++
    (List.replicate n3 (keysClosed [q]) ++ List.replicate n4 (keysClosed [])))

/-- The characters that can be typed on the classic keyboard: all of ASCII except `^`, `_` and the
control characters 0x1E and 0x1F. -/
def onKeys (x : Code) : Bool :=
  decide (x.toNat < 0x80) && x != ch '^' && x != ch '_' && x != 0x1E && x != 0x1F

/-- The classic keymaps 0 and 1, selected with DIP switch 1; DIP switches 2, 3 and 4 open. -/
def classicLayout : Layout :=
  { rows := 9, cols := 8, maps := [0, 1], blocked := fun r c => r == 8 && (c == 1 || c == 2 || c == 3) }

end Asdf.Spec
