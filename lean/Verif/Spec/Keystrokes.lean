import Verif.Spec.Movers

/-! # Which keys to press for a text

For each character of a keymap: the keys to press and release, one after the other. -/

namespace Asdf.Spec

/-- The keys, without the DIP switches. -/
def keySpots : List (Nat × Nat) := (List.range 8).flatMap fun r => (List.range 8).map fun c => (r, c)

/-- No key is down. -/
def Session.idle (i : UInt8) : Session := ⟨[], ⟨⟨false, false, i == 2, false⟩, none⟩⟩

/-- The first key with this code in a state. -/
def Session.find (i : UInt8) (s : Session) (x : Code) : Option (Nat × Nat) := keySpots.find? fun z => s.code i z == x

/-- A key with this code, or the first key. -/
def modSpot (i : UInt8) (x : Code) : Nat × Nat := ((Session.idle i).find i x).getD (0, 0)

/-- The movements of modifiers before and after a key: none, SHIFT held, CTRL held, both held, or
CAPS LOCK pressed and released, with and without SHIFT. -/
def wraps (i : UInt8) : List (List (Nat × Nat) × List (Nat × Nat)) :=
  let shift := modSpot i 0xA1
  let caps := modSpot i 0xA4
  let ctrl := modSpot i 0xA5
  [([], []), ([shift], [shift]), ([ctrl], [ctrl]), ([shift, ctrl], [ctrl, shift]), ([caps, caps], [caps, caps]),
    ([caps, caps, shift], [shift, caps, caps])]

/-- The movements that type a character. -/
def strokesFor (i : UInt8) (x : Code) : List (Nat × Nat) :=
  ((wraps i).findSome? fun w => (((Session.idle i).moves i w.1).find i x).map fun z => w.1 ++ [z, z] ++ w.2).getD []

/-- The movements that type a text. -/
def spotsFor (i : UInt8) (text : List Code) : List (Nat × Nat) := text.flatMap (strokesFor i)

/-- A text of ASCII characters that are on the keys of keymap `i`. -/
def OnKeymap (i : UInt8) (text : List Code) : Prop := ∀ x ∈ text, x.toNat < 128 ∧ x.toNat ∉ missing i

end Asdf.Spec
