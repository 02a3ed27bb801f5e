import Verif.Spec.Typist

/-! # Typing text without care for the modifiers

As in `Spec/Typist.lean`, but SHIFT, CTRL and the locks are pressed and released at any time, also
while keys with characters are down.  The typist has to observe one thing: a character is not typed
twice in a row if the key of the first was released under other modifiers than those it was pressed
with. -/

namespace Asdf.Spec

/-- The modifiers, and the character typed last with its key; the latter until a key with that
character is released. -/
structure Hand where
  mods : ModKeys
  last : Option ((Nat × Nat) × Code)
  deriving DecidableEq

/-- One key in one scan: was it down before, and is it down after. -/
def Hand.key (cfg : Config) (L : Layout) (i : UInt8) (h : Hand) (before after : Bool) (x : Nat × Nat) : Hand :=
  let code := h.mods.code cfg L i x.1 x.2
  if before = after then h
  else if isModCode code then { h with mods := h.mods.event code after }
  else if after then { h with last := some (x, code) }
  else { h with last := h.last.filter fun y => y.2 != code }

/-- What a typist has to observe at one key in one scan. -/
structure Hand.Tidy (cfg : Config) (L : Layout) (i : UInt8) (h : Hand) (before after : Bool) (x : Nat × Nat) : Prop where
  /-- a key that is pressed is a modifier key, or it has a character and this was not typed last -/
  press : before = false → after = true → IsModKey cfg L i x.1 x.2 ∨
      (h.mods.code cfg L i x.1 x.2).toNat < 0xA0 ∧ ∀ y ∈ h.last, y.2 ≠ h.mods.code cfg L i x.1 x.2
  /-- a key that is released has no function other than a modifier -/
  release : before = true → after = false → IsModKey cfg L i x.1 x.2 ∨ (h.mods.code cfg L i x.1 x.2).toNat ≤ 0xA0
  /-- no other key that is held has the character that was typed last -/
  hold : before = true → after = true →
    (∀ y ∈ h.last, y.2 = h.mods.code cfg L i x.1 x.2 → y.1 = x) ∧
      (h.last = none → h.mods.code cfg L i x.1 x.2 ≠ 0xA0)

/-- One scan: the keys down before and after it. -/
def tidyKeys (cfg : Config) (L : Layout) (i : UInt8) (before after : Down) : List (Nat × Nat) → Hand → Prop
  | [], _ => True
  | x :: xs, h => h.Tidy cfg L i (before x.1 x.2) (after x.1 x.2) x ∧
      tidyKeys cfg L i before after xs (h.key cfg L i (before x.1 x.2) (after x.1 x.2) x)

/-- The modifiers and the last character after the scan. -/
def handAfter (cfg : Config) (L : Layout) (i : UInt8) (before after : Down) (keys : List (Nat × Nat)) (h : Hand) : Hand :=
  keys.foldl (fun h x => h.key cfg L i (before x.1 x.2) (after x.1 x.2) x) h

/-- Every scan is tidy. -/
def Tidy (cfg : Config) (L : Layout) (i : UInt8) : Hand → List Input → List Input → Prop
  | _, _, [] => True
  | h, pre, inp :: more =>
    tidyKeys cfg L i (downAfter pre) (downAfter (pre ++ [inp])) (keysOf L) h ∧
      Tidy cfg L i (handAfter cfg L i (downAfter pre) (downAfter (pre ++ [inp])) (keysOf L) h) (pre ++ [inp]) more

end Asdf.Spec
