import Verif.Spec.Letters

/-! # What can be typed and printed -/

namespace Asdf.Spec

/-- Character `x` is on a key of keymap `i` (not on a DIP switch), with some combination
of modifiers. -/
def CanType (i : UInt8) (x : Code) : Prop :=
  ∃ r c shift caps ctrl, r < rowsOf i ∧ r ≠ DIP_ROW ∧ c < colsOf i ∧
    codeUnder shipped i (colsOf i) r c shift caps ctrl = x

/-- The ASCII codes that are not on any key of a keymap: `^` and `_` on the classic
keymaps, small letters on the upper-case keymaps, some control codes, and some of
`` \ ` { | } ~ `` on the last two. -/
def missing (i : UInt8) : List Nat :=
  let small := (List.range 26).map (0x61 + ·)
  match i.toNat with
  | 0 => [30, 31, 0x5E, 0x5F]
  | 1 => [30, 31, 0x5E, 0x5F] ++ small
  | 2 => [0, 28, 29, 30, 31]
  | 3 => [0, 28, 29, 30, 31] ++ small
  | 4 => [31, 0x7B, 0x7C, 0x7D]
  | 5 => [0, 28, 30, 31, 0x5C, 0x60, 0x7C, 0x7E, 0x7F]
  | _ => []

/-- What caps lock should make of a character. -/
def withCaps (x : Code) : Code := if isLetter x then upper x else x

/-- Function `n` of keymap `i` prints a message. -/
def Prints (i : UInt8) (n : Nat) : Prop :=
  ∃ text, (hooksOf (shipped.setup i))[4 + n]? = some (.print text)

instance (i : UInt8) (n : Nat) : Decidable (Prints i n) :=
  match h : (hooksOf (shipped.setup i))[4 + n]? with
  | some (.print text) => isTrue ⟨text, h⟩
  | some .null => isFalse fun ⟨t, e⟩ => by rw [h] at e; cases e
  | some .nullPtr => isFalse fun ⟨t, e⟩ => by rw [h] at e; cases e
  | some .keyscan => isFalse fun ⟨t, e⟩ => by rw [h] at e; cases e
  | some .archReadRow => isFalse fun ⟨t, e⟩ => by rw [h] at e; cases e
  | some .archSendCode => isFalse fun ⟨t, e⟩ => by rw [h] at e; cases e
  | none => isFalse fun ⟨t, e⟩ => by rw [h] at e; cases e

/-- Keymap `i` has a key for function `n`, with some combination of modifiers. -/
def HasFunctionKey (i : UInt8) (n : Nat) : Prop :=
  ∃ r < rowsOf i, ∃ c < colsOf i, ∃ shift caps ctrl,
    decodeAction (codeUnder shipped i (colsOf i) r c shift caps ctrl) = .fn n

end Asdf.Spec
