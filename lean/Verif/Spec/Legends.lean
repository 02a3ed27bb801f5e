import Verif.Spec.KeyPlaces
import Verif.Spec.Letters

/-! # What the labels on the boards promise -/

namespace Asdf.Spec

/-- The code of a character. -/
def ch (c : Char) : Code := UInt8.ofNat c.toNat

/-- A key with characters on it: what it types alone and with SHIFT. -/
structure Legend where
  label : String
  plain : Code
  shifted : Code
  deriving DecidableEq, Repr

/-- The letters. -/
def letterLegends : List Legend := [
  ⟨"A", ch 'a', ch 'A'⟩, ⟨"B", ch 'b', ch 'B'⟩, ⟨"C", ch 'c', ch 'C'⟩, ⟨"D", ch 'd', ch 'D'⟩,
  ⟨"E", ch 'e', ch 'E'⟩, ⟨"F", ch 'f', ch 'F'⟩, ⟨"G", ch 'g', ch 'G'⟩, ⟨"H", ch 'h', ch 'H'⟩,
  ⟨"I", ch 'i', ch 'I'⟩, ⟨"J", ch 'j', ch 'J'⟩, ⟨"K", ch 'k', ch 'K'⟩, ⟨"L", ch 'l', ch 'L'⟩,
  ⟨"M", ch 'm', ch 'M'⟩, ⟨"N", ch 'n', ch 'N'⟩, ⟨"O", ch 'o', ch 'O'⟩, ⟨"P", ch 'p', ch 'P'⟩,
  ⟨"Q", ch 'q', ch 'Q'⟩, ⟨"R", ch 'r', ch 'R'⟩, ⟨"S", ch 's', ch 'S'⟩, ⟨"T", ch 't', ch 'T'⟩,
  ⟨"U", ch 'u', ch 'U'⟩, ⟨"V", ch 'v', ch 'V'⟩, ⟨"W", ch 'w', ch 'W'⟩, ⟨"X", ch 'x', ch 'X'⟩,
  ⟨"Y", ch 'y', ch 'Y'⟩, ⟨"Z", ch 'z', ch 'Z'⟩]

/-- The numbers 1 to 9. -/
def digitLegends : List Legend := [
  ⟨"1", ch '1', ch '!'⟩, ⟨"2", ch '2', ch '"'⟩, ⟨"3", ch '3', ch '#'⟩, ⟨"4", ch '4', ch '$'⟩,
  ⟨"5", ch '5', ch '%'⟩, ⟨"6", ch '6', ch '&'⟩, ⟨"7", ch '7', ch '\''⟩, ⟨"8", ch '8', ch '('⟩,
  ⟨"9", ch '9', ch ')'⟩]

/-- The other keys with characters of the classic keyboard. -/
def classicLegends : List Legend := [
  ⟨"0", ch '0', ch '0'⟩, ⟨"Dash", ch '-', ch '='⟩, ⟨"Colon", ch ':', ch '*'⟩,
  ⟨"Semicolon", ch ';', ch '+'⟩, ⟨"Comma", ch ',', ch '<'⟩, ⟨"Period", ch '.', ch '>'⟩,
  ⟨"Fwd_Slash", ch '/', ch '?'⟩, ⟨"@(OSI SL)", ch '@', ch '`'⟩, ⟨"Bracket_Open", ch '[', ch '{'⟩,
  ⟨"Bracket_Close", ch ']', ch '}'⟩, ⟨"Backslash", ch '\\', ch '|'⟩, ⟨"Tilde", ch '~', ch '~'⟩,
  ⟨"SPACE", 0x20, 0x20⟩, ⟨"Return", 0x0D, 0x0D⟩, ⟨"Line_Feed", 0x0A, 0x0A⟩, ⟨"TAB", 0x09, 0x09⟩,
  ⟨"ESC", 0x1B, 0x1B⟩, ⟨"Rubout (OSI Break)", 0x7F, 0x7F⟩]

/-- The keys with functions of the classic keyboard. -/
def classicFunctions : List (String × Action) := [
  ("L_Shift", .shift), ("R_Shift", .shift), ("CTRL", .ctrl), ("Caps_Lock", .caps), ("Repeat", .repeat)]

/-- The DIP switches: four keymap bits, one without a function, the function FN_11, the
strobe polarity, autorepeat. -/
def dipFunctions : List (String × Action) := [
  ("DIP 1", .mapsel 1), ("DIP 2", .mapsel 2), ("DIP 3", .mapsel 4), ("DIP 4", .mapsel 8),
  ("DIP 6", .fn 11), ("DIP 7", .strobeSelect), ("DIP 8", .autorepeatSelect)]

/-- The keys of the classic keyboard that do nothing on the classic keymaps. -/
def classicSpare : List String := ["RT Arrow", "LT Arrow", "Spare", "Power Light"]

/-- The other keys with characters of the Sol-20 keyboard. -/
def solLegends : List Legend := [
  ⟨"Zero", ch '0', ch ' '⟩, ⟨"Dash", ch '-', ch '='⟩, ⟨"Caret", ch '^', ch '~'⟩,
  ⟨"AT", ch '@', ch '`'⟩, ⟨"Comma", ch ',', ch '<'⟩, ⟨"Period", ch '.', ch '>'⟩,
  ⟨"Slash", ch '/', ch '?'⟩, ⟨"LT Bracket", ch '[', ch '['⟩, ⟨"RT Bracket", ch ']', ch ']'⟩,
  ⟨"Backslash", ch '\\', ch '\\'⟩, ⟨"Semicolon", ch ';', ch ';'⟩, ⟨"Colon", ch ':', ch ':'⟩,
  ⟨"Spacebar", 0x20, 0x20⟩, ⟨"Return: 1.5x", 0x0D, 0x0D⟩, ⟨"Line Feed", 0x0A, 0x0A⟩,
  ⟨"TAB: 1.25x", 0x09, 0x09⟩, ⟨"ESC: 1.75x", 0x1B, 0x1B⟩, ⟨"DEL", 0x7F, 0x5F⟩,
  ⟨"NP Zero", ch '0', ch '0'⟩, ⟨"NP 1", ch '1', ch '1'⟩, ⟨"NP 2", ch '2', ch '2'⟩,
  ⟨"NP 3", ch '3', ch '3'⟩, ⟨"NP 4", ch '4', ch '4'⟩, ⟨"NP 5", ch '5', ch '5'⟩,
  ⟨"NP 6", ch '6', ch '6'⟩, ⟨"NP 7", ch '7', ch '7'⟩, ⟨"NP 8", ch '8', ch '8'⟩,
  ⟨"NP 9", ch '9', ch '9'⟩, ⟨"NP Dash", ch '-', ch '-'⟩, ⟨"NP period", ch '.', ch '.'⟩,
  ⟨"NP asterisk", ch '*', ch '*'⟩, ⟨"NP plus", ch '+', ch '+'⟩, ⟨"NP divide", ch '/', ch '/'⟩,
  -- the function keys of the Sol-20
  ⟨"Mode Select: 1.75x", 0x80, 0x80⟩, ⟨"LT Arrow", 0x81, 0x81⟩, ⟨"Clear", 0x8B, 0x8B⟩,
  ⟨"Load", 0x8C, 0x8C⟩, ⟨"Home", 0x8E, 0x8E⟩, ⟨"RT Arrow", 0x93, 0x93⟩, ⟨"Up Arrow", 0x97, 0x97⟩,
  ⟨"Down Arrow", 0x9A, 0x9A⟩]

/-- The keys with functions of the Sol-20 keyboard. -/
def solFunctions : List (String × Action) := [
  ("LT Ctrl", .ctrl), ("RT Ctrl", .ctrl), ("LT Shift: 1.5x", .shift), ("RT Shift: 2x", .shift),
  ("Shift Lock: 1.5x", .shiftlockOn), ("Upper Case: 1.5x", .caps), ("BREAK", .virt VOUT2),
  ("Local", .virt VOUT3)]

/-- With any modifiers, the key does this. -/
def does (i : UInt8) (p : Place) (a : Action) : Prop :=
  ∀ shift caps ctrl, decodeAction (codeUnder shipped i 8 p.row p.col shift caps ctrl) = a

instance (i : UInt8) (p : Place) (a : Action) : Decidable (does i p a) :=
  by unfold does; infer_instance

/-- The key types the characters of its legend; caps lock changes the letters. -/
def types (i : UInt8) (p : Place) (x : Legend) : Prop :=
  codeUnder shipped i 8 p.row p.col false false false = x.plain ∧
  (∀ caps, codeUnder shipped i 8 p.row p.col true caps false = x.shifted) ∧
  codeUnder shipped i 8 p.row p.col false true false = if isLetter x.plain then x.shifted else x.plain

instance (i : UInt8) (p : Place) (x : Legend) : Decidable (types i p x) :=
  by unfold types; infer_instance

end Asdf.Spec
