import Verif.Spec.Machine
import Verif.Spec.Tables

/-! # Letters -/

namespace Asdf.Spec

def isLetter (x : Code) : Bool :=
  (0x41 ≤ x.toNat && x.toNat ≤ 0x5A) || (0x61 ≤ x.toNat && x.toNat ≤ 0x7A)

/-- The upper-case form of a letter. -/
def upper (x : Code) : Code := if 0x61 ≤ x.toNat then x - 0x20 else x

/-- What a letter key types: a control code with CTRL, the capital with SHIFT or caps
lock, otherwise the letter on the keymap. -/
def letterCode (x : Code) (shift caps ctrl : Bool) : Code :=
  if ctrl then x &&& 0x1F else if shift || caps then upper x else x

/-- The Apple II exceptions: SHIFT-P is `@`, SHIFT-N is `^`, on the upper-case Apple
keymap. -/
def appleException (i : UInt8) (x : Code) : Bool := i == 3 && (x == 0x50 || x == 0x4E)

/-- The entry of the table for the given modifiers. -/
def codeUnder (cfg : Config) (i : UInt8) (cols r c : Nat) (shift caps ctrl : Bool) : Code :=
  entryAt ((tablesOf cfg i)[tableFor shift caps ctrl]?.getD []) cols r c

/-- The number of columns of a shipped keymap. -/
def colsOf (i : UInt8) : Nat := match shippedMaps i with
  | e :: _ => e.cols.toNat
  | [] => 0

/-- The number of rows of a shipped keymap. -/
def rowsOf (i : UInt8) : Nat := match shippedMaps i with
  | e :: _ => e.rows.toNat
  | [] => 0

end Asdf.Spec
