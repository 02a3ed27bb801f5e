import Verif.Model.CLang

/-! # From C text to tokens

The first phases of translation of C: line splicing, comments, and the decomposition of the
text into tokens.  Characters are bytes.  Everything in this file models the language, not a
part of `/repo`; the text itself is in `Model/CText.lean`.

Only the tokens that occur in the firmware are recognised: names, decimal and hexadecimal
constants with an optional suffix `L`, characters, strings and operators.  Anything else
becomes `Tok.bad`, which no later phase accepts. -/

namespace Asdf.C

/-- A name or an operator, as a number: its bytes, base 256. -/
abbrev Name := Nat

/-- Tokens. -/
inductive Tok where
  | id (x : Name)
  /-- an integer constant; `long`: with suffix `L` -/
  | num (n : Nat) (long : Bool)
  | chr (n : Nat)
  | str (l : List Nat)
  | op (o : Nat)
  /-- `(` directly after a name: in `#define` it begins the parameters -/
  | paren
  /-- end of a line -/
  | nl
  /-- a constant that a macro stands for -/
  | cst (t : Ity) (n : Int)
  | bad
  deriving DecidableEq, Repr

/-- The bytes of a line given as a number (its bytes, base 256; no byte is zero). -/
def lineBytes : (fuel : Nat) → Nat → List Nat → List Nat
  | 0, _, l => l
  | k + 1, n, l => bif Nat.beq n 0 then l else lineBytes k (Nat.div n 256) (Nat.mod n 256 :: l)

/-- The bytes of a text given line by line; no line has more than 300 bytes. -/
def bytes : List Nat → List Nat
  | [] => []
  | n :: l => lineBytes 300 n (10 :: bytes l)

/-- The number of a name given by its bytes. -/
def nameOf (l : List Nat) : Name := l.foldl (fun n c => n * 256 + c) 0

/-- Letters and the underscore. -/
def isLetter (c : Nat) : Bool :=
  bif Nat.ble 97 c then Nat.ble c 122 else bif Nat.ble 65 c then Nat.ble c 90 || Nat.beq c 95 else false

/-- Digits. -/
def isDigit (c : Nat) : Bool := bif Nat.ble 48 c then Nat.ble c 57 else false

/-- Space, tabulator, carriage return. -/
def isSpace (c : Nat) : Bool := Nat.beq c 32 || Nat.beq c 9 || Nat.beq c 13

/-- The value of a hexadecimal digit. -/
def hexDigit (c : Nat) : Option Nat :=
  bif isDigit c then some (c - 48)
  else bif Nat.ble 97 c && Nat.ble c 102 then some (c - 87)
  else bif Nat.ble 65 c && Nat.ble c 70 then some (c - 55)
  else none

/-- The character that `\c` stands for. -/
def escape (c : Nat) : Option Nat :=
  bif Nat.beq c 110 then some 10        -- \n
  else bif Nat.beq c 114 then some 13   -- \r
  else bif Nat.beq c 116 then some 9    -- \t
  else bif Nat.beq c 48 then some 0     -- \0
  else bif Nat.beq c 92 then some 92    -- \\
  else bif Nat.beq c 39 then some 39    -- \'
  else bif Nat.beq c 34 then some 34    -- \"
  else none

/-- The operators of more than one character: `##` `<<` `>>` `++` `--` `<=` `>=` `==` `!=` `&&`
`||` `+=` `-=` `*=` `/=` `%=` `&=` `|=` `^=` `->`, and `..` as a beginning of `...`. -/
def longOps : List Nat :=
  [0x2323, 0x3C3C, 0x3E3E, 0x2B2B, 0x2D2D, 0x3C3D, 0x3E3D, 0x3D3D, 0x213D, 0x2626, 0x7C7C, 0x2B3D, 0x2D3D,
   0x2A3D, 0x2F3D, 0x253D, 0x263D, 0x7C3D, 0x5E3D, 0x2D3E, 0x2E2E, 0x2E2E2E, 0x3C3C3D, 0x3E3E3D]

/-- Is the number in the list? -/
def elemNat (n : Nat) : List Nat → Bool
  | [] => false
  | m :: l => bif Nat.beq n m then true else elemNat n l

/-- What is being read. -/
inductive Mode where
  | gap
  /-- directly after a name -/
  | word (x : Name)
  /-- a constant that began with `0` -/
  | zero
  | dec (n : Nat)
  | hex (n : Nat)
  /-- after the suffix of a constant -/
  | suffix (n : Nat)
  | op (o : Nat)
  /-- `\`, perhaps followed by spaces -/
  | splice
  | chr0
  | chrEsc
  | chr1 (c : Nat)
  | str (l : List Nat)
  | strEsc (l : List Nat)
  /-- `//` comment; `esc`: the last character was `\` -/
  | line (esc : Bool)
  | block
  /-- after `*` in a comment -/
  | star

/-- State of the decomposition: what is being read, the tokens so far (the last one first). -/
structure LexSt where
  mode : Mode
  out : List Tok

/-- The end of a line; empty lines do not matter. -/
def newline (out : List Tok) : LexSt :=
  match out with
  | .nl :: _ => ⟨.gap, out⟩
  | _ => ⟨.gap, .nl :: out⟩

/-- The first character of a token. -/
def begin (c : Nat) (out : List Tok) : LexSt :=
  bif isSpace c then ⟨.gap, out⟩
  else bif isLetter c then ⟨.word c, out⟩
  else bif Nat.beq c 10 then newline out
  else bif Nat.beq c 48 then ⟨.zero, out⟩
  else bif isDigit c then ⟨.dec (c - 48), out⟩
  else bif Nat.beq c 34 then ⟨.str [], out⟩
  else bif Nat.beq c 39 then ⟨.chr0, out⟩
  else bif Nat.beq c 92 then ⟨.splice, out⟩
  else ⟨.op c, out⟩

/-- After a constant `n`. -/
def endNum (n c : Nat) (out : List Tok) : LexSt :=
  bif Nat.beq c 76 then ⟨.suffix n, out⟩
  else bif isLetter c || isDigit c then ⟨.gap, .bad :: out⟩
  else begin c (.num n false :: out)

/-- One more character. -/
def lexStep (m : Mode) (c : Nat) (out : List Tok) : LexSt :=
  match m with
  | .gap => begin c out
  | .word x =>
    bif isLetter c || isDigit c then ⟨.word (x * 256 + c), out⟩
    else bif Nat.beq c 40 then ⟨.gap, .paren :: .id x :: out⟩
    else begin c (.id x :: out)
  | .zero => bif Nat.beq c 120 || Nat.beq c 88 then ⟨.hex 0, out⟩ else endNum 0 c out
  | .dec n => bif isDigit c then ⟨.dec (n * 10 + (c - 48)), out⟩ else endNum n c out
  | .hex n =>
    match hexDigit c with
    | some d => ⟨.hex (n * 16 + d), out⟩
    | none => endNum n c out
  | .suffix n =>
    bif isLetter c || isDigit c then ⟨.gap, .bad :: out⟩ else begin c (.num n true :: out)
  | .op o =>
    bif Nat.beq o 47 && Nat.beq c 47 then ⟨.line false, out⟩
    else bif Nat.beq o 47 && Nat.beq c 42 then ⟨.block, out⟩
    else bif isLetter c || isSpace c then begin c (.op o :: out)
    else bif elemNat (o * 256 + c) longOps then ⟨.op (o * 256 + c), out⟩
    else begin c (.op o :: out)
  | .splice =>
    bif Nat.beq c 10 then ⟨.gap, out⟩ else bif isSpace c then ⟨.splice, out⟩ else ⟨.gap, .bad :: out⟩
  | .chr0 => bif Nat.beq c 92 then ⟨.chrEsc, out⟩ else ⟨.chr1 c, out⟩
  | .chrEsc =>
    match escape c with
    | some d => ⟨.chr1 d, out⟩
    | none => ⟨.gap, .bad :: out⟩
  | .chr1 d => bif Nat.beq c 39 then ⟨.gap, .chr d :: out⟩ else ⟨.gap, .bad :: out⟩
  | .str l =>
    bif Nat.beq c 34 then ⟨.gap, .str l.reverse :: out⟩
    else bif Nat.beq c 92 then ⟨.strEsc l, out⟩
    else bif Nat.beq c 10 then ⟨.gap, .bad :: out⟩
    else ⟨.str (c :: l), out⟩
  | .strEsc l =>
    match escape c with
    | some d => ⟨.str (d :: l), out⟩
    | none => ⟨.gap, .bad :: out⟩
  | .line esc =>
    bif Nat.beq c 10 then (bif esc then ⟨.line false, out⟩ else newline out)
    else ⟨.line (Nat.beq c 92), out⟩
  | .block => bif Nat.beq c 42 then ⟨.star, out⟩ else ⟨.block, out⟩
  | .star =>
    bif Nat.beq c 47 then ⟨.gap, out⟩ else bif Nat.beq c 42 then ⟨.star, out⟩ else ⟨.block, out⟩

/-- All characters; a text ends with the end of a line outside of any token or comment. -/
def lexFrom : List Nat → Mode → List Tok → List Tok
  | [], .gap, out => out.reverse
  | [], _, _ => [.bad]
  | c :: l, m, out =>
    match lexStep m c out with
    | ⟨m', out'⟩ => lexFrom l m' out'

/-- The tokens of a text. -/
def lex (l : List Nat) : List Tok := lexFrom l .gap []

end Asdf.C
