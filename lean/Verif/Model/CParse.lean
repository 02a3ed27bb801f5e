import Verif.Model.CNameTable

/-! # From tokens to programs

Parsing and preprocessing of the part of C that the firmware is written in.  The result is a
list of definitions in the syntax of `Model/CLang.lean`.  Everything in this file models the
language and its compiler (avr-gcc with avr-libc), not a part of `/repo`.

What is read but has no meaning here: `static`, `const`, `volatile`, `inline` and `PROGMEM`
(except that a two-dimensional `const` array of bytes is a table, `Expr.tab`), the types of
the parameters in function types, and casts to pointer types.  In the hardware layer
(`hw := true`) every access to a register, to a static variable of the file or through a
pointer becomes a call of `io_read` or `io_write`.

Macros that stand for a constant are replaced by its value, computed with the meaning that
`Model/CLang.lean` gives to constants and operators.  A function has to be declared before it
is used.  Whatever is not understood makes the whole translation fail. -/

namespace Asdf.C

/-! ## Tables of names -/

/-- A table with numbers as keys: a binary tree over the bits of the key modulo 1021. -/
inductive Trie (α : Type) where
  | leaf (l : List (Nat × α))
  | node (a b : Trie α)

variable {α : Type}

/-- Search in a list. -/
def assoc (x : Nat) : List (Nat × α) → Option α
  | [] => none
  | (y, v) :: l => bif Nat.beq y x then some v else assoc x l

/-- Search in a table; `h` is what is left of the hash of `x`. -/
def Trie.find (x : Nat) : Nat → Trie α → Option α
  | _, .leaf l => assoc x l
  | h, .node a b => bif Nat.beq (Nat.mod h 2) 0 then a.find x (Nat.div h 2) else b.find x (Nat.div h 2)

/-- Search in a table. -/
def Trie.get (t : Trie α) (x : Nat) : Option α := t.find x (Nat.mod x 1021)

/-- Add an entry, which hides older ones. -/
def Trie.insert (x : Nat) (v : α) : (depth h : Nat) → Trie α → Trie α
  | 0, _, .leaf l => .leaf ((x, v) :: l)
  | d + 1, h, .leaf l =>
    match l with
    | [] =>
      bif Nat.beq (Nat.mod h 2) 0 then .node (Trie.insert x v d (Nat.div h 2) (.leaf [])) (.leaf [])
      else .node (.leaf []) (Trie.insert x v d (Nat.div h 2) (.leaf []))
    | l => .leaf ((x, v) :: l)
  | 0, _, .node a b => .node a b
  | d + 1, h, .node a b =>
    bif Nat.beq (Nat.mod h 2) 0 then .node (a.insert x v d (Nat.div h 2)) b
    else .node a (b.insert x v d (Nat.div h 2))

/-- Add an entry. -/
def Trie.put (t : Trie α) (x : Nat) (v : α) : Trie α := t.insert x v 8 (Nat.mod x 1021)

/-- The empty table. -/
def Trie.empty : Trie α := .leaf []

/-- A table with these entries. -/
def Trie.of (l : List (Nat × α)) : Trie α := l.foldl (fun t e => t.put e.1 e.2) .empty

/-- The functions. -/
def tableF : Trie F := Trie.of namesF
/-- The static objects. -/
def tableG : Trie G := Trie.of namesG
/-- The registers. -/
def tableR : Trie R := Trie.of namesR
/-- The local variables. -/
def tableL : Trie L := Trie.of namesL
/-- The members of structures. -/
def tableFld : Trie Fld := Trie.of namesFld

/-! ## Types and contexts -/

/-- Types. -/
inductive CTy where
  | void
  | int (t : Ity)
  | ptr (t : CTy)
  | func
  | arr (t : CTy) (n : Option Int)
  /-- pointer to a row of so many entries -/
  | mat (cols : Expr)
  | row
  | struct (l : List (Name × CTy))
  | other

/-- What a name of file scope means. -/
inductive Glob where
  | obj (g : G) (t : CTy)
  | table (t : List Code) (cols : Int)
  /-- a static variable of the hardware layer -/
  | var (r : R)

/-- What has been declared. -/
structure Ctx where
  /-- is this the hardware layer? -/
  hw : Bool
  types : Trie CTy
  enums : Trie Int
  globs : Trie Glob
  funs : Trie F
  locals : List (Name × CTy)

/-- An operand: its type; its value; the object it designates; the address in the hardware
layer; the function it names; the table it names. -/
structure Opd where
  ty : CTy
  val : Option Expr
  lv : Option LExpr := none
  io : Option Expr := none
  fn : Option F := none
  tab : Option (List Code) := none

/-- An operand that is only a value. -/
def Opd.of (e : Option Expr) : Opd := { ty := .other, val := e }

/-- Read a register. -/
def ioRead (a : Expr) : Expr := .call .io_read (.cons a .nil)

/-- Write a register. -/
def ioWrite (a e : Expr) : Expr := .call .io_write (.cons a (.cons e .nil))

/-! ## Constants -/

/-- The value of a constant expression. -/
def constVal (e : Expr) : Option (Ity × Int) :=
  match e with
  | .num n => some (.i16, n)
  | .lit t n => some (t, n)
  | e =>
    match evalE (ι := Unit) (fun _ _ _ => .err .badCall) e ⟨fun _ => .leaf .unit, [], ()⟩ with
    | .ok (.int t n) _ => some (t, n)
    | _ => none

/-- The constant with this value. -/
def constExpr : Ity → Int → Expr
  | .i16, n => .num n
  | t, n => .lit t n

/-- An integer constant: `int` if it fits, `long` if it says so. -/
def constTok (n : Nat) (long : Bool) : Option Expr :=
  match long with
  | true => some (.lit .i32 n)
  | false => bif Nat.ble n 32767 then some (.num n) else none

/-- The value of an integer operand. -/
def intOf (e : Expr) : Option Int := (constVal e).map (·.2)

/-! ## Operators -/

/-- Binary operators: how strongly they bind, and what they are. -/
def binPrec (o : Nat) : Nat :=
  bif Nat.beq o 0x7C7C then 1 else bif Nat.beq o 0x2626 then 2 else bif Nat.beq o 0x7C then 3
  else bif Nat.beq o 0x5E then 4 else bif Nat.beq o 0x26 then 5
  else bif Nat.beq o 0x3D3D || Nat.beq o 0x213D then 6
  else bif Nat.beq o 0x3C || Nat.beq o 0x3E || Nat.beq o 0x3C3D || Nat.beq o 0x3E3D then 7
  else bif Nat.beq o 0x3C3C || Nat.beq o 0x3E3E then 8
  else bif Nat.beq o 0x2B || Nat.beq o 0x2D then 9
  else bif Nat.beq o 0x2A || Nat.beq o 0x2F || Nat.beq o 0x25 then 10
  else 0

/-- The operators `| ^ & == != < > <= >= << >> + - * / %`. -/
def binOps : List (Nat × BinOp) :=
  [(0x7C, .bor), (0x5E, .bxor), (0x26, .band), (0x3D3D, .eq), (0x213D, .ne), (0x3C, .lt), (0x3E, .gt),
   (0x3C3D, .le), (0x3E3D, .ge), (0x3C3C, .shl), (0x3E3E, .shr), (0x2B, .add), (0x2D, .sub), (0x2A, .mul),
   (0x2F, .div), (0x25, .mod)]

/-- The assignments `+= -= *= /= %= &= |= ^= <<= >>=`. -/
def assignOps : List (Nat × BinOp) :=
  [(0x2B3D, .add), (0x2D3D, .sub), (0x2A3D, .mul), (0x2F3D, .div), (0x253D, .mod), (0x263D, .band),
   (0x7C3D, .bor), (0x5E3D, .bxor), (0x3C3C3D, .shl), (0x3E3E3D, .shr)]

/-- `a o b`. -/
def mkBin (o : Nat) (a b : Opd) : Option Opd := do
  let x ← a.val
  let y ← b.val
  bif Nat.beq o 0x7C7C then some (.of (some (.or x y)))
  else bif Nat.beq o 0x2626 then some (.of (some (.and x y)))
  else do
    let op ← assoc o binOps
    some (.of (some (.bin op x y)))

/-- `a = b`. -/
def mkAssign (a b : Opd) : Option Opd := do
  let y ← b.val
  match a.io with
  | some x => some (.of (some (ioWrite x y)))
  | none => do
    let l ← a.lv
    some (.of (some (.assign l y)))

/-- `a op= b`. -/
def mkUpdate (op : BinOp) (a b : Opd) : Option Opd := do
  let y ← b.val
  match a.io with
  | some x => some (.of (some (ioWrite x (.bin op (ioRead x) y))))
  | none => do
    let l ← a.lv
    some (.of (some (.update op l y)))

/-- `a++` and `a--`. -/
def mkPost (op : BinOp) (a : Opd) : Option Opd :=
  match a.io, a.lv with
  | none, some l => some (.of (some (.post op l)))
  | _, _ => none

/-- `*a`. -/
def mkDeref (hw : Bool) (a : Opd) : Option Opd := do
  let x ← a.val
  match a.ty with
  | .func => some { a with fn := none }
  | .ptr .func => some { ty := .func, val := some x }
  | .ptr t =>
    bif hw then some { ty := t, val := some (ioRead x), io := some x }
    else some { ty := t, val := some (.load (.deref x)), lv := some (.deref x) }
  | _ => none

/-- `&a`. -/
def mkAddr (a : Opd) : Option Opd :=
  match a.fn, a.tab, a.io, a.lv with
  | some f, _, _, _ => some { ty := .ptr .func, val := some (.fn f) }
  | _, some t, _, _ => some { ty := .other, val := none, tab := some t }
  | _, _, some x, _ => some { ty := .ptr a.ty, val := some x }
  | _, _, _, some l => some { ty := .ptr a.ty, val := some (.addr l) }
  | _, _, _, _ => none

/-- `a[i]`. -/
def mkIndex (a i : Opd) : Option Opd := do
  let y ← i.val
  match a.ty with
  | .arr t _ => do
    let l ← a.lv
    some { ty := t, val := some (.load (.idx l y)), lv := some (.idx l y) }
  | .mat _ => do
    let x ← a.val
    some { ty := .row, val := some (.row x y) }
  | .row => do
    let x ← a.val
    some { ty := .int .u8, val := some (.load (.pidx x y)), lv := some (.pidx x y) }
  | .ptr t => do
    let x ← a.val
    some { ty := t, val := some (.load (.pidx x y)), lv := some (.pidx x y) }
  | _ => none

/-- `a.f`. -/
def mkMember (a : Opd) (f : Name) : Option Opd :=
  match a.ty with
  | .struct l => do
    let t ← assoc f l
    let g ← tableFld.get f
    let x ← a.lv
    some { ty := t, val := some (.load (.fld x g)), lv := some (.fld x g) }
  | _ => none

/-- `f(args)`. -/
def mkCall (f : Opd) (args : Args) : Option Opd :=
  match f.fn with
  | some g => some (.of (some (.call g args)))
  | none => do
    let x ← f.val
    some (.of (some (.callp x args)))

/-- `(t) a`. -/
def mkCast (t : CTy) (a : Opd) : Option Opd := do
  let x ← a.val
  match t with
  | .int i => some { ty := t, val := some (.cast i x) }
  | .ptr _ => some { ty := t, val := some x }
  | .mat _ => some { ty := t, val := some x }
  | .void => some { ty := t, val := some x }
  | _ => none

/-- A name in an expression. -/
def mkName (c : Ctx) (x : Name) : Option Opd :=
  match assoc x c.locals with
  | some t => do
    let v ← tableL.get x
    some { ty := t, val := some (.load (.var v)), lv := some (.var v) }
  | none =>
    match c.enums.get x with
    | some n => some (.of (some (.num n)))
    | none =>
      match c.globs.get x with
      | some (.obj g t) => some { ty := t, val := some (.load (.obj g)), lv := some (.obj g) }
      | some (.table t n) => some { ty := .mat (.num n), val := some (.tab t n), tab := some t }
      | some (.var r) => some { ty := .int .u8, val := some (ioRead (.reg r)), io := some (.reg r) }
      | none =>
        match c.funs.get x with
        | some f => some { ty := .func, val := some (.fn f), fn := some f }
        | none => none

/-! ## Expressions -/

/-- `NULL` -/
abbrev kNull : Name := 0x4E554C4C
/-- `const` -/
abbrev kConst : Name := 0x636F6E7374
/-- `static` -/
abbrev kStatic : Name := 0x737461746963
/-- `PROGMEM` -/
abbrev kProgmem : Name := 0x50524F474D454D
/-- `volatile` -/
abbrev kVolatile : Name := 0x766F6C6174696C65
/-- `inline` -/
abbrev kInline : Name := 0x696E6C696E65
/-- `void` -/
abbrev kVoid : Name := 0x766F6964
/-- `struct` -/
abbrev kStruct : Name := 0x737472756374
/-- `enum` -/
abbrev kEnum : Name := 0x656E756D
/-- `typedef` -/
abbrev kTypedef : Name := 0x74797065646566
/-- `if` -/
abbrev kIf : Name := 0x6966
/-- `else` -/
abbrev kElse : Name := 0x656C7365
/-- `while` -/
abbrev kWhile : Name := 0x7768696C65
/-- `for` -/
abbrev kFor : Name := 0x666F72
/-- `switch` -/
abbrev kSwitch : Name := 0x737769746368
/-- `case` -/
abbrev kCase : Name := 0x63617365
/-- `default` -/
abbrev kDefault : Name := 0x64656661756C74
/-- `break` -/
abbrev kBreak : Name := 0x627265616B
/-- `return` -/
abbrev kReturn : Name := 0x72657475726E
/-- `include` -/
abbrev kInclude : Name := 0x696E636C756465
/-- `define` -/
abbrev kDefine : Name := 0x646566696E65
/-- `defined` -/
abbrev kDefined : Name := 0x646566696E6564
/-- `endif` -/
abbrev kEndif : Name := 0x656E646966

/-- The next token has to be this operator. -/
def eat (o : Nat) : List Tok → Option (List Tok)
  | .op p :: ts => bif Nat.beq p o then some ts else none
  | _ => none

/-- Is the next token this operator? -/
def isOp (o : Nat) : List Tok → Bool
  | .op p :: _ => Nat.beq p o
  | _ => false

/-- Is the next token this name? -/
def isId (x : Name) : List Tok → Bool
  | .id y :: _ => Nat.beq x y
  | _ => false

/-- `static`, `volatile`, `inline` and `PROGMEM`. -/
def isQual (x : Name) : Bool :=
  Nat.beq x kStatic || Nat.beq x kProgmem || Nat.beq x kVolatile || Nat.beq x kInline

/-- Skip qualifiers; is `const` among them? -/
def quals : Bool → List Tok → Bool × List Tok
  | k, .id x :: ts =>
    bif Nat.beq x kConst then quals true ts else bif isQual x then quals k ts else (k, .id x :: ts)
  | k, ts => (k, ts)

/-- Does a type begin here? -/
def isType (c : Ctx) : List Tok → Bool
  | .id x :: _ =>
    Nat.beq x kConst || isQual x || Nat.beq x kVoid ||
      (match c.types.get x with | some _ => (assoc x c.locals).isNone | none => false)
  | _ => false

/-- A type without a declarator, with the qualifiers around it; is it `const`? -/
def baseTy (c : Ctx) (ts : List Tok) : Option (Bool × CTy × List Tok) :=
  match quals false ts with
  | (k, .id x :: ts) => do
    let t ← bif Nat.beq x kVoid then some .void else c.types.get x
    let (k, ts) := quals k ts
    some (k, t, ts)
  | _ => none

/-- The stars of a declarator. -/
def stars : CTy → List Tok → CTy × List Tok
  | t, .op o :: ts =>
    bif Nat.beq o 0x2A then stars (.ptr t) ts else (t, .op o :: ts)
  | t, .id x :: ts => bif Nat.beq x kConst then stars t ts else (t, .id x :: ts)
  | t, ts => (t, ts)

/-- Skip what is in parentheses; `d` of them are open. -/
def skipParen : Nat → List Tok → Option (List Tok)
  | d, .op o :: ts =>
    bif Nat.beq o 0x28 then skipParen (d + 1) ts
    else bif Nat.beq o 0x29 then (bif Nat.beq d 1 then some ts else skipParen (Nat.pred d) ts)
    else skipParen d ts
  | d, _ :: ts => skipParen d ts
  | _, [] => none

/-- A name, if there is one. -/
def optName : List Tok → Name × List Tok
  | .id x :: ts => (x, ts)
  | ts => (0, ts)

mutual

/-- Unary expressions. -/
def unary : (fuel : Nat) → Ctx → List Tok → Option (Opd × List Tok)
  | 0, _, _ => none
  | k + 1, c, ts =>
    match ts with
    | .op o :: rest =>
      bif Nat.beq o 0x28 then
        bif isType c rest then do
          let (_, t, ts) ← baseTy c rest
          let (_, t, ts) ← declr k c t ts
          let ts ← eat 0x29 ts
          let (a, ts) ← unary k c ts
          let r ← mkCast t a
          some (r, ts)
        else do
          let (a, ts) ← expr k c rest
          let ts ← eat 0x29 ts
          postfix_ k c a ts
      else do
        let (a, ts) ← unary k c rest
        bif Nat.beq o 0x21 then do
          let x ← a.val
          some (.of (some (.un .not x)), ts)
        else bif Nat.beq o 0x7E then do
          let x ← a.val
          some (.of (some (.un .bnot x)), ts)
        else bif Nat.beq o 0x2D then do
          let x ← a.val
          some (.of (some (.un .neg x)), ts)
        else bif Nat.beq o 0x2A then do
          let r ← mkDeref c.hw a
          some (r, ts)
        else bif Nat.beq o 0x26 then do
          let r ← mkAddr a
          some (r, ts)
        else bif Nat.beq o 0x2B2B then do
          let r ← mkUpdate .add a (.of (some (.num 1)))
          some (r, ts)
        else bif Nat.beq o 0x2D2D then do
          let r ← mkUpdate .sub a (.of (some (.num 1)))
          some (r, ts)
        else none
    | .num n long :: rest => do
      let e ← constTok n long
      some (.of (some e), rest)
    | .cst t n :: rest => some (.of (some (constExpr t n)), rest)
    | .chr n :: rest => some (.of (some (.num n)), rest)
    | .str l :: rest => some ({ ty := .ptr (.int .i8), val := some (.str (l.map UInt8.ofNat)) }, rest)
    | .id x :: rest =>
      bif Nat.beq x kNull then some ({ ty := .ptr .void, val := some .null }, rest)
      else do
        let a ← mkName c x
        postfix_ k c a rest
    | _ => none

/-- What follows a primary expression. -/
def postfix_ : (fuel : Nat) → Ctx → Opd → List Tok → Option (Opd × List Tok)
  | 0, _, _, _ => none
  | k + 1, c, a, ts =>
    match ts with
    | .op o :: rest =>
      bif Nat.beq o 0x5B then do
        let (i, ts) ← expr k c rest
        let ts ← eat 0x5D ts
        let r ← mkIndex a i
        postfix_ k c r ts
      else bif Nat.beq o 0x2E then
        match rest with
        | .id f :: ts => do
          let r ← mkMember a f
          postfix_ k c r ts
        | _ => none
      else bif Nat.beq o 0x28 then do
        let (l, ts) ← args k c rest
        let r ← mkCall a l
        postfix_ k c r ts
      else bif Nat.beq o 0x2B2B then do
        let r ← mkPost .add a
        postfix_ k c r rest
      else bif Nat.beq o 0x2D2D then do
        let r ← mkPost .sub a
        postfix_ k c r rest
      else some (a, ts)
    | _ => some (a, ts)

/-- The arguments of a call, up to the closing parenthesis. -/
def args : (fuel : Nat) → Ctx → List Tok → Option (Args × List Tok)
  | 0, _, _ => none
  | k + 1, c, ts =>
    bif isOp 0x29 ts then do
      let ts ← eat 0x29 ts
      some (.nil, ts)
    else do
      let (a, ts) ← expr k c ts
      let x ← a.val
      bif isOp 0x2C ts then do
        let ts ← eat 0x2C ts
        let (l, ts) ← args k c ts
        some (.cons x l, ts)
      else do
        let ts ← eat 0x29 ts
        some (.cons x .nil, ts)

/-- Operators that bind at least as strongly as `p`, after the operand `a`. -/
def binary : (fuel : Nat) → Ctx → (p : Nat) → Opd → List Tok → Option (Opd × List Tok)
  | 0, _, _, _, _ => none
  | k + 1, c, p, a, ts =>
    match ts with
    | .op o :: rest =>
      let q := binPrec o
      bif Nat.ble p q && Nat.ble 1 q then do
        let (b, ts) ← unary k c rest
        let (b, ts) ← binary k c (q + 1) b ts
        let r ← mkBin o a b
        binary k c p r ts
      else some (a, ts)
    | _ => some (a, ts)

/-- Conditional expressions. -/
def cond : (fuel : Nat) → Ctx → List Tok → Option (Opd × List Tok)
  | 0, _, _ => none
  | k + 1, c, ts => do
    let (a, ts) ← unary k c ts
    let (a, ts) ← binary k c 1 a ts
    bif isOp 0x3F ts then do
      let ts ← eat 0x3F ts
      let (b, ts) ← expr k c ts
      let ts ← eat 0x3A ts
      let (d, ts) ← cond k c ts
      let x ← a.val
      let y ← b.val
      let z ← d.val
      some (.of (some (.cond x y z)), ts)
    else some (a, ts)

/-- Expressions. -/
def expr : (fuel : Nat) → Ctx → List Tok → Option (Opd × List Tok)
  | 0, _, _ => none
  | k + 1, c, ts => do
    let (a, ts) ← cond k c ts
    match ts with
    | .op o :: rest =>
      bif Nat.beq o 0x3D then do
        let (b, ts) ← expr k c rest
        let r ← mkAssign a b
        some (r, ts)
      else
        match assoc o assignOps with
        | some op => do
          let (b, ts) ← expr k c rest
          let r ← mkUpdate op a b
          some (r, ts)
        | none => some (a, ts)
    | _ => some (a, ts)

/-- Declarators: the name (0 if there is none) and the type. -/
def declr : (fuel : Nat) → Ctx → CTy → List Tok → Option (Name × CTy × List Tok)
  | 0, _, _, _ => none
  | k + 1, c, t, ts =>
    match stars t ts with
    | (t, .op o :: ts) =>
      match Nat.beq o 0x28, ts with
      | true, .op p :: ts' =>
        bif Nat.beq p 0x2A then
          match optName ts' with
          | (x, ts) => do
            let ts ← eat 0x29 ts
            bif isOp 0x28 ts then do
              let ts ← skipParen 0 ts
              some (x, .ptr .func, ts)
            else do
              let ts ← eat 0x5B ts
              let (n, ts) ← cond k c ts
              let n ← n.val
              let ts ← eat 0x5D ts
              some (x, .mat n, ts)
        else some (0, t, .op o :: .op p :: ts')
      | _, _ => some (0, t, .op o :: ts)
    | (t, .id x :: ts) => do
      let (t, ts) ← dims k c t ts
      some (x, t, ts)
    | (t, ts) => some (0, t, ts)

/-- The dimensions of an array. -/
def dims : (fuel : Nat) → Ctx → CTy → List Tok → Option (CTy × List Tok)
  | 0, _, _, _ => none
  | k + 1, c, t, ts =>
    bif isOp 0x5B ts then do
      let ts ← eat 0x5B ts
      bif isOp 0x5D ts then do
        let ts ← eat 0x5D ts
        let (t, ts) ← dims k c t ts
        some (.arr t none, ts)
      else do
        let (n, ts) ← cond k c ts
        let n ← n.val
        let n ← intOf n
        let ts ← eat 0x5D ts
        let (t, ts) ← dims k c t ts
        some (.arr t (some n), ts)
    else some (t, ts)

end

/-! ## Statements -/

/-- The type of a variable, parameter or result. -/
def tyOf : CTy → Option Ty
  | .int t => some (.int t)
  | .ptr _ => some .ptr
  | .mat n => some (.mat n)
  | _ => none

/-- Statements in sequence. -/
def seqOf : List (Bool × Stmt) → Stmt
  | [] => .skip
  | [s] => s.2
  | s :: l => .seq s.2 (seqOf l)

/-- Is there a declaration among the statements? -/
def anyDecl : List (Bool × Stmt) → Bool
  | [] => false
  | s :: l => s.1 || anyDecl l

/-- A block; it matters only if it declares something. -/
def blockOf (l : List (Bool × Stmt)) : Stmt :=
  bif anyDecl l then .block (seqOf l) else seqOf l

/-- Skip semicolons. -/
def skipSemi : List Tok → List Tok
  | .op o :: ts => bif Nat.beq o 0x3B then skipSemi ts else .op o :: ts
  | ts => ts

/-- A declaration of a variable inside a function. -/
def declStmt (k : Nat) (c : Ctx) (ts : List Tok) : Option (Stmt × Ctx × List Tok) := do
  let (_, t, ts) ← baseTy c ts
  let (x, t, ts) ← declr k c t ts
  let v ← tableL.get x
  let c' := { c with locals := (x, t) :: c.locals }
  bif isOp 0x3B ts then
    match t with
    | .int i => do
      let ts ← eat 0x3B ts
      some (.declU i v, c', ts)
    | _ => none
  else do
    let ts ← eat 0x3D ts
    let (a, ts) ← expr k c ts
    let ts ← eat 0x3B ts
    let e ← a.val
    let u ← tyOf t
    some (.decl u v e, c', ts)

/-- A condition in parentheses. -/
def parenExpr (k : Nat) (c : Ctx) (ts : List Tok) : Option (Expr × List Tok) := do
  let ts ← eat 0x28 ts
  let (a, ts) ← expr k c ts
  let ts ← eat 0x29 ts
  let e ← a.val
  some (e, ts)

/-- The labels before a group of statements. -/
def labels : (fuel : Nat) → Ctx → List Tok → Option (List Int × Bool × List Tok)
  | 0, _, _ => none
  | k + 1, c, ts =>
    bif isId kCase ts then do
      let (a, ts) ← cond k c ts.tail
      let n ← a.val
      let n ← intOf n
      let ts ← eat 0x3A ts
      let (l, d, ts) ← labels k c (skipSemi ts)
      some (n :: l, d, ts)
    else bif isId kDefault ts then do
      let ts ← eat 0x3A ts.tail
      let (l, _, ts) ← labels k c (skipSemi ts)
      some (l, true, ts)
    else some ([], false, ts)

mutual

/-- Statements; the first component tells whether it is a declaration. -/
def stmt : (fuel : Nat) → Ctx → List Tok → Option (Bool × Stmt × Ctx × List Tok)
  | 0, _, _ => none
  | k + 1, c, ts =>
    match ts with
    | .op o :: rest =>
      bif Nat.beq o 0x7B then do
        let (l, ts) ← stmts k c rest
        let ts ← eat 0x7D ts
        some (false, blockOf l, c, ts)
      else bif Nat.beq o 0x3B then some (false, .skip, c, rest)
      else exprStmt k c ts
    | .id x :: rest =>
      bif Nat.beq x kIf then do
        let (e, ts) ← parenExpr k c rest
        let (d, a, _, ts) ← stmt k c ts
        bif d then none
        else bif isId kElse ts then do
          let (d, b, _, ts) ← stmt k c ts.tail
          bif d then none else some (false, .ite e a b, c, ts)
        else some (false, .ite e a .skip, c, ts)
      else bif Nat.beq x kWhile then do
        let (e, ts) ← parenExpr k c rest
        let (d, a, _, ts) ← stmt k c ts
        bif d then none else some (false, .loop e (.num 0) a, c, ts)
      else bif Nat.beq x kFor then do
        let ts ← eat 0x28 rest
        let (i, c', ts) ← declStmt k c ts
        let (e, ts) ← expr k c' ts
        let ts ← eat 0x3B ts
        let (s, ts) ← expr k c' ts
        let ts ← eat 0x29 ts
        let (d, a, _, ts) ← stmt k c' ts
        let e ← e.val
        let s ← s.val
        bif d then none else some (false, .block (.seq i (.loop e s a)), c, ts)
      else bif Nat.beq x kSwitch then do
        let (e, ts) ← parenExpr k c rest
        let ts ← eat 0x7B ts
        let (g, ts) ← cases k c ts
        some (false, .switch e g, c, ts)
      else bif Nat.beq x kBreak then do
        let ts ← eat 0x3B rest
        some (false, .brk, c, ts)
      else bif Nat.beq x kReturn then
        bif isOp 0x3B rest then do
          let ts ← eat 0x3B rest
          some (false, .ret0, c, ts)
        else do
          let (a, ts) ← expr k c rest
          let ts ← eat 0x3B ts
          let e ← a.val
          some (false, .ret e, c, ts)
      else bif isType c ts then do
        let (s, c', ts) ← declStmt k c ts
        some (true, s, c', ts)
      else exprStmt k c ts
    | _ => none

/-- An expression as a statement. -/
def exprStmt : (fuel : Nat) → Ctx → List Tok → Option (Bool × Stmt × Ctx × List Tok)
  | 0, _, _ => none
  | k + 1, c, ts => do
    let (a, ts) ← expr k c ts
    let ts ← eat 0x3B ts
    let e ← a.val
    some (false, .expr e, c, ts)

/-- Statements up to `}`, `case` or `default`. -/
def stmts : (fuel : Nat) → Ctx → List Tok → Option (List (Bool × Stmt) × List Tok)
  | 0, _, _ => none
  | k + 1, c, ts =>
    bif isOp 0x7D ts || isId kCase ts || isId kDefault ts then some ([], ts)
    else do
      let (d, s, c, ts) ← stmt k c ts
      let (l, ts) ← stmts k c ts
      some ((d, s) :: l, ts)

/-- The groups of a `switch`, up to the closing brace. -/
def cases : (fuel : Nat) → Ctx → List Tok → Option (Cases × List Tok)
  | 0, _, _ => none
  | k + 1, c, ts =>
    bif isOp 0x7D ts then do
      let ts ← eat 0x7D ts
      some (.nil, ts)
    else do
      let (l, d, ts) ← labels k c ts
      bif l.isEmpty && !d then none
      else do
        let (b, ts) ← stmts k c ts
        bif anyDecl b then none
        else do
          let (g, ts) ← cases k c ts
          some (.cons l d (seqOf b) g, ts)

end

/-! ## Initialisers -/

/-- Initialisers: an expression, or a list, whose items may name an index or a member. -/
inductive Init where
  | e (a : Opd)
  | l (items : List (Option (Int ⊕ Name) × Init))

mutual

/-- An initialiser. -/
def init : (fuel : Nat) → Ctx → List Tok → Option (Init × List Tok)
  | 0, _, _ => none
  | k + 1, c, ts =>
    bif isOp 0x7B ts then do
      let (l, ts) ← inits k c ts.tail
      some (.l l, ts)
    else do
      let (a, ts) ← cond k c ts
      some (.e a, ts)

/-- The items of an initialiser, up to the closing brace. -/
def inits : (fuel : Nat) → Ctx → List Tok → Option (List (Option (Int ⊕ Name) × Init) × List Tok)
  | 0, _, _ => none
  | k + 1, c, ts =>
    match ts with
    | .op o :: rest =>
      bif Nat.beq o 0x7D then some ([], rest)
      else bif Nat.beq o 0x5B then do
        let (a, ts) ← cond k c rest
        let n ← a.val
        let n ← intOf n
        let ts ← eat 0x5D ts
        let ts ← eat 0x3D ts
        item k c (some (.inl n)) ts
      else bif Nat.beq o 0x2E then
        match rest with
        | .id f :: ts => do
          let ts ← eat 0x3D ts
          item k c (some (.inr f)) ts
        | _ => none
      else item k c none ts
    | ts => item k c none ts

/-- One item, and the others. -/
def item : (fuel : Nat) → Ctx → Option (Int ⊕ Name) → List Tok →
    Option (List (Option (Int ⊕ Name) × Init) × List Tok)
  | 0, _, _, _ => none
  | k + 1, c, d, ts => do
    let (i, ts) ← init k c ts
    bif isOp 0x2C ts then do
      let (l, ts) ← inits k c ts.tail
      some ((d, i) :: l, ts)
    else do
      let ts ← eat 0x7D ts
      some ([(d, i)], ts)

end

/-- An object all of whose scalars are zero. -/
def zeroOf : (fuel : Nat) → CTy → Option Tree
  | 0, _ => none
  | k + 1, t =>
    match t with
    | .int i => some (.leaf (.int i 0))
    | .ptr _ => some (.leaf .null)
    | .struct l => (l.mapM fun (f : Name × CTy) => do
        let g ← tableFld.get f.1
        let z ← zeroOf k f.2
        some (g, z)).map .struct
    | .arr t (some n) => (zeroOf k t).map fun z => .arr (List.replicate n.toNat z)
    | _ => none

/-- The items of an array initialiser with their positions. -/
def places : Int → List (Option (Int ⊕ Name) × Init) → Option (List (Int × Init))
  | _, [] => some []
  | p, (none, i) :: l => (places (p + 1) l).map ((p, i) :: ·)
  | _, (some (.inl p), i) :: l => (places (p + 1) l).map ((p, i) :: ·)
  | _, (some (.inr _), _) :: _ => none

/-- The items of a structure initialiser with their members. -/
def fields : List (Option (Int ⊕ Name) × Init) → Option (List (Name × Init))
  | [] => some []
  | (some (.inr f), i) :: l => (fields l).map ((f, i) :: ·)
  | _ => none

/-- The last item for a position. -/
def lastAt (p : Int) : List (Int × Init) → Option Init
  | [] => none
  | (q, i) :: l =>
    match lastAt p l with
    | some j => some j
    | none => if q = p then some i else none

/-- `0, 1, …, n - 1`. -/
def upTo (n : Nat) : List Int := (List.range n).map Int.ofNat

/-- The initial value of an object. -/
def treeOf : (fuel : Nat) → CTy → Init → Option Tree
  | 0, _, _ => none
  | k + 1, t, i =>
    match t, i with
    | .int s, .e a => do
      let e ← a.val
      let n ← intOf e
      some (.leaf (.int s (conv s n)))
    | .ptr _, .e a =>
      match a.tab, a.val with
      | some t, none => some (.leaf (.rom t 0))
      | _, some (.fn f) => some (.leaf (.fn f))
      | _, some .null => some (.leaf .null)
      | _, _ => none
    | .mat _, .e a =>
      match a.tab, a.val with
      | some t, none => some (.leaf (.rom t 0))
      | _, _ => none
    | .arr t n, .l items => do
      let ps ← places 0 items
      let n : Int := match n with
        | some n => n
        | none => ps.foldl (fun m p => max m (p.1 + 1)) 0
      if ps.all fun p => 0 ≤ p.1 && p.1 < n then
        ((upTo n.toNat).mapM fun j =>
          match lastAt j ps with
          | some i => treeOf k t i
          | none => zeroOf k t).map .arr
      else none
    | .struct l, .l items =>
      match items with
      | [] => zeroOf (k + 1) t
      | items => do
        let fs ← fields items
        (l.mapM fun (f : Name × CTy) => do
          let g ← tableFld.get f.1
          let z ← match assoc f.1 fs with
            | some i => treeOf k f.2 i
            | none => zeroOf k f.2
          some (g, z)).map .struct
    | _, _ => none

/-- A row of a table: `cols` bytes. -/
def rowCodes (cols : Int) (i : Init) : Option (List Code) :=
  match i with
  | .l items => do
    let ps ← places 0 items
    if ps.all fun p => 0 ≤ p.1 && p.1 < cols then
      (upTo cols.toNat).mapM fun j =>
        match lastAt j ps with
        | some (.e a) => do
          let e ← a.val
          let n ← intOf e
          some (UInt8.ofNat (conv .u8 n).toNat)
        | some (.l _) => none
        | none => some 0
    else none
  | .e _ => none

/-- The bytes of a table. -/
def tableCodes (rows cols : Int) (i : Init) : Option (List Code) :=
  match i with
  | .l items => do
    let ps ← places 0 items
    if ps.all fun p => 0 ≤ p.1 && p.1 < rows then
      ((upTo rows.toNat).mapM fun j =>
        match lastAt j ps with
        | some i => rowCodes cols i
        | none => some (List.replicate cols.toNat 0)).map List.flatten
    else none
  | .e _ => none

/-! ## Translation units -/

/-- A definition. -/
inductive Item where
  | fn (f : F) (b : Fun)
  | obj (g : G) (t : Tree)
  /-- a static variable of the hardware layer and its initial value -/
  | var (r : R) (n : Int)

/-- The enumerators, up to the closing brace; `n` is the next value, `hi` the greatest so far. -/
def enumerators : (fuel : Nat) → Ctx → (n hi : Int) → List Tok → Option (Ctx × Int × List Tok)
  | 0, _, _, _, _ => none
  | k + 1, c, n, hi, ts =>
    match ts with
    | .id x :: rest => do
      let (n, ts) ← bif isOp 0x3D rest then do
          let (a, ts) ← cond k c rest.tail
          let e ← a.val
          let n ← intOf e
          some (n, ts)
        else some (n, rest)
      let c := { c with enums := c.enums.put x n }
      let hi := max hi n
      bif isOp 0x2C ts then enumerators k c (n + 1) hi ts.tail
      else do
        let ts ← eat 0x7D ts
        some (c, hi, ts)
    | _ => do
      let ts ← eat 0x7D ts
      some (c, hi, ts)

/-- The members of a structure, up to the closing brace. -/
def members : (fuel : Nat) → Ctx → List Tok → Option (List (Name × CTy) × List Tok)
  | 0, _, _ => none
  | k + 1, c, ts =>
    bif isOp 0x7D ts then some ([], ts.tail)
    else do
      let (_, t, ts) ← baseTy c ts
      let (x, t, ts) ← declr k c t ts
      let ts ← eat 0x3B ts
      let (l, ts) ← members k c ts
      some ((x, t) :: l, ts)

/-- A type at file scope: also a new `enum` or `struct`.  An `enum` has the smallest unsigned
type that holds it (`-fshort-enums`). -/
def fileTy (k : Nat) (c : Ctx) (ts : List Tok) : Option (Bool × CTy × Ctx × List Tok) :=
  match quals false ts with
  | (q, .id x :: ts) =>
    bif Nat.beq x kEnum then do
      let ts ← eat 0x7B ts
      let (c, hi, ts) ← enumerators k c 0 0 ts
      some (q, .int (if hi ≤ 255 then .u8 else .u16), c, ts)
    else bif Nat.beq x kStruct then do
      let ts ← eat 0x7B ts
      let (l, ts) ← members k c ts
      some (q, .struct l, c, ts)
    else do
      let (q', t, ts) ← baseTy c (.id x :: ts)
      some (q || q', t, c, ts)
  | _ => none

/-- The parameters of a function, up to the closing parenthesis; `...` is ignored, which makes
calls of such a function fail. -/
def params : (fuel : Nat) → Ctx → List Tok → Option (List (Name × CTy) × List Tok)
  | 0, _, _ => none
  | k + 1, c, ts =>
    bif isOp 0x29 ts then some ([], ts.tail)
    else bif isOp 0x2E2E2E ts then do
      let ts ← eat 0x29 ts.tail
      some ([], ts)
    else bif isId kVoid ts && isOp 0x29 ts.tail then some ([], ts.tail.tail)
    else do
      let (_, t, ts) ← baseTy c ts
      let (x, t, ts) ← declr k c t ts
      bif isOp 0x2C ts then do
        let (l, ts) ← params k c ts.tail
        some ((x, t) :: l, ts)
      else do
        let ts ← eat 0x29 ts
        some ([(x, t)], ts)

/-- Parameters with their labels. -/
def paramTys (l : List (Name × CTy)) : Option (List (L × Ty)) :=
  l.mapM fun p => do
    let v ← tableL.get p.1
    let t ← tyOf p.2
    some (v, t)

/-- The definition of an object. -/
def objectOf (k : Nat) (c : Ctx) (const : Bool) (x : Name) (t : CTy) (i : Option Init) :
    Option (Ctx × List Item) :=
  bif c.hw then do
    let r ← tableR.get x
    match t, i with
    | .int .u8, some (.e a) => do
      let e ← a.val
      let n ← intOf e
      some ({ c with globs := c.globs.put x (.var r) }, [.var r (conv .u8 n)])
    | _, _ => none
  else
    match const, t, i with
    | true, .arr (.arr (.int .u8) (some cols)) (some rows), some i => do
      let l ← tableCodes rows cols i
      some ({ c with globs := c.globs.put x (.table l cols) }, [])
    | _, _, i => do
      let g ← tableG.get x
      let z ← match i with
        | some i => treeOf k t i
        | none => zeroOf k t
      some ({ c with globs := c.globs.put x (.obj g t) }, [.obj g z])

/-- The declarations of a translation unit. -/
def unit : (fuel : Nat) → Ctx → List Tok → Option (List Item)
  | 0, _, _ => none
  | k + 1, c, ts =>
    match ts with
    | [] => some []
    | .op _ :: rest => do
      let _ ← eat 0x3B ts
      unit k c rest
    | ts =>
      bif isId kTypedef ts then do
        let (_, t, c, ts) ← fileTy k c ts.tail
        let (x, t, ts) ← declr k c t ts
        let ts ← eat 0x3B ts
        unit k { c with types := c.types.put x t } ts
      else do
        let (q, t, c, ts) ← fileTy k c ts
        let (x, t, ts) ← declr k c t ts
        bif isOp 0x28 ts then do
          let (ps, ts) ← params k c ts.tail
          let c := match tableF.get x with
            | some f => { c with funs := c.funs.put x f }
            | none => c
          bif isOp 0x3B ts then unit k c ts.tail
          else do
            let ts ← eat 0x7B ts
            let (l, ts) ← stmts k { c with locals := ps } ts
            let ts ← eat 0x7D ts
            let f ← tableF.get x
            let ps ← paramTys ps
            let r ← match t with
              | .void => some none
              | t => (tyOf t).map some
            let rest ← unit k c ts
            some (.fn f ⟨ps, r, seqOf l⟩ :: rest)
        else bif isOp 0x3D ts then do
          let (i, ts) ← init k c ts.tail
          let ts ← eat 0x3B ts
          let (c, l) ← objectOf k c q x t (some i)
          let rest ← unit k c ts
          some (l ++ rest)
        else do
          let ts ← eat 0x3B ts
          let (c, l) ← objectOf k c q x t none
          let rest ← unit k c ts
          some (l ++ rest)

/-! ## Preprocessing -/

/-- A macro: its parameters, if it has any, and its body. -/
structure Macro where
  params : Option (List Name)
  body : List Tok

/-- The context of constant expressions. -/
def Ctx.none : Ctx := ⟨false, .empty, .empty, .empty, .empty, []⟩

/-- The constant that these tokens are, if they are a constant unary expression. -/
def constToks (ts : List Tok) : Option Tok :=
  match ts with
  | .op _ :: _ =>
    match unary 100 .none ts with
    | some (a, []) => do
      let e ← a.val
      let (t, n) ← constVal e
      some (.cst t n)
    | _ => none
  | _ => none

/-- The rest of a line. -/
def restOfLine : List Tok → List Tok × List Tok
  | [] => ([], [])
  | .nl :: ts => ([], ts)
  | t :: ts =>
    match restOfLine ts with
    | (l, r) => (t :: l, r)

/-- The parameters of a macro, up to the closing parenthesis. -/
def macroParams : List Tok → Option (List Name × List Tok)
  | .id x :: .op o :: ts =>
    bif Nat.beq o 0x29 then some ([x], ts)
    else bif Nat.beq o 0x2C then do
      let (l, ts) ← macroParams ts
      some (x :: l, ts)
    else none
  | _ => none

/-- The arguments of a macro, up to the closing parenthesis; `d` more are open, `cur` is the
current argument, last token first. -/
def macroArgs : (d : Nat) → (cur : List Tok) → List Tok → Option (List (List Tok) × List Tok)
  | _, _, [] => none
  | d, cur, .nl :: ts => macroArgs d cur ts
  | d, cur, .paren :: ts => macroArgs (d + 1) (.paren :: cur) ts
  | d, cur, .op o :: ts =>
    bif Nat.beq o 0x28 then macroArgs (d + 1) (.op o :: cur) ts
    else bif Nat.beq o 0x29 then
      match d with
      | 0 => some ([cur.reverse], ts)
      | d + 1 => macroArgs d (.op o :: cur) ts
    else bif Nat.beq o 0x2C && Nat.beq d 0 then do
      let (l, ts) ← macroArgs d [] ts
      some (cur.reverse :: l, ts)
    else macroArgs d (.op o :: cur) ts
  | d, cur, t :: ts => macroArgs d (t :: cur) ts

/-- The number of bytes of a name. -/
def nameLen : (fuel : Nat) → Name → Nat
  | 0, _ => 0
  | k + 1, x => bif Nat.beq x 0 then 0 else nameLen k (Nat.div x 256) + 1

/-- Two names one after the other. -/
def paste (x y : Name) : Name := x * 256 ^ nameLen 100 y + y

/-- The body of a macro with its arguments; in place of a parameter next to `##` stands the
argument as written (`raw`), elsewhere the argument after expansion. -/
def substBody (raw full : List (Name × List Tok)) : List Tok → List Tok
  | .id x :: .op o :: .id y :: ts =>
    bif Nat.beq o 0x2323 then
      match (assoc x raw).getD [.id x], (assoc y raw).getD [.id y] with
      | [.id x'], [.id y'] => .id (paste x' y') :: substBody raw full ts
      | _, _ => [.bad]
    else
      match assoc x full with
      | some l => l ++ .op o :: substBody raw full (.id y :: ts)
      | none => .id x :: .op o :: substBody raw full (.id y :: ts)
  | .id x :: ts =>
    match assoc x full with
    | some l => l ++ substBody raw full ts
    | none => .id x :: substBody raw full ts
  | t :: ts => t :: substBody raw full ts
  | [] => []

/-- Skip to the `#endif` that belongs to a `#if`; `d` more are open. -/
def skipIf : Nat → List Tok → Option (List Tok)
  | _, [] => none
  | d, .op o :: .id x :: ts =>
    bif Nat.beq o 0x23 then
      bif Nat.beq x kIf then skipIf (d + 1) ts
      else bif Nat.beq x kEndif then
        match d with
        | 0 => some ts
        | d + 1 => skipIf d ts
      else skipIf d ts
    else skipIf d ts
  | d, _ :: ts => skipIf d ts

/-- Is the next token a parenthesis? -/
def afterParen : List Tok → Option (List Tok)
  | .paren :: ts => some ts
  | .op o :: ts => bif Nat.beq o 0x28 then some ts else none
  | .nl :: ts => afterParen ts
  | _ => none

/-- Preprocess.  `files` are the files that can be included with `#include "…"`; the only
conditions are `#if !defined(…)`.  System headers are not read. -/
def prep (files : Name → Option (List Tok)) : (fuel : Nat) → Trie Macro → List Tok → List Tok
  | 0, _, _ => [.bad]
  | k + 1, m, ts =>
    match ts with
    | [] => []
    | .nl :: ts => prep files k m ts
    | .paren :: ts => .op 0x28 :: prep files k m ts
    | .id x :: ts =>
      match m.get x with
      | none => .id x :: prep files k m ts
      | some ⟨none, body⟩ =>
        match body with
        | .op _ :: _ =>
          match constToks (prep files k m body) with
          | some t => t :: prep files k m ts
          | none => prep files k m (body ++ ts)
        | body => prep files k m (body ++ ts)
      | some ⟨some ps, body⟩ =>
        match afterParen ts with
        | none => .id x :: prep files k m ts
        | some ts =>
          match macroArgs 0 [] ts with
          | none => [.bad]
          | some (as, ts) =>
            bif Nat.beq as.length ps.length then
              prep files k m
                (substBody (ps.zip as) (ps.zip (as.map (prep files k m))) body ++ ts)
            else [.bad]
    | .op o :: ts =>
      bif Nat.beq o 0x23 then
        match ts with
        | .id d :: ts =>
          bif Nat.beq d kInclude then
            match ts with
            | .str f :: ts =>
              match files (nameOf f) with
              | some l => prep files k m (l ++ .nl :: ts)
              | none => [.bad]
            | ts => prep files k m (restOfLine ts).2
          else bif Nat.beq d kDefine then
            match ts with
            | .id x :: .paren :: ts =>
              match macroParams ts with
              | some (ps, ts) =>
                match restOfLine ts with
                | (body, ts) => prep files k (m.put x ⟨some ps, body⟩) ts
              | none => [.bad]
            | .id x :: ts =>
              match restOfLine ts with
              | (body, ts) => prep files k (m.put x ⟨none, body⟩) ts
            | _ => [.bad]
          else bif Nat.beq d kIf then
            match ts with
            | .op n :: .id e :: ts =>
              match Nat.beq n 0x21 && Nat.beq e kDefined, afterParen ts with
              | true, some (.id x :: .op p :: ts) =>
                bif Nat.beq p 0x29 then
                  match m.get x with
                  | none => prep files k m ts
                  | some _ =>
                    match skipIf 0 ts with
                    | some ts => prep files k m ts
                    | none => [.bad]
                else [.bad]
              | _, _ => [.bad]
            | _ => [.bad]
          else bif Nat.beq d kEndif then prep files k m ts
          else [.bad]
        | _ => [.bad]
      else .op o :: prep files k m ts
    | t :: ts => t :: prep files k m ts

end Asdf.C
