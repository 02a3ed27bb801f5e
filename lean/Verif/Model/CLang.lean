import Verif.Model.CNames
import Verif.Model.Core

/-! # A small C: syntax and meaning

The part of C that the firmware is written in, with the sizes of the AVR
(`int` has 16 bits, plain `char` is signed) and `-fshort-enums`
(cmake/generic-gcc-avr.cmake:79).  `Model/CSource.lean`, `Model/CArch328.lean` and
`Model/CArch2560.lean` contain the source text in this syntax.  Everything in this file models the language, not a part of `/repo`.

Simplifications: operands are evaluated from left to right; a conversion to a signed
type that does not fit wraps around (as gcc defines it); a pointer to a constant table is
represented by the table and an offset; the result of `?:` is not converted to the common
type of its branches (in this source both have the same type); an address outside an array is
an error when it is formed, except that of a row of a constant table, which is an error when
it is used. -/

namespace Asdf.C

variable {ι : Type}

/-- Integer types. -/
inductive Ity where
  | u8 | i8 | u16 | i16 | u32 | i32
  deriving DecidableEq, Repr

/-- One step into an object: an array index or a member. -/
inductive Sel where
  | ix (i : Int)
  | fld (f : Fld)
  deriving DecidableEq, Repr

/-- Values of scalar type. -/
inductive Val where
  | int (t : Ity) (n : Int)
  /-- pointer into the object `g` -/
  | ptr (g : G) (path : List Sel)
  /-- pointer to entry `off` of a constant table of key codes -/
  | rom (t : List Code) (off : Int)
  /-- the same, as a pointer to a row of `cols` entries -/
  | mat (t : List Code) (off : Int) (cols : Int)
  | str (t : List Code)
  | fn (f : F)
  /-- pointer to a register of the controller -/
  | reg (r : R)
  | null
  | unit
  /-- what an integer variable without initialiser holds at first -/
  | undef (t : Ity)
  deriving DecidableEq, Repr

/-- Objects. -/
inductive Tree where
  | leaf (v : Val)
  | arr (l : List Tree)
  | struct (l : List (Fld × Tree))

/-- Why a run has no meaning. -/
inductive Err where
  /-- access outside an object -/
  | oob
  /-- use of a null pointer -/
  | null
  /-- call of something that is not a function, or with the wrong number of arguments -/
  | badCall
  | divZero
  /-- signed overflow, or a shift that is undefined -/
  | overflow
  /-- the bound on calls or loop turns was too small -/
  | fuel
  /-- not well typed: no C compiler accepts it -/
  | type
  deriving DecidableEq, Repr

/-! ## Integers -/

/-- Conversion of an integer to a type. -/
def conv : Ity → Int → Int
  | .u8, n => n % 256
  | .u16, n => n % 65536
  | .i8, n => Int.bmod n 256
  | .i16, n => Int.bmod n 65536
  | .u32, n => n % 4294967296
  | .i32, n => Int.bmod n 4294967296

/-- Integer promotion. -/
def promote : Ity → Ity
  | .u16 => .u16
  | .u32 => .u32
  | .i32 => .i32
  | _ => .i16

/-- The usual arithmetic conversions. -/
def common (a b : Ity) : Ity :=
  match promote a, promote b with
  | .i16, .i16 => .i16
  | .u32, _ => .u32
  | _, .u32 => .u32
  | .i32, _ => .i32
  | _, .i32 => .i32
  | _, _ => .u16

/-- The result `n` of an operation in type `t`. -/
def fit (t : Ity) (n : Int) : Except Err Int :=
  match t with
  | .u16 => .ok (n % 65536)
  | .u32 => .ok (n % 4294967296)
  | .i32 => if -2147483648 ≤ n ∧ n ≤ 2147483647 then .ok n else .error .overflow
  | _ => if -32768 ≤ n ∧ n ≤ 32767 then .ok n else .error .overflow

/-- Number of bits of a promoted type. -/
def width : Ity → Nat
  | .u32 => 32
  | .i32 => 32
  | _ => 16

/-- The integer with these bits. -/
def ofBits {n : Nat} (t : Ity) (b : BitVec n) : Int :=
  match t with
  | .u16 => b.toNat
  | .u32 => b.toNat
  | _ => b.toInt

/-- A truth value. -/
def truth (b : Bool) : Val := .int .i16 (if b then 1 else 0)

/-- Binary operators. -/
inductive BinOp where
  | add | sub | mul | div | mod | band | bor | bxor | shl | shr | lt | gt | le | ge | eq | ne
  deriving DecidableEq, Repr

/-- An operator on converted operands of type `t`. -/
def arith (t : Ity) (a b : Int) : BinOp → Except Err Val
  | .add => (fit t (a + b)).map (.int t)
  | .sub => (fit t (a - b)).map (.int t)
  | .mul => (fit t (a * b)).map (.int t)
  | .div => if b = 0 then .error .divZero else (fit t (Int.tdiv a b)).map (.int t)
  | .mod => if b = 0 then .error .divZero else (fit t (Int.tmod a b)).map (.int t)
  | .band => .ok (.int t (ofBits t (BitVec.ofInt (width t) a &&& BitVec.ofInt (width t) b)))
  | .bor => .ok (.int t (ofBits t (BitVec.ofInt (width t) a ||| BitVec.ofInt (width t) b)))
  | .bxor => .ok (.int t (ofBits t (BitVec.ofInt (width t) a ^^^ BitVec.ofInt (width t) b)))
  | .lt => .ok (truth (decide (a < b)))
  | .gt => .ok (truth (decide (b < a)))
  | .le => .ok (truth (decide (a ≤ b)))
  | .ge => .ok (truth (decide (b ≤ a)))
  | .eq => .ok (truth (decide (a = b)))
  | .ne => .ok (truth (decide (a ≠ b)))
  | .shl | .shr => .error .type

/-- A shift: the type is that of the promoted left operand. -/
def shift (t : Ity) (a b : Int) (left : Bool) : Except Err Val :=
  if 0 ≤ b ∧ b < width t then
    if left then
      if (t = .i16 ∨ t = .i32) ∧ a < 0 then .error .overflow
      else (fit t (a * 2 ^ b.toNat)).map (.int t)
    else .ok (.int t (a / 2 ^ b.toNat))
  else .error .overflow

/-- `a op b`. -/
def binop (op : BinOp) : Val → Val → Except Err Val
  | .int ta a, .int tb b =>
    match op with
    | .shl => shift (promote ta) a b true
    | .shr => shift (promote ta) a b false
    | op => arith (common ta tb) (conv (common ta tb) a) (conv (common ta tb) b) op
  | _, _ => .error .type

/-- Unary operators. -/
inductive UnOp where
  | neg | bnot | not
  deriving DecidableEq, Repr

/-- The value as a condition. -/
def Val.isTrue : Val → Bool
  | .int _ n => decide (n ≠ 0)
  | .null => false
  | _ => true

/-- `op a`.  (`!` of a variable without value does not occur.) -/
def unop : UnOp → Val → Except Err Val
  | .not, v => .ok (truth (!v.isTrue))
  | .neg, .int t n => (fit (promote t) (-n)).map (.int (promote t))
  | .bnot, .int t n => .ok (.int (promote t) (ofBits (promote t) (~~~ BitVec.ofInt (width (promote t)) n)))
  | _, _ => .error .type

/-! ## Objects -/

/-- What a scalar object that held `old` holds after `v` is stored. -/
def store (old v : Val) : Except Err Val :=
  match old, v with
  | .int t _, .int _ n => .ok (.int t (conv t n))
  | .undef t, .int _ n => .ok (.int t (conv t n))
  | .int _ _, _ => .error .type
  | _, .int _ _ => .error .type
  | _, v => .ok v

/-- A member of a structure. -/
def member (f : Fld) : List (Fld × Tree) → Option Tree
  | [] => none
  | (g, t) :: l => if g = f then some t else member f l

/-- Replace a member of a structure. -/
def setMember (f : Fld) (t : Tree) : List (Fld × Tree) → List (Fld × Tree)
  | [] => []
  | (g, u) :: l => if g = f then (g, t) :: l else (g, u) :: setMember f t l

/-- The part of an object at a path. -/
def Tree.get : Tree → List Sel → Except Err Tree
  | t, [] => .ok t
  | .arr l, .ix i :: p =>
    if 0 ≤ i then
      match l[i.toNat]? with
      | some t => t.get p
      | none => .error .oob
    else .error .oob
  | .struct l, .fld f :: p =>
    match member f l with
    | some t => t.get p
    | none => .error .type
  | _, _ :: _ => .error .type

/-- Store `v` in the scalar at a path. -/
def Tree.set : Tree → List Sel → Val → Except Err Tree
  | .leaf old, [], v => (store old v).map .leaf
  | _, [], _ => .error .type
  | .arr l, .ix i :: p, v =>
    if 0 ≤ i then
      match l[i.toNat]? with
      | some t => (t.set p v).map fun t' => .arr (l.set i.toNat t')
      | none => .error .oob
    else .error .oob
  | .struct l, .fld f :: p, v =>
    match member f l with
    | some t => (t.set p v).map fun t' => .struct (setMember f t' l)
    | none => .error .type
  | _, _ :: _, _ => .error .type

/-- Static objects, local variables of the running function, the outside world (of type `ι`). -/
structure St (ι : Type) where
  mem : G → Tree
  env : List (L × Val)
  io : ι

/-- Outcome: a value, or the run was stopped by the outside world while the program
waited (`stop`), or it has no meaning. -/
inductive Out (ι α : Type) where
  | ok (a : α) (s : St ι)
  | stop (s : St ι)
  | err (e : Err)

/-- Go on after success. -/
def Out.bind {ι α β : Type} (x : Out ι α) (f : α → St ι → Out ι β) : Out ι β :=
  match x with
  | .ok a s => f a s
  | .stop s => .stop s
  | .err e => .err e

/-- A step that cannot change the state. -/
def lift {ι α : Type} (x : Except Err α) (s : St ι) : Out ι α :=
  match x with
  | .ok a => .ok a s
  | .error e => .err e

/-- Value of a local variable. -/
def local? (x : L) : List (L × Val) → Option Val
  | [] => none
  | (y, v) :: l => if y = x then some v else local? x l

/-- Change a local variable. -/
def setLocal (x : L) (v : Val) : List (L × Val) → List (L × Val)
  | [] => []
  | (y, w) :: l => if y = x then (y, v) :: l else (y, w) :: setLocal x v l

/-- Change a static object. -/
def setMem (m : G → Tree) (g : G) (t : Tree) : G → Tree := fun h => if h = g then t else m h

/-- What an lvalue designates. -/
inductive Loc where
  | var (x : L)
  | obj (g : G) (path : List Sel)
  | rom (t : List Code) (off : Int)

/-- Entry `off` of a constant table. -/
def romGet (t : List Code) (off : Int) : Except Err Val :=
  if 0 ≤ off then
    match t[off.toNat]? with
    | some c => .ok (.int .u8 c.toNat)
    | none => .error .oob
  else .error .oob

/-- Read a scalar. -/
def loadLoc (l : Loc) (s : St ι) : Except Err Val :=
  match l with
  | .var x =>
    match local? x s.env with
    | some v => .ok v
    | none => .error .type
  | .obj g p =>
    match (s.mem g).get p with
    | .ok (.leaf v) => .ok v
    | .ok _ => .error .type
    | .error e => .error e
  | .rom t off => romGet t off

/-- Write a scalar; the result is the value stored. -/
def storeLoc (l : Loc) (v : Val) (s : St ι) : Out ι Val :=
  match l with
  | .var x =>
    match local? x s.env with
    | some old => (lift (store old v) s).bind fun w s => .ok w { s with env := setLocal x w s.env }
    | none => .err .type
  | .obj g p =>
    match (s.mem g).get p with
    | .ok (.leaf old) =>
      (lift (store old v) s).bind fun w s =>
        (lift ((s.mem g).set p w) s).bind fun t s => .ok w { s with mem := setMem s.mem g t }
    | .ok _ => .err .type
    | .error e => .err e
  | .rom _ _ => .err .type

/-- Element `i` counted from what `v` points to. -/
def ptrAdd (v : Val) (i : Int) : Except Err Loc :=
  match v with
  | .rom t off => .ok (.rom t (off + i))
  | .ptr g p =>
    match p.getLast? with
    | some (.ix j) => .ok (.obj g (p.dropLast ++ [.ix (j + i)]))
    | _ => .error .type
  | .null => .error .null
  | _ => .error .type

/-- The pointer to what an lvalue designates: inside the object or one past the end. -/
def addrOf (l : Loc) (s : St ι) : Except Err Val :=
  match l with
  | .rom t off => if 0 ≤ off ∧ off ≤ t.length then .ok (.rom t off) else .error .oob
  | .obj g p =>
    match p.getLast? with
    | some (.ix j) =>
      match (s.mem g).get p.dropLast with
      | .ok (.arr a) => if 0 ≤ j ∧ j ≤ a.length then .ok (.ptr g p) else .error .oob
      | .ok _ => .error .type
      | .error e => .error e
    | _ => .ok (.ptr g p)
  | .var _ => .error .type

/-! ## Syntax -/

mutual

/-- Expressions. -/
inductive Expr where
  | num (n : Int)
  /-- a constant of another type -/
  | lit (t : Ity) (n : Int)
  | str (t : List Code)
  | null
  | fn (f : F)
  /-- the address of a register -/
  | reg (r : R)
  /-- a constant table of key codes with `cols` columns, used as a pointer to its rows -/
  | tab (t : List Code) (cols : Int)
  | load (l : LExpr)
  | addr (l : LExpr)
  /-- `p[i]` where `p` points to a row: the row, used as a pointer to its first entry -/
  | row (p i : Expr)
  | un (op : UnOp) (a : Expr)
  | bin (op : BinOp) (a b : Expr)
  | and (a b : Expr)
  | or (a b : Expr)
  | cond (c a b : Expr)
  | assign (l : LExpr) (e : Expr)
  /-- `l op= e`; also `++l` and `--l` -/
  | update (op : BinOp) (l : LExpr) (e : Expr)
  /-- `l++` and `l--` -/
  | post (op : BinOp) (l : LExpr)
  | cast (t : Ity) (e : Expr)
  | call (f : F) (args : Args)
  | callp (p : Expr) (args : Args)

/-- Expressions that designate an object. -/
inductive LExpr where
  | var (x : L)
  | obj (g : G)
  /-- `a[i]` for an array `a` -/
  | idx (a : LExpr) (i : Expr)
  /-- `p[i]` for a pointer `p` -/
  | pidx (p i : Expr)
  | deref (p : Expr)
  | fld (a : LExpr) (f : Fld)

/-- Argument lists. -/
inductive Args where
  | nil
  | cons (e : Expr) (rest : Args)

end

/-- Types of variables, parameters and results. -/
inductive Ty where
  | int (t : Ity)
  /-- pointers, except: -/
  | ptr
  /-- pointer to a row of so many entries -/
  | mat (cols : Expr)

mutual

/-- Statements. -/
inductive Stmt where
  | skip
  | seq (a b : Stmt)
  | block (a : Stmt)
  | expr (e : Expr)
  | decl (t : Ty) (x : L) (e : Expr)
  /-- an integer variable without initialiser -/
  | declU (t : Ity) (x : L)
  | ite (c : Expr) (a b : Stmt)
  /-- `while (c) { body; step }` -/
  | loop (c : Expr) (step : Expr) (body : Stmt)
  | switch (e : Expr) (cases : Cases)
  | brk
  | ret (e : Expr)
  | ret0

/-- The body of a `switch`: groups of labels, each with the statements that follow;
`dflt` says whether `default` is among the labels. -/
inductive Cases where
  | nil
  | cons (labels : List Int) (dflt : Bool) (body : Stmt) (rest : Cases)

end

/-- A function. -/
structure Fun where
  params : List (L × Ty)
  /-- type of the result, `none` for `void` -/
  result : Option Ty
  body : Stmt

/-! ## Meaning -/

/-- The meaning of calls. -/
abbrev Call (ι : Type) := F → List Val → St ι → Out ι Val

/-- Convert to a scalar type; `cols` is the value of the row length of a `mat`. -/
def toMat (v : Val) (cols : Int) : Except Err Val :=
  match v with
  | .rom t off => .ok (.mat t off cols)
  | .mat t off _ => .ok (.mat t off cols)
  | .null => .ok .null
  | _ => .error .type

/-- Convert to an integer type. -/
def toInt (t : Ity) : Val → Except Err Val
  | .int _ n => .ok (.int t (conv t n))
  | _ => .error .type

/-- A pointer stays as it is. -/
def toPtr : Val → Except Err Val
  | .int _ _ => .error .type
  | .undef _ => .error .type
  | v => .ok v

/-- `p[i]` for a pointer to rows. -/
def rowOf (v : Val) (i : Int) : Except Err Val :=
  match v with
  | .mat t off cols => .ok (.rom t (off + i * cols))
  | .null => .error .null
  | _ => .error .type

/-- The integer in a value. -/
def Val.toInt : Val → Except Err Int
  | .int _ n => .ok n
  | _ => .error .type

mutual

/-- Evaluate an expression. -/
def evalE (call : Call ι) : Expr → St ι → Out ι Val
  | .num n, s => .ok (.int .i16 n) s
  | .lit t n, s => .ok (.int t n) s
  | .str t, s => .ok (.str t) s
  | .null, s => .ok .null s
  | .fn f, s => .ok (.fn f) s
  | .reg r, s => .ok (.reg r) s
  | .tab t cols, s => .ok (.mat t 0 cols) s
  | .load l, s => (evalL call l s).bind fun l s => lift (loadLoc l s) s
  | .addr l, s => (evalL call l s).bind fun l s => lift (addrOf l s) s
  | .row p i, s => (evalE call p s).bind fun v s => (evalE call i s).bind fun j s =>
      (lift j.toInt s).bind fun n s => lift (rowOf v n) s
  | .un op a, s => (evalE call a s).bind fun v s => lift (unop op v) s
  | .bin op a b, s => (evalE call a s).bind fun v s => (evalE call b s).bind fun w s =>
      lift (binop op v w) s
  | .and a b, s => (evalE call a s).bind fun v s =>
      if v.isTrue then (evalE call b s).bind fun w s => .ok (truth w.isTrue) s
      else .ok (truth false) s
  | .or a b, s => (evalE call a s).bind fun v s =>
      if v.isTrue then .ok (truth true) s
      else (evalE call b s).bind fun w s => .ok (truth w.isTrue) s
  | .cond c a b, s => (evalE call c s).bind fun v s =>
      if v.isTrue then evalE call a s else evalE call b s
  | .assign l e, s => (evalL call l s).bind fun l s => (evalE call e s).bind fun v s => storeLoc l v s
  | .update op l e, s => (evalL call l s).bind fun l s => (evalE call e s).bind fun v s =>
      (lift (loadLoc l s) s).bind fun old s => (lift (binop op old v) s).bind fun w s => storeLoc l w s
  | .post op l, s => (evalL call l s).bind fun l s =>
      (lift (loadLoc l s) s).bind fun old s =>
        (lift (binop op old (.int .i16 1)) s).bind fun w s =>
          (storeLoc l w s).bind fun _ s => .ok old s
  | .cast t e, s => (evalE call e s).bind fun v s => lift (toInt t v) s
  | .call f args, s => (evalArgs call args s).bind fun vs s => call f vs s
  | .callp p args, s => (evalE call p s).bind fun v s => (evalArgs call args s).bind fun vs s =>
      match v with
      | .fn f => call f vs s
      | .null => .err .null
      | _ => .err .badCall

/-- Evaluate an lvalue. -/
def evalL (call : Call ι) : LExpr → St ι → Out ι Loc
  | .var x, s => .ok (.var x) s
  | .obj g, s => .ok (.obj g []) s
  | .idx a i, s => (evalL call a s).bind fun l s => (evalE call i s).bind fun j s =>
      (lift j.toInt s).bind fun n s =>
        match l with
        | .obj g p => .ok (.obj g (p ++ [.ix n])) s
        | _ => .err .type
  | .pidx p i, s => (evalE call p s).bind fun v s => (evalE call i s).bind fun j s =>
      (lift j.toInt s).bind fun n s => lift (ptrAdd v n) s
  | .deref p, s => (evalE call p s).bind fun v s => lift (ptrAdd v 0) s
  | .fld a f, s => (evalL call a s).bind fun l s =>
      match l with
      | .obj g p => .ok (.obj g (p ++ [.fld f])) s
      | _ => .err .type

/-- Evaluate arguments. -/
def evalArgs (call : Call ι) : Args → St ι → Out ι (List Val)
  | .nil, s => .ok [] s
  | .cons e rest, s => (evalE call e s).bind fun v s => (evalArgs call rest s).bind fun vs s =>
      .ok (v :: vs) s

end

/-- Convert a value to a type. -/
def coerce (call : Call ι) (t : Ty) (v : Val) (s : St ι) : Out ι Val :=
  match t with
  | .int t => lift (toInt t v) s
  | .ptr => lift (toPtr v) s
  | .mat cols => (evalE call cols s).bind fun j s => (lift j.toInt s).bind fun n s => lift (toMat v n) s

/-- How a statement ends. -/
inductive Ctl where
  | next | brk | ret (v : Val)

/-- Turns of a loop. -/
def turns (cond : St ι → Out ι Val) (body : St ι → Out ι Ctl) (step : St ι → Out ι Val) : Nat → St ι → Out ι Ctl
  | 0, _ => .err .fuel
  | n + 1, s => (cond s).bind fun v s =>
      if v.isTrue then
        (body s).bind fun c s =>
          match c with
          | .next => (step s).bind fun _ s => turns cond body step n s
          | .brk => .ok .next s
          | .ret v => .ok (.ret v) s
      else .ok .next s

/-- Has the `switch` a label `n`? -/
def Cases.has (n : Int) : Cases → Bool
  | .nil => false
  | .cons labels _ _ rest => labels.contains n || rest.has n

/-- Leave a block: its variables disappear. -/
def leave (n : Nat) (s : St ι) : St ι := { s with env := s.env.drop (s.env.length - n) }

mutual

/-- Execute a statement; loops make at most `w` turns. -/
def exec (call : Call ι) (w : Nat) : Stmt → St ι → Out ι Ctl
  | .skip, s => .ok .next s
  | .seq a b, s => (exec call w a s).bind fun c s =>
      match c with
      | .next => exec call w b s
      | c => .ok c s
  | .block a, s => (exec call w a s).bind fun c s' => .ok c (leave s.env.length s')
  | .expr e, s => (evalE call e s).bind fun _ s => .ok .next s
  | .decl t x e, s => (evalE call e s).bind fun v s => (coerce call t v s).bind fun v s =>
      .ok .next { s with env := (x, v) :: s.env }
  | .declU t x, s => .ok .next { s with env := (x, .undef t) :: s.env }
  | .ite c a b, s => (evalE call c s).bind fun v s =>
      if v.isTrue then exec call w a s else exec call w b s
  | .loop c step body, s => turns (evalE call c) (exec call w body) (evalE call step) w s
  | .switch e cases, s => (evalE call e s).bind fun v s => (lift v.toInt s).bind fun n s =>
      (execCases call w (if cases.has n then some n else none) false cases s).bind fun c s =>
        match c with
        | .brk => .ok .next s
        | c => .ok c s
  | .brk, s => .ok .brk s
  | .ret e, s => (evalE call e s).bind fun v s => .ok (.ret v) s
  | .ret0, s => .ok (.ret .unit) s

/-- Execute the groups of a `switch`: from the group with the label (`none`: the one
with `default`) on, until a `break`. -/
def execCases (call : Call ι) (w : Nat) (target : Option Int) (on : Bool) : Cases → St ι → Out ι Ctl
  | .nil, s => .ok .next s
  | .cons labels dflt body rest, s =>
    if on || (match target with | some n => labels.contains n | none => dflt) then
      (exec call w body s).bind fun c s =>
        match c with
        | .next => execCases call w target true rest s
        | c => .ok c s
    else execCases call w target on rest s

end

/-- Give the parameters their values. -/
def bindArgs (call : Call ι) : List (L × Ty) → List Val → St ι → Out ι (List (L × Val))
  | [], [], s => .ok [] s
  | (x, t) :: ps, v :: vs, s => (coerce call t v s).bind fun v s => (bindArgs call ps vs s).bind fun e s =>
      .ok ((x, v) :: e) s
  | _, _, _ => .err .badCall

/-- Call a function with body. -/
def apply (call : Call ι) (w : Nat) (f : Fun) (args : List Val) (s : St ι) : Out ι Val :=
  (bindArgs call f.params args s).bind fun e _ =>
    (exec call w f.body { s with env := e }).bind fun c s' =>
      let s' := { s' with env := s.env }
      match c, f.result with
      | .ret v, some t => coerce call t v s'
      | _, none => .ok .unit s'
      | _, some _ => .err .type

/-- A program: the functions with body; and what the other functions do. -/
structure Prog (ι : Type) where
  body : F → Option Fun
  ext : Call ι → F → List Val → St ι → Out ι Val

/-- Calls, nested at most `n` deep. -/
def run (P : Prog ι) (w : Nat) : Nat → Call ι
  | 0 => fun _ _ _ => .err .fuel
  | n + 1 => fun f args s =>
    match P.body f with
    | some b => apply (run P w n) w b args s
    | none => P.ext (run P w n) f args s

end Asdf.C
