import Verif.Model.Buffer

/-! # Specification of the buffer module: bounded FIFO queues

A reader only needs this file to read the theorems of `Props/Buffer.lean`.
-/

namespace Asdf.Spec

/-- A bounded queue, oldest element first. -/
structure Queue where
  cap : Nat
  items : List Code
  deriving DecidableEq, Repr

/-- Enqueue; a full queue drops the new element. -/
def Queue.put (q : Queue) (c : Code) : Queue :=
  if q.items.length < q.cap then { q with items := q.items ++ [c] } else q

/-- The next element, or the "no code" value. -/
def Queue.front (q : Queue) : Code := q.items.head?.getD 0xA0

/-- Dequeue. -/
def Queue.pop (q : Queue) : Queue := { q with items := q.items.tail }

/-- The queues reserved so far; the handle of a queue is its position. -/
abbrev Queues := List Queue

/-- Elements of the pool reserved so far. -/
def reserved (qs : Queues) : Nat := (qs.map Queue.cap).sum

/-- Calls of the buffer API. -/
inductive BufOp where
  | init
  | new (size : Int)
  | put (h : Int) (c : Code)
  | get (h : Int)
  deriving DecidableEq, Repr

/-- What a call returns. -/
inductive BufOut where
  | unit
  | handle (h : Int)
  | code (c : Code)
  deriving DecidableEq, Repr

/-- `h` is the handle of a reserved queue. -/
def isHandle (qs : Queues) (h : Int) : Prop := 0 ≤ h ∧ h < (qs.length : Int)

instance (qs : Queues) (h : Int) : Decidable (isHandle qs h) :=
  inferInstanceAs (Decidable (_ ∧ _))

/-- A reservation fits: at most four buffers, 144 elements in total. -/
def fits (qs : Queues) (n : Nat) : Prop := qs.length < 4 ∧ reserved qs + n ≤ 144

instance (qs : Queues) (n : Nat) : Decidable (fits qs n) :=
  inferInstanceAs (Decidable (_ ∧ _))

/-- The abstract behaviour of one call (for non-negative sizes). -/
def step (qs : Queues) : BufOp → Queues × BufOut
  | .init => ([], .unit)
  | .new size =>
    if fits qs size.toNat then (qs ++ [⟨size.toNat, []⟩], .handle qs.length)
    else (qs, .handle (-1))
  | .put h c =>
    if isHandle qs h then (qs.modify h.toNat (fun q => q.put c), .unit) else (qs, .unit)
  | .get h =>
    if isHandle qs h then
      (qs.modify h.toNat Queue.pop,
       .code ((qs[h.toNat]?.map Queue.front).getD 0xA0))
    else (qs, .code 0xA0)

/-- The abstract behaviour of a sequence of calls: final queues and all results. -/
def runSpec (qs : Queues) : List BufOp → Queues × List BufOut
  | [] => (qs, [])
  | op :: ops =>
    let (qs1, o) := step qs op
    let (qs2, os) := runSpec qs1 ops
    (qs2, o :: os)

/-- The same calls on the model of the C code. -/
def callBuf (b : BufState) : BufOp → Res (BufState × BufOut)
  | .init => .ok (bufInit b, .unit)
  | .new size => do
    let (h, b) ← bufNew b size
    .ok (b, .handle h)
  | .put h c => do
    let b ← bufPut b h c
    .ok (b, .unit)
  | .get h => do
    let (c, b) ← bufGet b h
    .ok (b, .code c)

/-- A sequence of calls on the model of the C code. -/
def runBuf (b : BufState) : List BufOp → Res (BufState × List BufOut)
  | [] => .ok (b, [])
  | op :: ops => do
    let (b, o) ← callBuf b op
    let (b, os) ← runBuf b ops
    .ok (b, o :: os)

/-- The caller asks for a non-negative size. -/
def BufOp.sane : BufOp → Bool
  | .new size => decide (0 ≤ size)
  | _ => true

/-- The call works on handle `h`. -/
def onHandle (h : Int) : BufOp → Bool
  | .put h' _ => decide (h' = h)
  | .get h' => decide (h' = h)
  | _ => false

/-- The results of those calls that do not work on handle `h`. -/
def otherOuts (h : Int) : List BufOp → List BufOut → List BufOut
  | op :: ops, o :: os => if onHandle h op then otherOuts h ops os else o :: otherOuts h ops os
  | _, _ => []

end Asdf.Spec
