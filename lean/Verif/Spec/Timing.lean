import Verif.Spec.CBoard
import Verif.Spec.Host
import Verif.Spec.Channel

/-! # What an oscilloscope on the strobe and the data lines shows

A run of the firmware text leaves a record: after each access to a register, the registers, and
the microseconds the program waits on purpose at that point.  (The time the instructions take
comes on top and is not modelled.) -/

namespace Asdf.Spec

open Avr

/-- The strobe and the data lines during a run, with the waiting times. -/
def scope (B : Board) (h : C.Hw) : List (Wires × Nat) := h.log.map fun x => (wiresOf B x.1, x.2)

/-- The time a record takes. -/
def total (l : List (Wires × Nat)) : Nat := (l.map Prod.snd).sum

/-- How long the hardware events take that do not concern the strobe and the data lines. -/
def pauseUs : Event → Option Nat
  | .out _ _ => some 0
  | .delayShort => some 10
  | .delayLong => some 50000
  | .delayMs ms => some (1000 * ms.toNat)
  | _ => none

/-- The record of a sequence of hardware events that starts with the wires `w0`; the last
argument are the wires at the end.  Reading a row of the matrix takes `rowUs` microseconds. -/
inductive Records (rowUs : Nat) (w0 : Wires) : List Event → List (Wires × Nat) → Wires → Prop
  | start : Records rowUs w0 [] [] w0
  /-- A code: it is put on the data lines, the strobe is inverted for 10 µs, then restored. -/
  | send {es l w} (h : Records rowUs w0 es l w) (c : Code) :
      Records rowUs w0 (es ++ [.send c])
        (l ++ [(⟨w.strobe, c⟩, 0), (⟨!w.strobe, c⟩, 0), (⟨!w.strobe, c⟩, 10), (⟨w.strobe, c⟩, 0)]) ⟨w.strobe, c⟩
  /-- A change of polarity: the strobe goes to the new idle level. -/
  | positive {es l w} (h : Records rowUs w0 es l w) :
      Records rowUs w0 (es ++ [.posStrobe]) (l ++ [(⟨false, w.data⟩, 0), (⟨false, w.data⟩, 0)]) ⟨false, w.data⟩
  | negative {es l w} (h : Records rowUs w0 es l w) :
      Records rowUs w0 (es ++ [.negStrobe]) (l ++ [(⟨true, w.data⟩, 0), (⟨true, w.data⟩, 0)]) ⟨true, w.data⟩
  /-- Initialisation: the data lines are cleared, the strobe goes low, without waiting. -/
  | init {es l w} (h : Records rowUs w0 es l w) {a b d : List (Wires × Nat)} (ha : ∀ x ∈ a, x = (w, 0))
      (hb : ∀ x ∈ b, x = (⟨w.strobe, 0⟩, 0)) (hd : ∀ x ∈ d, x = (⟨false, 0⟩, 0))
      (hne : d ≠ []) :
      Records rowUs w0 (es ++ [.archInit]) (l ++ (a ++ b ++ d)) ⟨false, 0⟩
  /-- Everything else leaves the wires alone, and takes its time. -/
  | pause {es l w} (h : Records rowUs w0 es l w) (e : Event) {us : Nat} (he : pauseUs e = some us)
      {b : List (Wires × Nat)} (hb : ∀ x ∈ b, x.1 = w) (ht : total b = us) : Records rowUs w0 (es ++ [e]) (l ++ b) w
  /-- Reading a row of the matrix leaves the wires alone, and takes its time. -/
  | row {es l w} (h : Records rowUs w0 es l w) {b : List (Wires × Nat)} (hb : ∀ x ∈ b, x.1 = w)
      (ht : total b = rowUs) :
      Records rowUs w0 es (l ++ b) w

/-- The times when the strobe is high: maximal pieces of a record.  The first component is the
piece that has not ended yet. -/
def highStep (s : List (Wires × Nat) × List (List (Wires × Nat))) (x : Wires × Nat) :
    List (Wires × Nat) × List (List (Wires × Nat)) :=
  if x.1.strobe then (s.1 ++ [x], s.2) else ([], if s.1 = [] then s.2 else s.2 ++ [s.1])

def highs (l : List (Wires × Nat)) : List (Wires × Nat) × List (List (Wires × Nat)) := l.foldl highStep ([], [])

/-- The data lines do not change while the strobe is high, nor when it rises or falls. -/
def DataStable : Wires → List (Wires × Nat) → Prop
  | _, [] => True
  | w, x :: l => (w.strobe = true ∨ x.1.strobe = true → x.1.data = w.data) ∧ DataStable x.1 l

/-- A host that takes the data when the strobe rises, and measures the time since it rose the
last time, or since power-up. -/
structure Clocked where
  strobe : Bool
  since : Nat
  got : List (Code × Nat)

def Clocked.see (s : Clocked) (x : Wires × Nat) : Clocked :=
  if x.1.strobe = true ∧ s.strobe = false then ⟨true, x.2, s.got ++ [(x.1.data, s.since)]⟩
  else ⟨x.1.strobe, s.since + x.2, s.got⟩

/-- The codes this host reads, each with the time before it. -/
def arrivals (l : List (Wires × Nat)) : List (Code × Nat) := (l.foldl Clocked.see ⟨false, 0, []⟩).got

end Asdf.Spec
