import Verif.Spec.Sockets
import Verif.Spec.Whole
import Verif.Spec.Channel

/-! # Specification vocabulary: a computer at a socket of the keyboard -/

namespace Asdf.Spec

open Avr Pcb

/-- The closed keys when each row is read, from the closed switches at that moment; `sw row`
are the switches that are closed while row `row` is read. -/
def pressed (ps : List Place) (sw : Nat → Sw → Bool) : Input := fun row => closedKeys ps (sw row) row

/-- The line of a signal, not a supply. -/
def Signal.isLine : Signal → Bool
  | .plus5 | .ground => false
  | _ => true

/-- A computer sees the levels `v` at the pins of connector `k` of the interface, which has
the lines `lines`: it sees a line that is pulled low as low, and one that is driven high as
high.  It may see anything on a line that is neither. -/
def SeesLines (A : Assembly) (k : Nat) (lines : List (Nat × Signal)) (closed : Sw → Bool)
    (low high : Net → Prop) (v : Nat → Bool) : Prop :=
  ∀ x ∈ lines, x.2.isLine = true → ∀ n, A.plug k x.1 = some n →
    (PulledLow A.links closed low n → v x.1 = false) ∧ (high n → v x.1 = true)

/-- Nothing outside the keyboard pulls a signal line of the connector low. -/
def LinesFree (A : Assembly) (k : Nat) (lines : List (Nat × Signal)) (ext : Net → Prop) : Prop :=
  ∀ x ∈ lines, x.2.isLine = true → ∀ n, A.plug k x.1 = some n → ¬ ext n

/-- What a computer may see at connector `k` of an ATmega328P interface with the registers
`r`, whatever switches are closed, whatever the shift register puts out and whatever
outside pulls other nets low. -/
def AtSocket328 (A : Assembly) (k : Nat) (lines : List (Nat × Signal)) (r : Regs) (v : Nat → Bool) : Prop :=
  ∃ (q : Bool) (closed : Sw → Bool) (ext : Net → Prop), LinesFree A k lines ext ∧
    SeesLines A k lines closed (fun m => Low328 A r q m ∨ ext m) (High328 A r) v

/-- The same for a board with the ATmega2560. -/
def AtSocket2560 (A : Assembly) (k : Nat) (lines : List (Nat × Signal)) (r : Regs) (v : Nat → Bool) : Prop :=
  ∃ (closed : Sw → Bool) (ext : Net → Prop), LinesFree A k lines ext ∧
    SeesLines A k lines closed (fun m => Low2560 A r m ∨ ext m) (High2560 A r) v

/-- The level seen on a signal. -/
def seesSignal (lines : List (Nat × Signal)) (v : Nat → Bool) (σ : Signal) : Bool :=
  lines.any fun x => x.2 == σ && v x.1

/-- The byte seen on the data lines; a bit without a line is 0. -/
def seesCode (lines : List (Nat × Signal)) (v : Nat → Bool) : Code :=
  (List.range 8).foldl (fun b i => if seesSignal lines v (.data i) then b ||| oneBit i else b) 0

/-- The bits of a code that have a line at the socket. -/
def lineBits (lines : List (Nat × Signal)) : Code := seesCode lines fun _ => true

/-- What a computer reads that takes the data lines of its socket at every change of the
strobe line to the level `edge`; it sees `v` first, then the levels of the list. -/
def computerReads (lines : List (Nat × Signal)) (edge : Bool) : (Nat → Bool) → List (Nat → Bool) → List Code
  | _, [] => []
  | v, v' :: l =>
    if seesSignal lines v .strobe ≠ edge ∧ seesSignal lines v' .strobe = edge then
      seesCode lines v' :: computerReads lines edge v' l
    else computerReads lines edge v' l

/-- What the computer sees at each of a series of moments is what the socket shows. -/
inductive Watches (see : Regs → (Nat → Bool) → Prop) : List Regs → List (Nat → Bool) → Prop
  | nil : Watches see [] []
  | cons {r : Regs} {v : Nat → Bool} {l : List Regs} {vs : List (Nat → Bool)} (h : see r v)
      (hl : Watches see l vs) : Watches see (r :: l) (v :: vs)

end Asdf.Spec
