import Verif.Spec.Pins

/-! # Specification vocabulary: timer 0 and the tick interrupt

From the ATmega328P and ATmega2560 data sheets, "8-bit Timer/Counter0" and "Clock
Prescale Register". -/

namespace Asdf.Spec

open Avr

/-- The system clock is the oscillator clock divided by `2 ^ CLKPS`; values above 8
are reserved. -/
def systemDivisor (r : Regs) : Option Nat :=
  let ps := (r.io .clkpr &&& 0x0f).toNat
  if ps ≤ 8 then some (2 ^ ps) else none

/-- The timer's own divisor, by the bits `CS02:0`; 0 stops the timer, 6 and 7 select an
external clock. -/
def timerDivisor (r : Regs) : Option Nat :=
  match (r.io .tccr0b &&& 7).toNat with
  | 1 => some 1
  | 2 => some 8
  | 3 => some 64
  | 4 => some 256
  | 5 => some 1024
  | _ => none

/-- The timer counts from 0 to `OCR0A` and starts again (`WGM02:0` = 2). -/
def clearsOnMatch (r : Regs) : Bool := r.io .tccr0a &&& 3 == 2 && r.io .tccr0b &&& 8 == 0

/-- The compare match interrupt is enabled, and interrupts are. -/
def matchInterrupt (r : Regs) : Bool := r.io .timsk0 &&& 2 != 0 && r.irq

/-- If the timer generates tick interrupts at a fixed rate: the number of oscillator
cycles per count, and the highest count. -/
def tickTimer (r : Regs) : Option (Nat × Nat) :=
  if clearsOnMatch r && matchInterrupt r then
    match systemDivisor r, timerDivisor r with
    | some a, some b => some (a * b, (r.io .ocr0a).toNat)
    | _, _ => none
  else none

/-- The timer: the position in the current count, and the count (both dividers are
taken together). -/
structure Timer where
  sub : Nat
  count : Nat

/-- One oscillator cycle of a timer with `div` cycles per count and highest count
`top`; an 8-bit counter above `top` runs on to 255.  The second component: does the
interrupt fire? -/
def Timer.cycle (div top : Nat) (t : Timer) : Timer × Bool :=
  if t.sub + 1 < div then (⟨t.sub + 1, t.count⟩, false)
  else if t.count = top then (⟨0, 0⟩, true)
  else (⟨0, (t.count + 1) % 256⟩, false)

/-- The number of interrupts in `n` oscillator cycles. -/
def Timer.fires (div top : Nat) : Nat → Timer → Nat
  | 0, _ => 0
  | n + 1, t => (t.cycle div top).2.toNat + Timer.fires div top n (t.cycle div top).1

/-- The board's registers make the tick interrupt fire once in every millisecond of
an oscillator of `hz` Hertz: at whatever moment one starts to watch, `n` milliseconds
have exactly `n` interrupts. -/
def millisecondTick (hz : Nat) (r : Regs) : Prop :=
  ∃ div top, tickTimer r = some (div, top) ∧
    ∀ (t : Timer) (n : Nat), t.sub < div → t.count ≤ top →
      Timer.fires div top (hz / 1000 * n) t = n

/-- The same with `m` milliseconds from one interrupt to the next: `n * m` milliseconds have exactly
`n` interrupts. -/
def tickEvery (hz m : Nat) (r : Regs) : Prop :=
  ∃ div top, tickTimer r = some (div, top) ∧
    ∀ (t : Timer) (n : Nat), t.sub < div → t.count ≤ top →
      Timer.fires div top (hz / 1000 * m * n) t = n

/-- The register contents the ATmega328P can have after the hardware was initialised
with contents `r0`: any hardware events (including further initialisations) and row
reads in any order. -/
inductive Since328 (r0 : Regs) : Regs → Prop
  | init : Since328 r0 (boardAfter m328 r0 [.archInit])
  | event {r : Regs} (h : Since328 r0 r) (e : Event) : Since328 r0 (boardAfter m328 r [e])
  | read {r : Regs} (h : Since328 r0 r) (keys : Nat → UInt8) (other row sr : UInt8) :
      Since328 r0 (M328.readRow keys other row ⟨r, sr, []⟩).2.regs

/-- The same for the ATmega2560. -/
inductive Since2560 (r0 : Regs) : Regs → Prop
  | init : Since2560 r0 (boardAfter m2560 r0 [.archInit])
  | event {r : Regs} (h : Since2560 r0 r) (e : Event) : Since2560 r0 (boardAfter m2560 r [e])
  | read {r r' : Regs} (h : Since2560 r0 r) (cols : Regs → UInt8) (row v : UInt8) (l : List Regs)
      (hr : M2560.readRow cols row r = .ok (v, l)) (hl : l.getLast? = some r') : Since2560 r0 r'

end Asdf.Spec
