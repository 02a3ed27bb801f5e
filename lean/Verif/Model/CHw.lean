import Verif.Model.CProg
import Verif.Model.CArch328
import Verif.Model.CArch2560
import Verif.Model.Arch328p
import Verif.Model.Arch2560

/-! # The whole firmware text on a board

`Model/CSource.lean` and the hardware layer of a board (`Model/CArch328.lean`,
`Model/CArch2560.lean`) together are a complete program.  What is left open is what avr-libc and
the controller supply: the registers, `cli`, `sei`, `_delay_us`, `_delay_ms`,
`pgm_read_byte`, `vfprintf`, and the timer interrupt.  This file says what they do. -/

namespace Asdf.C

open Avr

/-- What the outside world does.  Time is counted in accesses of the program to the hardware, so
each of these functions is arbitrary. -/
structure Outside where
  /-- the closed keys of each row -/
  keys : Nat → Nat → UInt8
  /-- the levels on the pins of each port that are not connected to the keys -/
  other : Nat → Port → UInt8
  /-- the timer asks for an interrupt -/
  fires : Nat → Bool

/-- A board: the hardware layer compiled for it, and the circuit around the controller. -/
structure Board where
  body : F → Option Fun
  /-- the external shift register when the registers change from the first to the second state -/
  clock : (Nat → UInt8) → Regs → Regs → UInt8 → UInt8
  /-- the levels the circuit puts on the pins of a port -/
  pins : (Nat → UInt8) → (Port → UInt8) → UInt8 → Regs → Port → UInt8

/-- The ATmega328P board: the output of the shift register is connected to pin B0
(asdf_arch_atmega328p.h:182-236). -/
def board328 : Board where
  body := A328.body
  clock := M328.shiftReg
  pins _ other sr _ p := if p = .B then (other .B &&& ~~~ 1) ||| (sr &&& 1) else other p

/-- The ATmega2560 board: the columns are connected to port C
(asdf_arch_atmega2560.h:279-332); `cols keys r` is the byte the key matrix puts there. -/
def board2560 (cols : (Nat → UInt8) → Regs → UInt8) : Board where
  body := A2560.body
  clock _ _ _ sr := sr
  pins keys other _ r p := if p = .C then cols keys r else other p

/-- The hardware.  `polls` bounds the run: it ends when the program looks at the timer flag and
`polls` is 0.  `log` (register states after each access that can change a register and after
each delay, with the microseconds waited), `ints` (interrupts so far), `found` (how often the flag
was found set) and `time` are records. -/
structure Hw where
  regs : Regs
  /-- the static variable `tick` of the hardware layer -/
  tick : UInt8
  /-- the static variable `data_polarity` of the hardware layer -/
  polarity : UInt8
  /-- the external shift register -/
  sr : UInt8
  log : List (Regs × Nat)
  ints : Nat
  time : Nat
  polls : Nat
  found : Nat

/-- What a name designates. -/
inductive Cell where
  | port (p : Port) | ddr (p : Port) | pin (p : Port) | io (r : Avr.Io) | tick | polarity

/-- The registers (avr/io.h) and the static variables. -/
def cellOf : R → Cell
  | .PORTA => .port .A | .PORTB => .port .B | .PORTC => .port .C
  | .PORTD => .port .D | .PORTH => .port .H | .PORTJ => .port .J
  | .DDRA => .ddr .A | .DDRB => .ddr .B | .DDRC => .ddr .C
  | .DDRD => .ddr .D | .DDRH => .ddr .H | .DDRJ => .ddr .J
  | .PINA => .pin .A | .PINB => .pin .B | .PINC => .pin .C
  | .PIND => .pin .D | .PINH => .pin .H | .PINJ => .pin .J
  | .CLKPR => .io .clkpr | .OCR0A => .io .ocr0a | .TCCR0A => .io .tccr0a
  | .TCCR0B => .io .tccr0b | .TIMSK0 => .io .timsk0
  | .tick => .tick | .data_polarity => .polarity

/-- The registers change to `r`, after that so many microseconds pass. -/
def Hw.go (B : Board) (W : Outside) (h : Hw) (r : Regs) (us : Nat) : Hw :=
  { h with
    regs := r
    sr := B.clock (W.keys h.time) h.regs r h.sr
    log := h.log ++ [(r, us)]
    time := h.time + 1 }

/-- Read a register or variable. -/
def Hw.read (B : Board) (W : Outside) (h : Hw) : Cell → UInt8
  | .port p => h.regs.port p
  | .ddr p => h.regs.ddr p
  | .pin p => pinValue h.regs p (B.pins (W.keys h.time) (W.other h.time) h.sr h.regs p)
  | .io r => h.regs.io r
  | .tick => h.tick
  | .polarity => h.polarity

/-- Write a register or variable. -/
def Hw.write (B : Board) (W : Outside) (h : Hw) (c : Cell) (v : UInt8) : Hw :=
  match c with
  | .port p => h.go B W { h.regs with port := upd h.regs.port p v } 0
  | .ddr p => h.go B W { h.regs with ddr := upd h.regs.ddr p v } 0
  | .pin p => h.go B W (togglePort h.regs p v) 0
  | .io r => h.go B W (writeIo h.regs r v) 0
  | .tick => { h with tick := v, time := h.time + 1 }
  | .polarity => { h with polarity := v, time := h.time + 1 }

/-- The instructions `SBI` and `CBI`; on `PINx`, `SBI` toggles the bit. -/
def Hw.setBit (B : Board) (W : Outside) (h : Hw) (c : Cell) (b : UInt8) (on : Bool) : Option Hw :=
  match c with
  | .port p => some (h.write B W (.port p) (if on then h.regs.port p ||| b else h.regs.port p &&& ~~~ b))
  | .ddr p => some (h.write B W (.ddr p) (if on then h.regs.ddr p ||| b else h.regs.ddr p &&& ~~~ b))
  | .pin p => if on then some (h.write B W (.pin p) b) else none
  | _ => none

/-- Change the hardware. -/
def St.hw (s : St Hw) (h : Hw) : St Hw := { s with io := h }

/-- If the timer asks for an interrupt and interrupts are enabled, the interrupt routine runs
first, with interrupts disabled.  (Between two accesses to the hardware the program cannot
notice an interrupt, so this is the only place.) -/
def interrupt (W : Outside) (call : Call Hw) (s : St Hw) : Out Hw Val :=
  if s.io.regs.irq && W.fires s.io.time then
    (call .TIMER0_COMPA_vect []
      (s.hw { s.io with regs := { s.io.regs with irq := false }, ints := s.io.ints + 1 })).bind
      fun v s => .ok v (s.hw { s.io with regs := { s.io.regs with irq := true } })
  else .ok .unit s

/-- `io_read` and so on, after the interrupt. -/
def prim (B : Board) (W : Outside) (f : F) (args : List Val) (s : St Hw) : Out Hw Val :=
  match f, args with
  | .io_read, [.reg r] =>
    match cellOf r, s.io.polls with
    | .tick, 0 => .stop s
    | .tick, k + 1 => .ok (.int .u8 s.io.tick.toNat) (s.hw { s.io with
        polls := k, time := s.io.time + 1, found := if s.io.tick = 0 then s.io.found else s.io.found + 1 })
    | c, _ => .ok (.int .u8 (s.io.read B W c).toNat) (s.hw { s.io with time := s.io.time + 1 })
  | .io_write, [.reg r, .int _ n] =>
    .ok (.int .u8 (UInt8.ofInt n).toNat) (s.hw (s.io.write B W (cellOf r) (UInt8.ofInt n)))
  | .set_bit, [.reg r, .int _ n] =>
    match s.io.setBit B W (cellOf r) (oneBit n.toNat) true with
    | some h => .ok .unit (s.hw h)
    | none => .err .badCall
  | .clear_bit, [.reg r, .int _ n] =>
    match s.io.setBit B W (cellOf r) (oneBit n.toNat) false with
    | some h => .ok .unit (s.hw h)
    | none => .err .badCall
  | .cli, [] => .ok .unit (s.hw (s.io.go B W { s.io.regs with irq := false } 0))
  | .sei, [] => .ok .unit (s.hw (s.io.go B W { s.io.regs with irq := true } 0))
  | .delay_us, [.int _ n] => .ok .unit (s.hw (s.io.go B W s.io.regs n.toNat))
  | .delay_ms, [.int _ n] => .ok .unit (s.hw (s.io.go B W s.io.regs (1000 * n.toNat)))
  | _, _ => .err .badCall

/-- What the functions without a body do. -/
def hwExt (B : Board) (W : Outside) (call : Call Hw) (f : F) (args : List Val) (s : St Hw) : Out Hw Val :=
  match f, args with
  | .pgm_read_byte, [.rom t off] => lift (romGet t off) s
  | .asdf_print, [.str t] => if t.contains 37 then .err .type else printAll call t s
  | f, args => (interrupt W call s).bind fun _ s => prim B W f args s

/-- The functions with a body.  `set_bit` and `clear_bit` are `inline` and called with constant
arguments; the optimising compiler makes one instruction of each call (comments at
asdf_arch_atmega328p.c:69-84 and 90-105), so here they have none. -/
def wholeBody (B : Board) (f : F) : Option Fun :=
  match f with
  | .set_bit => none
  | .clear_bit => none
  | f => (body f).orElse fun _ => B.body f

/-- The whole firmware on a board. -/
def hwProg (B : Board) (W : Outside) : Prog Hw := ⟨wholeBody B, hwExt B W⟩

/-- At reset: the registers hold anything, the C start-up code has set the static variables. -/
def Hw.reset (r0 : Regs) (sr : UInt8) (polls : Nat) : Hw :=
  ⟨r0, A328.init_tick, A328.init_data_polarity, sr, [], 0, 0, polls, 0⟩

end Asdf.C
