import Verif.Model.CSource

/-! # The functions the portable firmware calls but does not contain

The hardware layer (`Arch/asdf_arch.h`), `pgm_read_byte` of the C library
(avr/pgmspace.h), `asdf_print` (asdf_print.c, which calls `vfprintf` of the C library), and the
whole program.  What the hardware layer does is the subject of `Model/Avr.lean`; here each of
its functions leaves an event. -/

namespace Asdf.C

/-- The outside world: the hardware effects so far; what `asdf_arch_tick` will answer
(`none` for "no", the row readings of that millisecond for "yes"); the row readings now
(`none` before the first millisecond). -/
structure Io where
  trace : List Event
  polls : List (Option Input)
  keys : Option Input

/-- Note a hardware effect. -/
def St.emit (s : St Io) (e : Event) : St Io := { s with io := { s.io with trace := s.io.trace ++ [e] } }

/-- Number of the physical output that a function of the hardware layer sets
(asdf_physical.c:50-64). -/
def outputOf : F → Option Nat
  | .asdf_arch_null_output => some 0
  | .asdf_arch_out1_set => some 1
  | .asdf_arch_out1_open_hi_set => some 2
  | .asdf_arch_out1_open_lo_set => some 3
  | .asdf_arch_out2_set => some 4
  | .asdf_arch_out2_open_hi_set => some 5
  | .asdf_arch_out2_open_lo_set => some 6
  | .asdf_arch_out3_set => some 7
  | .asdf_arch_out3_open_hi_set => some 8
  | .asdf_arch_out3_open_lo_set => some 9
  | .asdf_arch_led1_set => some 10
  | .asdf_arch_led2_set => some 11
  | .asdf_arch_led3_set => some 12
  | _ => none

/-- `asdf_print` (asdf_print.c:55-62): `vfprintf` of a text without conversions, to a stream
made with `FDEV_SETUP_STREAM(asdf_putc, NULL, …)` (asdf_print.c:34-35); avr-libc calls
`asdf_putc` once for each character and ignores its result. -/
def printAll {ι : Type} (call : Call ι) : List Code → St ι → Out ι Val
  | [], s => .ok .unit s
  | c :: cs, s => (call .asdf_putc [.int .i8 (conv .i8 c.toNat), .null] s).bind fun _ s => printAll call cs s

/-- Which hardware event a call of a function of the hardware layer is (Arch/asdf_arch.h). -/
def callEvent (f : F) (args : List Val) : Option Event :=
  match f, args with
  | .asdf_arch_init, [] => some .archInit
  | .asdf_arch_send_code, [.int _ n] => some (.send (UInt8.ofInt n))
  | .asdf_arch_set_pos_strobe, [] => some .posStrobe
  | .asdf_arch_set_neg_strobe, [] => some .negStrobe
  | .asdf_arch_pulse_delay_short, [] => some .delayShort
  | .asdf_arch_pulse_delay_long, [] => some .delayLong
  | .asdf_arch_delay_ms, [.int _ n] => some (.delayMs (UInt16.ofInt n))
  | f, [.int _ n] => (outputOf f).map fun d => .out d (UInt8.ofInt n)
  | _, _ => none

/-- What the functions without a body do (Arch/asdf_arch.h). -/
def ext (call : Call Io) (f : F) (args : List Val) (s : St Io) : Out Io Val :=
  match callEvent f args with
  | some e => .ok .unit (s.emit e)
  | none =>
    match f, args with
    | .asdf_arch_tick, [] =>
      match s.io.polls with
      | [] => .stop s
      | none :: ps => .ok (.int .u8 0) { s with io := { s.io with polls := ps } }
      | some inp :: ps => .ok (.int .u8 1) { s with io := { s.io with polls := ps, keys := some inp } }
    | .asdf_arch_read_row, [.int _ n] =>
      match s.io.keys with
      | some inp => .ok (.int .u8 (inp (conv .u8 n).toNat).toNat) s
      | none => .err .badCall
    | .pgm_read_byte, [.rom t off] => lift (romGet t off) s
    | .asdf_print, [.str t] => if t.contains 37 then .err .type else printAll call t s
    | _, _ => .err .badCall

/-- The portable firmware. -/
def prog : Prog Io := ⟨body, ext⟩

/-- The memory at reset (C zero-initialises what has no initialiser), no local variables;
the hardware will answer `polls`. -/
def start (polls : List (Option Input)) : St Io := ⟨mem0, [], ⟨[], polls, none⟩⟩

end Asdf.C
