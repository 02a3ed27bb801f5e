import Verif.Model.Basic

/-! # The AVR input/output registers used by the firmware

Only the parts of the ATmega328P and the ATmega2560 that `Arch/asdf_arch_atmega*.c`
touch.  A C function that writes registers is represented by the list of its
register accesses, in program order, so that every intermediate state is visible. -/

namespace Asdf.Avr

/-- The ports used on either board (asdf_arch_atmega328p.h:182-236,
asdf_arch_atmega2560.h:279-332). -/
inductive Port where
  | A | B | C | D | H | J
  deriving DecidableEq, Repr

/-- Clock and timer registers (asdf_arch_atmega328p.c:132-165, 200-203). -/
inductive Io where
  | clkpr | ocr0a | tccr0a | tccr0b | timsk0
  deriving DecidableEq, Repr

/-- The registers.  `clkOpen` is the hardware's short time window, opened by
writing `0x80` to `CLKPR`, in which the prescaler can be changed; `irq` is the
global interrupt flag. -/
structure Regs where
  port : Port → UInt8
  ddr : Port → UInt8
  io : Io → UInt8
  clkOpen : Bool
  irq : Bool

/-- A memory with one cell changed.  (Modelling device.) -/
def upd {α : Type} [DecidableEq α] (f : α → UInt8) (a : α) (v : UInt8) : α → UInt8 :=
  fun b => if b = a then v else f b

/-- `1 << bit` as a byte (asdf_arch_atmega328p.c:87, 108). -/
def oneBit (b : Nat) : UInt8 := (1 : UInt8) <<< UInt8.ofNat b

/-- The register accesses of the two architecture files. -/
inductive Op where
  /-- `set_bit(&PORTx, b)` (asdf_arch_atmega328p.c:85-88) -/
  | setPort (p : Port) (b : Nat)
  /-- `clear_bit(&PORTx, b)` (asdf_arch_atmega328p.c:106-109) -/
  | clrPort (p : Port) (b : Nat)
  /-- `set_bit(&DDRx, b)` -/
  | setDdr (p : Port) (b : Nat)
  /-- `clear_bit(&DDRx, b)` -/
  | clrDdr (p : Port) (b : Nat)
  /-- `set_bit(&PINx, b)` -/
  | setPin (p : Port) (b : Nat)
  /-- `PORTx = (PORTx & keep) | v` -/
  | mixPort (p : Port) (keep v : UInt8)
  /-- `DDRx |= v` -/
  | orDdr (p : Port) (v : UInt8)
  /-- `PORTx = v` -/
  | wrPort (p : Port) (v : UInt8)
  /-- `DDRx = v` -/
  | wrDdr (p : Port) (v : UInt8)
  /-- assignment to a clock or timer register -/
  | wrIo (r : Io) (v : UInt8)
  /-- `cli()` / `sei()` -/
  | irq (on : Bool)
  /-- `_delay_us` -/
  | delayUs (us : Nat)
  deriving DecidableEq, Repr

/-- How the compiler translates `set_bit(&PINx, b)`.  With optimisation (the
default Release build, cmake/generic-gcc-avr.cmake:58, 191-200) the function is
inlined with constant arguments and becomes a single `SBI` instruction; without
(the Debug build, cmake/generic-gcc-avr.cmake:54) it is the literal load, or,
store of the C text. -/
inductive CodeGen where
  | sbi | literal
  deriving DecidableEq, Repr

/-- The byte read from `PINx`: an output pin reads its own level, an input pin the
level `ext` the outside world puts on it. -/
def pinValue (r : Regs) (p : Port) (ext : UInt8) : UInt8 :=
  (r.port p &&& r.ddr p) ||| (ext &&& ~~~ (r.ddr p))

/-- Writing ones to `PINx` toggles those bits of `PORTx` (ATmega data sheets,
"Toggling the Pin"). -/
def togglePort (r : Regs) (p : Port) (v : UInt8) : Regs :=
  { r with port := upd r.port p (r.port p ^^^ v) }

/-- Writing a clock or timer register.  `CLKPR` changes only in the window opened
by writing exactly the `CLKPCE` bit (ATmega data sheets, "Clock Prescale
Register"); the window is modelled as lasting until the next register access of
this kind, which can only make the firmware's write more effective. -/
def writeIo (r : Regs) (reg : Io) (v : UInt8) : Regs :=
  match reg with
  | .clkpr =>
    if v = 0x80 then { r with clkOpen := true }
    else if r.clkOpen then { r with io := upd r.io .clkpr (v &&& 0x0f), clkOpen := false }
    else r
  | reg => { r with io := upd r.io reg v, clkOpen := false }

/-- The effect of one access.  `ext` gives the level the outside world puts on the
pins of every port (it matters only for the literal reading of `PINx |= ...`). -/
def access (cg : CodeGen) (ext : Port → UInt8) (r : Regs) : Op → Regs
  | .setPort p b => { r with port := upd r.port p (r.port p ||| oneBit b) }
  | .clrPort p b => { r with port := upd r.port p (r.port p &&& ~~~ (oneBit b)) }
  | .setDdr p b => { r with ddr := upd r.ddr p (r.ddr p ||| oneBit b) }
  | .clrDdr p b => { r with ddr := upd r.ddr p (r.ddr p &&& ~~~ (oneBit b)) }
  | .setPin p b =>
    match cg with
    | .sbi => togglePort r p (oneBit b)
    | .literal => togglePort r p (pinValue r p (ext p) ||| oneBit b)
  | .mixPort p keep v => { r with port := upd r.port p ((r.port p &&& keep) ||| v) }
  | .orDdr p v => { r with ddr := upd r.ddr p (r.ddr p ||| v) }
  | .wrPort p v => { r with port := upd r.port p v }
  | .wrDdr p v => { r with ddr := upd r.ddr p v }
  | .wrIo reg v => writeIo r reg v
  | .irq on => { r with irq := on }
  | .delayUs _ => r

/-- The register states after each access of a sequence, in order. -/
def states (cg : CodeGen) (ext : Port → UInt8) (r : Regs) : List Op → List Regs
  | [] => []
  | op :: ops => access cg ext r op :: states cg ext (access cg ext r op) ops

/-- The register state after a sequence of accesses. -/
def exec (cg : CodeGen) (ext : Port → UInt8) (r : Regs) (ops : List Op) : Regs :=
  ops.foldl (access cg ext) r

/-! ## Constants and functions that are the same in both files -/

/-- `ASDF_DEFAULT_DATA_POLARITY` (asdf_config.h:34-38); `data_polarity` is never
assigned another value (asdf_arch_atmega328p.c:47, 727; asdf_arch_atmega2560.c:49, 731). -/
def DATA_POLARITY : UInt8 := 0

/-- `ASDF_STROBE_LENGTH_US` (asdf_arch_atmega328p.h:38, asdf_arch_atmega2560.h:38). -/
def STROBE_LENGTH_US : Nat := 10

/-- `asdf_arch_pulse_delay_short` (asdf_arch_atmega328p.c:656-659,
asdf_arch_atmega2560.c:659-662, asdf_config.h:78). -/
def delayShortOps : List Op := [.delayUs 10]

/-- `asdf_arch_pulse_delay_long` (asdf_arch_atmega328p.c:675-678,
asdf_arch_atmega2560.c:679-682, asdf_config.h:81). -/
def delayLongOps : List Op := [.delayUs 50000]

/-- `asdf_arch_delay_ms` (asdf_arch_atmega328p.c:692-697, asdf_arch_atmega2560.c:696-701). -/
def delayMsOps (ms : UInt16) : List Op := List.replicate ms.toNat (.delayUs 1000)

/-- Bit number `CLKPCE` of `CLKPR` (avr/iom328p.h, avr/iomxx0_1.h). -/
def CLKPCE : UInt8 := 7

/-- `SYSCLK_DIV1` (asdf_arch_atmega328p.h:42, asdf_arch_atmega2560.h:43). -/
def SYSCLK_DIV1 : UInt8 := 0

/-- `asdf_arch_init_clock` (asdf_arch_atmega328p.c:200-203,
asdf_arch_atmega2560.c:201-204): the bit *number* is written, not the bit. -/
def initClockOps : List Op := [.wrIo .clkpr (CLKPCE ||| SYSCLK_DIV1)]

/-- `TIMER0_WFM_CTC | TIMER0_DIV64 | TIMER0_INT_ON_COMA`
(asdf_arch_atmega328p.h:54-65, asdf_arch_atmega2560.h:56-67, with `WGM01` = 1,
`CS01` = 1, `CS00` = 0, `OCIE0A` = 1). -/
def TIMER0_BITS : Nat := (1 <<< 1) ||| ((1 <<< 8) <<< 1 ||| (1 <<< 8) <<< 0) ||| ((1 <<< 16) <<< 1)

/-- `arch_timer0_config` (asdf_arch_atmega328p.c:132-138,
asdf_arch_atmega2560.c:133-139). -/
def timer0ConfigOps (bits : Nat) : List Op :=
  [.wrIo .tccr0b 0,
   .wrIo .tccr0a (UInt8.ofNat ((bits >>> 0) &&& 0xff)),
   .wrIo .timsk0 (UInt8.ofNat ((bits >>> 16) &&& 0xff)),
   .wrIo .tccr0b (UInt8.ofNat ((bits >>> 8) &&& 0xff))]

/-- The register part of `asdf_arch_tick_timer_init` (asdf_arch_atmega328p.c:154-165,
asdf_arch_atmega2560.c:155-166); the variable `tick` is in `Model/Tick.lean`. -/
def tickTimerInitOps (tickCount : UInt8) : List Op :=
  .wrIo .ocr0a tickCount :: timer0ConfigOps TIMER0_BITS

end Asdf.Avr
