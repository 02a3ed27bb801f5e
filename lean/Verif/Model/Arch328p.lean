import Verif.Model.Avr
import Verif.Model.Device

/-! # `Arch/asdf_arch_atmega328p.c`: the ATmega328P board

Line numbers without a file name refer to this file; the pin assignment is in
`asdf_arch_atmega328p.h:182-236`. -/

namespace Asdf.Avr.M328

/-- `asdf_arch_led1_set` (lines 241-249); the LED is on when the pin is low. -/
def led1Set (v : UInt8) : List Op := if v ≠ 0 then [.clrPort .C 4] else [.setPort .C 4]

/-- `asdf_arch_led2_set` (lines 266-274). -/
def led2Set (v : UInt8) : List Op := if v ≠ 0 then [.setPort .B 5] else [.clrPort .B 5]

/-- `asdf_arch_led3_set` (lines 291-299). -/
def led3Set (v : UInt8) : List Op := if v ≠ 0 then [.setPort .B 4] else [.clrPort .B 4]

/-- `asdf_arch_out1_set` (lines 315-324). -/
def out1Set (v : UInt8) : List Op :=
  (if v ≠ 0 then [.setPort .C 5] else [.clrPort .C 5]) ++ [.setDdr .C 5]

/-- `asdf_arch_out1_open_hi_set` (lines 340-350). -/
def out1OpenHi (v : UInt8) : List Op :=
  if v ≠ 0 then [.clrDdr .C 5, .setPort .C 5] else [.clrPort .C 5, .setDdr .C 5]

/-- `asdf_arch_out1_open_lo_set` (lines 366-376). -/
def out1OpenLo (v : UInt8) : List Op :=
  if v ≠ 0 then [.setPort .C 5, .setDdr .C 5] else [.clrDdr .C 5, .clrPort .C 5]

/-- `asdf_arch_out2_set` (lines 393-402): inverted. -/
def out2Set (v : UInt8) : List Op :=
  (if v ≠ 0 then [.clrPort .B 3] else [.setPort .B 3]) ++ [.setDdr .B 3]

/-- `asdf_arch_null_output` (lines 418-421). -/
def nullOutput (_ : UInt8) : List Op := []

/-- `asdf_arch_out2_open_hi_set` (lines 437-440). -/
def out2OpenHi (v : UInt8) : List Op := nullOutput v

/-- `asdf_arch_out2_open_lo_set` (lines 456-459). -/
def out2OpenLo (v : UInt8) : List Op := nullOutput v

/-- `asdf_arch_out3_set` (lines 475-484). -/
def out3Set (v : UInt8) : List Op :=
  (if v ≠ 0 then [.setPort .B 7] else [.clrPort .B 7]) ++ [.setDdr .B 7]

/-- `asdf_arch_out3_open_hi_set` (lines 500-510). -/
def out3OpenHi (v : UInt8) : List Op :=
  if v ≠ 0 then [.clrDdr .B 7, .setPort .B 7] else [.clrPort .B 7, .setDdr .B 7]

/-- `asdf_arch_out3_open_lo_set` (lines 526-536). -/
def out3OpenLo (v : UInt8) : List Op :=
  if v ≠ 0 then [.setPort .B 7, .setDdr .B 7] else [.clrDdr .B 7, .clrPort .B 7]

/-- The handlers of `physical_device_table` (asdf_physical.c:50-64). -/
def handler (dev : Nat) (v : UInt8) : List Op :=
  if dev = PHYSICAL_OUT1 then out1Set v
  else if dev = PHYSICAL_OUT2 then out2Set v
  else if dev = PHYSICAL_OUT3 then out3Set v
  else if dev = PHYSICAL_OUT1_OPEN_HI then out1OpenHi v
  else if dev = PHYSICAL_OUT2_OPEN_HI then out2OpenHi v
  else if dev = PHYSICAL_OUT3_OPEN_HI then out3OpenHi v
  else if dev = PHYSICAL_OUT1_OPEN_LO then out1OpenLo v
  else if dev = PHYSICAL_OUT2_OPEN_LO then out2OpenLo v
  else if dev = PHYSICAL_OUT3_OPEN_LO then out3OpenLo v
  else if dev = PHYSICAL_LED1 then led1Set v
  else if dev = PHYSICAL_LED2 then led2Set v
  else if dev = PHYSICAL_LED3 then led3Set v
  else nullOutput v

/-- `asdf_arch_set_pos_strobe` (lines 551-555). -/
def posStrobe : List Op := [.clrPort .B 6, .setDdr .B 6]

/-- `asdf_arch_set_neg_strobe` (lines 569-573). -/
def negStrobe : List Op := [.setPort .B 6, .setDdr .B 6]

/-- `asdf_arch_init_ascii_output` (lines 587-593). -/
def initAscii : List Op := [.wrPort .D DATA_POLARITY, .wrDdr .D 0xff]

/-- `asdf_arch_init_column_control` (lines 608-622). -/
def initColumnControl : List Op :=
  [.clrPort .B 2, .setDdr .B 2, .setPort .B 1, .setDdr .B 1, .clrDdr .B 0, .clrPort .B 0]

/-- `asdf_arch_init_row_outputs` (lines 636-640). -/
def initRowOutputs : List Op := [.mixPort .C (~~~ 0x0f) 0, .orDdr .C 0x0f]

/-- `asdf_arch_init_leds` (lines 218-223). -/
def initLeds : List Op := [.setDdr .C 4, .setDdr .B 5, .setDdr .B 4]

/-- `TICK_COUNT` (asdf_arch_atmega328p.h:253). -/
def TICK_COUNT : UInt8 := 124

/-- `F_CPU` (asdf_arch_atmega328p.h:36). -/
def F_CPU : Nat := 8000000

/-- `asdf_arch_init` (lines 711-747); the default strobe polarity is positive
(asdf_config.h:41). -/
def init : List Op :=
  [.irq false] ++ initClockOps ++ tickTimerInitOps TICK_COUNT ++ initAscii ++ posStrobe ++
    initLeds ++ initLeds ++ initRowOutputs ++ initColumnControl ++ [.irq true]

/-- `asdf_arch_send_code` (lines 823-834). -/
def sendCode (code : Code) : List Op :=
  [.wrPort .D (code ^^^ DATA_POLARITY), .setPin .B 6, .delayUs STROBE_LENGTH_US, .setPin .B 6]

/-- The register accesses of each hardware event of the portable part. -/
def opsOf : Event → List Op
  | .out dev v => handler dev v
  | .delayShort => delayShortOps
  | .delayLong => delayLongOps
  | .delayMs ms => delayMsOps ms
  | .posStrobe => posStrobe
  | .negStrobe => negStrobe
  | .archInit => init
  | .send code => sendCode code

/-! ## The row reader and the shift register outside the controller -/

/-- The board outside the controller: `sr` is the content of the 8-bit
parallel-load shift register whose output is read on pin B0 (bit 0 is at the
output), `log` the register states the controller went through since `regs`
was taken over.  (Modelling device.) -/
structure World where
  regs : Regs
  sr : UInt8
  log : List Regs

/-- The row number on the decoder inputs, port C bits 0-3. -/
def rowLines (r : Regs) : Nat := (r.port .C &&& 0x0f).toNat

/-- The shift register at a controller access: on a rising edge of its clock (B2)
it loads the column lines when its mode input (B1) is low, and shifts by one
position otherwise.  The column lines of the selected row are low where a key is
closed (note 1, lines 758-762); `keys` gives the closed keys of each row. -/
def shiftReg (keys : Nat → UInt8) (old new : Regs) (sr : UInt8) : UInt8 :=
  if (old.port .B &&& oneBit 2 = 0) ∧ (new.port .B &&& oneBit 2 ≠ 0) then
    if new.port .B &&& oneBit 1 = 0 then ~~~ (keys (rowLines new)) else sr >>> 1
  else sr

/-- One register access of the controller on the board.  The access is never
`set_bit(&PINx, ..)` here, so the code generation and the external levels do not
matter. -/
def World.exec (keys : Nat → UInt8) (w : World) (op : Op) : World :=
  let r := access .sbi (fun _ => 0) w.regs op
  { regs := r, sr := shiftReg keys w.regs r w.sr, log := w.log ++ [r] }

/-- `ASDF_COL_PIN`: reading `PINB`; pin B0 is connected to the shift register
output, the levels of the other inputs are arbitrary (`other`). -/
def World.pinB (w : World) (other : UInt8) : UInt8 :=
  pinValue w.regs .B ((other &&& ~~~ 1) ||| (w.sr &&& 1))

/-- The accesses of lines 776-788: output the row number, load the shift register. -/
def loadOps (row : UInt8) : List Op :=
  [.mixPort .C (~~~ 0x0f) ((row &&& 0x0f) <<< 0), .clrPort .B 1, .setPort .B 2, .clrPort .B 2,
   .setPort .B 1]

/-- One iteration of the loop in lines 793-799. -/
def readBit (keys : Nat → UInt8) (other : UInt8) (st : UInt8 × World) (i : Nat) : UInt8 × World :=
  let cols := st.1 ||| ((((~~~ (st.2.pinB other)) >>> 0) &&& 1) <<< UInt8.ofNat i)
  let w := st.2.exec keys (.setPort .B 2)
  let w := w.exec keys (.clrPort .B 2)
  (cols, w)

/-- `asdf_arch_read_row` (lines 770-801). -/
def readRow (keys : Nat → UInt8) (other : UInt8) (row : UInt8) (w : World) : UInt8 × World :=
  (List.range MAX_COLS).foldl (readBit keys other) (0, (loadOps row).foldl (World.exec keys) w)

end Asdf.Avr.M328
