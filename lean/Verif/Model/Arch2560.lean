import Verif.Model.Avr
import Verif.Model.Device

/-! # `Arch/asdf_arch_atmega2560.c`: the ATmega2560 board

Line numbers without a file name refer to this file; the pin assignment is in
`asdf_arch_atmega2560.h:279-332`. -/

namespace Asdf.Avr.M2560

/-- `asdf_arch_led1_set` (lines 242-250); the LED is on when the pin is low. -/
def led1Set (v : UInt8) : List Op := if v ≠ 0 then [.clrPort .D 5] else [.setPort .D 5]

/-- `asdf_arch_led2_set` (lines 267-275). -/
def led2Set (v : UInt8) : List Op := if v ≠ 0 then [.clrPort .D 6] else [.setPort .D 6]

/-- `asdf_arch_led3_set` (lines 292-300). -/
def led3Set (v : UInt8) : List Op := if v ≠ 0 then [.clrPort .D 7] else [.setPort .D 7]

/-- `asdf_arch_null_output` (lines 316-319). -/
def nullOutput (_ : UInt8) : List Op := []

/-- `asdf_arch_out1_set` (lines 335-344). -/
def out1Set (v : UInt8) : List Op :=
  (if v ≠ 0 then [.setPort .B 5] else [.clrPort .B 5]) ++ [.setDdr .B 5]

/-- `asdf_arch_out1_open_hi_set` (lines 360-370). -/
def out1OpenHi (v : UInt8) : List Op :=
  if v ≠ 0 then [.clrDdr .B 5, .setPort .B 5] else [.clrPort .B 5, .setDdr .B 5]

/-- `asdf_arch_out1_open_lo_set` (lines 386-396). -/
def out1OpenLo (v : UInt8) : List Op :=
  if v ≠ 0 then [.setPort .B 5, .setDdr .B 5] else [.clrDdr .B 5, .clrPort .B 5]

/-- `asdf_arch_out2_set` (lines 412-421). -/
def out2Set (v : UInt8) : List Op :=
  (if v ≠ 0 then [.setPort .B 6] else [.clrPort .B 6]) ++ [.setDdr .B 6]

/-- `asdf_arch_out2_open_hi_set` (lines 437-447). -/
def out2OpenHi (v : UInt8) : List Op :=
  if v ≠ 0 then [.clrDdr .B 6, .setPort .B 6] else [.clrPort .B 6, .setDdr .B 6]

/-- `asdf_arch_out2_open_lo_set` (lines 463-473). -/
def out2OpenLo (v : UInt8) : List Op :=
  if v ≠ 0 then [.setPort .B 6, .setDdr .B 6] else [.clrDdr .B 6, .clrPort .B 6]

/-- `asdf_arch_out3_set` (lines 489-498). -/
def out3Set (v : UInt8) : List Op :=
  (if v ≠ 0 then [.setPort .B 7] else [.clrPort .B 7]) ++ [.setDdr .B 7]

/-- `asdf_arch_out3_open_hi_set` (lines 514-524). -/
def out3OpenHi (v : UInt8) : List Op :=
  if v ≠ 0 then [.clrDdr .B 7, .setPort .B 7] else [.clrPort .B 7, .setDdr .B 7]

/-- `asdf_arch_out3_open_lo_set` (lines 540-550). -/
def out3OpenLo (v : UInt8) : List Op :=
  if v ≠ 0 then [.setPort .B 7, .setDdr .B 7] else [.clrDdr .B 7, .clrPort .B 7]

/-- The handlers of `physical_device_table` (asdf_physical.c:50-64). -/
def handler (dev : Nat) (v : UInt8) : List Op :=
  if dev = PHYSICAL_OUT1 then out1Set v
  else if dev = PHYSICAL_OUT2 then out2Set v
  else if dev = PHYSICAL_OUT3 then out3Set v
  else if dev = PHYSICAL_OUT1_OPEN_HI then out1OpenHi v
  else if dev = PHYSICAL_OUT2_OPEN_HI then out2OpenHi v
  else if dev = PHYSICAL_OUT3_OPEN_HI then out3OpenHi v
  else if dev = PHYSICAL_OUT1_OPEN_LO then out1OpenLo v
  else if dev = PHYSICAL_OUT2_OPEN_LO then out2OpenLo v
  else if dev = PHYSICAL_OUT3_OPEN_LO then out3OpenLo v
  else if dev = PHYSICAL_LED1 then led1Set v
  else if dev = PHYSICAL_LED2 then led2Set v
  else if dev = PHYSICAL_LED3 then led3Set v
  else nullOutput v

/-- `asdf_arch_set_pos_strobe` (lines 565-569). -/
def posStrobe : List Op := [.clrPort .B 4, .setDdr .B 4]

/-- `asdf_arch_set_neg_strobe` (lines 583-587). -/
def negStrobe : List Op := [.setPort .B 4, .setDdr .B 4]

/-- `asdf_arch_init_ascii_output` (lines 601-606). -/
def initAscii : List Op := [.wrPort .H DATA_POLARITY, .wrDdr .H 0xff]

/-- `asdf_arch_init_columns` (lines 620-624). -/
def initColumns : List Op := [.wrDdr .C 0, .wrPort .C 0xff]

/-- `asdf_arch_init_row_outputs` (lines 638-642). -/
def initRowOutputs : List Op := [.wrDdr .A 0xff, .wrDdr .J 0xff]

/-- `asdf_arch_init_leds` (lines 219-224). -/
def initLeds : List Op := [.setDdr .D 5, .setDdr .D 6, .setDdr .D 7]

/-- `TICK_COUNT` (asdf_arch_atmega2560.h:349). -/
def TICK_COUNT : UInt8 := 249

/-- `F_CPU` (asdf_arch_atmega2560.h:36). -/
def F_CPU : Nat := 16000000

/-- `asdf_arch_init` (lines 715-747); the default strobe polarity is positive
(asdf_config.h:41). -/
def init : List Op :=
  [.irq false] ++ initClockOps ++ tickTimerInitOps TICK_COUNT ++ initAscii ++ posStrobe ++
    initLeds ++ initRowOutputs ++ initColumns ++ [.irq true]

/-- `asdf_arch_send_code` (lines 854-865). -/
def sendCode (code : Code) : List Op :=
  [.wrPort .H (code ^^^ DATA_POLARITY), .setPin .B 4, .delayUs STROBE_LENGTH_US, .setPin .B 4]

/-- The register accesses of each hardware event of the portable part. -/
def opsOf : Event → List Op
  | .out dev v => handler dev v
  | .delayShort => delayShortOps
  | .delayLong => delayLongOps
  | .delayMs ms => delayMsOps ms
  | .posStrobe => posStrobe
  | .negStrobe => negStrobe
  | .archInit => init
  | .send code => sendCode code

/-! ## The row reader and the key matrix outside the controller -/

/-- Lines 775, 777 and 779: `~(1L << row)` and its two low bytes.  `long` has 32
bits; shifting by 31 or more is undefined (`none`). -/
def rowBytes (row : UInt8) : Option (UInt8 × UInt8) :=
  if row.toNat < 31 then
    let rows : UInt32 := ~~~ ((1 : UInt32) <<< UInt32.ofNat row.toNat)
    some (UInt8.ofNat (rows &&& 0xff).toNat, UInt8.ofNat ((rows >>> 8) &&& 0xff).toNat)
  else none

/-- `ASDF_KEYBOARD_ROW_SETTLING_TIME_US` (asdf_arch_atmega2560.h:39). -/
def SETTLING_US : Nat := 4

/-- The accesses of lines 777-780. -/
def rowOps (lo hi : UInt8) : List Op :=
  [.wrPort .J lo, .delayUs SETTLING_US, .wrPort .A hi, .delayUs SETTLING_US]

/-- `asdf_arch_read_row` (lines 773-783).  `cols r` is the byte the outside world
puts on port C when the registers are `r`.  The result is the value and the
register states gone through. -/
def readRow (cols : Regs → UInt8) (row : UInt8) (r : Regs) : Res (UInt8 × List Regs) :=
  match rowBytes row with
  | none => .error .overflow
  | some (lo, hi) =>
    let sts := states .sbi (fun _ => 0) r (rowOps lo hi)
    let r' := exec .sbi (fun _ => 0) r (rowOps lo hi)
    .ok (~~~ (pinValue r' .C (cols r')), sts)

/-- The accesses of lines 813-823. -/
def osiOps (row : UInt8) : List Op :=
  [.clrPort .A 1, .wrDdr .C 0xff, .wrPort .C ((1 : UInt8) <<< row), .clrPort .A 2, .setPort .A 2,
   .wrDdr .C 0]

/-- `asdf_arch_osi_read_row` (lines 805-832), the row reader for an OSI keyboard;
the statements after the `return` in line 824 are unreachable. -/
def osiReadRow (cols : Regs → UInt8) (row : UInt8) (r : Regs) : Res (UInt8 × List Regs) :=
  if 7 < row then readRow cols row r
  else
    let r' := exec .sbi (fun _ => 0) r (osiOps row)
    .ok (pinValue r' .C (cols r'), states .sbi (fun _ => 0) r (osiOps row))

end Asdf.Avr.M2560
