/-!
# C arrays, undefined behaviour and shared constants

All paths in citations are relative to `/repo/firmware/asdf/src`.
-/

namespace Asdf

/-- The ways in which a run of the C code can leave defined behaviour.
(Modelling device; no C counterpart.) -/
inductive UB where
  /-- array access, or pointer formation, outside an object -/
  | oob
  /-- read through a null key-table pointer -/
  | nullDeref
  /-- call through a null or wrongly typed function pointer -/
  | badCall
  /-- `% 0` -/
  | divZero
  /-- signed integer overflow (16-bit `int` of the AVR) -/
  | overflow
  /-- a loop did not end within its fuel -/
  | diverge
  /-- `asdf_keyscan` called from inside a scan through a hook -/
  | reentry
  deriving DecidableEq, Repr

/-- Result of a C function: a value, or undefined behaviour.
(Modelling device; no C counterpart.) -/
abbrev Res := Except UB

deriving instance DecidableEq for Except

/-- Read `a[i]` of a C array.  (Modelling device; no C counterpart.) -/
def rd {α : Type} (l : List α) (i : Nat) : Res α :=
  match l[i]? with
  | some x => .ok x
  | none => .error .oob

/-- Write `a[i] = x` to a C array.  (Modelling device; no C counterpart.) -/
def wr {α : Type} (l : List α) (i : Nat) (x : α) : Res (List α) :=
  if i < l.length then .ok (l.set i x) else .error .oob

/-- Array read with a signed index.  (Modelling device.) -/
def rdI {α : Type} (l : List α) (i : Int) : Res α :=
  if 0 ≤ i then rd l i.toNat else .error .oob

/-- Array write with a signed index.  (Modelling device.) -/
def wrI {α : Type} (l : List α) (i : Int) (x : α) : Res (List α) :=
  if 0 ≤ i then wr l i.toNat x else .error .oob

/-- Key codes: `asdf_keycode_t` is `uint8_t` (asdf.h:50). -/
abbrev Code := UInt8

/-- `ASDF_INVALID_CODE` = `ASDF_ACTION` = `ACTION_NOTHING` = 0xA0
(asdf.h:33-36, 54-55). -/
def INVALID_CODE : Code := 0xA0

/-- `ASDF_MAX_ROWS` (asdf.h:40). -/
def MAX_ROWS : Nat := 16

/-- `ASDF_MAX_COLS` (asdf.h:39). -/
def MAX_COLS : Nat := 8

/-- `ASDF_DEBOUNCE_TIME_MS` (asdf_config.h:60). -/
def DEBOUNCE_TIME : UInt8 := 10

/-- `ASDF_KEYCODE_BUFFER_SIZE` (asdf_config.h:53). -/
def KEYCODE_BUFFER_SIZE : Int := 16

/-- `ASDF_MESSAGE_BUFFER_SIZE` (asdf_config.h:55). -/
def MESSAGE_BUFFER_SIZE : Int := 128

/-- `ASDF_BUFFER_POOL_SIZE` (asdf_config.h:57). -/
def POOL_SIZE : Nat := 144

/-- `ASDF_BUFFER_NUM_HANDLES` (asdf_buffer.h:38). -/
def NUM_HANDLES : Nat := 4

/-- Number of physical outputs, `ASDF_PHYSICAL_NUM_RESOURCES`
(asdf_physical.h:35-50). -/
def NUM_PHYS : Nat := 13

/-- Number of virtual outputs, `ASDF_VIRTUAL_NUM_RESOURCES`
(asdf_virtual.h:32-46). -/
def NUM_VIRT : Nat := 12

/-- Number of hooks, `ASDF_NUM_HOOKS` (asdf_hook.h:47). -/
def NUM_HOOKS : Nat := 16

/-- `ASDF_MOD_NUM_MODIFIERS` (asdf_modifiers.h:68-73). -/
def NUM_MODIFIERS : Nat := 4

/-- Observable hardware effects of the portable part of the firmware, in the
order in which they occur.  (Modelling device: the calls into
`Arch/asdf_arch_*.c`.) -/
inductive Event where
  /-- call of the output handler of physical device `dev` (asdf_physical.c:50-64) -/
  | out (dev : Nat) (value : UInt8)
  /-- `asdf_arch_pulse_delay_short` -/
  | delayShort
  /-- `asdf_arch_pulse_delay_long` -/
  | delayLong
  /-- `asdf_arch_delay_ms` -/
  | delayMs (ms : UInt16)
  /-- `asdf_arch_set_pos_strobe` -/
  | posStrobe
  /-- `asdf_arch_set_neg_strobe` -/
  | negStrobe
  /-- `asdf_arch_init` -/
  | archInit
  /-- `asdf_arch_send_code` -/
  | send (code : Code)
  deriving DecidableEq, Repr

end Asdf
