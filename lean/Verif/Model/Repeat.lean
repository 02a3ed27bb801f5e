import Verif.Model.Basic

/-! # `asdf_repeat.c`: the repeat timer -/

namespace Asdf

/-- `REPEAT_OFF` (asdf_repeat.c:51). -/
def REPEAT_OFF : UInt16 := 0

/-- `REPEAT_ON` = `ASDF_REPEAT_TIME_MS` = 1000 / 15 = 66
(asdf_repeat.c:52, asdf_config.h:75). -/
def REPEAT_ON : UInt16 := 66

/-- `REPEAT_AUTO` = `ASDF_AUTOREPEAT_TIME_MS` (asdf_repeat.c:53, asdf_config.h:72). -/
def REPEAT_AUTO : UInt16 := 525

/-- The static variables of `asdf_repeat.c` (lines 57, 62, 65).  The enum
`repeat_state_t` is represented by its numeric value. -/
structure RepState where
  state : UInt16
  base : UInt16
  timer : UInt16
  deriving DecidableEq, Repr

/-- Static (zero) initialisation (asdf_repeat.c:57-65). -/
def RepState.zero : RepState := ⟨0, 0, 0⟩

/-- `asdf_repeat_init` (asdf_repeat.c:78-82, asdf_config.h:64). -/
def repInit (_ : RepState) : RepState :=
  { state := REPEAT_AUTO, base := REPEAT_AUTO, timer := REPEAT_AUTO }

/-- `asdf_repeat_reset_count` (asdf_repeat.c:98-101). -/
def repResetCount (r : RepState) : RepState := { r with timer := r.state }

/-- `asdf_repeat_auto_off` (asdf_repeat.c:118-124). -/
def repAutoOff (r : RepState) : RepState :=
  if REPEAT_ON ≠ r.state then { state := REPEAT_OFF, base := REPEAT_OFF, timer := REPEAT_OFF }
  else { r with base := REPEAT_OFF }

/-- `asdf_repeat_auto_on` (asdf_repeat.c:141-147). -/
def repAutoOn (r : RepState) : RepState :=
  if REPEAT_ON ≠ r.state then { state := REPEAT_AUTO, base := REPEAT_AUTO, timer := REPEAT_AUTO }
  else { r with base := REPEAT_AUTO }

/-- `asdf_repeat_activate` (asdf_repeat.c:164-169). -/
def repActivate (r : RepState) : RepState :=
  if r.timer > REPEAT_ON ∨ REPEAT_OFF = r.state then
    { r with state := REPEAT_ON, timer := REPEAT_ON }
  else r

/-- `asdf_repeat_deactivate` (asdf_repeat.c:188-191). -/
def repDeactivate (r : RepState) : RepState := { r with state := r.base, timer := r.base }

/-- `asdf_repeat` (asdf_repeat.c:209-218): count one scan down; `true` when the
held key is to be repeated now. -/
def repTick (r : RepState) : Bool × RepState :=
  if r.timer = 0 then (false, r)
  else
    let t := r.timer - 1
    if t = 0 then (true, { r with timer := REPEAT_ON })
    else (false, { r with timer := t })

end Asdf
