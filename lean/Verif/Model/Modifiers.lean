import Verif.Model.State

/-! # `asdf_modifiers.c`: shift, caps lock, control -/

namespace Asdf

/-- `SHIFT_ON_ST` (asdf_modifiers.h:49). -/
def SHIFT_ON_ST : UInt8 := 1
/-- `SHIFT_LOCKED_ST` (asdf_modifiers.h:50). -/
def SHIFT_LOCKED_ST : UInt8 := 2

/-- `MOD_PLAIN_MAP` (asdf_modifiers.h:69). -/
def MOD_PLAIN_MAP : Nat := 0
/-- `MOD_SHIFT_MAP` (asdf_modifiers.h:70). -/
def MOD_SHIFT_MAP : Nat := 1
/-- `MOD_CAPS_MAP` (asdf_modifiers.h:71). -/
def MOD_CAPS_MAP : Nat := 2
/-- `MOD_CTRL_MAP` (asdf_modifiers.h:72). -/
def MOD_CTRL_MAP : Nat := 3

/-- `modifier_mapping` (asdf_modifiers.c:44-49). -/
def modifierMapping : List Nat :=
  [MOD_PLAIN_MAP, MOD_SHIFT_MAP, MOD_CAPS_MAP, MOD_SHIFT_MAP,
   MOD_CTRL_MAP, MOD_CTRL_MAP, MOD_CTRL_MAP, MOD_CTRL_MAP]

/-- `asdf_modifier_set_shift_state` (asdf_modifiers.c:62-66). -/
def setShiftState (s : State) (new : UInt8) : Res State := do
  let s := { s with mods := { s.mods with shift := new } }
  let d ← virtAction s.dev VSHIFT_LED (if new &&& SHIFT_LOCKED_ST ≠ 0 then .setHi else .setLo)
  .ok { s with dev := d }

/-- `asdf_modifier_shift_activate` (asdf_modifiers.c:78-81). -/
def shiftActivate (s : State) : Res State := setShiftState s SHIFT_ON_ST

/-- `asdf_modifier_shiftlock_on_activate` (asdf_modifiers.c:96-99). -/
def shiftlockOn (s : State) : Res State := setShiftState s (s.mods.shift ||| SHIFT_LOCKED_ST)

/-- `asdf_modifier_shiftlock_toggle_activate` (asdf_modifiers.c:113-116). -/
def shiftlockToggle (s : State) : Res State := setShiftState s (s.mods.shift ^^^ SHIFT_LOCKED_ST)

/-- `asdf_modifier_set_caps_state` (asdf_modifiers.c:128-132). -/
def setCapsState (s : State) (new : UInt8) : Res State := do
  let s := { s with mods := { s.mods with caps := new } }
  let d ← virtAction s.dev VCAPS_LED (if new ≠ 0 then .setHi else .setLo)
  .ok { s with dev := d }

/-- `asdf_modifier_capslock_activate` (asdf_modifiers.c:144-147). -/
def capslockActivate (s : State) : Res State := setCapsState s (s.mods.caps ^^^ 1)

/-- `asdf_modifier_ctrl_activate` (asdf_modifiers.c:159-162). -/
def ctrlActivate (s : State) : State := { s with mods := { s.mods with ctrl := 1 } }

/-- `asdf_modifier_shift_deactivate` (asdf_modifiers.c:176-179). -/
def shiftDeactivate (s : State) : Res State := setShiftState s 0

/-- `asdf_modifier_ctrl_deactivate` (asdf_modifiers.c:191-194). -/
def ctrlDeactivate (s : State) : State := { s with mods := { s.mods with ctrl := 0 } }

/-- `asdf_modifiers_init` (asdf_modifiers.c:206-211).  Not called by the
firmware, only by the unit tests. -/
def modifiersInit (s : State) : Res State := do
  let s ← setShiftState s 0
  let s ← setCapsState s 0
  .ok { s with mods := { s.mods with ctrl := 0 } }

/-- The bit set `active_modifiers` built by `asdf_modifier_index`
(asdf_modifiers.c:225-235; masks asdf_modifiers.h:38-44). -/
def activeModifiers (m : Mods) : UInt8 :=
  (if m.shift ≠ 0 then 1 else 0) ||| (if m.caps ≠ 0 then 2 else 0) |||
    (if m.ctrl ≠ 0 then 4 else 0)

/-- `asdf_modifier_index` (asdf_modifiers.c:223-238). -/
def modifierIndex (m : Mods) : Res Nat := rd modifierMapping (activeModifiers m).toNat

end Asdf
