import Verif.Model.Modifiers

/-! # The unit tests of `test/test_asdf_modifiers.c`, run on the model

Checks of the model, not properties: each unit test is replayed call by call.  The
theorems carry the names of the C tests. -/

namespace Asdf.Tests

/-- A call of a test on the modifiers. -/
inductive ModCall where
  | shift | unshift | shiftlock | caps | ctrl | unctrl
  /-- `TESTMAP`: read the modifier index -/
  | map

/-- The modifier indices a test reads, in order. -/
def modRun : State → List ModCall → Res (List Nat)
  | _, [] => .ok []
  | s, .shift :: l => do let s ← shiftActivate s; modRun s l
  | s, .unshift :: l => do let s ← shiftDeactivate s; modRun s l
  | s, .shiftlock :: l => do let s ← shiftlockOn s; modRun s l
  | s, .caps :: l => do let s ← capslockActivate s; modRun s l
  | s, .ctrl :: l => modRun (ctrlActivate s) l
  | s, .unctrl :: l => modRun (ctrlDeactivate s) l
  | s, .map :: l => do
    let i ← modifierIndex s.mods
    let r ← modRun s l
    .ok (i :: r)

/-- `setUp` (test_asdf_modifiers.c:13-16), then the test. -/
def modTest (l : List ModCall) : Res (List Nat) := do
  let s ← modifiersInit .zero
  modRun s l

theorem initial_map_is_plain : modTest [.map] = .ok [MOD_PLAIN_MAP] := by decide +kernel

theorem shift_gives_shiftmap : modTest [.shift, .map] = .ok [MOD_SHIFT_MAP] := by decide +kernel

theorem shift_and_release_gives_plain :
    modTest [.shift, .map, .unshift, .map] = .ok [MOD_SHIFT_MAP, MOD_PLAIN_MAP] := by decide +kernel

theorem capslock_gives_caps : modTest [.caps, .map] = .ok [MOD_CAPS_MAP] := by decide +kernel

theorem capslock_and_release_gives_caps :
    modTest [.caps, .map, .map] = .ok [MOD_CAPS_MAP, MOD_CAPS_MAP] := by decide +kernel

theorem caps_release_caps_gives_plain :
    modTest [.caps, .map, .caps, .map] = .ok [MOD_CAPS_MAP, MOD_PLAIN_MAP] := by decide +kernel

theorem shift_and_caps_gives_shift :
    modTest [.caps, .map, .shift, .map] = .ok [MOD_CAPS_MAP, MOD_SHIFT_MAP] := by decide +kernel

theorem caps_shift_unshift_gives_caps :
    modTest [.caps, .map, .shift, .map, .unshift, .map] =
      .ok [MOD_CAPS_MAP, MOD_SHIFT_MAP, MOD_CAPS_MAP] := by decide +kernel

theorem capslock_shiftlock_gives_shift :
    modTest [.caps, .map, .shiftlock, .map] = .ok [MOD_CAPS_MAP, MOD_SHIFT_MAP] := by decide +kernel

theorem capslock_shiftlock_capslock_gives_shift :
    modTest [.caps, .map, .shiftlock, .map, .caps, .map] =
      .ok [MOD_CAPS_MAP, MOD_SHIFT_MAP, MOD_SHIFT_MAP] := by decide +kernel

theorem capslock_shiftlock_shift_gives_caps :
    modTest [.caps, .map, .shiftlock, .map, .shift, .unshift, .map] =
      .ok [MOD_CAPS_MAP, MOD_SHIFT_MAP, MOD_CAPS_MAP] := by decide +kernel

theorem shiftlock_gives_shift : modTest [.shiftlock, .map] = .ok [MOD_SHIFT_MAP] := by decide +kernel

theorem shiftlock_shift_gives_shift :
    modTest [.shiftlock, .map, .shift, .map] = .ok [MOD_SHIFT_MAP, MOD_SHIFT_MAP] := by decide +kernel

theorem shiftlock_shift_release_gives_plain :
    modTest [.shiftlock, .map, .shift, .unshift, .map] = .ok [MOD_SHIFT_MAP, MOD_PLAIN_MAP] := by
  decide +kernel

theorem ctrl_gives_ctrl_map : modTest [.ctrl, .map] = .ok [MOD_CTRL_MAP] := by decide +kernel

theorem ctrl_release_gives_plain_map :
    modTest [.ctrl, .map, .ctrl, .unctrl, .map] = .ok [MOD_CTRL_MAP, MOD_PLAIN_MAP] := by
  decide +kernel

theorem ctrl_shift_gives_ctrl_map :
    modTest [.ctrl, .map, .shift, .map] = .ok [MOD_CTRL_MAP, MOD_CTRL_MAP] := by decide +kernel

theorem ctrl_caps_gives_ctrl_map :
    modTest [.ctrl, .map, .caps, .map] = .ok [MOD_CTRL_MAP, MOD_CTRL_MAP] := by decide +kernel

theorem ctrl_shiftlock_gives_ctrl_map :
    modTest [.ctrl, .map, .shiftlock, .map] = .ok [MOD_CTRL_MAP, MOD_CTRL_MAP] := by decide +kernel

theorem ctrl_double_caps_returns_to_ctrl_map :
    modTest [.ctrl, .map, .caps, .map, .caps, .map] =
      .ok [MOD_CTRL_MAP, MOD_CTRL_MAP, MOD_CTRL_MAP] := by decide +kernel

theorem ctrl_double_shiftlock_returns_to_ctrl_map :
    modTest [.ctrl, .map, .shiftlock, .map, .shiftlock, .map] =
      .ok [MOD_CTRL_MAP, MOD_CTRL_MAP, MOD_CTRL_MAP] := by decide +kernel

end Asdf.Tests
