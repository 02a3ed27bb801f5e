import Verif.Tests.TestMaps
import Verif.Model.Build

/-! # The unit tests of `test/test_asdf_keymaps.c`, run on the model

Checks of the model, not properties: each unit test is replayed call by call.  The
theorems carry the names of the C tests.  Two of the tests leave defined behaviour. -/

namespace Asdf.Tests

/-- `test_keymaps_add_map` (test/test_asdf_keymap_defs.c:43-48). -/
def testAdd (matrix : List Code) (modifier : Nat) : SetupCmd := .addMap matrix modifier 9 8

/-- `setup_test_plain_map`, `setup_test_caps_map`
(test/test_asdf_keymap_defs.c:51-65): the same four tables. -/
def testMap1 : List SetupCmd :=
  [testAdd testPlain MOD_PLAIN_MAP, testAdd testCaps MOD_CAPS_MAP, testAdd testShift MOD_SHIFT_MAP,
    testAdd testCtrl MOD_CTRL_MAP]

/-- `setup_test2_plain_map`, `setup_test2_caps_map`
(test/test_asdf_keymap_defs.c:67-81). -/
def testMap2 : List SetupCmd :=
  [testAdd test2Plain MOD_PLAIN_MAP, testAdd test2Caps MOD_CAPS_MAP,
    testAdd test2Shift MOD_SHIFT_MAP, testAdd test2Ctrl MOD_CTRL_MAP]

/-- The keymap list of the tests (test/asdf_keymap_setup.c:52-76, 94-121;
test/test_asdf_keymap_defs.c:83-163).  The calls of `asdf_virtual_init` and
`asdf_hook_init` in these functions repeat what `asdf_keymaps_reset` has just done and
are left out; `asdf_virtual_sync` is in `Tests/Virtual.lean`; the test functions that
hooks 9 and 10 point to are not modelled (10 is replaced by a message of one
character, so that the characters printed count the calls). -/
def testList : List (UInt8 × List SetupCmd) :=
  [(0, testMap1), (1, testMap1), (2, testMap2), (3, testMap2),
    (4, testMap1 ++ [.vassign VOUT1 PHYSICAL_OUT1 .nofunc 0, .vassign VOUT2 PHYSICAL_OUT2 .toggle 0,
      .vassign VOUT3 PHYSICAL_OUT3 .pulseShort 0]),
    (5, testMap1 ++ [.vassign VOUT4 PHYSICAL_LED1 .nofunc 0, .vassign VOUT5 PHYSICAL_LED1 .nofunc 1]),
    (6, testMap1 ++ [.vassign VOUT1 PHYSICAL_OUT1 .toggle 0, .vassign VOUT1 PHYSICAL_OUT2 .toggle 1,
      .vassign VOUT1 PHYSICAL_OUT3 .toggle 0]),
    (7, testMap2 ++ [.vassign VCAPS_LED PHYSICAL_LED1 .nofunc 0,
      .vassign VSHIFT_LED PHYSICAL_LED2 .nofunc 0, .vassign VOUT2 PHYSICAL_OUT3 .nofunc 0,
      .vassign VOUT2 NUM_PHYS .nofunc 0]),
    (8, testMap2), (9, testMap2), (10, testMap2 ++ [.hook HOOK_EACH_SCAN (.print [0x2B])])]

/-- `asdf_keymap_setup` and `asdf_keymap_valid` of the tests. -/
def testCfg : Config := buildOf testList

/-- `setUp` (test_asdf_keymaps.c:126-142), then the test. -/
def mapTest {α : Type} (f : State → Res α) : Res α := do
  let s ← keymapsInit testCfg .zero
  let s ← keymapsSelect testCfg s 0
  f s

/-- `TESTMAP` (test_asdf_keymaps.c:43-51) at every row and column: select keymap
`index` and read the table of the modifier. -/
def readAll (index : UInt8) (modifier : Nat) (s : State) : Res (List Code) := do
  let s ← keymapsSelect testCfg s index
  (List.range 72).mapM fun i => getCode s (i / 8) (i % 8) modifier

theorem keymap0_plain_gives_plain_values : mapTest (readAll 0 MOD_PLAIN_MAP) = .ok testPlain := by
  decide +kernel

theorem keymap0_shift_gives_shift_values : mapTest (readAll 0 MOD_SHIFT_MAP) = .ok testShift := by
  decide +kernel

theorem keymap0_caps_gives_caps_values : mapTest (readAll 0 MOD_CAPS_MAP) = .ok testCaps := by
  decide +kernel

theorem keymap0_ctrl_gives_ctrl_values : mapTest (readAll 0 MOD_CTRL_MAP) = .ok testCtrl := by
  decide +kernel

theorem keymap2_plain_gives_plain_values : mapTest (readAll 2 MOD_PLAIN_MAP) = .ok test2Plain := by
  decide +kernel

theorem keymap2_shift_gives_shift_values : mapTest (readAll 2 MOD_SHIFT_MAP) = .ok test2Shift := by
  decide +kernel

theorem keymap2_caps_gives_caps_values : mapTest (readAll 2 MOD_CAPS_MAP) = .ok test2Caps := by
  decide +kernel

theorem keymap2_ctrl_gives_ctrl_values : mapTest (readAll 2 MOD_CTRL_MAP) = .ok test2Ctrl := by
  decide +kernel

theorem keymap1_capsmap_plain_maps_to_caps :
    mapTest (fun s => do
      let s ← mapSelectSet testCfg s 1
      readAll 1 MOD_CAPS_MAP s) = .ok testCaps := by decide +kernel

/-- `dip_switch_codes_are_in_last_row_test1_map`, `…_test2_map`; the second reads
through modifier number 2 (`ASDF_TEST2_PLAIN_MAP_INDEX`). -/
theorem dip_switch_codes_are_in_last_row :
    mapTest (fun s => (List.range 4).mapM fun c => getCode s 8 c 0) = .ok [0xA8, 0xA9, 0xAA, 0xAB] ∧
    mapTest (fun s => (List.range 4).mapM fun c => getCode s 8 c 2) = .ok [0xA8, 0xA9, 0xAA, 0xAB] := by
  decide +kernel

/-- `complicated_set_keymap` (test_asdf_keymaps.c:148-165). -/
def complicatedSet (n : UInt8) (s : State) : Res State :=
  [1, 2, 4, 8].foldlM (fun s bit =>
    if n &&& bit ≠ 0 then mapSelectSet testCfg s bit else mapSelectClear testCfg s bit) s

/-- The body of the loops of `dip_switch_properly_sets_bits` and
`dip_switch_properly_clears_bits` (test_asdf_keymaps.c:256-300): the tag read after
selecting keymap `i`, and after selecting `start` and then setting the switches. -/
def dipRound (start i : UInt8) (s : State) : Res (Code × Code) := do
  let s ← keymapsSelect testCfg s i
  let expected ← getCode s 0 0 MOD_PLAIN_MAP
  let s ← keymapsSelect testCfg s start
  let s ← complicatedSet i s
  let result ← getCode s 0 0 MOD_PLAIN_MAP
  .ok (expected, result)

/-- The two loops in their first four rounds. -/
theorem dip_switch_sets_and_clears_bits :
    (∀ i ∈ [0, 1, 2, 3], (mapTest (dipRound 0 i)).map (fun p => p.1 == p.2) = .ok true) ∧
    ∀ i ∈ [0, 1, 2, 3], (mapTest (dipRound 7 i)).map (fun p => p.1 == p.2) = .ok true := by
  decide +kernel

/-- The rounds 4 to 10 of the two tests read past the end of the keymap array
(`asdf_keymaps_get_code`, asdf_keymaps.c:397): their result is undefined. -/
theorem dip_switch_tests_read_out_of_bounds :
    (∀ i ∈ [4, 5, 6, 7, 8, 9, 10], mapTest (dipRound 0 i) = .error .oob) ∧
    ∀ i ∈ [4, 5, 6, 7, 8, 9, 10], mapTest (dipRound 7 i) = .error .oob := by decide +kernel

/-- Each entry: select the keymap, read the tag. -/
def tags (l : List UInt8) (s : State) : Res (List Code) :=
  match l with
  | [] => .ok []
  | i :: l => do
    let s ← keymapsSelect testCfg s i
    let t ← getCode s 0 0 MOD_PLAIN_MAP
    let r ← tags l s
    .ok (t :: r)

/-- The tags are `PLAIN_MATRIX_2` = 0xC6 and `PLAIN_MATRIX_1` = 0xC2. -/
theorem dip_switch_invalid_keymap_has_no_effect :
    mapTest (tags [2, 0, 11, 255]) = .ok [0xC6, 0xC2, 0xC2, 0xC2] := by decide +kernel

end Asdf.Tests
