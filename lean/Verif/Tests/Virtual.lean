import Verif.Tests.Keymaps
import Verif.Model.ArchTest

/-! # The unit tests of `test/test_asdf_virtual.c` and `test/test_asdf_hook.c`

Checks of the model, not properties: each unit test is replayed call by call on the
model of the firmware and of the simulated board.  The theorems carry the names of the
C tests.  One test leaves defined behaviour. -/

namespace Asdf.Tests

/-- `asdf_keymaps_select`; the setup functions of keymaps 4 to 7 end with
`asdf_virtual_sync` (test/test_asdf_keymap_defs.c:83-142). -/
def testSelect (s : State) (index : UInt8) : Res State := do
  let s ← keymapsSelect testCfg s index
  if 4 ≤ index ∧ index ≤ 7 then do
    let d ← virtSync s.dev
    .ok { s with dev := d }
  else .ok s

/-- A call of a test. -/
inductive VirtCall where
  | select (index : UInt8)
  | action (v : Nat) (fn : VFun)
  | activate (v : Nat)
  | caps | shiftlock | shift | unshift
  /-- `asdf_arch_check_output` -/
  | output (dev : Nat)
  /-- `asdf_arch_check_pulse` -/
  | pulse (dev : Nat)

/-- What a test reads. -/
inductive Seen where
  | level (v : UInt8)
  | pulse (p : TestArch.PulseSt)
  deriving DecidableEq

/-- The board after the events so far. -/
def boardOf (s : State) : TestArch.Board := TestArch.onEvents .zero s.dev.trace

/-- What a test reads, in order. -/
def virtRun : State → List VirtCall → Res (List Seen)
  | _, [] => .ok []
  | s, .select i :: l => do let s ← testSelect s i; virtRun s l
  | s, .action v fn :: l => do let d ← virtAction s.dev v fn; virtRun { s with dev := d } l
  | s, .activate v :: l => do let d ← virtActivate s.dev v; virtRun { s with dev := d } l
  | s, .caps :: l => do let s ← capslockActivate s; virtRun s l
  | s, .shiftlock :: l => do let s ← shiftlockOn s; virtRun s l
  | s, .shift :: l => do let s ← shiftActivate s; virtRun s l
  | s, .unshift :: l => do let s ← shiftDeactivate s; virtRun s l
  | s, .output dev :: l => do
    let v ← TestArch.checkOutput (boardOf s) dev
    let r ← virtRun s l
    .ok (.level v :: r)
  | s, .pulse dev :: l => do
    let p ← TestArch.checkPulse (boardOf s) dev
    let r ← virtRun s l
    .ok (.pulse p :: r)

/-- `setUp` (test_asdf_virtual.c:14-20), then the test. -/
def virtTest (l : List VirtCall) : Res (List Seen) := do
  let s ← keymapsInit testCfg (State.zero.emit .archInit)
  let s ← testSelect s 4
  virtRun s l

/-- Read the three outputs. -/
def outs : List VirtCall := [.output PHYSICAL_OUT1, .output PHYSICAL_OUT2, .output PHYSICAL_OUT3]

/-- Three levels read. -/
def levels (a b c : UInt8) : List Seen := [.level a, .level b, .level c]

theorem single_virtual_output_is_initialized :
    virtTest [.output PHYSICAL_OUT1] = .ok [.level 0] := by decide +kernel

theorem uninitialized_virtual_out_is_default :
    virtTest [.output PHYSICAL_LED2] = .ok [.level 1] := by decide +kernel

theorem set_virtual_output :
    virtTest [.action VOUT1 .setLo, .output PHYSICAL_OUT1, .action VOUT1 .setHi,
      .output PHYSICAL_OUT1] = .ok [.level 0, .level 1] := by decide +kernel

theorem toggle_virtual_output :
    virtTest [.action VOUT1 .setLo, .output PHYSICAL_OUT1, .action VOUT1 .toggle,
      .output PHYSICAL_OUT1, .action VOUT1 .toggle, .output PHYSICAL_OUT1] =
      .ok [.level 0, .level 1, .level 0] := by decide +kernel

theorem pulse_high_virtual_output :
    virtTest [.action VOUT1 .setLo, .pulse PHYSICAL_OUT1, .output PHYSICAL_OUT1,
      .action VOUT1 .pulseShort, .output PHYSICAL_OUT1, .pulse PHYSICAL_OUT1] =
      .ok [.pulse .stableLow, .level 0, .level 0, .pulse .highDetected] := by decide +kernel

theorem pulse_low_virtual_output :
    virtTest [.action VOUT1 .setHi, .action VOUT1 .setHi, .pulse PHYSICAL_OUT1,
      .output PHYSICAL_OUT1, .action VOUT1 .pulseShort, .output PHYSICAL_OUT1,
      .pulse PHYSICAL_OUT1] =
      .ok [.pulse .stableHigh, .level 1, .level 1, .pulse .lowDetected] := by decide +kernel

theorem toggle_triple_output :
    virtTest (.select 6 :: outs ++ [.activate VOUT1] ++ outs ++ [.action VOUT1 .toggle] ++ outs) =
      .ok (levels 0 1 0 ++ levels 1 0 1 ++ levels 0 1 0) := by decide +kernel

theorem set_triple_output :
    virtTest (.select 6 :: outs ++ [.action VOUT1 .setHi] ++ outs ++ [.action VOUT1 .setLo] ++ outs) =
      .ok (levels 0 1 0 ++ levels 1 1 1 ++ levels 0 0 0) := by decide +kernel

theorem pulse_triple_output :
    virtTest (.select 6 :: outs ++ [.action VOUT1 .setHi, .action VOUT1 .setHi] ++ outs ++
        [.pulse PHYSICAL_OUT1, .pulse PHYSICAL_OUT2, .pulse PHYSICAL_OUT3, .action VOUT1 .setLo] ++
        outs ++ [.pulse PHYSICAL_OUT1, .pulse PHYSICAL_OUT2, .pulse PHYSICAL_OUT3]) =
      .ok (levels 0 1 0 ++ levels 1 1 1 ++
        [.pulse .stableHigh, .pulse .stableHigh, .pulse .stableHigh] ++ levels 0 0 0 ++
        [.pulse .transLow, .pulse .transLow, .pulse .transLow]) := by decide +kernel

theorem activate_triple_output :
    virtTest (.select 6 :: outs ++ [.activate VOUT1] ++ outs ++ [.activate VOUT1] ++ outs) =
      .ok (levels 0 1 0 ++ levels 1 0 1 ++ levels 0 1 0) := by decide +kernel

theorem virtual_capslock_indicator :
    virtTest [.select 7, .output PHYSICAL_LED1, .caps, .output PHYSICAL_LED1, .caps,
      .output PHYSICAL_LED1] = .ok [.level 0, .level 1, .level 0] := by decide +kernel

theorem virtual_shiftlock_indicator :
    virtTest [.select 7, .output PHYSICAL_LED2, .shiftlock, .output PHYSICAL_LED2, .shift, .unshift,
      .output PHYSICAL_LED2] = .ok [.level 0, .level 1, .level 0] := by decide +kernel

theorem cant_assign_real_output_twice :
    virtTest [.select 5, .output PHYSICAL_LED1, .action VOUT4 .setHi, .output PHYSICAL_LED1,
      .action VOUT4 .setLo, .output PHYSICAL_LED1, .action VOUT5 .setHi, .output PHYSICAL_LED1] =
      .ok [.level 0, .level 1, .level 0, .level 0] := by decide +kernel

/-! ## `test/test_asdf_hook.c` -/

/-- `setUp` (test_asdf_hook.c:29-36), then the test. -/
def hookTest {α : Type} (f : State → Res α) : Res α := do
  let s ← keymapsInit testCfg .zero
  let s ← asdfInit testCfg s
  let s ← keymapsSelect testCfg s 8
  f s

/-- The row reader of the test (test_asdf_hook.c:23-26). -/
def rowPlusOne : Input := fun row => UInt8.ofNat (row + 1)

/-- `n` scans. -/
def scans (cfg : Config) (inp : Input) : Nat → State → Res State
  | 0, s => .ok s
  | n + 1, s => do let s ← keyscan cfg inp s; scans cfg inp n s

/-- The codes `asdf_next_code` returns when called `n` times. -/
def nextCodes : Nat → State → Res (List Code)
  | 0, _ => .ok []
  | n + 1, s => do
    let (c, s) ← nextCode s
    let r ← nextCodes n s
    .ok (c :: r)

theorem default_scan_hook_is_default_scanner :
    hookTest (fun s => hookGet s.hooks HOOK_ROW_SCANNER) = .ok .archReadRow := by decide +kernel

/-- Nine scans call the hook nine times. -/
theorem each_scan_hook_is_executed_each_scan :
    hookTest (fun s => do
      let s ← keymapsSelect testCfg s 10
      let s ← scans testCfg rowPlusOne 9 s
      nextCodes 10 s) = .ok (List.replicate 9 0x2B ++ [INVALID_CODE]) := by decide +kernel

/-- The tenth of the 101 scans of that test reads past the end of the keymap array
(the row reader reports keys as pressed, which are debounced then, and keymap 10 is
selected): the result of the test is undefined. -/
theorem each_scan_test_reads_out_of_bounds :
    hookTest (fun s => do
      let s ← keymapsSelect testCfg s 10
      let s ← scans testCfg rowPlusOne 10 s
      nextCodes 10 s) = .error .oob := by decide +kernel

end Asdf.Tests
