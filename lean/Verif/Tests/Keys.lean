import Verif.Tests.Virtual
import Verif.Tests.Repeat

/-! # The unit tests of `test/test_asdf.c`, run on the model

Checks of the model, not properties: each unit test is replayed call by call.  The
theorems carry the names of the C tests.  (This file is not in the list of tests that
CMake builds, test/CmakeLists.txt:107-112; the tests with a long hold are shortened,
see `repeats`.) -/

namespace Asdf.Tests

/-- `find_code` (test_asdf.c:64-80): the first place of the code in the plain table. -/
def findCode (c : Code) : Nat × Nat :=
  let i := testPlain.findIdx (· == c)
  (i / 8, i % 8)

/-- A call of a test. -/
inductive KeyCall where
  /-- `press_no_debounce`, `release_no_debounce` -/
  | down (c : Code)
  | up (c : Code)
  /-- `keyscan_delay` -/
  | wait (n : Nat)
  /-- `asdf_next_code` -/
  | next

/-- `press` (test_asdf.c:119-123). -/
def press (c : Code) : List KeyCall := [.down c, .wait 10]

/-- `release` (test_asdf.c:125-129). -/
def release (c : Code) : List KeyCall := [.up c, .wait 10]

/-- `asdf_arch_read_row` (test_asdf.c:132-135) for the keys held. -/
def heldRow (held : List (Nat × Nat)) : Input := fun row =>
  held.foldl (fun v p => if p.1 = row then v ||| colBit p.2 else v) 0

/-- The codes a test receives, in order. -/
def keyRun (held : List (Nat × Nat)) : State → List KeyCall → Res (List Code)
  | _, [] => .ok []
  | s, .down c :: l => keyRun (findCode c :: held) s l
  | s, .up c :: l => keyRun (held.filter (· != findCode c)) s l
  | s, .wait n :: l => do let s ← scans testCfg (heldRow held) n s; keyRun held s l
  | s, .next :: l => do
    let (c, s) ← nextCode s
    let r ← keyRun held s l
    .ok (c :: r)
termination_by _ l => l.length

/-- `setUp` (test_asdf.c:49-58), then the test. -/
def keyTest (l : List KeyCall) : Res (List Code) := do
  let s ← asdfInit testCfg .zero
  keyRun [] s l

/-- 'a' -/
def keyA : Code := 0x61
/-- 'b' -/
def keyB : Code := 0x62

theorem pressing_a_gives_nothing_before_debounce :
    keyTest [.down keyA, .wait 9, .next] = .ok [INVALID_CODE] := by decide +kernel

theorem pressing_a_gives_a :
    keyTest [.down keyA, .wait 9, .next, .wait 1, .next, .next] =
      .ok [INVALID_CODE, keyA, INVALID_CODE] := by decide +kernel

theorem pressing_shift_a_gives_shifted_a :
    keyTest (press 0xA1 ++ press keyA ++ [.next]) = .ok [0x41] := by decide +kernel

theorem pressing_caps_a_gives_caps_a :
    keyTest (press 0xA4 ++ release 0xA4 ++ press keyA ++ [.next]) = .ok [0x41] := by decide +kernel

theorem pressing_ctrl_a_gives_ctrl_a :
    keyTest (press 0xA5 ++ press keyA ++ [.next]) = .ok [0x01] := by decide +kernel

/-- The tests wait for 14 repeats (`NUM_REPEATS`, test_asdf.c:23); here for 3. -/
def repeats : Nat := 3

/-- Wait for the repeats, read them, and once more. -/
def readRepeats : List KeyCall := .wait (repeats * repeatTime) :: List.replicate (repeats + 1) .next

theorem pressing_rept_a_repeats_a :
    keyTest (press 0xA6 ++ press keyA ++ [.next] ++ readRepeats) =
      .ok (List.replicate (1 + repeats) keyA ++ [INVALID_CODE]) := by decide +kernel

theorem pressing_shift_rept_a_repeats_shifted_a :
    keyTest (press 0xA6 ++ press 0xA1 ++ press keyA ++ [.next] ++ readRepeats) =
      .ok (List.replicate (1 + repeats) 0x41 ++ [INVALID_CODE]) := by decide +kernel

theorem pressing_caps_rept_a_repeats_caps_a :
    keyTest (press 0xA6 ++ press 0xA4 ++ press keyA ++ [.next] ++ readRepeats) =
      .ok (List.replicate (1 + repeats) 0x41 ++ [INVALID_CODE]) := by decide +kernel

/-- `pressing_ctrl_rept_a_repeats_ctrl_a` expects one code more than the other tests;
it is not run by `main` (test_asdf.c:484-500).  On the model it fails. -/
theorem pressing_ctrl_rept_a_repeats_ctrl_a :
    keyTest (press 0xA6 ++ press 0xA5 ++ press keyA ++ [.next] ++ readRepeats) =
      .ok (List.replicate (1 + repeats) 0x01 ++ [INVALID_CODE]) := by decide +kernel

theorem holding_a_autorepeats_a :
    keyTest (press keyA ++ [.next, .wait autoTime, .next, .next]) = .ok [keyA, keyA, INVALID_CODE] := by
  decide +kernel

theorem pressing_a_then_b_before_debounce_gives_a_then_b :
    keyTest ([.down keyA, .wait 1] ++ press keyB ++ [.next, .next, .next]) =
      .ok [keyA, keyB, INVALID_CODE] := by decide +kernel

/-- `TEST_STRING` (test_asdf.c:19). -/
def nkroString : List Code := "abcdefghijklmnop".toList.map fun c => UInt8.ofNat c.toNat

theorem key_sequence_nkro :
    keyTest (nkroString.flatMap press ++ List.replicate 17 .next) =
      .ok (nkroString ++ [INVALID_CODE]) := by decide +kernel

theorem key_sequence_nkro_simultaneous_debounce :
    keyTest (nkroString.flatMap (fun c => [.down c, .wait 1]) ++ [.wait 10] ++
      List.replicate 17 .next) = .ok (nkroString ++ [INVALID_CODE]) := by decide +kernel

theorem repeating_with_a_then_adding_b_repeats_a_then_repeats_b :
    keyTest (press 0xA6 ++ press keyA ++ [.next, .wait (repeats * repeatTime)] ++
        List.replicate repeats .next ++ press keyB ++ [.next] ++ readRepeats) =
      .ok (List.replicate (1 + repeats) keyA ++ List.replicate (1 + repeats) keyB ++
        [INVALID_CODE]) := by decide +kernel

end Asdf.Tests
