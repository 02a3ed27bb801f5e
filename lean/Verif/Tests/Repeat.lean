import Verif.Model.Repeat

/-! # The unit tests of `test/test_asdf_repeat.c`, run on the model

Checks of the model, not properties: each unit test is replayed call by call.  The
theorems carry the names of the C tests. -/

namespace Asdf.Tests

/-- `count_repeat_ticks` (test_asdf_repeat.c:9-20). -/
def countTicks : Nat → Nat → RepState → Nat × RepState
  | 0, count, r => (count, r)
  | n + 1, count, r =>
    match repTick r with
    | (true, r) => (count + 1, r)
    | (false, r) => countTicks n (count + 1) r

/-- `REPEAT_TIMED_OUT` (test_asdf_repeat.c:6). -/
def timedOut : Nat := 10000

/-- `ASDF_AUTOREPEAT_TIME_MS` (asdf_config.h:72). -/
def autoTime : Nat := 525

/-- `ASDF_REPEAT_TIME_MS` (asdf_config.h:75). -/
def repeatTime : Nat := 1000 / 15

/-- A step of a test on the repeat timer. -/
inductive RepCall where
  | autoOn | autoOff | activate | deactivate | resetCount
  /-- `count_repeat_ticks(timeout)` -/
  | count (timeout : Nat)

/-- The counts measured by a test, in order. -/
def repRun : RepState → List RepCall → List Nat
  | _, [] => []
  | r, .autoOn :: l => repRun (repAutoOn r) l
  | r, .autoOff :: l => repRun (repAutoOff r) l
  | r, .activate :: l => repRun (repActivate r) l
  | r, .deactivate :: l => repRun (repDeactivate r) l
  | r, .resetCount :: l => repRun (repResetCount r) l
  | r, .count n :: l => (countTicks n 0 r).1 :: repRun (countTicks n 0 r).2 l

/-- `setUp` (test_asdf_repeat.c:23-26), then the test. -/
def repTest (l : List RepCall) : List Nat := repRun (repInit .zero) l

/-- Ten measured intervals (`NUM_REPETITIONS`, test_asdf_repeat.c:7). -/
def tenCounts : List RepCall := List.replicate 10 (.count timedOut)

theorem init_resets_to_autorepeat_default : repTest [.count timedOut] = [autoTime] := by
  decide +kernel

theorem no_repeat_if_auto_turned_off : repTest [.autoOff, .count timedOut] = [timedOut] := by
  decide +kernel

theorem autorepeat_if_auto_turned_on : repTest [.autoOff, .autoOn, .count timedOut] = [autoTime] := by
  decide +kernel

theorem autorepeat_fast_repeat_after_delay :
    repTest [.count timedOut, .count timedOut] = [autoTime, repeatTime] := by decide +kernel

theorem auto_repeat_if_auto_turned_on :
    repTest [.autoOn, .autoOn, .count timedOut, .autoOff, .autoOn, .count timedOut] =
      [autoTime, autoTime] := by decide +kernel

theorem reset_count_works_in_autorepeat_mode :
    repTest [.count (autoTime / 2), .resetCount, .count timedOut] = [autoTime / 2, autoTime] := by
  decide +kernel

theorem reset_count_works_in_repeat_mode :
    repTest [.activate, .count (repeatTime / 2), .resetCount, .count timedOut] =
      [repeatTime / 2, repeatTime] := by decide +kernel

theorem activate_with_auto_on : repTest [.autoOn, .activate, .count timedOut] = [repeatTime] := by
  decide +kernel

theorem activate_with_auto_off : repTest [.autoOff, .activate, .count timedOut] = [repeatTime] := by
  decide +kernel

theorem deactivate_returns_to_baseline_no_repeat :
    repTest (.autoOff :: .activate :: tenCounts ++ [.deactivate, .count timedOut]) =
      List.replicate 10 repeatTime ++ [timedOut] := by decide +kernel

theorem deactivate_returns_to_baseline_autorepeat :
    repTest (.activate :: tenCounts ++ [.deactivate, .count timedOut]) =
      List.replicate 10 repeatTime ++ [autoTime] := by decide +kernel

theorem repeat_key_circumvents_initial_autorepeat_delay :
    repTest [.count (autoTime / 2), .activate, .count timedOut] = [autoTime / 2, repeatTime] := by
  decide +kernel

theorem turning_off_auto_cancels_autorepeat_delay_in_progress :
    repTest [.autoOn, .count (autoTime / 2), .autoOff, .count timedOut] =
      [autoTime / 2, timedOut] := by decide +kernel

theorem turning_off_auto_cancels_autorepeating_keypress :
    repTest (.autoOn :: .count timedOut :: tenCounts ++ [.autoOff, .count timedOut]) =
      autoTime :: List.replicate 10 repeatTime ++ [timedOut] := by decide +kernel

theorem activate_while_autorepeating_wont_affect_timing :
    repTest [.autoOn, .count timedOut, .count (repeatTime / 2), .activate, .count timedOut] =
      [autoTime, repeatTime / 2, repeatTime - repeatTime / 2] := by decide +kernel

theorem deactivate_while_repeating_resets_autorepeat_counter :
    repTest (.autoOn :: .activate :: tenCounts ++ [.deactivate, .count timedOut]) =
      List.replicate 10 repeatTime ++ [autoTime] := by decide +kernel

theorem deactivate_while_repeating_stops_repeating :
    repTest (.autoOff :: .activate :: tenCounts ++ [.deactivate, .count timedOut]) =
      List.replicate 10 repeatTime ++ [timedOut] := by decide +kernel

theorem new_key_while_repeat_active_keeps_repeating :
    repTest (.activate :: tenCounts ++ [.count (repeatTime / 2), .resetCount, .count timedOut]) =
      List.replicate 10 repeatTime ++ [repeatTime / 2, repeatTime] := by decide +kernel

theorem new_key_while_autorepeating_starts_new_autorepeat :
    repTest (.autoOn :: .count timedOut :: tenCounts ++ [.resetCount, .count timedOut]) =
      autoTime :: List.replicate 10 repeatTime ++ [autoTime] := by decide +kernel

end Asdf.Tests
