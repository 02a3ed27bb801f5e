import Verif.Lemmas.CRun

/-! # `asdf_repeat.c` -/

namespace Asdf.C

variable (x : Extra) (s : State) (env : List (L × Val)) (ps : List (Option Input)) (keys : Option Input)
  (w n : Nat)

theorem c_repeat_init : run prog w (n + 1) .asdf_repeat_init [] (K x s env ps keys) =
    .ok .unit (K x { s with rep := repInit s.rep } env ps keys) := by
  cfn fn_asdf_repeat_init
  cgo []
  rfl

theorem c_repeat_reset_count : run prog w (n + 1) .asdf_repeat_reset_count [] (K x s env ps keys) =
    .ok .unit (K x { s with rep := repResetCount s.rep } env ps keys) := by
  cfn fn_asdf_repeat_reset_count
  cgo []
  rfl

theorem c_repeat_auto_off : run prog w (n + 1) .asdf_repeat_auto_off [] (K x s env ps keys) =
    .ok .unit (K x { s with rep := repAutoOff s.rep } env ps keys) := by
  cfn fn_asdf_repeat_auto_off
  have h : (66 : Int) = s.rep.state.toNat ↔ REPEAT_ON = s.rep.state := u16_eq 66 _
  by_cases hs : REPEAT_ON = s.rep.state
  · cgo [repAutoOff, hs, h]
    rfl
  · cgo [repAutoOff, hs, h]
    rfl

theorem c_repeat_auto_on : run prog w (n + 1) .asdf_repeat_auto_on [] (K x s env ps keys) =
    .ok .unit (K x { s with rep := repAutoOn s.rep } env ps keys) := by
  cfn fn_asdf_repeat_auto_on
  have h : (66 : Int) = s.rep.state.toNat ↔ REPEAT_ON = s.rep.state := u16_eq 66 _
  by_cases hs : REPEAT_ON = s.rep.state
  · cgo [repAutoOn, hs, h]
    rfl
  · cgo [repAutoOn, hs, h]
    rfl

theorem c_repeat_activate : run prog w (n + 1) .asdf_repeat_activate [] (K x s env ps keys) =
    .ok .unit (K x { s with rep := repActivate s.rep } env ps keys) := by
  cfn fn_asdf_repeat_activate
  have h1 : (66 : Int) < s.rep.timer.toNat ↔ REPEAT_ON < s.rep.timer := u16_lt 66 _
  have h2 : (0 : Int) = s.rep.state.toNat ↔ REPEAT_OFF = s.rep.state := u16_eq 0 _
  by_cases ht : REPEAT_ON < s.rep.timer
  · cgo [repActivate, ht, h1, gt_iff_lt]
    rfl
  · by_cases hs : REPEAT_OFF = s.rep.state
    · cgo [repActivate, ht, h1, hs, h2, gt_iff_lt]
      rfl
    · cgo [repActivate, ht, h1, hs, h2, gt_iff_lt]

theorem c_repeat_deactivate : run prog w (n + 1) .asdf_repeat_deactivate [] (K x s env ps keys) =
    .ok .unit (K x { s with rep := repDeactivate s.rep } env ps keys) := by
  cfn fn_asdf_repeat_deactivate
  cgo []
  rfl

theorem c_repeat : run prog w (n + 1) .asdf_repeat [] (K x s env ps keys) =
    .ok (.int .u8 (if (repTick s.rep).1 then 1 else 0))
      (K x { s with rep := (repTick s.rep).2 } env ps keys) := by
  cfn fn_asdf_repeat
  have h1 : (s.rep.timer.toNat : Int) = 0 ↔ s.rep.timer = 0 := u16_eq _ 0
  by_cases ht : s.rep.timer = 0
  · cgo [repTick, ht, h1]
  · have h3 : UInt16.ofInt (((s.rep.timer.toNat : Int) - 1) % 65536) = s.rep.timer - 1 :=
      sub_u16 _ 1
    have h4 : ((s.rep.timer - 1).toNat : Int) = 0 ↔ s.rep.timer - 1 = 0 := u16_eq _ 0
    by_cases hs : s.rep.timer - 1 = 0
    · cgo [repTick, ht, h1, h3, h4, hs]
      rfl
    · cgo [repTick, ht, h1, h3, h4, hs]

end Asdf.C
