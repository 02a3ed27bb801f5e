import Verif.Spec.Repeat
import Verif.Lemmas.Basic

/-! # Lemmas about the repeat timer -/

namespace Asdf

open Spec

theorem snoc_ind {α : Type} {P : List α → Prop} (h0 : P [])
    (h1 : ∀ l a, P l → P (l ++ [a])) (l : List α) : P l := by
  have : ∀ l : List α, P l.reverse := by
    intro l
    induction l with
    | nil => exact h0
    | cons a l ih => rw [List.reverse_cons]; exact h1 _ _ ih
  have h := this l.reverse
  rwa [List.reverse_reverse] at h

theorem u16_sub_one {t : UInt16} (h : t ≠ 0) : (t - 1).toNat = t.toNat - 1 := by
  have h0 : t.toNat ≠ 0 := fun hc => h (UInt16.toNat_inj.mp (by simpa using hc))
  have : (1 : UInt16) ≤ t := by rw [UInt16.le_iff_toNat_le]; simp; omega
  rw [UInt16.toNat_sub_of_le _ _ this]; rfl

theorem u16_eq_zero {t : UInt16} : t = 0 ↔ t.toNat = 0 := by
  rw [← UInt16.toNat_inj]; simp

/-- One tick, in terms of natural numbers. -/
theorem repTick_spec (r : RepState) :
    (repTick r).1 = decide (r.timer.toNat = 1) ∧
    (repTick r).2 = { r with timer := (repTick r).2.timer } ∧
    (repTick r).2.timer.toNat =
      if r.timer.toNat = 0 then 0 else if r.timer.toNat = 1 then 66 else r.timer.toNat - 1 := by
  unfold repTick
  by_cases h0 : r.timer = 0
  · rw [if_pos h0]
    have := u16_eq_zero.mp h0
    simp [this]
  · rw [if_neg h0]
    have hn : r.timer.toNat ≠ 0 := fun hc => h0 (u16_eq_zero.mpr hc)
    have hs := u16_sub_one h0
    by_cases h1 : r.timer - 1 = 0
    · have := u16_eq_zero.mp h1
      have h1' : r.timer.toNat = 1 := by omega
      simp only [if_pos h1]
      simp [h1', REPEAT_ON]
    · have h1' : r.timer.toNat ≠ 1 := by
        intro hc; exact h1 (u16_eq_zero.mpr (by omega))
      simp only [if_neg h1]
      simp [h1', hn, hs]

/-- Value of the timer after `n` ticks, starting from `t > 0`. -/
def timerAt (t n : Nat) : Nat := if n < t then t - n else 66 - (n - t) % 66

theorem heldFor_timer (r : RepState) (h : 0 < r.timer.toNat) (n : Nat) :
    (heldFor r n).timer.toNat = timerAt r.timer.toNat n ∧
    heldFor r n = { r with timer := (heldFor r n).timer } := by
  induction n with
  | zero => simp [heldFor, timerAt, h]
  | succ n ih =>
    obtain ⟨ih1, ih2⟩ := ih
    obtain ⟨_, h2, h3⟩ := repTick_spec (heldFor r n)
    refine ⟨?_, ?_⟩
    · show (repTick (heldFor r n)).2.timer.toNat = _
      rw [h3, ih1]
      clear ih1 ih2 h2 h3
      unfold timerAt
      by_cases h1 : n + 1 < r.timer.toNat
      · rw [if_pos (show n < r.timer.toNat by omega), if_pos h1, if_neg (by omega), if_neg (by omega)]
        omega
      · rw [if_neg h1]
        by_cases h2 : n < r.timer.toNat
        · rw [if_pos h2, if_neg (by omega), if_pos (by omega)]
          have : n + 1 - r.timer.toNat = 0 := by omega
          rw [this]
        · rw [if_neg h2, if_neg (by omega)]
          by_cases h3 : 66 - (n - r.timer.toNat) % 66 = 1
          · rw [if_pos h3]; omega
          · rw [if_neg h3]; omega
    · show (repTick (heldFor r n)).2 = { r with timer := (repTick (heldFor r n)).2.timer }
      rw [h2, ih2]

theorem firesAt_iff (r : RepState) (h : 0 < r.timer.toNat) (k : Nat) (hk : 1 ≤ k) :
    firesAt r k = true ↔ r.timer.toNat ≤ k ∧ (k - r.timer.toNat) % 66 = 0 := by
  unfold firesAt
  rw [(repTick_spec _).1, decide_eq_true_eq, (heldFor_timer r h (k - 1)).1]
  unfold timerAt
  split <;> omega

theorem heldFor_zero (r : RepState) (h : r.timer = 0) (n : Nat) : heldFor r n = r := by
  induction n with
  | zero => rfl
  | succ n ih => simp [heldFor, ih, repTick, h]

theorem not_firesAt_zero (r : RepState) (h : r.timer = 0) (k : Nat) : firesAt r k = false := by
  unfold firesAt
  rw [heldFor_zero r h, repTick, if_pos h]

/-- Invariant of the repeat module. -/
structure RepInv (r : RepState) : Prop where
  base : r.base = REPEAT_OFF ∨ r.base = REPEAT_AUTO
  state : r.state = REPEAT_ON ∨ r.state = r.base
  off : r.state = REPEAT_OFF → r.timer = 0
  pos : r.state ≠ REPEAT_OFF → 0 < r.timer.toNat
  onLe : r.state = REPEAT_ON → r.timer.toNat ≤ 66
  le : r.timer.toNat ≤ 525

theorem RepInv.init (r : RepState) : RepInv (repInit r) := by
  constructor <;> simp [repInit, REPEAT_AUTO, REPEAT_OFF, REPEAT_ON]

theorem RepInv.resetCount {r : RepState} (h : RepInv r) : RepInv (repResetCount r) := by
  obtain ⟨hb, hs, ho, hp, hl, hle⟩ := h
  unfold repResetCount
  rcases hb with hb | hb <;> rcases hs with hs | hs <;> constructor <;>
    simp [hs, hb, REPEAT_OFF, REPEAT_AUTO, REPEAT_ON]

theorem RepInv.autoOff {r : RepState} (h : RepInv r) : RepInv (repAutoOff r) := by
  obtain ⟨hb, hs, ho, hp, hl, hle⟩ := h
  unfold repAutoOff
  by_cases hr : REPEAT_ON ≠ r.state
  · rw [if_pos hr]; constructor <;> simp [REPEAT_OFF, REPEAT_ON]
  · rw [if_neg hr]
    have hr' : r.state = REPEAT_ON := (by simpa using hr : REPEAT_ON = r.state).symm
    exact ⟨Or.inl rfl, Or.inl hr', ho, hp, hl, hle⟩

theorem RepInv.autoOn {r : RepState} (h : RepInv r) : RepInv (repAutoOn r) := by
  obtain ⟨hb, hs, ho, hp, hl, hle⟩ := h
  unfold repAutoOn
  by_cases hr : REPEAT_ON ≠ r.state
  · rw [if_pos hr]; constructor <;> simp [REPEAT_AUTO, REPEAT_OFF, REPEAT_ON]
  · rw [if_neg hr]
    have hr' : r.state = REPEAT_ON := (by simpa using hr : REPEAT_ON = r.state).symm
    exact ⟨Or.inr rfl, Or.inl hr', ho, hp, hl, hle⟩

theorem RepInv.activate {r : RepState} (h : RepInv r) : RepInv (repActivate r) := by
  unfold repActivate
  split
  · exact ⟨h.base, Or.inl rfl, by simp [REPEAT_ON, REPEAT_OFF], by simp [REPEAT_ON], by simp [REPEAT_ON],
      by simp [REPEAT_ON]⟩
  · exact h

theorem RepInv.deactivate {r : RepState} (h : RepInv r) : RepInv (repDeactivate r) := by
  obtain ⟨hb, hs, ho, hp, hl, hle⟩ := h
  unfold repDeactivate
  rcases hb with hb | hb <;> constructor <;> simp [hb, REPEAT_OFF, REPEAT_AUTO, REPEAT_ON]

theorem RepInv.tick {r : RepState} (h : RepInv r) : RepInv (repTick r).2 := by
  obtain ⟨hb, hs, ho, hp, hl, hle⟩ := h
  obtain ⟨_, h2, h3⟩ := repTick_spec r
  have e1 : (repTick r).2.state = r.state := by rw [h2]
  have e2 : (repTick r).2.base = r.base := by rw [h2]
  refine ⟨by rw [e2]; exact hb, by rw [e1, e2]; exact hs, ?_, ?_, ?_, ?_⟩
  · intro h; rw [e1] at h
    have := ho h
    apply u16_eq_zero.mpr
    rw [h3, u16_eq_zero.mp this]; rfl
  · intro h; rw [e1] at h
    have := hp h
    rw [h3]; split <;> try split
    all_goals omega
  · intro h; rw [e1] at h
    have := hl h
    rw [h3]; split <;> try split
    all_goals omega
  · rw [h3]; split <;> try split
    all_goals omega

theorem RepInv.call {r : RepState} (h : RepInv r) (o : RepOp) : RepInv (callRep r o).2 := by
  cases o
  · exact h.activate
  · exact h.deactivate
  · exact h.autoOn
  · exact h.autoOff
  · exact h.resetCount
  · exact h.tick

theorem repAfter_snoc (h : List RepOp) (o : RepOp) :
    repAfter (h ++ [o]) = (callRep (repAfter h) o).2 := by
  simp [repAfter, List.foldl_append]

theorem repAfter_inv (h : List RepOp) : RepInv (repAfter h) := by
  induction h using snoc_ind with
  | h0 => exact RepInv.init RepState.zero
  | h1 h o ih => rw [repAfter_snoc]; exact ih.call o

/-- The configured mode follows the autorepeat switch. -/
theorem repAfter_base (h : List RepOp) :
    (repAfter h).base = if autoEnabled h then REPEAT_AUTO else REPEAT_OFF := by
  induction h using snoc_ind with
  | h0 => rfl
  | h1 h o ih =>
    rw [repAfter_snoc]
    have hs : autoEnabled (h ++ [o]) = if o = .autoOn then true else if o = .autoOff then false
        else autoEnabled h := by
      unfold autoEnabled
      rw [List.filter_append]
      cases o <;> simp [isAuto]
    rw [hs]
    cases o
    case repeatDown => simp only [callRep, repActivate]; split <;> simpa using ih
    case repeatUp => simpa [callRep, repDeactivate] using ih
    case autoOn => simp only [callRep, repAutoOn]; split <;> rfl
    case autoOff => simp only [callRep, repAutoOff]; split <;> rfl
    case newKey => simpa [callRep, repResetCount] using ih
    case held =>
      have e2 : (repTick (repAfter h)).2.base = (repAfter h).base := by
        rw [(repTick_spec _).2.1]
      simpa [callRep, e2] using ih

/-- Without the REPEAT key the current mode is the configured one. -/
theorem repAfter_state (h : List RepOp) (hr : repeatHeld h = false) :
    (repAfter h).state = (repAfter h).base := by
  induction h using snoc_ind with
  | h0 => rfl
  | h1 h o ih =>
    rw [repAfter_snoc]
    have hs : repeatHeld (h ++ [o]) = if o = .repeatDown then true
        else if o = .repeatUp then false else repeatHeld h := by
      unfold repeatHeld
      rw [List.filter_append]
      cases o <;> simp [isRepeatKey]
    rw [hs] at hr
    have hon : REPEAT_ON ≠ (repAfter h).state ∨ repeatHeld h = true := by
      by_cases hh : repeatHeld h = true
      · exact Or.inr hh
      · left
        have := ih (by simpa using hh)
        rw [this]
        rcases (repAfter_inv h).base with hb | hb <;> rw [hb] <;> decide
    cases o
    case repeatDown => simp at hr
    case repeatUp => rfl
    case autoOn =>
      simp at hr
      simp only [callRep, repAutoOn, if_pos (hon.resolve_right (by simp [hr]))]
    case autoOff =>
      simp at hr
      simp only [callRep, repAutoOff, if_pos (hon.resolve_right (by simp [hr]))]
    case newKey =>
      simp at hr
      simpa [callRep, repResetCount] using ih hr
    case held =>
      simp at hr
      have e := (repTick_spec (repAfter h)).2.1
      simp only [callRep]
      rw [e]
      exact ih hr

end Asdf
