import Verif.Lemmas.Repeat

/-! # Properties C19-C21, timer level

The repeat timer for every history of repeat-related events.  The versions about
whole scans are in `Props/Typing.lean`. -/

namespace Asdf.Props

open Spec

/-- **C19 (timer).** After every history with autorepeat enabled and the REPEAT
key not held, a newly pressed key is repeated exactly in scans 525, 525+66,
525+2*66, ... of being held. -/
theorem C19_autorepeat_schedule (h : List RepOp) (ha : autoEnabled h = true)
    (hr : repeatHeld h = false) (k : Nat) (hk : 1 ≤ k) :
    firesAt (repAfter (h ++ [.newKey])) k = true ↔ 525 ≤ k ∧ (k - 525) % 66 = 0 := by
  have hb := repAfter_base h
  rw [ha, if_pos rfl] at hb
  have hs := repAfter_state h hr
  have ht : (repAfter (h ++ [.newKey])).timer.toNat = 525 := by
    rw [repAfter_snoc]
    show (repAfter h).state.toNat = 525
    rw [hs, hb]; rfl
  rw [firesAt_iff _ (by omega) k hk, ht]

/-- Non-vacuity of C19: a history with the switch opened, closed, REPEAT pressed
and released. -/
example : autoEnabled [.autoOff, .newKey, .held, .repeatDown, .autoOn, .repeatUp] = true ∧
    repeatHeld [.autoOff, .newKey, .held, .repeatDown, .autoOn, .repeatUp] = false := by decide

/-- **C20 (timer).** After every history with autorepeat disabled and the REPEAT
key not held, a held key is never repeated, whether newly pressed or not. -/
theorem C20_no_repeat_when_off (h : List RepOp) (ha : autoEnabled h = false)
    (hr : repeatHeld h = false) (k : Nat) :
    firesAt (repAfter h) k = false ∧ firesAt (repAfter (h ++ [.newKey])) k = false := by
  have hb := repAfter_base h
  rw [ha] at hb
  have hs := repAfter_state h hr
  have hso : (repAfter h).state = REPEAT_OFF := by rw [hs, hb]; rfl
  refine ⟨not_firesAt_zero _ ((repAfter_inv h).off hso) k, not_firesAt_zero _ ?_ k⟩
  rw [repAfter_snoc]
  exact hso

/-- Non-vacuity of C20. -/
example : autoEnabled [.repeatDown, .autoOff, .held, .repeatUp] = false ∧
    repeatHeld [.repeatDown, .autoOff, .held, .repeatUp] = false := by decide

/-- **C21 (release).** Releasing REPEAT restores the configured autorepeat mode
after every history: the next repetition comes after the full autorepeat delay,
or never if autorepeat is disabled. -/
theorem C21_release_restores_mode (h : List RepOp) (k : Nat) (hk : 1 ≤ k) :
    firesAt (repAfter (h ++ [.repeatUp])) k = true ↔
      autoEnabled h = true ∧ 525 ≤ k ∧ (k - 525) % 66 = 0 := by
  have hb := repAfter_base h
  have ht : (repAfter (h ++ [.repeatUp])).timer = (repAfter h).base := by
    rw [repAfter_snoc]; rfl
  by_cases ha : autoEnabled h = true
  · rw [ha, if_pos rfl] at hb
    rw [hb] at ht
    have ht' : (repAfter (h ++ [.repeatUp])).timer.toNat = 525 := by rw [ht]; rfl
    rw [firesAt_iff _ (by omega) k hk, ht']
    simp [ha]
  · rw [if_neg ha] at hb
    rw [hb] at ht
    rw [not_firesAt_zero _ ht]
    simp [ha]

/-- **C21 (partial).**  Missing from the full property: REPEAT pressed while the
autorepeat of a held key is within 66 scans of its next repetition.  If REPEAT is
pressed at any other moment, then until it is released every newly pressed key
repeats in scans 66, 132, ... whatever else happens in between. -/
theorem C21_fast_repeat_while_held_partial (h g : List RepOp)
    (hpre : 66 < (repAfter h).timer.toNat ∨ (repAfter h).state = REPEAT_OFF ∨
      (repAfter h).state = REPEAT_ON)
    (hg : RepOp.repeatUp ∉ g) (k : Nat) (hk : 1 ≤ k) :
    firesAt (repAfter (h ++ [.repeatDown] ++ g ++ [.newKey])) k = true ↔ k % 66 = 0 := by
  have hst : (repAfter (h ++ [.repeatDown] ++ g)).state = REPEAT_ON := by
    induction g using snoc_ind with
    | h0 =>
      rw [List.append_nil, repAfter_snoc]
      simp only [callRep, repActivate]
      by_cases hc : (repAfter h).timer > REPEAT_ON ∨ REPEAT_OFF = (repAfter h).state
      · rw [if_pos hc]
      · rw [if_neg hc]
        rcases hpre with h1 | h1 | h1
        · exact absurd (Or.inl (by rw [gt_iff_lt, UInt16.lt_iff_toNat_lt]; exact h1)) hc
        · exact absurd (Or.inr h1.symm) hc
        · exact h1
    | h1 g o ih =>
      have ih' := ih (fun hc => hg (by simp [hc]))
      rw [← List.append_assoc, repAfter_snoc]
      generalize repAfter (h ++ [.repeatDown] ++ g) = r at ih'
      cases o
      case repeatUp => exact absurd (by simp) hg
      case repeatDown => simp only [callRep, repActivate]; split <;> simp [ih']
      case autoOn => simp [callRep, repAutoOn, ih']
      case autoOff => simp [callRep, repAutoOff, ih']
      case newKey => simpa [callRep, repResetCount] using ih'
      case held =>
        simp only [callRep]
        rw [(repTick_spec _).2.1]
        exact ih'
  have ht : (repAfter (h ++ [.repeatDown] ++ g ++ [.newKey])).timer.toNat = 66 := by
    rw [repAfter_snoc]
    show (repAfter (h ++ [.repeatDown] ++ g)).state.toNat = 66
    rw [hst]; rfl
  rw [firesAt_iff _ (by omega) k hk, ht]
  omega

/-- Non-vacuity of the partial theorem: right after power-up, and after pressing
a key with autorepeat off. -/
example : 66 < (repAfter []).timer.toNat ∧ (repAfter [.autoOff, .newKey]).state = REPEAT_OFF := by
  decide

/-- **C21 is false**: a key has been held for 460 scans when REPEAT is pressed;
the fast-repeat mode is not entered, and the next key pressed while REPEAT is
still held does not repeat in scan 66. -/
theorem C21_repeat_key_can_be_ignored :
    let h : List RepOp := [.newKey] ++ List.replicate 460 .held ++ [.repeatDown, .newKey]
    repeatHeld h = true ∧ firesAt (repAfter h) 66 = false := by
  decide +kernel

end Asdf.Props
