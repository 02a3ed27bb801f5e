import Verif.Props.Repeat
import Verif.Spec.FastRepeat

/-! # Property C114: exactly how a newly pressed key repeats -/

namespace Asdf.Props

open Spec

/-- No repetition is due within 66 scans exactly if the timer is off or above 66. -/
theorem none_soon (r : RepState) :
    (∀ k, 1 ≤ k → k ≤ 66 → firesAt r k = false) ↔ r.timer.toNat = 0 ∨ 66 < r.timer.toNat := by
  constructor
  · intro h
    apply Classical.byContradiction
    intro hn
    have h1 := h r.timer.toNat (by omega) (by omega)
    rw [(firesAt_iff r (by omega) _ (by omega)).mpr ⟨Nat.le_refl _, by rw [Nat.sub_self]⟩] at h1
    cases h1
  · intro h k h1 h2
    rcases h with h | h
    · exact not_firesAt_zero r (u16_eq_zero.mpr h) k
    · cases hf : firesAt r k with
      | false => rfl
      | true =>
        have := ((firesAt_iff r (by omega) k h1).mp hf).1
        omega

theorem fast_snoc (h : List RepOp) (o : RepOp) :
    Fast (h ++ [o]) ↔ (Fast h ∧ o ≠ .repeatUp) ∨
      (o = .repeatDown ∧ ∀ k, 1 ≤ k → k ≤ 66 → firesAt (repAfter h) k = false) := by
  constructor
  · rintro ⟨h1, h2, e, hu, hk⟩
    rcases List.eq_nil_or_concat h2 with e2 | ⟨h3, x, e2⟩
    · subst e2
      rw [List.append_nil] at e
      obtain ⟨e3, e4⟩ := List.append_inj' e rfl
      exact .inr ⟨by injection e4, e3 ▸ hk⟩
    · subst e2
      rw [List.concat_eq_append] at e hu
      rw [← List.append_assoc] at e
      obtain ⟨e3, e4⟩ := List.append_inj' e rfl
      injection e4 with e4
      exact .inl ⟨⟨h1, h3, e3, fun hc => hu (List.mem_append_left _ hc), hk⟩,
        fun hc => hu (by rw [← e4, hc]; simp)⟩
  · rintro (⟨⟨h1, h2, e, hu, hk⟩, ho⟩ | ⟨rfl, hk⟩)
    · refine ⟨h1, h2 ++ [o], by rw [e, List.append_assoc _ h2], ?_, hk⟩
      intro hc
      rcases List.mem_append.mp hc with hc | hc
      · exact hu hc
      · exact ho (List.mem_singleton.mp hc).symm
    · exact ⟨h, [], by rw [List.append_nil], by simp, hk⟩

/-- The mode of the timer is fast exactly then. -/
theorem fast_state (h : List RepOp) : (repAfter h).state = REPEAT_ON ↔ Fast h := by
  induction h using snoc_ind with
  | h0 =>
    constructor
    · intro h; exact absurd h (by decide)
    · rintro ⟨h1, h2, e, -⟩
      have := congrArg List.length e
      simp at this
  | h1 h o ih =>
    rw [fast_snoc, repAfter_snoc, ← ih, none_soon]
    have inv := repAfter_inv h
    generalize repAfter h = r at *
    have hon : REPEAT_ON = 66 := rfl
    cases o with
    | repeatDown =>
      simp only [callRep, repActivate]
      by_cases hc : r.timer > REPEAT_ON ∨ REPEAT_OFF = r.state
      · rw [if_pos hc]
        refine ⟨fun _ => .inr ⟨trivial, ?_⟩, fun _ => rfl⟩
        rcases hc with hc | hc
        · exact .inr (UInt16.lt_iff_toNat_lt.mp hc)
        · exact .inl (u16_eq_zero.mp (inv.off hc.symm))
      · rw [if_neg hc]
        refine ⟨fun h => .inl ⟨h, by simp⟩, fun h => ?_⟩
        rcases h with ⟨h, -⟩ | ⟨-, h | h⟩
        · exact h
        · exact absurd (inv.pos fun hx => hc (.inr hx.symm)) (by omega)
        · exact absurd (.inl (UInt16.lt_iff_toNat_lt.mpr h)) hc
    | repeatUp =>
      simp only [callRep, repDeactivate]
      rcases inv.base with hb | hb <;> rw [hb] <;> simp [REPEAT_ON, REPEAT_OFF, REPEAT_AUTO]
    | autoOn =>
      by_cases hr : r.state = REPEAT_ON
      · simp [callRep, repAutoOn, hr]
      · have e : (callRep r .autoOn).2.state = REPEAT_AUTO := by
          show (repAutoOn r).state = _
          unfold repAutoOn
          rw [if_pos (Ne.symm hr)]
        rw [e]
        exact ⟨fun h => absurd h (by decide), fun h => absurd (h.elim (fun h => h.1) fun h => by cases h.1) hr⟩
    | autoOff =>
      by_cases hr : r.state = REPEAT_ON
      · simp [callRep, repAutoOff, hr]
      · have e : (callRep r .autoOff).2.state = REPEAT_OFF := by
          show (repAutoOff r).state = _
          unfold repAutoOff
          rw [if_pos (Ne.symm hr)]
        rw [e]
        exact ⟨fun h => absurd h (by decide), fun h => absurd (h.elim (fun h => h.1) fun h => by cases h.1) hr⟩
    | newKey => simp [callRep, repResetCount]
    | held =>
      have : (repTick r).2.state = r.state := by rw [(repTick_spec r).2.1]
      simp [callRep, this]

/-- **C114.**  After every history of the REPEAT key, the autorepeat switch and held keys, a newly pressed
key that is held repeats every 66 scans if fast repeat is in force; otherwise, if autorepeat is
enabled, after 525 scans and then every 66; otherwise never. -/
theorem C114_new_key (h : List RepOp) (k : Nat) (hk : 1 ≤ k) :
    (Fast h → (firesAt (repAfter (h ++ [.newKey])) k = true ↔ k % 66 = 0)) ∧
    (¬ Fast h → (firesAt (repAfter (h ++ [.newKey])) k = true ↔
      autoEnabled h = true ∧ 525 ≤ k ∧ (k - 525) % 66 = 0)) := by
  have inv := repAfter_inv h
  have ht : (repAfter (h ++ [.newKey])).timer = (repAfter h).state := by rw [repAfter_snoc]; rfl
  rw [← fast_state]
  constructor
  · intro hf
    have ht' : (repAfter (h ++ [.newKey])).timer.toNat = 66 := by rw [ht, hf]; rfl
    rw [firesAt_iff _ (by omega) k hk, ht']
    omega
  · intro hf
    have hs := inv.state.resolve_left hf
    have hb := repAfter_base h
    by_cases ha : autoEnabled h = true
    · rw [if_pos ha] at hb
      have ht' : (repAfter (h ++ [.newKey])).timer.toNat = 525 := by rw [ht, hs, hb]; rfl
      rw [firesAt_iff _ (by omega) k hk, ht']
      simp [ha]
    · rw [if_neg ha] at hb
      rw [not_firesAt_zero _ (by rw [ht, hs, hb]; rfl)]
      simp [ha]

/-- **C114, the running delay.**  Pressing REPEAT makes a held key repeat in 66 scans at the latest, in
either case: it comes into force and the next repetition is in 66 scans, or one is due before. -/
theorem C114_within_66 (h : List RepOp) :
    ∃ k, 1 ≤ k ∧ k ≤ 66 ∧ firesAt (repAfter (h ++ [.repeatDown])) k = true := by
  have inv := repAfter_inv h
  rw [repAfter_snoc]
  simp only [callRep, repActivate]
  generalize repAfter h = r at *
  by_cases hc : r.timer > REPEAT_ON ∨ REPEAT_OFF = r.state
  · rw [if_pos hc]
    exact ⟨66, by omega, by omega, (firesAt_iff _ (show 0 < REPEAT_ON.toNat by decide) 66 (by omega)).mpr
      (show REPEAT_ON.toNat ≤ 66 ∧ (66 - REPEAT_ON.toNat) % 66 = 0 by decide)⟩
  · rw [if_neg hc]
    have h1 := inv.pos fun hx => hc (.inr hx.symm)
    have h2 : r.timer.toNat ≤ 66 := by
      apply Classical.byContradiction
      intro hn
      exact hc (.inl (UInt16.lt_iff_toNat_lt.mpr (show REPEAT_ON.toNat < _ from Nat.lt_of_not_le hn)))
    exact ⟨r.timer.toNat, h1, h2, (firesAt_iff r h1 _ h1).mpr ⟨Nat.le_refl _, by rw [Nat.sub_self]⟩⟩

/-- Non-vacuity: REPEAT pressed with no key held, with a key held for a short time, and with a key about
to repeat. -/
example : Fast [.repeatDown, .held] ∧ Fast [.newKey, .held, .repeatDown] ∧
    ¬ Fast ([.newKey] ++ List.replicate 460 .held ++ [.repeatDown]) := by
  rw [← fast_state, ← fast_state, ← fast_state]
  decide +kernel

end Asdf.Props
