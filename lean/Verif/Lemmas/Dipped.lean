import Verif.Lemmas.Dips
import Verif.Spec.Dips

/-! # The switches over whole runs -/

namespace Asdf

open Spec

theorem negative_nil : ¬ Negative [] := by
  rintro ⟨pre, inp, post, e, _⟩
  simp at e

/-- How a reading changes the polarity in force. -/
theorem negative_snoc (inps : List Input) (x : Input) : Negative (inps ++ [x]) ↔
    dip (inps ++ [x]) 6 = false ∧ (dip inps 6 = true ∨ (Negative inps ∧
      dip (inps ++ [x]) 0 = dip inps 0 ∧ dip (inps ++ [x]) 1 = dip inps 1)) := by
  constructor
  · rintro ⟨pre, inp, post, e, h1, h2, h3⟩
    rcases List.eq_nil_or_concat post with rfl | ⟨post, y, rfl⟩
    · have := List.append_inj' e rfl
      obtain ⟨rfl, hx⟩ := this
      cases hx
      exact ⟨h2, Or.inl h1⟩
    · rw [List.concat_eq_append] at e h3
      rw [← List.cons_append, ← List.append_assoc] at e
      obtain ⟨e1, e2⟩ := List.append_inj' e rfl
      cases e2
      subst e1
      have a := h3 (post ++ [x]) (List.prefix_refl _)
      have b := h3 post (List.prefix_append _ _)
      rw [← List.cons_append, ← List.append_assoc] at a
      refine ⟨a.1, Or.inr ⟨⟨pre, inp, post, rfl, h1, h2, ?_⟩, a.2.1.trans b.2.1.symm,
        a.2.2.trans b.2.2.symm⟩⟩
      intro q hq
      exact h3 q (hq.trans (List.prefix_append _ _))
  · rintro ⟨h1, h2 | ⟨⟨pre, inp, post, rfl, g1, g2, g3⟩, h0, h1'⟩⟩
    · refine ⟨inps, x, [], rfl, h2, h1, ?_⟩
      intro q hq
      rw [List.prefix_nil.mp hq]
      exact ⟨h1, rfl, rfl⟩
    · refine ⟨pre, inp, post ++ [x], by simp, g1, g2, ?_⟩
      intro q hq
      rcases List.prefix_concat_iff.mp hq with rfl | hq
      · have b := g3 post (List.prefix_refl _)
        have e : pre ++ inp :: (post ++ [x]) = pre ++ inp :: post ++ [x] := by simp
        rw [e]
        exact ⟨h1, h0.trans b.2.1, h1'.trans b.2.2⟩
      · exact g3 q hq

theorem wasClosed_snoc (inps : List Input) (x : Input) (n : Nat) :
    WasClosed (inps ++ [x]) n ↔ WasClosed inps n ∨ dip (inps ++ [x]) n = true := by
  constructor
  · rintro ⟨pre, h1, h2⟩
    rcases List.prefix_concat_iff.mp h1 with rfl | h1
    · exact Or.inr h2
    · exact Or.inl ⟨pre, h1, h2⟩
  · rintro (⟨pre, h1, h2⟩ | h)
    · exact ⟨pre, h1.trans (List.prefix_append _ _), h2⟩
    · exact ⟨_, List.prefix_refl _, h⟩

theorem kb_dip (inps : List Input) (n : Nat) (hn : n < 8) :
    ((Kb.after fourMaps openLayout inps).deb 8 n).on = dip inps n := by
  rw [kb_deb_after inps 8 n (by decide) hn]
  rfl

theorem kb_dip_step (inps : List Input) (x : Input) (n : Nat) (hn : n < 8) :
    (((Kb.after fourMaps openLayout inps).deb 8 n).step (sample x 8 n)).on =
      dip (inps ++ [x]) n := by
  rw [kb_deb_after inps 8 n (by decide) hn]
  unfold dip debounced samplesOf
  rw [List.map_append, List.foldl_append]
  rfl

theorem kb_after_snoc (inps : List Input) (x : Input) :
    Kb.after fourMaps openLayout (inps ++ [x]) =
      (Kb.after fourMaps openLayout inps).pass fourMaps openLayout x := by
  unfold Kb.after
  rw [List.foldl_append]
  rfl

theorem step_same (d : Deb) {p : Bool} (h : d.on = p) : (d.step p).on = p := by
  unfold Deb.step
  rw [if_pos h.symm]
  exact h

theorem idle_start : idleLevel (Kb.start fourMaps).trace = some false :=
  install_idle fourMaps _ 0 (four_setup 0 (by decide))

open Classical in
theorem idle_after (inps : List Input) :
    idleLevel (Kb.after fourMaps openLayout inps).trace = some (decide (Negative inps)) := by
  induction inps using snoc_induction with
  | h0 =>
    rw [decide_eq_false negative_nil]
    exact idle_start
  | h1 inps x ih =>
    obtain ⟨_, _, _, hf⟩ := four_run inps
    rw [kb_after_snoc, idle_pass x hf, ih, kb_dip_step _ _ 6 (by decide),
      kb_dip_step _ _ 0 (by decide), kb_dip_step _ _ 1 (by decide), kb_dip _ 6 (by decide),
      kb_dip _ 0 (by decide), kb_dip _ 1 (by decide)]
    have hs := negative_snoc inps x
    have hn : Negative inps → dip inps 6 = false := by
      rintro ⟨pre, inp, post, rfl, _, _, h3⟩
      exact (h3 post (List.prefix_refl _)).1
    by_cases h6 : dip (inps ++ [x]) 6 ≠ dip inps 6
    · rw [if_pos h6]
      cases hd : dip (inps ++ [x]) 6 with
      | true =>
        rw [decide_eq_false (fun hh => by have := (hs.mp hh).1; rw [hd] at this; cases this)]
        rfl
      | false =>
        rw [hd] at h6
        rw [decide_eq_true (hs.mpr ⟨hd, Or.inl (by
          cases h : dip inps 6 with
          | true => rfl
          | false => exact absurd h.symm h6)⟩)]
        rfl
    · have h6' := Classical.not_not.mp h6
      rw [if_neg h6]
      have hi : Negative (inps ++ [x]) ↔ (Negative inps ∧
          dip (inps ++ [x]) 0 = dip inps 0 ∧ dip (inps ++ [x]) 1 = dip inps 1) := by
        rw [hs, h6']
        constructor
        · rintro ⟨a, b | b⟩
          · rw [a] at b; cases b
          · exact b
        · intro b
          exact ⟨hn b.1, Or.inr b⟩
      by_cases h01 : dip (inps ++ [x]) 0 ≠ dip inps 0 ∨ dip (inps ++ [x]) 1 ≠ dip inps 1
      · rw [if_pos h01, decide_eq_false]
        intro hh
        have := (hi.mp hh).2
        exact h01.elim (fun h => h this.1) (fun h => h this.2)
      · rw [if_neg h01]
        have e0 : dip (inps ++ [x]) 0 = dip inps 0 := Classical.byContradiction fun h => h01 (Or.inl h)
        have e1 : dip (inps ++ [x]) 1 = dip inps 1 := Classical.byContradiction fun h => h01 (Or.inr h)
        congr 1
        exact decide_eq_decide.mpr ⟨fun h => hi.mpr ⟨h, e0, e1⟩, fun h => (hi.mp h).1⟩

open Classical in
theorem rest_after (inps : List Input) :
    (Kb.after fourMaps openLayout inps).rpt.rest =
      if dip inps 7 = false ∧ WasClosed inps 7 then 0 else 525 := by
  induction inps using snoc_induction with
  | h0 =>
    have : ¬ (dip [] 7 = false ∧ WasClosed [] 7) := by
      rintro ⟨_, pre, h1, h2⟩
      rw [List.prefix_nil.mp h1] at h2
      exact absurd h2 (by decide)
    rw [if_neg this]
    show (Kb.start fourMaps).rpt.rest = 525
    unfold Kb.start Kb.install
    rw [(setup_rest _ _).rpt]
    rfl
  | h1 inps x ih =>
    obtain ⟨_, _, _, hf⟩ := four_run inps
    rw [kb_after_snoc, rest_pass x hf, ih, kb_dip_step _ _ 7 (by decide), kb_dip _ 7 (by decide)]
    have hw := wasClosed_snoc inps x 7
    by_cases h7 : dip (inps ++ [x]) 7 ≠ dip inps 7
    · rw [if_pos h7]
      cases hd : dip (inps ++ [x]) 7 with
      | true => rw [if_pos rfl, if_neg (fun hh => by cases hh.1)]
      | false =>
        rw [hd] at h7
        have : dip inps 7 = true := by
          cases h : dip inps 7 with
          | true => rfl
          | false => exact absurd h.symm h7
        rw [if_neg (by decide), if_pos ⟨rfl, hw.mpr (Or.inl ⟨inps, List.prefix_refl _, this⟩)⟩]
    · have h7' := Classical.not_not.mp h7
      rw [if_neg h7, h7']
      by_cases hc : dip inps 7 = false ∧ WasClosed inps 7
      · rw [if_pos hc, if_pos ⟨hc.1, hw.mpr (Or.inl hc.2)⟩]
      · rw [if_neg hc, if_neg]
        rintro ⟨a, b⟩
        rcases hw.mp b with b | b
        · exact hc ⟨a, b⟩
        · rw [h7', a] at b; cases b

/-- A switch that is never seen in another position than at power-up (open, as the
firmware assumes) or that is closed once and for all. -/
theorem dip_stays {inps : List Input} {n : Nat} (x : Bool)
    (h : ∀ inp ∈ inps, sample inp 8 n = x) :
    ∀ pre inp post, inps = pre ++ inp :: post → dip pre n = true → dip (pre ++ [inp]) n = true := by
  intro pre inp post e hd
  have hx : ∀ b ∈ samplesOf pre 8 n, b = x := by
    intro b hb
    obtain ⟨i, hi, rfl⟩ := List.mem_map.mp hb
    exact h i (by rw [e]; simp [hi])
  have hi : sample inp 8 n = x := h inp (by rw [e]; simp)
  cases x with
  | false =>
    exfalso
    have : ∀ l : List Bool, (∀ b ∈ l, b = false) → (l.foldl Deb.step Deb.init).on = false := by
      intro l
      induction l using snoc_induction with
      | h0 => intro _; rfl
      | h1 l b ih =>
        intro hl
        rw [List.foldl_append]
        show (Deb.step _ b).on = false
        rw [hl b (by simp)]
        exact step_same _ (ih (fun y hy => hl y (List.mem_append_left _ hy)))
    unfold dip debounced at hd
    rw [this _ hx] at hd
    cases hd
  | true =>
    unfold dip debounced samplesOf at *
    rw [List.map_append, List.foldl_append]
    show (Deb.step _ (sample inp 8 n)).on = true
    rw [hi]
    exact step_same _ hd

theorem dip_kept {pre post : List Input} {n : Nat} (x : Bool)
    (h : ∀ inp ∈ pre ++ post, sample inp 8 n = x) (hp : dip pre n = true) :
    dip (pre ++ post) n = true := by
  induction post using snoc_induction with
  | h0 => simpa using hp
  | h1 post y ih =>
    rw [← List.append_assoc] at h ⊢
    exact dip_stays x h (pre ++ post) y [] rfl (ih (fun i hi => h i (List.mem_append_left _ hi)))

end Asdf
