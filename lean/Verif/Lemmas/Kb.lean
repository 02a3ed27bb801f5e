import Verif.Lemmas.Typed

/-! # Induction over the runs of the abstract keyboard -/

namespace Asdf

open Spec

/-- Induction over a run: `Q` describes the samples, `P` is kept by every output phase
and by every sample of a key while one of the layout's keymaps is selected before and
after it. -/
theorem after_induction {cfg : Config} {L : Layout} (hcf : CfgFacts cfg L)
    {Q : Nat → Nat → Bool → Prop} {P : Kb → Prop} (h0 : P (Kb.start cfg))
    (ho : ∀ k, P k → P k.output)
    (hk : ∀ k p r c, k.map ∈ L.maps → (k.key cfg L p r c).map ∈ L.maps → r < L.rows → c < L.cols →
      Q r c p → P k → P (k.key cfg L p r c))
    (inps : List Input) (hin : ∀ inp ∈ inps, Allowed L inp)
    (hq : ∀ inp ∈ inps, ∀ r c, r < L.rows → c < L.cols → Q r c (sample inp r c)) :
    P (Kb.after cfg L inps) := by
  have keys : ∀ inp, Allowed L inp →
      (∀ r c, r < L.rows → c < L.cols → Q r c (sample inp r c)) →
      ∀ (xs : List (Nat × Nat)) (s : State) (k : Kb), Shows cfg L s k → P k →
      (∀ x ∈ xs, x.1 < L.rows ∧ x.2 < L.cols) →
      P (xs.foldl (fun k x => k.key cfg L (sample inp x.1 x.2) x.1 x.2) k) := by
    intro inp ha hqi xs
    induction xs with
    | nil => intro s k _ hp _; exact hp
    | cons x xs ih =>
      intro s k hs hp hx
      obtain ⟨hr, hc⟩ := hx x List.mem_cons_self
      obtain ⟨s1, e1, e2⟩ := hs.key hcf hr hc (p := sample inp x.1 x.2) (fun hpp => by
        cases hb : L.blocked x.1 x.2 with
        | false => rfl
        | true =>
          have := ha x.1 x.2 hr hc hb
          rw [this] at hpp; cases hpp)
      obtain ⟨_, w1⟩ := hs.wf
      obtain ⟨_, w2⟩ := e2.wf
      rw [List.foldl_cons]
      refine ih s1 _ e2 (hk k _ x.1 x.2 ?_ ?_ hr hc (hqi x.1 x.2 hr hc) hp)
        (fun y hy => hx y (List.mem_cons_of_mem _ hy))
      · rw [← hs.map]; exact w1.idx
      · rw [← e2.map]; exact w2.idx
  have main : ∀ (inps : List Input), (∀ inp ∈ inps, Allowed L inp) →
      (∀ inp ∈ inps, ∀ r c, r < L.rows → c < L.cols → Q r c (sample inp r c)) →
      ∀ s k, Shows cfg L s k → P k → P (inps.foldl (Kb.pass cfg L) k) := by
    intro inps
    induction inps with
    | nil => intro _ _ s k _ hp; exact hp
    | cons inp inps ih =>
      intro hin hq s k hs hp
      obtain ⟨s1, _, e2⟩ := hs.output hcf
      obtain ⟨s2, _, g2⟩ := hs.pass hcf (hin inp List.mem_cons_self)
      refine ih (fun x hx => hin x (List.mem_cons_of_mem _ hx))
        (fun x hx => hq x (List.mem_cons_of_mem _ hx)) s2 _ g2 ?_
      refine keys inp (hin inp List.mem_cons_self) (hq inp List.mem_cons_self) (keysOf L) s1 _ e2
        (ho k hp) ?_
      intro x hx
      rw [keysOf_allKeys] at hx
      unfold allKeys at hx
      rw [mem_keyOrder] at hx
      omega
  obtain ⟨s0, _, e2⟩ := Shows.start hcf
  exact main inps hin hq s0 _ e2 h0

/-! ## Events of one kind -/

/-- Events that drive outputs. -/
def Drives (e : Event) : Prop := (∃ p v, e = .out p v) ∨ e = .delayShort ∨ e = .delayLong

theorem act_drives (a : Outputs) (v : Nat) (fn : VFun) : ∀ e ∈ (a.act v fn).2, Drives e := by
  have hd : ∀ (a : Outputs) (g : UInt8 → UInt8), ∀ e ∈ (a.drive v g).2, Drives e := by
    intro a g e he
    obtain ⟨p, _, rfl⟩ := List.mem_map.mp he
    exact .inl ⟨_, _, rfl⟩
  have hp : ∀ d : Event, Drives d → ∀ e ∈ (a.pulse v d).2, Drives e := by
    intro d hd' e he
    unfold Outputs.pulse at he
    rcases List.mem_append.mp he with he | he
    · rcases List.mem_append.mp he with he | he
      · exact hd _ _ e he
      · rw [List.mem_singleton.mp he]; exact hd'
    · exact hd _ _ e he
  cases fn with
  | nofunc => intro e he; cases he
  | setHi => exact hd _ _
  | setLo => exact hd _ _
  | toggle => exact hd _ _
  | pulseShort => exact hp _ (.inr (.inl rfl))
  | pulseLong => exact hp _ (.inr (.inr rfl))

/-- The polarity events and hardware initialisations of the abstract keyboard's steps. -/
theorem setup_mem (cmds : List SetupCmd) (k : Kb) {e : Event} (he : ¬ Drives e)
    (h : e ∈ (cmds.foldl Kb.setup1 k).trace) :
    e ∈ k.trace ∨ (e = .negStrobe ∧ .negStrobe ∈ cmds) := by
  induction cmds generalizing k with
  | nil => exact .inl h
  | cons c cmds ih =>
    rw [List.foldl_cons] at h
    rcases ih _ h with h | ⟨h, hm⟩
    · cases c with
      | capsActivate =>
        rcases List.mem_append.mp h with h | h
        · exact .inl h
        · exact absurd (act_drives _ _ _ e h) he
      | negStrobe =>
        rcases List.mem_append.mp h with h | h
        · exact .inl h
        · exact .inr ⟨List.mem_singleton.mp h, List.mem_cons_self⟩
      | printDelay _ => exact .inl h
      | vassign _ _ _ _ => exact .inl h
      | addMap _ _ _ _ => exact .inl h
      | hook _ _ => exact .inl h
    · exact .inr ⟨h, List.mem_cons_of_mem _ hm⟩

theorem install_map (cfg : Config) (k : Kb) (i : UInt8) : (k.install cfg i).map = i :=
  (setup_rest (cfg.setup i) _).map

theorem install_mem (cfg : Config) (k : Kb) (i : UInt8) {e : Event} (he : ¬ Drives e)
    (h : e ∈ (k.install cfg i).trace) :
    e ∈ k.trace ∨ e = .archInit ∨ (e = .negStrobe ∧ .negStrobe ∈ cfg.setup i) := by
  rcases setup_mem _ _ he h with h | h
  · rcases List.mem_append.mp h with h | h
    · exact .inl h
    · exact .inr (.inl (List.mem_singleton.mp h))
  · exact .inr (.inr h)

theorem select_mem (cfg : Config) (k : Kb) (i : UInt8) {e : Event} (he : ¬ Drives e)
    (h : e ∈ (k.select cfg i).trace) :
    e ∈ k.trace ∨ e = .archInit ∨ (e = .negStrobe ∧ .negStrobe ∈ cfg.setup (k.select cfg i).map) := by
  unfold Kb.select at h ⊢
  split
  · rename_i hc
    rw [if_pos hc] at h
    rw [install_map]
    exact install_mem cfg k i he h
  · rename_i hc
    rw [if_neg hc] at h
    exact .inl h

theorem function_trace (cfg : Config) (k : Kb) (n : Nat) : (k.function cfg n).trace = k.trace := by
  unfold Kb.function
  split <;> rfl

theorem apply_mem (k : Kb) (v : Nat) (fn : VFun) {e : Event} (he : ¬ Drives e)
    (h : e ∈ (k.apply v fn).trace) : e ∈ k.trace := by
  rcases List.mem_append.mp h with h | h
  · exact h
  · exact absurd (act_drives _ _ _ e h) he

theorem press_mem (cfg : Config) (k : Kb) (code : Code) {e : Event} (he : ¬ Drives e)
    (h : e ∈ (k.press cfg code).trace) :
    e ∈ k.trace ∨ e = .archInit ∨ (e = .negStrobe ∧ .negStrobe ∈ cfg.setup (k.press cfg code).map) ∨
      (e = .posStrobe ∧ code.toNat = 0xAD) := by
  have sel : ∀ i, e ∈ (k.select cfg i).trace → e ∈ k.trace ∨ e = .archInit ∨
      (e = .negStrobe ∧ .negStrobe ∈ cfg.setup (k.select cfg i).map) ∨
      (e = .posStrobe ∧ code.toNat = 0xAD) := by
    intro i h
    rcases select_mem cfg k i he h with h | h | h
    · exact .inl h
    · exact .inr (.inl h)
    · exact .inr (.inr (.inl h))
  unfold Kb.press at h ⊢
  split at h <;> rename_i hn
  all_goals first
    | exact sel _ h
    | exact .inl (apply_mem _ _ _ he h)
    | exact .inl h
    | (rw [function_trace] at h; exact .inl h)
    | skip
  · rcases List.mem_append.mp h with h | h
    · exact .inl h
    · exact .inr (.inr (.inr ⟨List.mem_singleton.mp h, hn⟩))
  · split at h
    · exact .inl h
    · exact .inl h

theorem release_mem (cfg : Config) (k : Kb) (code : Code) {e : Event} (he : ¬ Drives e)
    (h : e ∈ (k.release cfg code).trace) :
    e ∈ k.trace ∨ e = .archInit ∨
      (e = .negStrobe ∧ (.negStrobe ∈ cfg.setup (k.release cfg code).map ∨ code.toNat = 0xAD)) := by
  have sel : ∀ i, e ∈ (k.select cfg i).trace → e ∈ k.trace ∨ e = .archInit ∨
      (e = .negStrobe ∧ (.negStrobe ∈ cfg.setup (k.select cfg i).map ∨ code.toNat = 0xAD)) := by
    intro i h
    rcases select_mem cfg k i he h with h | h | h
    · exact .inl h
    · exact .inr (.inl h)
    · exact .inr (.inr ⟨h.1, .inl h.2⟩)
  unfold Kb.release at h ⊢
  split at h <;> rename_i hn
  all_goals first
    | exact sel _ h
    | exact .inl (apply_mem _ _ _ he h)
    | exact .inl h
    | skip
  · rcases List.mem_append.mp h with h | h
    · exact .inl h
    · exact .inr (.inr ⟨List.mem_singleton.mp h, .inr hn⟩)
  · split at h
    · exact .inl h
    · exact .inl h

/-- What one sample of a key can do, as far as the strobe polarity is concerned. -/
theorem key_mem (cfg : Config) (L : Layout) (k : Kb) (p : Bool) (r c : Nat) {e : Event}
    (he : ¬ Drives e) (h : e ∈ (k.key cfg L p r c).trace) :
    e ∈ k.trace ∨ e = .archInit ∨
      (e = .negStrobe ∧ (.negStrobe ∈ cfg.setup (k.key cfg L p r c).map ∨
        (p = false ∧ (k.deb r c).on = true ∧ (k.code cfg L r c).toNat = 0xAD))) ∨
      (e = .posStrobe ∧ p = true ∧ (k.code cfg L r c).toNat = 0xAD) := by
  unfold Kb.key at h ⊢
  by_cases hne : p ≠ (k.deb r c).on
  · rw [if_pos hne] at h ⊢
    by_cases h1 : (k.deb r c).left ≤ 1
    · rw [if_pos h1] at h ⊢
      cases p with
      | true =>
        rw [if_pos rfl] at h ⊢
        rcases press_mem cfg _ _ he h with h | h | h | h
        · exact .inl h
        · exact .inr (.inl h)
        · exact .inr (.inr (.inl ⟨h.1, .inl h.2⟩))
        · exact .inr (.inr (.inr ⟨h.1, rfl, h.2⟩))
      | false =>
        have hon : (k.deb r c).on = true := by
          cases ho : (k.deb r c).on with
          | true => rfl
          | false => rw [ho] at hne; exact absurd rfl hne
        rw [if_neg (by decide)] at h ⊢
        rcases release_mem cfg _ _ he h with h | h | ⟨h, h2⟩
        · exact .inl h
        · exact .inr (.inl h)
        · refine .inr (.inr (.inl ⟨h, ?_⟩))
          rcases h2 with h2 | h2
          · exact .inl h2
          · exact .inr ⟨rfl, hon, h2⟩
    · rw [if_neg h1] at h
      exact .inl h
  · rw [if_neg hne] at h
    refine .inl ?_
    split at h
    · split at h
      · exact h
      · exact h
    · exact h

theorem output_mem (k : Kb) {e : Event} (h : e ∈ k.output.trace) :
    e ∈ k.trace ∨ (∃ m, e = .delayMs m) ∨ ∃ c, e = .send c := by
  unfold Kb.output at h
  split at h
  · rcases List.mem_append.mp h with h | h
    · exact .inl h
    · rcases List.mem_cons.mp h with h | h
      · exact .inr (.inl ⟨_, h⟩)
      · exact .inr (.inr ⟨_, List.mem_singleton.mp h⟩)
  · split at h
    · rcases List.mem_append.mp h with h | h
      · exact .inl h
      · split at h
        · exact .inr (.inr ⟨_, List.mem_singleton.mp h⟩)
        · cases h
    · exact .inl h

/-! ## Debouncers and codes -/

theorem install_deb (cfg : Config) (k : Kb) (i : UInt8) : (k.install cfg i).deb = k.deb :=
  (setup_rest (cfg.setup i) _).deb

theorem select_deb (cfg : Config) (k : Kb) (i : UInt8) : (k.select cfg i).deb = k.deb := by
  unfold Kb.select
  split
  · exact install_deb cfg k i
  · rfl

theorem function_deb (cfg : Config) (k : Kb) (n : Nat) : (k.function cfg n).deb = k.deb := by
  unfold Kb.function
  split <;> rfl

theorem press_deb (cfg : Config) (k : Kb) (code : Code) : (k.press cfg code).deb = k.deb := by
  unfold Kb.press
  split
  all_goals first
    | exact select_deb cfg k _
    | exact function_deb cfg k _
    | rfl
    | skip
  split <;> rfl

theorem release_deb (cfg : Config) (k : Kb) (code : Code) : (k.release cfg code).deb = k.deb := by
  unfold Kb.release
  split
  all_goals first
    | exact select_deb cfg k _
    | rfl
    | skip
  split <;> rfl

/-- One sample steps the debouncer of its key and no other. -/
theorem key_deb (cfg : Config) (L : Layout) (k : Kb) (p : Bool) (r c r' c' : Nat) :
    (k.key cfg L p r c).deb r' c' =
      if r' = r ∧ c' = c then (k.deb r c).step p else k.deb r' c' := by
  have h : (k.key cfg L p r c).deb = (stepDeb k p r c).deb := by
    unfold Kb.key
    by_cases hne : p ≠ (k.deb r c).on
    · rw [if_pos hne]
      split
      · cases p with
        | true => exact press_deb cfg _ _
        | false => exact release_deb cfg _ _
      · rfl
    · rw [if_neg hne]
      split
      · split <;> rfl
      · rfl
  rw [h]
  rfl

theorem output_deb (k : Kb) : k.output.deb = k.deb := by
  unfold Kb.output
  split
  · rfl
  · split <;> rfl

/-- Every code comes from a table of the selected keymap. -/
theorem kb_code_mem {cfg : Config} {L : Layout} {k : Kb} (r c : Nat) :
    ∃ t ∈ tablesOf cfg k.map, k.code cfg L r c = entryAt t L.cols r c := by
  have hl : tableFor (k.held || k.locked) k.caps k.ctrl < (tablesOf cfg k.map).length := by
    unfold tablesOf
    rw [List.length_map, mapsOf_length]
    exact tableFor_lt _ _ _
  refine ⟨(tablesOf cfg k.map)[tableFor (k.held || k.locked) k.caps k.ctrl],
    List.getElem_mem hl, ?_⟩
  unfold Kb.code
  rw [List.getElem?_eq_getElem hl]
  rfl

theorem kb_placed {cfg : Config} {L : Layout} {act : Action} {P : List (Nat × Nat)}
    (hP : placed cfg L act P = true) {k : Kb} (hm : k.map ∈ L.maps) {r c : Nat}
    (hr : r < L.rows) (hc : c < L.cols) :
    decodeAction (k.code cfg L r c) = act ↔ (r, c) ∈ P := by
  obtain ⟨t, h1, h2⟩ := kb_code_mem (cfg := cfg) (L := L) (k := k) r c
  rw [h2]
  simp only [placed, List.all_eq_true, List.mem_range, beq_iff_eq] at hP
  have := hP k.map hm t h1 r hr c hc
  rw [← List.contains_iff_mem, ← this, decide_eq_true_eq]

/-! ## Strobe polarity -/

/-- If the polarity switch is never moved and no keymap of the layout selects negative
polarity, negative polarity is never selected. -/
theorem after_positive {cfg : Config} {L : Layout} (hcf : CfgFacts cfg L) {x : Nat × Nat} {b : Bool}
    (hP : placed cfg L .strobeSelect [x] = true)
    (hN : ∀ i ∈ L.maps, SetupCmd.negStrobe ∉ cfg.setup i)
    (inps : List Input) (hin : ∀ inp ∈ inps, Allowed L inp)
    (hc : ∀ inp ∈ inps, sample inp x.1 x.2 = b) :
    Event.negStrobe ∉ (Kb.after cfg L inps).trace := by
  have hd : ¬ Drives .negStrobe := by
    rintro (⟨p, v, h⟩ | h | h) <;> cases h
  refine (after_induction (Q := fun r c p => (r, c) = x → p = b)
    (P := fun k => Event.negStrobe ∉ k.trace ∧ (b = false → (k.deb x.1 x.2).on = false))
    hcf ?_ ?_ ?_ inps hin ?_).1
  · refine ⟨?_, fun _ => ?_⟩
    · intro h
      rcases install_mem cfg _ 0 hd h with h | h | h
      · cases h
      · cases h
      · exact hN 0 hcf.zero h.2
    · show ((Kb.install cfg _ 0).deb x.1 x.2).on = false
      rw [install_deb]
      rfl
  · rintro k ⟨h1, h2⟩
    refine ⟨?_, ?_⟩
    · intro h
      rcases output_mem k h with h | ⟨m, h⟩ | ⟨m, h⟩
      · exact h1 h
      · cases h
      · cases h
    · rw [output_deb]; exact h2
  · rintro k p r c hm hm' hr hcl hq ⟨h1, h2⟩
    refine ⟨?_, ?_⟩
    · intro h
      rcases key_mem cfg L k p r c hd h with h | h | ⟨_, h | ⟨hp, hon, h⟩⟩ | ⟨h, _⟩
      · exact h1 h
      · cases h
      · exact hN _ hm' h
      · have hx : (r, c) = x := by
          refine List.mem_singleton.mp ((kb_placed hP hm hr hcl).mp ?_)
          unfold decodeAction
          rw [h]
          rfl
        have := h2 (by rw [← hq hx]; exact hp)
        rw [← hx, hon] at this
        cases this
      · cases h
    · intro hb
      rw [key_deb]
      split
      · rename_i hx
        have hx : (r, c) = x := Prod.ext hx.1.symm hx.2.symm
        have h3 := h2 hb
        rw [← hx] at h3
        rw [hq hx, hb]
        unfold Deb.step
        rw [if_pos h3.symm]
        exact h3
      · exact h2 hb
  · intro inp hi r c _ _ hx
    rw [← hc inp hi, ← hx]

end Asdf
