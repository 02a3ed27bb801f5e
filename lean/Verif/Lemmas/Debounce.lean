import Verif.Lemmas.Main

/-! # Debouncing for every configuration and every input

These lemmas speak about every run that does not end in undefined behaviour, also
outside the layouts of `Spec.Layout`. -/

namespace Asdf

open Spec

/-! ## Actions leave the debouncers alone -/

/-- `s'` results from `s` without touching debounce data; the tables are kept or
replaced by those of a valid keymap. -/
structure Frame (cfg : Config) (s s' : State) : Prop where
  stable : s'.stable = s.stable
  counters : s'.counters = s.counters
  maps : s.maps.length = 4 →
    s'.maps = s.maps ∨ ∃ i, cfg.valid i = true ∧ s'.maps = mapsOf (cfg.setup i)

variable {cfg : Config}

theorem Frame.same {s s' : State} (h1 : s'.stable = s.stable) (h2 : s'.counters = s.counters)
    (h3 : s'.maps = s.maps) : Frame cfg s s' := ⟨h1, h2, fun _ => Or.inl h3⟩

theorem Frame.refl (s : State) : Frame cfg s s := Frame.same rfl rfl rfl

theorem Frame.trans {s1 s2 s3 : State} (h1 : Frame cfg s1 s2) (h2 : Frame cfg s2 s3) :
    Frame cfg s1 s3 := by
  refine ⟨h2.stable.trans h1.stable, h2.counters.trans h1.counters, ?_⟩
  intro hl
  have hl2 : s2.maps.length = 4 := by
    rcases h1.maps hl with h | ⟨i, _, h⟩
    · rw [h, hl]
    · rw [h, mapsOf_length]
  rcases h2.maps hl2 with h | h
  · rw [h]; exact h1.maps hl
  · exact Or.inr h

theorem foldlM_frame {α : Type} {f : State → α → Res State}
    (hf : ∀ s s' a, f s a = .ok s' → Frame cfg s s') (l : List α) {s s' : State}
    (h : l.foldlM f s = .ok s') : Frame cfg s s' := by
  induction l generalizing s with
  | nil => cases h; exact Frame.refl _
  | cons a l ih =>
    rw [List.foldlM_cons] at h
    obtain ⟨s1, h1, h⟩ := bind_eq_ok.mp h
    exact (hf _ _ _ h1).trans (ih h)

theorem setShiftState_frame {s s' : State} {n} (h : setShiftState s n = .ok s') :
    Frame cfg s s' := by
  unfold setShiftState at h
  obtain ⟨d, h1, h⟩ := bind_eq_ok.mp h
  cases h
  exact Frame.same rfl rfl rfl

theorem setCapsState_frame {s s' : State} {n} (h : setCapsState s n = .ok s') :
    Frame cfg s s' := by
  unfold setCapsState at h
  obtain ⟨d, h1, h⟩ := bind_eq_ok.mp h
  cases h
  exact Frame.same rfl rfl rfl

/-- The parts that a keymap switch never touches, whatever the state. -/
def Deb2 (s s' : State) : Prop := s'.stable = s.stable ∧ s'.counters = s.counters

theorem addMap_deb {s s' : State} {m i r c} (h : addMap s m i r c = .ok s') : Deb2 s s' := by
  unfold addMap at h
  split at h
  · obtain ⟨_, _, h⟩ := bind_eq_ok.mp h
    cases h; exact ⟨rfl, rfl⟩
  · cases h; exact ⟨rfl, rfl⟩

theorem foldlM_deb {α : Type} {f : State → α → Res State}
    (hf : ∀ s s' a, f s a = .ok s' → Deb2 s s') (l : List α) {s s' : State}
    (h : l.foldlM f s = .ok s') : Deb2 s s' := by
  induction l generalizing s with
  | nil => cases h; exact ⟨rfl, rfl⟩
  | cons a l ih =>
    rw [List.foldlM_cons] at h
    obtain ⟨s1, h1, h⟩ := bind_eq_ok.mp h
    have e1 := hf _ _ _ h1
    have e2 := ih h
    exact ⟨e2.1.trans e1.1, e2.2.trans e1.2⟩

theorem runCmd_deb {s s' : State} {c : SetupCmd} (h : runCmd s c = .ok s') : Deb2 s s' := by
  cases c with
  | printDelay ms => cases h; exact ⟨rfl, rfl⟩
  | addMap m i r c => exact addMap_deb h
  | hook id f =>
    obtain ⟨_, _, h⟩ := bind_eq_ok.mp h
    cases h; exact ⟨rfl, rfl⟩
  | vassign v p fn i =>
    obtain ⟨d, h1, h⟩ := bind_eq_ok.mp h
    cases h; exact ⟨rfl, rfl⟩
  | capsActivate =>
    have := setCapsState_frame (cfg := ⟨fun _ => true, fun _ => []⟩) h
    exact ⟨this.stable, this.counters⟩
  | negStrobe => cases h; exact ⟨rfl, rfl⟩

theorem keymapsReset_deb {s s' : State} (h : keymapsReset s = .ok s') : Deb2 s s' := by
  unfold keymapsReset at h
  obtain ⟨s1, h1, h⟩ := bind_eq_ok.mp h
  cases h
  have : Deb2 s s1 := foldlM_deb (f := fun s i => addMap s none i 0 0)
    (fun s s' i h => addMap_deb h) _ h1
  exact this

theorem keymapsSwitch_frame {s s' : State} {i} (h : keymapsSwitch cfg s i = .ok s') :
    Frame cfg s s' := by
  by_cases hv : cfg.valid i = true
  · have hd : Deb2 s s' := by
      unfold keymapsSwitch at h
      rw [if_pos hv] at h
      obtain ⟨s1, h1, h⟩ := bind_eq_ok.mp h
      have e1 := keymapsReset_deb h1
      have e2 : Deb2 s1 s' := foldlM_deb (fun s s' c h => runCmd_deb h) _ h
      exact ⟨e2.1.trans e1.1, e2.2.trans e1.2⟩
    refine ⟨hd.1, hd.2, ?_⟩
    intro hl
    obtain ⟨d', f', e, _⟩ := keymapsSwitch_ok (cfg := cfg) (s := s) hv hl
    rw [e] at h
    cases h
    exact Or.inr ⟨i, hv, rfl⟩
  · unfold keymapsSwitch at h
    rw [if_neg hv] at h
    cases h; exact Frame.refl _

theorem keymapsSelect_frame {s s' : State} {i} (h : keymapsSelect cfg s i = .ok s') :
    Frame cfg s s' := by
  unfold keymapsSelect at h
  split at h
  · exact keymapsSwitch_frame h
  · cases h; exact Frame.refl _

theorem putMsg_frame {s s' : State} {c} (h : putMsg s c = .ok s') : Frame cfg s s' := by
  unfold putMsg at h
  obtain ⟨_, _, h⟩ := bind_eq_ok.mp h
  cases h; exact Frame.same rfl rfl rfl

theorem putCode_frame {s s' : State} {c} (h : putCode s c = .ok s') : Frame cfg s s' := by
  unfold putCode at h
  obtain ⟨_, _, h⟩ := bind_eq_ok.mp h
  cases h; exact Frame.same rfl rfl rfl

theorem putc_frame {s s' : State} {c} (h : putc s c = .ok s') : Frame cfg s s' := by
  unfold putc at h
  by_cases hc : c = 0x0A
  · rw [if_pos hc] at h
    obtain ⟨s1, h1, h⟩ := bind_eq_ok.mp h
    exact (putMsg_frame h1).trans (putMsg_frame h)
  · rw [if_neg hc] at h
    exact putMsg_frame h

theorem hookExecute_frame {s s' : State} {i} (h : hookExecute s i = .ok s') : Frame cfg s s' := by
  unfold hookExecute at h
  split at h
  · obtain ⟨f, _, h⟩ := bind_eq_ok.mp h
    cases f with
    | null => cases h; exact Frame.refl _
    | print text => exact foldlM_frame (fun s s' c h => putc_frame h) _ h
    | nullPtr => cases h
    | archReadRow => cases h
    | archSendCode => cases h
    | keyscan => cases h
  · cases h; exact Frame.refl _

theorem activateAction_frame {s s' : State} {a : Action}
    (h : activateAction cfg s a = .ok s') : Frame cfg s s' := by
  cases a with
  | shift => exact setShiftState_frame h
  | shiftlockOn => exact setShiftState_frame h
  | shiftlockToggle => exact setShiftState_frame h
  | caps => exact setCapsState_frame h
  | ctrl => cases h; exact Frame.same rfl rfl rfl
  | «repeat» => cases h; exact Frame.same rfl rfl rfl
  | autorepeatSelect => cases h; exact Frame.same rfl rfl rfl
  | strobeSelect => cases h; exact Frame.same rfl rfl rfl
  | mapsel b => exact keymapsSelect_frame h
  | virt v =>
    obtain ⟨d, h1, h⟩ := bind_eq_ok.mp h
    cases h; exact Frame.same rfl rfl rfl
  | nothing => exact hookExecute_frame h
  | hereIs => exact hookExecute_frame h
  | fn n =>
    have h : (if 1 ≤ n ∧ n ≤ 10 then hookExecute s (HOOK_USER_1 + (n - 1)) else .ok s) = .ok s' := h
    split at h
    · exact hookExecute_frame h
    · cases h; exact Frame.refl _
  | other => cases h; exact Frame.refl _

theorem deactivateAction_frame {s s' : State} {a : Action}
    (h : deactivateAction cfg s a = .ok s') : Frame cfg s s' := by
  cases a with
  | shift => exact setShiftState_frame h
  | mapsel b => exact keymapsSelect_frame h
  | strobeSelect => cases h; exact Frame.same rfl rfl rfl
  | ctrl => cases h; exact Frame.same rfl rfl rfl
  | «repeat» => cases h; exact Frame.same rfl rfl rfl
  | autorepeatSelect => cases h; exact Frame.same rfl rfl rfl
  | nothing => cases h; exact Frame.refl _
  | shiftlockOn => cases h; exact Frame.refl _
  | shiftlockToggle => cases h; exact Frame.refl _
  | caps => cases h; exact Frame.refl _
  | hereIs => cases h; exact Frame.refl _
  | virt _ => cases h; exact Frame.refl _
  | fn _ => cases h; exact Frame.refl _
  | other => cases h; exact Frame.refl _

theorem activateKey_frame {s s' : State} {c} (h : activateKey cfg s c = .ok s') :
    Frame cfg s s' := by
  unfold activateKey at h
  split at h
  · exact activateAction_frame h
  · obtain ⟨s1, h1, h⟩ := bind_eq_ok.mp h
    refine (putCode_frame h1).trans ?_
    split at h <;> (cases h; exact Frame.same rfl rfl rfl)

theorem deactivateKey_frame {s s' : State} {c} (h : deactivateKey cfg s c = .ok s') :
    Frame cfg s s' := by
  unfold deactivateKey at h
  split at h
  · exact deactivateAction_frame h
  · split at h <;> (cases h; exact Frame.same rfl rfl rfl)

theorem heldPressed_frame {s s' : State} {r c} (h : heldPressed cfg s r c = .ok s') :
    Frame cfg s s' := by
  unfold heldPressed at h
  obtain ⟨_, _, h⟩ := bind_eq_ok.mp h
  split at h
  · dsimp only at h
    split at h
    · have e := activateKey_frame h
      exact ⟨e.stable, e.counters, e.maps⟩
    · cases h; exact Frame.same rfl rfl rfl
  · cases h; exact Frame.refl _

theorem outputPhase_frame {s s' : State} (h : outputPhase s = .ok s') : Frame cfg s s' := by
  unfold outputPhase at h
  obtain ⟨⟨c, s1⟩, h1, h⟩ := bind_eq_ok.mp h
  have e1 : Frame cfg s s1 := by
    unfold nextCode at h1
    obtain ⟨⟨c1, b1⟩, _, h1⟩ := bind_eq_ok.mp h1
    dsimp only at h1
    split at h1
    · obtain ⟨⟨c2, b2⟩, _, h1⟩ := bind_eq_ok.mp h1
      cases h1; exact Frame.same rfl rfl rfl
    · cases h1; exact Frame.same rfl rfl rfl
  refine e1.trans ?_
  dsimp only at h
  split at h
  · unfold callOutput at h
    obtain ⟨f, _, h⟩ := bind_eq_ok.mp h
    split at h
    · cases h; exact Frame.same rfl rfl rfl
    · cases h
  · cases h; exact Frame.refl _

/-! ## The shape of the state -/

/-- Column and row counts of all valid keymaps are within the scanner's limits
(enforced by `asdf_keymaps_add_map`). -/
def Fits (m : List MapEntry) : Prop := ∀ e ∈ m, e.rows.toNat ≤ 16 ∧ e.cols.toNat ≤ 8

theorem mapsStep_fits {m : List MapEntry} (h : Fits m) (c : SetupCmd) : Fits (mapsStep m c) := by
  cases c with
  | addMap t i r c =>
    unfold mapsStep
    dsimp only
    split
    · rename_i hcond
      intro e he
      rcases List.mem_or_eq_of_mem_set he with he | he
      · exact h e he
      · rw [he]; exact ⟨hcond.2.1, hcond.2.2⟩
    · exact h
  | _ => exact h

theorem mapsOf_fits (cmds : List SetupCmd) : Fits (mapsOf cmds) := by
  unfold mapsOf
  have : ∀ m, Fits m → Fits (cmds.foldl mapsStep m) := by
    induction cmds with
    | nil => intro m h; exact h
    | cons c cmds ih => intro m h; exact ih _ (mapsStep_fits h c)
  apply this
  intro e he
  rw [(List.mem_replicate.mp he).2]
  decide

theorem Frame.fits {s s' : State} (h : Frame cfg s s') (hl : s.maps.length = 4)
    (hf : Fits s.maps) : Fits s'.maps := by
  rcases h.maps hl with e | ⟨i, _, e⟩
  · rw [e]; exact hf
  · rw [e]; exact mapsOf_fits _

/-- Debounce data and tables have the expected shape. -/
structure Shape (R C : Nat) (s : State) : Prop where
  stableLen : s.stable.length = 16
  cntLen : s.counters.length = 16
  cntRow : ∀ (r : Nat) (row : List UInt8), s.counters[r]? = some row → row.length = 8
  cntVal : ∀ (r : Nat) (row : List UInt8) (c : Nat) (x : UInt8),
    s.counters[r]? = some row → row[c]? = some x → 1 ≤ x.toNat ∧ x.toNat ≤ 10
  mapsLen : s.maps.length = 4
  dims : dimsOk R C s.maps = true
  fits : Fits s.maps

theorem Shape.frame {R C : Nat} (hcd : CfgDims cfg R C) {s s' : State} (h : Shape R C s)
    (hf : Frame cfg s s') : Shape R C s' := by
  refine ⟨by rw [hf.stable]; exact h.stableLen, by rw [hf.counters]; exact h.cntLen,
    by rw [hf.counters]; exact h.cntRow, by rw [hf.counters]; exact h.cntVal, ?_, ?_,
    hf.fits h.mapsLen h.fits⟩
  · rcases hf.maps h.mapsLen with e | ⟨i, _, e⟩
    · rw [e]; exact h.mapsLen
    · rw [e, mapsOf_length]
  · rcases hf.maps h.mapsLen with e | ⟨i, hv, e⟩
    · rw [e]; exact h.dims
    · rw [e]; exact hcd i hv

theorem Frame.deb {s s' : State} (h : Frame cfg s s') (r c : Nat) :
    debOf s' r c = debOf s r c := by
  unfold debOf accepted counter; rw [h.stable, h.counters]

section shape
variable {R C : Nat} {s : State}

theorem Shape.row (h : Shape R C s) {r : Nat} (hr : r < 16) :
    s.counters[r]? = some (cntRowOf s r) ∧ (cntRowOf s r).length = 8 := by
  have hl : r < s.counters.length := by rw [h.cntLen]; exact hr
  have e : s.counters[r]? = some (cntRowOf s r) := by
    unfold cntRowOf; rw [List.getElem?_eq_getElem hl]; rfl
  exact ⟨e, h.cntRow r _ e⟩

theorem Shape.cell (h : Shape R C s) {r c : Nat} (hr : r < 16) (hc : c < 8) :
    ∃ x, (cntRowOf s r)[c]? = some x ∧ counter s r c = x.toNat ∧ 1 ≤ x.toNat ∧ x.toNat ≤ 10 := by
  obtain ⟨e, hl⟩ := h.row hr
  have hc' : c < (cntRowOf s r).length := by omega
  have ex := List.getElem?_eq_getElem hc'
  refine ⟨_, ex, ?_, h.cntVal r _ c _ e ex⟩
  unfold counter
  rw [e, Option.getD_some, ex, Option.getD_some]

theorem Shape.setCount (h : Shape R C s) {r c : Nat} (hr : r < 16) {x : UInt8}
    (h1 : 1 ≤ x.toNat) (h2 : x.toNat ≤ 10) (st : List UInt8) (hst : st.length = 16) :
    Shape R C { s with
      counters := s.counters.set r ((cntRowOf s r).set c x), stable := st } := by
  refine ⟨hst, by simp [h.cntLen], ?_, ?_, h.mapsLen, h.dims, h.fits⟩
  · intro r' row hrow
    simp only [List.getElem?_set] at hrow
    split at hrow
    · split at hrow
      · cases hrow; rw [List.length_set]; exact (h.row hr).2
      · cases hrow
    · exact h.cntRow r' row hrow
  · intro r' row c' y hrow hy
    simp only [List.getElem?_set] at hrow
    split at hrow
    · split at hrow
      · cases hrow
        rw [List.getElem?_set] at hy
        split at hy
        · split at hy
          · cases hy; exact ⟨h1, h2⟩
          · cases hy
        · exact h.cntVal r _ c' y (h.row hr).1 hy
      · cases hrow
    · exact h.cntVal r' row c' y hrow hy

theorem u8_pred {x : UInt8} (h : 1 ≤ x.toNat) : (x - 1).toNat = x.toNat - 1 := by
  have : (1 : UInt8) ≤ x := by rw [UInt8.le_iff_toNat_le]; simpa using h
  rw [UInt8.toNat_sub_of_le _ _ this]; rfl

/-- A changed sample, if handled without undefined behaviour, steps exactly the
debouncer of its key. -/
theorem pressOrRelease_deb (hcd : CfgDims cfg R C) (h : Shape R C s) {r c : Nat} (hr : r < 16)
    (hc : c < 8) {p : Bool} (hp : p ≠ accepted s r c) {s' : State}
    (he : pressOrRelease cfg s r c p = .ok s') :
    Shape R C s' ∧ ∀ r' c', c' < 8 → debOf s' r' c' =
      if r' = r ∧ c' = c then (debOf s r c).step p else debOf s r' c' := by
  obtain ⟨hrow, hlen⟩ := h.row hr
  obtain ⟨x, hx, hxc, hx1, hx2⟩ := h.cell hr hc
  have hst : r < s.stable.length := by rw [h.stableLen]; exact hr
  have hct : r < s.counters.length := by rw [h.cntLen]; exact hr
  have hst' : s.stable[r] = (s.stable[r]?).getD 0 := by rw [List.getElem?_eq_getElem hst]; rfl
  unfold pressOrRelease at he
  rw [rd_some hrow, ok_bind, rd_some hx, ok_bind] at he
  by_cases h1 : x - 1 = 0
  · rw [if_pos h1, wr_ok (by omega), ok_bind, wr_ok hct, ok_bind, rd_ok hst, ok_bind, hst'] at he
    have hcount : counter s r c = 1 := by
      have := u8_pred hx1
      rw [h1] at this
      simp at this
      omega
    have hsh : Shape R C (flipCell s r c p) := by
      refine h.setCount hr (x := DEBOUNCE_TIME) (by decide) (by decide) _ ?_
      rw [List.length_set]; exact h.stableLen
    have hdeb : ∀ r' c', c' < 8 → debOf (flipCell s r c p) r' c' =
        if r' = r ∧ c' = c then (debOf s r c).step p else debOf s r' c' := by
      intro r' c' hc'
      unfold debOf
      rw [accepted_flip hst hc p r' c' hc', counter_flip hct (by omega)]
      by_cases he : r' = r ∧ c' = c
      · rw [if_pos he, if_pos he, if_pos he]
        simp [Deb.step, hp, hcount]
      · rw [if_neg he, if_neg he, if_neg he]
    have hfr : Frame cfg (flipCell s r c p) s' := by
      cases p
      · simp only [Bool.false_eq_true, if_false] at he
        rw [wr_ok hst, ok_bind] at he
        obtain ⟨code, _, he⟩ := bind_eq_ok.mp he
        exact deactivateKey_frame he
      · simp only [if_true] at he
        rw [wr_ok hst, ok_bind] at he
        obtain ⟨code, _, he⟩ := bind_eq_ok.mp he
        exact activateKey_frame he
    refine ⟨hsh.frame hcd hfr, ?_⟩
    intro r' c' hc'
    rw [hfr.deb, hdeb r' c' hc']
  · rw [if_neg h1, wr_ok (by omega), ok_bind, wr_ok hct, ok_bind] at he
    cases he
    have hpr := u8_pred hx1
    have hne : (x - 1).toNat ≠ 0 := by
      intro h0
      apply h1
      apply UInt8.toNat_inj.mp
      rw [h0]; rfl
    refine ⟨h.setCount hr (by omega) (by omega) _ h.stableLen, ?_⟩
    intro r' c' hc'
    show debOf (withCount s r c (x - 1)) r' c' = _
    unfold debOf
    rw [counter_withCount hct (by omega)]
    have hacc : accepted (withCount s r c (x - 1)) r' c' = accepted s r' c' := rfl
    rw [hacc]
    by_cases he : r' = r ∧ c' = c
    · rw [if_pos he, if_pos he]
      obtain ⟨rfl, rfl⟩ := he
      have : ¬ counter s r' c' ≤ 1 := by omega
      simp only [Deb.step, hp, if_false, this]
      congr 1
      omega
    · rw [if_neg he, if_neg he]

theorem Shape.rows (h : Shape R C s) {n : UInt8} (he : numRows s = .ok n) : R ≤ n.toNat := by
  unfold numRows at he
  obtain ⟨i, _, he⟩ := bind_eq_ok.mp he
  obtain ⟨e, h2, he⟩ := bind_eq_ok.mp he
  cases he
  have hm : e ∈ s.maps := List.mem_of_getElem? (rd_eq_ok.mp h2)
  have := h.dims
  simp only [dimsOk, List.all_eq_true, Bool.and_eq_true, decide_eq_true_eq] at this
  exact (this e hm).1

theorem Shape.cols (h : Shape R C s) {n : UInt8} (he : numCols s = .ok n) : C ≤ n.toNat := by
  unfold numCols at he
  obtain ⟨i, _, he⟩ := bind_eq_ok.mp he
  obtain ⟨e, h2, he⟩ := bind_eq_ok.mp he
  cases he
  have hm : e ∈ s.maps := List.mem_of_getElem? (rd_eq_ok.mp h2)
  have := h.dims
  simp only [dimsOk, List.all_eq_true, Bool.and_eq_true, decide_eq_true_eq] at this
  exact (this e hm).2

end shape

theorem bit_decide (keys : UInt8) : decide (keys &&& 1 ≠ 0) = bitOf keys 0 := by
  by_cases hb : bitOf keys 0 = true
  · rw [hb]; simpa using (and_one_ne_zero keys).mpr hb
  · have : ¬ (keys &&& 1 ≠ 0) := fun hh => hb ((and_one_ne_zero keys).mp hh)
    rw [decide_eq_false this]; simpa using hb

/-! ## The scan -/

/-- The column loop: the keys of the row from column `col` on are stepped (at
least those below `C`), nothing else. -/
theorem scanCols_deb {R C : Nat} (hcd : CfgDims cfg R C) {row : Nat}
    (hrow : row < 16) (fuel : Nat) :
    ∀ {col : Nat} {changed keys : UInt8} {s s' : State}, Shape R C s →
      (∀ c, col ≤ c → c < 8 → bitOf changed (c - col) = (bitOf keys (c - col) != accepted s row c)) →
      scanCols cfg row fuel col changed keys s = .ok s' →
      Shape R C s' ∧
      (∀ r c, c < 8 → r ≠ row ∨ c < col → debOf s' r c = debOf s r c) ∧
      (∀ c, col ≤ c → c < C → debOf s' row c = (debOf s row c).step (bitOf keys (c - col))) := by
  induction fuel with
  | zero => intro col ch keys s s' _ _ h; cases h
  | succ n ih =>
    intro col ch keys s s' hsh hch he
    rw [scanCols_succ] at he
    obtain ⟨m, hm, he⟩ := bind_eq_ok.mp he
    have hCm := hsh.cols hm
    have hm8' : m.toNat ≤ 8 := by
      unfold numCols at hm
      obtain ⟨i, _, hm⟩ := bind_eq_ok.mp hm
      obtain ⟨e, h2, hm⟩ := bind_eq_ok.mp hm
      cases hm
      exact (hsh.fits e (List.mem_of_getElem? (rd_eq_ok.mp h2))).2
    by_cases hc : col < m.toNat
    · rw [if_pos hc] at he
      obtain ⟨s1, h1, he⟩ := bind_eq_ok.mp he
      have hcol8 : col < 8 := by omega
      have hch0 : bitOf ch 0 = (bitOf keys 0 != accepted s row col) := by
        simpa using hch col (Nat.le_refl _) hcol8
      -- the key at `col`
      have key : Shape R C s1 ∧
          ∀ r' c', c' < 8 → debOf s1 r' c' =
            if r' = row ∧ c' = col then (debOf s row col).step (bitOf keys 0) else debOf s r' c' := by
        by_cases hx : ch &&& 1 ≠ 0
        · rw [if_pos hx, bit_decide] at h1
          have hb : bitOf ch 0 = true := (and_one_ne_zero ch).mp hx
          have hp : bitOf keys 0 ≠ accepted s row col := by
            rw [hch0] at hb; simpa using hb
          exact pressOrRelease_deb hcd hsh hrow hcol8 hp h1
        · rw [if_neg hx] at h1
          have hb : bitOf keys 0 = accepted s row col := by
            have : ¬ bitOf ch 0 = true := fun hh => hx ((and_one_ne_zero ch).mpr hh)
            rw [hch0] at this; simpa using this
          have hstep : (debOf s row col).step (bitOf keys 0) = debOf s row col := if_pos hb
          have hfr : Frame cfg s s1 := by
            split at h1
            · exact heldPressed_frame h1
            · cases h1; exact Frame.refl _
          refine ⟨hsh.frame hcd hfr, ?_⟩
          intro r' c' _
          rw [hfr.deb, hstep]
          by_cases hh : r' = row ∧ c' = col
          · rw [if_pos hh, hh.1, hh.2]
          · rw [if_neg hh]
      obtain ⟨k1, k3⟩ := key
      obtain ⟨g1, g3, g4⟩ := ih (col := col + 1) k1 (by
        intro c hc1 hc2
        rw [bitOf_shiftRight, bitOf_shiftRight]
        have := hch c (by omega) hc2
        rw [show c - col = c - (col + 1) + 1 by omega] at this
        rw [this]
        have hd := k3 row c hc2
        rw [if_neg (by omega)] at hd
        have : accepted s1 row c = accepted s row c := congrArg Deb.on hd
        rw [this]) he
      refine ⟨g1, ?_, ?_⟩
      · intro r c hc8 hor
        rw [g3 r c hc8 (by omega), k3 r c hc8, if_neg (by omega)]
      · intro c hc1 hc2
        by_cases hcc : c = col
        · subst hcc
          rw [g3 row c (by omega) (by omega), k3 row c (by omega), if_pos ⟨rfl, rfl⟩]
          simp
        · rw [g4 c (by omega) hc2, k3 row c (by omega), if_neg (by omega), bitOf_shiftRight,
            show c - (col + 1) + 1 = c - col by omega]
    · rw [if_neg hc] at he
      cases he
      exact ⟨hsh, fun _ _ _ _ => rfl, fun c h1 h2 => by omega⟩

/-- The row loop. -/
theorem scanRows_deb {R C : Nat} (hcd : CfgDims cfg R C) (hC : C ≤ 8) {reader : HookFn}
    {inp : Input} (fuel : Nat) :
    ∀ {row : Nat} {s s' : State}, Shape R C s →
      scanRows cfg reader inp fuel row s = .ok s' →
      Shape R C s' ∧
      (∀ r c, c < C → r < row → debOf s' r c = debOf s r c) ∧
      (∀ r c, c < C → row ≤ r → r < R → debOf s' r c = (debOf s r c).step (sample inp r c)) := by
  induction fuel with
  | zero => intro row s s' _ h; cases h
  | succ n ih =>
    intro row s s' hsh he
    unfold scanRows at he
    obtain ⟨m, hm, he⟩ := bind_eq_ok.mp he
    have hRm := hsh.rows hm
    have hm16 : m.toNat ≤ 16 := by
      unfold numRows at hm
      obtain ⟨i, _, hm⟩ := bind_eq_ok.mp hm
      obtain ⟨e, h2, hm⟩ := bind_eq_ok.mp hm
      cases hm
      exact (hsh.fits e (List.mem_of_getElem? (rd_eq_ok.mp h2))).1
    by_cases hr : row < m.toNat
    · rw [if_pos hr] at he
      obtain ⟨keys, hkeys, he⟩ := bind_eq_ok.mp he
      obtain ⟨st, hst, he⟩ := bind_eq_ok.mp he
      obtain ⟨s1, h1, he⟩ := bind_eq_ok.mp he
      have hk : keys = inp row := by
        unfold callReader at hkeys
        split at hkeys
        · cases hkeys; rfl
        · cases hkeys
      have hst' : (s.stable[row]?).getD 0 = st := by rw [rd_eq_ok.mp hst]; rfl
      obtain ⟨k1, k2, k3⟩ := scanCols_deb hcd (by omega) 256 hsh (by
        intro c _ _
        simp [bitOf_xor, accepted, hst']) h1
      obtain ⟨g1, g2, g3⟩ := ih k1 he
      refine ⟨g1, ?_, ?_⟩
      · intro r c hc hlt
        rw [g2 r c hc (by omega), k2 r c (by omega) (by omega)]
      · intro r c hc hle hlt
        by_cases hrr : r = row
        · subst hrr
          rw [g2 r c hc (by omega), k3 c (by omega) hc, hk]
          rfl
        · rw [g3 r c hc (by omega) hlt, k2 r c (by omega) (by omega)]
    · rw [if_neg hr] at he
      cases he
      exact ⟨hsh, fun _ _ _ _ => rfl, fun r c _ h1 h2 => by omega⟩

/-- One scan steps the debouncer of every key with its own sample. -/
theorem keyscan_deb {R C : Nat} (hcd : CfgDims cfg R C) (hC : C ≤ 8) {inp : Input} {s s' : State}
    (h : Shape R C s) (he : keyscan cfg inp s = .ok s') :
    Shape R C s' ∧ ∀ r c, r < R → c < C → debOf s' r c = (debOf s r c).step (sample inp r c) := by
  unfold keyscan at he
  obtain ⟨reader, _, he⟩ := bind_eq_ok.mp he
  obtain ⟨s1, h1, he⟩ := bind_eq_ok.mp he
  have hf : Frame cfg s s1 := hookExecute_frame h1
  obtain ⟨g1, _, g3⟩ := scanRows_deb hcd hC 256 (h.frame hcd hf) he
  refine ⟨g1, ?_⟩
  intro r c hr hc
  rw [g3 r c hc (by omega) hr, hf.deb]

theorem tick_deb {R C : Nat} (hcd : CfgDims cfg R C) (hC : C ≤ 8) {inp : Input} {s s' : State}
    (h : Shape R C s) (he : tick cfg s inp = .ok s') :
    Shape R C s' ∧ ∀ r c, r < R → c < C → debOf s' r c = (debOf s r c).step (sample inp r c) := by
  unfold tick at he
  obtain ⟨s1, h1, he⟩ := bind_eq_ok.mp he
  have hf : Frame cfg s s1 := outputPhase_frame h1
  obtain ⟨g1, g2⟩ := keyscan_deb hcd hC (h.frame hcd hf) he
  refine ⟨g1, ?_⟩
  intro r c hr hc
  rw [g2 r c hr hc, hf.deb]

theorem run_deb {R C : Nat} (hcd : CfgDims cfg R C) (hC : C ≤ 8) (inps : List Input)
    {s s' : State} (h : Shape R C s) (he : run cfg s inps = .ok s') :
    Shape R C s' ∧ ∀ r c, r < R → c < C →
      debOf s' r c = (inps.map fun inp => sample inp r c).foldl Deb.step (debOf s r c) := by
  induction inps generalizing s with
  | nil => cases he; exact ⟨h, fun _ _ _ _ => rfl⟩
  | cons inp inps ih =>
    rw [run_cons] at he
    obtain ⟨s1, h1, he⟩ := bind_eq_ok.mp he
    obtain ⟨e1, e2⟩ := tick_deb hcd hC h h1
    obtain ⟨g1, g2⟩ := ih e1 he
    refine ⟨g1, ?_⟩
    intro r c hr hc
    rw [g2 r c hr hc, e2 r c hr hc]
    rfl

/-- Power-up establishes the shape. -/
theorem boot_shape {R C : Nat} (hcd : CfgDims cfg R C) (h0 : cfg.valid 0 = true) {s : State}
    (he : boot cfg = .ok s) : Shape R C s ∧ ∀ r c, r < 16 → c < 8 → debOf s r c = Deb.init := by
  obtain ⟨d, free, b, e1, e2, e3⟩ := boot_ok (cfg := cfg) h0
  rw [e1] at he
  cases he
  refine ⟨⟨by simp, by simp, ?_, ?_, mapsOf_length _, hcd 0 h0, mapsOf_fits _⟩, ?_⟩
  · intro r row hrow
    rw [replicate_get _ _ _ hrow]; simp
  · intro r row c x hrow hx
    rw [replicate_get _ _ _ hrow] at hx
    rw [replicate_get _ _ _ hx]; decide
  · intro r c hr hc
    unfold debOf Deb.init accepted counter
    dsimp only
    have hst : bitOf (((List.replicate 16 (0 : UInt8))[r]?).getD 0) c = false := by
      rw [List.getElem?_replicate]
      split <;> exact bitOf_zero c
    rw [hst, List.getElem?_replicate, if_pos hr]
    show Deb.mk false (((List.replicate 8 (10 : UInt8))[c]?).getD 0).toNat = _
    rw [List.getElem?_replicate, if_pos hc]
    rfl

end Asdf
