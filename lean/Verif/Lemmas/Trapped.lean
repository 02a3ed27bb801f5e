import Verif.Lemmas.Trap

/-! # The shipped firmware with keymap 4 or 5 selected, and how it gets there -/

namespace Asdf

open Spec

/-! ## Keymap 4 or 5 is selected -/

/-- Keymaps 4 and 5. -/
def trapLayout : Layout := { rows := 9, cols := 8, maps := [4, 5], blocked := fun _ _ => false }

/-- Keymap 4 or 5 is selected, DIP switch 2 is accepted as closed and its debounce count
is `n`. -/
structure Trapped (n : Nat) (s : State) : Prop where
  wf : ∃ ks ms a free, WF shipped trapLayout s ks ms a free
  on : accepted s 8 2 = true
  cnt : counter s 8 2 = n

theorem trap_tables : ∀ i ∈ trapLayout.maps, 4 ≤ i.toNat ∧
    (∀ e ∈ mapsOf (shipped.setup i), e.cols.toNat = 8 ∧ 9 ≤ e.rows.toNat ∧ e.rows.toNat ≤ 16) ∧
    hooksOk (hooksOf (shipped.setup i)) = true := by decide +kernel

theorem trap_entry {s : State} {ks ms a free} (h : WF shipped trapLayout s ks ms a free) :
    ∃ e, s.maps[tableFor (s.mods.shift != 0) (s.mods.caps != 0) (s.mods.ctrl != 0)]? = some e ∧
      e.cols.toNat = 8 ∧ 9 ≤ e.rows.toNat ∧ e.rows.toNat ≤ 16 := by
  have hl : tableFor (s.mods.shift != 0) (s.mods.caps != 0) (s.mods.ctrl != 0) < s.maps.length := by
    rw [h.maps, mapsOf_length]; exact tableFor_lt _ _ _
  refine ⟨_, List.getElem?_eq_getElem hl, ?_⟩
  apply (trap_tables _ h.idx).2.1
  rw [← h.maps]
  exact List.getElem_mem _

theorem trap_cols {s : State} {ks ms a free} (h : WF shipped trapLayout s ks ms a free) :
    ∃ n, numCols s = .ok n ∧ n.toNat = 8 := by
  obtain ⟨e, h1, h2, _⟩ := trap_entry h
  refine ⟨e.cols, ?_, h2⟩
  unfold numCols
  rw [modifierIndex_ok, ok_bind, rd_some h1, ok_bind]

theorem trap_rows {s : State} {ks ms a free} (h : WF shipped trapLayout s ks ms a free) :
    ∃ n, numRows s = .ok n ∧ 9 ≤ n.toNat ∧ n.toNat ≤ 16 := by
  obtain ⟨e, h1, _, h2⟩ := trap_entry h
  refine ⟨e.rows, ?_, h2⟩
  unfold numRows
  rw [modifierIndex_ok, ok_bind, rd_some h1, ok_bind]

/-- Every lookup is outside of the table. -/
theorem trap_lookup {s : State} (hi : s.curIdx ∈ trapLayout.maps) (hl : s.maps.length = 4)
    (r c : Nat) : lookupKeycode s r c = .error .oob := by
  unfold lookupKeycode getCode
  rw [modifierIndex_ok, ok_bind, rd_oob]
  · rfl
  · rw [hl]; exact (trap_tables _ hi).1

theorem trap_press {s : State} {n : Nat} (h : Trapped n s) {r c : Nat} (hr : r < 16) (hc : c < 8)
    {p : Bool} (hn : 1 ≤ n) :
    pressOrRelease shipped s r c p = .error .oob ∨
      ∃ s' n', pressOrRelease shipped s r c p = .ok s' ∧ Trapped n' s' ∧ 1 ≤ n' ∧ n' ≤ n ∧
        (r = 8 ∧ c = 2 → n' < n) := by
  obtain ⟨⟨ks, ms, a, free, hw⟩, h2, h3⟩ := h
  by_cases h1 : counter s r c = 1
  · left
    rw [pressOrRelease_accept hw hr hc p h1, trap_lookup (s := flipCell s r c p) hw.idx (by
      show s.maps.length = 4
      rw [hw.maps, mapsOf_length])]
    rfl
  · right
    obtain ⟨x, e1, e2, e3, e4⟩ := pressOrRelease_count (cfg := shipped) hw hr hc p h1
    have hcount := counter_withCount (s := s) (r := r) (c := c) (by rw [hw.cntLen]; exact hr)
      (by rw [(hw.cntRow' hr).2]; exact hc) x 8 2
    refine ⟨_, counter (withCount s r c x) 8 2, e4, ⟨⟨ks, ms, a, free, hw.withCount hr e2 e3⟩, h2, rfl⟩, ?_⟩
    rw [hcount]
    by_cases he : 8 = r ∧ 2 = c
    · obtain ⟨rfl, rfl⟩ := he
      rw [if_pos (And.intro rfl rfl)]
      omega
    · rw [if_neg he]
      refine ⟨by omega, by omega, ?_⟩
      rintro ⟨rfl, rfl⟩
      exact absurd ⟨rfl, rfl⟩ he

theorem trap_held {s : State} {n : Nat} (h : Trapped n s) (r c : Nat) :
    heldPressed shipped s r c = .error .oob := by
  obtain ⟨⟨ks, ms, a, free, hw⟩, _, _⟩ := h
  unfold heldPressed
  rw [trap_lookup hw.idx (by rw [hw.maps, mapsOf_length])]
  rfl

theorem trap_scanCols {r : Nat} (hr : r < 16) (m : Nat) :
    ∀ {fuel col : Nat} {changed keys : UInt8} {s : State} {n : Nat}, Trapped n s → 1 ≤ n →
      col + m = 8 → m < fuel →
      (r = 8 → col ≤ 2 → bitOf changed (2 - col) = !bitOf keys (2 - col)) →
      scanCols shipped r fuel col changed keys s = .error .oob ∨
      ∃ s' n', scanCols shipped r fuel col changed keys s = .ok s' ∧ Trapped n' s' ∧ 1 ≤ n' ∧
        n' ≤ n ∧ (r = 8 → col ≤ 2 → n' < n) := by
  induction m with
  | zero =>
    intro fuel col changed keys s n h hn hcol hf _
    obtain ⟨fuel, rfl⟩ : ∃ f, fuel = f + 1 := ⟨fuel - 1, by omega⟩
    obtain ⟨ks, ms, a, free, hw⟩ := h.wf
    obtain ⟨w, h1, h2⟩ := trap_cols hw
    right
    refine ⟨s, n, ?_, h, hn, Nat.le_refl _, fun _ _ => by omega⟩
    rw [scanCols_succ, h1, ok_bind, if_neg (by omega)]
  | succ m ih =>
    intro fuel col changed keys s n h hn hcol hf hbit
    obtain ⟨fuel, rfl⟩ : ∃ f, fuel = f + 1 := ⟨fuel - 1, by omega⟩
    obtain ⟨ks, ms, a, free, hw⟩ := h.wf
    obtain ⟨w, h1, h2⟩ := trap_cols hw
    rw [scanCols_succ, h1, ok_bind, if_pos (by omega)]
    have hnext : r = 8 → col + 1 ≤ 2 →
        bitOf (changed >>> 1) (2 - (col + 1)) = !bitOf (keys >>> 1) (2 - (col + 1)) := by
      intro hr8 hc2
      rw [bitOf_shiftRight, bitOf_shiftRight]
      have := hbit hr8 (by omega)
      rwa [show 2 - col = 2 - (col + 1) + 1 by omega] at this
    have hgo : ∀ (s1 : State) (n1 : Nat), Trapped n1 s1 → 1 ≤ n1 → n1 ≤ n →
        (r = 8 ∧ col = 2 → n1 < n) →
        scanCols shipped r fuel (col + 1) (changed >>> 1) (keys >>> 1) s1 = .error .oob ∨
        ∃ s' n', scanCols shipped r fuel (col + 1) (changed >>> 1) (keys >>> 1) s1 = .ok s' ∧
          Trapped n' s' ∧ 1 ≤ n' ∧ n' ≤ n ∧ (r = 8 → col ≤ 2 → n' < n) := by
      intro s1 n1 t1 t2 t3 t4
      rcases ih (fuel := fuel) (col := col + 1) t1 t2 (by omega) (by omega) hnext with e | ⟨s', n', e1, e2, e3, e4, e5⟩
      · exact Or.inl e
      · refine Or.inr ⟨s', n', e1, e2, e3, by omega, ?_⟩
        intro hr8 hc2
        by_cases hc : col = 2
        · have := t4 ⟨hr8, hc⟩; omega
        · have := e5 hr8 (by omega); omega
    by_cases hch : changed &&& 1 ≠ 0
    · rw [if_pos hch]
      rcases trap_press h hr (show col < 8 by omega) (p := decide (keys &&& 1 ≠ 0)) hn with
        e | ⟨s1, n1, e1, e2, e3, e4, e5⟩
      · left; rw [e]; rfl
      · rw [e1, ok_bind]
        exact hgo s1 n1 e2 e3 e4 e5
    · rw [if_neg hch]
      by_cases hk : keys &&& 1 ≠ 0
      · left; rw [if_pos hk, trap_held h]; rfl
      · rw [if_neg hk, ok_bind]
        refine hgo s n h hn (Nat.le_refl _) ?_
        rintro ⟨hr8, rfl⟩
        exfalso
        have := hbit hr8 (Nat.le_refl _)
        rw [Nat.sub_self] at this
        have a1 : bitOf changed 0 = false := by
          cases hb : bitOf changed 0 with
          | false => rfl
          | true => exact absurd ((and_one_ne_zero changed).mpr hb) hch
        have a2 : bitOf keys 0 = false := by
          cases hb : bitOf keys 0 with
          | false => rfl
          | true => exact absurd ((and_one_ne_zero keys).mpr hb) hk
        rw [a1, a2] at this
        cases this

theorem trap_scanRows {inp : Input} (fuel : Nat) :
    ∀ {row : Nat} {s : State} {n : Nat}, Trapped n s → 1 ≤ n → row ≤ 16 → 16 < row + fuel →
      scanRows shipped .archReadRow inp fuel row s = .error .oob ∨
      ∃ s' n', scanRows shipped .archReadRow inp fuel row s = .ok s' ∧ Trapped n' s' ∧ 1 ≤ n' ∧
        n' ≤ n ∧ (row ≤ 8 → n' < n) := by
  induction fuel with
  | zero =>
    intro row s n h hn hrow hf
    omega
  | succ fuel ih =>
    intro row s n h hn _ hf
    obtain ⟨ks, ms, a, free, hw⟩ := h.wf
    obtain ⟨w, h1, h2, h3⟩ := trap_rows hw
    unfold scanRows
    rw [h1, ok_bind]
    by_cases hrow : row < w.toNat
    · rw [if_pos hrow]
      have hst : row < s.stable.length := by rw [hw.stableLen]; omega
      have hst' : s.stable[row] = (s.stable[row]?).getD 0 := by
        rw [List.getElem?_eq_getElem hst]; rfl
      show (rd s.stable row >>= _) = _ ∨ ∃ s' n', (rd s.stable row >>= _) = _ ∧ _
      rw [rd_ok hst, ok_bind]
      rcases trap_scanCols (r := row) (by omega) 8 (fuel := 256) (col := 0)
        (changed := inp row ^^^ s.stable[row]) (keys := inp row) h hn (by omega) (by omega) (by
          intro hr8 _
          subst hr8
          rw [bitOf_xor, hst']
          have : bitOf ((s.stable[8]?).getD 0) 2 = true := h.on
          show (bitOf (inp 8) 2 != bitOf ((s.stable[8]?).getD 0) 2) = _
          rw [this]
          cases bitOf (inp 8) 2 <;> rfl) with e | ⟨s1, n1, e1, e2, e3, e4, e5⟩
      · left; rw [e]; rfl
      · rw [e1, ok_bind]
        rcases ih (row := row + 1) e2 e3 (by omega) (by omega) with e | ⟨s', n', g1, g2, g3, g4, g5⟩
        · exact Or.inl e
        · refine Or.inr ⟨s', n', g1, g2, g3, by omega, ?_⟩
          intro hr8
          by_cases h8 : row = 8
          · have := e5 h8 (by omega); omega
          · have := g5 (by omega); omega
    · rw [if_neg hrow]
      exact Or.inr ⟨s, n, rfl, h, hn, Nat.le_refl _, fun _ => by omega⟩

theorem trap_keyscan {inp : Input} {s : State} {n : Nat} (h : Trapped n s) (hn : 1 ≤ n) :
    keyscan shipped inp s = .error .oob ∨
      ∃ s' n', keyscan shipped inp s = .ok s' ∧ Trapped n' s' ∧ 1 ≤ n' ∧ n' < n := by
  obtain ⟨ks, ms, a, free, hw⟩ := h.wf
  obtain ⟨hk2, hk3, hk4, _⟩ := hooksOk_facts (trap_tables _ hw.idx).2.2
  rw [← hw.hooks] at hk2 hk4
  have hk2' : s.hooks[HOOK_ROW_SCANNER]? = some .archReadRow := hk2
  have hk4' : s.hooks[HOOK_EACH_SCAN]? = some .null := hk4
  have e : keyscan shipped inp s = scanRows shipped .archReadRow inp 256 0 s := by
    unfold keyscan hookGet hookExecute
    rw [if_pos (hookValid_iff.mpr (by decide)), rd_some hk2', ok_bind]
    rw [if_pos (hookValid_iff.mpr (by decide)), rd_some hk4', ok_bind]
    rfl
  rw [e]
  rcases trap_scanRows (inp := inp) 256 (row := 0) h hn (by omega) (by omega) with
    e | ⟨s', n', e1, e2, e3, _, e5⟩
  · exact Or.inl e
  · exact Or.inr ⟨s', n', e1, e2, e3, e5 (by omega)⟩

theorem trap_output {s : State} {n : Nat} (h : Trapped n s) :
    ∃ s', outputPhase s = .ok s' ∧ Trapped n s' := by
  obtain ⟨⟨ks, ms, a, free, hw⟩, h2, h3⟩ := h
  obtain ⟨_, hk3, _, _⟩ := hooksOk_facts (trap_tables _ hw.idx).2.2
  rw [← hw.hooks] at hk3
  have hcall : ∀ (s1 : State) (c : Code), s1.hooks = s.hooks →
      callOutput s1 c = .ok (s1.emit (.send c)) := by
    intro s1 c e
    have hk3' : s1.hooks[HOOK_OUTPUT]? = some .archSendCode := by rw [e]; exact hk3
    unfold callOutput hookGet
    rw [if_pos (hookValid_iff.mpr (by decide)), rd_some hk3', ok_bind]
  obtain ⟨b', hb⟩ := nextCode_ok hw
  have hfin : ∀ (s1 : State) (c : Code) (ks1 ms1 : List Code), nextCode s = .ok (c, s1) →
      WF shipped trapLayout s1 ks1 ms1 a free → s1.hooks = s.hooks → s1.stable = s.stable →
      s1.counters = s.counters → ∃ s', outputPhase s = .ok s' ∧ Trapped n s' := by
    intro s1 c ks1 ms1 e w g1 g2 g3
    have ha : accepted s1 8 2 = true := by unfold accepted; rw [g2]; exact h2
    have hc : counter s1 8 2 = n := by unfold counter; rw [g3]; exact h3
    unfold outputPhase
    rw [e, ok_bind]
    by_cases hlt : c < INVALID_CODE
    · refine ⟨s1.emit (.send c), ?_, ⟨ks1, ms1, a, free, w.withDev (w.dev.emit _)⟩, ha, hc⟩
      show (if c < INVALID_CODE then callOutput s1 c else .ok s1) = _
      rw [if_pos hlt, hcall s1 c g1]
    · refine ⟨s1, ?_, ⟨ks1, ms1, a, free, w⟩, ha, hc⟩
      show (if c < INVALID_CODE then callOutput s1 c else .ok s1) = _
      rw [if_neg hlt]
  by_cases he : frontL ms = 0xA0
  · rw [if_pos he] at hb
    exact hfin _ _ _ _ hb.1 hb.2 rfl rfl rfl
  · rw [if_neg he] at hb
    exact hfin _ _ _ _ hb.1 hb.2 rfl rfl rfl

/-- With keymap 4 or 5 selected no run of `n` scans is possible. -/
theorem trap_run (inps : List Input) {s : State} {n : Nat} (h : Trapped n s) (hn : 1 ≤ n)
    (hlen : n ≤ inps.length) : run shipped s inps = .error .oob := by
  induction inps generalizing s n with
  | nil => simp at hlen; omega
  | cons inp inps ih =>
    obtain ⟨s1, e1, e2⟩ := trap_output h
    rw [run_cons]
    unfold tick
    rw [e1, ok_bind]
    rcases trap_keyscan (inp := inp) e2 hn with e | ⟨s', n', g1, g2, g3, g4⟩
    · rw [e]; rfl
    · rw [g1, ok_bind]
      simp only [List.length_cons] at hlen
      exact ih g2 g3 (by omega)

/-! ## The two configurations agree until then -/

/-- Switch 2 is accepted as closed with keymap 0 or 1 selected. -/
def TripsAt (s : State) (r c : Nat) (p : Bool) : Prop :=
  p = true ∧ accepted s r c = false ∧ counter s r c = 1 ∧ r = 8 ∧ c = 2 ∧
    (s.curIdx = 0 ∨ s.curIdx = 1)

theorem select_agree (s : State) {i : UInt8} (h : shipped.valid i = fourMaps.valid i) :
    keymapsSelect shipped s i = keymapsSelect fourMaps s i := by
  unfold keymapsSelect keymapsSwitch
  rw [h]
  rfl

theorem press_agree {s : State} {code : Code}
    (h : ∀ b, decodeAction code = .mapsel b →
      shipped.valid (s.curIdx ||| b) = fourMaps.valid (s.curIdx ||| b)) :
    activateKey shipped s code = activateKey fourMaps s code := by
  unfold activateKey
  by_cases hc : code > INVALID_CODE
  · rw [if_pos hc, if_pos hc]
    cases hd : decodeAction code with
    | mapsel b => exact select_agree s (h b hd)
    | _ => rfl
  · rw [if_neg hc, if_neg hc]

theorem release_agree {s : State} {code : Code}
    (h : ∀ b, decodeAction code = .mapsel b →
      shipped.valid (s.curIdx &&& ~~~b) = fourMaps.valid (s.curIdx &&& ~~~b)) :
    deactivateKey shipped s code = deactivateKey fourMaps s code := by
  unfold deactivateKey
  by_cases hc : code > INVALID_CODE
  · rw [if_pos hc, if_pos hc]
    cases hd : decodeAction code with
    | mapsel b => exact select_agree s (h b hd)
    | _ => rfl
  · rw [if_neg hc, if_neg hc]

/-- The keymap tables are the same. -/
theorem four_wf {s : State} {ks ms a free} (h : WF fourMaps openLayout s ks ms a free) :
    WF shipped openLayout s ks ms a free :=
  ⟨h.buf, h.kc, h.mb, h.dev, h.idx, h.maps, h.hooks, h.stableLen, h.cntLen, h.cntRow, h.cntVal,
    h.rep, h.last, h.blocked, h.codes⟩

theorem keyStep_agree {s : State} {ks ms a free} (h : WF fourMaps openLayout s ks ms a free)
    {r c : Nat} (hr : r < 9) (hc : c < 8) {p : Bool} (ht : ¬ TripsAt s r c p) :
    keyStep shipped p s r c = keyStep fourMaps p s r c := by
  have hcf := fourMaps_facts
  have hml : s.maps.length = 4 := by rw [h.maps]; exact mapsOf_length _
  unfold keyStep
  by_cases hne : p ≠ accepted s r c
  · rw [if_pos hne, if_pos hne]
    by_cases h1 : counter s r c = 1
    · rw [pressOrRelease_accept h (by omega) hc p h1,
        pressOrRelease_accept (four_wf h) (by omega) hc p h1]
      have hl := (lookup_ok hcf (s := flipCell s r c p) h.idx h.maps (r := r) (c := c) hr hc).1
      rw [hl, ok_bind, ok_bind]
      have hsel : ∀ b, decodeAction (codeOf (flipCell s r c p) openLayout.cols r c) = .mapsel b →
          (b = 4 → r = 8 ∧ c = 2) := by
        intro b hb hb4
        subst hb4
        have := (placed_iff four_placed.2.2.1 hcf h hr hc).mp hb
        simpa using this
      have hidx : s.curIdx ∈ openLayout.maps := h.idx
      cases p with
      | true =>
        rw [if_pos rfl, if_pos rfl]
        apply press_agree
        intro b hb
        have hfin : ∀ i ∈ openLayout.maps, ∀ b : UInt8, b = 1 ∨ b = 2 ∨ b = 4 ∨ b = 8 →
            (b = 4 → i ≠ 0 ∧ i ≠ 1) → shipped.valid (i ||| b) = fourMaps.valid (i ||| b) := by
          intro i hi b hb hb4
          have : ∀ i ∈ openLayout.maps, ∀ b ∈ ([1, 2, 4, 8] : List UInt8),
              (b = 4 → i ≠ 0 ∧ i ≠ 1) → shipped.valid (i ||| b) = fourMaps.valid (i ||| b) := by
            decide
          exact this i hi b (by simpa using hb) hb4
        refine hfin _ hidx b (decode_mapsel hb) ?_
        intro hb4
        obtain ⟨h8, h2⟩ := hsel b hb hb4
        have hacc : accepted s r c = false := by simpa using hne
        exact ⟨fun h0 => ht ⟨rfl, hacc, h1, h8, h2, Or.inl h0⟩,
          fun h0 => ht ⟨rfl, hacc, h1, h8, h2, Or.inr h0⟩⟩
      | false =>
        rw [if_neg (by decide), if_neg (by decide)]
        apply release_agree
        intro b hb
        have hfin : ∀ i ∈ openLayout.maps, ∀ b ∈ ([1, 2, 4, 8] : List UInt8),
            shipped.valid (i &&& ~~~b) = fourMaps.valid (i &&& ~~~b) := by decide
        exact hfin _ hidx b (by simpa using decode_mapsel hb)
    · obtain ⟨x, e1, _, _, e2⟩ := pressOrRelease_count (cfg := fourMaps) h (show r < 16 by omega) hc p h1
      obtain ⟨y, f1, _, _, f2⟩ := pressOrRelease_count (cfg := shipped) (four_wf h)
        (show r < 16 by omega) hc p h1
      have : x = y := UInt8.toNat_inj.mp (by omega)
      rw [e2, f2, this]
  · rw [if_neg hne, if_neg hne]
    split
    · unfold heldPressed
      cases lookupKeycode s r c with
      | error e => rfl
      | ok code =>
        rw [ok_bind, ok_bind]
        split
        · dsimp only
          split
          · apply press_agree
            intro b hb
            rcases decode_le h.last with e | e <;>
              · have hb' : decodeAction s.lastKey = .mapsel b := hb
                rw [e] at hb'
                cases hb'
          · rfl
        · rfl
    · rfl

/-- Accepting switch 2 with keymap 0 or 1 selects keymap 4 or 5. -/
theorem keyStep_trips {s : State} {ks ms a free} (h : WF fourMaps openLayout s ks ms a free)
    {r c : Nat} {p : Bool} (ht : TripsAt s r c p) :
    ∃ s', keyStep shipped p s r c = .ok s' ∧ Trapped 10 s' := by
  obtain ⟨rfl, hacc, h1, rfl, rfl, hi⟩ := ht
  have hcf := fourMaps_facts
  have hml : s.maps.length = 4 := by rw [h.maps]; exact mapsOf_length _
  have hl := (lookup_ok hcf (s := flipCell s 8 2 true) h.idx h.maps (r := 8) (c := 2)
    (by decide) (by decide)).1
  have hd : decodeAction (codeOf (flipCell s 8 2 true) openLayout.cols 8 2) = .mapsel 4 :=
    (placed_iff four_placed.2.2.1 hcf h (by decide) (by decide)).mpr (by simp)
  have hgt : codeOf (flipCell s 8 2 true) openLayout.cols 8 2 > INVALID_CODE := by
    rw [gt_invalid]
    by_cases hle : (codeOf (flipCell s 8 2 true) openLayout.cols 8 2).toNat ≤ 0xA0
    · rcases decode_le hle with e | e <;> rw [e] at hd <;> cases hd
    · omega
  have hfl := h.flip hcf (r := 8) (c := 2) (by decide) (by decide) (p := true) (fun _ => rfl)
  obtain ⟨d', f', e1, e2⟩ := keymapsSwitch_ok (cfg := shipped) (s := flipCell s 8 2 true)
    (i := s.curIdx ||| 4) (by rcases hi with e | e <;> rw [e] <;> rfl) hml
  have key : keyStep shipped true s 8 2 =
      keymapsSwitch shipped (flipCell s 8 2 true) (s.curIdx ||| 4) := by
    unfold keyStep
    rw [hacc, if_pos (by decide), pressOrRelease_accept (four_wf h) (by decide) (by decide) true h1,
      hl, ok_bind, if_pos rfl]
    unfold activateKey
    rw [if_pos hgt, hd]
    show keymapsSelect shipped (flipCell s 8 2 true) (s.curIdx ||| 4) = _
    unfold keymapsSelect
    rw [if_pos (by
      show s.curIdx ||| 4 ≠ s.curIdx
      rcases hi with e | e <;> rw [e] <;> decide)]
  refine ⟨_, key.trans e1, ?_, ?_, ?_⟩
  · exact ⟨_, _, _, f', hfl.buf, hfl.kc, hfl.mb, e2, (by
      show s.curIdx ||| 4 ∈ trapLayout.maps
      rcases hi with e | e <;> rw [e] <;> decide), rfl, rfl, hfl.stableLen, hfl.cntLen,
      hfl.cntRow, hfl.cntVal, hfl.rep, hfl.last, (fun _ _ _ _ hb => by cases hb), hfl.codes⟩
  · show accepted (flipCell s 8 2 true) 8 2 = true
    rw [accepted_flip (by rw [h.stableLen]; decide) (by decide) true 8 2 (by decide),
      if_pos (And.intro rfl rfl)]
  · show counter (flipCell s 8 2 true) 8 2 = 10
    rw [counter_flip (by rw [h.cntLen]; decide) (by rw [(h.cntRow' (by decide)).2]; decide),
      if_pos (And.intro rfl rfl)]

end Asdf
