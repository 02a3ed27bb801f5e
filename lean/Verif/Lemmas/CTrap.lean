import Verif.Lemmas.CMain
import Verif.Lemmas.Agree

/-! # The C source once keymap 4 or 5 is selected: it leaves the table of keymaps -/

namespace Asdf.C

open Spec

set_option linter.unusedSimpArgs false

variable {x : Extra} {s : State}

theorem err_lookup {row col : Nat} (hr : row < 256) (hc : col < 256) (F : Fits x s) (hi : 4 ≤ s.curIdx.toNat)
    (t t' : Ity) (env ps keys) (w n : Nat) :
    run prog w (n + 3) .asdf_lookup_keycode [.int t row, .int t' col] (K x s env ps keys) = .err .oob := by
  obtain ⟨i, hi', hm, ci⟩ := c_modifier_index (x := x) s
  have hno : s.maps[s.curIdx.toNat]? = none := by
    rw [List.getElem?_eq_none_iff, F.maps]; exact hi
  have k : ∀ env, run prog w (n + 2) .asdf_keymaps_get_code [.int .u8 row, .int .u8 col, .int .u8 i] (K x s env ps keys) =
      .err .oob := by
    intro env
    cfn fn_asdf_keymaps_get_code
    cgo [Int.toNat_natCast, hno]
  cfn fn_asdf_lookup_keycode
  cgo [ci, k]

theorem err_held {row col : Nat} (hr : row < 256) (hc : col < 256) (F : Fits x s) (hi : 4 ≤ s.curIdx.toNat)
    (env ps keys) (w n : Nat) :
    run prog w (n + 15) .asdf_handle_key_held_pressed [.int .u8 row, .int .u8 col] (K x s env ps keys) = .err .oob := by
  have kl := fun env => err_lookup hr hc F hi .u8 .u8 env ps keys w (n + 11)
  cfn fn_asdf_handle_key_held_pressed
  cgo [kl]

theorem err_press {row col : Nat} (hr : row < 16) (hc : col < 8) {v : UInt8} {e : UB} (F : Fits x s)
    (hi : 4 ≤ s.curIdx.toNat) (h : pressOrRelease shipped s row col (v ≠ 0) = .error e) (t : Ity) (env ps keys)
    (w n : Nat) :
    run prog w (n + 15) .asdf_handle_key_press_or_release [.int .u8 row, .int .u8 col, .int t v.toNat]
      (K x s env ps keys) = .err .oob := by
  have hr2 : row < s.counters.length := by rw [F.counters]; exact hr
  obtain ⟨r, hr1⟩ : ∃ r, s.counters[row]? = some r := ⟨_, List.getElem?_eq_getElem hr2⟩
  have hc2 : col < r.length := by rw [F.row r (List.mem_of_getElem? hr1)]; exact hc
  obtain ⟨c, hc1⟩ : ∃ c, r[col]? = some c := ⟨_, List.getElem?_eq_getElem hc2⟩
  have ha0 := addr_counter (x := x) hr1 hc2
  have hb := c.toNat_lt
  have hd : UInt8.ofInt ((c.toNat : Int) - 1) = c - 1 := sub_u8 c 1
  have hs2 : row < s.stable.length := by rw [F.stable]; exact hr
  obtain ⟨st, hst⟩ : ∃ st, s.stable[row]? = some st := ⟨_, List.getElem?_eq_getElem hs2⟩
  have set1 : (s.counters.set row (r.set col (c - 1)))[row]? = some (r.set col (c - 1)) :=
    List.getElem?_set_self hr2
  have set2 : (r.set col (c - 1))[col]? = some (c - 1) := List.getElem?_set_self hc2
  by_cases h0 : c - 1 = 0
  · have hz : (((c - 1).toNat : Int) = 0) = True := eq_true ((u8_eq _ 0).2 h0)
    have e10 : UInt8.ofInt 10 = DEBOUNCE_TIME := rfl
    have hv : (v.toNat : Int) = 0 ↔ v = 0 := u8_eq _ 0
    by_cases hp : v = 0
    · have hv : ((v.toNat : Int) = 0) = True := eq_true (hv.2 hp)
      have F1 := fits_stable (fits_counters F (b := col) (v := DEBOUNCE_TIME) hr1)
        (l := s.stable.set row (st &&& ~~~(colBit col))) (by simp)
      have kl := fun env => err_lookup (row := row) (col := col) (by omega) (by omega) F1 hi .u8 .u8 env ps keys w (n + 11)
      cfn fn_asdf_handle_key_press_or_release
      cgo [ha0, Int.toNat_natCast, hr1, hc1, hd, hz, set1, set2, List.set_set, e10, hv, hst, shl_col hc,
        binop_andNot, kl, Int.add_zero]
    · have F1 := fits_stable (fits_counters F (b := col) (v := DEBOUNCE_TIME) hr1)
        (l := s.stable.set row (st ||| colBit col)) (by simp)
      have kl := fun env => err_lookup (row := row) (col := col) (by omega) (by omega) F1 hi .u8 .u8 env ps keys w (n + 11)
      have ho := binop_or .i16 rfl st (colBit col)
      cfn fn_asdf_handle_key_press_or_release
      cgo [ha0, Int.toNat_natCast, hr1, hc1, hd, hz, set1, set2, List.set_set, e10, hv, hp, hst, shl_col hc,
        ho, kl, Int.add_zero]
  · exfalso
    unfold pressOrRelease at h
    have w1 : wr r col (c - 1) = .ok (r.set col (c - 1)) := wr_eq_ok.2 ⟨hc2, rfl⟩
    have w2 : wr s.counters row (r.set col (c - 1)) = .ok (s.counters.set row (r.set col (c - 1))) :=
      wr_eq_ok.2 ⟨hr2, rfl⟩
    rw [rd_some hr1, ok_bind, rd_some hc1, ok_bind] at h
    simp only [h0, ↓reduceIte, w1, ok_bind, w2] at h
    cases h

/-! ## One key in the loop over the columns -/

/-- What the loop does with one key (asdf.c:576-585). -/
def colStep (s : State) (r col : Nat) (ch ks : UInt8) : Res State :=
  if ch &&& 1 ≠ 0 then pressOrRelease shipped s r col (decide (ks &&& 1 ≠ 0))
  else if ks &&& 1 ≠ 0 then heldPressed shipped s r col else .ok s

theorem scanCols_step (r fuel col : Nat) (ch ks : UInt8) (s : State) {nc : UInt8} (hn : numCols s = .ok nc)
    (hlt : col < nc.toNat) : scanCols shipped r (fuel + 1) col ch ks s =
      (colStep s r col ch ks >>= fun s => scanCols shipped r fuel (col + 1) (ch >>> 1) (ks >>> 1) s) := by
  rw [scanCols_succ, hn, ok_bind, if_pos hlt]
  rfl

/-- The local variables in the loop over the columns. -/
def colEnv (row : Nat) (rest : List (L × Val)) (col : Nat) (ch ks : UInt8) : List (L × Val) :=
  (.col, .int .u8 col) :: (.changed, .int .u8 ch.toNat) :: (.row_key_state, .int .u8 ks.toNat) ::
    (.row, .int .u8 row) :: rest

theorem cols_ok (c st b) (hl : fn_asdf_keyscan.body.loops[1]? = some (c, st, b)) {w : Nat} (hw : 300 ≤ w) (n ps keys)
    {row : Nat} (hr : row < 256) (rest : List (L × Val)) {col : Nat} {ch ks : UInt8} {s1 : State} (F : Fits x s)
    {nc : UInt8} (hn : numCols s = .ok nc) (hlt : col < nc.toNat) (h : colStep s row col ch ks = .ok s1) :
    ∃ x1, Fits x1 s1 ∧ ∀ m, turns (evalE (run prog w (n + 15)) c) (exec (run prog w (n + 15)) w b)
          (evalE (run prog w (n + 15)) st) (m + 1) (K x s (colEnv row rest col ch ks) ps keys) =
        turns (evalE (run prog w (n + 15)) c) (exec (run prog w (n + 15)) w b)
          (evalE (run prog w (n + 15)) st) m (K x1 s1 (colEnv row rest (col + 1) (ch >>> 1) (ks >>> 1)) ps keys) := by
  cases hl
  have kn := fun env => c_num_cols (x := x) hn env ps keys w (n + 13)
  have hnc := nc.toNat_lt
  have hlt' : (col : Int) < nc.toNat := by omega
  have hch : ((ch &&& 1).toNat : Int) = 0 ↔ ch &&& 1 = 0 := u8_eq _ 0
  have hks : ((ks &&& 1).toNat : Int) = 0 ↔ ks &&& 1 = 0 := u8_eq _ 0
  have ac := binop_and .i16 rfl ch 1
  have ak := binop_and .i16 rfl ks 1
  have e1 : (((1 : UInt8).toNat : Nat) : Int) = 1 := rfl
  have ec : ((col + 1 : Nat) : Int) = (col : Int) + 1 := by omega
  rw [e1] at ac ak
  unfold colStep at h
  simp only [colEnv, ec]
  by_cases h1 : ch &&& 1 = 0
  · have hch : (((ch &&& 1).toNat : Int) = 0) = True := eq_true (hch.2 h1)
    by_cases h2 : ks &&& 1 = 0
    · have hks : (((ks &&& 1).toNat : Int) = 0) = True := eq_true (hks.2 h2)
      simp only [h1, h2, ne_eq, not_true_eq_false, ↓reduceIte] at h
      cases h
      refine ⟨x, F, fun m => ?_⟩
      rw [turns_succ]
      cgo [kn, hlt', ac, ak, hch, hks]
    · simp only [h1, h2, ne_eq, not_true_eq_false, not_false_eq_true, ↓reduceIte] at h
      obtain ⟨x1, F1, k1⟩ := c_held_pressed hr (show col < 256 by omega) F h hw n
      have k1 := fun env => k1 env ps keys
      refine ⟨x1, F1, fun m => ?_⟩
      rw [turns_succ]
      cgo [kn, hlt', ac, ak, hch, hks, h2, k1]
  · simp only [h1, ne_eq, not_false_eq_true, ↓reduceIte] at h
    obtain ⟨x1, F1, k1⟩ := c_press_or_release hr (show col < 256 by omega) F h .i16 hw n
    have k1 := fun env => k1 env ps keys
    refine ⟨x1, F1, fun m => ?_⟩
    rw [turns_succ]
    cgo [kn, hlt', ac, ak, hch, h1, k1]

theorem cols_err (c st b) (hl : fn_asdf_keyscan.body.loops[1]? = some (c, st, b)) {w : Nat} (n ps keys)
    {row : Nat} (hr : row < 16) (rest : List (L × Val)) {col : Nat} (hc : col < 8) {ch ks : UInt8} {e : UB}
    (F : Fits x s) (hi : 4 ≤ s.curIdx.toNat)
    {nc : UInt8} (hn : numCols s = .ok nc) (hlt : col < nc.toNat) (h : colStep s row col ch ks = .error e) (m : Nat) :
    turns (evalE (run prog w (n + 15)) c) (exec (run prog w (n + 15)) w b)
          (evalE (run prog w (n + 15)) st) (m + 1) (K x s (colEnv row rest col ch ks) ps keys) = .err .oob := by
  cases hl
  have kn := fun env => c_num_cols (x := x) hn env ps keys w (n + 13)
  have hnc := nc.toNat_lt
  have hlt' : (col : Int) < nc.toNat := by omega
  have hch : ((ch &&& 1).toNat : Int) = 0 ↔ ch &&& 1 = 0 := u8_eq _ 0
  have hks : ((ks &&& 1).toNat : Int) = 0 ↔ ks &&& 1 = 0 := u8_eq _ 0
  have ac := binop_and .i16 rfl ch 1
  have ak := binop_and .i16 rfl ks 1
  have e1 : (((1 : UInt8).toNat : Nat) : Int) = 1 := rfl
  rw [e1] at ac ak
  unfold colStep at h
  simp only [colEnv]
  by_cases h1 : ch &&& 1 = 0
  · have hch : (((ch &&& 1).toNat : Int) = 0) = True := eq_true (hch.2 h1)
    by_cases h2 : ks &&& 1 = 0
    · simp only [h1, h2, ne_eq, not_true_eq_false, ↓reduceIte] at h
      cases h
    · have k1 := fun env => err_held (row := row) (col := col) (by omega) (by omega) F hi env ps keys w n
      rw [turns_succ]
      cgo [kn, hlt', ac, ak, hch, hks, h2, k1]
  · simp only [h1, ne_eq, not_false_eq_true, ↓reduceIte] at h
    have k1 := fun env => err_press hr hc F hi h .i16 env ps keys w n
    rw [turns_succ]
    cgo [kn, hlt', ac, ak, hch, h1, k1]

/-! ## Keymap 4 or 5 is selected -/

theorem trapped_idx {n : Nat} (h : Trapped n s) : 4 ≤ s.curIdx.toNat := by
  obtain ⟨ks, ms, a, free, hw⟩ := h.wf
  exact (trap_tables _ hw.idx).1

theorem trapped_step {n : Nat} (h : Trapped n s) (hn : 1 ≤ n) {r col : Nat} (hr : r < 16) (hc : col < 8)
    {ch ks : UInt8} {s1 : State} (h1 : colStep s r col ch ks = .ok s1) : ∃ n1, Trapped n1 s1 ∧ 1 ≤ n1 := by
  unfold colStep at h1
  split at h1
  · rcases trap_press h hr hc (p := decide (ks &&& 1 ≠ 0)) hn with e | ⟨s', n', e1, e2, e3, _⟩
    · rw [e] at h1; cases h1
    · rw [e1] at h1; cases h1; exact ⟨n', e2, e3⟩
  · split at h1
    · rw [trap_held h] at h1; cases h1
    · cases h1; exact ⟨n, h, hn⟩

theorem cols_trapped (c st b) (hl : fn_asdf_keyscan.body.loops[1]? = some (c, st, b)) {w : Nat} (hw : 300 ≤ w) (n ps keys)
    {row : Nat} (hr : row < 16) (rest : List (L × Val)) (j : Nat) :
    ∀ (fuel col m k : Nat) (ch ks : UInt8) (x : Extra) (s : State) (e : UB), Fits x s → Trapped k s → 1 ≤ k →
      col + j = 8 → j < fuel → j < m → scanCols shipped row fuel col ch ks s = .error e →
      turns (evalE (run prog w (n + 15)) c) (exec (run prog w (n + 15)) w b)
          (evalE (run prog w (n + 15)) st) m (K x s (colEnv row rest col ch ks) ps keys) = .err .oob := by
  induction j with
  | zero =>
    intro fuel col m k ch ks x s e F ht hk hcol hf hm h
    obtain ⟨fuel, rfl⟩ : ∃ f, fuel = f + 1 := ⟨fuel - 1, by omega⟩
    obtain ⟨_, _, _, _, hw⟩ := ht.wf
    obtain ⟨nc, h1, h2⟩ := trap_cols hw
    rw [scanCols_succ, h1, ok_bind, if_neg (by omega)] at h
    cases h
  | succ j ih =>
    intro fuel col m k ch ks x s e F ht hk hcol hf hm h
    obtain ⟨fuel, rfl⟩ : ∃ f, fuel = f + 1 := ⟨fuel - 1, by omega⟩
    obtain ⟨m, rfl⟩ : ∃ k, m = k + 1 := ⟨m - 1, by omega⟩
    obtain ⟨_, _, _, _, hwf⟩ := ht.wf
    obtain ⟨nc, h1, h2⟩ := trap_cols hwf
    rw [scanCols_step _ _ _ _ _ _ h1 (by omega)] at h
    cases hs : colStep s row col ch ks with
    | error e' => exact cols_err c st b hl n ps keys hr rest (by omega) F (trapped_idx ht) h1 (by omega) hs m
    | ok s1 =>
      rw [hs, ok_bind] at h
      obtain ⟨x1, F1, e1⟩ := cols_ok c st b hl hw n ps keys (show row < 256 by omega) rest F h1 (by omega) hs
      obtain ⟨k1, t1, t2⟩ := trapped_step ht hk hr (show col < 8 by omega) hs
      rw [e1]
      exact ih fuel (col + 1) m k1 _ _ x1 s1 e F1 t1 t2 (by omega) (by omega) (by omega) h

theorem scanCols_trapped {row : Nat} (j : Nat) : ∀ (fuel col k : Nat) (ch ks : UInt8) (s s' : State), Trapped k s →
    1 ≤ k → col + j = 8 → j < fuel → row < 16 → scanCols shipped row fuel col ch ks s = .ok s' →
    ∃ k', Trapped k' s' ∧ 1 ≤ k' := by
  induction j with
  | zero =>
    intro fuel col k ch ks s s' ht hk hcol hf hr h
    obtain ⟨fuel, rfl⟩ : ∃ f, fuel = f + 1 := ⟨fuel - 1, by omega⟩
    obtain ⟨_, _, _, _, hw⟩ := ht.wf
    obtain ⟨nc, h1, h2⟩ := trap_cols hw
    rw [scanCols_succ, h1, ok_bind, if_neg (by omega)] at h
    cases h
    exact ⟨k, ht, hk⟩
  | succ j ih =>
    intro fuel col k ch ks s s' ht hk hcol hf hr h
    obtain ⟨fuel, rfl⟩ : ∃ f, fuel = f + 1 := ⟨fuel - 1, by omega⟩
    obtain ⟨_, _, _, _, hw⟩ := ht.wf
    obtain ⟨nc, h1, h2⟩ := trap_cols hw
    rw [scanCols_step _ _ _ _ _ _ h1 (by omega)] at h
    obtain ⟨s1, hs, h⟩ := bind_eq_ok.1 h
    obtain ⟨k1, t1, t2⟩ := trapped_step ht hk hr (show col < 8 by omega) hs
    exact ih fuel (col + 1) k1 _ _ s1 s' t1 t2 (by omega) (by omega) hr h

theorem colStep_key {r col : Nat} {p : Bool} {ch ks : UInt8} (hk0 : bitOf ks 0 = p)
    (hc0 : bitOf ch 0 = (p != accepted s r col)) : colStep s r col ch ks = keyStep shipped p s r col := by
  unfold colStep keyStep
  have hd : decide (ks &&& 1 ≠ 0) = p := by
    rw [← hk0]
    by_cases hb : bitOf ks 0 = true
    · rw [hb]; simpa using (and_one_ne_zero ks).mpr hb
    · have : ¬ (ks &&& 1 ≠ 0) := fun hh => hb ((and_one_ne_zero ks).mp hh)
      rw [decide_eq_false this]; simpa using hb
  rw [hd]
  have hi1 : (ch &&& 1 ≠ 0) ↔ (p ≠ accepted s r col) := by
    rw [and_one_ne_zero, hc0]; simp
  have hi2 : (ks &&& 1 ≠ 0) ↔ (p = true) := by
    rw [and_one_ne_zero, hk0]
  by_cases hx : p ≠ accepted s r col
  · rw [if_pos hx, if_pos (hi1.mpr hx)]
  · rw [if_neg hx, if_neg (fun hh => hx (hi1.mp hh))]
    by_cases hy : p = true
    · rw [if_pos hy, if_pos (hi2.mpr hy)]
    · rw [if_neg hy, if_neg (fun hh => hy (hi2.mp hh))]

theorem cols_shows (c st b) (hl : fn_asdf_keyscan.body.loops[1]? = some (c, st, b)) {w : Nat} (hw : 300 ≤ w) (n ps keys)
    {inp : Input} {row : Nat} (hr : row < 9) (rest : List (L × Val)) (j : Nat) :
    ∀ (fuel col m : Nat) (ch ks : UInt8) (x : Extra) (s : State) (k : Kb) (e : UB), Fits x s →
      Shows fourMaps openLayout s k → Follows k →
      col + j = 8 → j < fuel → j < m →
      (∀ c, col ≤ c → c < 8 → bitOf ks (c - col) = sample inp row c) →
      (∀ c, col ≤ c → c < 8 → bitOf ch (c - col) = (sample inp row c != accepted s row c)) →
      scanCols shipped row fuel col ch ks s = .error e →
      turns (evalE (run prog w (n + 15)) c) (exec (run prog w (n + 15)) w b)
          (evalE (run prog w (n + 15)) st) m (K x s (colEnv row rest col ch ks) ps keys) = .err .oob := by
  have hcf := fourMaps_facts
  induction j with
  | zero =>
    intro fuel col m ch ks x s k e F h hfo hcol hf hm hk hch hs
    obtain ⟨fuel, rfl⟩ : ∃ f, fuel = f + 1 := ⟨fuel - 1, by omega⟩
    obtain ⟨free, hwf⟩ := h.wf
    obtain ⟨nc, h1, h2⟩ := numCols_ok hcf hwf.idx hwf.maps
    have h2 : nc.toNat = 8 := h2
    rw [scanCols_succ, h1, ok_bind, if_neg (by omega)] at hs
    cases hs
  | succ j ih =>
    intro fuel col m ch ks x s k e F h hfo hcol hf hm hk hch hs
    obtain ⟨fuel, rfl⟩ : ∃ f, fuel = f + 1 := ⟨fuel - 1, by omega⟩
    obtain ⟨m, rfl⟩ : ∃ k, m = k + 1 := ⟨m - 1, by omega⟩
    obtain ⟨free, hwf⟩ := h.wf
    obtain ⟨nc, h1, h2⟩ := numCols_ok hcf hwf.idx hwf.maps
    have h2 : nc.toNat = 8 := h2
    have hcl : col < 8 := by omega
    have hk0 : bitOf ks 0 = sample inp row col := by simpa using hk col (Nat.le_refl _) hcl
    have hc0 : bitOf ch 0 = (sample inp row col != accepted s row col) := by
      simpa using hch col (Nat.le_refl _) hcl
    have hstep := colStep_key hk0 hc0
    rw [scanCols_step _ _ _ _ _ _ h1 (by omega)] at hs
    by_cases ht : KTrips k (sample inp row col) (row, col)
    · obtain ⟨s1, e1, e2⟩ := keyStep_trips hwf ((tripsAt_iff h hfo _ _ _).mpr ht)
      have hd : colStep s row col ch ks = .ok s1 := hstep.trans e1
      obtain ⟨x1, F1, g1⟩ := cols_ok c st b hl hw n ps keys (show row < 256 by omega) rest F h1 (by omega) hd
      rw [hd, ok_bind] at hs
      rw [g1]
      exact cols_trapped c st b hl hw n ps keys (by omega) rest j fuel (col + 1) m 10 _ _ x1 s1 e F1 e2 (by omega)
        (by omega) (by omega) (by omega) hs
    · have hag := keyStep_agree hwf hr hcl (p := sample inp row col)
        (fun hh => ht ((tripsAt_iff h hfo _ _ _).mp hh))
      obtain ⟨s1, e1, e2⟩ := h.key hcf (r := row) (c := col) hr hcl (p := sample inp row col)
        (fun _ => rfl)
      have hd : colStep s row col ch ks = .ok s1 := (hstep.trans hag).trans e1
      obtain ⟨x1, F1, g1⟩ := cols_ok c st b hl hw n ps keys (show row < 256 by omega) rest F h1 (by omega) hd
      rw [hd, ok_bind] at hs
      rw [g1]
      refine ih fuel (col + 1) m _ _ x1 s1 _ e F1 e2 (hfo.key hr hcl _) (by omega) (by omega) (by omega) ?_ ?_ hs
      · intro c hc1 hc2
        rw [bitOf_shiftRight]
        have := hk c (by omega) hc2
        rwa [show c - col = c - (col + 1) + 1 by omega] at this
      · intro c hc1 hc2
        rw [bitOf_shiftRight]
        have := hch c (by omega) hc2
        rw [show c - col = c - (col + 1) + 1 by omega] at this
        rw [this]
        have hd : debOf s1 row c = debOf s row c := by
          rw [e2.deb row c hr hc2, key_deb, if_neg (by omega), h.deb row c hr hc2]
        have : accepted s1 row c = accepted s row c := congrArg Deb.on hd
        rw [this]

/-! ## The loop over the rows -/

theorem rows_ok (c st b) (hl : fn_asdf_keyscan.body.loops[0]? = some (c, st, b)) {w : Nat} (hw : 300 ≤ w) (n ps)
    (keys : Input) {row : Nat} (hr : row < 256) {s1 : State} {sk : UInt8} (F : Fits x s) {nc : UInt8} (hn : numRows s = .ok nc)
    (hlt : row < nc.toNat) (hsk : s.stable[row]? = some sk)
    (h : scanCols shipped row 256 0 (keys row ^^^ sk) (keys row) s = .ok s1) :
    ∃ x1, Fits x1 s1 ∧ ∀ m, turns (evalE (run prog w (n + 15)) c) (exec (run prog w (n + 15)) w b)
          (evalE (run prog w (n + 15)) st) (m + 1)
          (K x s [(.row, .int .u8 row), (.row_reader, .fn .asdf_arch_read_row)] ps keys) =
        turns (evalE (run prog w (n + 15)) c) (exec (run prog w (n + 15)) w b) (evalE (run prog w (n + 15)) st) m
          (K x1 s1 [(.row, .int .u8 (row + 1 : Nat)), (.row_reader, .fn .asdf_arch_read_row)] ps keys) := by
  cases hl
  have kn := fun env => c_num_rows (x := x) hn env ps keys w (n + 13)
  have hnc := nc.toNat_lt
  have hlt' : (row : Int) < nc.toNat := by omega
  have kr := fun env => run_read (x := x) (s := s) hr .u8 env ps keys w (n + 14)
  have hx := binop_xor .u8 rfl (keys row) sk
  obtain ⟨x1, a1, a2, a3, F1, e1⟩ := loop_cols _ _ _ rfl hw n ps keys hr
    [(.row_reader, .fn .asdf_arch_read_row)] 256 0 w 0 (keys row ^^^ sk) (keys row) x s s1 F rfl
    (by omega) (by omega) h
  have ec : ((row + 1 : Nat) : Int) = (row : Int) + 1 := by omega
  refine ⟨x1, F1, fun m => ?_⟩
  rw [turns_succ, ec]
  cgo [kn, hlt', kr, Int.toNat_natCast, hsk, hx, e1]

theorem rows_err (c st b) (hl : fn_asdf_keyscan.body.loops[0]? = some (c, st, b)) {w : Nat} (n ps) (keys : Input)
    {row : Nat} (hr : row < 256) {sk : UInt8} {nc : UInt8} (hn : numRows s = .ok nc)
    (hlt : row < nc.toNat) (hsk : s.stable[row]? = some sk)
    (h : ∀ c st b, fn_asdf_keyscan.body.loops[1]? = some (c, st, b) →
      turns (evalE (run prog w (n + 15)) c) (exec (run prog w (n + 15)) w b) (evalE (run prog w (n + 15)) st) w
        (K x s (colEnv row [(.row_reader, .fn .asdf_arch_read_row)] 0 (keys row ^^^ sk) (keys row)) ps keys) =
        .err .oob) (m : Nat) :
    turns (evalE (run prog w (n + 15)) c) (exec (run prog w (n + 15)) w b)
          (evalE (run prog w (n + 15)) st) (m + 1)
          (K x s [(.row, .int .u8 row), (.row_reader, .fn .asdf_arch_read_row)] ps keys) = .err .oob := by
  cases hl
  have kn := fun env => c_num_rows (x := x) hn env ps keys w (n + 13)
  have hnc := nc.toNat_lt
  have hlt' : (row : Int) < nc.toNat := by omega
  have kr := fun env => run_read (x := x) (s := s) hr .u8 env ps keys w (n + 14)
  have hx := binop_xor .u8 rfl (keys row) sk
  have e1 := h _ _ _ rfl
  have z : ((0 : Nat) : Int) = 0 := rfl
  simp only [colEnv, z] at e1
  rw [turns_succ]
  cgo [kn, hlt', kr, Int.toNat_natCast, hsk, hx, e1]

theorem scanRows_succ (inp : Input) (fuel row : Nat) (s : State) {nc sk : UInt8} (hn : numRows s = .ok nc)
    (hlt : row < nc.toNat) (hsk : s.stable[row]? = some sk) :
    scanRows shipped .archReadRow inp (fuel + 1) row s =
      (scanCols shipped row 256 0 (inp row ^^^ sk) (inp row) s >>= fun s =>
        scanRows shipped .archReadRow inp fuel (row + 1) s) := by
  show (numRows s >>= _) = _
  rw [hn, ok_bind, if_pos hlt]
  show (rd s.stable row >>= _) = _
  rw [rd_some hsk]
  rfl

theorem rows_trapped (c st b) (hl : fn_asdf_keyscan.body.loops[0]? = some (c, st, b)) {w : Nat} (hw : 300 ≤ w) (n ps)
    (keys : Input) (fuel : Nat) : ∀ (row m k : Nat) (x : Extra) (s : State) (e : UB), Fits x s → Trapped k s → 1 ≤ k →
      row ≤ 16 → 16 < row + fuel → fuel ≤ m → scanRows shipped .archReadRow keys fuel row s = .error e →
      turns (evalE (run prog w (n + 15)) c) (exec (run prog w (n + 15)) w b)
          (evalE (run prog w (n + 15)) st) m
          (K x s [(.row, .int .u8 row), (.row_reader, .fn .asdf_arch_read_row)] ps keys) = .err .oob := by
  induction fuel with
  | zero => intros; omega
  | succ fuel ih =>
    intro row m k x s e F ht hk hrow hf hm h
    obtain ⟨m, rfl⟩ : ∃ k, m = k + 1 := ⟨m - 1, by omega⟩
    obtain ⟨_, _, _, _, hwf⟩ := ht.wf
    obtain ⟨nc, h1, h2, h3⟩ := trap_rows hwf
    by_cases hlt : row < nc.toNat
    · obtain ⟨sk, hsk⟩ : ∃ sk, s.stable[row]? = some sk :=
        ⟨_, List.getElem?_eq_getElem (show row < s.stable.length by rw [F.stable]; omega)⟩
      rw [scanRows_succ keys fuel row s h1 hlt hsk] at h
      cases hs : scanCols shipped row 256 0 (keys row ^^^ sk) (keys row) s with
      | error e' =>
        exact rows_err c st b hl n ps keys (by omega) h1 hlt hsk (fun c st b hl =>
          cols_trapped c st b hl hw n ps keys (by omega) _ 8 256 0 w k _ _ x s e' F ht hk (by omega) (by omega)
            (by omega) hs) m
      | ok s1 =>
        rw [hs, ok_bind] at h
        obtain ⟨x1, F1, e1⟩ := rows_ok c st b hl hw n ps keys (by omega) F h1 hlt hsk hs
        rw [e1]
        have ht1 : ∃ k1, Trapped k1 s1 ∧ 1 ≤ k1 := scanCols_trapped 8 256 0 k _ _ s s1 ht hk (by omega) (by omega)
          (by omega) hs
        obtain ⟨k1, t1, t2⟩ := ht1
        exact ih (row + 1) m k1 x1 s1 e F1 t1 t2 (by omega) (by omega) (by omega) h
    · have : scanRows shipped .archReadRow keys (fuel + 1) row s = .ok s := by
        show (numRows s >>= _) = _
        rw [h1, ok_bind, if_neg hlt]
      rw [this] at h
      cases h

theorem rows_shows (c st b) (hl : fn_asdf_keyscan.body.loops[0]? = some (c, st, b)) {w : Nat} (hw : 300 ≤ w) (n ps)
    (keys : Input) (j : Nat) : ∀ (fuel row m : Nat) (x : Extra) (s : State) (k : Kb) (e : UB), Fits x s →
      Shows fourMaps openLayout s k → Follows k →
      row + j = 9 → 16 < row + fuel → fuel ≤ m → scanRows shipped .archReadRow keys fuel row s = .error e →
      turns (evalE (run prog w (n + 15)) c) (exec (run prog w (n + 15)) w b)
          (evalE (run prog w (n + 15)) st) m
          (K x s [(.row, .int .u8 row), (.row_reader, .fn .asdf_arch_read_row)] ps keys) = .err .oob := by
  have hcf := fourMaps_facts
  induction j with
  | zero =>
    intro fuel row m x s k e F h hfo hrow hf hm hs
    obtain ⟨fuel, rfl⟩ : ∃ f, fuel = f + 1 := ⟨fuel - 1, by omega⟩
    obtain ⟨free, hwf⟩ := h.wf
    obtain ⟨nc, h1, h2⟩ := numRows_ok hcf hwf.idx hwf.maps
    have h2 : nc.toNat = 9 := h2
    have : scanRows shipped .archReadRow keys (fuel + 1) row s = .ok s := by
      show (numRows s >>= _) = _
      rw [h1, ok_bind, if_neg (by omega)]
    rw [this] at hs
    cases hs
  | succ j ih =>
    intro fuel row m x s k e F h hfo hrow hf hm hs
    obtain ⟨fuel, rfl⟩ : ∃ f, fuel = f + 1 := ⟨fuel - 1, by omega⟩
    obtain ⟨m, rfl⟩ : ∃ k, m = k + 1 := ⟨m - 1, by omega⟩
    obtain ⟨free, hwf⟩ := h.wf
    obtain ⟨nc, h1, h2⟩ := numRows_ok hcf hwf.idx hwf.maps
    have h2 : nc.toNat = 9 := h2
    have hlt : row < nc.toNat := by omega
    have hst : row < s.stable.length := by rw [F.stable]; omega
    obtain ⟨sk, hsk⟩ : ∃ sk, s.stable[row]? = some sk := ⟨_, List.getElem?_eq_getElem hst⟩
    rw [scanRows_succ keys fuel row s h1 hlt hsk] at hs
    have b1 : ∀ c, 0 ≤ c → c < 8 → bitOf (keys row) (c - 0) = sample keys row c := fun c _ _ => by simp [sample]
    have b2 : ∀ c, 0 ≤ c → c < 8 → bitOf (keys row ^^^ sk) (c - 0) = (sample keys row c != accepted s row c) :=
      fun c _ _ => by simp [sample, bitOf_xor, accepted, hsk]
    cases hsc : scanCols shipped row 256 0 (keys row ^^^ sk) (keys row) s with
    | error e' =>
      exact rows_err c st b hl n ps keys (by omega) h1 hlt hsk (fun c st b hl =>
        cols_shows c st b hl hw n ps keys (inp := keys) (by omega) _ 8 256 0 w _ _ x s k e' F h hfo (by omega) (by omega)
          (by omega) b1 b2 hsc) m
    | ok s1 =>
      rw [hsc, ok_bind] at hs
      obtain ⟨x1, F1, e1⟩ := rows_ok c st b hl hw n ps keys (by omega) F h1 hlt hsk hsc
      rw [e1]
      obtain ⟨c1, c2⟩ := shipped_scanCols (inp := keys) (r := row) (by omega) 8 (fuel := 256)
        (col := 0) (changed := keys row ^^^ sk) (keys := keys row) h hfo (by omega) (by omega) b1 b2
      by_cases hc : Calm keys ((List.range' 0 8).map fun c => (row, c)) k
      · have hx : ∀ x ∈ (List.range' 0 8).map fun c => (row, c), x.1 < 9 ∧ x.2 < 8 := by
          intro x hx
          simp only [List.mem_map, List.mem_range'_1] at hx
          obtain ⟨c, hc, rfl⟩ := hx
          exact ⟨by omega, by omega⟩
        obtain ⟨s2, g1, g2⟩ := h.keys hcf (openLayout_allowed keys) _ hx
        have hsc' := c1 hc
        rw [hsc, g1] at hsc'
        cases hsc'
        exact ih fuel (row + 1) m x1 s1 _ e F1 g2 (follows_keys keys _ hx hfo) (by omega) (by omega) (by omega) hs
      · rcases c2 hc with g | ⟨s2, m1, g1, g2, g3, g4⟩
        · rw [hsc] at g; cases g
        · rw [hsc] at g1
          cases g1
          exact rows_trapped c st b hl hw n ps keys fuel (row + 1) m m1 x1 s1 e F1 g2 g3 (by omega) (by omega)
            (by omega) hs

/-! ## The main loop -/

/-- The row scanner and the hook of each scan are the default ones. -/
theorem keyscan_rows {inp : Input} (h1 : s.hooks[HOOK_ROW_SCANNER]? = some .archReadRow)
    (h2 : s.hooks[HOOK_EACH_SCAN]? = some .null) :
    keyscan shipped inp s = scanRows shipped .archReadRow inp 256 0 s := by
  unfold keyscan hookGet hookExecute
  rw [if_pos (hookValid_iff.mpr (by decide)), rd_some h1, ok_bind]
  rw [if_pos (hookValid_iff.mpr (by decide)), rd_some h2, ok_bind]
  rfl

theorem keyscan_err (F : Fits x s) {keys : Input} (h1 : s.hooks[HOOK_ROW_SCANNER]? = some .archReadRow)
    (h2 : s.hooks[HOOK_EACH_SCAN]? = some .null) {w : Nat} (n : Nat) (ps)
    (h : ∀ c st b, fn_asdf_keyscan.body.loops[0]? = some (c, st, b) →
      turns (evalE (run prog w (n + 15)) c) (exec (run prog w (n + 15)) w b) (evalE (run prog w (n + 15)) st) w
        (K x s [(.row, .int .u8 (0 : Nat)), (.row_reader, .fn .asdf_arch_read_row)] ps keys) = .err .oob) (env) :
    run prog w (n + 16) .asdf_keyscan [] (K x s env ps keys) = .err .oob := by
  have g1 : hookGet s.hooks HOOK_ROW_SCANNER = .ok .archReadRow := by
    unfold hookGet
    rw [if_pos (hookValid_iff.mpr (by decide)), rd_some h1]
  have g2 : hookExecute s HOOK_EACH_SCAN = .ok s := by
    unfold hookExecute
    rw [if_pos (hookValid_iff.mpr (by decide)), rd_some h2]
    rfl
  obtain ⟨v, hv, k1⟩ := c_hook_get F (by decide) g1 .i16
  have k1 : ∀ env, run prog w (n + 15) .asdf_hook_get [.int .i16 2] (K x s env ps keys) = _ :=
    fun env => k1 env ps keys w (n + 13)
  have k2 : ∀ env, run prog w (n + 15) .asdf_hook_execute [.int .i16 4] (K x s env ps keys) = _ :=
    fun env => (c_hook_execute F (by decide) g2 .i16 env ps keys w (n + 8)).2
  cases hv
  have e := h _ _ _ rfl
  have z : ((0 : Nat) : Int) = 0 := rfl
  simp only [z] at e
  cfn fn_asdf_keyscan
  cgo [k1, k2, e]

theorem main_none (c st b) (hl : fn_main.body.loops[0]? = some (c, st, b)) (w n m : Nat) (ps keys) :
    turns (evalE (run prog w (n + 16)) c) (exec (run prog w (n + 16)) w b)
          (evalE (run prog w (n + 16)) st) (m + 1) (K x s [] (none :: ps) keys) =
        turns (evalE (run prog w (n + 16)) c) (exec (run prog w (n + 16)) w b)
          (evalE (run prog w (n + 16)) st) m (K x s [] ps keys) := by
  cases hl
  rw [turns_succ]
  cgo [run_tick_none]

/-- One pass up to the scan. -/
theorem main_some (c st b) (hl : fn_main.body.loops[0]? = some (c, st, b)) (w n : Nat) (ps keys)
    {inp : Input} {s1 : State} (F : Fits x s) (h : outputPhase s = .ok s1) :
    Fits x s1 ∧ (∀ s2 x2, (∀ env, run prog w (n + 16) .asdf_keyscan [] (K x s1 env ps inp) = .ok .unit (K x2 s2 env ps inp)) →
      ∀ m, turns (evalE (run prog w (n + 16)) c) (exec (run prog w (n + 16)) w b)
          (evalE (run prog w (n + 16)) st) (m + 1) (K x s [] (some inp :: ps) keys) =
        turns (evalE (run prog w (n + 16)) c) (exec (run prog w (n + 16)) w b)
          (evalE (run prog w (n + 16)) st) m (K x2 s2 [] ps inp)) ∧
    ((∀ env, run prog w (n + 16) .asdf_keyscan [] (K x s1 env ps inp) = .err .oob) →
      ∀ m, turns (evalE (run prog w (n + 16)) c) (exec (run prog w (n + 16)) w b)
          (evalE (run prog w (n + 16)) st) (m + 1) (K x s [] (some inp :: ps) keys) = .err .oob) := by
  cases hl
  simp only [outputPhase, bind_eq_ok] at h
  obtain ⟨⟨code, s2⟩, h2, h3⟩ := h
  have k2 := fun env => c_next_code F h2 env ps inp w (n + 13)
  have F2 := (k2 []).1
  have k2 := fun env => (k2 env).2
  have hlt : (code.toNat : Int) < 160 ↔ code < INVALID_CODE := by
    rw [UInt8.lt_iff_toNat_lt]
    have : INVALID_CODE.toNat = 160 := rfl
    omega
  by_cases hc : code < INVALID_CODE
  · simp only [hc, ↓reduceIte, callOutput, bind_eq_ok] at h3
    obtain ⟨f, hf, h3⟩ := h3
    obtain ⟨v, hv, kf⟩ := c_hook_get F2 (by decide) hf .i16
    have kf : ∀ env, run prog w (n + 16) .asdf_hook_get [.int .i16 3] (K x s2 env ps inp) = _ :=
      fun env => kf env ps inp w (n + 14)
    split at h3
    · cases h3
      cases hv
      refine ⟨fits_emit F2 (.send code), fun s4 x4 k4 m => ?_, fun k4 m => ?_⟩
      · rw [turns_succ]
        cgo [run_tick_some, k2, hlt, hc, kf, run_send, k4]
      · rw [turns_succ]
        cgo [run_tick_some, k2, hlt, hc, kf, run_send, k4]
    · cases h3
  · simp only [hc, ↓reduceIte] at h3
    cases h3
    refine ⟨F2, fun s4 x4 k4 m => ?_, fun k4 m => ?_⟩
    · rw [turns_succ]
      cgo [run_tick_some, k2, hlt, hc, k4]
    · rw [turns_succ]
      cgo [run_tick_some, k2, hlt, hc, k4]

/-- With keymap 4 or 5 selected. -/
theorem main_trapped (c st b) (hl : fn_main.body.loops[0]? = some (c, st, b)) {w : Nat} (hw : 300 ≤ w) (n : Nat) :
    ∀ (ps : List (Option Input)) (m k : Nat) (keys : Option Input) (x : Extra) (s : State), Fits x s → ps.length < m →
      Trapped k s → 1 ≤ k → k ≤ (readings ps).length →
      turns (evalE (run prog w (n + 16)) c) (exec (run prog w (n + 16)) w b)
          (evalE (run prog w (n + 16)) st) m (K x s [] ps keys) = .err .oob := by
  intro ps
  induction ps with
  | nil =>
    intro m k keys x s F hm ht hk hl
    have : (readings []).length = 0 := rfl
    omega
  | cons p ps ih =>
    intro m k keys x s F hm ht hk hlen
    obtain ⟨m, rfl⟩ : ∃ k, m = k + 1 := ⟨m - 1, by omega⟩
    have hm2 : ps.length < m := by simpa using hm
    cases p with
    | none =>
      rw [main_none c st b hl]
      exact ih m k keys x s F hm2 ht hk hlen
    | some inp =>
      obtain ⟨s1, e1, t1⟩ := trap_output ht
      obtain ⟨F1, a1, a2⟩ := main_some c st b hl w n ps keys (inp := inp) F e1
      obtain ⟨_, _, _, _, hwf⟩ := t1.wf
      obtain ⟨hk2, hk3, hk4, _⟩ := hooksOk_facts (trap_tables _ hwf.idx).2.2
      rw [← hwf.hooks] at hk2 hk4
      rcases trap_keyscan (inp := inp) t1 hk with e | ⟨s2, k2, e2, t2, t3, t4⟩
      · rw [keyscan_rows hk2 hk4] at e
        exact a2 (keyscan_err F1 hk2 hk4 n ps fun c st b hl =>
          rows_trapped c st b hl hw n ps inp 256 0 w k x s1 _ F1 t1 hk (by omega) (by omega) (by omega) e) m
      · obtain ⟨x2, F2, k2'⟩ := c_keyscan F1 inp e2 hw n ps
        rw [a1 s2 x2 k2']
        have : (readings (some inp :: ps)).length = (readings ps).length + 1 := rfl
        exact ih m k2 inp x2 s2 F2 hm2 t2 t3 (by omega)

/-- The passes before. -/
theorem main_prefix (c st b) (hl : fn_main.body.loops[0]? = some (c, st, b)) {w : Nat} (hw : 300 ≤ w) (n : Nat)
    (rest : List (Option Input)) :
    ∀ (ps : List (Option Input)) (keys : Option Input) (x : Extra) (s s' : State), Fits x s →
      ps.foldlM pass s = .ok s' →
      ∃ x' keys', Fits x' s' ∧ ∀ m, turns (evalE (run prog w (n + 16)) c) (exec (run prog w (n + 16)) w b)
          (evalE (run prog w (n + 16)) st) (m + ps.length) (K x s [] (ps ++ rest) keys) =
        turns (evalE (run prog w (n + 16)) c) (exec (run prog w (n + 16)) w b)
          (evalE (run prog w (n + 16)) st) m (K x' s' [] rest keys') := by
  intro ps
  induction ps with
  | nil =>
    intro keys x s s' F h
    cases h
    exact ⟨x, keys, F, fun m => rfl⟩
  | cons p ps ih =>
    intro keys x s s' F h
    simp only [List.foldlM_cons, bind_eq_ok] at h
    obtain ⟨s1, h1, h⟩ := h
    cases p with
    | none =>
      cases h1
      obtain ⟨x', keys', F', e⟩ := ih keys x s s' F h
      refine ⟨x', keys', F', fun m => ?_⟩
      rw [← e m]
      exact main_none c st b hl w n (m + ps.length) (ps ++ rest) keys
    | some inp =>
      obtain ⟨s2, h2, h1⟩ := bind_eq_ok.1 (show (outputPhase s >>= fun s => keyscan shipped inp s) = .ok s1 from h1)
      obtain ⟨F2, a1, _⟩ := main_some c st b hl w n (ps ++ rest) keys (inp := inp) F h2
      obtain ⟨x3, F3, k3⟩ := c_keyscan F2 inp h1 hw n (ps ++ rest)
      obtain ⟨x', keys', F', e⟩ := ih inp x3 s1 s' F3 h
      refine ⟨x', keys', F', fun m => ?_⟩
      rw [← e m]
      exact a1 s1 x3 k3 (m + ps.length)

/-- The closing of switch 2 is accepted while switch 1 is open, and ten more scans follow. -/
theorem c_main_trips (P1 : List (Option Input)) (inp : Input) (P2 : List (Option Input))
    (h : Trips (readings P1) inp) (hn : NeverTrips (readings P1)) (hp : 10 ≤ (readings P2).length) {w : Nat}
    (hw : 300 ≤ w) (hlen : (P1 ++ some inp :: P2).length < w) (n : Nat) :
    run prog w (n + 17) .main [] (start (P1 ++ some inp :: P2)) = .err .oob := by
  obtain ⟨s, e1, e2, e3⟩ := four_run (readings P1)
  have e1 : powerUp fourMaps (readings P1) = .ok s := e1
  rw [← powerUp_same _ hn] at e1
  have e1 : (boot shipped >>= fun s0 => Asdf.run shipped s0 (P1.filterMap id)) = .ok s := e1
  simp only [bind_eq_ok, ← passes_eq] at e1
  obtain ⟨s0, h0, e1⟩ := e1
  obtain ⟨x1, F1, k1⟩ := c_asdf_init fits_zero h0 hw (n + 4)
  have e : ∀ c st b, fn_main.body.loops[0]? = some (c, st, b) →
      turns (evalE (run prog w (n + 16)) c) (exec (run prog w (n + 16)) w b) (evalE (run prog w (n + 16)) st) w
        (K x1 s0 [] (P1 ++ some inp :: P2) none) = .err .oob := by
    intro c st b hl
    obtain ⟨x2, keys, F2, g⟩ := main_prefix c st b hl hw n (some inp :: P2) P1 none x1 s0 s F1 e1
    simp only [List.length_append, List.length_cons] at hlen
    obtain ⟨m, hm⟩ : ∃ m, w = (m + 1) + P1.length := ⟨w - 1 - P1.length, by omega⟩
    have g := g (m + 1)
    rw [← hm] at g
    rw [g]
    have hcf := fourMaps_facts
    obtain ⟨s1, o1, o2⟩ := e2.output hcf
    obtain ⟨F3, a1, a2⟩ := main_some c st b hl w n P2 keys (inp := inp) F2 o1
    obtain ⟨_, g2⟩ := shipped_keyscan (inp := inp) o2 e3.output
    have ht := calm_trips (readings P1) inp
    obtain ⟨free, hwf⟩ := o2.wf
    obtain ⟨hk2, hk3, hk4, _⟩ := hooksOk_facts (hcf.parts hwf.idx).2.2.2
    rw [← hwf.hooks] at hk2 hk4
    rcases g2 (fun hh => (ht.mp hh) h) with e | ⟨s3, k3, c1, c2, c3, c4⟩
    · rw [keyscan_rows hk2 hk4] at e
      exact a2 (keyscan_err F3 hk2 hk4 n P2 fun c st b hl =>
        rows_shows c st b hl hw n P2 inp 9 256 0 w x2 s1 _ _ F3 o2 e3.output (by omega) (by omega) (by omega) e) m
    · obtain ⟨x4, F4, k4⟩ := c_keyscan F3 inp c1 hw n P2
      rw [a1 s3 x4 k4]
      exact main_trapped c st b hl hw n P2 m k3 inp x4 s3 F4 (by omega) c2 c3 (by omega)
  have hs : start (P1 ++ some inp :: P2) = K x0 State.zero [] (P1 ++ some inp :: P2) none := by
    unfold start K
    rw [mem0_eq]
    rfl
  rw [hs]
  have e := e _ _ _ rfl
  have k1 := fun env => k1 env (P1 ++ some inp :: P2) none
  cfn fn_main
  cgo [k1, e]

theorem readings_split : ∀ (P : List (Option Input)) (pre : List Input) (inp : Input) (post : List Input),
    readings P = pre ++ inp :: post →
    ∃ P1 P2, P = P1 ++ some inp :: P2 ∧ readings P1 = pre ∧ readings P2 = post := by
  intro P
  induction P with
  | nil =>
    intro pre inp post h
    cases pre <;> cases h
  | cons p P ih =>
    intro pre inp post h
    cases p with
    | none =>
      obtain ⟨P1, P2, rfl, h1, h2⟩ := ih pre inp post h
      exact ⟨none :: P1, P2, rfl, h1, h2⟩
    | some q =>
      have h : q :: readings P = pre ++ inp :: post := h
      cases pre with
      | nil =>
        cases h
        exact ⟨[], P, rfl, rfl, rfl⟩
      | cons a pre =>
        injection h with h1 h2
        obtain ⟨P1, P2, rfl, g1, g2⟩ := ih pre inp post h2
        exact ⟨some a :: P1, P2, by rw [h1]; rfl, by rw [← g1]; rfl, g2⟩

theorem readings_append (a b : List (Option Input)) : readings (a ++ b) = readings a ++ readings b :=
  List.filterMap_append

theorem firstPolls_more (f : Nat → Option Input) (hf : ∀ k, ∃ j, k ≤ j ∧ (f j).isSome) (k d : Nat) :
    ∃ j l, readings (firstPolls f j) = readings (firstPolls f k) ++ l ∧ d ≤ l.length := by
  induction d with
  | zero => exact ⟨k, [], by simp, by simp⟩
  | succ d ih =>
    obtain ⟨j, l, h1, h2⟩ := ih
    obtain ⟨i, hi, hs⟩ := hf j
    obtain ⟨a, ha⟩ := Option.isSome_iff_exists.1 hs
    have hr : List.range (i + 1) = List.range j ++ (List.range' j (i - j) ++ [i]) := by
      rw [List.range_succ, ← List.append_assoc]
      congr 1
      have := List.range'_append (s := 0) (m := j) (n := i - j) (step := 1)
      rw [show 0 + 1 * j = j by omega, show j + (i - j) = i by omega] at this
      rw [List.range_eq_range', List.range_eq_range', this]
    refine ⟨i + 1, l ++ (readings ((List.range' j (i - j)).map f) ++ [a]), ?_, by simp; omega⟩
    unfold firstPolls at h1 ⊢
    rw [hr, List.map_append, readings_append, h1, List.append_assoc, List.map_append, readings_append]
    simp [readings, ha]

end Asdf.C
