import Verif.Lemmas.CAction

/-! # `asdf.c`: debouncing and the scan -/

namespace Asdf.C

variable {x : Extra} {s : State}

@[crun] theorem toPtr_ptr (g : G) (p : List Sel) : toPtr (.ptr g p) = .ok (.ptr g p) := rfl
@[crun] theorem ptrAdd_ix2 (g : G) (a j i : Int) :
    ptrAdd (.ptr g [.ix a, .ix j]) i = .ok (.obj g [.ix a, .ix (j + i)]) := rfl

theorem addr_counter {a b : Nat} {r : List UInt8} (hr : s.counters[a]? = some r) (hb : b < r.length) (env ps keys) :
    addrOf (.obj .debounce_counters [.ix a, .ix b]) (K x s env ps keys) =
      .ok (.ptr .debounce_counters [.ix a, .ix b]) := by
  have : 0 ≤ (b : Int) ∧ (b : Int) ≤ r.length := by omega
  simp [addrOf, K, encMem, Tree.get, hr, this]

theorem shl_col {col : Nat} (h : col < 8) (t : Ity) :
    binop .shl (.int .i16 1) (.int t col) = .ok (.int .i16 (colBit col).toNat) := by
  match col, h with
  | 0, _ => rfl
  | 1, _ => rfl
  | 2, _ => rfl
  | 3, _ => rfl
  | 4, _ => rfl
  | 5, _ => rfl
  | 6, _ => rfl
  | 7, _ => rfl

@[crun] theorem shr_u8 (c : UInt8) :
    binop .shr (.int .u8 c.toNat) (.int .i16 1) = .ok (.int .i16 (c >>> 1).toNat) := by
  have h : (c >>> 1).toNat = c.toNat / 2 := by
    rw [UInt8.toNat_shiftRight]
    exact Nat.shiftRight_eq_div_pow _ 1
  rw [h]
  rfl

theorem fits_stable (F : Fits x s) {l : List UInt8} (h : l.length = s.stable.length) : Fits x { s with stable := l } :=
  { F with stable := h.trans F.stable }

theorem fits_counters (F : Fits x s) {a b : Nat} {r : List UInt8} {v : UInt8} (hr : s.counters[a]? = some r) :
    Fits x { s with counters := s.counters.set a (r.set b v) } :=
  { F with
    counters := by simp [F.counters]
    row := fun q hq => by
      rcases List.mem_or_eq_of_mem_set hq with h | rfl
      · exact F.row q h
      · rw [List.length_set]
        exact F.row r (List.mem_of_getElem? hr) }

theorem c_press_or_release {row col : Nat} (hr : row < 256) (hc : col < 256) {v : UInt8} {s' : State} (F : Fits x s)
    (h : pressOrRelease shipped s row col (v ≠ 0) = .ok s') (t : Ity) {w : Nat} (hw : 300 ≤ w) (n : Nat) :
    ∃ x', Fits x' s' ∧ ∀ env ps keys,
      run prog w (n + 15) .asdf_handle_key_press_or_release [.int .u8 row, .int .u8 col, .int t v.toNat]
        (K x s env ps keys) = .ok .unit (K x' s' env ps keys) := by
  simp only [pressOrRelease, bind_eq_ok, rd_eq_ok] at h
  obtain ⟨r, hr1, c, hc1, h⟩ := h
  have hr2 := (List.getElem?_eq_some_iff.1 hr1).1
  have hc2 := (List.getElem?_eq_some_iff.1 hc1).1
  have h8 : col < 8 := F.row r (List.mem_of_getElem? hr1) ▸ hc2
  have ha := fun s' (e : s'.counters = s.counters) => addr_counter (x := x) (s := s') (e ▸ hr1) hc2
  have ha0 := ha s rfl
  have hb := c.toNat_lt
  have hd : UInt8.ofInt ((c.toNat : Int) - 1) = c - 1 := sub_u8 c 1
  have hz : ((c - 1).toNat : Int) = 0 ↔ c - 1 = 0 := u8_eq _ 0
  by_cases h0 : c - 1 = 0
  · have hz' : ((c - 1).toNat : Int) = 0 := hz.2 h0
    have hz : (((c - 1).toNat : Int) = 0) = True := eq_true hz'
    have set1 : (s.counters.set row (r.set col (c - 1)))[row]? = some (r.set col (c - 1)) :=
      List.getElem?_set_self hr2
    have set2 : (r.set col (c - 1))[col]? = some (c - 1) := List.getElem?_set_self hc2
    rw [if_pos h0] at h
    simp only [bind_eq_ok, rd_eq_ok, wr_eq_ok] at h
    obtain ⟨_, ⟨-, rfl⟩, _, ⟨-, rfl⟩, st, hst, h⟩ := h
    have hs2 := (List.getElem?_eq_some_iff.1 hst).1
    have e10 : UInt8.ofInt 10 = DEBOUNCE_TIME := rfl
    have hv : (v.toNat : Int) = 0 ↔ v = 0 := u8_eq _ 0
    by_cases hp : v = 0
    · rw [if_neg (by simp [hp])] at h
      simp only [bind_eq_ok, wr_eq_ok] at h
      obtain ⟨_, ⟨-, rfl⟩, code, hl, h⟩ := h
      have hv : ((v.toNat : Int) = 0) = True := eq_true (hv.2 hp)
      have F1 := fits_stable (fits_counters F (b := col) (v := DEBOUNCE_TIME) hr1)
        (l := s.stable.set row (st &&& ~~~(colBit col))) (by simp)
      have kl := fun env ps keys => c_lookup (x := x) hr hc hl .u8 .u8 env ps keys w (n + 11)
      obtain ⟨x', F', k⟩ := c_deactivate_key code .u8 hw n F1 h
      refine ⟨x', F', fun env ps keys => ?_⟩
      have k := fun env => k env ps keys
      have kl := fun env => kl env ps keys
      cfn fn_asdf_handle_key_press_or_release
      cgo [ha0, Int.toNat_natCast, hr1, hc1, hd, hz, set1, set2, List.set_set, e10, hv, hst, shl_col h8,
        binop_andNot, kl, k, Int.add_zero]
    · rw [if_pos (by simp [hp])] at h
      simp only [bind_eq_ok, wr_eq_ok] at h
      obtain ⟨_, ⟨-, rfl⟩, code, hl, h⟩ := h
      have F1 := fits_stable (fits_counters F (b := col) (v := DEBOUNCE_TIME) hr1)
        (l := s.stable.set row (st ||| colBit col)) (by simp)
      have kl := fun env ps keys => c_lookup (x := x) hr hc hl .u8 .u8 env ps keys w (n + 11)
      obtain ⟨x', F', k⟩ := c_activate_key code .u8 hw n F1 h
      refine ⟨x', F', fun env ps keys => ?_⟩
      have k := fun env => k env ps keys
      have kl := fun env => kl env ps keys
      have ho := binop_or .i16 rfl st (colBit col)
      cfn fn_asdf_handle_key_press_or_release
      cgo [ha0, Int.toNat_natCast, hr1, hc1, hd, hz, set1, set2, List.set_set, e10, hv, hp, hst, shl_col h8,
        ho, kl, k, Int.add_zero]
  · rw [if_neg h0] at h
    simp only [bind_eq_ok, wr_eq_ok] at h
    obtain ⟨_, ⟨-, rfl⟩, _, ⟨-, rfl⟩, h⟩ := h
    cases h
    refine ⟨x, fits_counters F hr1, fun env ps keys => ?_⟩
    cfn fn_asdf_handle_key_press_or_release
    cgo [ha0, Int.toNat_natCast, hr1, hc1, hd, hz, h0, Int.add_zero]

theorem c_held_pressed {row col : Nat} (hr : row < 256) (hc : col < 256) {s' : State} (F : Fits x s)
    (h : heldPressed shipped s row col = .ok s') {w : Nat} (hw : 300 ≤ w) (n : Nat) :
    ∃ x', Fits x' s' ∧ ∀ env ps keys,
      run prog w (n + 15) .asdf_handle_key_held_pressed [.int .u8 row, .int .u8 col]
        (K x s env ps keys) = .ok .unit (K x' s' env ps keys) := by
  simp only [heldPressed, bind_eq_ok] at h
  obtain ⟨c, hl, h⟩ := h
  have kl := fun env ps keys => c_lookup (x := x) hr hc hl .u8 .u8 env ps keys w (n + 11)
  have hu : (c.toNat : Int) = s.lastKey.toNat ↔ c = s.lastKey := u8_eq _ _
  by_cases hc : c = s.lastKey
  · have hu : ((c.toNat : Int) = s.lastKey.toNat) = True := eq_true (hu.2 hc)
    rw [if_pos hc] at h
    have h : (if (repTick s.rep).1 then activateKey shipped { s with rep := (repTick s.rep).2 } s.lastKey
      else .ok { s with rep := (repTick s.rep).2 }) = .ok s' := h
    have kr := fun env ps keys => c_repeat x s env ps keys w (n + 13)
    have F1 : Fits x { s with rep := (repTick s.rep).2 } := { F with }
    cases hf : (repTick s.rep).1
    · rw [hf, if_neg (by decide)] at h
      cases h
      refine ⟨x, F1, fun env ps keys => ?_⟩
      have kl := fun env => kl env ps keys
      have kr := fun env => kr env ps keys
      cfn fn_asdf_handle_key_held_pressed
      cgo [kl, hu, kr, hf]
    · rw [hf, if_pos rfl] at h
      obtain ⟨x', F', k⟩ := c_activate_key s.lastKey .u8 hw n F1 h
      refine ⟨x', F', fun env ps keys => ?_⟩
      have k := fun env => k env ps keys
      have kl := fun env => kl env ps keys
      have kr := fun env => kr env ps keys
      cfn fn_asdf_handle_key_held_pressed
      cgo [kl, hu, kr, hf, k]
  · rw [if_neg hc] at h
    cases h
    refine ⟨x, F, fun env ps keys => ?_⟩
    have kl := fun env => kl env ps keys
    cfn fn_asdf_handle_key_held_pressed
    cgo [kl, hu, hc]

/-! ## The scan -/

theorem loop_cols (c st b) (hl : fn_asdf_keyscan.body.loops[1]? = some (c, st, b)) {w : Nat} (hw : 300 ≤ w) (n ps keys)
    {row : Nat} (hr : row < 256) (rest : List (L × Val)) :
    ∀ (fuel col m : Nat) (col0 : Int) (ch ks : UInt8) (x : Extra) (s s' : State), Fits x s → col0 = col → col < 256 →
      fuel ≤ m → scanCols shipped row fuel col ch ks s = .ok s' →
      ∃ x' a1 a2 a3, Fits x' s' ∧ turns (evalE (run prog w (n + 15)) c) (exec (run prog w (n + 15)) w b)
          (evalE (run prog w (n + 15)) st) m (K x s ((.col, .int .u8 col0) :: (.changed, .int .u8 ch.toNat) ::
            (.row_key_state, .int .u8 ks.toNat) :: (.row, .int .u8 row) :: rest) ps keys) =
        .ok .next (K x' s' ((.col, a1) :: (.changed, a2) :: (.row_key_state, a3) :: (.row, .int .u8 row) :: rest)
          ps keys) := by
  cases hl
  intro fuel
  induction fuel with
  | zero => intro _ _ _ _ _ _ _ _ _ _ _ _ h; cases h
  | succ fuel ih =>
    rintro col m _ ch ks x s s' F rfl hcol hm h
    obtain ⟨m, rfl⟩ : ∃ k, m = k + 1 := ⟨m - 1, by omega⟩
    simp only [scanCols, bind_eq_ok] at h
    obtain ⟨nc, hn, h⟩ := h
    have kn := fun env => c_num_cols (x := x) hn env ps keys w (n + 13)
    have hnc := nc.toNat_lt
    by_cases hlt : col < nc.toNat
    · rw [if_pos hlt] at h
      have hlt' : (col : Int) < nc.toNat := by omega
      have hch : ((ch &&& 1).toNat : Int) = 0 ↔ ch &&& 1 = 0 := u8_eq _ 0
      have hks : ((ks &&& 1).toNat : Int) = 0 ↔ ks &&& 1 = 0 := u8_eq _ 0
      have ac := binop_and .i16 rfl ch 1
      have ak := binop_and .i16 rfl ks 1
      have e1 : (((1 : UInt8).toNat : Nat) : Int) = 1 := rfl
      rw [e1] at ac ak
      have next : ∀ x1 s1, Fits x1 s1 → scanCols shipped row fuel (col + 1) (ch >>> 1) (ks >>> 1) s1 = .ok s' → _ :=
        fun x1 s1 F1 h1 => ih (col + 1) m ((col : Int) + 1) (ch >>> 1) (ks >>> 1) x1 s1 s' F1 (by omega) (by omega)
          (by omega) h1
      by_cases h1 : ch &&& 1 = 0
      · have hch : (((ch &&& 1).toNat : Int) = 0) = True := eq_true (hch.2 h1)
        by_cases h2 : ks &&& 1 = 0
        · have hks : (((ks &&& 1).toNat : Int) = 0) = True := eq_true (hks.2 h2)
          simp only [h1, h2, ne_eq, not_true_eq_false, ↓reduceIte] at h
          obtain ⟨x', a1, a2, a3, F', e⟩ := next x s F h
          refine ⟨x', a1, a2, a3, F', ?_⟩
          rw [turns_succ]
          cgo [kn, hlt', ac, ak, hch, hks, e]
        · simp only [h1, h2, ne_eq, not_true_eq_false, not_false_eq_true, ↓reduceIte] at h
          obtain ⟨s1, hs1, h⟩ := bind_eq_ok.1 h
          obtain ⟨x1, F1, k1⟩ := c_held_pressed hr hcol F hs1 hw n
          have k1 := fun env => k1 env ps keys
          obtain ⟨x', a1, a2, a3, F', e⟩ := next x1 s1 F1 h
          refine ⟨x', a1, a2, a3, F', ?_⟩
          rw [turns_succ]
          cgo [kn, hlt', ac, ak, hch, hks, h2, k1, e]
      · simp only [h1, ne_eq, not_false_eq_true, ↓reduceIte] at h
        obtain ⟨s1, hs1, h⟩ := bind_eq_ok.1 h
        obtain ⟨x1, F1, k1⟩ := c_press_or_release hr hcol F hs1 .i16 hw n
        have k1 := fun env => k1 env ps keys
        obtain ⟨x', a1, a2, a3, F', e⟩ := next x1 s1 F1 h
        refine ⟨x', a1, a2, a3, F', ?_⟩
        rw [turns_succ]
        cgo [kn, hlt', ac, ak, hch, h1, k1, e]
    · rw [if_neg hlt] at h
      cases h
      have hlt' : ¬ (col : Int) < nc.toNat := by omega
      refine ⟨x, .int .u8 col, .int .u8 ch.toNat, .int .u8 ks.toNat, F, ?_⟩
      rw [turns_succ]
      cgo [kn, hlt']

theorem run_read {r : Nat} (hr : r < 256) (t : Ity) (env ps) (keys : Input) (w n : Nat) :
    run prog w (n + 1) .asdf_arch_read_row [.int t r] (K x s env ps keys) =
      .ok (.int .u8 (keys r).toNat) (K x s env ps keys) := by
  have : (conv .u8 r).toNat = r := by rw [conv_u8 _ (by omega)]; rfl
  rw [run_ext rfl]
  simp only [ext, this]
  rfl

theorem loop_rows (c st b) (hl : fn_asdf_keyscan.body.loops[0]? = some (c, st, b)) {w : Nat} (hw : 300 ≤ w) (n ps)
    (keys : Input) {reader : HookFn} {v : Val} (hv : HookIs reader v) :
    ∀ (fuel row m : Nat) (row0 : Int) (x : Extra) (s s' : State), Fits x s → row0 = row → row < 256 →
      fuel ≤ m → scanRows shipped reader keys fuel row s = .ok s' →
      ∃ x' a, Fits x' s' ∧ turns (evalE (run prog w (n + 15)) c) (exec (run prog w (n + 15)) w b)
          (evalE (run prog w (n + 15)) st) m (K x s [(.row, .int .u8 row0), (.row_reader, v)] ps keys) =
        .ok .next (K x' s' [(.row, a), (.row_reader, v)] ps keys) := by
  cases hl
  intro fuel
  induction fuel with
  | zero => intro _ _ _ _ _ _ _ _ _ _ h; cases h
  | succ fuel ih =>
    rintro row m _ x s s' F rfl hrow hm h
    obtain ⟨m, rfl⟩ : ∃ k, m = k + 1 := ⟨m - 1, by omega⟩
    simp only [scanRows, bind_eq_ok] at h
    obtain ⟨nc, hn, h⟩ := h
    have kn := fun env => c_num_rows (x := x) hn env ps keys w (n + 13)
    have hnc := nc.toNat_lt
    by_cases hlt : row < nc.toNat
    · rw [if_pos hlt] at h
      simp only [bind_eq_ok, rd_eq_ok] at h
      obtain ⟨ks, hk, sk, hsk, s1, hs1, h⟩ := h
      have hlt' : (row : Int) < nc.toNat := by omega
      unfold callReader at hk
      split at hk
      · cases hk
        cases hv
        have kr := fun env => run_read (x := x) (s := s) hrow .u8 env ps keys w (n + 14)
        have hx := binop_xor .u8 rfl (keys row) sk
        obtain ⟨x1, a1, a2, a3, F1, e1⟩ := loop_cols _ _ _ rfl hw n ps (some keys) hrow
          [(.row_reader, .fn .asdf_arch_read_row)] 256 0 w 0 (keys row ^^^ sk) (keys row) x s s1 F rfl
          (by omega) (by omega) hs1
        obtain ⟨x', a, F', e⟩ := ih (row + 1) m ((row : Int) + 1) x1 s1 s' F1 (by omega) (by omega) (by omega) h
        refine ⟨x', a, F', ?_⟩
        rw [turns_succ]
        cgo [kn, hlt', kr, Int.toNat_natCast, hsk, hx, e1, e]
      · cases hk
    · rw [if_neg hlt] at h
      cases h
      have hlt' : ¬ (row : Int) < nc.toNat := by omega
      refine ⟨x, .int .u8 row, F, ?_⟩
      rw [turns_succ]
      cgo [kn, hlt']

theorem c_keyscan {s' : State} (F : Fits x s) (keys : Input) (h : keyscan shipped keys s = .ok s') {w : Nat}
    (hw : 300 ≤ w) (n : Nat) (ps) : ∃ x', Fits x' s' ∧ ∀ env,
      run prog w (n + 16) .asdf_keyscan [] (K x s env ps keys) = .ok .unit (K x' s' env ps keys) := by
  simp only [keyscan, bind_eq_ok] at h
  obtain ⟨reader, h1, s1, h2, h⟩ := h
  obtain ⟨v, hv, k1⟩ := c_hook_get F (by decide) h1 .i16
  have k1 : ∀ env, run prog w (n + 15) .asdf_hook_get [.int .i16 2] (K x s env ps keys) = _ :=
    fun env => k1 env ps keys w (n + 13)
  have k2 := fun env => c_hook_execute F (by decide) h2 .i16 env ps keys w (n + 8)
  have F1 := (k2 []).1
  have k2 : ∀ env, run prog w (n + 15) .asdf_hook_execute [.int .i16 4] (K x s env ps keys) = _ :=
    fun env => (k2 env).2
  obtain ⟨x', a, F', e⟩ := loop_rows _ _ _ rfl hw n ps keys hv 256 0 w 0 x s1 s' F1 rfl (by omega) (by omega) h
  refine ⟨x', F', fun env => ?_⟩
  have hp := (hookIs_ptr hv).1
  cfn fn_asdf_keyscan
  cgo [k1, hp, k2, e]

end Asdf.C
