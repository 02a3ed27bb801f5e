import Verif.Lemmas.CScan
import Verif.Model.Main

/-! # `asdf_apply_all_actions`, `asdf_init` and `main` -/

namespace Asdf.C

variable {x : Extra} {s : State}

/-! ## `asdf_apply_all_actions` -/

theorem loop_applyCols (c st b) (hl : fn_asdf_apply_all_actions.body.loops[1]? = some (c, st, b)) {w : Nat}
    (hw : 300 ≤ w) (n ps keys) {row : Nat} (hr : row < 256) (v : Val) :
    ∀ (fuel col m : Nat) (col0 : Int) (ks : UInt8) (x : Extra) (s s' : State), Fits x s → col0 = col → col < 256 →
      fuel ≤ m → applyCols shipped row fuel col ks s = .ok s' →
      ∃ x' a1 a3, Fits x' s' ∧ turns (evalE (run prog w (n + 13)) c) (exec (run prog w (n + 13)) w b)
          (evalE (run prog w (n + 13)) st) m (K x s ((.col, .int .u8 col0) ::
            (.row_key_state, .int .u8 ks.toNat) :: (.row, .int .u8 row) :: [(.row_reader, v)]) ps keys) =
        .ok .next (K x' s' ((.col, a1) :: (.row_key_state, a3) :: (.row, .int .u8 row) :: [(.row_reader, v)]) ps keys) := by
  cases hl
  intro fuel
  induction fuel with
  | zero => intro _ _ _ _ _ _ _ _ _ _ _ h; cases h
  | succ fuel ih =>
    rintro col m _ ks x s s' F rfl hcol hm h
    obtain ⟨m, rfl⟩ : ∃ k, m = k + 1 := ⟨m - 1, by omega⟩
    simp only [applyCols, bind_eq_ok] at h
    obtain ⟨nc, hn, h⟩ := h
    have kn := fun env => c_num_cols (x := x) hn env ps keys w (n + 11)
    have hnc := nc.toNat_lt
    by_cases hlt : col < nc.toNat
    · rw [if_pos hlt] at h
      simp only [bind_eq_ok] at h
      obtain ⟨code, hlk, h⟩ := h
      have hlt' : (col : Int) < nc.toNat := by omega
      have kl := fun env => c_lookup (x := x) hr hcol hlk .u8 .u8 env ps keys w (n + 10)
      have hks : ((ks &&& 1).toNat : Int) = 0 ↔ ks &&& 1 = 0 := u8_eq _ 0
      have ak := binop_and .i16 rfl ks 1
      have e1 : (((1 : UInt8).toNat : Nat) : Int) = 1 := rfl
      rw [e1] at ak
      have next : ∀ x1 s1, Fits x1 s1 → applyCols shipped row fuel (col + 1) (ks >>> 1) s1 = .ok s' → _ :=
        fun x1 s1 F1 h1 => ih (col + 1) m ((col : Int) + 1) (ks >>> 1) x1 s1 s' F1 (by omega) (by omega)
          (by omega) h1
      by_cases h2 : ks &&& 1 = 0
      · have hks : (((ks &&& 1).toNat : Int) = 0) = True := eq_true (hks.2 h2)
        simp only [h2, ne_eq, not_true_eq_false, ↓reduceIte] at h
        obtain ⟨s1, hs1, h⟩ := bind_eq_ok.1 h
        obtain ⟨x1, F1, k1⟩ := c_deactivate_action code .u8 hw n F hs1
        have k1 := fun env => k1 env ps keys
        obtain ⟨x', a1, a3, F', e⟩ := next x1 s1 F1 h
        refine ⟨x', a1, a3, F', ?_⟩
        rw [turns_succ]
        cgo [kn, hlt', kl, ak, hks, k1, e]
      · simp only [h2, ne_eq, not_false_eq_true, ↓reduceIte] at h
        obtain ⟨s1, hs1, h⟩ := bind_eq_ok.1 h
        obtain ⟨x1, F1, k1⟩ := c_activate_action code .u8 hw n F hs1
        have k1 := fun env => k1 env ps keys
        obtain ⟨x', a1, a3, F', e⟩ := next x1 s1 F1 h
        refine ⟨x', a1, a3, F', ?_⟩
        rw [turns_succ]
        cgo [kn, hlt', kl, ak, hks, h2, k1, e]
    · rw [if_neg hlt] at h
      cases h
      have hlt' : ¬ (col : Int) < nc.toNat := by omega
      refine ⟨x, .int .u8 col, .int .u8 ks.toNat, F, ?_⟩
      rw [turns_succ]
      cgo [kn, hlt']

theorem loop_applyRows (c st b) (hl : fn_asdf_apply_all_actions.body.loops[0]? = some (c, st, b)) {w : Nat}
    (hw : 300 ≤ w) (n ps keys) {reader : HookFn} {v : Val} (hv : HookIs reader v) :
    ∀ (fuel row m : Nat) (row0 : Int) (x : Extra) (s s' : State), Fits x s → row0 = row → row < 256 →
      fuel ≤ m → applyRows shipped reader keys fuel row s = .ok s' →
      ∃ x' a, Fits x' s' ∧ turns (evalE (run prog w (n + 13)) c) (exec (run prog w (n + 13)) w b)
          (evalE (run prog w (n + 13)) st) m (K x s [(.row, .int .u8 row0), (.row_reader, v)] ps keys) =
        .ok .next (K x' s' [(.row, a), (.row_reader, v)] ps keys) := by
  cases hl
  intro fuel
  induction fuel with
  | zero => intro _ _ _ _ _ _ _ _ _ _ h; cases h
  | succ fuel ih =>
    rintro row m _ x s s' F rfl hrow hm h
    obtain ⟨m, rfl⟩ : ∃ k, m = k + 1 := ⟨m - 1, by omega⟩
    simp only [applyRows, bind_eq_ok] at h
    obtain ⟨nc, hn, h⟩ := h
    have kn := fun env => c_num_rows (x := x) hn env ps keys w (n + 11)
    have hnc := nc.toNat_lt
    by_cases hlt : row < nc.toNat
    · rw [if_pos hlt] at h
      simp only [bind_eq_ok, wr_eq_ok] at h
      obtain ⟨ks, hk, _, ⟨hsl, rfl⟩, s1, hs1, h⟩ := h
      have hlt' : (row : Int) < nc.toNat := by omega
      unfold callReader at hk
      split at hk
      · cases hk
        cases hv
        have kr := fun env => run_read (x := x) (s := s) hrow .u8 env ps keys w (n + 12)
        have hsk := List.getElem?_eq_getElem hsl
        obtain ⟨x1, a1, a3, F1, e1⟩ := loop_applyCols _ _ _ rfl hw n ps keys hrow
          (.fn .asdf_arch_read_row) 256 0 w 0 (keys row) x _ s1 (fits_stable F (by simp)) rfl
          (by omega) (by omega) hs1
        obtain ⟨x', a, F', e⟩ := ih (row + 1) m ((row : Int) + 1) x1 s1 s' F1 (by omega) (by omega) (by omega) h
        refine ⟨x', a, F', ?_⟩
        rw [turns_succ]
        cgo [kn, hlt', kr, Int.toNat_natCast, hsk, e1, e]
      · cases hk
    · rw [if_neg hlt] at h
      cases h
      have hlt' : ¬ (row : Int) < nc.toNat := by omega
      refine ⟨x, .int .u8 row, F, ?_⟩
      rw [turns_succ]
      cgo [kn, hlt']

theorem c_apply_all_actions {s' : State} (F : Fits x s) (keys : Input) (h : applyAllActions shipped keys s = .ok s')
    {w : Nat} (hw : 300 ≤ w) (n : Nat) (ps) : ∃ x', Fits x' s' ∧ ∀ env,
      run prog w (n + 14) .asdf_apply_all_actions [] (K x s env ps keys) = .ok .unit (K x' s' env ps keys) := by
  simp only [applyAllActions, bind_eq_ok] at h
  obtain ⟨reader, h1, h⟩ := h
  obtain ⟨v, hv, k1⟩ := c_hook_get F (by decide) h1 .i16
  have k1 : ∀ env, run prog w (n + 13) .asdf_hook_get [.int .i16 2] (K x s env ps keys) = _ :=
    fun env => k1 env ps keys w (n + 11)
  obtain ⟨x', a, F', e⟩ := loop_applyRows _ _ _ rfl hw n ps keys hv 256 0 w 0 x s s' F rfl (by omega) (by omega) h
  refine ⟨x', F', fun env => ?_⟩
  have hp := (hookIs_ptr hv).1
  cfn fn_asdf_apply_all_actions
  cgo [k1, hp, e]

/-! ## `asdf_init` -/

/-- Fill a row of counters from column `col`. -/
def fill : List UInt8 → Nat → Nat → List UInt8
  | r, _, 0 => r
  | r, col, k + 1 => fill (r.set col DEBOUNCE_TIME) (col + 1) k

theorem fill_all : ∀ (r : List UInt8), r.length = 8 → fill r 0 8 = List.replicate MAX_COLS DEBOUNCE_TIME
  | [_, _, _, _, _, _, _, _], _ => rfl

theorem loop_fill (c st b) (hl : fn_asdf_init.body.loops[1]? = some (c, st, b)) (w n ps keys)
    {row : Nat} (rest : List (L × Val)) (x : Extra) :
    ∀ (k col m : Nat) (col0 : Int) (r : List UInt8) (s : State), col0 = col → col + k = 8 → k < m →
      s.counters[row]? = some r → r.length = 8 →
      turns (evalE (run prog w n) c) (exec (run prog w n) w b) (evalE (run prog w n) st) m
        (K x s ((.col, .int .u8 col0) :: (.row, .int .u8 row) :: rest) ps keys) =
        .ok .next (K x { s with counters := s.counters.set row (fill r col k) }
          ((.col, .int .u8 8) :: (.row, .int .u8 row) :: rest) ps keys) := by
  cases hl
  intro k
  induction k with
  | zero =>
    rintro col m _ r s rfl hk hm hr h8
    obtain ⟨m, rfl⟩ : ∃ k, m = k + 1 := ⟨m - 1, by omega⟩
    obtain ⟨hlt, rfl⟩ := List.getElem?_eq_some_iff.1 hr
    rw [turns_succ]
    have hi : (col : Int) = 8 := by omega
    cgo [hi, fill, List.set_getElem_self]
  | succ k ih =>
    rintro col m _ r s rfl hk hm hr h8
    obtain ⟨m, rfl⟩ : ∃ k, m = k + 1 := ⟨m - 1, by omega⟩
    have hlt := (List.getElem?_eq_some_iff.1 hr).1
    have hc := List.getElem?_eq_getElem (l := r) (i := col) (by omega)
    have e := ih (col + 1) m ((col : Int) + 1) (r.set col DEBOUNCE_TIME)
      { s with counters := s.counters.set row (r.set col DEBOUNCE_TIME) } (by omega) (by omega) (by omega)
      (List.getElem?_set_self hlt) (by simp [h8])
    have hi : (col : Int) < 8 := by omega
    have e10 : UInt8.ofInt 10 = DEBOUNCE_TIME := rfl
    rw [turns_succ]
    cgo [hi, Int.toNat_natCast, hr, hc, e10, e, List.set_set, fill]

/-- Fill the rows from `row`. -/
def fillRows : List UInt8 → List (List UInt8) → Nat → Nat → List UInt8 × List (List UInt8)
  | st, cs, _, 0 => (st, cs)
  | st, cs, row, k + 1 =>
    fillRows (st.set row 0) (cs.set row (List.replicate MAX_COLS DEBOUNCE_TIME)) (row + 1) k

theorem fillRows_all (st : List UInt8) (cs : List (List UInt8)) (h1 : st.length = 16) (h2 : cs.length = 16) :
    fillRows st cs 0 16 = (List.replicate MAX_ROWS 0,
      List.replicate MAX_ROWS (List.replicate MAX_COLS DEBOUNCE_TIME)) := by
  match st, h1 with
  | [_, _, _, _, _, _, _, _, _, _, _, _, _, _, _, _], _ =>
    match cs, h2 with
    | [_, _, _, _, _, _, _, _, _, _, _, _, _, _, _, _], _ => rfl

theorem loop_init (c st b) (hl : fn_asdf_init.body.loops[0]? = some (c, st, b)) {w : Nat} (hw : 300 ≤ w) (n ps keys)
    (x : Extra) :
    ∀ (k row m : Nat) (row0 : Int) (s : State), row0 = row → row + k = 16 → k < m → s.stable.length = 16 →
      s.counters.length = 16 → (∀ r ∈ s.counters, r.length = 8) →
      turns (evalE (run prog w n) c) (exec (run prog w n) w b) (evalE (run prog w n) st) m
        (K x s [(.row, .int .u8 row0)] ps keys) =
        .ok .next (K x { s with stable := (fillRows s.stable s.counters row k).1
                                counters := (fillRows s.stable s.counters row k).2 }
          [(.row, .int .u8 16)] ps keys) := by
  cases hl
  intro k
  induction k with
  | zero =>
    rintro row m _ s rfl hk hm h1 h2 h3
    obtain ⟨m, rfl⟩ : ∃ k, m = k + 1 := ⟨m - 1, by omega⟩
    rw [turns_succ]
    have hi : (row : Int) = 16 := by omega
    cgo [hi, fillRows]
  | succ k ih =>
    rintro row m _ s rfl hk hm h1 h2 h3
    obtain ⟨m, rfl⟩ : ∃ k, m = k + 1 := ⟨m - 1, by omega⟩
    have hs := List.getElem?_eq_getElem (l := s.stable) (i := row) (by omega)
    have hr := List.getElem?_eq_getElem (l := s.counters) (i := row) (by omega)
    have h8 := h3 _ (List.mem_of_getElem? hr)
    have e1 := loop_fill _ _ _ rfl w n ps keys (row := row) [] x 8 0 w 0 _
      { s with stable := s.stable.set row 0 } rfl rfl (by omega) hr h8
    rw [fill_all _ h8] at e1
    have e := ih (row + 1) m ((row : Int) + 1)
      { s with stable := s.stable.set row 0,
               counters := s.counters.set row (List.replicate MAX_COLS DEBOUNCE_TIME) }
      (by omega) (by omega) (by omega) (by simp [h1]) (by simp [h2]) (fun q hq => by
        rcases List.mem_or_eq_of_mem_set hq with h | rfl
        · exact h3 q h
        · rfl)
    have hi : (row : Int) < 16 := by omega
    have e0 : UInt8.ofInt 0 = 0 := rfl
    rw [turns_succ]
    cgo [hi, Int.toNat_natCast, hs, e0, e1, e, fillRows]

theorem c_asdf_init {s' : State} (F : Fits x s) (h : asdfInit shipped s = .ok s') {w : Nat} (hw : 300 ≤ w) (n : Nat) :
    ∃ x', Fits x' s' ∧ ∀ env ps keys,
      run prog w (n + 12) .asdf_init [] (K x s env ps keys) = .ok .unit (K x' s' env ps keys) := by
  simp only [asdfInit, bind_eq_ok] at h
  obtain ⟨s1, h1, ⟨hd1, b1⟩, h2, ⟨hd2, b2⟩, h3, h⟩ := h
  cases h
  have F0 : Fits x { s with lastKey := INVALID_CODE } := { F with }
  have F1 := fits_bufInit F0
  have F2 : Fits x { s with lastKey := INVALID_CODE, buf := bufInit s.buf, rep := repInit s.rep } := { F1 with }
  obtain ⟨x3, F3, k3⟩ := c_keymaps_init hw n F2 h1
  obtain ⟨x4, -, F4, l4, u4, k4⟩ := c_buffer_new F3 (size := 16) (by decide) .i16 h2
  have F4' : Fits x4 { s1 with buf := b1, kcBuf := hd1 } := { F4 with kc := ⟨l4, u4⟩ }
  obtain ⟨x5, -, F5, l5, u5, k5⟩ := c_buffer_new F4' (size := 128) (by decide) .i16 h3
  have F5' : Fits x5 { s1 with buf := b2, kcBuf := hd1, msgBuf := hd2 } := { F5 with msg := ⟨l5, u5⟩ }
  refine ⟨x5, { F5' with
    stable := rfl
    counters := rfl
    row := fun r hr => by rw [List.eq_of_mem_replicate hr]; rfl }, fun env ps keys => ?_⟩
  have k1 := fun env => c_buffer_init (x := x) (s := { s with lastKey := INVALID_CODE }) env ps keys w (n + 10)
  have k2 := fun env => c_repeat_init x { s with lastKey := INVALID_CODE, buf := bufInit s.buf } env ps keys w (n + 10)
  have k3 := fun env => k3 env ps keys
  have k4 := fun env => k4 env ps keys w (n + 10)
  have k5 := fun env => k5 env ps keys w (n + 10)
  have e := loop_init _ _ _ rfl hw (n + 11) ps keys x5 16 0 w 0 { s1 with buf := b2, kcBuf := hd1, msgBuf := hd2 } rfl rfl
    (by omega) F5'.stable F5'.counters F5'.row
  rw [fillRows_all _ _ F5'.stable F5'.counters] at e
  have e160 : UInt8.ofInt 160 = INVALID_CODE := rfl
  cfn fn_asdf_init
  cgo [e160, k1, k2, k3, k4, k5, e]

/-! ## `main` -/

/-- One pass of the main loop: what `asdf_arch_tick` answers decides (main.c:66-79). -/
def pass (s : State) : Option Input → Res State
  | none => .ok s
  | some inp => tick shipped s inp

theorem passes_eq (polls : List (Option Input)) : ∀ s, polls.foldlM pass s = Asdf.run shipped s (polls.filterMap id) := by
  induction polls with
  | nil => intro s; rfl
  | cons p polls ih =>
    intro s
    cases p with
    | none => exact ih s
    | some inp =>
      have : (fun s => polls.foldlM pass s) = fun s => Asdf.run shipped s (polls.filterMap id) := funext ih
      show (pass s (some inp) >>= fun s => polls.foldlM pass s) = _
      rw [this]
      rfl

theorem run_tick_none (env ps keys) (w n : Nat) :
    run prog w (n + 1) .asdf_arch_tick [] (K x s env (none :: ps) keys) = .ok (.int .u8 0) (K x s env ps keys) := by
  rw [run_ext rfl]; rfl
theorem run_tick_some (env ps keys inp) (w n : Nat) :
    run prog w (n + 1) .asdf_arch_tick [] (K x s env (some inp :: ps) keys) = .ok (.int .u8 1) (K x s env ps inp) := by
  rw [run_ext rfl]; rfl
theorem run_tick_stop (env keys) (w n : Nat) :
    run prog w (n + 1) .asdf_arch_tick [] (K x s env [] keys) = .stop (K x s env [] keys) := by
  rw [run_ext rfl]; rfl
theorem run_send (c : Code) (t : Ity) (S : St Io) (w n : Nat) :
    run prog w (n + 1) .asdf_arch_send_code [.int t c.toNat] S = .ok .unit (S.emit (.send c)) := by
  rw [run_ext rfl]
  simp only [ext, callEvent, ofInt_u8]

theorem loop_main (c st b) (hl : fn_main.body.loops[0]? = some (c, st, b)) {w : Nat} (hw : 300 ≤ w) (n : Nat) :
    ∀ (ps : List (Option Input)) (m : Nat) (keys : Option Input) (x : Extra) (s s' : State), Fits x s → ps.length < m →
      ps.foldlM pass s = .ok s' →
      ∃ x' keys', Fits x' s' ∧ turns (evalE (run prog w (n + 16)) c) (exec (run prog w (n + 16)) w b)
          (evalE (run prog w (n + 16)) st) m (K x s [] ps keys) = .stop (K x' s' [] [] keys') := by
  cases hl
  intro ps
  induction ps with
  | nil =>
    intro m keys x s s' F hm h
    obtain ⟨m, rfl⟩ : ∃ k, m = k + 1 := ⟨m - 1, by omega⟩
    cases h
    refine ⟨x, keys, F, ?_⟩
    rw [turns_succ]
    cgo [run_tick_stop]
  | cons p ps ih =>
    intro m keys x s s' F hm h
    obtain ⟨m, rfl⟩ : ∃ k, m = k + 1 := ⟨m - 1, by omega⟩
    simp only [List.foldlM_cons, bind_eq_ok] at h
    obtain ⟨s1, h1, h⟩ := h
    have hm2 : ps.length < m := by simpa using hm
    cases p with
    | none =>
      cases h1
      obtain ⟨x', keys', F', e⟩ := ih m keys x s s' F hm2 h
      refine ⟨x', keys', F', ?_⟩
      rw [turns_succ]
      cgo [run_tick_none, e]
    | some inp =>
      simp only [pass, tick, outputPhase, bind_eq_ok] at h1
      obtain ⟨s3, ⟨⟨code, s2⟩, h2, h3⟩, h1⟩ := h1
      have k2 := fun env => c_next_code F h2 env ps inp w (n + 13)
      have F2 := (k2 []).1
      have k2 := fun env => (k2 env).2
      have hlt : (code.toNat : Int) < 160 ↔ code < INVALID_CODE := by
        rw [UInt8.lt_iff_toNat_lt]
        have : INVALID_CODE.toNat = 160 := rfl
        omega
      by_cases hc : code < INVALID_CODE
      · simp only [hc, ↓reduceIte, callOutput, bind_eq_ok] at h3
        obtain ⟨f, hf, h3⟩ := h3
        obtain ⟨v, hv, kf⟩ := c_hook_get F2 (by decide) hf .i16
        have kf : ∀ env, run prog w (n + 16) .asdf_hook_get [.int .i16 3] (K x s2 env ps inp) = _ :=
          fun env => kf env ps inp w (n + 14)
        split at h3
        · cases h3
          cases hv
          have F3 := fits_emit F2 (.send code)
          obtain ⟨x4, F4, k4⟩ := c_keyscan F3 inp h1 hw n ps
          obtain ⟨x', keys', F', e⟩ := ih m inp x4 s1 s' F4 hm2 h
          refine ⟨x', keys', F', ?_⟩
          rw [turns_succ]
          cgo [run_tick_some, k2, hlt, hc, kf, run_send, k4, e]
        · cases h3
      · simp only [hc, ↓reduceIte] at h3
        cases h3
        obtain ⟨x4, F4, k4⟩ := c_keyscan F2 inp h1 hw n ps
        obtain ⟨x', keys', F', e⟩ := ih m inp x4 s1 s' F4 hm2 h
        refine ⟨x', keys', F', ?_⟩
        rw [turns_succ]
        cgo [run_tick_some, k2, hlt, hc, k4, e]

/-- Nothing set up yet. -/
def x0 : Extra := ⟨List.replicate 4 .null, List.replicate 16 .null⟩

theorem mem0_eq : mem0 = encMem x0 State.zero := by
  funext g
  cases g <;> rfl

theorem fits_zero : Fits x0 State.zero where
  pool := rfl
  bufs := rfl
  bp := rfl
  avail := by decide
  handle := by decide
  size := by decide
  ptr := by
    intro i hi
    have : (i : Int) < 0 := hi
    omega
  noint := by
    intro v hv
    rw [List.eq_of_mem_replicate hv]
    intro t n h
    cases h
  phys := rfl
  next := by decide
  virt := rfl
  vphys := by decide
  nhooks := rfl
  hk := rfl
  hooks := by
    intro i h v h1 h2
    have h1 := List.eq_of_mem_replicate (List.mem_of_getElem? h1)
    have h2 := List.eq_of_mem_replicate (List.mem_of_getElem? h2)
    subst h1 h2
    rfl
  maps := rfl
  stable := rfl
  counters := rfl
  row := fun r hr => by rw [List.eq_of_mem_replicate hr]; rfl
  kc := by decide
  msg := by decide

theorem c_main (ps : List (Option Input)) {s : State}
    (h : (boot shipped >>= fun s0 => Asdf.run shipped s0 (ps.filterMap id)) = .ok s) {w : Nat} (hw : 300 ≤ w)
    (hp : ps.length < w) (n : Nat) :
    ∃ x keys, Fits x s ∧ run prog w (n + 17) .main [] (start ps) = .stop (K x s [] [] keys) := by
  simp only [bind_eq_ok, ← passes_eq] at h
  obtain ⟨s0, h0, h⟩ := h
  obtain ⟨x1, F1, k1⟩ := c_asdf_init fits_zero h0 hw (n + 4)
  obtain ⟨x', keys', F', e⟩ := loop_main _ _ _ rfl hw n ps w none x1 s0 s F1 hp h
  refine ⟨x', keys', F', ?_⟩
  have hs : start ps = K x0 State.zero [] ps none := by
    unfold start K
    rw [mem0_eq]
    rfl
  rw [hs]
  have k1 := fun env => k1 env ps none
  cfn fn_main
  cgo [k1, e]

end Asdf.C
