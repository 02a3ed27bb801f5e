import Verif.Lemmas.CModifiers
import Verif.Lemmas.CBuffer

/-! # `asdf_keymaps.c` -/

namespace Asdf.C

variable {x : Extra} {s : State}

/-! ## More rules -/

theorem bits_andNot (a b : UInt8) :
    ofBits .i16 (BitVec.ofInt 16 a.toNat &&& ~~~ BitVec.ofInt 16 b.toNat) = (a &&& ~~~ b).toNat := by
  have h := (a &&& ~~~ b).toNat_lt
  refine Eq.trans (congrArg (ofBits .i16) ?_) (ofBits_nat (a &&& ~~~ b).toNat (by omega))
  have e : ∀ c : UInt8, BitVec.ofNat 16 c.toNat = c.toBitVec.setWidth 16 := fun c => by
    apply BitVec.eq_of_toNat_eq
    simp
  simp only [BitVec.ofInt_natCast, e, UInt8.toBitVec_and, UInt8.toBitVec_not]
  ext i hi
  simp only [BitVec.getElem_and, BitVec.getElem_not, BitVec.getElem_setWidth, BitVec.getLsbD_and,
    BitVec.getLsbD_not]
  by_cases h8 : i < 8
  · simp [h8]
  · simp [BitVec.getLsbD_of_ge _ _ (Nat.le_of_not_lt h8), h8]

@[crun] theorem unop_bnot (n : Int) : unop .bnot (.int .i16 n) =
    .ok (.int .i16 (ofBits .i16 (~~~ BitVec.ofInt 16 n))) := rfl

theorem binop_andNot (a b : UInt8) :
    binop .band (.int .u8 a.toNat) (.int .i16 (ofBits .i16 (~~~ BitVec.ofInt 16 b.toNat))) =
      .ok (.int .i16 (a &&& ~~~ b).toNat) := by
  have h1 := BitVec.toInt_lt (x := ~~~ BitVec.ofInt 16 (b.toNat : Int))
  have h2 := BitVec.le_toInt (~~~ BitVec.ofInt 16 (b.toNat : Int))
  have hc : conv .i16 (ofBits .i16 (~~~ BitVec.ofInt 16 b.toNat)) = ofBits .i16 (~~~ BitVec.ofInt 16 b.toNat) :=
    conv_i16 _ (by simp only [ofBits]; omega)
  simp only [binop, common_u8_i16, conv_i16_u8, arith, hc]
  rw [← bits_andNot]
  simp only [ofBits, width, BitVec.ofInt_toInt]
  rfl

@[crun] theorem addr_rom (t : List Code) (o : Int) (S : St Io) : addrOf (.rom t o) S =
    if 0 ≤ o ∧ o ≤ t.length then .ok (.rom t o) else .error .oob := rfl
@[crun] theorem ptrAdd_rom (t : List Code) (o i : Int) : ptrAdd (.rom t o) i = .ok (.rom t (o + i)) := rfl

/-! ## Maps -/

section
variable (F : Fits x s)
include F

theorem fits_setMap {i : Nat} {m : MapEntry} : Fits x { s with maps := s.maps.set i m } :=
  { F with maps := by simpa using F.maps }

theorem fits_addMap {m : Option (List Code)} {i : Nat} {r c : UInt8} {s' : State}
    (h : addMap s m i r c = .ok s') : Fits x s' := by
  unfold addMap at h
  split at h
  · simp only [bind_eq_ok, wr_eq_ok] at h
    obtain ⟨_, ⟨-, rfl⟩, h⟩ := h
    cases h
    exact fits_setMap F
  · cases h; exact F

theorem c_add_map {m : Option (List Code)} {i : Nat} (hi : i < 256) {r c : UInt8} {s' : State}
    (h : addMap s m i r c = .ok s') (t t' t'' : Ity) (env ps keys) (w n : Nat) :
    run prog w (n + 1) .asdf_keymaps_add_map [encMatrix m, .int t i, .int t' r.toNat, .int t'' c.toNat]
        (K x s env ps keys) = .ok .unit (K x s' env ps keys) := by
  have hp : toPtr (encMatrix m) = .ok (encMatrix m) := by cases m <;> rfl
  have hs := fun env => store_maps_matrix x s env ps keys i (Int.natCast_nonneg i) m
  unfold addMap at h
  cfn fn_asdf_keymaps_add_map
  by_cases h1 : i < NUM_MODIFIERS
  · have h1' : (i : Int) < 4 := by simp only [NUM_MODIFIERS] at h1; omega
    by_cases h2 : r.toNat ≤ MAX_ROWS
    · have h2' : (r.toNat : Int) ≤ 16 := by simp only [MAX_ROWS] at h2; omega
      by_cases h3 : c.toNat ≤ MAX_COLS
      · have h3' : (c.toNat : Int) ≤ 8 := by simp only [MAX_COLS] at h3; omega
        rw [if_pos ⟨h1, h2, h3⟩] at h
        simp only [bind_eq_ok, wr_eq_ok] at h
        obtain ⟨_, ⟨hl, rfl⟩, h⟩ := h
        cases h
        have he := List.getElem?_eq_getElem hl
        cgo [h1', h2', h3', hp, hs, Int.toNat_natCast, he, hl]
      · have h3' : ¬ (c.toNat : Int) ≤ 8 := by simp only [MAX_COLS] at h3; omega
        rw [if_neg (fun h => h3 h.2.2)] at h
        cases h
        cgo [h1', h2', h3', hp]
    · have h2' : ¬ (r.toNat : Int) ≤ 16 := by simp only [MAX_ROWS] at h2; omega
      rw [if_neg (fun h => h2 h.2.1)] at h
      cases h
      cgo [h1', h2', hp]
  · have h1' : ¬ (i : Int) < 4 := by simp only [NUM_MODIFIERS] at h1; omega
    rw [if_neg (fun h => h1 h.1)] at h
    cases h
    cgo [h1', hp]

omit F in
theorem c_num_rows {r : UInt8} (h : numRows s = .ok r) (env ps keys) (w n : Nat) :
    run prog w (n + 2) .asdf_keymaps_num_rows [] (K x s env ps keys) =
      .ok (.int .u8 r.toNat) (K x s env ps keys) := by
  obtain ⟨i, hi, hm, c⟩ := c_modifier_index (x := x) s
  simp only [numRows, hm, ok_bind, bind_eq_ok, rd_eq_ok] at h
  obtain ⟨e, he, h⟩ := h
  cases h
  cfn fn_asdf_keymaps_num_rows
  cgo [c, Int.toNat_natCast, he]

omit F in
theorem c_num_cols {r : UInt8} (h : numCols s = .ok r) (env ps keys) (w n : Nat) :
    run prog w (n + 2) .asdf_keymaps_num_cols [] (K x s env ps keys) =
      .ok (.int .u8 r.toNat) (K x s env ps keys) := by
  obtain ⟨i, hi, hm, c⟩ := c_modifier_index (x := x) s
  simp only [numCols, hm, ok_bind, bind_eq_ok, rd_eq_ok] at h
  obtain ⟨e, he, h⟩ := h
  cases h
  cfn fn_asdf_keymaps_num_cols
  cgo [c, Int.toNat_natCast, he]

omit F in
theorem run_pgm (t : List Code) (o : Int) (S : St Io) (w n : Nat) :
    run prog w (n + 1) .pgm_read_byte [.rom t o] S = lift (romGet t o) S := by
  rw [run_ext rfl]; rfl

omit F in
theorem c_get_code {row col i : Nat} (hr : row < 256) (hc : col < 256) (hi : i < 256) {c : Code}
    (h : getCode s row col i = .ok c) (t t' t'' : Ity) (env ps keys) (w n : Nat) :
    run prog w (n + 2) .asdf_keymaps_get_code [.int t row, .int t' col, .int t'' i] (K x s env ps keys) =
      .ok (.int .u8 c.toNat) (K x s env ps keys) := by
  simp only [getCode, bind_eq_ok, rd_eq_ok] at h
  obtain ⟨e, he, h⟩ := h
  have h1 : (e.cols.toNat : Int) = 0 ↔ e.cols = 0 := u8_eq _ 0
  have h2 : (e.rows.toNat : Int) = 0 ↔ e.rows = 0 := u8_eq _ 0
  have hl := e.cols.toNat_lt
  cfn fn_asdf_keymaps_get_code
  by_cases k1 : e.cols = 0
  · rw [if_neg (fun h => h.1 k1)] at h
    cases h
    have k1' : ((e.cols.toNat : Int) = 0) = True := eq_true (h1.2 k1)
    cgo [Int.toNat_natCast, he, k1']
  by_cases k2 : e.rows = 0
  · rw [if_neg (fun h => h.2 k2)] at h
    cases h
    have k2' : ((e.rows.toNat : Int) = 0) = True := eq_true (h2.2 k2)
    cgo [Int.toNat_natCast, he, h1, k1, k2']
  rw [if_pos ⟨k1, k2⟩] at h
  simp only [bind_eq_ok, rd_eq_ok] at h
  obtain ⟨m, hm, h⟩ := h
  cases hx : m.matrix with
  | none => simp only [hx] at h; cases h
  | some tb =>
    simp only [hx, rd_eq_ok] at h
    have hlt := (List.getElem?_eq_some_iff.1 h).1
    have hlt' : (row : Int) * e.cols.toNat + col < tb.length := by exact_mod_cast hlt
    have h0 : (0 : Int) ≤ row * e.cols.toNat := Int.mul_nonneg (by omega) (by omega)
    have hm' : encMatrix m.matrix = .rom tb 0 := by rw [hx]; rfl
    have hn : ((row : Int) * e.cols.toNat + col).toNat = row * e.cols.toNat + col := by
      rw [show (row : Int) * e.cols.toNat + col = ((row * e.cols.toNat + col : Nat) : Int) by push_cast; rfl]
      exact Int.toNat_natCast _
    have hg : romGet tb ((row : Int) * e.cols.toNat + col) = .ok (.int .u8 c.toNat) := by
      simp only [romGet]
      rw [if_pos (by omega), hn, h]
    have hb : (0 : Int) ≤ (row : Int) * e.cols.toNat + col ∧ (row : Int) * e.cols.toNat + col ≤ tb.length :=
      ⟨by omega, by omega⟩
    cgo [Int.toNat_natCast, he, h1, k1, h2, k2, hm, hm', Int.zero_add, hb, run_pgm, hg]

omit F in
/-- The loop of `asdf_keymaps_reset`. -/
theorem loop_reset (c st b) (hl : fn_asdf_keymaps_reset.body.loops[0]? = some (c, st, b)) (w n ps keys) :
    ∀ (k i m : Nat) (i0 : Int) (s s' : State), Fits x s → i + k = 4 → k < m → i0 = i →
      (List.range' i k).foldlM (fun s i => addMap s none i 0 0) s = .ok s' →
      Fits x s' ∧ turns (evalE (run prog w (n + 1)) c) (exec (run prog w (n + 1)) w b)
          (evalE (run prog w (n + 1)) st) m (K x s [(.i, .int .u8 i0)] ps keys) =
        .ok .next (K x s' [(.i, .int .u8 4)] ps keys) := by
  cases hl
  intro k
  induction k with
  | zero =>
    rintro i m _ s s' F h2 hm rfl h
    obtain ⟨m, rfl⟩ : ∃ k, m = k + 1 := ⟨m - 1, by omega⟩
    cases h
    refine ⟨F, ?_⟩
    rw [turns_succ]
    have hi : (i : Int) = 4 := by omega
    cgo [hi]
  | succ k ih =>
    rintro i m _ s s' F h2 hm rfl h
    obtain ⟨m, rfl⟩ : ∃ k, m = k + 1 := ⟨m - 1, by omega⟩
    simp only [List.range'_succ, List.foldlM_cons, bind_eq_ok] at h
    obtain ⟨s1, h1, h⟩ := h
    have e := ih (i + 1) m ((i : Int) + 1) s1 s' (fits_addMap F h1) (by omega) (by omega) (by omega) h
    refine ⟨e.1, ?_⟩
    have c := fun env => c_add_map F (by omega) h1 .u8 .i16 .i16 env ps keys w n
    have c : ∀ env, run prog w (n + 1) .asdf_keymaps_add_map [.null, .int .u8 i, .int .i16 0, .int .i16 0]
      (K x s env ps keys) = _ := c
    have hi : (i : Int) < 4 := by omega
    rw [turns_succ]
    cgo [hi, c, e.2]

theorem c_keymaps_reset {s' : State} (h : keymapsReset s = .ok s') {w : Nat} (hw : 300 ≤ w) (n : Nat) :
    ∃ x', Fits x' s' ∧ ∀ env ps keys, run prog w (n + 3) .asdf_keymaps_reset [] (K x s env ps keys) =
      .ok .unit (K x' s' env ps keys) := by
  simp only [keymapsReset, bind_eq_ok, List.range_eq_range'] at h
  obtain ⟨s1, h1, h⟩ := h
  cases h
  have e := fun ps keys => loop_reset (x := x) _ _ _ rfl w (n + 1) ps keys 4 0 w 0 s s1 F rfl (by omega) rfl h1
  have F1 := (e [] none).1
  have F2 := F1.setDev (fits_virtInit F1)
  obtain ⟨x', -, F3, c⟩ := c_hook_init F2
  refine ⟨x', F3, fun env ps keys => ?_⟩
  have e := (e ps keys).2
  have c2 := fun env => c_virtual_init F1 env ps keys hw n
  have c3 := fun env => c env ps keys w (n + 1) hw
  cfn fn_asdf_keymaps_reset
  cgo [e, c2, c3]

end
end Asdf.C
