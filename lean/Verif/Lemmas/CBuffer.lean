import Verif.Lemmas.CRun

/-! # `asdf_buffer.c` -/

namespace Asdf.C

variable {x : Extra} {s : State} (F : Fits x s)

theorem c_buffer_init (env ps keys) (w n : Nat) :
    run prog w (n + 1) .asdf_buffer_init [] (K x s env ps keys) =
      .ok .unit (K x { s with buf := bufInit s.buf } env ps keys) := by
  cfn fn_asdf_buffer_init
  cgo []
  rfl

include F

theorem fits_bufInit : Fits x { s with buf := bufInit s.buf } :=
  { F with
    avail := by simp [bufInit]
    handle := by simp [bufInit]
    ptr := fun i hi => by simp [bufInit] at hi; omega }

theorem c_buffer_handle_valid (h : Int) (h' : -128 ≤ h ∧ h ≤ 127) (t : Ity) (env ps keys) (w n : Nat) :
    run prog w (n + 1) .buffer_handle_valid [.int t h] (K x s env ps keys) =
      .ok (.int .u8 (if handleValid s.buf h then 1 else 0)) (K x s env ps keys) := by
  obtain ⟨h1, h2⟩ := F.handle
  cfn fn_buffer_handle_valid
  by_cases h0 : 0 ≤ h
  · by_cases hl : h < s.buf.nextHandle
    · cgo [handleValid, h0, hl]
    · cgo [handleValid, h0, hl]
  · cgo [handleValid, h0]

/-- What `handleValid` gives. -/
theorem valid_buf {h : Int} (hv : handleValid s.buf h = true) :
    ∃ d v, 0 ≤ h ∧ h ≤ 3 ∧ s.buf.bufs[h.toNat]? = some d ∧ x.bp[h.toNat]? = some v ∧
      v = .ptr .buffer_pool [.ix d.buf] ∧ 0 ≤ d.size ∧ d.size ≤ 144 := by
  simp only [handleValid, Bool.and_eq_true, decide_eq_true_eq] at hv
  obtain ⟨h1, h2⟩ := F.handle
  have hl : h.toNat < s.buf.bufs.length := by rw [F.bufs]; omega
  have hd : s.buf.bufs[h.toNat]? = some s.buf.bufs[h.toNat] := by simp [hl]
  have hs := F.size _ (List.getElem_mem hl)
  exact ⟨_, _, hv.1, by omega, hd, F.ptr _ (by omega) _ hd, rfl, hs.1, hs.2⟩


theorem c_buffer_put {h : Int} (h' : -128 ≤ h ∧ h ≤ 127) (c : Code) (t t' : Ity) {b' : BufState}
    (hb : bufPut s.buf h c = .ok b') (env ps keys) (w n : Nat) :
    run prog w (n + 2) .asdf_buffer_put [.int t h, .int t' c.toNat] (K x s env ps keys) =
      .ok .unit (K x { s with buf := b' } env ps keys) := by
  cfn fn_asdf_buffer_put
  cases hv : handleValid s.buf h with
  | false =>
    simp only [bufPut, hv] at hb
    cases hb
    cgo [c_buffer_handle_valid F h, hv]
  | true =>
    obtain ⟨d, v, h0, h3, hd, hp, rfl, hs0, hs1⟩ := valid_buf F hv
    simp only [bufPut, hv, rdI, h0, rd_some hd] at hb
    by_cases hc : (d.count.toNat : Int) < d.size
    · have hz : d.size ≠ 0 := by omega
      simp only [hc, ↓reduceIte, ok_bind, advance, hz, bind_eq_ok, wrI_eq_ok] at hb
      obtain ⟨pool, ⟨hp0, hpl, rfl⟩, bufs, ⟨-, hbl, rfl⟩, he⟩ := hb
      cases he
      obtain ⟨e, he⟩ : ∃ e, s.buf.pool[(d.buf + d.head.toNat).toNat]? = some e :=
        ⟨_, List.getElem?_eq_getElem hpl⟩
      have h1 := d.head.toNat_lt
      have h2 := d.count.toNat_lt
      have h3 : 0 ≤ ((d.head.toNat : Int) + 1).tmod d.size := Int.tmod_nonneg _ (by omega)
      have h4 : ((d.head.toNat : Int) + 1).tmod d.size < d.size :=
        Int.tmod_lt_of_pos _ (by omega)
      have h5 : UInt8.ofInt ((d.count.toNat : Int) + 1) = d.count + 1 := add_u8 _ 1
      cgo [c_buffer_handle_valid F h, hv, hd, hp, hc, he, hz, h5, ofInt_nat8, UInt8.ofNat_toNat]
    · simp [hc] at hb
      cases hb
      cgo [c_buffer_handle_valid F h, hv, hd, hp, hc]

theorem c_buffer_get {h : Int} (h' : -128 ≤ h ∧ h ≤ 127) (t : Ity) {c : Code} {b' : BufState}
    (hb : bufGet s.buf h = .ok (c, b')) (env ps keys) (w n : Nat) :
    run prog w (n + 2) .asdf_buffer_get [.int t h] (K x s env ps keys) =
      .ok (.int .u8 c.toNat) (K x { s with buf := b' } env ps keys) := by
  cfn fn_asdf_buffer_get
  cases hv : handleValid s.buf h with
  | false =>
    simp only [bufGet, hv] at hb
    cases hb
    cgo [c_buffer_handle_valid F h, hv]
    rfl
  | true =>
    obtain ⟨d, v, h0, h3, hd, hp, rfl, hs0, hs1⟩ := valid_buf F hv
    simp only [bufGet, hv, rdI, h0, rd_some hd, ↓reduceIte, ok_bind] at hb
    have hu : (d.count.toNat : Int) = 0 ↔ d.count = 0 := u8_eq _ 0
    by_cases hc : d.count = 0
    · simp [hc] at hb
      obtain ⟨rfl, rfl⟩ := hb
      cgo [c_buffer_handle_valid F h, hv, hd, hp, hu, hc]
      rfl
    · simp only [hc, ne_eq, not_false_eq_true, ↓reduceIte] at hb
      rw [bind_eq_ok] at hb
      obtain ⟨code, hcode, hb⟩ := hb
      by_cases hz : d.size = 0
      · simp [advance, hz] at hb
      · have hcode : rdI s.buf.pool (d.buf + d.tail.toNat) = .ok code := hcode
        rw [rdI_eq_ok] at hcode
        obtain ⟨hp0, he⟩ := hcode
        simp only [↓reduceIte, ok_bind, advance, hz, bind_eq_ok, wrI_eq_ok] at hb
        obtain ⟨bufs, ⟨-, hbl, rfl⟩, hb⟩ := hb
        cases hb
        have h1 := d.tail.toNat_lt
        have h2 := d.count.toNat_lt
        have h3 : 0 ≤ ((d.tail.toNat : Int) + 1).tmod d.size := Int.tmod_nonneg _ (by omega)
        have h4 : ((d.tail.toNat : Int) + 1).tmod d.size < d.size :=
          Int.tmod_lt_of_pos _ (by omega)
        have h5 : UInt8.ofInt ((d.count.toNat : Int) - 1) = d.count - 1 := sub_u8 _ 1
        cgo [c_buffer_handle_valid F h, hv, hd, hp, hc, hu, he, hz, h5, ofInt_nat8, UInt8.ofNat_toNat]

theorem fits_setBuf {i : Nat} {d d' : BufDesc} {pool : List Code} (hd : s.buf.bufs[i]? = some d)
    (h1 : d'.size = d.size) (h2 : d'.buf = d.buf) (hp : pool.length = s.buf.pool.length) :
    Fits x { s with buf := ⟨pool, s.buf.bufs.set i d', s.buf.nextAvail, s.buf.nextHandle⟩ } :=
  { F with
    pool := by rw [← F.pool, ← hp]
    bufs := by rw [← F.bufs]; exact List.length_set
    size := fun e he => by
      rcases List.mem_or_eq_of_mem_set he with he | rfl
      · exact F.size e he
      · rw [h1]; exact F.size d (List.mem_of_getElem? hd)
    ptr := fun j hj e he => by
      simp only [List.getElem?_set] at he
      split at he
      · rename_i hij
        subst hij
        split at he
        · cases he
          rw [h2]
          exact F.ptr i hj d hd
        · cases he
      · exact F.ptr j hj e he }

theorem fits_bufPut {h : Int} {c : Code} {b' : BufState} (hb : bufPut s.buf h c = .ok b') :
    Fits x { s with buf := b' } := by
  cases hv : handleValid s.buf h with
  | false => simp only [bufPut, hv] at hb; cases hb; exact F
  | true =>
    obtain ⟨d, v, h0, h3, hd, hp, rfl, hs0, hs1⟩ := valid_buf F hv
    simp only [bufPut, hv, rdI, h0, rd_some hd, ↓reduceIte, ok_bind] at hb
    by_cases hc : (d.count.toNat : Int) < d.size
    · have hz : d.size ≠ 0 := by omega
      simp only [hc, ↓reduceIte, ok_bind, advance, hz, bind_eq_ok, wrI_eq_ok] at hb
      obtain ⟨pool, ⟨hp0, hpl, rfl⟩, bufs, ⟨-, hbl, rfl⟩, he⟩ := hb
      cases he
      exact fits_setBuf F hd rfl rfl List.length_set
    · simp [hc] at hb
      cases hb
      exact F

theorem fits_bufGet {h : Int} {c : Code} {b' : BufState} (hb : bufGet s.buf h = .ok (c, b')) :
    Fits x { s with buf := b' } := by
  cases hv : handleValid s.buf h with
  | false => simp only [bufGet, hv] at hb; cases hb; exact F
  | true =>
    obtain ⟨d, v, h0, h3, hd, hp, rfl, hs0, hs1⟩ := valid_buf F hv
    simp only [bufGet, hv, rdI, h0, rd_some hd, ↓reduceIte, ok_bind] at hb
    by_cases hc : d.count = 0
    · simp [hc] at hb
      obtain ⟨rfl, rfl⟩ := hb
      exact F
    · simp only [hc, ne_eq, not_false_eq_true, ↓reduceIte] at hb
      rw [bind_eq_ok] at hb
      obtain ⟨code, hcode, hb⟩ := hb
      by_cases hz : d.size = 0
      · simp [advance, hz] at hb
      · simp only [↓reduceIte, ok_bind, advance, hz, bind_eq_ok, wrI_eq_ok] at hb
        obtain ⟨bufs, ⟨-, hbl, rfl⟩, hb⟩ := hb
        cases hb
        exact fits_setBuf F hd rfl rfl rfl

omit F in
/-- The offset in the entry of the model is not part of the state of the program: the pointer is. -/
theorem K_setBuf {b : BufState} {i : Nat} {d d' : BufDesc} (h1 : d.size = d'.size) (h2 : d.head = d'.head)
    (h3 : d.tail = d'.tail) (h4 : d.count = d'.count) (env ps keys) :
    K x { s with buf := { b with bufs := b.bufs.set i d } } env ps keys =
      K x { s with buf := { b with bufs := b.bufs.set i d' } } env ps keys := by
  have : List.zipWith encBuf x.bp (b.bufs.set i d) = List.zipWith encBuf x.bp (b.bufs.set i d') := by
    apply List.ext_getElem?
    intro j
    by_cases hij : i = j
    · subst hij
      by_cases hi : i < b.bufs.length
      · cases hx : x.bp[i]? <;> simp [List.getElem?_zipWith, hi, hx, encBuf, h1, h2, h3, h4]
      · simp [List.getElem?_zipWith, hi]
    · simp [List.getElem?_zipWith, hij]
  unfold K
  congr 1
  funext g
  cases g <;> simp only [encMem, this]

theorem c_buffer_new {size : Int} (h0 : 0 ≤ size ∧ size ≤ 32767) (t : Ity) {h : Int} {b' : BufState}
    (hb : bufNew s.buf size = .ok (h, b')) :
    ∃ x' : Extra, x'.hk = x.hk ∧ Fits x' { s with buf := b' } ∧ -1 ≤ h ∧ h ≤ 3 ∧ ∀ env ps keys w n,
      run prog w (n + 1) .asdf_buffer_new [.int t size] (K x s env ps keys) =
        .ok (.int .i8 h) (K x' { s with buf := b' } env ps keys) := by
  obtain ⟨ha0, ha1⟩ := F.avail
  obtain ⟨hh0, hh1⟩ := F.handle
  have hroom : inInt16 (144 - s.buf.nextAvail) = true := by simp [inInt16]; omega
  by_cases hn : s.buf.nextHandle < 4
  · by_cases hs : size ≤ 144 - s.buf.nextAvail
    · obtain ⟨d, hd⟩ : ∃ d, s.buf.bufs[s.buf.nextHandle.toNat]? = some d :=
        ⟨_, List.getElem?_eq_getElem (by rw [F.bufs]; omega)⟩
      obtain ⟨v, hv⟩ : ∃ v, x.bp[s.buf.nextHandle.toNat]? = some v :=
        ⟨_, List.getElem?_eq_getElem (by rw [F.bp]; omega)⟩
      have hl : s.buf.nextHandle.toNat < s.buf.bufs.length := by rw [F.bufs]; omega
      have hl' : s.buf.nextHandle.toNat < x.bp.length := by rw [F.bp]; omega
      simp [bufNew, NUM_HANDLES, POOL_SIZE, hn, hroom, hs, ha0, ha1, wrI, hh0, wr, hl] at hb
      obtain ⟨rfl, rfl⟩ := hb
      have hni : ∀ t n, v ≠ .int t n := F.noint v (List.mem_of_getElem? hv)
      refine ⟨{ x with bp := x.bp.set s.buf.nextHandle.toNat (.ptr .buffer_pool [.ix s.buf.nextAvail]) },
        rfl, { F with bufs := ?_, bp := ?_, avail := ?_, handle := ?_, size := ?_, ptr := ?_, noint := ?_ },
        by omega, by omega, ?_⟩
      · simpa using F.bufs
      · simpa using F.bp
      · simp only; omega
      · simp only; omega
      · intro e he
        rcases List.mem_or_eq_of_mem_set he with he | rfl
        · exact F.size e he
        · simp only; omega
      · intro j hj e he
        by_cases hji : s.buf.nextHandle.toNat = j
        · subst hji
          simp [hl] at he
          subst he
          simp [hl']
        · simp only [List.getElem?_set, hji, ↓reduceIte] at he ⊢
          exact F.ptr j (by simp only at hj; omega) e he
      · intro w hw
        rcases List.mem_or_eq_of_mem_set hw with hw | rfl
        · exact F.noint w hw
        · simp
      · intro env ps keys w n
        cfn fn_asdf_buffer_new
        have hp : (s.buf.pool.length : Int) = 144 := by rw [F.pool]; rfl
        cgo [hn, hs, hd, hv, hp, ha0, ha1, and_self, hl, hl', store_bufs_buf' (hn := F.noint)]
        exact congrArg (Out.ok _) (K_setBuf (s := s) (d := ⟨d.buf, size, 0, 0, 0⟩) (d' := ⟨s.buf.nextAvail, size, 0, 0, 0⟩)
          (b := ⟨s.buf.pool, s.buf.bufs, s.buf.nextAvail + size,
          s.buf.nextHandle + 1⟩) rfl rfl rfl rfl env ps keys)
    · simp [bufNew, NUM_HANDLES, POOL_SIZE, hn, hroom, hs] at hb
      obtain ⟨rfl, rfl⟩ := hb
      refine ⟨x, rfl, F, by decide, by decide, fun env ps keys w n => ?_⟩
      cfn fn_asdf_buffer_new
      cgo [hn, hs, BUFFER_INVALID]
  · simp [bufNew, NUM_HANDLES, hn] at hb
    obtain ⟨rfl, rfl⟩ := hb
    refine ⟨x, rfl, F, by decide, by decide, fun env ps keys w n => ?_⟩
    cfn fn_asdf_buffer_new
    cgo [hn, BUFFER_INVALID]

end Asdf.C
