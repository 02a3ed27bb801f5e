import Verif.Spec.Pool
import Verif.Lemmas.Basic

/-! # Buffers of any size: what keeps the pool safe -/

namespace Asdf.Pool

open Spec

/-- A descriptor that is safe to use in the pool. -/
structure Sound (d : BufDesc) : Prop where
  buf : 0 ≤ d.buf
  fit : d.buf + d.size ≤ 144
  none : d.size ≤ 0 → d.count = 0
  some : 0 < d.size → (d.head.toNat : Int) < d.size ∧ (d.tail.toNat : Int) < d.size ∧
    (d.count.toNat : Int) ≤ d.size

/-- The state after a run in which `g` was granted. -/
structure Inv (b : BufState) (g : List Int) : Prop where
  pool : b.pool.length = 144
  bufs : b.bufs.length = 4
  handle : b.nextHandle = (g.length : Int)
  avail : b.nextAvail = g.sum
  le : g.length ≤ 4
  low : -32768 ≤ g.sum
  high : g.sum ≤ 144
  sound : ∀ i : Nat, i < g.length → ∀ d, b.bufs[i]? = Option.some d → Sound d
  size : ∀ i : Nat, ∀ k, g[i]? = Option.some k → ∀ d, b.bufs[i]? = Option.some d → d.size = k

theorem inv_zero : Inv BufState.zero [] where
  pool := by decide +kernel
  bufs := by decide +kernel
  handle := rfl
  avail := rfl
  le := by decide
  low := by decide
  high := by decide
  sound := fun i hi => absurd hi (Nat.not_lt_zero i)
  size := fun i k hk => by cases hk

theorem new_error {b : BufState} {g : List Int} (h : Inv b g) {k : Int} (hk : -32768 ≤ k ∧ k ≤ 32767)
    (ho : Overdraws g k) : ∃ e, bufNew b k = .error e := by
  obtain ⟨h1, h2, h3⟩ := ho
  have e1 : b.nextHandle < (NUM_HANDLES : Int) := by rw [h.handle]; show (g.length : Int) < 4; omega
  unfold bufNew
  rw [if_pos e1, h.avail]
  by_cases hi : inInt16 ((POOL_SIZE : Int) - g.sum) = true
  · refine ⟨.oob, ?_⟩
    have e2 : k ≤ (POOL_SIZE : Int) - g.sum := by show k ≤ (144 : Int) - g.sum; omega
    have e3 : ¬ (0 ≤ g.sum ∧ g.sum ≤ (POOL_SIZE : Int)) := by omega
    simp only [hi, Bool.not_true, Bool.false_eq_true, if_false, if_pos e2, if_neg e3]
  · refine ⟨.overflow, ?_⟩
    simp only [Bool.not_eq_true] at hi
    simp only [hi, Bool.not_false, if_true]

theorem new_ok {b : BufState} {g : List Int} (h : Inv b g) {k : Int} (hk : -32768 ≤ k ∧ k ≤ 32767)
    (ho : ¬ Overdraws g k) : ∃ x b', bufNew b k = .ok (x, b') ∧ Inv b' (grant g k) := by
  unfold bufNew grant
  rw [h.handle, h.avail]
  have hP : (POOL_SIZE : Int) = 144 := rfl
  have hN : (NUM_HANDLES : Int) = 4 := rfl
  rw [hP, hN]
  by_cases h1 : g.length < 4
  · rw [if_pos (show (g.length : Int) < 4 by omega)]
    have hl := h.low
    have hh := h.high
    by_cases h2 : g.sum + k ≤ 144
    · have h0 : 0 ≤ g.sum := by
        rcases Int.lt_or_le g.sum 0 with hn | hn
        · exact absurd ⟨h1, hn, h2⟩ ho
        · exact hn
      have hi : inInt16 (144 - g.sum) = true := by
        unfold inInt16
        rw [Bool.and_eq_true, decide_eq_true_eq, decide_eq_true_eq]
        omega
      have hw : ∃ l, wrI b.bufs (g.length : Int) ⟨g.sum, k, 0, 0, 0⟩ = .ok l ∧
          l = b.bufs.set g.length ⟨g.sum, k, 0, 0, 0⟩ := by
        refine ⟨_, ?_, rfl⟩
        unfold wrI wr
        rw [if_pos (by omega), Int.toNat_natCast, if_pos (by rw [h.bufs]; exact h1)]
      obtain ⟨l, hw1, hw2⟩ := hw
      refine ⟨g.length, { b with bufs := l, nextHandle := (g.length : Int) + 1, nextAvail := g.sum + k }, ?_, ?_⟩
      · simp only [hi, Bool.not_true, Bool.false_eq_true, if_false]
        rw [if_pos (show k ≤ 144 - g.sum by omega), if_pos (show 0 ≤ g.sum ∧ g.sum ≤ 144 by omega), hw1]
        rfl
      · rw [if_pos ⟨h1, h2⟩]
        have hs : (g ++ [k]).sum = g.sum + k := by
          rw [List.sum_append, List.sum_cons, List.sum_nil, Int.add_zero]
        refine ⟨h.pool, ?_, ?_, ?_, ?_, ?_, ?_, ?_, ?_⟩
        · show l.length = 4
          rw [hw2, List.length_set, h.bufs]
        · show (g.length : Int) + 1 = _
          rw [List.length_append]; rfl
        · exact hs.symm
        · rw [List.length_append]; exact h1
        · rw [hs]; omega
        · rw [hs]; exact h2
        · intro i hi' d hd
          have hd : l[i]? = Option.some d := hd
          rw [hw2, List.getElem?_set] at hd
          by_cases he : g.length = i
          · rw [if_pos he, if_pos (by rw [h.bufs]; omega)] at hd
            cases hd
            exact ⟨h0, h2, fun _ => rfl, fun hp => ⟨hp, hp, Int.le_of_lt hp⟩⟩
          · rw [if_neg he] at hd
            rw [List.length_append] at hi'
            exact h.sound i (by simp only [List.length_cons, List.length_nil] at hi'; omega) d hd
        · intro i x hx d hd
          have hd : l[i]? = Option.some d := hd
          rw [hw2, List.getElem?_set] at hd
          by_cases he : g.length = i
          · rw [if_pos he, if_pos (by rw [h.bufs]; omega)] at hd
            cases hd
            rw [← he, List.getElem?_append_right (Nat.le_refl _), Nat.sub_self] at hx
            cases hx
            rfl
          · rw [if_neg he] at hd
            rw [List.getElem?_append] at hx
            split at hx
            · exact h.size i x hx d hd
            · rename_i hn
              rw [List.getElem?_eq_none (by simp only [List.length_cons, List.length_nil]; omega)] at hx
              cases hx
    · have hi : inInt16 (144 - g.sum) = true := by
        unfold inInt16
        rw [Bool.and_eq_true, decide_eq_true_eq, decide_eq_true_eq]
        omega
      refine ⟨BUFFER_INVALID, b, ?_, ?_⟩
      · simp only [hi, Bool.not_true, Bool.false_eq_true, if_false]
        rw [if_neg (show ¬ k ≤ 144 - g.sum by omega)]
      · rw [if_neg (fun x => h2 x.2)]
        exact h
  · rw [if_neg (show ¬ (g.length : Int) < 4 by omega), if_neg (fun x => h1 x.1)]
    exact ⟨_, b, rfl, h⟩

/-- A descriptor that is in use. -/
theorem desc {b : BufState} {g : List Int} (h : Inv b g) {x : Int} (hv : handleValid b x = true) :
    ∃ (i : Nat) (d : BufDesc), x = (i : Int) ∧ i < g.length ∧ b.bufs[i]? = Option.some d ∧ rdI b.bufs x = .ok d ∧ Sound d ∧
      ∀ d', wrI b.bufs x d' = .ok (b.bufs.set i d') := by
  unfold handleValid at hv
  rw [Bool.and_eq_true, decide_eq_true_eq, decide_eq_true_eq, h.handle] at hv
  obtain ⟨i, rfl⟩ : ∃ i : Nat, x = (i : Int) := ⟨x.toNat, by omega⟩
  have hi : i < g.length := by omega
  have hl := h.le
  have hb : i < b.bufs.length := by rw [h.bufs]; omega
  have hg : b.bufs[i]? = Option.some b.bufs[i] := List.getElem?_eq_getElem hb
  refine ⟨i, b.bufs[i], rfl, hi, hg, ?_, h.sound i hi _ hg, fun d' => ?_⟩
  · unfold rdI rd
    rw [if_pos hv.1, Int.toNat_natCast, hg]
  · unfold wrI wr
    rw [if_pos hv.1, Int.toNat_natCast, if_pos hb]

theorem inv_set {b : BufState} {g : List Int} (h : Inv b g) {p : List Code} (hp : p.length = 144)
    (i : Nat) {d d' : BufDesc} (he : b.bufs[i]? = Option.some d) (hz : d'.size = d.size) (hd : Sound d') : Inv { b with pool := p, bufs := b.bufs.set i d' } g where
  pool := hp
  bufs := (List.length_set ..).trans h.bufs
  handle := h.handle
  avail := h.avail
  le := h.le
  low := h.low
  high := h.high
  sound := fun j hj e hg => by
    have hg : (b.bufs.set i d')[j]? = Option.some e := hg
    rw [List.getElem?_set] at hg
    by_cases hij : i = j
    · rw [if_pos hij] at hg
      split at hg
      · cases hg; exact hd
      · cases hg
    · rw [if_neg hij] at hg
      exact h.sound j hj e hg
  size := fun j k hk e hg => by
    have hg : (b.bufs.set i d')[j]? = Option.some e := hg
    rw [List.getElem?_set] at hg
    by_cases hij : i = j
    · rw [if_pos hij] at hg
      split at hg
      · cases hg
        rw [hz]
        exact h.size j k hk d (hij ▸ he)
      · cases hg
    · rw [if_neg hij] at hg
      exact h.size j k hk e hg

theorem advance_ok (x : UInt8) {s : Int} (h0 : 0 < s) (h1 : s ≤ 144) :
    ∃ y, advance x s = .ok y ∧ (y.toNat : Int) < s := by
  unfold advance
  rw [if_neg (by omega)]
  refine ⟨_, rfl, ?_⟩
  have e : Int.tmod ((x.toNat : Int) + 1) s = ((x.toNat : Int) + 1) % s :=
    Int.tmod_eq_emod_of_nonneg (by omega)
  rw [e]
  have a := Int.emod_nonneg ((x.toNat : Int) + 1) (show s ≠ 0 by omega)
  have b := Int.emod_lt_of_pos ((x.toNat : Int) + 1) h0
  rw [UInt8.toNat_ofNat']
  have : ((x.toNat : Int) + 1) % s < 144 := by omega
  omega

theorem put_ok {b : BufState} {g : List Int} (h : Inv b g) (x : Int) (c : Code) :
    ∃ b', bufPut b x c = .ok b' ∧ Inv b' g := by
  unfold bufPut
  cases hv : handleValid b x
  · exact ⟨b, rfl, h⟩
  · obtain ⟨i, d, _, _, hd, hr, hs, hw⟩ := desc h hv
    rw [if_pos rfl, hr]
    show ∃ b', (if (d.count.toNat : Int) < d.size then _ else _) = _ ∧ _
    by_cases hc : (d.count.toNat : Int) < d.size
    · rw [if_pos hc]
      have h0 : 0 < d.size := by omega
      obtain ⟨s1, s2, s3⟩ := hs.some h0
      have hf := hs.fit
      have hb := hs.buf
      obtain ⟨y, hy, hy'⟩ := advance_ok d.head h0 (by omega)
      have hp : wrI b.pool (d.buf + d.head.toNat) c =
          .ok (b.pool.set (d.buf + d.head.toNat).toNat c) := by
        unfold wrI wr
        rw [if_pos (by omega), if_pos (by rw [h.pool]; omega)]
      rw [hp, hy]
      refine ⟨{ b with pool := b.pool.set (d.buf + d.head.toNat).toNat c,
                       bufs := b.bufs.set i { d with head := y, count := d.count + 1 } }, ?_, ?_⟩
      · show (wrI b.bufs x _ >>= _) = _
        rw [hw]
        rfl
      · refine inv_set h ((List.length_set ..).trans h.pool) i hd rfl ⟨hb, hf, fun hn => absurd hn (by show ¬ d.size ≤ 0; omega), fun _ => ⟨hy', s2, ?_⟩⟩
        show ((d.count + 1).toNat : Int) ≤ d.size
        rw [UInt8.toNat_add]
        have : d.count.toNat + (1 : UInt8).toNat < 256 := by
          show d.count.toNat + 1 < 256
          omega
        rw [Nat.mod_eq_of_lt this]
        show ((d.count.toNat + 1 : Nat) : Int) ≤ d.size
        omega
    · rw [if_neg hc]
      exact ⟨b, rfl, h⟩

theorem get_ok {b : BufState} {g : List Int} (h : Inv b g) (x : Int) :
    ∃ c b', bufGet b x = .ok (c, b') ∧ Inv b' g := by
  unfold bufGet
  cases hv : handleValid b x
  · exact ⟨_, b, rfl, h⟩
  · obtain ⟨i, d, _, _, hd, hr, hs, hw⟩ := desc h hv
    rw [if_pos rfl, hr]
    show ∃ c b', (if d.count ≠ 0 then _ else _) = _ ∧ _
    by_cases hc : d.count ≠ 0
    · rw [if_pos hc]
      have h0 : 0 < d.size := by
        rcases Int.lt_or_le 0 d.size with hn | hn
        · exact hn
        · exact absurd (hs.none hn) hc
      obtain ⟨s1, s2, s3⟩ := hs.some h0
      have hf := hs.fit
      have hb := hs.buf
      obtain ⟨y, hy, hy'⟩ := advance_ok d.tail h0 (by omega)
      have hlt : (d.buf + d.tail.toNat).toNat < b.pool.length := by rw [h.pool]; omega
      have hp : rdI b.pool (d.buf + d.tail.toNat) = .ok (b.pool[(d.buf + d.tail.toNat).toNat]) := by
        unfold rdI rd
        rw [if_pos (by omega), List.getElem?_eq_getElem hlt]
      rw [hp, hy]
      refine ⟨b.pool[(d.buf + d.tail.toNat).toNat],
        { b with bufs := b.bufs.set i { d with tail := y, count := d.count - 1 } }, ?_, ?_⟩
      · show (wrI b.bufs x _ >>= _) = _
        rw [hw]
        rfl
      · refine inv_set h h.pool i hd rfl ⟨hb, hf, fun hn => absurd hn (by show ¬ d.size ≤ 0; omega), fun _ => ⟨s1, hy', ?_⟩⟩
        show ((d.count - 1).toNat : Int) ≤ d.size
        have : (1 : UInt8) ≤ d.count := by
          rw [UInt8.le_iff_toNat_le]
          show 1 ≤ d.count.toNat
          have : d.count.toNat ≠ 0 := fun hz => hc (UInt8.toNat_inj.mp hz)
          omega
        rw [UInt8.toNat_sub_of_le _ _ this]
        omega
    · rw [if_neg hc]
      exact ⟨_, b, rfl, h⟩

/-- One call. -/
theorem call_ok {b : BufState} {g : List Int} (h : Inv b g) (op : BufOp) (hk : op.int16) :
    (∃ k, op = .new k ∧ Overdraws g k ∧ ∃ e, callBuf b op = .error e) ∨
    ((∀ k, op = .new k → ¬ Overdraws g k) ∧ ∃ b' o, callBuf b op = .ok (b', o) ∧
      Inv b' (granted g op)) := by
  cases op with
  | init =>
    exact .inr ⟨fun k' e => (by cases e), bufInit b, .unit, rfl, h.pool, h.bufs, rfl, rfl,
      Nat.zero_le 4, (show (-32768 : Int) ≤ 0 by decide),
      (show (0 : Int) ≤ 144 by decide), fun i hi => absurd hi (Nat.not_lt_zero i),
      fun i k hk => by cases hk⟩
  | new k =>
    by_cases ho : Overdraws g k
    · obtain ⟨e, he⟩ := new_error h hk ho
      refine .inl ⟨k, rfl, ho, e, ?_⟩
      show (bufNew b k >>= _) = _
      rw [he]
      rfl
    · obtain ⟨x, b', e1, e2⟩ := new_ok h hk ho
      refine .inr ⟨fun k' e => ?_, b', .handle x, ?_, e2⟩
      · cases e; exact ho
      · show (bufNew b k >>= _) = _
        rw [e1]
        rfl
  | put x c =>
    obtain ⟨b', e1, e2⟩ := put_ok h x c
    refine .inr ⟨fun k' e => (by cases e), b', .unit, ?_, e2⟩
    show (bufPut b x c >>= _) = _
    rw [e1]
    rfl
  | get x =>
    obtain ⟨c, b', e1, e2⟩ := get_ok h x
    refine .inr ⟨fun k' e => (by cases e), b', .code c, ?_, e2⟩
    show (bufGet b x >>= _) = _
    rw [e1]
    rfl

/-- A sequence of calls from a state in which `g` is granted. -/
theorem run_error (ops : List BufOp) {b : BufState} {g : List Int} (h : Inv b g)
    (hk : ∀ op ∈ ops, op.int16) :
    (∃ e, runBuf b ops = .error e) ↔ ∃ pre k post, ops = pre ++ .new k :: post ∧
      Overdraws (pre.foldl granted g) k := by
  induction ops generalizing b g with
  | nil =>
    constructor
    · rintro ⟨e, he⟩; cases he
    · rintro ⟨pre, k, post, he, _⟩
      cases pre <;> cases he
  | cons op ops ih =>
    have hop := hk op (List.mem_cons_self ..)
    have hops := fun o ho => hk o (List.mem_cons_of_mem _ ho)
    rcases call_ok h op hop with ⟨k, rfl, ho, e, he⟩ | ⟨hn, b', o, he, hi⟩
    · constructor
      · intro _
        exact ⟨[], k, ops, rfl, ho⟩
      · intro _
        refine ⟨e, ?_⟩
        unfold runBuf
        rw [he]
        rfl
    · have hrun : (∃ e, runBuf b (op :: ops) = .error e) ↔ ∃ e, runBuf b' ops = .error e := by
        have hc : runBuf b (op :: ops) = (runBuf b' ops >>= fun v => .ok (v.1, o :: v.2)) := by
          show (callBuf b op >>= _) = _
          rw [he]
          rfl
        rw [hc]
        cases hr : runBuf b' ops with
        | error e => exact ⟨fun _ => ⟨e, rfl⟩, fun _ => ⟨e, rfl⟩⟩
        | ok v =>
          constructor
          · rintro ⟨e, h⟩; cases h
          · rintro ⟨e, h⟩; cases h
      rw [hrun, ih hi hops]
      constructor
      · rintro ⟨pre, k, post, e1, e2⟩
        exact ⟨op :: pre, k, post, by rw [e1]; rfl, e2⟩
      · rintro ⟨pre, k, post, e1, e2⟩
        cases pre with
        | nil =>
          rw [List.nil_append] at e1
          cases e1
          exact absurd e2 (hn k rfl)
        | cons o' pre =>
          rw [List.cons_append] at e1
          cases e1
          exact ⟨pre, k, post, rfl, e2⟩

/-- What is true after a run without undefined behaviour. -/
theorem run_inv (ops : List BufOp) {b b' : BufState} {g : List Int} {outs : List BufOut} (h : Inv b g)
    (hk : ∀ op ∈ ops, op.int16) (hr : runBuf b ops = .ok (b', outs)) : Inv b' (ops.foldl granted g) := by
  induction ops generalizing b g outs with
  | nil => cases hr; exact h
  | cons op ops ih =>
    rcases call_ok h op (hk op (List.mem_cons_self ..)) with ⟨k, rfl, ho, e, he⟩ | ⟨_, b1, o, he, hi⟩
    · have hr : (callBuf b (.new k) >>= _) = _ := hr
      rw [he] at hr
      cases hr
    · have hr : (callBuf b op >>= _) = _ := hr
      rw [he] at hr
      have hr : (runBuf b1 ops >>= fun v => .ok (v.1, o :: v.2)) = _ := hr
      cases h1 : runBuf b1 ops with
      | error e => rw [h1] at hr; cases hr
      | ok v =>
        rw [h1] at hr
        cases hr
        exact ih hi (fun o ho => hk o (List.mem_cons_of_mem _ ho)) h1

theorem inert {b : BufState} {g : List Int} (h : Inv b g) {i : Nat} {k : Int} (hg : g[i]? = Option.some k)
    (hk : k ≤ 0) (c : Code) : bufPut b i c = .ok b ∧ bufGet b i = .ok (0xA0, b) := by
  have hi : i < g.length := (List.getElem?_eq_some_iff.mp hg).1
  have hv : handleValid b i = true := by
    unfold handleValid
    rw [Bool.and_eq_true, decide_eq_true_eq, decide_eq_true_eq, h.handle]
    omega
  obtain ⟨j, d, e, _, hd, hr, hs, _⟩ := desc h hv
  obtain rfl : i = j := by omega
  have hz := h.size i k hg d hd
  have hc := hs.none (by rw [hz]; exact hk)
  constructor
  · unfold bufPut
    rw [hv, if_pos rfl, hr]
    show (if (d.count.toNat : Int) < d.size then _ else _) = _
    rw [if_neg (by rw [hz]; omega)]
  · unfold bufGet
    rw [hv, if_pos rfl, hr]
    show (if d.count ≠ 0 then _ else _) = _
    rw [if_neg (fun hn => hn hc)]
    rfl

end Asdf.Pool
