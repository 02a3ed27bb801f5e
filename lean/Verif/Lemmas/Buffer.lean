import Verif.Spec.Queue
import Verif.Lemmas.Basic

/-! # Refinement of the ring buffers to abstract queues -/

namespace Asdf

open Spec

/-- Descriptor `d` implements queue `q` in the pool region starting at `base`. -/
structure RingRel (pool : List Code) (d : BufDesc) (base : Nat) (q : Queue) : Prop where
  buf : d.buf = (base : Int)
  size : d.size = (q.cap : Int)
  fit : base + q.cap ≤ pool.length
  capLe : q.cap ≤ 144
  count : d.count.toNat = q.items.length
  le : q.items.length ≤ q.cap
  tailLt : 0 < q.cap → d.tail.toNat < q.cap
  head : 0 < q.cap → d.head.toNat = (d.tail.toNat + q.items.length) % q.cap
  cells : ∀ k, k < q.items.length →
    pool[base + (d.tail.toNat + k) % q.cap]? = q.items[k]?

/-- First pool cell of queue `i`. -/
def base (qs : Queues) (i : Nat) : Nat := reserved (qs.take i)

/-- The buffer module state implements the queues `qs`. -/
structure BufRel (b : BufState) (qs : Queues) : Prop where
  poolLen : b.pool.length = POOL_SIZE
  bufsLen : b.bufs.length = NUM_HANDLES
  lenLe : qs.length ≤ NUM_HANDLES
  handle : b.nextHandle = (qs.length : Int)
  avail : b.nextAvail = (reserved qs : Int)
  resLe : reserved qs ≤ POOL_SIZE
  rings : ∀ (i : Nat) (d : BufDesc) (q : Queue), b.bufs[i]? = some d → qs[i]? = some q →
    RingRel b.pool d (base qs i) q

theorem reserved_append (a b : Queues) : reserved (a ++ b) = reserved a + reserved b := by
  simp [reserved]

theorem base_add_cap {qs : Queues} {i : Nat} {q : Queue} (h : qs[i]? = some q) :
    base qs (i + 1) = base qs i + q.cap := by
  unfold base
  rw [List.take_add_one, reserved_append, h]
  simp [reserved]

theorem base_mono {qs : Queues} {i j : Nat} (h : i ≤ j) : base qs i ≤ base qs j := by
  unfold base
  have : qs.take j = qs.take i ++ (qs.take j).drop i := by
    conv => lhs; rw [← List.take_append_drop i (qs.take j)]
    rw [List.take_take, Nat.min_eq_left h]
  rw [this, reserved_append]
  omega

theorem base_le (qs : Queues) (i : Nat) : base qs i ≤ reserved qs := by
  unfold base
  have h := congrArg reserved (List.take_append_drop i qs)
  rw [reserved_append] at h
  omega

theorem base_cap_le {qs : Queues} {i : Nat} {q : Queue} (h : qs[i]? = some q) :
    base qs i + q.cap ≤ reserved qs := by
  rw [← base_add_cap h]; exact base_le _ _

/-- Regions of different queues are disjoint. -/
theorem base_disjoint {qs : Queues} {i j : Nat} {qi qj : Queue} (hij : i ≠ j)
    (hi : qs[i]? = some qi) (hj : qs[j]? = some qj) :
    base qs i + qi.cap ≤ base qs j ∨ base qs j + qj.cap ≤ base qs i := by
  rcases Nat.lt_or_gt_of_ne hij with h | h
  · left; rw [← base_add_cap hi]; exact base_mono h
  · right; rw [← base_add_cap hj]; exact base_mono h

theorem caps_modify (qs : Queues) (i : Nat) (f : Queue → Queue) (hf : ∀ q, (f q).cap = q.cap) :
    (qs.modify i f).map Queue.cap = qs.map Queue.cap := by
  apply List.ext_getElem?
  intro k
  rw [List.getElem?_map, List.getElem?_map, List.getElem?_modify]
  cases qs[k]? with
  | none => simp
  | some q => by_cases hik : i = k <;> simp [hik, hf]

theorem base_modify (qs : Queues) (i j : Nat) (f : Queue → Queue) (hf : ∀ q, (f q).cap = q.cap) :
    base (qs.modify i f) j = base qs j := by
  unfold base reserved
  rw [List.map_take, List.map_take, caps_modify _ _ _ hf]

theorem reserved_modify (qs : Queues) (i : Nat) (f : Queue → Queue)
    (hf : ∀ q, (f q).cap = q.cap) : reserved (qs.modify i f) = reserved qs := by
  unfold reserved; rw [caps_modify _ _ _ hf]

theorem Queue.put_cap (q : Queue) (c : Code) : (q.put c).cap = q.cap := by
  unfold Spec.Queue.put; split <;> rfl

theorem Queue.pop_cap (q : Queue) : q.pop.cap = q.cap := rfl

/-- A write outside the region of a ring does not affect it. -/
theorem RingRel.frame {pool : List Code} {d : BufDesc} {bs : Nat} {q : Queue} {k : Nat} {c : Code}
    (h : RingRel pool d bs q) (hk : k < bs ∨ bs + q.cap ≤ k) :
    RingRel (pool.set k c) d bs q := by
  refine ⟨h.buf, h.size, by simpa using h.fit, h.capLe, h.count, h.le, h.tailLt, h.head, ?_⟩
  intro j hj
  have hcap : 0 < q.cap := Nat.lt_of_lt_of_le (Nat.zero_lt_of_lt hj) h.le
  have hm := Nat.mod_lt (d.tail.toNat + j) hcap
  rw [List.getElem?_set_ne (by omega)]
  exact h.cells j hj

theorem advance_nat {x : UInt8} {cap : Nat} (h0 : 0 < cap) (h1 : cap ≤ 144) :
    ∃ y : UInt8, advance x (cap : Int) = .ok y ∧ y.toNat = (x.toNat + 1) % cap := by
  have hne : (cap : Int) ≠ 0 := by omega
  refine ⟨UInt8.ofNat ((x.toNat + 1) % cap), ?_, ?_⟩
  · unfold advance
    rw [if_neg hne]
    have : ((x.toNat : Int) + 1).tmod (cap : Int) = (((x.toNat + 1) % cap : Nat) : Int) := by
      rw [Int.tmod_eq_emod_of_nonneg (by omega), Int.natCast_emod, Int.natCast_add]
      rfl
    rw [this, Int.toNat_natCast]
  · have := Nat.mod_lt (x.toNat + 1) h0
    simp only [UInt8.toNat_ofNat']
    omega

theorem mod_ne_of_lt {t a b cap : Nat} (ha : a < b) (hb : b < cap) (_ht : t < cap) :
    (t + a) % cap ≠ (t + b) % cap := by
  rcases Nat.lt_or_ge (t + a) cap with h1 | h1 <;> rcases Nat.lt_or_ge (t + b) cap with h2 | h2
  · rw [Nat.mod_eq_of_lt h1, Nat.mod_eq_of_lt h2]; omega
  · rw [Nat.mod_eq_of_lt h1, Nat.mod_eq_sub_mod h2, Nat.mod_eq_of_lt (by omega)]; omega
  · omega
  · rw [Nat.mod_eq_sub_mod h1, Nat.mod_eq_sub_mod h2, Nat.mod_eq_of_lt (by omega),
      Nat.mod_eq_of_lt (by omega)]; omega

/-- Storing a code in a ring that is not full. -/
theorem RingRel.put {pool : List Code} {d : BufDesc} {bs : Nat} {q : Queue} {c : Code}
    {head : UInt8} (h : RingRel pool d bs q) (hlt : q.items.length < q.cap)
    (hh : head.toNat = (d.head.toNat + 1) % q.cap) :
    RingRel (pool.set (bs + d.head.toNat) c) { d with head := head, count := d.count + 1 } bs
      (q.put c) := by
  have hcap : 0 < q.cap := by omega
  have hq : q.put c = { q with items := q.items ++ [c] } := by
    unfold Spec.Queue.put; rw [if_pos hlt]
  rw [hq]
  have hc := h.count
  have hle := h.capLe
  have hhead := h.head hcap
  have htail := h.tailLt hcap
  refine ⟨h.buf, h.size, by simpa using h.fit, h.capLe, ?_, ?_, h.tailLt, ?_, ?_⟩
  · simp only [UInt8.toNat_add, List.length_append, List.length_singleton, hc]
    have : (1 : UInt8).toNat = 1 := rfl
    rw [this]; omega
  · simp; omega
  · intro _
    simp only [hh, hhead, List.length_append, List.length_singleton]
    rw [Nat.mod_add_mod]; congr 1
  · intro k hk
    simp only [List.length_append, List.length_singleton] at hk
    simp only
    rcases Nat.lt_or_ge k q.items.length with hkl | hkl
    · have hne : (d.tail.toNat + k) % q.cap ≠ d.head.toNat := by
        rw [hhead]; exact mod_ne_of_lt hkl hlt htail
      rw [List.getElem?_set_ne (by omega), List.getElem?_append_left hkl]
      exact h.cells k hkl
    · have hkeq : k = q.items.length := by omega
      subst hkeq
      have hm := Nat.mod_lt (d.tail.toNat + q.items.length) hcap
      have := h.fit
      rw [hhead, List.getElem?_set_self (by omega)]
      simp

/-- Taking the oldest code out of a ring that is not empty. -/
theorem RingRel.pop {pool : List Code} {d : BufDesc} {bs : Nat} {q : Queue} {tail : UInt8}
    (h : RingRel pool d bs q) (hne : q.items ≠ [])
    (ht : tail.toNat = (d.tail.toNat + 1) % q.cap) :
    RingRel pool { d with tail := tail, count := d.count - 1 } bs q.pop := by
  have hpos : 0 < q.items.length := List.length_pos_iff.mpr hne
  have hle := h.le
  have hcap : 0 < q.cap := by omega
  have hc := h.count
  have hcl := h.capLe
  refine ⟨h.buf, h.size, h.fit, h.capLe, ?_, ?_, ?_, ?_, ?_⟩
  · simp only [Spec.Queue.pop, List.length_tail]
    have h1 : (1 : UInt8) ≤ d.count := by
      rw [UInt8.le_iff_toNat_le, hc]; exact hpos
    rw [UInt8.toNat_sub_of_le _ _ h1, hc]; rfl
  · simp only [Spec.Queue.pop, List.length_tail]; omega
  · intro _; simp only [ht]; exact Nat.mod_lt _ hcap
  · intro _
    simp only [Spec.Queue.pop, List.length_tail, ht]
    rw [h.head hcap, Nat.mod_add_mod]
    congr 1; omega
  · intro k hk
    simp only [Spec.Queue.pop, List.length_tail] at hk
    simp only [Spec.Queue.pop, ht]
    rw [Nat.mod_add_mod, List.getElem?_tail]
    have := h.cells (k + 1) (by omega)
    rw [← this]
    congr 3; omega

theorem RingRel.front {pool : List Code} {d : BufDesc} {bs : Nat} {q : Queue}
    (h : RingRel pool d bs q) (hne : q.items ≠ []) :
    pool[bs + d.tail.toNat]? = some q.front := by
  have hpos : 0 < q.items.length := List.length_pos_iff.mpr hne
  have hle := h.le
  have h0 := h.cells 0 hpos
  rw [Nat.add_zero, Nat.mod_eq_of_lt (h.tailLt (by omega))] at h0
  rw [h0]
  unfold Spec.Queue.front
  cases hq : q.items with
  | nil => exact absurd hq hne
  | cons a t => simp

theorem BufRel.zero : BufRel BufState.zero [] := by
  refine ⟨by simp [BufState.zero], by simp [BufState.zero], by simp, rfl, rfl, by simp [reserved],
    ?_⟩
  intro i d q _ h; simp at h

theorem BufRel.init {b : BufState} {qs : Queues} (h : BufRel b qs) : BufRel (bufInit b) [] := by
  refine ⟨h.poolLen, h.bufsLen, by simp, rfl, rfl, by simp [reserved], ?_⟩
  intro i d q _ h; simp at h

/-- Handles of the abstract and the concrete side agree. -/
theorem BufRel.handleValid {b : BufState} {qs : Queues} (h : BufRel b qs) (hd : Int) :
    handleValid b hd = decide (isHandle qs hd) := by
  unfold Asdf.handleValid
  rw [h.handle, ← Bool.decide_and]
  exact decide_eq_decide.mpr Iff.rfl

theorem BufRel.get_desc {b : BufState} {qs : Queues} (h : BufRel b qs) {i : Nat}
    (hi : i < qs.length) : ∃ d, b.bufs[i]? = some d ∧ RingRel b.pool d (base qs i) qs[i] := by
  have h1 := h.lenLe
  have h2 := h.bufsLen
  have h3 : i < b.bufs.length := by omega
  refine ⟨b.bufs[i], by simp [h3], ?_⟩
  exact h.rings i _ _ (by simp [h3]) (by simp [hi])

theorem handle_cases {qs : Queues} {hd : Int} (h : isHandle qs hd) :
    ∃ i : Nat, hd = (i : Int) ∧ i < qs.length :=
  ⟨hd.toNat, by have := h.1; omega, by have := h.1; have := h.2; omega⟩

/-- Replacing one ring and (possibly) writing inside its region. -/
theorem BufRel.update {b : BufState} {qs : Queues} (h : BufRel b qs) {i : Nat}
    (hi : i < qs.length) {d : BufDesc} {k : Nat} {c : Code} {f : Queue → Queue}
    (hf : ∀ q, (f q).cap = q.cap)
    (hk : base qs i ≤ k ∧ k < base qs i + qs[i].cap)
    (hd : RingRel (b.pool.set k c) d (base qs i) (f qs[i])) :
    BufRel { b with pool := b.pool.set k c, bufs := b.bufs.set i d } (qs.modify i f) := by
  refine ⟨by simpa using h.poolLen, by simpa using h.bufsLen, by simpa using h.lenLe,
    by simpa using h.handle, by rw [reserved_modify _ _ _ hf]; exact h.avail,
    by rw [reserved_modify _ _ _ hf]; exact h.resLe, ?_⟩
  intro j dj qj hdj hqj
  rw [base_modify _ _ _ _ hf]
  by_cases hij : i = j
  · subst hij
    have h1 := h.lenLe
    have h2 := h.bufsLen
    have h3 : i < b.bufs.length := by omega
    rw [List.getElem?_set_self h3] at hdj
    rw [List.getElem?_modify] at hqj
    simp [hi] at hqj hdj
    subst hdj; subst hqj; exact hd
  · rw [List.getElem?_set_ne hij] at hdj
    rw [List.getElem?_modify] at hqj
    simp [hij] at hqj
    refine (h.rings j dj qj hdj hqj).frame ?_
    have hqi : qs[i]? = some qs[i] := by simp [hi]
    rcases base_disjoint hij hqi hqj with h1 | h1 <;> omega

/-- Replacing one ring without writing to the pool. -/
theorem BufRel.update_desc {b : BufState} {qs : Queues} (h : BufRel b qs) {i : Nat}
    (hi : i < qs.length) {d : BufDesc} {f : Queue → Queue}
    (hf : ∀ q, (f q).cap = q.cap)
    (hd : RingRel b.pool d (base qs i) (f qs[i])) :
    BufRel { b with bufs := b.bufs.set i d } (qs.modify i f) := by
  refine ⟨by simpa using h.poolLen, by simpa using h.bufsLen, by simpa using h.lenLe,
    by simpa using h.handle, by rw [reserved_modify _ _ _ hf]; exact h.avail,
    by rw [reserved_modify _ _ _ hf]; exact h.resLe, ?_⟩
  intro j dj qj hdj hqj
  rw [base_modify _ _ _ _ hf]
  by_cases hij : i = j
  · subst hij
    have h1 := h.lenLe
    have h2 := h.bufsLen
    have h3 : i < b.bufs.length := by omega
    rw [List.getElem?_set_self h3] at hdj
    rw [List.getElem?_modify] at hqj
    simp [hi] at hqj hdj
    subst hdj; subst hqj; exact hd
  · rw [List.getElem?_set_ne hij] at hdj
    rw [List.getElem?_modify] at hqj
    simp [hij] at hqj
    exact h.rings j dj qj hdj hqj

theorem modify_id_of {qs : Queues} {i : Nat} {f : Queue → Queue}
    (h : ∀ q, qs[i]? = some q → f q = q) : qs.modify i f = qs := by
  apply List.ext_getElem?
  intro k
  rw [List.getElem?_modify]
  by_cases hik : i = k
  · subst hik
    cases hq : qs[i]? with
    | none => simp
    | some q => simp [h q hq]
  · simp [hik]

/-- `put` through a valid handle refines `Queue.put`. -/
theorem BufRel.put {b : BufState} {qs : Queues} (h : BufRel b qs) {i : Nat}
    (hi : i < qs.length) (c : Code) :
    ∃ b', bufPut b (i : Int) c = .ok b' ∧ BufRel b' (qs.modify i (fun q => q.put c)) := by
  have hv : Asdf.handleValid b (i : Int) = true := by
    rw [h.handleValid]; simp [isHandle]; omega
  obtain ⟨d, hd, hr⟩ := h.get_desc hi
  unfold bufPut
  rw [if_pos hv, rdI_nat, rd_some hd]
  simp only [ok_bind]
  by_cases hlt : qs[i].items.length < qs[i].cap
  · have hcond : (d.count.toNat : Int) < d.size := by rw [hr.count, hr.size]; omega
    rw [if_pos hcond]
    have hcap : 0 < qs[i].cap := by omega
    have hm := Nat.mod_lt (d.tail.toNat + qs[i].items.length) hcap
    have hhd := hr.head hcap
    have hfit := hr.fit
    have hidx : d.buf + (d.head.toNat : Int) = ((base qs i + d.head.toNat : Nat) : Int) := by
      rw [hr.buf]; omega
    rw [hidx, wrI_nat, wr_ok (by omega)]
    simp only [ok_bind]
    obtain ⟨y, hy, hyn⟩ := advance_nat (x := d.head) hcap hr.capLe
    rw [hr.size, hy]
    simp only [ok_bind]
    have hil : i < b.bufs.length := by have := h.lenLe; have := h.bufsLen; omega
    rw [wrI_nat, wr_ok hil]
    simp only [ok_bind]
    refine ⟨_, rfl, ?_⟩
    refine h.update hi (fun q => Queue.put_cap q c) ⟨by omega, by omega⟩ ?_
    have hrp := hr.put (c := c) hlt hyn
    simpa only [hr.size] using hrp
  · have hcond : ¬ (d.count.toNat : Int) < d.size := by rw [hr.count, hr.size]; omega
    rw [if_neg hcond]
    refine ⟨b, rfl, ?_⟩
    rw [modify_id_of]
    · exact h
    · intro q hq
      have : q = qs[i] := by simp [hi] at hq; exact hq.symm
      subst this
      unfold Spec.Queue.put; rw [if_neg hlt]

/-- `put` through an invalid handle does nothing. -/
theorem BufRel.put_invalid {b : BufState} {qs : Queues} (h : BufRel b qs) {hd : Int}
    (hh : ¬ isHandle qs hd) (c : Code) : bufPut b hd c = .ok b := by
  unfold bufPut
  rw [h.handleValid, if_neg (by simpa using hh)]

/-- `get` through a valid handle refines `Queue.front` and `Queue.pop`. -/
theorem BufRel.get {b : BufState} {qs : Queues} (h : BufRel b qs) {i : Nat}
    (hi : i < qs.length) :
    ∃ b', bufGet b (i : Int) = .ok (qs[i].front, b') ∧ BufRel b' (qs.modify i Queue.pop) := by
  have hv : Asdf.handleValid b (i : Int) = true := by
    rw [h.handleValid]; simp [isHandle]; omega
  obtain ⟨d, hd, hr⟩ := h.get_desc hi
  unfold bufGet
  rw [if_pos hv, rdI_nat, rd_some hd]
  simp only [ok_bind]
  by_cases hne : qs[i].items = []
  · have hcond : ¬ d.count ≠ 0 := by
      intro hc; apply hc
      apply UInt8.toNat_inj.mp; rw [hr.count, hne]; rfl
    rw [if_neg hcond]
    refine ⟨b, ?_, ?_⟩
    · simp [Spec.Queue.front, hne, INVALID_CODE]
    · rw [modify_id_of]
      · exact h
      · intro q hq
        have : q = qs[i] := by simp [hi] at hq; exact hq.symm
        subst this
        unfold Spec.Queue.pop
        rw [hne]; simp only [List.tail_nil]; rw [← hne]
  · have hpos : 0 < qs[i].items.length := List.length_pos_iff.mpr hne
    have hle := hr.le
    have hcap : 0 < qs[i].cap := by omega
    have hcond : d.count ≠ 0 := by
      intro hc
      have := hr.count; rw [hc] at this
      have h0 : (0 : UInt8).toNat = 0 := rfl
      omega
    rw [if_pos hcond]
    have hidx : d.buf + (d.tail.toNat : Int) = ((base qs i + d.tail.toNat : Nat) : Int) := by
      rw [hr.buf]; omega
    rw [hidx, rdI_nat, rd_some (hr.front hne)]
    simp only [ok_bind]
    obtain ⟨y, hy, hyn⟩ := advance_nat (x := d.tail) hcap hr.capLe
    rw [hr.size, hy]
    simp only [ok_bind]
    have hil : i < b.bufs.length := by have := h.lenLe; have := h.bufsLen; omega
    rw [wrI_nat, wr_ok hil]
    simp only [ok_bind]
    refine ⟨_, rfl, ?_⟩
    refine h.update_desc hi Queue.pop_cap ?_
    have hrp := hr.pop hne hyn
    simpa only [hr.size] using hrp

/-- `get` through an invalid handle does nothing. -/
theorem BufRel.get_invalid {b : BufState} {qs : Queues} (h : BufRel b qs) {hd : Int}
    (hh : ¬ isHandle qs hd) : bufGet b hd = .ok (0xA0, b) := by
  unfold bufGet
  rw [h.handleValid, if_neg (by simpa using hh)]
  rfl

/-- Reservation of a non-negative size. -/
theorem BufRel.new {b : BufState} {qs : Queues} (h : BufRel b qs) (n : Nat) :
    ∃ b', bufNew b (n : Int) = .ok ((if fits qs n then (qs.length : Int) else -1), b') ∧
      BufRel b' (if fits qs n then qs ++ [⟨n, []⟩] else qs) ∧ (¬ fits qs n → b' = b) := by
  have hav := h.avail
  have hrl := h.resLe
  have hP : POOL_SIZE = 144 := rfl
  have hH : NUM_HANDLES = 4 := rfl
  have hpl := h.poolLen
  unfold bufNew
  rw [h.handle]
  by_cases h1 : qs.length < 4
  · rw [if_pos (by rw [hH]; exact_mod_cast h1)]
    simp only [hav]
    have hov : inInt16 ((POOL_SIZE : Int) - (reserved qs : Int)) = true := by
      simp only [inInt16, Bool.and_eq_true, decide_eq_true_eq]; omega
    simp only [hov, Bool.not_true, Bool.false_eq_true, if_false]
    by_cases h2 : reserved qs + n ≤ 144
    · have hf : fits qs n := ⟨h1, h2⟩
      rw [if_pos (by omega), if_pos (by omega), if_pos hf, if_pos hf]
      have hil : qs.length < b.bufs.length := by have := h.bufsLen; omega
      rw [wrI_nat, wr_ok hil]
      simp only [ok_bind]
      refine ⟨_, rfl, ?_, fun hc => absurd hf hc⟩
      refine ⟨h.poolLen, by simpa using h.bufsLen, by simp; omega, by simp, ?_, ?_, ?_⟩
      · rw [reserved_append]; simp [reserved]
      · rw [reserved_append]; simp [reserved] at *; omega
      · intro j dj qj hdj hqj
        by_cases hj : j = qs.length
        · subst hj
          rw [List.getElem?_set_self hil] at hdj
          simp at hdj hqj
          subst hdj; subst hqj
          have hb : base (qs ++ [⟨n, []⟩]) qs.length = reserved qs := by
            unfold base; rw [List.take_append_of_le_length (Nat.le_refl _), List.take_length]
          rw [hb]
          refine ⟨rfl, rfl, by simp only; omega, by simp only; omega, rfl, by simp, ?_, ?_, ?_⟩
          · intro hc; exact hc
          · intro hc; simp
          · intro k hk; simp at hk
        · rw [List.getElem?_set_ne (by omega)] at hdj
          have hjl : j < qs.length := by
            have := (List.getElem?_eq_some_iff.mp hqj).1
            simp at this; omega
          rw [List.getElem?_append_left hjl] at hqj
          have hb : base (qs ++ [⟨n, []⟩]) j = base qs j := by
            unfold base; rw [List.take_append_of_le_length (Nat.le_of_lt hjl)]
          rw [hb]
          exact h.rings j dj qj hdj hqj
    · have hf : ¬ fits qs n := fun hf => h2 hf.2
      rw [if_neg (by omega), if_neg hf, if_neg hf]
      exact ⟨b, rfl, h, fun _ => rfl⟩
  · have hf : ¬ fits qs n := fun hf => h1 hf.1
    rw [if_neg (by omega), if_neg hf, if_neg hf]
    exact ⟨b, rfl, h, fun _ => rfl⟩

/-- One call refines one abstract step. -/
theorem callBuf_refines {b : BufState} {qs : Queues} (h : BufRel b qs) (op : BufOp)
    (hs : op.sane = true) :
    ∃ b', callBuf b op = .ok (b', (step qs op).2) ∧ BufRel b' (step qs op).1 := by
  cases op with
  | init => exact ⟨bufInit b, rfl, h.init⟩
  | new size =>
    simp [BufOp.sane] at hs
    obtain ⟨n, rfl⟩ : ∃ n : Nat, size = (n : Int) := ⟨size.toNat, by omega⟩
    obtain ⟨b', h1, h2, _⟩ := h.new n
    refine ⟨b', ?_, ?_⟩
    · simp only [callBuf, h1, step, Int.toNat_natCast, ok_bind]
      split <;> rfl
    · simp only [step, Int.toNat_natCast]
      split <;> simp_all
  | put hd c =>
    by_cases hh : isHandle qs hd
    · obtain ⟨i, rfl, hi⟩ := handle_cases hh
      obtain ⟨b', h1, h2⟩ := h.put hi c
      refine ⟨b', ?_, ?_⟩
      · simp only [callBuf, h1, step, if_pos hh, ok_bind]
      · simp only [step, if_pos hh, Int.toNat_natCast]; exact h2
    · refine ⟨b, ?_, ?_⟩
      · simp only [callBuf, h.put_invalid hh, step, if_neg hh, ok_bind]
      · simp only [step, if_neg hh]; exact h
  | get hd =>
    by_cases hh : isHandle qs hd
    · obtain ⟨i, rfl, hi⟩ := handle_cases hh
      obtain ⟨b', h1, h2⟩ := h.get hi
      refine ⟨b', ?_, ?_⟩
      · simp [callBuf, h1, step, if_pos hh, hi]
      · simp only [step, if_pos hh, Int.toNat_natCast]; exact h2
    · refine ⟨b, ?_, ?_⟩
      · simp only [callBuf, h.get_invalid hh, step, if_neg hh, ok_bind]
      · simp only [step, if_neg hh]; exact h

/-- A sequence of calls refines the abstract sequence. -/
theorem runBuf_refines (ops : List BufOp) (hs : ∀ op ∈ ops, op.sane = true) {b : BufState}
    {qs : Queues} (h : BufRel b qs) :
    ∃ b', runBuf b ops = .ok (b', (runSpec qs ops).2) ∧ BufRel b' (runSpec qs ops).1 := by
  induction ops generalizing b qs with
  | nil => exact ⟨b, rfl, h⟩
  | cons op ops ih =>
    obtain ⟨b1, h1, h2⟩ := callBuf_refines h op (hs op (by simp))
    obtain ⟨b2, h3, h4⟩ := ih (fun o ho => hs o (by simp [ho])) h2
    refine ⟨b2, ?_, h4⟩
    simp only [runBuf, h1, h3, runSpec, ok_bind]

/-! ## Independence of handles -/

/-- Two lists of queues agree except possibly in the contents of queue `h`. -/
def Agree (h : Int) (a b : Queues) : Prop :=
  a.length = b.length ∧ reserved a = reserved b ∧ ∀ k : Nat, (k : Int) ≠ h → a[k]? = b[k]?

theorem agree_modify {h : Int} {a b : Queues} (ag : Agree h a b) (i : Nat)
    (f : Queue → Queue) (hf : ∀ q, (f q).cap = q.cap) :
    Agree h (a.modify i f) (b.modify i f) := by
  refine ⟨by simpa using ag.1, by rw [reserved_modify _ _ _ hf, reserved_modify _ _ _ hf, ag.2.1],
    ?_⟩
  intro k hk
  rw [List.getElem?_modify, List.getElem?_modify, ag.2.2 k hk]

theorem agree_skip {h : Int} {a b : Queues} (ag : Agree h a b) (i : Nat) (hi : (i : Int) = h)
    (f : Queue → Queue) (hf : ∀ q, (f q).cap = q.cap) : Agree h (a.modify i f) b := by
  refine ⟨by simpa using ag.1, by rw [reserved_modify _ _ _ hf, ag.2.1], ?_⟩
  intro k hk
  rw [List.getElem?_modify, ← ag.2.2 k hk]
  have : i ≠ k := by omega
  simp [this]

theorem step_on {h : Int} {a b : Queues} (ag : Agree h a b) {op : BufOp}
    (ho : onHandle h op = true) : Agree h (step a op).1 b := by
  cases op with
  | init => simp [onHandle] at ho
  | new size => simp [onHandle] at ho
  | put h' c =>
    simp only [onHandle, decide_eq_true_eq] at ho
    subst ho
    simp only [step]
    split
    · rename_i hv
      exact agree_skip ag _ (by have := hv.1; omega) _ (fun q => Queue.put_cap q c)
    · exact ag
  | get h' =>
    simp only [onHandle, decide_eq_true_eq] at ho
    subst ho
    simp only [step]
    split
    · rename_i hv
      exact agree_skip ag _ (by have := hv.1; omega) _ Queue.pop_cap
    · exact ag

theorem step_off {h : Int} {a b : Queues} (ag : Agree h a b) {op : BufOp}
    (ho : onHandle h op = false) :
    Agree h (step a op).1 (step b op).1 ∧ (step a op).2 = (step b op).2 := by
  cases op with
  | init => exact ⟨⟨rfl, rfl, fun _ _ => rfl⟩, rfl⟩
  | new size =>
    have hfit : fits a size.toNat ↔ fits b size.toNat := by
      unfold fits; rw [ag.1, ag.2.1]
    simp only [step]
    by_cases hf : fits a size.toNat
    · rw [if_pos hf, if_pos (hfit.mp hf), ag.1]
      refine ⟨⟨by simp [ag.1], by simp [reserved_append, ag.2.1], ?_⟩, rfl⟩
      intro k hk
      rw [List.getElem?_append, List.getElem?_append, ag.1, ag.2.2 k hk]
    · rw [if_neg hf, if_neg (fun x => hf (hfit.mpr x))]
      exact ⟨ag, rfl⟩
  | put h' c =>
    have hiff : isHandle a h' ↔ isHandle b h' := by unfold isHandle; rw [ag.1]
    simp only [step]
    by_cases hv : isHandle a h'
    · rw [if_pos hv, if_pos (hiff.mp hv)]
      exact ⟨agree_modify ag _ _ (fun q => Queue.put_cap q c), rfl⟩
    · rw [if_neg hv, if_neg (fun x => hv (hiff.mpr x))]
      exact ⟨ag, rfl⟩
  | get h' =>
    have hne : h' ≠ h := by simpa [onHandle] using ho
    have hiff : isHandle a h' ↔ isHandle b h' := by unfold isHandle; rw [ag.1]
    simp only [step]
    by_cases hv : isHandle a h'
    · rw [if_pos hv, if_pos (hiff.mp hv)]
      refine ⟨agree_modify ag _ _ Queue.pop_cap, ?_⟩
      have hk : ((h'.toNat : Nat) : Int) ≠ h := by have := hv.1; omega
      simp only [ag.2.2 _ hk]
    · rw [if_neg hv, if_neg (fun x => hv (hiff.mpr x))]
      exact ⟨ag, rfl⟩

theorem spec_noninterf (h : Int) (ops : List BufOp) {a b : Queues} (ag : Agree h a b) :
    otherOuts h ops (runSpec a ops).2 =
      (runSpec b (ops.filter (fun op => !onHandle h op))).2 := by
  induction ops generalizing a b with
  | nil => rfl
  | cons op ops ih =>
    cases ho : onHandle h op with
    | true =>
      rw [List.filter_cons_of_neg (by simp [ho])]
      simp only [runSpec, otherOuts, ho, if_true]
      exact ih (step_on ag ho)
    | false =>
      rw [List.filter_cons_of_pos (by simp [ho])]
      simp only [runSpec, otherOuts, ho, Bool.false_eq_true, if_false]
      rw [ih (step_off ag ho).1, (step_off ag ho).2]

end Asdf
