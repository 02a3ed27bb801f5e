import Verif.Spec.Device
import Verif.Lemmas.Basic

/-! # Refinement of the device tables to abstract output lists -/

namespace Asdf

open Spec

/-- The `next` links of the table run through the list and end in 0. -/
def Linked (phys : List PhysEntry) : List Nat → Prop
  | [] => True
  | x :: xs => (∃ e, phys[x]? = some e ∧ e.next = xs.headD 0) ∧ Linked phys xs

theorem Linked.frame {t t' : List PhysEntry} {l : List Nat} (h : Linked t l)
    (hf : ∀ x ∈ l, (t'[x]?).map PhysEntry.next = (t[x]?).map PhysEntry.next) : Linked t' l := by
  induction l with
  | nil => trivial
  | cons x xs ih =>
    obtain ⟨⟨e, he, hn⟩, hl⟩ := h
    refine ⟨?_, ih hl (fun y hy => hf y (by simp [hy]))⟩
    have := hf x (by simp)
    rw [he] at this
    cases ht : t'[x]? with
    | none => rw [ht] at this; simp at this
    | some e' => rw [ht] at this; simp at this; exact ⟨e', rfl, by rw [this, hn]⟩

theorem Linked.set_ne {t : List PhysEntry} {l : List Nat} (h : Linked t l) {i : Nat}
    (hi : i ∉ l) (e : PhysEntry) : Linked (t.set i e) l := by
  apply h.frame
  intro x hx
  rw [List.getElem?_set_ne]
  intro hc; subst hc; exact hi hx

theorem Linked.set_next {t : List PhysEntry} {l : List Nat} (h : Linked t l) {i : Nat}
    {e e' : PhysEntry} (he : t[i]? = some e) (hn : e'.next = e.next) :
    Linked (t.set i e') l := by
  apply h.frame
  intro x hx
  by_cases hix : i = x
  · subst hix
    have := (List.getElem?_eq_some_iff.mp he).1
    rw [List.getElem?_set_self this, he]
    simp [hn]
  · rw [List.getElem?_set_ne hix]

theorem Linked.tail {t : List PhysEntry} {x : Nat} {l : List Nat} (h : Linked t (x :: l)) :
    Linked t l := h.2

theorem Linked.append_right {t : List PhysEntry} {a b : List Nat} (h : Linked t (a ++ b)) :
    Linked t b := by
  induction a with
  | nil => exact h
  | cons x xs ih => exact ih h.2

/-- Unlinking `dev`, the successor of `pred`. -/
theorem Linked.unlink {t : List PhysEntry} {pre post : List Nat} {pred dev : Nat}
    {epred edev : PhysEntry}
    (h : Linked t (pre ++ pred :: dev :: post)) (hnd : (pre ++ pred :: dev :: post).Nodup)
    (hp : t[pred]? = some epred) (hd : t[dev]? = some edev) :
    Linked (t.set pred { epred with next := edev.next }) (pre ++ pred :: post) := by
  induction pre with
  | nil =>
    have hlt := (List.getElem?_eq_some_iff.mp hp).1
    obtain ⟨_, ⟨e2, he2, hn2⟩, hl⟩ := h
    rw [hd] at he2
    cases he2
    refine ⟨⟨_, List.getElem?_set_self hlt, hn2⟩, ?_⟩
    apply Linked.set_ne hl
    intro hc
    simp at hnd
    exact hnd.1.2 hc
  | cons x pre ih =>
    obtain ⟨⟨e, he, hn⟩, hl⟩ := h
    simp only [List.cons_append, List.nodup_cons] at hnd
    refine ⟨?_, ih hl hnd.2⟩
    have hne : pred ≠ x := by
      intro hc; subst hc; exact hnd.1 (by simp)
    refine ⟨e, by rw [List.getElem?_set_ne hne]; exact he, ?_⟩
    rw [hn]
    cases pre <;> simp

/-- The search loop finds the predecessor in the free list. -/
theorem findFree_mem {phys : List PhysEntry} {dev : Nat} (l : List Nat) (cur fuel : Nat)
    (h : Linked phys (cur :: l)) (h0 : 0 ∉ l) (hf : l.length < fuel) (hm : dev ∈ l) :
    ∃ pre pred post, cur :: l = pre ++ pred :: dev :: post ∧
      findFree phys dev fuel cur = .ok pred := by
  induction l generalizing cur fuel with
  | nil => simp at hm
  | cons y l ih =>
    obtain ⟨fuel, rfl⟩ : ∃ n, fuel = n + 1 := ⟨fuel - 1, by simp at hf; omega⟩
    obtain ⟨⟨e, he, hn⟩, hl⟩ := h
    simp at hn
    have hy0 : y ≠ 0 := by intro hc; subst hc; simp at h0
    unfold findFree
    rw [rd_some he]
    simp only [ok_bind]
    rw [if_neg (by rw [hn]; exact hy0)]
    by_cases hyd : y = dev
    · subst hyd
      rw [if_pos hn]
      exact ⟨[], cur, l, rfl, rfl⟩
    · rw [if_neg (by rw [hn]; exact hyd), hn]
      have hm' : dev ∈ l := by simp [Ne.symm hyd] at hm; exact hm
      obtain ⟨pre, pred, post, h1, h2⟩ := ih y fuel hl (fun hc => h0 (by simp [hc]))
        (by simp at hf; omega) hm'
      exact ⟨cur :: pre, pred, post, by rw [h1]; rfl, h2⟩

theorem findFree_not_mem {phys : List PhysEntry} {dev : Nat} (l : List Nat) (cur fuel : Nat)
    (h : Linked phys (cur :: l)) (h0 : 0 ∉ l) (hf : l.length < fuel) (hm : dev ∉ l) :
    findFree phys dev fuel cur = .ok NUM_PHYS := by
  induction l generalizing cur fuel with
  | nil =>
    obtain ⟨fuel, rfl⟩ : ∃ n, fuel = n + 1 := ⟨fuel - 1, by simp at hf; omega⟩
    obtain ⟨⟨e, he, hn⟩, _⟩ := h
    simp at hn
    unfold findFree
    rw [rd_some he]
    simp only [ok_bind]
    rw [if_pos (show e.next = PHYSICAL_NO_OUT from hn)]
  | cons y l ih =>
    obtain ⟨fuel, rfl⟩ : ∃ n, fuel = n + 1 := ⟨fuel - 1, by simp at hf; omega⟩
    obtain ⟨⟨e, he, hn⟩, hl⟩ := h
    simp at hn
    have hy0 : y ≠ 0 := by intro hc; subst hc; simp at h0
    unfold findFree
    rw [rd_some he]
    simp only [ok_bind]
    rw [if_neg (by rw [hn]; exact hy0)]
    have hyd : y ≠ dev := by intro hc; subst hc; simp at hm
    rw [if_neg (by rw [hn]; exact hyd), hn]
    exact ih y fuel hl (fun hc => h0 (by simp [hc])) (by simp at hf; omega)
      (fun hc => hm (by simp [hc]))

/-- The device tables implement the abstract configuration `a`; `free` is the
list of unassigned devices. -/
structure DevRel (d : Dev) (a : Outputs) (free : List Nat) : Prop where
  physLen : d.phys.length = NUM_PHYS
  virtLen : d.virt.length = NUM_VIRT
  freeLinked : Linked d.phys (0 :: free)
  freeNodup : free.Nodup
  freeRange : ∀ p ∈ free, 1 ≤ p ∧ p < NUM_PHYS
  freeUnused : ∀ p ∈ free, a.Unused p
  cover : ∀ p, 1 ≤ p → p < NUM_PHYS → a.Unused p → p ∈ free
  linked : ∀ v, Linked d.phys (a.lists v)
  start : ∀ v e, d.virt[v]? = some e → e.phys = (a.lists v).headD 0 ∧ e.fn = a.fn v
  nodup : ∀ v, (a.lists v).Nodup
  range : ∀ v, ∀ p ∈ a.lists v, 1 ≤ p ∧ p < NUM_PHYS
  disjoint : ∀ v w p, p ∈ a.lists v → p ∈ a.lists w → v = w
  vrange : ∀ v, a.lists v ≠ [] → 1 ≤ v ∧ v < NUM_VIRT
  level : ∀ p e, d.phys[p]? = some e → e.shadow = a.level p

theorem validVirt_iff {v : Nat} : validVirt v = true ↔ 1 ≤ v ∧ v < 12 := by
  unfold validVirt
  rw [Bool.and_eq_true, decide_eq_true_eq, decide_eq_true_eq]
  exact Iff.rfl

theorem validPhys_iff {v : Nat} : validPhys v = true ↔ 1 ≤ v ∧ v < 13 := by
  unfold validPhys
  rw [Bool.and_eq_true, decide_eq_true_eq, decide_eq_true_eq]
  exact Iff.rfl

theorem nodup_length_le {l : List Nat} {n : Nat} (h : l.Nodup) (hr : ∀ p ∈ l, p < n) :
    l.length ≤ n := by
  have hsub : l ⊆ List.range n := fun p hp => List.mem_range.mpr (hr p hp)
  have := h.length_le_of_subset hsub
  simpa using this

theorem linked_range (phys : List PhysEntry) (hp : ∀ i, i < 13 → ∃ e, phys[i]? = some e ∧
    e.next = if i = 12 then 0 else i + 1) : Linked phys [0, 1, 2, 3, 4, 5, 6, 7, 8, 9, 10, 11, 12] := by
  simp only [Linked, List.headD_cons, List.headD_nil, and_true]
  refine ⟨?_, ?_, ?_, ?_, ?_, ?_, ?_, ?_, ?_, ?_, ?_, ?_, ?_⟩
  all_goals first
    | simpa using hp 0 (by omega) | simpa using hp 1 (by omega) | simpa using hp 2 (by omega)
    | simpa using hp 3 (by omega) | simpa using hp 4 (by omega) | simpa using hp 5 (by omega)
    | simpa using hp 6 (by omega) | simpa using hp 7 (by omega) | simpa using hp 8 (by omega)
    | simpa using hp 9 (by omega) | simpa using hp 10 (by omega) | simpa using hp 11 (by omega)
    | simpa using hp 12 (by omega)

theorem virtInit_phys (d : Dev) (i : Nat) (h : i < 13) :
    (virtInit d).phys[i]? = some ⟨1, if i = 12 then 0 else i + 1⟩ := by
  simp [virtInit, physInit, NUM_PHYS, PHYSICAL_NO_OUT, h]

/-- After initialisation nothing is assigned. -/
theorem DevRel.init (d : Dev) :
    DevRel (virtInit d) Outputs.initial [1, 2, 3, 4, 5, 6, 7, 8, 9, 10, 11, 12] := by
  refine ⟨by simp [virtInit, physInit], by simp [virtInit], ?_, by decide, by decide, ?_, ?_,
    fun _ => trivial, ?_, fun _ => List.nodup_nil, ?_, ?_, ?_, ?_⟩
  · exact linked_range _ (fun i hi => ⟨_, virtInit_phys d i hi, rfl⟩)
  · intro p _ w; simp [Outputs.initial]
  · intro p h1 h2 _
    simp [NUM_PHYS] at h2
    simp; omega
  · intro v e he
    simp [virtInit, List.getElem?_replicate] at he
    obtain ⟨_, rfl⟩ := he
    exact ⟨rfl, rfl⟩
  · intro v p hp; simp [Outputs.initial] at hp
  · intro v w p hp; simp [Outputs.initial] at hp
  · intro v hv; simp [Outputs.initial] at hv
  · intro p e he
    have hp : p < 13 := by
      have := (List.getElem?_eq_some_iff.mp he).1
      simpa [virtInit, physInit, NUM_PHYS] using this
    rw [virtInit_phys d p hp] at he
    cases he; rfl

theorem DevRel.zero_not_free {d a free} (h : DevRel d a free) : 0 ∉ free := by
  intro hc; have := h.freeRange 0 hc; omega

theorem DevRel.free_len {d a free} (h : DevRel d a free) : free.length ≤ 13 :=
  nodup_length_le h.freeNodup (fun p hp => (h.freeRange p hp).2)

theorem DevRel.list_len {d a free} (h : DevRel d a free) (v : Nat) : (a.lists v).length ≤ 13 :=
  nodup_length_le (h.nodup v) (fun p hp => (h.range v p hp).2)

/-- A possible assignment. -/
theorem DevRel.assign {d a free} (h : DevRel d a free) {v p : Nat} {fn : VFun} {i : UInt8}
    (hc : a.CanAssign v p) :
    ∃ d', virtAssign d v p fn i = .ok d' ∧ d'.trace = d.trace ∧
      DevRel d' (a.assign v p fn i) (free.erase p) := by
  obtain ⟨⟨hv1, hv2⟩, ⟨hp1, hp2⟩, hu⟩ := hc
  have hpf : p ∈ free := h.cover p hp1 (by simp [NUM_PHYS]; omega) hu
  have hpl := h.physLen
  have hvl := h.virtLen
  simp only [NUM_PHYS] at hpl
  simp only [NUM_VIRT] at hvl
  have hvlt : v < d.virt.length := by omega
  obtain ⟨pre, pred, post, hl, hfind⟩ := findFree_mem (dev := p) free 0 14 h.freeLinked
    h.zero_not_free (by have := h.free_len; omega) hpf
  have hvv : validVirt v = true := validVirt_iff.mpr (by omega)
  have hvp : validPhys p = true := validPhys_iff.mpr (by omega)
  have hnd : (0 :: free).Nodup := List.nodup_cons.mpr ⟨h.zero_not_free, h.freeNodup⟩
  have hpredmem : pred ∈ 0 :: free := by rw [hl]; simp
  have hpredlt : pred < 13 := by
    simp at hpredmem
    rcases hpredmem with h0 | h0
    · omega
    · exact (h.freeRange _ h0).2
  have hnd2 := hnd
  rw [hl] at hnd2
  have hne : pred ≠ p := by
    intro hc; subst hc
    rw [List.nodup_append] at hnd2
    have := hnd2.2.1
    simp at this
  have hpredphys : pred < d.phys.length := by omega
  have hpphys : p < d.phys.length := by omega
  obtain ⟨ev, hev⟩ : ∃ e, d.virt[v]? = some e := ⟨_, List.getElem?_eq_getElem hvlt⟩
  obtain ⟨ep, hep⟩ : ∃ e, d.phys[p]? = some e := ⟨_, List.getElem?_eq_getElem hpphys⟩
  obtain ⟨epred, hepred⟩ : ∃ e, d.phys[pred]? = some e := ⟨_, List.getElem?_eq_getElem hpredphys⟩
  have hs := h.start v ev hev
  -- the tables after the three writes
  have hcalc : virtAssign d v p fn i = .ok
      { phys := ((d.phys.set pred { epred with next := ep.next }).set p ⟨i, ev.phys⟩)
        virt := d.virt.set v ⟨p, fn⟩, trace := d.trace } := by
    unfold virtAssign physAllocate physIsAvailable
    rw [if_pos hvv, rd_some hev]
    simp only [ok_bind]
    have hf' : findFree d.phys p (NUM_PHYS + 1) PHYSICAL_NO_OUT = .ok pred := hfind
    rw [hf']
    simp only [ok_bind]
    have hcond : (validPhys p && decide (NUM_PHYS ≠ pred)) = true := by
      rw [hvp, Bool.true_and, decide_eq_true_eq]
      intro hc; simp only [NUM_PHYS] at hc; omega
    rw [if_pos hcond, rd_some hep, rd_some hepred]
    simp only [ok_bind]
    rw [wr_ok hpredphys]
    simp only [ok_bind]
    have hg : (d.phys.set pred { epred with next := ep.next })[p]? = some ep := by
      rw [List.getElem?_set_ne hne]; exact hep
    rw [rd_some hg]
    simp only [ok_bind]
    rw [wr_ok (by simpa using hpphys)]
    simp only [ok_bind]
    have hg2 : ((d.phys.set pred { epred with next := ep.next }).set p
        { ep with next := ev.phys })[p]? = some { ep with next := ev.phys } := by
      rw [List.getElem?_set_self (by simpa using hpphys)]
    rw [rd_some hg2]
    simp only [ok_bind]
    rw [wr_ok (by simpa using hpphys)]
    simp only [ok_bind, if_true]
    rw [wr_ok hvlt]
    simp [List.set_set]
  refine ⟨_, hcalc, rfl, ?_⟩
  -- the new free list
  have hfree' : 0 :: free.erase p = pre ++ pred :: post := by
    have h1 : (0 :: free).erase p = 0 :: free.erase p := by
      rw [List.erase_cons_tail]; simp; omega
    rw [← h1, hl]
    have hpn : p ∉ pre := by
      intro hc
      rw [List.nodup_append] at hnd2
      exact hnd2.2.2 p hc p (by simp) rfl
    rw [List.erase_append_right _ hpn, List.erase_cons_tail (by simpa using hne),
      List.erase_cons_head]
  have hpnf : p ∉ free.erase p := by
    intro hc
    exact (List.Nodup.mem_erase_iff h.freeNodup).mp hc |>.1 rfl
  have hpn0 : p ∉ 0 :: free.erase p := by
    simp; exact ⟨by omega, hpnf⟩
  have hunl := Linked.unlink (by rw [← hl]; exact h.freeLinked) hnd2 hepred hep
  rw [← hfree'] at hunl
  -- old lists are untouched by the writes
  have hlists : ∀ w, Linked ((d.phys.set pred { epred with next := ep.next }).set p ⟨i, ev.phys⟩)
      (a.lists w) := by
    intro w
    refine Linked.set_ne (Linked.set_ne (h.linked w) ?_ _) (hu w) _
    intro hc
    simp at hpredmem
    rcases hpredmem with h0 | h0
    · have := h.range w pred hc; omega
    · exact h.freeUnused pred h0 w hc
  refine ⟨by simpa using h.physLen, by simpa using h.virtLen, ?_, ?_, ?_, ?_, ?_, ?_, ?_, ?_, ?_,
    ?_, ?_, ?_⟩
  · exact Linked.set_ne hunl hpn0 _
  · exact h.freeNodup.erase p
  · intro q hq; exact h.freeRange q (List.mem_of_mem_erase hq)
  · intro q hq w
    have hqf := List.mem_of_mem_erase hq
    have hqu := h.freeUnused q hqf
    simp only [Outputs.assign]
    split
    · simp only [List.mem_cons, not_or]
      exact ⟨fun hc => hpnf (hc ▸ hq), hqu v⟩
    · exact hqu w
  · intro q h1 h2 hqu
    have hqp : q ≠ p := by
      intro hc; subst hc
      exact hqu v (by simp [Outputs.assign])
    rw [List.Nodup.mem_erase_iff h.freeNodup]
    refine ⟨hqp, h.cover q h1 h2 ?_⟩
    intro w hw
    apply hqu w
    simp only [Outputs.assign]
    split
    · rename_i hwv; subst hwv; simp [hw]
    · exact hw
  · intro w
    simp only [Outputs.assign]
    split
    · refine ⟨⟨⟨i, ev.phys⟩, ?_, hs.1⟩, hlists v⟩
      rw [List.getElem?_set_self (by simpa using hpphys)]
    · exact hlists w
  · intro w e he
    simp only [Outputs.assign]
    by_cases hvw : w = v
    · subst hvw
      rw [List.getElem?_set_self hvlt] at he
      cases he
      simp
    · rw [List.getElem?_set_ne (Ne.symm hvw)] at he
      rw [if_neg hvw, if_neg hvw]
      exact h.start w e he
  · intro w
    simp only [Outputs.assign]
    split
    · exact List.nodup_cons.mpr ⟨hu v, h.nodup v⟩
    · exact h.nodup w
  · intro w q hq
    simp only [Outputs.assign] at hq
    split at hq
    · simp at hq
      rcases hq with hq | hq
      · subst hq; exact ⟨hp1, by simp [NUM_PHYS]; omega⟩
      · exact h.range v q hq
    · exact h.range w q hq
  · intro w w' q hq hq'
    simp only [Outputs.assign] at hq hq'
    split at hq <;> split at hq'
    · omega
    · rename_i h1 h2
      simp at hq
      rcases hq with hq | hq
      · subst hq; exact absurd hq' (hu w')
      · rw [h1]; exact h.disjoint v w' q hq hq'
    · rename_i h1 h2
      simp at hq'
      rcases hq' with hq' | hq'
      · subst hq'; exact absurd hq (hu w)
      · rw [h2]; exact h.disjoint w v q hq hq'
    · exact h.disjoint w w' q hq hq'
  · intro w hw
    simp only [Outputs.assign] at hw
    split at hw
    · simp only [NUM_VIRT]; omega
    · exact h.vrange w hw
  · intro q e he
    simp only [Outputs.assign]
    by_cases hqp : q = p
    · subst hqp
      rw [List.getElem?_set_self (by simpa using hpphys)] at he
      cases he
      simp
    · rw [List.getElem?_set_ne (Ne.symm hqp)] at he
      rw [if_neg hqp]
      by_cases hqpr : q = pred
      · subst hqpr
        rw [List.getElem?_set_self hpredphys] at he
        cases he
        exact h.level _ epred hepred
      · rw [List.getElem?_set_ne (Ne.symm hqpr)] at he
        exact h.level q e he

/-- An impossible assignment. -/
theorem DevRel.assign_no {d a free} (h : DevRel d a free) {v p : Nat} {fn : VFun} {i : UInt8}
    (hc : ¬ a.CanAssign v p) : virtAssign d v p fn i = .ok d := by
  have hvl := h.virtLen
  simp only [NUM_VIRT] at hvl
  unfold virtAssign
  by_cases hv : validVirt v = true
  · rw [if_pos hv]
    have hv' : 1 ≤ v ∧ v < 12 := validVirt_iff.mp hv
    rw [rd_ok (by omega)]
    simp only [ok_bind]
    unfold physAllocate physIsAvailable
    by_cases hpf : p ∈ free
    · exfalso
      apply hc
      have := h.freeRange p hpf
      simp only [NUM_PHYS] at this
      exact ⟨⟨hv'.1, by omega⟩, ⟨this.1, by omega⟩, h.freeUnused p hpf⟩
    · have := findFree_not_mem (dev := p) free 0 (NUM_PHYS + 1) h.freeLinked
        h.zero_not_free (by have := h.free_len; simp only [NUM_PHYS]; omega) hpf
      have hz : PHYSICAL_NO_OUT = 0 := rfl
      rw [hz, this]
      simp
  · rw [if_neg hv]

/-! ## Driving outputs -/

/-- `asdf_physical_on/off/toggle` in a common form. -/
def physUpd (g : UInt8 → UInt8) (d : Dev) (p : Nat) : Res Dev := do
  let e ← rd d.phys p
  physSet d p (g e.shadow)

theorem physSet_ok {d : Dev} {p : Nat} {v : UInt8} {e : PhysEntry} (he : d.phys[p]? = some e) :
    physSet d p v = .ok
      { phys := d.phys.set p { e with shadow := v }, virt := d.virt,
        trace := d.trace ++ [.out p v] } := by
  have hlt := (List.getElem?_eq_some_iff.mp he).1
  unfold physSet
  rw [rd_some he]
  simp only [ok_bind]
  rw [wr_ok hlt]
  simp [Dev.emit]

theorem physOn_upd {d : Dev} {p : Nat} : physOn d p = physUpd (fun _ => 1) d p := by
  unfold physOn physUpd physSet
  cases hr : rd d.phys p <;> simp

theorem physOff_upd {d : Dev} {p : Nat} : physOff d p = physUpd (fun _ => 0) d p := by
  unfold physOff physUpd physSet
  cases hr : rd d.phys p <;> simp

theorem physToggle_upd {d : Dev} {p : Nat} : physToggle d p = physUpd Spec.inv d p := rfl

theorem mapDevices_upd (g : UInt8 → UInt8) (l : List Nat) (d : Dev) (fuel : Nat)
    (hl : Linked d.phys l) (h0 : 0 ∉ l) (hnd : l.Nodup) (hf : l.length < fuel) :
    ∃ d', mapDevices (physUpd g) fuel d (l.headD 0) = .ok d' ∧ d'.virt = d.virt ∧
      d'.phys.length = d.phys.length ∧
      (∀ (p : Nat) (e : PhysEntry), d.phys[p]? = some e →
        d'.phys[p]? = some { e with shadow := if p ∈ l then g e.shadow else e.shadow }) ∧
      d'.trace = d.trace ++
        l.map (fun p => Event.out p (g ((d.phys[p]?.map PhysEntry.shadow).getD 0))) := by
  induction l generalizing d fuel with
  | nil =>
    obtain ⟨fuel, rfl⟩ : ∃ n, fuel = n + 1 := ⟨fuel - 1, by simp at hf; omega⟩
    refine ⟨d, by simp [mapDevices, PHYSICAL_NO_OUT], rfl, rfl, ?_, by simp⟩
    intro p e he; simp [he]
  | cons x l ih =>
    obtain ⟨fuel, rfl⟩ : ∃ n, fuel = n + 1 := ⟨fuel - 1, by simp at hf; omega⟩
    obtain ⟨⟨e, he, hn⟩, hl'⟩ := hl
    have hx0 : x ≠ 0 := by intro hc; subst hc; simp at h0
    have hxl : x ∉ l := (List.nodup_cons.mp hnd).1
    have hlt := (List.getElem?_eq_some_iff.mp he).1
    rw [List.headD_cons]
    unfold mapDevices
    rw [if_neg (show ¬ x = PHYSICAL_NO_OUT from hx0)]
    have hstep : physUpd g d x = .ok
      { phys := d.phys.set x { e with shadow := g e.shadow }, virt := d.virt,
        trace := d.trace ++ [.out x (g e.shadow)] } := by
      unfold physUpd; rw [rd_some he]; simp only [ok_bind]; exact physSet_ok he
    rw [hstep]
    simp only [ok_bind, physNext]
    rw [rd_some (List.getElem?_set_self hlt)]
    simp only [ok_bind]
    obtain ⟨d', h1, h2, h3, h4, h5⟩ := ih
      { phys := d.phys.set x { e with shadow := g e.shadow }, virt := d.virt,
        trace := d.trace ++ [.out x (g e.shadow)] } fuel (hl'.set_ne hxl _)
      (fun hc => h0 (by simp [hc])) (List.nodup_cons.mp hnd).2 (by simp at hf; omega)
    rw [← hn] at h1
    refine ⟨d', h1, h2, by simpa using h3, ?_, ?_⟩
    · intro p ep hp
      by_cases hpx : p = x
      · subst hpx
        rw [he] at hp; cases hp
        have := h4 p _ (List.getElem?_set_self hlt)
        rw [this]; simp [hxl]
      · have := h4 p ep (by simp only; rw [List.getElem?_set_ne (Ne.symm hpx)]; exact hp)
        rw [this]; simp [hpx]
    · rw [h5]
      simp only [List.map_cons, he, Option.map_some, Option.getD_some, List.append_assoc,
        List.singleton_append]
      congr 2
      apply List.map_congr_left
      intro p hp
      have hpx : x ≠ p := by intro hc; subst hc; exact hxl hp
      rw [List.getElem?_set_ne hpx]

/-- Driving all outputs of `v`. -/
theorem DevRel.drive {d a free} (h : DevRel d a free) (v : Nat) (g : UInt8 → UInt8) :
    ∃ d', mapDevices (physUpd g) LIST_FUEL d ((a.lists v).headD 0) = .ok d' ∧
      d'.trace = d.trace ++ (a.drive v g).2 ∧ DevRel d' (a.drive v g).1 free ∧
      d'.virt = d.virt := by
  have h0 : 0 ∉ a.lists v := by intro hc; have := h.range v 0 hc; omega
  obtain ⟨d', h1, h2, h3, h4, h5⟩ := mapDevices_upd g (a.lists v) d LIST_FUEL (h.linked v) h0
    (h.nodup v) (by have := h.list_len v; simp only [LIST_FUEL, NUM_PHYS]; omega)
  have hlink : ∀ l, Linked d.phys l → Linked d'.phys l := by
    intro l hl
    apply hl.frame
    intro x hx
    cases hd : d.phys[x]? with
    | none =>
      have : d'.phys[x]? = none := by
        rw [List.getElem?_eq_none_iff] at hd ⊢; omega
      rw [this]
    | some e => rw [h4 x e hd]; rfl
  have hcell : ∀ (p : Nat) (e' : PhysEntry), d'.phys[p]? = some e' →
      ∃ e : PhysEntry, d.phys[p]? = some e ∧
      e' = { e with shadow := if p ∈ a.lists v then g e.shadow else e.shadow } := by
    intro p e' he'
    have hlt := (List.getElem?_eq_some_iff.mp he').1
    have : d.phys[p]? = some d.phys[p] := List.getElem?_eq_getElem (by omega)
    refine ⟨_, this, ?_⟩
    have := h4 p _ this
    rw [he'] at this
    exact Option.some.inj this
  refine ⟨d', h1, ?_, ?_, h2⟩
  · rw [h5]
    congr 1
    simp only [Outputs.drive]
    apply List.map_congr_left
    intro p hp
    have hr := h.range v p hp
    have hpl := h.physLen
    have : d.phys[p]? = some d.phys[p] := List.getElem?_eq_getElem (by omega)
    rw [this]
    simp only [Option.map_some, Option.getD_some]
    rw [h.level p _ this]
  · refine ⟨by rw [h3]; exact h.physLen, by rw [h2]; exact h.virtLen, hlink _ h.freeLinked,
      h.freeNodup, h.freeRange, h.freeUnused, h.cover, fun w => hlink _ (h.linked w), ?_, h.nodup,
      h.range, h.disjoint, h.vrange, ?_⟩
    · rw [h2]; exact h.start
    · intro p e' he'
      obtain ⟨e, he, rfl⟩ := hcell p e' he'
      have := h.level p e he
      simp only [Outputs.drive, this]

theorem DevRel.emit {d a free} (h : DevRel d a free) (e : Event) : DevRel (d.emit e) a free :=
  ⟨h.physLen, h.virtLen, h.freeLinked, h.freeNodup, h.freeRange, h.freeUnused, h.cover, h.linked,
    h.start, h.nodup, h.range, h.disjoint, h.vrange, h.level⟩

theorem mapDevices_congr {f g : Dev → Nat → Res Dev} (h : ∀ d p, f d p = g d p) :
    ∀ fuel d p, mapDevices f fuel d p = mapDevices g fuel d p := by
  intro fuel
  induction fuel with
  | zero => intros; rfl
  | succ n ih => intro d p; simp only [mapDevices, h, ih]

theorem mapOn (fuel d p) : mapDevices physOn fuel d p = mapDevices (physUpd fun _ => 1) fuel d p :=
  mapDevices_congr (fun _ _ => physOn_upd) fuel d p

theorem mapOff (fuel d p) :
    mapDevices physOff fuel d p = mapDevices (physUpd fun _ => 0) fuel d p :=
  mapDevices_congr (fun _ _ => physOff_upd) fuel d p

theorem mapToggle (fuel d p) :
    mapDevices physToggle fuel d p = mapDevices (physUpd Spec.inv) fuel d p :=
  mapDevices_congr (fun _ _ => physToggle_upd) fuel d p

/-- `asdf_virtual_action` refines `Outputs.act`. -/
theorem DevRel.act {d a free} (h : DevRel d a free) {v : Nat} (hv : v < NUM_VIRT) (fn : VFun) :
    ∃ d', virtAction d v fn = .ok d' ∧ d'.trace = d.trace ++ (a.act v fn).2 ∧
      DevRel d' (a.act v fn).1 free := by
  have hvl := h.virtLen
  obtain ⟨ev, hev⟩ : ∃ e, d.virt[v]? = some e := ⟨_, List.getElem?_eq_getElem (by omega)⟩
  have hs := (h.start v ev hev).1
  unfold virtAction
  rw [rd_some hev]
  simp only [ok_bind, hs]
  have hpulse : ∀ delay : Event, ∃ d', (do
        let d ← mapDevices physToggle LIST_FUEL d ((a.lists v).headD 0)
        mapDevices physToggle LIST_FUEL (d.emit delay) ((a.lists v).headD 0)) = .ok d' ∧
      d'.trace = d.trace ++ (a.pulse v delay).2 ∧ DevRel d' (a.pulse v delay).1 free := by
    intro delay
    obtain ⟨d1, h1, h2, h3, _⟩ := h.drive v Spec.inv
    obtain ⟨d2, h5, h6, h7, _⟩ := (h3.emit delay).drive v Spec.inv
    rw [mapToggle, h1]
    simp only [ok_bind]
    rw [mapToggle]
    refine ⟨d2, h5, ?_, h7⟩
    rw [h6]
    simp only [Dev.emit, h2, Outputs.pulse, List.append_assoc]
  cases fn with
  | nofunc => exact ⟨d, rfl, by simp [Outputs.act], h⟩
  | setHi =>
    obtain ⟨d1, h1, h2, h3, _⟩ := h.drive v (fun _ => 1)
    exact ⟨d1, by simp only [mapOn]; exact h1, h2, h3⟩
  | setLo =>
    obtain ⟨d1, h1, h2, h3, _⟩ := h.drive v (fun _ => 0)
    exact ⟨d1, by simp only [mapOff]; exact h1, h2, h3⟩
  | toggle =>
    obtain ⟨d1, h1, h2, h3, _⟩ := h.drive v Spec.inv
    exact ⟨d1, by simp only [mapToggle]; exact h1, h2, h3⟩
  | pulseShort => exact hpulse .delayShort
  | pulseLong => exact hpulse .delayLong

/-- `asdf_virtual_activate` refines `Outputs.act` with the configured function. -/
theorem DevRel.activate {d a free} (h : DevRel d a free) {v : Nat} (hv : v < NUM_VIRT) :
    ∃ d', virtActivate d v = .ok d' ∧ d'.trace = d.trace ++ (a.act v (a.fn v)).2 ∧
      DevRel d' (a.act v (a.fn v)).1 free := by
  have hvl := h.virtLen
  obtain ⟨ev, hev⟩ : ∃ e, d.virt[v]? = some e := ⟨_, List.getElem?_eq_getElem (by omega)⟩
  unfold virtActivate
  rw [rd_some hev]
  simp only [ok_bind, (h.start v ev hev).2]
  exact h.act hv _

/-! ## Observing the lists -/

theorem walk_linked (d : Dev) (l : List Nat) (fuel : Nat) (hl : Linked d.phys l) (h0 : 0 ∉ l)
    (hf : l.length < fuel) : walk d fuel (l.headD 0) = some l := by
  induction l generalizing fuel with
  | nil =>
    obtain ⟨fuel, rfl⟩ : ∃ n, fuel = n + 1 := ⟨fuel - 1, by simp at hf; omega⟩
    simp [walk]
  | cons x l ih =>
    obtain ⟨fuel, rfl⟩ : ∃ n, fuel = n + 1 := ⟨fuel - 1, by simp at hf; omega⟩
    obtain ⟨⟨e, he, hn⟩, hl'⟩ := hl
    have hx0 : x ≠ 0 := by intro hc; subst hc; simp at h0
    simp only [walk, List.headD_cons, if_neg hx0, he, hn]
    rw [ih fuel hl' (fun hc => h0 (by simp [hc])) (by simp at hf; omega)]
    rfl

theorem DevRel.outputsOf {d a free} (h : DevRel d a free) {v : Nat} (hv : v < NUM_VIRT) :
    outputsOf d v = some (a.lists v) := by
  have hvl := h.virtLen
  obtain ⟨ev, hev⟩ : ∃ e, d.virt[v]? = some e := ⟨_, List.getElem?_eq_getElem (by omega)⟩
  unfold Spec.outputsOf
  rw [hev]
  simp only [(h.start v ev hev).1]
  apply walk_linked _ _ _ (h.linked v)
  · intro hc; have := h.range v 0 hc; omega
  · have := h.list_len v; omega

/-- Histories of calls. -/
theorem foldDev_refines (ops : List DevOp) {d a free} (h : DevRel d a free) :
    ∃ d' free', ops.foldlM callDev d = .ok d' ∧ d'.trace = d.trace ++ (a.run ops).2 ∧
      DevRel d' (a.run ops).1 free' := by
  induction ops generalizing d a free with
  | nil => exact ⟨d, free, rfl, by simp [Outputs.run], h⟩
  | cons op ops ih =>
    have hstep : ∃ d1 f1, callDev d op = .ok d1 ∧ d1.trace = d.trace ++ (a.call op).2 ∧
        DevRel d1 (a.call op).1 f1 := by
      cases op with
      | assign r =>
        by_cases hc : a.CanAssign r.v r.p
        · obtain ⟨d1, h1, h2, h3⟩ := h.assign (fn := r.fn) (i := r.initial) hc
          refine ⟨d1, free.erase r.p, h1, by simp [Outputs.call, h2], ?_⟩
          simp only [Outputs.call, if_pos hc]; exact h3
        · refine ⟨d, free, h.assign_no hc, by simp [Outputs.call], ?_⟩
          simp only [Outputs.call, if_neg hc]; exact h
      | action v fn =>
        obtain ⟨d1, h1, h2, h3⟩ := h.act (v := v) v.isLt fn
        exact ⟨d1, free, h1, h2, h3⟩
      | activate v =>
        obtain ⟨d1, h1, h2, h3⟩ := h.activate (v := v) v.isLt
        exact ⟨d1, free, h1, h2, h3⟩
      | other e => exact ⟨d.emit e, free, rfl, rfl, h.emit e⟩
    obtain ⟨d1, f1, h1, h2, h3⟩ := hstep
    obtain ⟨d2, f2, h4, h5, h6⟩ := ih h3
    refine ⟨d2, f2, ?_, ?_, h6⟩
    · simp only [List.foldlM_cons, h1, ok_bind]; exact h4
    · rw [h5, h2]; simp [Outputs.run]

theorem Spec.OutputsReachable.rel {d : Dev} (h : OutputsReachable d) : ∃ a free, DevRel d a free := by
  obtain ⟨d0, ops, h⟩ := h
  obtain ⟨d', f, h1, _, h3⟩ := foldDev_refines ops (DevRel.init d0)
  unfold runDev at h
  rw [h1] at h
  cases h
  exact ⟨_, _, h3⟩

theorem Spec.OutputsReachable.call {d d' : Dev} (h : OutputsReachable d) {op : DevOp}
    (hc : callDev d op = .ok d') : OutputsReachable d' := by
  obtain ⟨d0, ops, h⟩ := h
  refine ⟨d0, ops ++ [op], ?_⟩
  unfold runDev at h ⊢
  rw [List.foldlM_append, h]
  simp [hc]

/-- Sequences of assignment requests. -/
theorem assignAll_refines (rs : List AssignReq) {d a free} (h : DevRel d a free) :
    ∃ d' free', Spec.assignAll d rs = .ok d' ∧ d'.trace = d.trace ∧
      DevRel d' (a.assignAll rs) free' := by
  induction rs generalizing d a free with
  | nil => exact ⟨d, free, rfl, rfl, h⟩
  | cons r rs ih =>
    by_cases hc : a.CanAssign r.v r.p
    · obtain ⟨d1, h1, h2, h3⟩ := h.assign (fn := r.fn) (i := r.initial) hc
      obtain ⟨d2, f2, h4, h5, h6⟩ := ih h3
      refine ⟨d2, f2, ?_, by rw [h5, h2], ?_⟩
      · simp only [Spec.assignAll, List.foldlM_cons, h1, ok_bind]; exact h4
      · simp only [Outputs.assignAll, List.foldl_cons, if_pos hc]; exact h6
    · obtain ⟨d2, f2, h4, h5, h6⟩ := ih h
      refine ⟨d2, f2, ?_, h5, ?_⟩
      · simp only [Spec.assignAll, List.foldlM_cons, h.assign_no hc, ok_bind]; exact h4
      · simp only [Outputs.assignAll, List.foldl_cons, if_neg hc]; exact h6

end Asdf
