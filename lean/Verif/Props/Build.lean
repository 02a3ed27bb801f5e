import Verif.Spec.Build
import Verif.Props.Machine

/-! # Property C62: builds with other keymap lists -/

namespace Asdf.Props

open Spec

/-- The shipped firmware is the build of the shipped keymap list. -/
theorem C62_shipped_build : shipped = buildOf shippedList := by
  have h1 : ∀ n, n < 256 → shipped.valid (UInt8.ofNat n) = (buildOf shippedList).valid (UInt8.ofNat n) ∧
      shipped.setup (UInt8.ofNat n) = (buildOf shippedList).setup (UInt8.ofNat n) := by decide +kernel
  have h2 : ∀ i : UInt8, shipped.valid i = (buildOf shippedList).valid i ∧
      shipped.setup i = (buildOf shippedList).setup i := by
    intro i
    have := h1 i.toNat i.toNat_lt
    rw [UInt8.ofNat_toNat] at this
    exact this
  have h3 : shipped.valid = (buildOf shippedList).valid := funext fun i => (h2 i).1
  have h4 : shipped.setup = (buildOf shippedList).setup := funext fun i => (h2 i).2
  calc shipped = ⟨shipped.valid, shipped.setup⟩ := rfl
    _ = ⟨(buildOf shippedList).valid, (buildOf shippedList).setup⟩ := by rw [h3, h4]
    _ = buildOf shippedList := rfl

/-- Every build of at most four keymaps of one shape is fit for the layout that
excludes no key. -/
theorem build_ok {rows cols : Nat} {l : List (UInt8 × List SetupCmd)} (hr : 1 ≤ rows ∧ rows ≤ 16)
    (hc : 1 ≤ cols ∧ cols ≤ 8) (hl : uniform rows cols l = true) :
    cfgOk (buildOf l) (layoutOf rows cols l) = true := by
  unfold uniform at hl
  rw [Bool.and_eq_true, List.all_eq_true] at hl
  obtain ⟨hl, h0⟩ := hl
  have hmaps : ∀ i, (buildOf l).valid i = true → i ∈ l.map Prod.fst := by
    intro i hi
    obtain ⟨e, he, h⟩ := List.any_eq_true.mp hi
    rw [List.mem_map]
    exact ⟨e, he, eq_of_beq h⟩
  have hsel : ∀ code, mapselOk (buildOf l) (layoutOf rows cols l) code = true := by
    intro code
    unfold mapselOk
    split
    · rw [List.all_eq_true]
      intro i _
      have : ∀ j, ((layoutOf rows cols l).maps.contains j || !(buildOf l).valid j) = true := by
        intro j
        cases hv : (buildOf l).valid j with
        | false => rw [Bool.not_false, Bool.or_true]
        | true =>
          have : (layoutOf rows cols l).maps.contains j = true :=
            List.contains_iff_mem.mpr (hmaps j hv)
          rw [this, Bool.true_or]
      rw [this, this]
      rfl
    · rfl
  unfold cfgOk
  simp only [Bool.and_eq_true, decide_eq_true_eq]
  refine ⟨⟨⟨⟨⟨hr.1, hr.2⟩, hc.1⟩, hc.2⟩, ?_⟩, ?_⟩
  · exact List.contains_iff_mem.mpr (hmaps 0 h0)
  · rw [List.all_eq_true]
    intro i hi
    obtain ⟨e, he, rfl⟩ := List.mem_map.mp hi
    have hv : (buildOf l).valid e.1 = true := List.any_eq_true.mpr ⟨e, he, beq_self_eq_true _⟩
    -- the entry that counts
    have hf : ∃ x ∈ l, x.1 = e.1 ∧ (buildOf l).setup e.1 = x.2 := by
      cases hfi : l.find? fun x => x.1 == e.1 with
      | none =>
        have := List.find?_eq_none.mp hfi e he
        exact absurd (beq_self_eq_true _) this
      | some x =>
        refine ⟨x, List.mem_of_find?_eq_some hfi, ?_, ?_⟩
        · have := List.find?_some hfi
          exact eq_of_beq this
        · show (match l.find? fun x => x.1 == e.1 with
            | some x => x.2
            | none => _) = _
          rw [hfi]
    obtain ⟨x, hx, h1, h2⟩ := hf
    have h3 := hl x hx
    rw [Bool.and_eq_true, decide_eq_true_eq] at h3
    obtain ⟨h3, h4⟩ := h3
    unfold shaped at h4
    rw [Bool.and_eq_true, List.all_eq_true] at h4
    obtain ⟨h4, h5⟩ := h4
    unfold keymapOk
    simp only [Bool.and_eq_true, decide_eq_true_eq]
    refine ⟨⟨⟨?_, hv⟩, ?_⟩, ?_⟩
    · rw [← h1]; exact h3
    · rw [h2, List.all_eq_true]
      intro m hm
      have h6 := h4 m hm
      unfold tableOk
      cases hmx : m.matrix with
      | none => rw [hmx] at h6; simp at h6
      | some t =>
        rw [hmx] at h6
        simp only [Bool.and_eq_true] at h6 ⊢
        refine ⟨h6.1, h6.2, ?_⟩
        rw [List.all_eq_true]
        intro r _
        rw [List.all_eq_true]
        intro c _
        rw [hsel, Bool.or_true]
    · rw [h2]; exact h5

/-- **C62.** A firmware built with any list of keymaps numbered below four (0 among
them) that all have the same shape behaves, for every sequence of readings whatever
keys and switches are closed, exactly as the abstract keyboard; in particular it never
reads or writes outside its tables. -/
theorem C62_builds (rows cols : Nat) (hr : 1 ≤ rows ∧ rows ≤ 16) (hc : 1 ≤ cols ∧ cols ≤ 8)
    (l : List (UInt8 × List SetupCmd)) (hl : uniform rows cols l = true) (inps : List Input) :
    ∃ s, (boot (buildOf l) >>= fun s0 => run (buildOf l) s0 inps) = .ok s ∧
      s.dev.trace = (Kb.after (buildOf l) (layoutOf rows cols l) inps).trace ∧
      keystrokes s = (Kb.after (buildOf l) (layoutOf rows cols l) inps).keys ∧
      messages s = (Kb.after (buildOf l) (layoutOf rows cols l) inps).msgs := by
  obtain ⟨s, e1, e2, e3, e4, _⟩ := C55_whole_keyboard _ _ (build_ok hr hc hl) inps (by
    intro inp _ r c _ _ hb
    cases hb)
  exact ⟨s, e1, e2, e3, e4⟩

/-- **C62, the keymaps that come with the firmware.**  Each of the six keymaps has a
shape, so each can be built alone, and the first four can be built together in any
order. -/
theorem C62_shipped_keymaps :
    (∀ k ∈ [classicSetup, classicCapsSetup, apple2Setup, apple2CapsSetup], shaped 9 8 k = true) ∧
    shaped 13 8 solSetup = true ∧ shaped 10 8 ace1000Setup = true := by decide +kernel

/-- **C62, the shipped list is not one of them**: it has six keymaps, of three shapes. -/
theorem C62_shipped_list_is_not_uniform (rows cols : Nat) : uniform rows cols shippedList = false := by
  have : ∀ n : UInt8, n = 4 → decide (n.toNat < 4) = false := by rintro _ rfl; rfl
  unfold uniform shippedList
  simp only [List.all_cons, this 4 rfl, Bool.false_and, Bool.and_false]

/-- Non-vacuity: a Sol keyboard alone, and four keymaps in another order. -/
example : uniform 13 8 [(0, solSetup)] = true ∧
    uniform 9 8 [(2, classicSetup), (0, apple2CapsSetup), (1, apple2Setup), (3, classicCapsSetup)] = true := by
  decide +kernel

end Asdf.Props
