import Verif.Spec.Typable

/-! # Lemmas for C69: searching the tables of a keymap -/

namespace Asdf

open Spec

/-- The entries of a table outside the DIP switch row, as numbers. -/
def keyEntries (t : List Code) : List Nat := (t.take 64 ++ t.drop 72).map UInt8.toNat

theorem mem_keyEntries {t : List Code} {n : Nat} :
    n ∈ keyEntries t ↔ ∃ k x, t[k]? = some x ∧ x.toNat = n ∧ (k < 64 ∨ 72 ≤ k) := by
  unfold keyEntries
  rw [List.mem_map]
  constructor
  · rintro ⟨x, hx, e⟩
    rcases List.mem_append.mp hx with hx | hx
    · obtain ⟨k, hk⟩ := List.mem_iff_getElem?.mp hx
      have hlt : k < (t.take 64).length := (List.getElem?_eq_some_iff.mp hk).1
      rw [List.length_take] at hlt
      rw [List.getElem?_take_of_lt (by omega)] at hk
      exact ⟨k, x, hk, e, .inl (by omega)⟩
    · obtain ⟨k, hk⟩ := List.mem_iff_getElem?.mp hx
      rw [List.getElem?_drop] at hk
      exact ⟨72 + k, x, hk, e, .inr (by omega)⟩
  · rintro ⟨k, x, hk, e, h | h⟩
    · exact ⟨x, List.mem_append_left _ (List.mem_iff_getElem?.mpr
        ⟨k, by rw [List.getElem?_take_of_lt h]; exact hk⟩), e⟩
    · refine ⟨x, List.mem_append_right _ (List.mem_iff_getElem?.mpr ⟨k - 72, ?_⟩), e⟩
      rw [List.getElem?_drop, show 72 + (k - 72) = k by omega]
      exact hk

/-- Four tables of eight columns. -/
def fourTables (i : UInt8) : Bool :=
  (tablesOf shipped i).length == 4 && colsOf i == 8 &&
    (tablesOf shipped i).all fun t => t.length == 8 * rowsOf i

theorem canType_iff {i : UInt8} (h : fourTables i = true) {x : Code} (hx : x ≠ 0xA0) :
    CanType i x ↔ ∃ t ∈ tablesOf shipped i, x.toNat ∈ keyEntries t := by
  simp only [fourTables, Bool.and_eq_true, beq_iff_eq, List.all_eq_true] at h
  obtain ⟨⟨h4, h8⟩, hlen⟩ := h
  have hentry : ∀ t ∈ tablesOf shipped i, ∀ r c, r < rowsOf i → c < 8 →
      t[r * 8 + c]? = some (entryAt t 8 r c) := by
    intro t ht r c hr hc
    have hl := hlen t ht
    unfold entryAt
    rw [List.getElem?_eq_getElem (by omega)]
    rfl
  constructor
  · rintro ⟨r, c, sh, ca, ct, hr, hd, hc, e⟩
    rw [h8] at hc e
    have hlt : tableFor sh ca ct < (tablesOf shipped i).length := by
      have : ∀ a b c : Bool, tableFor a b c < 4 := by decide
      rw [h4]; exact this sh ca ct
    refine ⟨(tablesOf shipped i)[tableFor sh ca ct], List.getElem_mem hlt,
      mem_keyEntries.mpr ⟨r * 8 + c, x, ?_, rfl, ?_⟩⟩
    · rw [hentry _ (List.getElem_mem hlt) r c hr hc, ← e]
      unfold codeUnder
      rw [List.getElem?_eq_getElem hlt]
      rfl
    · unfold DIP_ROW at hd
      omega
  · rintro ⟨t, ht, hm⟩
    obtain ⟨k, y, hk, e, hk'⟩ := mem_keyEntries.mp hm
    have hy : y = x := UInt8.toNat_inj.mp e
    subst hy
    have hlt : k < t.length := (List.getElem?_eq_some_iff.mp hk).1
    rw [hlen t ht] at hlt
    obtain ⟨j, hj⟩ := List.mem_iff_getElem?.mp ht
    have hj4 : j < 4 := by
      have := (List.getElem?_eq_some_iff.mp hj).1
      omega
    have hmod : ∃ sh ca ct, tableFor sh ca ct = j := by
      have : ∀ j < 4, ∃ sh ca ct, tableFor sh ca ct = j := by decide
      exact this j hj4
    obtain ⟨sh, ca, ct, hm⟩ := hmod
    refine ⟨k / 8, k % 8, sh, ca, ct, by omega, by unfold DIP_ROW; omega, by omega, ?_⟩
    unfold codeUnder
    rw [hm, hj, h8]
    show entryAt t 8 _ _ = _
    unfold entryAt
    rw [show k / 8 * 8 + k % 8 = k by omega, hk]
    rfl

theorem shipped_fourTables : ∀ i ∈ shippedNumbers, fourTables i = true := by decide +kernel

theorem shipped_chars : ∀ i ∈ shippedNumbers, ∀ n < 128,
    ((tablesOf shipped i).any fun t => (keyEntries t).contains n) = !(missing i).contains n := by
  decide +kernel

end Asdf
