import Verif.Spec.Scan
import Verif.Lemmas.Basic

/-! # Lemmas about bytes as bit sets -/

namespace Asdf

open Spec

theorem bitOf_and (x y : UInt8) (c : Nat) : bitOf (x &&& y) c = (bitOf x c && bitOf y c) := by
  simp [bitOf]

theorem bitOf_or (x y : UInt8) (c : Nat) : bitOf (x ||| y) c = (bitOf x c || bitOf y c) := by
  simp [bitOf]

theorem bitOf_xor (x y : UInt8) (c : Nat) : bitOf (x ^^^ y) c = (bitOf x c != bitOf y c) := by
  simp [bitOf]

theorem bitOf_not (x : UInt8) (c : Nat) (h : c < 8) : bitOf (~~~x) c = !bitOf x c := by
  simp [bitOf, h]

theorem bitOf_shiftRight (x : UInt8) (c : Nat) : bitOf (x >>> 1) c = bitOf x (c + 1) := by
  simp only [bitOf, UInt8.toBitVec_shiftRight]
  have : (UInt8.toBitVec 1).umod 8 = 1#8 := by decide
  rw [BitVec.ushiftRight_eq', BitVec.getLsbD_ushiftRight]
  congr 1
  rw [Nat.add_comm]
  rfl

theorem bitOf_zero (c : Nat) : bitOf 0 c = false := by simp [bitOf]

theorem and_one_ne_zero (x : UInt8) : (x &&& 1 ≠ 0) ↔ bitOf x 0 = true := by
  have h : bitOf (x &&& 1) 0 = bitOf x 0 := by rw [bitOf_and]; simp [bitOf]
  constructor
  · intro hx
    by_cases hb : bitOf x 0 = true
    · exact hb
    · exfalso
      apply hx
      rw [← UInt8.toBitVec_inj]
      apply BitVec.eq_of_getLsbD_eq
      intro i hi
      show bitOf (x &&& 1) i = bitOf 0 i
      rw [bitOf_zero]
      by_cases h0 : i = 0
      · subst h0; rw [h]; simpa using hb
      · rw [bitOf_and]
        have : bitOf 1 i = false := by
          have : ∀ j, j < 8 → j ≠ 0 → bitOf 1 j = false := by decide
          exact this i hi h0
        simp [this]
  · intro hb hc
    rw [hc, bitOf_zero] at h
    rw [hb] at h
    cases h

theorem bitOf_colBit (c j : Nat) (hc : c < 8) (hj : j < 8) : bitOf (colBit c) j = decide (j = c) := by
  have : ∀ c, c < 8 → ∀ j, j < 8 → bitOf (colBit c) j = decide (j = c) := by decide
  exact this c hc j hj

theorem bitOf_set (x : UInt8) (c j : Nat) (hc : c < 8) (hj : j < 8) :
    bitOf (x ||| colBit c) j = if j = c then true else bitOf x j := by
  rw [bitOf_or, bitOf_colBit c j hc hj]
  by_cases h : j = c <;> simp [h]

theorem bitOf_clear (x : UInt8) (c j : Nat) (hc : c < 8) (hj : j < 8) :
    bitOf (x &&& ~~~(colBit c)) j = if j = c then false else bitOf x j := by
  rw [bitOf_and, bitOf_not _ _ hj, bitOf_colBit c j hc hj]
  by_cases h : j = c <;> simp [h]

end Asdf
