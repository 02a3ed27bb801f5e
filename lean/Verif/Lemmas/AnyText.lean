import Verif.Spec.AnyText
import Verif.Props.Matrix

/-! # The characters on the keys of the two keyboards -/

namespace Asdf.Props

open Spec Pcb

/-- What is on the keys of a board can be typed with them. -/
def typableOn (ps : List Place) (i : UInt8) (x : Code) : Bool :=
  decide (x.toNat < 128 ∧ x.toNat ∉ missing i) && (strokesFor i x).all fun z => ps.any fun p => spotOf p == z

theorem classic_typable : ∀ i < 4, ∀ n < 256,
    typableOn classicPlaces (UInt8.ofNat i) (UInt8.ofNat n) = true ∨ ¬ OnKeyOf classicPlaces (UInt8.ofNat i) (UInt8.ofNat n) := by
  decide +kernel

theorem sol_typable : ∀ i < 4, ∀ n < 256,
    typableOn solPlaces (UInt8.ofNat i) (UInt8.ofNat n) = true ∨ ¬ OnKeyOf solPlaces (UInt8.ofNat i) (UInt8.ofNat n) := by
  decide +kernel

theorem typable_of {ps : List Place} (hps : ps ∈ [classicPlaces, solPlaces]) {i : UInt8} (hi : i.toNat < 4) {x : Code}
    (h : OnKeyOf ps i x) : (x.toNat < 128 ∧ x.toNat ∉ missing i) ∧ ∀ z ∈ strokesFor i x, ∃ p ∈ ps, spotOf p = z := by
  have key : typableOn ps i x = true := by
    rcases List.mem_cons.mp hps with rfl | e
    · have := classic_typable i.toNat hi x.toNat x.toNat_lt
      rw [UInt8.ofNat_toNat, UInt8.ofNat_toNat] at this
      exact this.elim id fun hn => absurd h hn
    · rw [List.mem_singleton.mp e] at h ⊢
      have := sol_typable i.toNat hi x.toNat x.toNat_lt
      rw [UInt8.ofNat_toNat, UInt8.ofNat_toNat] at this
      exact this.elim id fun hn => absurd h hn
  unfold typableOn at key
  rw [Bool.and_eq_true, decide_eq_true_eq, List.all_eq_true] at key
  refine ⟨key.1, fun z hz => ?_⟩
  obtain ⟨p, hp, e⟩ := List.any_eq_true.mp (key.2 z hz)
  exact ⟨p, hp, eq_of_beq e⟩

end Asdf.Props
