import Verif.Spec.Literal
import Verif.Lemmas.Boards
import Verif.Lemmas.Rows
import Verif.Lemmas.Bits

/-! # Lemmas about sending a code without optimisation -/

namespace Asdf

open Avr Spec

theorem oneBit_other : ∀ s < 8, ∀ b < 8, b ≠ s → bitOf (oneBit s) b = false := by decide +kernel

theorem literal_toggle {p : Pin} (hb : p.bit < 8) {s : Nat} (hs : s < 8) (hne : p.bit ≠ s) (r : Regs) (e : UInt8) :
    bitOf (r.port p.port ^^^ (pinValue r p.port e ||| oneBit s)) p.bit =
      if isOutput r p then false else level r p != bitOf e p.bit := by
  unfold pinValue isOutput level
  rw [bitOf_xor, bitOf_or, bitOf_or, bitOf_and, bitOf_and, bitOf_not _ _ hb, oneBit_other s hs _ hb hne]
  cases bitOf (r.port p.port) p.bit <;> cases bitOf (r.ddr p.port) p.bit <;> cases bitOf e p.bit <;> rfl

theorem literal_states {dp sp : Port} (hds : dp ≠ sp) {s : Nat} (hs : s < 8) (v : UInt8) (us : Nat) (ext : Port → UInt8)
    (r : Regs) (p : Pin) (hb : p.bit < 8) (hd : p.port ≠ dp) (hp : p ≠ ⟨sp, s⟩) :
    (states .literal ext r [.wrPort dp v, .setPin sp s, .delayUs us, .setPin sp s]).map
        (fun x => (level x p, isOutput x p)) =
      literalPin (decide (p.port = sp)) (level r p) (isOutput r p) (bitOf (ext p.port) p.bit) := by
  have h1 : level (access .literal ext r (.wrPort dp v)) p = level r p := by
    unfold level access
    simp [upd, hd]
  have h2 : ∀ r, level (access .literal ext r (.setPin sp s)) p =
      if p.port = sp then (if isOutput r p then false else level r p != bitOf (ext p.port) p.bit) else level r p := by
    intro r
    by_cases h : p.port = sp
    · rw [if_pos h, ← literal_toggle hb hs (fun e => hp (by cases p; cases h; cases e; rfl)) r (ext p.port)]
      unfold level access togglePort
      simp [upd, h]
    · rw [if_neg h]
      unfold level access togglePort
      simp [upd, h]
  have h3 : ∀ r, isOutput (access .literal ext r (.setPin sp s)) p = isOutput r p := fun _ => rfl
  show [(_, _), (_, _), (_, _), (_, _)] = _
  simp only [show ∀ r, access .literal ext r (.delayUs us) = r from fun _ => rfl, h1, h2, h3,
    show isOutput (access .literal ext r (.wrPort dp v)) p = isOutput r p from rfl]
  unfold literalPin
  by_cases h : p.port = sp
  · simp only [h, if_true, decide_true]
    cases isOutput r p
    · cases level r p <;> cases bitOf (ext sp) p.bit <;> rfl
    · rfl
  · simp only [h, if_false, decide_false]
    rfl

theorem mem_pinsOf {p : Pin} {q : Port} (hb : p.bit < 8) : p ∈ pinsOf q ↔ p.port = q := by
  unfold pinsOf
  constructor
  · intro h
    obtain ⟨b, _, rfl⟩ := List.mem_map.mp h
    rfl
  · intro h
    exact List.mem_map.mpr ⟨p.bit, List.mem_range.mpr hb, by cases p; cases h; rfl⟩

theorem strobe_not_data {B : Board} (hB : B ∈ boards) : B.data ≠ B.strobe.port := by
  rcases List.mem_cons.mp hB with rfl | hB
  · decide
  · cases List.mem_singleton.mp hB
    decide

end Asdf
