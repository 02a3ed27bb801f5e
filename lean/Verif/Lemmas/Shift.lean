import Verif.Lemmas.Kb

/-! # Lemmas for C70: who holds SHIFT -/

namespace Asdf

open Spec

theorem select_held (cfg : Config) (k : Kb) (i : UInt8) : (k.select cfg i).held = k.held := by
  unfold Kb.select
  split
  · exact (setup_rest (cfg.setup i) _).held
  · rfl

theorem function_held (cfg : Config) (k : Kb) (n : Nat) : (k.function cfg n).held = k.held := by
  unfold Kb.function
  split <;> rfl

theorem press_held (cfg : Config) (k : Kb) (code : Code) :
    (k.press cfg code).held = if code = 0xA1 then true else k.held := by
  by_cases h : code = 0xA1
  · rw [if_pos h, h]; rfl
  · rw [if_neg h]
    have hn : code.toNat ≠ 0xA1 := fun e => h (UInt8.toNat_inj.mp e)
    unfold Kb.press
    split
    all_goals first
      | exact absurd ‹_› hn
      | exact select_held cfg k _
      | exact function_held cfg k _
      | rfl
      | skip
    split <;> rfl

theorem release_held (cfg : Config) (k : Kb) (code : Code) :
    (k.release cfg code).held = if code = 0xA1 then false else k.held := by
  by_cases h : code = 0xA1
  · rw [if_pos h, h]; rfl
  · rw [if_neg h]
    have hn : code.toNat ≠ 0xA1 := fun e => h (UInt8.toNat_inj.mp e)
    unfold Kb.release
    split
    all_goals first
      | exact absurd ‹_› hn
      | exact select_held cfg k _
      | rfl
      | skip
    split <;> rfl

theorem key_held (cfg : Config) (L : Layout) (k : Kb) (p : Bool) (r c : Nat) :
    (k.key cfg L p r c).held =
      if p ≠ (k.deb r c).on ∧ (k.deb r c).left ≤ 1 ∧ k.code cfg L r c = 0xA1 then p else k.held := by
  unfold Kb.key
  by_cases hne : p ≠ (k.deb r c).on
  · rw [if_pos hne]
    by_cases hl : (k.deb r c).left ≤ 1
    · rw [if_pos hl]
      cases p with
      | true =>
        rw [if_pos rfl, press_held]
        by_cases hx : k.code cfg L r c = 0xA1
        · rw [if_pos hx, if_pos ⟨hne, hl, hx⟩]
        · rw [if_neg hx, if_neg (fun h => hx h.2.2)]
      | false =>
        rw [if_neg (by decide), release_held]
        by_cases hx : k.code cfg L r c = 0xA1
        · rw [if_pos hx, if_pos ⟨hne, hl, hx⟩]
        · rw [if_neg hx, if_neg (fun h => hx h.2.2)]
    · rw [if_neg hl, if_neg (fun h => hl h.2.1)]
  · rw [if_neg hne, if_neg (c := p ≠ (k.deb r c).on ∧ _) (fun h => hne h.1)]
    split
    · split <;> rfl
    · rfl

theorem output_held (k : Kb) : k.output.held = k.held := by
  unfold Kb.output
  split
  · rfl
  · split <;> rfl

theorem decode_shift (x : Code) : decodeAction x = .shift ↔ x = 0xA1 := by
  have : ∀ n < 256, (decodeAction (UInt8.ofNat n) = .shift ↔ UInt8.ofNat n = 0xA1) := by
    decide +kernel
  have h := this x.toNat x.toNat_lt
  rwa [UInt8.ofNat_toNat] at h

/-- If of the SHIFT keys only `(r, c)` is ever closed, SHIFT is held exactly while that
key is accepted as pressed. -/
theorem after_held {cfg : Config} {L : Layout} (hcf : CfgFacts cfg L) {P : List (Nat × Nat)}
    (hP : placed cfg L .shift P = true) {r c : Nat} (hrc : (r, c) ∈ P)
    (inps : List Input) (hin : ∀ inp ∈ inps, Allowed L inp)
    (hone : ∀ inp ∈ inps, ∀ x ∈ P, x ≠ (r, c) → sample inp x.1 x.2 = false) :
    (Kb.after cfg L inps).held = ((Kb.after cfg L inps).deb r c).on := by
  have main : (fun k : Kb => k.held = (k.deb r c).on ∧
      ∀ x ∈ P, x ≠ (r, c) → (k.deb x.1 x.2).on = false) (Kb.after cfg L inps) := by
    refine after_induction hcf
      (Q := fun r' c' p => (r', c') ∈ P → (r', c') ≠ (r, c) → p = false)
      (P := fun k => k.held = (k.deb r c).on ∧
        ∀ x ∈ P, x ≠ (r, c) → (k.deb x.1 x.2).on = false) ?_ ?_ ?_ inps hin ?_
    · have h := setup_rest (cfg.setup 0) (Kb.emit blankKb [.archInit])
      refine ⟨?_, fun x _ _ => ?_⟩
      · show (Kb.start cfg).held = ((Kb.start cfg).deb r c).on
        rw [show (Kb.start cfg).held = _ from h.held, show (Kb.start cfg).deb = _ from h.deb]
        rfl
      · rw [show (Kb.start cfg).deb = _ from h.deb]
        rfl
    · intro k hk
      rw [output_held, output_deb]
      exact hk
    · intro k p r' c' hm _ hr' hc' hq hk
      have hpos := kb_placed hP hm hr' hc'
      rw [decode_shift] at hpos
      refine ⟨?_, ?_⟩
      · by_cases he : r = r' ∧ c = c'
        · obtain ⟨rfl, rfl⟩ := he
          have hcode := hpos.mpr hrc
          have hd : ((k.key cfg L p r c).deb r c) = (k.deb r c).step p := by
            rw [key_deb, if_pos (And.intro rfl rfl)]
          rw [hd, key_held, Deb.step]
          by_cases hp : p = (k.deb r c).on
          · rw [if_neg (fun h => h.1 hp), if_pos hp]; exact hk.1
          · rw [if_neg hp]
            by_cases hl : (k.deb r c).left ≤ 1
            · rw [if_pos hl, if_pos ⟨hp, hl, hcode⟩]
            · rw [if_neg hl, if_neg (fun h => hl h.2.1)]; exact hk.1
        · have hd : ((k.key cfg L p r' c').deb r c) = k.deb r c := by
            rw [key_deb, if_neg he]
          rw [hd, key_held, if_neg ?_]
          · exact hk.1
          · rintro ⟨h1, h2, h3⟩
            have hmem := hpos.mp h3
            have hxe : (r', c') ≠ (r, c) := fun h =>
              he ⟨(congrArg Prod.fst h).symm, (congrArg Prod.snd h).symm⟩
            have e1 := hq hmem hxe
            have e2 := hk.2 _ hmem hxe
            exact h1 (by rw [e1, e2])
      · intro x hx hne
        rw [key_deb]
        by_cases he : x.1 = r' ∧ x.2 = c'
        · have hxe : (r', c') = x := by rw [← he.1, ← he.2]
          rw [if_pos he]
          have e1 := hq (by rw [hxe]; exact hx) (by rw [hxe]; exact hne)
          have e2 := hk.2 x hx hne
          rw [← he.1, ← he.2, Deb.step, e1, if_pos e2.symm]
          exact e2
        · rw [if_neg he]; exact hk.2 x hx hne
    · intro inp hi r' c' _ _ hm hne
      exact hone inp hi _ hm hne
  exact main.1

end Asdf
