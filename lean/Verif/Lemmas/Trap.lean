import Verif.Lemmas.Kb
import Verif.Lemmas.Dip
import Verif.Spec.Trap

/-! # What the shipped firmware does with DIP switch 2 -/

namespace Asdf

open Spec

theorem fourMaps_ok : cfgOk fourMaps openLayout = true := by decide +kernel

theorem fourMaps_facts : CfgFacts fourMaps openLayout := cfgFacts fourMaps_ok

theorem openLayout_allowed (inp : Input) : Allowed openLayout inp := by
  intro r c _ _ hb
  cases hb

/-! ## Without keymaps 4 and 5 the keymap follows switches 0 and 1 -/

/-- The keymap number that DIP switches 0 and 1 spell. -/
def twoBits (x y : Bool) : UInt8 := UInt8.ofNat (x.toNat + 2 * y.toNat)

/-- The selected keymap is the one on switches 0 and 1. -/
def Follows (k : Kb) : Prop := k.map = twoBits (k.deb 8 0).on (k.deb 8 1).on

theorem four_placed : placed fourMaps openLayout (.mapsel 1) [(8, 0)] = true ∧
    placed fourMaps openLayout (.mapsel 2) [(8, 1)] = true ∧
    placed fourMaps openLayout (.mapsel 4) [(8, 2)] = true ∧
    placed fourMaps openLayout (.mapsel 8) [(8, 3)] = true := by decide +kernel

theorem twoBits_mem (x y : Bool) : twoBits x y ∈ openLayout.maps := by
  cases x <;> cases y <;> decide

/-- What a press does to the keymap number. -/
def mapPress (cfg : Config) (i : UInt8) : Action → UInt8
  | .mapsel b => if cfg.valid (i ||| b) then i ||| b else i
  | _ => i

/-- What a release does to the keymap number. -/
def mapRelease (cfg : Config) (i : UInt8) : Action → UInt8
  | .mapsel b => if cfg.valid (i &&& ~~~b) then i &&& ~~~b else i
  | _ => i

theorem select_map (cfg : Config) (k : Kb) (i : UInt8) :
    (k.select cfg i).map = if cfg.valid i then i else k.map := by
  unfold Kb.select
  by_cases hv : cfg.valid i = true
  · rw [if_pos hv]
    by_cases he : i ≠ k.map
    · rw [if_pos ⟨he, hv⟩]; exact install_map cfg k i
    · rw [if_neg (fun h => he h.1)]
      exact (Classical.not_not.mp he).symm
  · rw [if_neg hv, if_neg (fun h => hv h.2)]

theorem function_map (cfg : Config) (k : Kb) (n : Nat) : (k.function cfg n).map = k.map := by
  unfold Kb.function
  split <;> rfl

theorem press_map (cfg : Config) (k : Kb) (code : Code) :
    (k.press cfg code).map = mapPress cfg k.map (decodeAction code) := by
  by_cases hc : code.toNat ≤ 0xA0
  · rw [press_code cfg k code hc]
    rcases decode_le hc with e | e <;> rw [e] <;> rfl
  · rw [press_act cfg k code (by omega)]
    unfold Kb.pressAct mapPress
    cases decodeAction code <;> first | rfl | exact select_map cfg k _ | exact function_map cfg k _ | skip
    dsimp only
    split
    · exact function_map cfg k _
    · rfl

theorem release_map (cfg : Config) (k : Kb) (code : Code) :
    (k.release cfg code).map = mapRelease cfg k.map (decodeAction code) := by
  by_cases hc : code.toNat ≤ 0xA0
  · rw [release_code cfg k code hc]
    rcases decode_le hc with e | e <;> rw [e] <;> rfl
  · rw [release_act cfg k code (by omega)]
    unfold Kb.releaseAct mapRelease
    cases decodeAction code <;> first | rfl | exact select_map cfg k _

theorem Follows.key {k : Kb} (h : Follows k) {r c : Nat} (hr : r < 9) (hc : c < 8) (p : Bool) :
    Follows (k.key fourMaps openLayout p r c) := by
  have hm : k.map ∈ openLayout.maps := by rw [h]; exact twoBits_mem _ _
  obtain ⟨P1, P2, P4, P8⟩ := four_placed
  have i1 := kb_placed P1 hm (r := r) (c := c) hr hc
  have i2 := kb_placed P2 hm (r := r) (c := c) hr hc
  have i4 := kb_placed P4 hm (r := r) (c := c) hr hc
  have i8 := kb_placed P8 hm (r := r) (c := c) hr hc
  unfold Follows
  rw [key_deb, key_deb]
  have hother : (k.key fourMaps openLayout p r c).map = k.map → ¬ (r = 8 ∧ c = 0) →
      ¬ (r = 8 ∧ c = 1) → (k.key fourMaps openLayout p r c).map =
      twoBits (if 8 = r ∧ 0 = c then (k.deb r c).step p else k.deb 8 0).on
        (if 8 = r ∧ 1 = c then (k.deb r c).step p else k.deb 8 1).on := by
    intro e h0 h1
    rw [e, if_neg (fun hh => h0 ⟨hh.1.symm, hh.2.symm⟩), if_neg (fun hh => h1 ⟨hh.1.symm, hh.2.symm⟩)]
    exact h
  have hsame : (k.key fourMaps openLayout p r c).map = k.map → ((k.deb r c).step p).on = (k.deb r c).on →
      (k.key fourMaps openLayout p r c).map =
      twoBits (if 8 = r ∧ 0 = c then (k.deb r c).step p else k.deb 8 0).on
        (if 8 = r ∧ 1 = c then (k.deb r c).step p else k.deb 8 1).on := by
    intro e h0
    rw [e, h]
    congr 1
    · split
      · rename_i hh; rw [h0, hh.1, hh.2]
      · rfl
    · split
      · rename_i hh; rw [h0, hh.1, hh.2]
      · rfl
  by_cases hne : p ≠ (k.deb r c).on
  · by_cases hl : (k.deb r c).left ≤ 1
    · have hst : ((k.deb r c).step p).on = p := by
        unfold Deb.step; rw [if_neg hne, if_pos hl]
      have hmap : (k.key fourMaps openLayout p r c).map =
          if p then mapPress fourMaps k.map (decodeAction (k.code fourMaps openLayout r c))
          else mapRelease fourMaps k.map (decodeAction (k.code fourMaps openLayout r c)) := by
        unfold Kb.key
        rw [if_pos hne, if_pos hl]
        cases p with
        | true => exact press_map _ _ _
        | false => exact release_map _ _ _
      cases hd : decodeAction (k.code fourMaps openLayout r c) with
      | mapsel b =>
        rw [hd] at hmap i1 i2 i4 i8
        rcases decode_mapsel hd with rfl | rfl | rfl | rfl
        · obtain ⟨rfl, rfl⟩ : r = 8 ∧ c = 0 := by simpa using i1
          have a1 : (8 : Nat) = 8 ∧ (0 : Nat) = 0 := ⟨rfl, rfl⟩
          have a2 : ¬ ((8 : Nat) = 8 ∧ (1 : Nat) = 0) := by decide
          rw [hmap, h, if_pos a1, if_neg a2, hst]
          have : ∀ p x y : Bool, p ≠ x → (if p = true then
              mapPress fourMaps (twoBits x y) (.mapsel 1)
              else mapRelease fourMaps (twoBits x y) (.mapsel 1)) = twoBits p y := by decide
          exact this _ _ _ hne
        · obtain ⟨rfl, rfl⟩ : r = 8 ∧ c = 1 := by simpa using i2
          have a1 : (8 : Nat) = 8 ∧ (1 : Nat) = 1 := ⟨rfl, rfl⟩
          have a2 : ¬ ((8 : Nat) = 8 ∧ (0 : Nat) = 1) := by decide
          rw [hmap, h, if_pos a1, if_neg a2, hst]
          have : ∀ p x y : Bool, p ≠ y → (if p = true then
              mapPress fourMaps (twoBits x y) (.mapsel 2)
              else mapRelease fourMaps (twoBits x y) (.mapsel 2)) = twoBits x p := by decide
          exact this _ _ _ hne
        · obtain ⟨rfl, rfl⟩ : r = 8 ∧ c = 2 := by simpa using i4
          refine hother ?_ (by decide) (by decide)
          rw [hmap, h]
          have : ∀ p x y : Bool, (if p = true then
              mapPress fourMaps (twoBits x y) (.mapsel 4)
              else mapRelease fourMaps (twoBits x y) (.mapsel 4)) = twoBits x y := by decide
          exact this _ _ _
        · obtain ⟨rfl, rfl⟩ : r = 8 ∧ c = 3 := by simpa using i8
          refine hother ?_ (by decide) (by decide)
          rw [hmap, h]
          have : ∀ p x y : Bool, (if p = true then
              mapPress fourMaps (twoBits x y) (.mapsel 8)
              else mapRelease fourMaps (twoBits x y) (.mapsel 8)) = twoBits x y := by decide
          exact this _ _ _
      | _ =>
        rw [hd] at hmap i1 i2
        refine hother (by rw [hmap]; cases p <;> rfl) ?_ ?_
        · rintro ⟨rfl, rfl⟩
          have := i1.mpr (by simp)
          cases this
        · rintro ⟨rfl, rfl⟩
          have := i2.mpr (by simp)
          cases this
    · refine hsame ?_ ?_
      · unfold Kb.key; rw [if_pos hne, if_neg hl]
      · unfold Deb.step; rw [if_neg hne, if_neg hl]
  · have hst : (k.deb r c).step p = k.deb r c := by
      unfold Deb.step; rw [if_pos (Classical.not_not.mp hne)]
    refine hsame ?_ (by rw [hst])
    unfold Kb.key
    rw [if_neg hne]
    split
    · split <;> rfl
    · rfl

theorem output_map (k : Kb) : k.output.map = k.map := by
  unfold Kb.output
  split
  · rfl
  · split <;> rfl

theorem Follows.output {k : Kb} (h : Follows k) : Follows k.output := by
  unfold Follows
  rw [output_map, output_deb]
  exact h

theorem Follows.start : Follows (Kb.start fourMaps) := by
  unfold Follows Kb.start
  rw [install_map, install_deb]
  rfl

end Asdf
