import Verif.Lemmas.Trap

/-! # Lemmas for C05: the pause before message characters -/

namespace Asdf

open Spec

/-- The pause is the one of the selected keymap. -/
def PauseOk (D : UInt8 → UInt16) (k : Kb) : Prop := k.pause = D k.map

theorem setup_pause (cmds : List SetupCmd) (k : Kb) :
    (cmds.foldl Kb.setup1 k).pause = delayOf k.pause cmds := by
  induction cmds generalizing k with
  | nil => rfl
  | cons c cmds ih =>
    unfold delayOf at ih ⊢
    rw [List.foldl_cons, List.foldl_cons, ih]
    cases c <;> rfl

theorem install_pause {cfg : Config} {D : UInt8 → UInt16} {i : UInt8}
    (h : ∀ d, delayOf d (cfg.setup i) = D i) (k : Kb) : PauseOk D (k.install cfg i) := by
  unfold PauseOk
  rw [install_map]
  exact (setup_pause _ _).trans (h _)

theorem select_pause {cfg : Config} {D : UInt8 → UInt16} {L : Layout}
    (h : ∀ i ∈ L.maps, ∀ d, delayOf d (cfg.setup i) = D i) {k : Kb} (hk : PauseOk D k) (i : UInt8)
    (hm : (k.select cfg i).map ∈ L.maps) : PauseOk D (k.select cfg i) := by
  unfold Kb.select at hm ⊢
  split at hm
  · next hc =>
    rw [if_pos hc]
    rw [install_map] at hm
    exact install_pause (h i hm) k
  · next hc => rw [if_neg hc]; exact hk

theorem function_pause {cfg : Config} {D : UInt8 → UInt16} {k : Kb} (hk : PauseOk D k) (n : Nat) :
    PauseOk D (k.function cfg n) := by
  unfold Kb.function
  split
  · exact hk
  · exact hk

theorem press_pause {cfg : Config} {D : UInt8 → UInt16} {L : Layout}
    (h : ∀ i ∈ L.maps, ∀ d, delayOf d (cfg.setup i) = D i) {k : Kb} (hk : PauseOk D k) (code : Code)
    (hm : (k.press cfg code).map ∈ L.maps) : PauseOk D (k.press cfg code) := by
  unfold Kb.press at hm ⊢
  split
  all_goals first
    | exact function_pause hk _
    | exact hk
    | skip
  case _ => exact select_pause h hk _ (by simpa only [*] using hm)
  case _ => exact select_pause h hk _ (by simpa only [*] using hm)
  case _ => exact select_pause h hk _ (by simpa only [*] using hm)
  case _ => exact select_pause h hk _ (by simpa only [*] using hm)
  split
  · exact hk
  · exact hk

theorem release_pause {cfg : Config} {D : UInt8 → UInt16} {L : Layout}
    (h : ∀ i ∈ L.maps, ∀ d, delayOf d (cfg.setup i) = D i) {k : Kb} (hk : PauseOk D k) (code : Code)
    (hm : (k.release cfg code).map ∈ L.maps) : PauseOk D (k.release cfg code) := by
  unfold Kb.release at hm ⊢
  split
  all_goals first
    | exact hk
    | skip
  case _ => exact select_pause h hk _ (by simpa only [*] using hm)
  case _ => exact select_pause h hk _ (by simpa only [*] using hm)
  case _ => exact select_pause h hk _ (by simpa only [*] using hm)
  case _ => exact select_pause h hk _ (by simpa only [*] using hm)
  split
  · exact hk
  · exact hk

theorem key_pause {cfg : Config} {D : UInt8 → UInt16} {L : Layout}
    (h : ∀ i ∈ L.maps, ∀ d, delayOf d (cfg.setup i) = D i) {k : Kb} (hk : PauseOk D k) {p : Bool}
    {r c : Nat} (hm : (k.key cfg L p r c).map ∈ L.maps) : PauseOk D (k.key cfg L p r c) := by
  unfold Kb.key at hm ⊢
  dsimp only at hm ⊢
  split
  · next h1 =>
    rw [if_pos h1] at hm
    split
    · next h2 =>
      rw [if_pos h2] at hm
      split
      · next h3 =>
        rw [if_pos h3] at hm
        exact press_pause h (by exact hk) _ hm
      · next h3 =>
        rw [if_neg h3] at hm
        exact release_pause h (by exact hk) _ hm
    · exact hk
  · split
    · split
      · exact hk
      · exact hk
    · exact hk

theorem output_pause {D : UInt8 → UInt16} {k : Kb} (hk : PauseOk D k) : PauseOk D k.output := by
  unfold Kb.output
  split
  · exact hk
  · split
    · exact hk
    · exact hk

theorem after_pause {cfg : Config} {L : Layout} (hcf : CfgFacts cfg L) {D : UInt8 → UInt16}
    (h : ∀ i ∈ L.maps, ∀ d, delayOf d (cfg.setup i) = D i) (inps : List Input)
    (hin : ∀ inp ∈ inps, Allowed L inp) : PauseOk D (Kb.after cfg L inps) :=
  after_induction hcf (Q := fun _ _ _ => True) (install_pause (h 0 hcf.zero) _)
    (fun _ hk => output_pause hk) (fun _ _ _ _ _ hm _ _ _ hk => key_pause h hk hm) inps hin
    (fun _ _ _ _ _ _ => trivial)

end Asdf
