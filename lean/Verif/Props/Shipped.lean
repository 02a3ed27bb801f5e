import Verif.Lemmas.Pause
import Verif.Props.Safety
import Verif.Props.Output
import Verif.Props.Typing

/-! # Properties C05, C08 and C18 for the firmware as shipped

The theorems here have no hypothesis about the keymap list: they speak of the six shipped
keymaps, in every run that does not leave keymaps 0 to 3 (`NeverTrips`, see C72). -/

namespace Asdf.Props

open Spec

/-- **C05 (the configured delay).** If every keymap sets the print delay, then after every run
the delay that `C05_next_code` speaks of is the one of the selected keymap. -/
theorem C05_pause (cfg : Config) (L : Layout) (hc : cfgOk cfg L = true) (D : UInt8 → UInt16)
    (hD : ∀ i ∈ L.maps, ∀ d, delayOf d (cfg.setup i) = D i)
    (inps : List Input) (hin : ∀ inp ∈ inps, Allowed L inp) :
    ∃ s, powerUp cfg inps = .ok s ∧ s.printDelay = D s.curIdx := by
  have hcf := cfgFacts hc
  obtain ⟨s0, e1, e2⟩ := Shows.start hcf
  obtain ⟨s, g1, g2⟩ := e2.run hcf inps hin
  refine ⟨s, by unfold powerUp; rw [e1, ok_bind]; exact g1, ?_⟩
  rw [g2.pause, g2.map]
  exact after_pause hcf hD inps hin

/-- **C05** for the shipped keymaps: 40 ms before every message character. -/
theorem C05_shipped (inps : List Input) (h : NeverTrips inps) :
    ∃ s, powerUp shipped inps = .ok s ∧ s.printDelay = 40 := by
  obtain ⟨s, h1, h2⟩ := C05_pause fourMaps openLayout fourMaps_ok (fun _ => 40) (by
    intro i hi d
    have hi : i = 0 ∨ i = 1 ∨ i = 2 ∨ i = 3 := by simpa [openLayout] using hi
    rcases hi with rfl | rfl | rfl | rfl <;> rfl) inps (fun inp _ => openLayout_allowed inp)
  exact ⟨s, (powerUp_same inps h).trans h1, h2⟩

theorem neverTrips_left {a b : List Input} (h : NeverTrips (a ++ b)) : NeverTrips a := by
  intro pre inp post e
  exact h pre inp (post ++ b) (by rw [e]; simp)

/-- **C08** for the shipped keymaps. -/
theorem C08_shipped (inps : List Input) (inp : Input) (h : NeverTrips (inps ++ [inp])) :
    ∃ s s' evs, powerUp shipped inps = .ok s ∧ tick shipped s inp = .ok s' ∧
      s'.dev.trace = s.dev.trace ++ evs ∧
      sends evs = (match messages s with
        | m :: _ => [m]
        | [] => ((keystrokes s).take 1).filter fun c => decide (c.toNat < 0xA0)) := by
  have h1 := powerUp_same inps (neverTrips_left h)
  have h2 := powerUp_same (inps ++ [inp]) h
  obtain ⟨s, e1, _⟩ := C72_four_keymaps inps
  have hr : Reachable fourMaps openLayout s := by
    unfold powerUp at e1
    obtain ⟨s0, e2, e3⟩ := bind_eq_ok.mp e1
    exact ⟨s0, inps, e2, fun i _ => openLayout_allowed i, e3⟩
  obtain ⟨s', evs, e4, e5, e6⟩ := C08_front_is_sent fourMaps openLayout fourMaps_ok s hr inp (openLayout_allowed inp)
  refine ⟨s, s', evs, h1.trans e1, ?_, e5, e6⟩
  have one : ∀ cfg, powerUp cfg inps = .ok s → powerUp cfg (inps ++ [inp]) = tick cfg s inp := by
    intro cfg e
    unfold powerUp at e ⊢
    obtain ⟨s0, a, b⟩ := bind_eq_ok.mp e
    rw [a, ok_bind, run_append, b, ok_bind]
    unfold run
    rw [List.foldlM_cons]
    cases tick cfg s inp <;> rfl
  rw [← one shipped (h1.trans e1), h2, one fourMaps e1, e4]

/-- **C18 (partial)**, along runs.  Missing: keymaps 4 and 5 (`C18_false`).  Proved: in every run
of the shipped firmware that does not select them, the code used for a key is the entry in its
row and column of the table of the modifier state, in the keymap set on DIP switches 0 and 1. -/
theorem C18_shipped_partial (inps : List Input) (h : NeverTrips inps) :
    ∃ s, powerUp shipped inps = .ok s ∧ ∀ r c, r < 9 → c < 8 →
      ∃ t, (shippedTables ((dip inps 0).toNat + 2 * (dip inps 1).toNat))[tableFor (s.mods.shift != 0)
          (s.mods.caps != 0) (s.mods.ctrl != 0)]? = some t ∧
        lookupKeycode s r c = .ok (entryAt t 8 r c) := by
  obtain ⟨s, h1, h2, _, _, _, h6⟩ := C72_safe inps h
  refine ⟨s, h1, fun r c hr hc => ?_⟩
  obtain ⟨s', g1, g2, _⟩ := four_run inps
  have : s' = s := Except.ok.inj (g1.symm.trans h2)
  subst this
  obtain ⟨_, hw⟩ := g2.wf
  have hlt : (dip inps 0).toNat + 2 * (dip inps 1).toNat < 4 := by
    cases dip inps 0 <;> cases dip inps 1 <;> decide
  exact C18_lookup_partial s' _ hlt (by rw [← h6, UInt8.ofNat_toNat]) hw.maps r c hr hc

/-- There are such runs: a letter typed with DIP switches 0 and 1 closed. -/
example : dip (List.replicate 10 (fun r => if r = 8 then 3 else if r = 1 then 0x40 else 0 : Input)) 0 = true ∧
    (match powerUp shipped (List.replicate 10 (fun r => if r = 8 then 3 else if r = 1 then 0x40 else 0 : Input)) with
      | .ok s => s.curIdx.toNat == 3 && s.printDelay == 40 && (keystrokes s).length == 1
      | .error _ => false) = true := by decide +kernel

end Asdf.Props
