import Verif.Lemmas.Dipped
import Verif.Props.Safety

/-! # Property C73: exactly what the strobe and autorepeat switches select

C50 and C54 are false of the firmware: it acts on the switches' movements only, not
on their positions.  Here is the exact rule, for the shipped firmware and every run
that is safe in the sense of C72. -/

namespace Asdf.Props

open Spec

/-- The firmware after a safe run, against the abstract keyboard. -/
theorem safe_shows (inps : List Input) (h : NeverTrips inps) :
    ∃ s, powerUp shipped inps = .ok s ∧
      Shows fourMaps openLayout s (Kb.after fourMaps openLayout inps) := by
  obtain ⟨s, h1, h2, _⟩ := four_run inps
  exact ⟨s, (powerUp_same inps h).trans h1, h2⟩

open Classical in
/-- **C73, strobe polarity.** After every safe run the strobe rests high (negative
polarity) exactly if switch 6 was seen to open, is open since, and the keymap
switches 0 and 1 have not moved since; otherwise it rests low. -/
theorem C73_strobe (inps : List Input) (h : NeverTrips inps) :
    ∃ s, powerUp shipped inps = .ok s ∧
      (Negative inps → idleLevel s.dev.trace = some true) ∧
      (¬ Negative inps → idleLevel s.dev.trace = some false) := by
  obtain ⟨s, h1, h2⟩ := safe_shows inps h
  have hi := idle_after inps
  rw [← h2.trace] at hi
  refine ⟨s, h1, fun hn => ?_, fun hn => ?_⟩
  · rw [hi, decide_eq_true hn]
  · rw [hi, decide_eq_false hn]

/-- **C73, autorepeat.** After every safe run autorepeat is disabled exactly if
switch 7 is open and was closed at some time since power-up. -/
theorem C73_autorepeat (inps : List Input) (h : NeverTrips inps) :
    ∃ s, powerUp shipped inps = .ok s ∧
      (dip inps 7 = false ∧ WasClosed inps 7 → s.rep.base = REPEAT_OFF) ∧
      (dip inps 7 = true ∨ ¬ WasClosed inps 7 → s.rep.base = REPEAT_AUTO) := by
  obtain ⟨s, h1, h2⟩ := safe_shows inps h
  have hi := rest_after inps
  rw [← h2.rpt.rest] at hi
  refine ⟨s, h1, fun hn => ?_, fun hn => ?_⟩
  · rw [if_pos hn] at hi
    exact UInt16.toNat_inj.mp hi
  · rw [if_neg] at hi
    · exact UInt16.toNat_inj.mp hi
    · rintro ⟨a, b⟩
      rcases hn with hn | hn
      · rw [a] at hn; cases hn
      · exact hn b

/-- **C73, switches that are never moved.** Whatever switches 6 and 7 are set to,
if they are not moved while the keyboard is on, the strobe is positive and
autorepeat is enabled: the positions have no effect. -/
theorem C73_unmoved (inps : List Input) (h : NeverTrips inps) (x y : Bool)
    (h6 : ∀ inp ∈ inps, sample inp 8 6 = x) (h7 : ∀ inp ∈ inps, sample inp 8 7 = y) :
    ∃ s, powerUp shipped inps = .ok s ∧ idleLevel s.dev.trace = some false ∧
      s.rep.base = REPEAT_AUTO := by
  obtain ⟨s, h1, _, h3⟩ := C73_strobe inps h
  obtain ⟨s', g1, _, g3⟩ := C73_autorepeat inps h
  obtain rfl : s = s' := Except.ok.inj (h1.symm.trans g1)
  refine ⟨s, h1, h3 ?_, g3 ?_⟩
  · rintro ⟨pre, inp, post, e, a, b, _⟩
    rw [dip_stays x h6 pre inp post e a] at b
    cases b
  · by_cases hw : WasClosed inps 7
    · left
      obtain ⟨pre, ⟨post, e⟩, hp⟩ := hw
      rw [← e] at h7 ⊢
      exact dip_kept y h7 hp
    · exact Or.inr hw

/-- Non-vacuity: a run in which switch 6 closes and opens again is safe and negative;
switch 7 the same; a run with both switches closed throughout. -/
example : NeverTrips (List.replicate 10 (closing 8 6) ++ List.replicate 10 noKeys) ∧
    Negative (List.replicate 10 (closing 8 6) ++ List.replicate 10 noKeys) := by
  refine ⟨neverTrips_of (by decide +kernel), ?_⟩
  refine ⟨List.replicate 10 (closing 8 6) ++ List.replicate 9 noKeys, noKeys, [], by
    rw [List.append_assoc]; rfl, by decide +kernel, by decide +kernel, ?_⟩
  intro q hq
  rw [List.prefix_nil.mp hq]
  decide +kernel

example : NeverTrips (List.replicate 10 (closing 8 7) ++ List.replicate 10 noKeys) ∧
    dip (List.replicate 10 (closing 8 7) ++ List.replicate 10 noKeys) 7 = false ∧
    WasClosed (List.replicate 10 (closing 8 7) ++ List.replicate 10 noKeys) 7 :=
  ⟨neverTrips_of (by decide +kernel), by decide +kernel,
    ⟨List.replicate 10 (closing 8 7), List.prefix_append _ _, by decide +kernel⟩⟩

example : NeverTrips (List.replicate 20 (fun r => if r = 8 then 0xC0 else 0)) ∧
    (∀ inp ∈ List.replicate 20 (fun r => if r = 8 then 0xC0 else 0 : Input),
      sample inp 8 6 = true ∧ sample inp 8 7 = true) := by
  refine ⟨neverTrips_of (by decide +kernel), ?_⟩
  intro inp hi
  rw [(List.mem_replicate.mp hi).2]
  decide

end Asdf.Props
