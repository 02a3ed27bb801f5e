import Verif.Lemmas.Agree
import Verif.Props.Machine

/-! # Property C72: exactly when the shipped firmware leaves its tables

C17 is false of the shipped firmware because DIP switch 2 can select keymap 4 or
5, whose number is used as an index into a table of four entries.  Here the exact
condition is proved, and that without it the firmware is indistinguishable from
the one that has only keymaps 0 to 3. -/

namespace Asdf.Props

open Spec

/-- **C72, the repaired firmware.** With only keymaps 0 to 3 in the list, every
sequence of readings whatsoever is handled without undefined behaviour and as the
abstract keyboard prescribes. -/
theorem C72_four_keymaps (inps : List Input) :
    ∃ s, powerUp fourMaps inps = .ok s ∧
      s.dev.trace = (Kb.after fourMaps openLayout inps).trace ∧
      keystrokes s = (Kb.after fourMaps openLayout inps).keys ∧
      messages s = (Kb.after fourMaps openLayout inps).msgs := by
  obtain ⟨s, h1, h2, h3, h4, _⟩ := C55_whole_keyboard fourMaps openLayout fourMaps_ok inps
    (fun inp _ => openLayout_allowed inp)
  exact ⟨s, h1, h2, h3, h4⟩

/-- **C72, safe runs.** As long as the closing of DIP switch 2 is not accepted
while switch 1 is open, the shipped firmware has no undefined behaviour, is in
exactly the state of the repaired firmware and does what the abstract keyboard
prescribes.  The keymap in use is the number set on switches 0 and 1. -/
theorem C72_safe (inps : List Input) (h : NeverTrips inps) :
    ∃ s, powerUp shipped inps = .ok s ∧ powerUp fourMaps inps = .ok s ∧
      s.dev.trace = (Kb.after fourMaps openLayout inps).trace ∧
      keystrokes s = (Kb.after fourMaps openLayout inps).keys ∧
      messages s = (Kb.after fourMaps openLayout inps).msgs ∧
      s.curIdx.toNat = (dip inps 0).toNat + 2 * (dip inps 1).toNat := by
  obtain ⟨s, h1, h2, h3, h4, h5, _⟩ := C55_whole_keyboard fourMaps openLayout fourMaps_ok inps
    (fun inp _ => openLayout_allowed inp)
  refine ⟨s, (powerUp_same inps h).trans h1, h1, h2, h3, h4, ?_⟩
  obtain ⟨_, _, _, hf⟩ := four_run inps
  rw [h5, hf, kb_deb_after inps 8 0 (by decide) (by decide),
    kb_deb_after inps 8 1 (by decide) (by decide)]
  have : ∀ x y : Bool, (twoBits x y).toNat = x.toNat + 2 * y.toNat := by decide
  exact this _ _

/-- **C72, unsafe runs.** Once the closing of DIP switch 2 is accepted while switch
1 is open, the firmware reads outside of a table within ten more scans, whatever
the user does. -/
theorem C72_unsafe (pre : List Input) (inp : Input) (post : List Input) (h : Trips pre inp)
    (hp : 10 ≤ post.length) : powerUp shipped (pre ++ inp :: post) = .error .oob := by
  rcases first_trip (pre ++ inp :: post) with hn | ⟨pre', inp', post', e, h1, h2⟩
  · exact absurd h (hn pre inp post rfl)
  · rw [e]
    apply powerUp_trips pre' inp' post' h1 h2
    by_cases hlt : pre'.length ≤ pre.length
    · have := congrArg List.length e
      simp at this
      omega
    · exfalso
      have hp' : pre ++ [inp] <+: pre' := by
        have a1 : pre ++ [inp] <+: pre' ++ inp' :: post' := ⟨post, by rw [← e]; simp⟩
        exact List.prefix_of_prefix_length_le a1 (List.prefix_append _ _) (by simp; omega)
      obtain ⟨t, rfl⟩ := hp'
      exact h2 pre inp t (by simp) h

/-- **C72.** The keyboard can be used forever without undefined behaviour exactly
when at no time the closing of DIP switch 2 is accepted while switch 1 is open. -/
theorem C72_exact (f : Nat → Input) :
    (∀ n, ∃ s, powerUp shipped (firstReadings f n) = .ok s) ↔
      ∀ n, ¬ Trips (firstReadings f n) (f n) := by
  constructor
  · intro h n ht
    obtain ⟨l, h1, h2⟩ := firstReadings_add f (n + 1) 10
    obtain ⟨s, hs⟩ := h (n + 1 + 10)
    rw [h2, firstReadings_succ, List.append_assoc] at hs
    rw [show firstReadings f n ++ ([f n] ++ l) = firstReadings f n ++ f n :: l from rfl,
      C72_unsafe _ _ l ht (by omega)] at hs
    cases hs
  · intro h n
    obtain ⟨s, e, _⟩ := C72_safe _ (firstReadings_never f h n)
    exact ⟨s, e⟩

/-- **C72, DIP switches.** With the DIP switches left as they are, the keyboard can
be used forever exactly when switch 2 is open or switch 1 is closed: settings 4, 5,
12 and 13 are the unsafe ones, whatever is typed. -/
theorem C72_dip_settings (f : Nat → Input) (x y : Bool) (h1 : ∀ n, sample (f n) 8 1 = x)
    (h2 : ∀ n, sample (f n) 8 2 = y) :
    (∀ n, ∃ s, powerUp shipped (firstReadings f n) = .ok s) ↔ (y = false ∨ x = true) := by
  have d1 := samples_constant f 1 x h1
  have d2 := samples_constant f 2 y h2
  have ht : ∀ n, Trips (firstReadings f n) (f n) ↔ (n = 9 ∧ y = true ∧ x = false) := by
    intro n
    unfold Trips
    rw [← firstReadings_succ, d2 n, d2 (n + 1), d1 (n + 1)]
    by_cases hn : n = 9
    · subst hn
      cases x <;> cases y <;> simp
    · have : decide (10 ≤ n) = decide (10 ≤ n + 1) := by
        rw [decide_eq_decide]; omega
      rw [this]
      cases decide (10 ≤ n + 1) <;> cases y <;> simp [hn]
  rw [C72_exact]
  constructor
  · intro h
    have := h 9
    rw [ht] at this
    cases x <;> cases y <;> simp_all
  · intro h n
    rw [ht]
    rintro ⟨_, rfl, rfl⟩
    rcases h with h | h <;> cases h

/-- Setting 6 is safe: switches 1 and 2 are closed from power-up.  The condition
that makes a run unsafe is met with switch 2 alone. -/
example : (∀ n, sample ((fun _ => fun r => if r = 8 then 6 else 0 : Nat → Input) n) 8 1 = true) ∧
    (∀ n, sample ((fun _ => fun r => if r = 8 then 6 else 0 : Nat → Input) n) 8 2 = true) ∧
    Trips (List.replicate 9 (closing 8 2)) (closing 8 2) ∧
    ¬ Trips (List.replicate 9 (fun r => if r = 8 then 6 else 0)) (fun r => if r = 8 then 6 else 0) :=
  ⟨fun _ => (by decide : sample (fun r => if r = 8 then 6 else 0) 8 1 = true),
    fun _ => (by decide : sample (fun r => if r = 8 then 6 else 0) 8 2 = true), by decide +kernel, by decide +kernel⟩

/-- A safe run in which switch 2 does close: switch 1 closes first. -/
example : NeverTrips (List.replicate 12 (closing 8 1) ++
      List.replicate 20 (fun r => if r = 8 then 6 else 0)) ∧
    dip (List.replicate 12 (closing 8 1) ++
      List.replicate 20 (fun r => if r = 8 then 6 else 0)) 2 = true :=
  ⟨neverTrips_of (by decide +kernel), by decide +kernel⟩

end Asdf.Props
