import Verif.Lemmas.CTrap
import Verif.Props.Channel

/-! # Property C88: the C source text itself

`Model/CSource.lean` is the text of the portable firmware (the C files of `firmware/asdf/src`
outside `Arch`, with the shipped keymaps), translated token by token by `tools/c2lean.py`.
`Model/CLang.lean` is the meaning of C on the AVR.  Here `main()` of that text is run. -/

namespace Asdf.Props

open Spec C

/-- **C88, refinement.** Whenever the model of the other properties has a run, the C text has the
same run: no undefined behaviour, and the same hardware effects in the same order. -/
theorem C88_same_effects (polls : List (Option Input)) {s : State}
    (h : powerUp shipped (readings polls) = .ok s) {w n : Nat} (hw : 300 ≤ w)
    (hp : polls.length < w) (hn : 17 ≤ n) : cEffects w n polls = some s.dev.trace := by
  obtain ⟨n, rfl⟩ : ∃ k, n = k + 17 := ⟨n - 17, by omega⟩
  obtain ⟨x, keys, _, e⟩ := c_main polls h hw hp n
  unfold cEffects
  rw [e]
  rfl

/-- **C88.** For every sequence of answers of the timer and of key readings that is safe (C72),
the C text has no undefined behaviour from reset on, and its hardware effects are exactly those
of the abstract keyboard. -/
theorem C88_safe (polls : List (Option Input)) (h : NeverTrips (readings polls)) {w n : Nat}
    (hw : 300 ≤ w) (hp : polls.length < w) (hn : 17 ≤ n) :
    cEffects w n polls = some (Kb.after fourMaps openLayout (readings polls)).trace := by
  obtain ⟨s, h1, _, h2, _⟩ := C72_safe _ h
  rw [C88_same_effects polls h1 hw hp hn, h2]

/-- **C88, the host.** What the host has received from the C text is what two queues of 16 and
128 places with one output per pass make of what was typed and printed (C77). -/
theorem C88_host (polls : List (Option Input)) (h : NeverTrips (readings polls)) {w n : Nat}
    (hw : 300 ≤ w) (hp : polls.length < w) (hn : 17 ≤ n) :
    ∃ t, cEffects w n polls = some t ∧ hostSees t =
      (channel (typed fourMaps openLayout (readings polls))
        (said fourMaps openLayout (readings polls))).host := by
  obtain ⟨s, h1, h2, _⟩ := C77_shipped _ h
  exact ⟨_, C88_same_effects polls h1 hw hp hn, h2⟩

/-- **C88, unsafe use.** Once the closing of DIP switch 2 is accepted while switch 1 is open, the
C text reads outside of an array within ten more scans. -/
theorem C88_unsafe (polls : List (Option Input)) (pre : List Input) (inp : Input) (post : List Input)
    (h : Trips pre inp) (hs : readings polls = pre ++ inp :: post) (hl : 10 ≤ post.length) {w n : Nat}
    (hw : 300 ≤ w) (hp : polls.length < w) (hn : 17 ≤ n) : cLeaves w n polls := by
  obtain ⟨n, rfl⟩ : ∃ k, n = k + 17 := ⟨n - 17, by omega⟩
  rcases first_trip (pre ++ inp :: post) with hn | ⟨pre', inp', post', e, h1, h2⟩
  · exact absurd h (hn pre inp post rfl)
  · obtain ⟨P1, P2, rfl, g1, g2⟩ := readings_split polls pre' inp' post' (hs.trans e)
    refine c_main_trips P1 inp' P2 (g1 ▸ h1) (g1 ▸ h2) ?_ hw hp n
    rw [g2]
    by_cases hlt : pre'.length ≤ pre.length
    · have := congrArg List.length e
      simp at this
      omega
    · exfalso
      have hp' : pre ++ [inp] <+: pre' := by
        have a1 : pre ++ [inp] <+: pre' ++ inp' :: post' := ⟨post, by rw [← e]; simp⟩
        exact List.prefix_of_prefix_length_le a1 (List.prefix_append _ _) (by simp; omega)
      obtain ⟨t, rfl⟩ := hp'
      exact h2 pre inp t (by simp) h

/-- **C88, exactly.** With a timer that keeps going, the C text can be run forever without
undefined behaviour exactly when the use is safe. -/
theorem C88_exact (f : Nat → Option Input) (hf : ∀ k, ∃ j, k ≤ j ∧ (f j).isSome) :
    (∀ k, ∃ t, cEffects (300 + k) 17 (firstPolls f k) = some t) ↔
      ∀ k, NeverTrips (readings (firstPolls f k)) := by
  have hlen : ∀ k, (firstPolls f k).length = k := fun k => by simp [firstPolls]
  constructor
  · intro h k
    rcases first_trip (readings (firstPolls f k)) with hn | ⟨pre, inp, post, e, h1, _⟩
    · exact hn
    · exfalso
      obtain ⟨j, l, g1, g2⟩ := firstPolls_more f hf k 10
      obtain ⟨t, ht⟩ := h j
      rw [e, List.append_assoc, List.cons_append] at g1
      have := C88_unsafe (firstPolls f j) pre inp (post ++ l) h1 g1 (by simp; omega)
        (w := 300 + j) (n := 17) (by omega) (by rw [hlen]; omega) (by omega)
      unfold cLeaves at this
      unfold cEffects at ht
      rw [this] at ht
      cases ht
  · intro h k
    exact ⟨_, C88_safe _ (h k) (by omega) (by rw [hlen]; omega) (by omega)⟩

/-- The key A is held for 11 ms; the firmware polls the timer twice in each. -/
def pollsA : List (Option Input) := (List.replicate 11 [none, some (closing 1 6)]).flatten

/-- Non-vacuity: the key A is typed, the C text sends 0x61 and nothing else. -/
example : NeverTrips (readings pollsA) ∧ pollsA.length < 300 ∧
    ∃ t, cEffects 300 17 pollsA = some t ∧ hostSees t = [(false, 0x61)] := by
  have h : NeverTrips (readings pollsA) := neverTrips_of (by decide +kernel)
  obtain ⟨t, h1, h2⟩ := C88_host pollsA h (w := 300) (n := 17) (by decide) (by decide) (by decide)
  exact ⟨h, by decide, t, h1, h2.trans (by decide +kernel)⟩

/-- Non-vacuity of the unsafe case: DIP switch 2 alone is closed for 20 ms. -/
example : cLeaves 300 17 (List.replicate 20 (some (closing 8 2))) :=
  C88_unsafe _ (List.replicate 9 (closing 8 2)) (closing 8 2) (List.replicate 10 (closing 8 2))
    (by decide +kernel) rfl (by decide) (by decide) (by decide) (by decide)

/-- A timer that keeps going and keys that are not operated. -/
example : (∀ k, ∃ j, k ≤ j ∧ ((fun _ => some (fun _ => 0) : Nat → Option Input) j).isSome) ∧
    ∀ k, NeverTrips (readings (firstPolls (fun _ => some (fun _ => 0)) k)) := by
  refine ⟨fun k => ⟨k, Nat.le_refl _, rfl⟩, fun k => ?_⟩
  have e : readings (firstPolls (fun _ => some (fun _ => 0)) k) = firstReadings (fun _ _ => 0) k := by
    simp [readings, firstPolls, firstReadings, List.filterMap_map]
  rw [e]
  refine firstReadings_never _ (fun n => ?_) k
  unfold Trips
  have := samples_constant (fun _ _ => 0) 2 false (fun _ => rfl) (n + 1)
  rw [firstReadings_succ] at this
  rw [this]
  simp

end Asdf.Props
