import Verif.Lemmas.Typed
import Verif.Props.Machine

/-! # Property C58: nothing typed is lost

`typed` and `said` (`Spec/Typed.lean`) list what the user typed and which texts
were printed, pass by pass, without any queue. -/

namespace Asdf.Props

open Spec

/-- **C58 (no invention).** In every run, the keystrokes sent to the host followed by
those still waiting are a subsequence of the codes typed: none is invented, doubled
or reordered.  The same holds for message characters. -/
theorem C58_subsequence (cfg : Config) (L : Layout) (hc : cfgOk cfg L = true)
    (inps : List Input) (hin : ∀ inp ∈ inps, Allowed L inp) :
    ∃ s, (boot cfg >>= fun s0 => run cfg s0 inps) = .ok s ∧
      (keySends s.dev.trace ++ sendable (keystrokes s)).Sublist
        (sendable (typed cfg L inps).flatten) ∧
      (msgSends s.dev.trace ++ messages s).Sublist (said cfg L inps).flatten := by
  obtain ⟨s, e1, e2, e3, e4, _⟩ := C55_whole_keyboard cfg L hc inps hin
  refine ⟨s, e1, ?_, ?_⟩
  · rw [e2, e3]; exact (after_sublist cfg L inps).1
  · rw [e2, e4]; exact (after_sublist cfg L inps).2

/-- **C58 (nothing lost while there is room).** If in every pass the codes waiting
together with those typed in the pass are at most 16, then the keystrokes sent
followed by those waiting are exactly the codes typed.  What is missing: without the
bound keystrokes are lost, see `C58_false`. -/
theorem C58_nothing_lost_partial (cfg : Config) (L : Layout) (hc : cfgOk cfg L = true)
    (inps : List Input) (hin : ∀ inp ∈ inps, Allowed L inp)
    (hroom : ∀ before inp rest, inps = before ++ inp :: rest →
      (Kb.after cfg L before).output.keys.length +
        ((Kb.after cfg L before).logPass cfg L Kb.typedBy inp).length ≤ 16) :
    ∃ s, (boot cfg >>= fun s0 => run cfg s0 inps) = .ok s ∧
      keySends s.dev.trace ++ sendable (keystrokes s) = sendable (typed cfg L inps).flatten := by
  obtain ⟨s, e1, e2, e3, e4, _⟩ := C55_whole_keyboard cfg L hc inps hin
  refine ⟨s, e1, ?_⟩
  rw [e2, e3]
  exact after_keys_exact cfg L inps hroom

/-- **C58 (messages).** If in every pass the message characters waiting together with
those printed in the pass are at most 128, every message reaches the host complete and
in order. -/
theorem C58_messages_complete_partial (cfg : Config) (L : Layout) (hc : cfgOk cfg L = true)
    (inps : List Input) (hin : ∀ inp ∈ inps, Allowed L inp)
    (hroom : ∀ before inp rest, inps = before ++ inp :: rest →
      (Kb.after cfg L before).output.msgs.length +
        ((Kb.after cfg L before).logPass cfg L Kb.saidBy inp).length ≤ 128) :
    ∃ s, (boot cfg >>= fun s0 => run cfg s0 inps) = .ok s ∧
      msgSends s.dev.trace ++ messages s = (said cfg L inps).flatten := by
  obtain ⟨s, e1, e2, e3, e4, _⟩ := C55_whole_keyboard cfg L hc inps hin
  refine ⟨s, e1, ?_⟩
  rw [e2, e4]
  exact after_msgs_exact cfg L inps hroom

/-- **C58 (ordinary typing).** If no function key is used and no two codes are typed
in the same millisecond, then every code typed reaches the host, in order, in the
pass after it was typed. -/
theorem C58_one_at_a_time_partial (cfg : Config) (L : Layout) (hc : cfgOk cfg L = true)
    (inps : List Input) (hin : ∀ inp ∈ inps, Allowed L inp)
    (h1 : ∀ t ∈ typed cfg L inps, t.length ≤ 1) (h2 : ∀ m ∈ said cfg L inps, m = []) :
    ∃ s, (boot cfg >>= fun s0 => run cfg s0 inps) = .ok s ∧
      keySends s.dev.trace ++ sendable (keystrokes s) = sendable (typed cfg L inps).flatten ∧
      (keystrokes s).length ≤ 1 := by
  have hpre : ∀ before rest, inps = before ++ rest →
      (Kb.after cfg L before).keys.length ≤ 1 := by
    intro a b e
    refine (after_one cfg L a (fun t ht => h1 t ?_) (fun t ht => h2 t ?_)).1
    · rw [e]; unfold typed; rw [log_append]; exact List.mem_append_left _ ht
    · rw [e]; unfold said; rw [log_append]; exact List.mem_append_left _ ht
  obtain ⟨s, e1, e2⟩ := C58_nothing_lost_partial cfg L hc inps hin (by
    intro a x b e
    have i1 := output_keys_le (Kb.after cfg L a)
    have i2 := hpre a (x :: b) e
    have i3 : ((Kb.after cfg L a).logPass cfg L Kb.typedBy x).length ≤ 1 := by
      apply h1
      rw [e]
      unfold typed
      rw [log_append]
      exact List.mem_append_right _ List.mem_cons_self
    omega)
  refine ⟨s, e1, e2, ?_⟩
  obtain ⟨s', e1', _, e3', _⟩ := C55_whole_keyboard cfg L hc inps hin
  rw [e1] at e1'
  cases e1'
  rw [e3']
  exact hpre inps [] (List.append_nil _).symm

/-- Typing one letter meets the hypotheses of all of these; the letter is typed. -/
example : cfgOk shipped shippedLayout = true ∧ (∀ inp ∈ typedA, Allowed shippedLayout inp) ∧
    (∀ t ∈ typed shipped shippedLayout typedA, t.length ≤ 1) ∧
    (∀ m ∈ said shipped shippedLayout typedA, m = []) ∧
    (typed shipped shippedLayout typedA).flatten = [0x61] := by
  refine ⟨shipped_ok, ?_, by decide +kernel, by decide +kernel, by decide +kernel⟩
  intro inp hi
  rw [(List.mem_replicate.mp hi).2]
  exact allowed_of_row8 rfl

/-- CTRL and the key that calls the identification of the classic keymap. -/
def callKeys : Input := fun i => if i = 0 then 0x40 else if i = 6 then 0x20 else 0

/-- Non-vacuity of `C58_messages_complete_partial`: the message is called and being sent. -/
example : (∀ inp ∈ List.replicate 14 callKeys, Allowed shippedLayout inp) ∧
    (∀ before inp rest, List.replicate 14 callKeys = before ++ inp :: rest →
      (Kb.after shipped shippedLayout before).output.msgs.length +
        ((Kb.after shipped shippedLayout before).logPass shipped shippedLayout Kb.saidBy inp).length ≤ 128) ∧
    (said shipped shippedLayout (List.replicate 14 callKeys)).flatten.length = 19 := by
  have key : ∀ k, k < 14 → (Kb.after shipped shippedLayout (List.replicate k callKeys)).output.msgs.length +
      ((Kb.after shipped shippedLayout (List.replicate k callKeys)).logPass shipped shippedLayout Kb.saidBy
        callKeys).length ≤ 128 := by decide +kernel
  refine ⟨fun inp hi => ?_, fun before inp rest e => ?_, by decide +kernel⟩
  · rw [(List.mem_replicate.mp hi).2]
    exact allowed_of_row8 rfl
  · have hl := congrArg List.length e
    simp only [List.length_replicate, List.length_append, List.length_cons] at hl
    have h1 : ∀ x ∈ before ++ inp :: rest, x = callKeys := fun x hx => (List.mem_replicate.mp (e ▸ hx)).2
    rw [List.eq_replicate_of_mem fun x hx => h1 x (List.mem_append_left _ hx), h1 inp (by simp)]
    exact key _ (by omega)

/-- Seventeen keys with codes: rows 1, 2 and 3 of the classic keymap. -/
def seventeenKeys : Input := fun i =>
  if i = 1 then 0xFF else if i = 2 then 0xFE else if i = 3 then 0x06 else 0

/-- **C58 is false without the bound.** Seventeen keys pressed in the same millisecond:
seventeen codes are typed, and only sixteen are sent or waiting. -/
theorem C58_false : ∃ inps : List Input, (∀ inp ∈ inps, Allowed shippedLayout inp) ∧
    runsOk inps = true ∧
    (sendable (typed shipped shippedLayout inps).flatten).length = 17 ∧
    (keySends (after inps).dev.trace ++ sendable (keystrokes (after inps))).length = 16 := by
  refine ⟨List.replicate 10 seventeenKeys, ?_, by decide +kernel, by decide +kernel,
    by decide +kernel⟩
  intro inp hi
  rw [(List.mem_replicate.mp hi).2]
  exact allowed_of_row8 rfl

end Asdf.Props
