import Verif.Lemmas.Machine
import Verif.Spec.Examples
import Verif.Props.Debounce

/-! # Property C55: the firmware is the keyboard of `Spec/Machine.lean` -/

namespace Asdf.Props

open Spec

/-- **C55.** From power-up, for every sequence of allowed readings of the matrix, the
firmware does not fail, and it is indistinguishable from the abstract keyboard: it has
done the same things to the hardware in the same order (output pins, delays, strobe
polarity, codes sent), holds the same waiting keystrokes and message characters, has
accepted the same keys, and gives every key the same code. -/
theorem C55_whole_keyboard (cfg : Config) (L : Layout) (hc : cfgOk cfg L = true)
    (inps : List Input) (hin : ∀ inp ∈ inps, Allowed L inp) :
    ∃ s, (boot cfg >>= fun s0 => run cfg s0 inps) = .ok s ∧
      s.dev.trace = (Kb.after cfg L inps).trace ∧
      keystrokes s = (Kb.after cfg L inps).keys ∧
      messages s = (Kb.after cfg L inps).msgs ∧
      s.curIdx = (Kb.after cfg L inps).map ∧
      ∀ r c, r < L.rows → c < L.cols →
        accepted s r c = ((Kb.after cfg L inps).deb r c).on ∧
        lookupKeycode s r c = .ok ((Kb.after cfg L inps).code cfg L r c) := by
  have hcf := cfgFacts hc
  obtain ⟨s0, e1, e2⟩ := Shows.start hcf
  obtain ⟨s, g1, g2⟩ := e2.run hcf inps hin
  obtain ⟨free, hw⟩ := g2.wf
  refine ⟨s, by rw [e1, ok_bind, g1], g2.trace, hw.keystrokes, hw.messages, g2.map, ?_⟩
  intro r c hr hcl
  refine ⟨?_, ?_⟩
  · have := g2.deb r c hr hcl
    show (debOf s r c).on = _
    rw [this]
    rfl
  · rw [(lookup_ok hcf hw.idx hw.maps hr hcl).1, g2.code r c]
    rfl

/-- **C55 (a reachable state).** The same, seen from a state reached. -/
theorem C55_reachable (cfg : Config) (L : Layout) (hc : cfgOk cfg L = true) (s : State)
    (h : Reachable cfg L s) :
    ∃ inps : List Input, s.dev.trace = (Kb.after cfg L inps).trace ∧
      keystrokes s = (Kb.after cfg L inps).keys ∧ messages s = (Kb.after cfg L inps).msgs := by
  obtain ⟨s0, inps, e1, ha, e2⟩ := h
  obtain ⟨s', g1, g2, g3, g4, _⟩ := C55_whole_keyboard cfg L hc inps ha
  rw [e1, ok_bind, e2] at g1
  cases g1
  exact ⟨inps, g2, g3, g4⟩

/-- The hypotheses hold for the shipped keyboard when the letter A is typed; the
abstract keyboard then has one keystroke waiting, and after one more pass it was sent. -/
example : cfgOk shipped shippedLayout = true ∧ (∀ inp ∈ typedA, Allowed shippedLayout inp) ∧
    (Kb.after shipped shippedLayout typedA).keys = [0x61] ∧
    (Kb.after shipped shippedLayout (typedA ++ [noKeys])).keys = [] ∧
    .send 0x61 ∈ (Kb.after shipped shippedLayout (typedA ++ [noKeys])).trace := by
  have h1 : ∀ inp ∈ typedA, Allowed shippedLayout inp := by
    intro inp hi
    rw [(List.mem_replicate.mp hi).2]
    exact allowed_of_row8 rfl
  have h2 : ∀ inp ∈ typedA ++ [noKeys], Allowed shippedLayout inp := by
    intro inp hi
    rcases List.mem_append.mp hi with hi | hi
    · exact h1 inp hi
    · rw [List.mem_singleton.mp hi]
      exact allowed_of_row8 rfl
  obtain ⟨s, e1, _, e3, _⟩ := C55_whole_keyboard shipped shippedLayout shipped_ok typedA h1
  obtain ⟨t, f1, f2, f3, _⟩ := C55_whole_keyboard shipped shippedLayout shipped_ok _ h2
  have hs : (boot shipped >>= fun s0 => run shipped s0 typedA) = .ok (after typedA) := by
    decide +kernel
  have ht : (boot shipped >>= fun s0 => run shipped s0 (typedA ++ [noKeys])) =
      .ok (after (typedA ++ [noKeys])) := by decide +kernel
  rw [hs] at e1
  rw [ht] at f1
  have e1 := Except.ok.inj e1
  have f1 := Except.ok.inj f1
  rw [← e3, ← f2, ← f3, ← e1, ← f1]
  exact ⟨shipped_ok, h1, by decide +kernel, by decide +kernel, by decide +kernel⟩

end Asdf.Props
