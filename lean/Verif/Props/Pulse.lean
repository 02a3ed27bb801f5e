import Verif.Lemmas.Pulse
import Verif.Props.Machine

/-! # Property C56: output keys -/

namespace Asdf.Props

open Spec

/-- **C56 (general).** If in every keymap output code `v` (1 to 6) is the only owner of
output `p` and pulses it from level `x`, then in every run the output is driven by
complete pulses from its resting level only, exactly one for each accepted press of a
key with that code. -/
theorem C56_one_pulse_per_press (cfg : Config) (L : Layout) (hc : cfgOk cfg L = true)
    (v p : Nat) (x : UInt8) (fn : VFun) (d : Event)
    (hv : 1 ≤ v ∧ v ≤ 6) (hx : x = 0 ∨ x = 1)
    (hfn : (fn = .pulseShort ∧ d = .delayShort) ∨ (fn = .pulseLong ∧ d = .delayLong))
    (hset : ∀ i ∈ L.maps, ∀ caps, pulseCheck (cfg.setup i) v p fn x caps = true)
    (inps : List Input) (hin : ∀ inp ∈ inps, Allowed L inp) :
    ∃ s, (boot cfg >>= fun s0 => run cfg s0 inps) = .ok s ∧
      pulses p (inv x) x d s.dev.trace = some (pressCount cfg L (UInt8.ofNat (0xB0 + v)) inps) := by
  obtain ⟨s, e1, e2, _⟩ := C55_whole_keyboard cfg L hc inps hin
  refine ⟨s, e1, ?_⟩
  rw [e2]
  refine pulse_run (cfgFacts hc) (pulseCfg_of_check hset) ?_ hx hv inps hin
  rcases hfn with ⟨rfl, rfl⟩ | ⟨rfl, rfl⟩ <;> rfl

/-- **C56 (keymaps 0 to 3).** Each accepted press of the key for output code 1 makes one
short low pulse on output 3 (open high), each press of the key for output code 2 one
long high pulse on output 1 (open low); these outputs are never driven otherwise. -/
theorem C56_shipped (inps : List Input) (hin : ∀ inp ∈ inps, Allowed shippedLayout inp) :
    ∃ s, (boot shipped >>= fun s0 => run shipped s0 inps) = .ok s ∧
      pulses PHYSICAL_OUT3_OPEN_HI 0 1 .delayShort s.dev.trace =
        some (pressCount shipped shippedLayout 0xB1 inps) ∧
      pulses PHYSICAL_OUT1_OPEN_LO 1 0 .delayLong s.dev.trace =
        some (pressCount shipped shippedLayout 0xB2 inps) := by
  obtain ⟨s, e1, e2⟩ := C56_one_pulse_per_press shipped shippedLayout shipped_ok VOUT1
    PHYSICAL_OUT3_OPEN_HI 1 .pulseShort .delayShort (by decide) (.inr rfl) (.inl ⟨rfl, rfl⟩)
    (by decide +kernel) inps hin
  obtain ⟨s', e1', e2'⟩ := C56_one_pulse_per_press shipped shippedLayout shipped_ok VOUT2
    PHYSICAL_OUT1_OPEN_LO 0 .pulseLong .delayLong (by decide) (.inl rfl) (.inr ⟨rfl, rfl⟩)
    (by decide +kernel) inps hin
  rw [e1] at e1'
  cases e1'
  exact ⟨s, e1, e2, e2'⟩

/-- CTRL, and then the key in row 2, column 0 (RESET): each accepted once. -/
def ctrlReset : List Input :=
  List.replicate 10 (closing 0 6) ++
    List.replicate 10 (fun i => if i = 0 then 0x40 else if i = 2 then 1 else 0)

/-- The hypotheses can be met, and then there is a pulse. -/
example : (∀ inp ∈ ctrlReset, Allowed shippedLayout inp) ∧
    pressCount shipped shippedLayout 0xB1 ctrlReset = 1 ∧
    pulses PHYSICAL_OUT3_OPEN_HI 0 1 .delayShort (after ctrlReset).dev.trace = some 1 := by
  refine ⟨?_, by decide +kernel, by decide +kernel⟩
  intro inp hi
  rcases List.mem_append.mp hi with hi | hi
  · rw [(List.mem_replicate.mp hi).2]; exact allowed_of_row8 rfl
  · rw [(List.mem_replicate.mp hi).2]; exact allowed_of_row8 rfl

end Asdf.Props
