import Verif.Lemmas.Ticks
import Verif.Props.Interrupts

/-! # Property C79: exactly which ticks are lost

C45 is false in its third part.  Here is the exact account of the ticks: `lostTicks`
(`Spec/Ticks.lean`) counts the three ways of losing one. -/

namespace Asdf.Props

open Spec Machine

/-- **C79.** On every board, for every keymap list and under every interleaving: the
timer ticks are exactly the scans started, the ticks lost and those waiting, of which
there are at most two. -/
theorem C79_account (T : Whole.Target) (cfg : Config) (r0 : Avr.Regs) (flag : Bool)
    (l : List Machine.Step) (m : Machine) (h : Machine.life T cfg r0 flag l = .ok m) :
    m.hist.count .tick = m.hist.count .scan + lostTicks T cfg r0 flag l + waitingTicks m ∧
      waitingTicks m ≤ 2 := by
  unfold Machine.life at h
  obtain ⟨w, h1, h2⟩ := bind_eq_ok.mp h
  have hs := Ticks.exec_account l (m := ⟨flag, .poll, w, if flag then [.tick] else []⟩)
    (fun hp => by cases hp) h2
  have hl : lostTicks T cfg r0 flag l =
      lostFrom T cfg ⟨flag, .poll, w, if flag then [.tick] else []⟩ l := by
    unfold lostTicks; rw [h1]
  rw [hl]
  refine ⟨?_, ?_⟩
  · cases flag with
    | true =>
      have e : waitingTicks ⟨true, .poll, w, [.tick]⟩ = 1 := rfl
      simp only [if_true] at hs ⊢
      rw [e] at hs
      simp only [List.count_singleton] at hs
      simp at hs
      omega
    | false =>
      have e : waitingTicks ⟨false, .poll, w, []⟩ = 0 := rfl
      simp only [Bool.false_eq_true, if_false] at hs ⊢
      rw [e] at hs
      simp at hs
      omega
  · unfold waitingTicks
    split <;> split <;> omega

/-- **C79, one scan per tick.** No tick is lost exactly when the scans started and the
ticks waiting account for all of them. -/
theorem C79_none_lost (T : Whole.Target) (cfg : Config) (r0 : Avr.Regs) (flag : Bool)
    (l : List Machine.Step) (m : Machine) (h : Machine.life T cfg r0 flag l = .ok m) :
    lostTicks T cfg r0 flag l = 0 ↔
      m.hist.count .tick = m.hist.count .scan + waitingTicks m := by
  have := (C79_account T cfg r0 flag l m h).1
  omega

/-- Non-vacuity: a tick while another waits, a tick between the reading and the clearing
of the flag, and a round that answers a tick. -/
example : (match Machine.life Whole.target328 shipped Spec.allZero false
      ([.isr, .isr] ++ List.replicate 5 (.main contactsNone) ++
        [.main contactsNone, .isr, .main contactsNone, .main contactsNone] ++
        machineRound contactsNone) with
    | .ok m => (m.hist.count .tick, m.hist.count .scan, waitingTicks m)
    | .error _ => (0, 0, 0)) = (4, 2, 0) ∧
    lostTicks Whole.target328 shipped Spec.allZero false
      ([.isr, .isr] ++ List.replicate 5 (.main contactsNone) ++
        [.main contactsNone, .isr, .main contactsNone, .main contactsNone] ++
        machineRound contactsNone) = 2 := by decide +kernel

end Asdf.Props
