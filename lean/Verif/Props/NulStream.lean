import Verif.Props.Typing
import Verif.Props.Keymaps

/-! # Property C38, continued: what a keyboard with DIP switch 4 closed sends -/

namespace Asdf.Props

open Spec

/-- **C38, the stream.**  A keyboard that is switched on with DIP switch 4 closed, and on which no key is
touched, sends NUL in the eleventh pass, after 525 more, and then in every 66th pass for ever. -/
theorem C38_nul_stream (n : Nat) :
    ∃ s s' evs, boot shipped = .ok s ∧ run shipped s (List.replicate n (closing 8 4)) = .ok s' ∧
      s'.dev.trace = s.dev.trace ++ evs ∧
      sends evs = List.replicate ((if 10 < n then 1 else 0) + (if 535 < n then 1 + (n - 536) / 66 else 0)) 0 := by
  have hb : boot shipped = .ok (after []) := by decide +kernel
  have hx : codeOf (after []) shippedLayout.cols 8 4 = 0 := by decide +kernel
  obtain ⟨s', evs, e1, e2, e3⟩ := C48_number_of_codes shipped shippedLayout (by decide +kernel) (after [])
    (after_reachable (inps := []) (by decide +kernel) (fun _ h => by cases h)) (by decide +kernel) (by decide +kernel) 8 4 (by decide) (by decide)
    (by decide +kernel) 0 hx (by decide) (by decide +kernel) (by decide +kernel) (List.replicate n (closing 8 4))
    (fun i hi => by
      rw [(List.mem_replicate.mp hi).2]
      refine ⟨fun r c h1 h2 => (by decide +kernel : ∀ r, r < 9 → ∀ c, c < 8 → shippedLayout.blocked r c = true →
        sample (closing 8 4) r c = false) r h1 c h2, by decide +kernel, ?_⟩
      have h : ∀ r, r < 9 → ∀ c, c < 8 → ¬ (r = 8 ∧ c = 4) →
          sample (closing 8 4) r c = accepted (after []) r c ∧ accepted (after []) r c = false := by decide +kernel
      intro r c hr hc hn
      obtain ⟨h1, h2⟩ := h r hr c hc hn
      exact ⟨h1, fun h3 => by rw [h2] at h3; cases h3⟩)
    (by decide +kernel)
  refine ⟨_, s', evs, hb, e1, e2, ?_⟩
  rw [e3, List.length_replicate]

end Asdf.Props
