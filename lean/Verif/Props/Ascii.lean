import Verif.Props.Strokes
import Verif.Props.Chars

/-! # Property C92: which ASCII characters can be typed -/

namespace Asdf.Props

open Spec

theorem classicLayout_ok : cfgOk shipped classicLayout = true := by decide +kernel

/-- No entry of the classic keymaps is one of the four characters. -/
theorem classic_missing : ∀ i ∈ classicLayout.maps, ∀ r < classicLayout.rows, ∀ c < classicLayout.cols,
    ∀ shift caps ctrl : Bool, (codeUnder shipped i classicLayout.cols r c shift caps ctrl).toNat < 0xA0 →
      onKeys (codeUnder shipped i classicLayout.cols r c shift caps ctrl) = true := by decide +kernel

/-- No entry of keymaps 0 to 3 is the control character 0x1E or 0x1F. -/
theorem four_missing : ∀ i ∈ shippedLayout.maps, ∀ r < shippedLayout.rows, ∀ c < shippedLayout.cols,
    ∀ shift caps ctrl : Bool, codeUnder shipped i shippedLayout.cols r c shift caps ctrl ≠ 0x1E ∧
      codeUnder shipped i shippedLayout.cols r c shift caps ctrl ≠ 0x1F := by decide +kernel

/-- **C92 (classic keymaps).**  Whatever keys are pressed, with keymaps 0 and 1 no keystroke ever gives
`^`, `_`, 0x1E, 0x1F or a code above 0x7F. -/
theorem C92_never (inps : List Input) (hin : ∀ inp ∈ inps, Allowed classicLayout inp) :
    ∃ s, powerUp shipped inps = .ok s ∧ ∀ x, (false, x) ∈ heard s.dev.trace → onKeys x = true := by
  obtain ⟨s, e1, h1, _⟩ := C66_only_keymap_characters shipped classicLayout classicLayout_ok inps hin
  refine ⟨s, e1, fun x hx => ?_⟩
  obtain ⟨hlt, i, hi, r, c, sh, ca, ct, hr, hcl, e⟩ := h1 x hx
  have := classic_missing i hi r hr c hcl sh ca ct
  rw [e] at this
  exact this hlt

/-- **C92 (keymaps 0 to 3).**  Whatever keys are pressed, no keystroke ever gives 0x1E or 0x1F. -/
theorem C92_never_four (inps : List Input) (hin : ∀ inp ∈ inps, Allowed shippedLayout inp) :
    ∃ s, powerUp shipped inps = .ok s ∧ ∀ x, (false, x) ∈ heard s.dev.trace → x ≠ 0x1E ∧ x ≠ 0x1F := by
  obtain ⟨s, e1, h1, _⟩ := C66_only_keymap_characters shipped shippedLayout shipped_ok inps hin
  refine ⟨s, e1, fun x hx => ?_⟩
  obtain ⟨_, i, hi, r, c, sh, ca, ct, hr, hcl, e⟩ := h1 x hx
  rw [← e]
  exact four_missing i hi r hr c hcl sh ca ct

theorem heard_hostSees (t : List Event) : heard t = hostSees t := by
  induction t using heard.induct with
  | case1 => rfl
  | case2 d c es ih => rw [heard, hostSees, ih]
  | case3 c es ih => rw [heard, hostSees, ih]
  | case4 e es h1 h2 ih => rw [heard, hostSees, ih] <;> assumption

/-- **C92 (exactly).**  On the classic keyboard a character can be received as a keystroke, with the DIP
switches 2, 3 and 4 open, if and only if it is an ASCII character other than `^`, `_`, 0x1E and 0x1F. -/
theorem C92_exactly (x : Code) : onKeys x = true ↔ ∃ inps s, (∀ inp ∈ inps, Allowed classicLayout inp) ∧
    powerUp shipped inps = .ok s ∧ (false, x) ∈ heard s.dev.trace := by
  constructor
  · intro hx
    obtain ⟨ss, h1, h2, _⟩ := C91_any_text [x] (fun y hy => by
      rw [List.mem_singleton.mp hy]; exact hx)
    obtain ⟨s, e1, _, e3, _⟩ := C91_strokes 0 ss h1
    refine ⟨_, s, fun inp hi r c hr hc hb => ?_, e1, ?_⟩
    · have hrc : r = 8 := by
        simp only [classicLayout, Bool.and_eq_true, beq_iff_eq] at hb
        exact hb.1
      rw [hrc]
      exact strokes_dips h1 inp hi c hc
    · have hh : heard s.dev.trace = hostSees s.dev.trace := heard_hostSees _
      have hm : x ∈ ss.map Prod.snd := by rw [h2]; exact List.mem_singleton.mpr rfl
      obtain ⟨z, hz, rfl⟩ := List.mem_map.mp hm
      rw [hh, e3]
      exact List.mem_map.mpr ⟨z, hz, rfl⟩
  · rintro ⟨inps, s, h1, h2, h3⟩
    obtain ⟨s', e1, e2⟩ := C92_never inps h1
    rw [h2] at e1
    cases e1
    exact e2 x h3

end Asdf.Props
