import Verif.Lemmas.Chars
import Verif.Props.Machine
import Verif.Spec.Examples

/-! # Properties C66 and C67: the characters a host receives -/

namespace Asdf.Props

open Spec

/-- **C66 (from the keymaps).** In every run, every keystroke received or waiting is the
character of a key, under some modifiers, in one of the keymaps; every message character
received or waiting is one of the keymaps' messages.  Nothing else is ever sent. -/
theorem C66_only_keymap_characters (cfg : Config) (L : Layout) (hc : cfgOk cfg L = true)
    (inps : List Input) (hin : ∀ inp ∈ inps, Allowed L inp) :
    ∃ s, (boot cfg >>= fun s0 => run cfg s0 inps) = .ok s ∧
      (∀ x, (false, x) ∈ heard s.dev.trace → OnKeyboard cfg L x) ∧
      (∀ x, (true, x) ∈ heard s.dev.trace → InMessage cfg L x) ∧
      (∀ x ∈ keystrokes s, x = 0xA0 ∨ OnKeyboard cfg L x) ∧
      (∀ x ∈ messages s, InMessage cfg L x) := by
  obtain ⟨s, e1, e2, e3, e4, _⟩ := C55_whole_keyboard cfg L hc inps hin
  have h := after_genuine (cfgFacts hc) inps hin
  refine ⟨s, e1, ?_, ?_, ?_, ?_⟩
  · rw [e2]; exact fun x hx => h.sent _ hx
  · rw [e2]; exact fun x hx => h.sent _ hx
  · rw [e3]; exact h.keys
  · rw [e4]; exact h.msgs

/-- Ten scans of a held A satisfy the hypotheses, and `a` is waiting. -/
example : cfgOk shipped shippedLayout = true ∧ (∀ inp ∈ typedA, Allowed shippedLayout inp) ∧
    keystrokes (after typedA) = [0x61] := by
  refine ⟨shipped_ok, ?_, by decide +kernel⟩
  intro inp hi
  rw [(List.mem_replicate.mp hi).2]
  exact allowed_of_row8 rfl

/-- No key of keymaps 0 to 3 has a character above 127. -/
theorem shipped_keys_ascii : ∀ i ∈ shippedLayout.maps, ∀ r < shippedLayout.rows,
    ∀ c < shippedLayout.cols, ∀ shift caps ctrl : Bool,
      (codeUnder shipped i shippedLayout.cols r c shift caps ctrl).toNat < 0xA0 →
      (codeUnder shipped i shippedLayout.cols r c shift caps ctrl).toNat < 0x80 := by
  decide +kernel

/-- The messages of keymaps 0 to 3 are ASCII texts. -/
theorem shipped_messages_ascii : ∀ i ∈ shippedLayout.maps, ∀ f ∈ hooksOf (shipped.setup i),
    (match f with
      | .print text => (withCR text).all fun x => decide (x.toNat < 0x80)
      | _ => true) = true := by
  decide +kernel

/-- **C66 (seven bits).** With keymaps 0 to 3 the host receives ASCII codes only: the
highest data bit is never set. -/
theorem C66_seven_bits (inps : List Input) (hin : ∀ inp ∈ inps, Allowed shippedLayout inp) :
    ∃ s, (boot shipped >>= fun s0 => run shipped s0 inps) = .ok s ∧
      ∀ x ∈ sends s.dev.trace, x.toNat < 0x80 := by
  obtain ⟨s, e1, h1, h2, _⟩ := C66_only_keymap_characters shipped shippedLayout shipped_ok inps hin
  refine ⟨s, e1, ?_⟩
  intro x hx
  rcases mem_heard hx with hx | hx
  · obtain ⟨i, hi, text, ht, hm⟩ := h2 x hx
    have := shipped_messages_ascii i hi _ ht
    have := List.all_eq_true.mp this x hm
    simpa using this
  · obtain ⟨hlt, i, hi, r, c, sh, ca, ct, hr, hcl, e⟩ := h1 x hx
    have := shipped_keys_ascii i hi r hr c hcl sh ca ct
    rw [e] at this
    exact this hlt

/-- **C67 (line ends).** In every run, what the host has received followed by what is
waiting for it from messages contains no line feed of a message that does not come
directly after a carriage return; no keystroke gets between the two. -/
theorem C67_lines_end_with_cr_lf (cfg : Config) (L : Layout) (hc : cfgOk cfg L = true)
    (inps : List Input) (hin : ∀ inp ∈ inps, Allowed L inp) :
    ∃ s, (boot cfg >>= fun s0 => run cfg s0 inps) = .ok s ∧
      CrBeforeLf (heard s.dev.trace ++ (messages s).map (true, ·)) := by
  obtain ⟨s, e1, e2, e3, e4, _⟩ := C55_whole_keyboard cfg L hc inps hin
  refine ⟨s, e1, ?_⟩
  rw [e2, e4]
  exact (after_genuine (cfgFacts hc) inps hin).lf

/-- CTRL is held, then the key of function 10 as well: the identification is printed. -/
def askedForName : List Input :=
  List.replicate 10 (closing 0 6) ++
    List.replicate 11 (fun i => if i = 0 then 0x40 else if i = 6 then 0x20 else 0)

/-- Such a run satisfies the hypotheses; the host has received the first character of a
text that ends with carriage return and line feed. -/
example : (∀ inp ∈ askedForName, Allowed shippedLayout inp) ∧
    (heard (after askedForName).dev.trace).length = 1 ∧
    (messages (after askedForName)).getLast? = some 0x0A ∧
    (messages (after askedForName)).dropLast.getLast? = some 0x0D := by
  refine ⟨?_, by decide +kernel, by decide +kernel, by decide +kernel⟩
  intro inp hi
  refine allowed_of_row8 ?_
  rcases List.mem_append.mp hi with hi | hi <;> rw [(List.mem_replicate.mp hi).2] <;> rfl

end Asdf.Props
