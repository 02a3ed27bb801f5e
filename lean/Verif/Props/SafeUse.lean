import Verif.Props.Computer
import Verif.Props.Letters
import Verif.Props.Keys
import Verif.Props.Pulse

/-! # Properties C56, C57, C66 and C68 for every safe use of the shipped firmware

The theorems of `Props/Letters.lean`, `Props/Keys.lean`, `Props/Chars.lean` and
`Props/Pulse.lean` about the shipped firmware are for runs in which DIP switch 2 is never
closed; these are for all safe runs (C72). -/

namespace Asdf.Props

open Spec

/-- The keymap in use is one of the four. -/
theorem four_map (inps : List Input) : (Kb.after fourMaps openLayout inps).map ∈ openLayout.maps := by
  obtain ⟨s0, e1, e2⟩ := Shows.start fourMaps_facts
  obtain ⟨s1, g1, g2⟩ := e2.run fourMaps_facts inps fun inp _ => openLayout_allowed inp
  obtain ⟨_, w⟩ := g2.wf
  have := w.idx
  rw [g2.map] at this
  exact this

theorem four_shapes : ∀ i ∈ openLayout.maps, i ∈ shippedNumbers ∧ rowsOf i = 9 ∧ colsOf i = 8 := by decide +kernel

/-- The code of a key at any moment of a safe run. -/
theorem safe_lookup (inps : List Input) (h : NeverTrips inps) (r c : Nat) (hr : r < 9) (hc : c < 8)
    (k : Kb) (hk : k = Kb.after fourMaps openLayout inps) :
    ∃ s, powerUp shipped inps = .ok s ∧
      lookupKeycode s r c = .ok (codeUnder shipped k.map 8 r c (k.held || k.locked) k.caps k.ctrl) := by
  obtain ⟨s, e1, e2, _⟩ := C72_safe inps h
  obtain ⟨s', f1, _, _, _, _, f6⟩ := C55_whole_keyboard fourMaps openLayout fourMaps_ok inps
    fun inp _ => openLayout_allowed inp
  have f1 : powerUp fourMaps inps = .ok s' := f1
  obtain rfl : s = s' := Except.ok.inj (e2.symm.trans f1)
  refine ⟨s, e1, ?_⟩
  rw [(f6 r c hr hc).2, ← hk]
  rfl

/-- **C57 (every safe use).** At any moment of any safe run a letter key has the code its
letter should have under the current modifiers. -/
theorem C57_letters_safe (inps : List Input) (h : NeverTrips inps)
    (r c : Nat) (hr : r < 9) (hc : c < 8) (k : Kb) (hk : k = Kb.after fourMaps openLayout inps)
    (x : Code) (hx : codeUnder shipped k.map 8 r c false false false = x) (hl : isLetter x = true)
    (ha : (appleException k.map x && (k.held || k.locked) && !k.ctrl) = false) :
    ∃ s, powerUp shipped inps = .ok s ∧
      lookupKeycode s r c = .ok (letterCode x (k.held || k.locked) k.caps k.ctrl) := by
  obtain ⟨s, e1, e2⟩ := safe_lookup inps h r c hr hc k hk
  refine ⟨s, e1, e2.trans ?_⟩
  obtain ⟨h1, h2, h3⟩ := four_shapes _ (hk ▸ four_map inps)
  have := C57_tables k.map h1 r (by rw [h2]; exact hr) c (by rw [h3]; exact hc)
    (k.held || k.locked) k.caps k.ctrl
  rw [h3, hx] at this
  exact congrArg Except.ok (this hl ha)

/-- **C68 (every safe use, partial).** At any moment of any safe run, with caps lock on: a
key gives what it gives without caps lock, in capitals if it is a letter; under SHIFT or
CTRL exactly what it gives without caps lock.  Missing: the two keys of `C68_false`. -/
theorem C68_caps_safe_partial (inps : List Input) (h : NeverTrips inps) (r c : Nat) (hr : r < 9) (hc : c < 8)
    (k : Kb) (hk : k = Kb.after fourMaps openLayout inps) (hcaps : k.caps = true)
    (hex : ¬ (k.map = 2 ∧ (r, c) ∈ [(1, 0), (5, 4)])) :
    ∃ s, powerUp shipped inps = .ok s ∧
      lookupKeycode s r c = .ok
        (if (k.held || k.locked) || k.ctrl then
          codeUnder shipped k.map 8 r c (k.held || k.locked) false k.ctrl
        else withCaps (codeUnder shipped k.map 8 r c false false false)) := by
  obtain ⟨s, e1, e2⟩ := safe_lookup inps h r c hr hc k hk
  refine ⟨s, e1, e2.trans ?_⟩
  obtain ⟨h1, h2, h3⟩ := four_shapes _ (hk ▸ four_map inps)
  have := C68_caps_changes_letters_only_partial k.map h1 r (by rw [h2]; exact hr) c
    (by rw [h3]; exact hc) hex (k.held || k.locked) k.ctrl
  rw [h3] at this
  rw [← this, hcaps]

/-- **C68, exactly (every safe use).** At any moment of any safe run, with caps lock on and without SHIFT
and CTRL: a key gives what it gives without caps lock, in capitals if it is a letter, except that on
keymap 2 the DEL key has no function and the `^` key is REPEAT.  Under SHIFT or CTRL every key gives
exactly what it gives without caps lock. -/
theorem C68_exact (inps : List Input) (h : NeverTrips inps) (r c : Nat) (hr : r < 9) (hc : c < 8)
    (k : Kb) (hk : k = Kb.after fourMaps openLayout inps) (hcaps : k.caps = true) :
    ∃ s, powerUp shipped inps = .ok s ∧
      lookupKeycode s r c = .ok
        (if (k.held || k.locked) || k.ctrl then
          codeUnder shipped k.map 8 r c (k.held || k.locked) false k.ctrl
        else if k.map = 2 ∧ (r, c) = (1, 0) then 0xA0
        else if k.map = 2 ∧ (r, c) = (5, 4) then 0xA6
        else withCaps (codeUnder shipped k.map 8 r c false false false)) := by
  by_cases hex : k.map = 2 ∧ (r, c) ∈ [(1, 0), (5, 4)]
  · obtain ⟨s, e1, e2⟩ := safe_lookup inps h r c hr hc k hk
    refine ⟨s, e1, e2.trans (congrArg Except.ok ?_)⟩
    have two : ∀ z ∈ [(1, 0), (5, 4)], ∀ shift ctrl : Bool, codeUnder shipped 2 8 z.1 z.2 shift true ctrl =
        if shift || ctrl then codeUnder shipped 2 8 z.1 z.2 shift false ctrl
        else if (2 : UInt8) = 2 ∧ z = (1, 0) then 0xA0
        else if (2 : UInt8) = 2 ∧ z = (5, 4) then 0xA6
        else withCaps (codeUnder shipped 2 8 z.1 z.2 false false false) := by decide +kernel
    rw [hex.1, hcaps]
    exact two (r, c) hex.2 _ _
  · obtain ⟨s, e1, e2⟩ := C68_caps_safe_partial inps h r c hr hc k hk hcaps hex
    refine ⟨s, e1, e2.trans ?_⟩
    rw [if_neg (show ¬ (k.map = 2 ∧ (r, c) = (1, 0)) from fun hh => hex ⟨hh.1, by rw [hh.2]; decide⟩),
      if_neg (show ¬ (k.map = 2 ∧ (r, c) = (5, 4)) from fun hh => hex ⟨hh.1, by rw [hh.2]; decide⟩)]

/-- **C66 (seven bits, every safe use).** The host receives ASCII codes only. -/
theorem C66_seven_bits_safe (inps : List Input) (h : NeverTrips inps) :
    ∃ s, powerUp shipped inps = .ok s ∧ ∀ x ∈ sends s.dev.trace, x.toNat < 0x80 := by
  obtain ⟨s, e1, _, e2, _⟩ := C72_safe inps h
  exact ⟨s, e1, e2 ▸ four_ascii inps⟩

/-- **C56 (every safe use).** Each accepted press of the key for output code 1 makes one
short low pulse on output 3 (open high), each press of the key for output code 2 one
long high pulse on output 1 (open low); these outputs are never driven otherwise. -/
theorem C56_safe (inps : List Input) (h : NeverTrips inps) :
    ∃ s, powerUp shipped inps = .ok s ∧
      pulses PHYSICAL_OUT3_OPEN_HI 0 1 .delayShort s.dev.trace =
        some (pressCount fourMaps openLayout 0xB1 inps) ∧
      pulses PHYSICAL_OUT1_OPEN_LO 1 0 .delayLong s.dev.trace =
        some (pressCount fourMaps openLayout 0xB2 inps) := by
  obtain ⟨s, e0, e, _⟩ := C72_safe inps h
  obtain ⟨s', e1, e2⟩ := C56_one_pulse_per_press fourMaps openLayout fourMaps_ok VOUT1
    PHYSICAL_OUT3_OPEN_HI 1 .pulseShort .delayShort (by decide) (.inr rfl) (.inl ⟨rfl, rfl⟩)
    (by decide +kernel) inps fun inp _ => openLayout_allowed inp
  obtain ⟨s'', e1', e2'⟩ := C56_one_pulse_per_press fourMaps openLayout fourMaps_ok VOUT2
    PHYSICAL_OUT1_OPEN_LO 0 .pulseLong .delayLong (by decide) (.inl rfl) (.inr ⟨rfl, rfl⟩)
    (by decide +kernel) inps fun inp _ => openLayout_allowed inp
  have e1 : powerUp fourMaps inps = .ok s' := e1
  have e1' : powerUp fourMaps inps = .ok s'' := e1'
  obtain rfl : s = s' := Except.ok.inj (e.symm.trans e1)
  obtain rfl : s = s'' := Except.ok.inj (e.symm.trans e1')
  exact ⟨s, e0, e2, e2'⟩

/-- DIP switches 1 and 2 are closed, 1 first, and then A is typed: a safe run that the other
theorems do not cover. -/
def bothSwitchesA : List Input :=
  List.replicate 12 (closing 8 1) ++ List.replicate 12 (fun r => if r = 8 then 6 else 0) ++
    List.replicate 12 (fun r => if r = 8 then 6 else if r = 1 then 0x40 else 0)

/-- What it sends, and the code of the key A when it ends. -/
def bothSwitchesEnd : List Code × Option Code :=
  match powerUp shipped bothSwitchesA with
  | .ok s => (sends s.dev.trace, (lookupKeycode s 1 6).toOption)
  | .error _ => ([], none)

example : NeverTrips bothSwitchesA ∧ ¬ (∀ inp ∈ bothSwitchesA, Allowed shippedLayout inp) ∧
    bothSwitchesEnd = ([0x41], some 0x41) ∧
    codeUnder shipped 2 8 1 6 false false false = 0x61 ∧ isLetter 0x61 = true := by
  refine ⟨neverTrips_of (by decide +kernel), fun h => ?_, by decide +kernel, by decide +kernel, by decide⟩
  have := h (fun r => if r = 8 then 6 else 0) (by
    unfold bothSwitchesA
    exact List.mem_append_left _ (List.mem_append_right _ (List.mem_replicate.mpr ⟨by decide, rfl⟩)))
  exact absurd (this 8 2) (by decide +kernel)

end Asdf.Props
