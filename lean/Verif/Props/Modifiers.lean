import Verif.Lemmas.Modifiers

/-! # Properties C23-C25: modifiers -/

namespace Asdf.Props

open Spec

/-- **C23.** Lookup uses the CTRL table iff CTRL is active, otherwise the SHIFT
table iff shift or shift lock is active, otherwise the CAPS table iff caps lock
is active, otherwise the plain table; for every value of the three variables. -/
theorem C23_modifier_precedence (m : Mods) :
    modifierIndex m = .ok (tableFor (m.shift != 0) (m.caps != 0) (m.ctrl != 0)) := by
  unfold modifierIndex activeModifiers tableFor
  by_cases h1 : m.shift = 0 <;> by_cases h2 : m.caps = 0 <;> by_cases h3 : m.ctrl = 0 <;>
    simp [h1, h2, h3, bne] <;> rfl

/-- **C23.** In terms of the history of modifier events. -/
theorem C23_table_after_history (cfg : Config) (s : State) (hd : OutputsReachable s.dev)
    (hm : s.mods = ⟨0, 0, 0⟩) (h : List ModEvent) :
    ∃ s', runMods cfg s h = .ok s' ∧ modifierIndex s'.mods =
      .ok (tableFor (shiftHeld h || shiftLocked h) (capsOn h) (ctrlActive h)) := by
  obtain ⟨a, free, hr⟩ := hd.rel
  obtain ⟨d', a', h1, _, _⟩ := runMods_ok cfg hr hm h
  refine ⟨_, h1, ?_⟩
  rw [C23_modifier_precedence]
  unfold modsAfter
  cases shiftHeld h <;> cases shiftLocked h <;> cases capsOn h <;> cases ctrlActive h <;> rfl

/-- **C24.** After every history of modifier events (starting with no modifier
active) CTRL, caps lock, shift and shift lock are exactly as the history
prescribes, and the history changes nothing but the modifier state and the
outputs. -/
theorem C24_modifiers_follow_history (cfg : Config) (s : State) (hd : OutputsReachable s.dev)
    (hm : s.mods = ⟨0, 0, 0⟩) (h : List ModEvent) :
    ∃ s', runMods cfg s h = .ok s' ∧
      (s'.mods.ctrl ≠ 0 ↔ ctrlActive h = true) ∧
      (s'.mods.caps ≠ 0 ↔ capsOn h = true) ∧
      (s'.mods.shift &&& 1 ≠ 0 ↔ shiftHeld h = true) ∧
      (s'.mods.shift &&& 2 ≠ 0 ↔ shiftLocked h = true) ∧
      s' = { s with mods := s'.mods, dev := s'.dev } := by
  obtain ⟨a, free, hr⟩ := hd.rel
  obtain ⟨d', a', h1, _, _⟩ := runMods_ok cfg hr hm h
  refine ⟨_, h1, ?_, ?_, ?_, ?_, rfl⟩
  all_goals unfold modsAfter
  · cases ctrlActive h <;> simp [b2u]
  · cases capsOn h <;> simp [b2u]
  · cases shiftHeld h <;> cases shiftLocked h <;> simp [b2u, shiftByte] <;> decide
  · cases shiftHeld h <;> cases shiftLocked h <;> simp [b2u, shiftByte] <;> decide

/-- Non-vacuity of C24, and the specification on a few histories. -/
example : OutputsReachable (virtInit Dev.zero) := ⟨Dev.zero, [], rfl⟩
example : ctrlActive [.ctrlDown, .shiftDown, .ctrlUp, .ctrlDown] = true ∧
    shiftLocked [.lockOn, .shiftDown, .lockToggle] = true ∧
    shiftLocked [.lockOn, .lockToggle] = false ∧ shiftHeld [.shiftDown, .lockOn] = true ∧
    shiftLocked [.lockOn, .shiftDown, .shiftUp] = false ∧
    capsOn [.capsDown, .ctrlDown, .capsDown] = false := by decide

/-- **C25.** After every history `h`, a caps event drives every output assigned
to the caps-lock indicator with the resulting caps-lock state, a shift or
shift-lock event drives every output assigned to the shift-lock indicator with
the resulting shift-lock state, and no modifier event drives anything else. -/
theorem C25_lock_leds_follow_lock_states (cfg : Config) (s : State)
    (hd : OutputsReachable s.dev) (hm : s.mods = ⟨0, 0, 0⟩) (h : List ModEvent) (e : ModEvent) :
    ∃ s1 s2 capsL shiftL, runMods cfg s h = .ok s1 ∧ callMod cfg s1 e = .ok s2 ∧
      outputsOf s.dev VCAPS_LED = some capsL ∧ outputsOf s.dev VSHIFT_LED = some shiftL ∧
      s2.dev.trace = s1.dev.trace ++ match e with
        | .capsDown => capsL.map (Event.out · (if capsOn (h ++ [e]) then 1 else 0))
        | .ctrlDown | .ctrlUp => []
        | _ => shiftL.map (Event.out · (if shiftLocked (h ++ [e]) then 1 else 0)) := by
  obtain ⟨a, free, hr⟩ := hd.rel
  obtain ⟨d1, a1, h1, h2, h3⟩ := runMods_ok cfg hr hm h
  obtain ⟨d2, a2, g1, g2, _, _⟩ := callMod_ok cfg (s := { s with mods := modsAfter h, dev := d1 })
      h2 h rfl e
  refine ⟨_, _, _, _, h1, g1, hr.outputsOf (by decide), hr.outputsOf (by decide), ?_⟩
  rw [g2, h3]
  cases e <;> rfl

/-- Non-vacuity of C25: a configuration with both indicators, as in the sol
keymap. -/
example : ∃ d, runDev Dev.zero [.assign ⟨10, 10, .nofunc, 0⟩, .assign ⟨11, 12, .nofunc, 0⟩] = .ok d ∧
    outputsOf d VCAPS_LED = some [10] ∧ outputsOf d VSHIFT_LED = some [12] :=
  ⟨_, rfl, by decide, by decide⟩

end Asdf.Props
