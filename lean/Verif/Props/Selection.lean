import Verif.Lemmas.Dip
import Verif.Props.Debounce

/-! # Properties C27, C36 and C37: held modifiers and the DIP switches -/

namespace Asdf.Props

open Spec

/-! ## C27 -/

/-- The claim of C27 about the tables: in every shipped keymap SHIFT, CTRL, CAPS
and REPEAT are at the same positions in all four tables. -/
def C27Statement : Prop :=
  ∀ i ∈ shippedNumbers, ∀ act ∈ [Action.shift, .ctrl, .caps, .repeat],
    ∀ e ∈ shippedMaps i, ∀ e' ∈ shippedMaps i, positionsOf act e = positionsOf act e'

/-- **C27 is false**: in keymap 2 (apple2) REPEAT is only in the caps and ctrl
tables. -/
theorem C27_false : ¬ C27Statement := by
  intro h
  have := h 2 (by decide) .repeat (by decide) ((shippedMaps 2)[0]'(by decide))
    (List.getElem_mem _) ((shippedMaps 2)[2]'(by decide)) (List.getElem_mem _)
  exact absurd this (by decide +kernel)

/-- **C27** (partial: without REPEAT).  In every shipped keymap SHIFT, CTRL and CAPS
are at the same positions in all four tables, and there is at least one key of
each. -/
theorem C27_positions_partial :
    ∀ i ∈ shippedNumbers, ∀ act ∈ [Action.shift, .ctrl, .caps], ∀ e ∈ shippedMaps i,
      positionsOf act e ≠ [] ∧ ∀ e' ∈ shippedMaps i, positionsOf act e = positionsOf act e' := by
  decide +kernel

/-- DIP switch 1 (keymap 2) closed. -/
def dip1 : Input := fun i => if i = 8 then 0x02 else 0
/-- DIP switch 1 and the key in row 5, column 4. -/
def dip1Rep : Input := fun i => if i = 8 then 0x02 else if i = 5 then 0x10 else 0
/-- The same and the CAPS key in row 0, column 0. -/
def dip1RepCaps : Input := fun i =>
  if i = 8 then 0x02 else if i = 5 then 0x10 else if i = 0 then 0x01 else 0

/-- In keymap 2: REPEAT is pressed, then CAPS, then both are released. -/
def stuckRepeat : List Input :=
  List.replicate 10 dip1 ++ List.replicate 10 dip1Rep ++ List.replicate 10 dip1RepCaps ++
    List.replicate 10 dip1

/-- **C27 is false at run time**: with keymap 2, REPEAT pressed while caps lock is
on and released while it is off stays in effect although no key is held. -/
theorem C27_stuck_repeat : runsOk stuckRepeat = true ∧
    (∀ r, r < 8 → ∀ c, c < 8 → accepted (after stuckRepeat) r c = false) ∧
    (after stuckRepeat).rep.state = REPEAT_ON := by decide +kernel

/-- **C27** (CTRL at run time), for every keymap list in which the CTRL keys are at
the positions `P` in all tables: CTRL is only active while one of them is held
(as debounced), whatever else is pressed and whichever keymap is selected. -/
theorem C27_ctrl_not_stuck (cfg : Config) (L : Layout) (hc : cfgOk cfg L = true)
    (P : List (Nat × Nat)) (hP : placed cfg L .ctrl P = true) (s : State) (log : List KeyEv)
    (h : History cfg L s log) (hon : s.mods.ctrl ≠ 0) :
    ∃ k ∈ P, accepted s k.1 k.2 = true := by
  have hcf := cfgFacts hc
  obtain ⟨k, k1, _, _, k4⟩ := h.effect hcf (act := .ctrl) (by decide) hP
    (fun s => s.mods.ctrl ≠ 0)
    (by
      intro s hb
      obtain ⟨_, _, _, g, _⟩ := boot_ok (cfg := cfg) (hcf.parts hcf.zero).2.1
      rw [g] at hb
      cases hb
      exact fun h => h rfl)
    (by intro s s' h1 _ h3; rw [h1] at h3; exact h3)
    (by
      intro s s' a hm _ hne ha hx
      rw [(activateAction_parts hm ha).1] at hx
      cases a <;> first | exact hx | exact absurd rfl hne)
    (by
      intro s s' a hm _ hne ha hx
      rw [(deactivateAction_parts hm ha).1] at hx
      cases a <;> first | exact hx | exact absurd rfl hne)
    (by
      intro s s' hm _ ha hx
      rw [(deactivateAction_parts hm ha).1] at hx
      exact hx rfl)
    hon
  exact ⟨k, k1, k4⟩

/-- **C27** (CTRL, exact): with a single CTRL position, CTRL is active exactly while
that key is held. -/
theorem C27_ctrl_exact (cfg : Config) (L : Layout) (hc : cfgOk cfg L = true)
    (r c : Nat) (hr : r < 16) (hcc : c < 8) (hP : placed cfg L .ctrl [(r, c)] = true) (s : State)
    (log : List KeyEv) (h : History cfg L s log) : s.mods.ctrl ≠ 0 ↔ accepted s r c = true := by
  constructor
  · intro hon
    obtain ⟨k, k1, k2⟩ := C27_ctrl_not_stuck cfg L hc _ hP s log h hon
    rw [List.mem_singleton] at k1
    rw [k1] at k2
    exact k2
  · intro ha
    refine h.effect_on (cfgFacts hc) (act := .ctrl) (k := (r, c)) ⟨hr, hcc⟩ hP
      (fun s => s.mods.ctrl ≠ 0) ?_ ?_ ?_ ?_ (by decide) ha
    · intro s s' h1 _ h3; rw [h1]; exact h3
    · intro s s' a hm hne ha hx
      rw [(activateAction_parts hm ha).1]
      cases a <;> first | exact hx | exact absurd rfl hne
    · intro s s' a hm hne ha hx
      rw [(deactivateAction_parts hm ha).1]
      cases a <;> first | exact hx | exact absurd rfl hne
    · intro s s' hm ha
      rw [(activateAction_parts hm ha).1]
      exact (by decide : (1 : UInt8) ≠ 0)

theorem lock_bit (x : UInt8) : (x ||| 2) &&& 1 = x &&& 1 ∧ (x ^^^ 2) &&& 1 = x &&& 1 := by
  have h : ∀ n, n < 256 → (UInt8.ofNat n ||| 2) &&& 1 = UInt8.ofNat n &&& 1 ∧
      (UInt8.ofNat n ^^^ 2) &&& 1 = UInt8.ofNat n &&& 1 := by decide +kernel
  have := h x.toNat x.toNat_lt
  rwa [UInt8.ofNat_toNat] at this

/-- **C27** (SHIFT at run time): the momentary shift (bit 0; bit 1 is the lock) is
only active while a SHIFT key is held. -/
theorem C27_shift_not_stuck (cfg : Config) (L : Layout) (hc : cfgOk cfg L = true)
    (P : List (Nat × Nat)) (hP : placed cfg L .shift P = true) (s : State) (log : List KeyEv)
    (h : History cfg L s log) (hon : s.mods.shift &&& 1 ≠ 0) :
    ∃ k ∈ P, accepted s k.1 k.2 = true := by
  have hcf := cfgFacts hc
  obtain ⟨k, k1, _, _, k4⟩ := h.effect hcf (act := .shift) (by decide) hP
    (fun s => s.mods.shift &&& 1 ≠ 0)
    (by
      intro s hb
      obtain ⟨_, _, _, g, _⟩ := boot_ok (cfg := cfg) (hcf.parts hcf.zero).2.1
      rw [g] at hb
      cases hb
      exact fun h => h (by decide : (0 : UInt8) &&& 1 = 0))
    (by intro s s' h1 _ h3; rw [h1] at h3; exact h3)
    (by
      intro s s' a hm _ hne ha hx
      rw [(activateAction_parts hm ha).2.1] at hx
      cases a <;> first
        | exact hx
        | exact absurd rfl hne
        | (rw [← (lock_bit s.mods.shift).1]; exact hx)
        | (rw [← (lock_bit s.mods.shift).2]; exact hx))
    (by
      intro s s' a hm _ hne ha hx
      rw [(deactivateAction_parts hm ha).2.1] at hx
      cases a <;> first | exact hx | exact absurd rfl hne)
    (by
      intro s s' hm _ ha hx
      rw [(deactivateAction_parts hm ha).2.1] at hx
      exact hx (by decide : (0 : UInt8) &&& 1 = 0))
    hon
  exact ⟨k, k1, k4⟩

/-- **C27** (REPEAT at run time): if the REPEAT keys are at the same positions in
all tables, fast repeat is only selected while one of them is held. -/
theorem C27_repeat_not_stuck (cfg : Config) (L : Layout) (hc : cfgOk cfg L = true)
    (P : List (Nat × Nat)) (hP : placed cfg L .repeat P = true) (s : State) (log : List KeyEv)
    (h : History cfg L s log) (hon : s.rep.state = REPEAT_ON) :
    ∃ k ∈ P, accepted s k.1 k.2 = true := by
  have hcf := cfgFacts hc
  obtain ⟨k, k1, _, _, k4⟩ := h.effect hcf (act := .repeat) (by decide) hP
    (fun s => s.rep.state = REPEAT_ON)
    (by
      intro s hb
      obtain ⟨_, _, _, g, _⟩ := boot_ok (cfg := cfg) (hcf.parts hcf.zero).2.1
      rw [g] at hb
      cases hb
      exact (by decide : ¬ (525 : UInt16) = REPEAT_ON))
    (by intro s s' _ h2 h3; rw [← h2]; exact h3)
    (by
      intro s s' a hm _ hne ha hx
      have hx : s'.rep.state = REPEAT_ON := hx
      rw [(activateAction_parts hm ha).2.2.1] at hx
      cases a <;> first
        | exact hx
        | exact absurd rfl hne
        | (by_cases hs : REPEAT_ON ≠ s.rep.state
           · rw [show repPress s.rep .autorepeatSelect = repAutoOn s.rep from rfl, repAutoOn,
               if_pos hs] at hx
             exact absurd hx (by decide)
           · exact (by simpa using hs : REPEAT_ON = s.rep.state).symm))
    (by
      intro s s' a hm _ hne ha hx
      have hx : s'.rep.state = REPEAT_ON := hx
      rw [(deactivateAction_parts hm ha).2.2.1] at hx
      cases a <;> first
        | exact hx
        | exact absurd rfl hne
        | (by_cases hs : REPEAT_ON ≠ s.rep.state
           · rw [show repRelease s.rep .autorepeatSelect = repAutoOff s.rep from rfl, repAutoOff,
               if_pos hs] at hx
             exact absurd hx (by decide)
           · exact (by simpa using hs : REPEAT_ON = s.rep.state).symm))
    (by
      intro s s' hm hri ha hx
      have hx : s'.rep.state = REPEAT_ON := hx
      rw [(deactivateAction_parts hm ha).2.2.1] at hx
      have hx : s.rep.base = REPEAT_ON := hx
      rcases hri.base with hb | hb <;> rw [hb] at hx <;> exact absurd hx (by decide))
    hon
  exact ⟨k, k1, k4⟩

/-- The two classic keymaps only: DIP switches 1 and 2 stay open. -/
def classicLayout : Layout :=
  { rows := 9, cols := 8, maps := [0, 1], blocked := fun r c => r == 8 && (c == 1 || c == 2) }

/-- The hypotheses of the run-time theorems hold for the shipped keymaps 0-3, and
for REPEAT with the classic keymaps. -/
theorem C27_shipped_places : cfgOk shipped shippedLayout = true ∧
    placed shipped shippedLayout .ctrl [(0, 6)] = true ∧
    placed shipped shippedLayout .shift [(0, 1), (0, 2)] = true ∧
    placed shipped shippedLayout .shiftlockOn [] = true ∧
    placed shipped shippedLayout .shiftlockToggle [] = true ∧
    cfgOk shipped classicLayout = true ∧
    placed shipped classicLayout .repeat [(5, 1)] = true := by decide +kernel

/-- Non-vacuity of C27: in a history, CTRL is held and active. -/
example : ∃ log, History shipped shippedLayout (after (List.replicate 10 (closing 0 6))) log ∧
    (after (List.replicate 10 (closing 0 6))).mods.ctrl ≠ 0 := by
  have hr : Reachable shipped shippedLayout (after (List.replicate 10 (closing 0 6))) :=
    after_reachable (by decide +kernel) (by
      intro inp hi
      rw [(List.mem_replicate.mp hi).2]
      exact allowed_of_row8 rfl)
  obtain ⟨log, hl⟩ := hr.history (cfgFacts shipped_ok)
  exact ⟨log, hl, by decide +kernel⟩

/-- Non-vacuity: SHIFT held and active, REPEAT held and active (classic). -/
example : (after (List.replicate 10 (closing 0 1))).mods.shift &&& 1 ≠ 0 ∧
    (after (List.replicate 10 (closing 5 1))).rep.state = REPEAT_ON := by decide +kernel

/-! ## C36 -/

/-- The claim of C36 for the shipped firmware: after every run from power-up, if
the debounced switches spell the number of a keymap, it is selected. -/
def C36Statement : Prop :=
  ∀ s0 s inps, boot shipped = .ok s0 → run shipped s0 inps = .ok s →
    shipped.valid (UInt8.ofNat (dipNumber s)) = true → s.curIdx = UInt8.ofNat (dipNumber s)

/-- DIP switch 1 is closed, then 2, then 1 is opened. -/
def dipPath : List Input :=
  List.replicate 10 (closing 8 1) ++ List.replicate 10 (fun i => if i = 8 then 0x06 else 0) ++
    List.replicate 10 (closing 8 2)

/-- **C36 is false**: after this path the switches spell 4, the number of the Sol
keymap, but keymap 0 is selected (the step through 6, which does not exist, was
ignored). -/
theorem C36_false : ¬ C36Statement := by
  intro h
  have := h (after []) (after dipPath) dipPath (by decide +kernel) (by decide +kernel)
    (by decide +kernel)
  exact absurd this (by decide +kernel)

/-- **C36** (partial: DIP switch 2 stays open, i.e. keymaps 0-3).  After every
history of key and switch events, if the debounced switches spell the number of
a keymap, that keymap is selected. -/
theorem C36_keymap_follows_partial (s : State) (log : List KeyEv)
    (h : History shipped shippedLayout s log)
    (hv : shipped.valid (UInt8.ofNat (dipNumber s)) = true) :
    s.curIdx = UInt8.ofNat (dipNumber s) := by
  have hcf := cfgFacts shipped_ok
  obtain ⟨⟨ks, ms, a, free, hw⟩, _⟩ := h.inv hcf
  have h2 : accepted s DIP_ROW 2 = false := hw.blocked 8 2 (by decide) (by decide) rfl
  rw [idx_follows hcf h]
  unfold lowDip
  unfold dipNumber at hv ⊢
  rw [h2] at hv ⊢
  rw [show accepted s 8 0 = accepted s DIP_ROW 0 from rfl,
    show accepted s 8 1 = accepted s DIP_ROW 1 from rfl]
  generalize accepted s DIP_ROW 0 = x at *
  generalize accepted s DIP_ROW 1 = y at *
  generalize accepted s DIP_ROW 3 = z at *
  revert hv
  cases x <;> cases y <;> cases z <;> decide

/-- **C36**, the exact rule under the same assumption: the selected keymap is the
number on switches 0 and 1 (switch 3 has no effect). -/
theorem C36_exact_partial (s : State) (log : List KeyEv)
    (h : History shipped shippedLayout s log) :
    s.curIdx = UInt8.ofNat ((accepted s DIP_ROW 0).toNat + 2 * (accepted s DIP_ROW 1).toNat) :=
  idx_follows (cfgFacts shipped_ok) h

/-- Readings that only close some switches other than number 2 are allowed. -/
theorem allowed_dip {inp : Input} (h : bitOf (inp 8) 2 = false) : Allowed shippedLayout inp := by
  intro r c _ _ hb
  simp only [shippedLayout, Bool.and_eq_true, beq_iff_eq] at hb
  rw [hb.1, hb.2]
  exact h

/-- Non-vacuity of C36: switch 0, then switch 1, then switch 0 open again. -/
example : ∃ log s, History shipped shippedLayout s log ∧ dipNumber s = 2 ∧ s.curIdx = 2 := by
  have hr : Reachable shipped shippedLayout (after (List.replicate 10 (closing 8 0) ++
      List.replicate 10 (fun i => if i = 8 then 0x03 else 0) ++ List.replicate 10 (closing 8 1))) :=
    after_reachable (by decide +kernel) (by
      intro inp hi
      simp only [List.mem_append] at hi
      rcases hi with (hi | hi) | hi <;> rw [(List.mem_replicate.mp hi).2] <;>
        exact allowed_dip (by decide))
  obtain ⟨log, hl⟩ := hr.history (cfgFacts shipped_ok)
  exact ⟨log, _, hl, by decide +kernel, by decide +kernel⟩

/-! ## C37 -/

/-- The reading with switches `d` and no key closed. -/
def onlyDips (d : UInt8) : Input := fun r => if r = DIP_ROW then d else 0

/-- The claim of C37: with the switches `d` constant and no key pressed, the number
on switches 0-3 is selected after ten scans, if it is that of a keymap. -/
def C37Statement : Prop :=
  ∀ d : UInt8, shipped.valid (d &&& 15) = true →
    ∃ s0 s, boot shipped = .ok s0 ∧ run shipped s0 (List.replicate 10 (onlyDips d)) = .ok s ∧
      s.curIdx = d &&& 15

/-- **C37 is false**: with switches 2 and 4 closed (0x14) the tenth scan selects
keymap 4 and then, still in that scan, looks up switch 4 outside of the array
(cf. C17). -/
theorem C37_false : ¬ C37Statement := by
  intro h
  obtain ⟨s0, s, hb, hr, _⟩ := h 0x14 (by decide)
  have : runsOk (List.replicate 10 (onlyDips 0x14)) = true := by
    unfold runsOk
    rw [hb]
    dsimp only
    rw [hr]
  exact absurd this (by decide +kernel)

/-- **C37** (partial: for keymaps 4 and 5 switches 4-7 must be open), exactly ten
scans: the keymap whose number is on the switches is selected. -/
theorem C37_after_ten_scans_partial (d : UInt8) (hv : shipped.valid (d &&& 15) = true)
    (h45 : 3 < d &&& 15 → d < 16) :
    ∃ s0 s, boot shipped = .ok s0 ∧ run shipped s0 (List.replicate 10 (onlyDips d)) = .ok s ∧
      s.curIdx = d &&& 15 := by
  have h : ∀ n, n < 256 → shipped.valid (UInt8.ofNat n &&& 15) = true →
      (3 < UInt8.ofNat n &&& 15 → UInt8.ofNat n < 16) →
      runsOk (List.replicate 10 (onlyDips (UInt8.ofNat n))) = true ∧
      (after (List.replicate 10 (onlyDips (UInt8.ofNat n)))).curIdx = UInt8.ofNat n &&& 15 := by
    decide +kernel
  obtain ⟨h1, h2⟩ := h d.toNat d.toNat_lt (by rw [UInt8.ofNat_toNat]; exact hv)
    (by rw [UInt8.ofNat_toNat]; exact h45)
  rw [UInt8.ofNat_toNat] at h1 h2
  unfold runsOk at h1
  unfold after at h2
  cases hb : boot shipped with
  | error e => rw [hb] at h1; cases h1
  | ok s0 =>
    rw [hb] at h1 h2
    dsimp only at h1 h2
    cases hr : run shipped s0 (List.replicate 10 (onlyDips d)) with
    | error e => rw [hr] at h1; cases h1
    | ok s =>
      rw [hr] at h2
      exact ⟨s0, s, rfl, hr, h2⟩

/-- After one more scan, every setting with keymap 4 or 5 has left defined behaviour
(cf. C17). -/
theorem C37_next_scan_fails (d : UInt8) (hv : d &&& 15 = 4 ∨ d &&& 15 = 5) :
    ∃ s0, boot shipped = .ok s0 ∧
      run shipped s0 (List.replicate 11 (onlyDips d)) = .error .oob := by
  have h : ∀ n, n < 256 → (UInt8.ofNat n &&& 15 = 4 ∨ UInt8.ofNat n &&& 15 = 5) →
      (match boot shipped with
       | .ok s0 => match run shipped s0 (List.replicate 11 (onlyDips (UInt8.ofNat n))) with
         | .error .oob => true
         | _ => false
       | .error _ => false) = true := by
    decide +kernel
  have := h d.toNat d.toNat_lt (by rw [UInt8.ofNat_toNat]; exact hv)
  rw [UInt8.ofNat_toNat] at this
  cases hb : boot shipped with
  | error e => rw [hb] at this; cases this
  | ok s0 =>
    rw [hb] at this
    refine ⟨s0, rfl, ?_⟩
    dsimp only at this
    cases hr : run shipped s0 (List.replicate 11 (onlyDips d)) with
    | ok s => rw [hr] at this; cases this
    | error e =>
      rw [hr] at this
      cases e <;> first | rfl | cases this

theorem debounced_constant (b : Bool) (n : Nat) (h : 10 ≤ n) :
    debounced (List.replicate n b) = b := by
  have hc : ∀ n, (List.replicate n b).foldl Deb.step ⟨b, 10⟩ = ⟨b, 10⟩ := by
    intro n
    induction n with
    | zero => rfl
    | succ n ih => rw [List.replicate_succ, List.foldl_cons]; simpa [Deb.step] using ih
  have h10 : (List.replicate 10 b).foldl Deb.step Deb.init = ⟨b, 10⟩ := by cases b <;> decide
  unfold debounced
  rw [show n = 10 + (n - 10) by omega, ← List.replicate_append_replicate, List.foldl_append, h10,
    hc]

/-- **C37** (partial: keymaps 0-3).  If the switches are constant from power-up and
spell the number of a keymap 0-3, then that keymap is selected after any number
of scans from the tenth on, whatever is typed meanwhile. -/
theorem C37_constant_switches_partial (d : UInt8) (hd : (d &&& 15).toNat ≤ 3) (inps : List Input)
    (hlen : 10 ≤ inps.length) (hin : ∀ inp ∈ inps, inp DIP_ROW = d) :
    ∃ s0 s, boot shipped = .ok s0 ∧ run shipped s0 inps = .ok s ∧ s.curIdx = d &&& 15 := by
  have hcf := cfgFacts shipped_ok
  have hbits : ∀ n, n < 256 → (UInt8.ofNat n &&& 15).toNat ≤ 3 →
      bitOf (UInt8.ofNat n) 2 = false ∧ UInt8.ofNat ((bitOf (UInt8.ofNat n) 0).toNat +
        2 * (bitOf (UInt8.ofNat n) 1).toNat) = UInt8.ofNat n &&& 15 := by decide +kernel
  obtain ⟨b2, b01⟩ := hbits d.toNat d.toNat_lt (by rw [UInt8.ofNat_toNat]; exact hd)
  rw [UInt8.ofNat_toNat] at b2 b01
  have hal : ∀ inp ∈ inps, Allowed shippedLayout inp := by
    intro inp hi
    refine allowed_dip ?_
    rw [show inp 8 = d from hin inp hi]
    exact b2
  obtain ⟨s0, a, free, e1, e2, _⟩ := boot_inv hcf
  obtain ⟨s, g1, _, _⟩ := run_ok hcf inps hal ⟨_, _, _, _, e2⟩
  refine ⟨s0, s, e1, g1, ?_⟩
  have hreach : Reachable shipped shippedLayout s := ⟨s0, inps, e1, hal, g1⟩
  obtain ⟨log, hl⟩ := hreach.history hcf
  have hacc : ∀ c, c < 8 → accepted s DIP_ROW c = bitOf d c := by
    intro c hc
    rw [C11_own_samples_only shipped 9 8 shipped_dims (by omega) (by omega) rfl s0 s inps e1 g1
      DIP_ROW c (by decide) hc]
    have : samplesOf inps DIP_ROW c = List.replicate inps.length (bitOf d c) := by
      unfold samplesOf
      rw [List.eq_replicate_iff]
      refine ⟨by simp, ?_⟩
      intro x hx
      obtain ⟨inp, hi, rfl⟩ := List.mem_map.mp hx
      unfold sample
      rw [hin inp hi]
    rw [this, debounced_constant _ _ hlen]
  rw [C36_exact_partial s log hl, hacc 0 (by decide), hacc 1 (by decide), b01]

/-- Non-vacuity of C37: setting 0x83 (keymap 3, autorepeat switch closed) and
setting 0x05 (keymap 5). -/
example : ((0x83 : UInt8) &&& 15).toNat ≤ 3 ∧ (∀ inp ∈ List.replicate 12 (onlyDips 0x83),
      inp DIP_ROW = 0x83) ∧ shipped.valid (0x05 &&& 15) = true ∧
    (after (List.replicate 10 (onlyDips 0x05))).curIdx = 5 := by
  refine ⟨by decide, ?_, by decide, by decide +kernel⟩
  intro inp hi
  rw [(List.mem_replicate.mp hi).2]
  rfl

end Asdf.Props
