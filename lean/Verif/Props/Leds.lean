import Verif.Lemmas.Leds
import Verif.Lemmas.Main
import Verif.Spec.Examples

/-! # Properties C26 and C32: indicators and initial output values -/

namespace Asdf.Props

open Spec

/-! ## C26 -/

/-- The claim of C26, for the shipped firmware: after every run, every output
assigned to the caps-lock indicator shows the caps-lock state. -/
def C26Statement : Prop :=
  ∀ s0 s inps, boot shipped = .ok s0 → run shipped s0 inps = .ok s →
    ∀ l, outputsOf s.dev VCAPS_LED = some l → ∀ p ∈ l,
      shown s.dev.trace p = some (if s.mods.caps ≠ 0 then 1 else 0)

/-- Keymap 2 (Apple II) is selected, then keymap 0 (classic). -/
def thereAndBack : List Input :=
  List.replicate 10 (closing 8 1) ++ List.replicate 10 noKeys

/-- **C26 is false**: keymap 2 turns caps lock on; after returning to keymap 0 caps
lock is still on, but the LED of keymap 0 was never driven. -/
theorem C26_false : ¬ C26Statement := by
  intro h
  have := h (after []) (after thereAndBack) thereAndBack (by decide +kernel) (by decide +kernel)
    [PHYSICAL_LED3] (by decide +kernel) PHYSICAL_LED3 (by decide)
  exact absurd this (by decide +kernel)

/-- The state of this witness: caps lock on, LED never driven. -/
theorem C26_witness : (after thereAndBack).mods.caps = 1 ∧ (after thereAndBack).curIdx = 0 ∧
    shown (after thereAndBack).dev.trace PHYSICAL_LED3 = none := by decide +kernel

theorem shown_of_lastOut {t : List Event} {p : Nat} {x : UInt8} (h : lastOut t p = some x) :
    shown t p = some x := by
  unfold lastOut at h
  unfold shown
  suffices ∀ (t : List Event) (o o' : Option UInt8), (∀ y, o = some y → o' = some y) →
      ∀ y, t.foldl (outStep p) o = some y → t.foldl (fun o e => match e with
        | .out q v => if q = p then some v else o
        | _ => o) o' = some y from this t none none (fun _ h => h) x h
  intro t
  induction t with
  | nil => intro o o' ho y hy; exact ho y hy
  | cons e t ih =>
    intro o o' ho y hy
    rw [List.foldl_cons] at hy ⊢
    refine ih _ _ ?_ y hy
    intro z hz
    cases e with
    | archInit => cases hz
    | out q v =>
      dsimp only
      unfold outStep at hz
      dsimp only at hz
      split
      · rename_i hq; rw [if_pos hq] at hz; exact hz
      · rename_i hq; rw [if_neg hq] at hz; exact ho z hz
    | _ => exact ho z hz

theorem ledOk_outputs {cfg : Config} {I : Indicator} {s : State} (h : LedOk cfg I s)
    (hv : I.v < NUM_VIRT) {l : List Nat} (hl : outputsOf s.dev I.v = some l) {p : Nat} (hp : p ∈ l) :
    lastOut s.dev.trace p = some (if I.val s.mods then 1 else 0) ∨
      (I.setup (cfg.setup s.curIdx) = false ∧ lastOut s.dev.trace p = none) := by
  obtain ⟨a, free, h1, h2, _⟩ := h
  rw [h1.outputsOf hv] at hl
  cases hl
  exact h2 p hp

/-- **C26** (partial: only once the indicator was driven since the last keymap
switch).  For every keymap list and every run: an output assigned to the
caps-lock indicator shows the caps-lock state, unless it was not driven at all
since the keymap was selected. -/
theorem C26_led_shows_caps_partial (cfg : Config) (h0 : cfg.valid 0 = true) (s0 s : State)
    (inps : List Input) (hb : boot cfg = .ok s0) (hr : run cfg s0 inps = .ok s) (l : List Nat)
    (hl : outputsOf s.dev VCAPS_LED = some l) (p : Nat) (hp : p ∈ l) :
    shown s.dev.trace p = some (if s.mods.caps ≠ 0 then 1 else 0) ∨
      lastOut s.dev.trace p = none := by
  have hok : LedOk cfg capsLed s := (caps_stable cfg).run hr
    ((caps_stable cfg).boot hb fun s1 s2 _ _ _ _ _ h => switch_caps h0 h)
  rcases ledOk_outputs hok (by decide) hl hp with h | ⟨_, h⟩
  · refine .inl ?_
    rw [shown_of_lastOut h]
    show some (if (s.mods.caps != 0) = true then (1 : UInt8) else 0) = _
    simp
  · exact .inr h

/-- **C26** (partial: keymaps whose setup activates caps lock after assigning the
indicator).  While such a keymap is selected, the indicator always shows the
caps-lock state. -/
theorem C26_always_partial (cfg : Config) (h0 : cfg.valid 0 = true) (s0 s : State)
    (inps : List Input) (hb : boot cfg = .ok s0) (hr : run cfg s0 inps = .ok s)
    (hd : drivesCaps (cfg.setup s.curIdx) = true) (l : List Nat)
    (hl : outputsOf s.dev VCAPS_LED = some l) (p : Nat) (hp : p ∈ l) :
    shown s.dev.trace p = some (if s.mods.caps ≠ 0 then 1 else 0) := by
  have hok : LedOk cfg capsLed s := (caps_stable cfg).run hr
    ((caps_stable cfg).boot hb fun s1 s2 _ _ _ _ _ h => switch_caps h0 h)
  rcases ledOk_outputs hok (by decide) hl hp with h | ⟨h, _⟩
  · rw [shown_of_lastOut h]
    show some (if (s.mods.caps != 0) = true then (1 : UInt8) else 0) = _
    simp
  · have h : drivesCaps (cfg.setup s.curIdx) = false := h
    rw [hd] at h
    cases h

/-- These are the Apple II, Sol and ACE 1000 keymaps. -/
theorem C26_driving_keymaps : ∀ i ∈ shippedNumbers,
    (drivesCaps (shipped.setup i) = true ∧ outputsOf
      (match keymapsSwitch shipped State.zero i with | .ok s => s.dev | .error _ => Dev.zero)
      VCAPS_LED ≠ some []) ↔ i ∈ [2, 4, 5] := by decide +kernel

/-- The same for the shift-lock indicator. -/
theorem C26_shift_led_partial (cfg : Config) (h0 : cfg.valid 0 = true) (s0 s : State)
    (inps : List Input) (hb : boot cfg = .ok s0) (hr : run cfg s0 inps = .ok s) (l : List Nat)
    (hl : outputsOf s.dev VSHIFT_LED = some l) (p : Nat) (hp : p ∈ l) :
    shown s.dev.trace p = some (if s.mods.shift &&& 2 ≠ 0 then 1 else 0) ∨
      lastOut s.dev.trace p = none := by
  have hok : LedOk cfg shiftLed s := (shift_stable cfg).run hr
    ((shift_stable cfg).boot hb fun s1 s2 _ _ _ _ _ h => switch_shift h0 h)
  rcases ledOk_outputs hok (by decide) hl hp with h | ⟨_, h⟩
  · refine .inl ?_
    rw [shown_of_lastOut h]
    show some (if (s.mods.shift &&& 2 != 0) = true then (1 : UInt8) else 0) = _
    simp
  · exact .inr h

/-- Non-vacuity of C26: CAPS pressed in keymap 0, and keymap 2 selected. -/
example : (runsOk (List.replicate 10 (closing 5 2)) = true ∧
      outputsOf (after (List.replicate 10 (closing 5 2))).dev VCAPS_LED = some [PHYSICAL_LED3] ∧
      shown (after (List.replicate 10 (closing 5 2))).dev.trace PHYSICAL_LED3 = some 1) ∧
    (runsOk (List.replicate 10 (closing 8 1)) = true ∧
      drivesCaps (shipped.setup (after (List.replicate 10 (closing 8 1))).curIdx) = true ∧
      outputsOf (after (List.replicate 10 (closing 8 1))).dev VCAPS_LED = some [PHYSICAL_LED1]) := by
  decide +kernel

/-! ## C32 -/

/-- The claim of C32: after a keymap was selected, every output it configures was
driven with the initial value given for it. -/
def C32Statement : Prop :=
  ∀ i ∈ shippedNumbers, ∀ s t, s.maps.length = 4 → keymapsSwitch shipped s i = .ok t →
    ∀ p v x, assignmentOf (shipped.setup i) p = some (v, x) → v ≠ VCAPS_LED →
      lastOut t.dev.trace p = some x

/-- **C32 is false**: selecting keymap 0 drives nothing. -/
theorem C32_false : ¬ C32Statement := by
  intro h
  have := h 0 (by decide) State.zero
    (match keymapsSwitch shipped State.zero 0 with | .ok s => s | .error _ => State.zero)
    (by decide) (by decide +kernel) PHYSICAL_LED1 VLED1 1 (by decide +kernel) (by decide)
  exact absurd this (by decide +kernel)

/-- The only output any shipped keymap drives on selection is the caps-lock
indicator. -/
theorem C32_nothing_driven : ∀ i ∈ shippedNumbers,
    ∀ p, p < 13 → lastOut
      (match keymapsSwitch shipped State.zero i with | .ok s => s.dev.trace | .error _ => []) p ≠ none →
      (assignmentOf (shipped.setup i) p).map Prod.fst = some VCAPS_LED := by decide +kernel

/-- Level and owner of an output through a setup function. -/
theorem outsStep_owned {x : UInt8 × Outputs} {p w : Nat} (hw : w ≠ VCAPS_LED)
    (hown : ∀ u, p ∈ x.2.lists u ↔ u = w) (c : SetupCmd) :
    (outsStep x c).2.level p = x.2.level p ∧ ∀ u, p ∈ (outsStep x c).2.lists u ↔ u = w := by
  cases c with
  | vassign v q fn i =>
    by_cases hc : x.2.CanAssign v q
    · have hpq : q ≠ p := by
        rintro rfl
        exact hc.2.2 w ((hown w).mpr rfl)
      simp only [outsStep, if_pos hc, Outputs.assign]
      refine ⟨if_neg (Ne.symm hpq), ?_⟩
      intro u
      split
      · rename_i hu
        subst hu
        simp only [List.mem_cons, Ne.symm hpq, false_or]
        exact hown u
      · exact hown u
    · simp only [outsStep, if_neg hc]
      exact ⟨trivial, hown⟩
  | capsActivate =>
    simp only [outsStep, act_lists]
    refine ⟨?_, hown⟩
    have hn : p ∉ x.2.lists VCAPS_LED := by
      intro hc
      exact hw ((hown _).mp hc).symm
    split <;> simp [Outputs.act, Outputs.drive, hn]
  | printDelay _ => exact ⟨rfl, hown⟩
  | addMap _ _ _ _ => exact ⟨rfl, hown⟩
  | hook _ _ => exact ⟨rfl, hown⟩
  | negStrobe => exact ⟨rfl, hown⟩

theorem outsFold_owned (cmds : List SetupCmd) {x : UInt8 × Outputs} {p w : Nat}
    (hw : w ≠ VCAPS_LED) (hown : ∀ u, p ∈ x.2.lists u ↔ u = w) :
    (cmds.foldl outsStep x).2.level p = x.2.level p := by
  induction cmds generalizing x with
  | nil => rfl
  | cons c cmds ih =>
    obtain ⟨h1, h2⟩ := outsStep_owned hw hown c
    rw [List.foldl_cons, ih h2, h1]

theorem outsFold_level (cmds : List SetupCmd) {x : UInt8 × Outputs} {p v : Nat} {i : UInt8}
    (hu : x.2.Unused p) (hp : 1 ≤ p ∧ p ≤ 12) (hv : 1 ≤ v ∧ v ≤ 11) (hne : v ≠ VCAPS_LED)
    (ha : assignmentOf cmds p = some (v, i)) : (cmds.foldl outsStep x).2.level p = i := by
  induction cmds generalizing x with
  | nil => cases ha
  | cons c cmds ih =>
    rw [List.foldl_cons]
    unfold assignmentOf at ha
    rw [List.findSome?_cons] at ha
    cases c with
    | vassign w q fn j =>
      dsimp only at ha
      by_cases hq : q = p
      · rw [if_pos hq] at ha
        cases ha
        subst hq
        have hc : x.2.CanAssign v q := ⟨hv, hp, hu⟩
        rw [outsFold_owned cmds hne (w := v)]
        · simp [outsStep, if_pos hc, Outputs.assign]
        · intro u
          simp only [outsStep, if_pos hc, Outputs.assign]
          split
          · rename_i h; simp [h]
          · rename_i h
            exact ⟨fun hm => absurd hm (hu u), fun hm => absurd hm h⟩
      · rw [if_neg hq] at ha
        refine ih ?_ ha
        intro u hm
        by_cases hc : x.2.CanAssign w q
        · simp only [outsStep, if_pos hc, Outputs.assign] at hm
          split at hm
          · rcases List.mem_cons.mp hm with h | h
            · exact hq h.symm
            · exact hu _ h
          · exact hu _ hm
        · simp only [outsStep, if_neg hc] at hm
          exact hu _ hm
    | capsActivate =>
      refine ih ?_ ha
      intro u hm
      simp only [outsStep, act_lists] at hm
      exact hu _ hm
    | printDelay _ => exact ih hu ha
    | addMap _ _ _ _ => exact ih hu ha
    | hook _ _ => exact ih hu ha
    | negStrobe => exact ih hu ha

/-- **C32** (partial: the value is recorded, not driven).  For every keymap list,
after selecting a keymap from any state, every output that it configures has the
given initial value as its recorded level (the value from which pulses and
toggles start). -/
theorem C32_recorded_partial (cfg : Config) (s : State) (i : UInt8) (hv : cfg.valid i = true)
    (hm : s.maps.length = 4) :
    ∃ t, keymapsSwitch cfg s i = .ok t ∧ ∀ p v x, 1 ≤ p → p ≤ 12 → 1 ≤ v → v ≤ 11 →
      assignmentOf (cfg.setup i) p = some (v, x) → v ≠ VCAPS_LED →
      (t.dev.phys[p]?).map PhysEntry.shadow = some x := by
  obtain ⟨d, f, e1, e2⟩ := keymapsSwitch_ok (s := s) hv hm
  refine ⟨_, e1, ?_⟩
  intro p v x hp1 hp2 hv1 hv2 ha hne
  have hlt : p < d.phys.length := by rw [e2.physLen]; show p < 13; omega
  have hg : d.phys[p]? = some d.phys[p] := List.getElem?_eq_getElem hlt
  show (d.phys[p]?).map PhysEntry.shadow = some x
  rw [hg, Option.map_some, e2.level p _ hg]
  congr 1
  exact outsFold_level _ (fun w hw => by cases hw) ⟨hp1, hp2⟩ ⟨hv1, hv2⟩ hne ha

/-- **C32**, what is missing: the one call that would drive the outputs with the
recorded values, `asdf_virtual_sync`, does so for every output, but the firmware
never makes it. -/
theorem C32_sync_would_drive (d : Dev) (h : d.phys.length = 13) :
    ∃ d', virtSync d = .ok d' ∧ d'.phys = d.phys ∧ d'.virt = d.virt ∧
      ∀ p, p < 13 → lastOut d'.trace p = (d.phys[p]?).map PhysEntry.shadow := by
  have key : ∀ n, n ≤ 13 → ∀ d0 : Dev, d0.phys = d.phys →
      ∃ d', (List.range n).foldlM physAssert d0 = .ok d' ∧ d'.phys = d.phys ∧ d'.virt = d0.virt ∧
        ∀ p, p < n → lastOut d'.trace p = (d.phys[p]?).map PhysEntry.shadow := by
    intro n
    induction n with
    | zero => intro _ d0 h0; exact ⟨d0, rfl, h0, rfl, by intro p hp; omega⟩
    | succ n ih =>
      intro hn d0 h0
      obtain ⟨d1, g1, g2, g3, g4⟩ := ih (by omega) d0 h0
      rw [List.range_succ, List.foldlM_append, g1, ok_bind]
      have hlt : n < d.phys.length := by omega
      have hg : d.phys[n]? = some d.phys[n] := List.getElem?_eq_getElem hlt
      refine ⟨d1.emit (.out n (d.phys[n]).shadow), ?_, g2, g3, ?_⟩
      · simp only [List.foldlM_cons, List.foldlM_nil, physAssert]
        rw [g2, rd_some hg]
        rfl
      · intro p hp
        by_cases hpn : p = n
        · subst hpn
          rw [hg]
          exact lastOut_drive (l := [p]) (by simp)
        · have : lastOut (d1.emit (.out n (d.phys[n]).shadow)).trace p = lastOut d1.trace p :=
            lastOut_silent (by
              intro e he
              rw [List.mem_singleton] at he
              subst he
              refine ⟨(by intro hc; cases hc), ?_⟩
              intro y hy
              cases hy
              exact hpn rfl)
          rw [this, g4 p (by omega)]
  obtain ⟨d', h1, h2, h3, h4⟩ := key 13 (by omega) d rfl
  exact ⟨d', h1, h2, h3, h4⟩

/-- Non-vacuity of C32: keymap 0 gives OUT1 (open low) the initial value 0 and LED1
the initial value 1. -/
example : shipped.valid 0 = true ∧ (after typedA).maps.length = 4 ∧
    assignmentOf (shipped.setup 0) PHYSICAL_OUT1_OPEN_LO = some (VOUT2, 0) ∧
    assignmentOf (shipped.setup 0) PHYSICAL_LED1 = some (VLED1, 1) := by decide +kernel

end Asdf.Props
