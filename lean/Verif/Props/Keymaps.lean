import Verif.Lemmas.Actions
import Verif.Lemmas.Put
import Verif.Props.Debounce

/-! # Properties C35, C38-C40 and C47: keymaps and power-up -/

namespace Asdf.Props

open Spec

/-! ## C39 -/

/-- **C39.** Every table of every shipped keymap is complete, within the scanner's
limits and has only defined entries; all four tables of a keymap have the same
dimensions; the DIP-switch row is the same in all tables and at the row in which
the hardware reads it. -/
theorem C39_tables_well_formed :
    ∀ i ∈ shippedNumbers, (shippedMaps i).length = 4 ∧ ∀ e ∈ shippedMaps i,
      wellFormed e = true ∧ rowOf e DIP_ROW = dipRow ∧
      ∀ e' ∈ shippedMaps i, e'.rows = e.rows ∧ e'.cols = e.cols := by decide +kernel

/-- **C39**, second part: these are all the keymaps; every other number is
rejected. -/
theorem C39_all_keymaps (i : UInt8) : shipped.valid i = true ↔ i ∈ shippedNumbers := by
  have h : ∀ n, n < 256 → (shipped.valid (UInt8.ofNat n) = true ↔
      UInt8.ofNat n ∈ shippedNumbers) := by decide +kernel
  have := h i.toNat i.toNat_lt
  rwa [UInt8.ofNat_toNat] at this

/-! ## C40 -/

/-- The claim of C40. -/
def C40Statement : Prop :=
  ∀ i ∈ shippedNumbers, ∀ j ∈ shippedNumbers, i ≠ j → idMessage i ≠ idMessage j

/-- **C40 is false**: keymaps 0 (classic) and 1 (classic caps) print the same
identification. -/
theorem C40_false : ¬ C40Statement := by
  intro h
  exact h 0 (by decide) 1 (by decide) (by decide) (by decide +kernel)

/-- **C40** (partial: all pairs except classic and classic caps).  Every shipped
keymap has an identification, and all others differ. -/
theorem C40_messages_differ_partial :
    ∀ i ∈ shippedNumbers, (idMessage i).isSome = true ∧ ∀ j ∈ shippedNumbers, i ≠ j →
      ¬ (i ≤ 1 ∧ j ≤ 1) → idMessage i ≠ idMessage j := by decide +kernel

/-! ## C47 -/

/-- **C47.** Power-up succeeds for every keymap list that has a keymap 0 (whether
that keymap leads to undefined behaviour later is C17): keymap 0 is selected, the
two buffers are distinct and empty, all keys are released with full debounce
counts, no modifier is on except that keymap 0 may turn on caps lock, and the
repeat timer is the one of an unused autorepeat. -/
theorem C47_power_up (cfg : Config) (h0 : cfg.valid 0 = true) :
    ∃ s, boot cfg = .ok s ∧ s.curIdx = 0 ∧ s.maps = mapsOf (cfg.setup 0) ∧
      s.hooks = hooksOf (cfg.setup 0) ∧
      s.kcBuf ≠ s.msgBuf ∧ keystrokes s = [] ∧ messages s = [] ∧
      (∀ r c, r < 16 → c < 8 → debOf s r c = Deb.init) ∧
      s.mods = ⟨0, capsOf 0 (cfg.setup 0), 0⟩ ∧ s.lastKey = 0xA0 ∧ s.rep = repAfter [] ∧
      (∀ v, v < 12 → outputsOf s.dev v = some ((outsOf 0 (cfg.setup 0)).2.lists v)) := by
  obtain ⟨d, free, b, e1, e2, e3⟩ := boot_ok h0
  refine ⟨_, e1, rfl, rfl, rfl, (by decide : (0 : Int) ≠ 1), ?_, ?_, ?_, rfl, rfl, rfl, fun v hv => e2.outputsOf hv⟩
  · exact (streams_of e3 rfl rfl).1
  · exact (streams_of e3 rfl rfl).2
  · intro r c hr hc
    have h1 : ((List.replicate 16 (0 : UInt8))[r]?).getD 0 = 0 := by
      rw [List.getElem?_replicate, if_pos hr]; rfl
    have h2 : ((((List.replicate 16 (List.replicate 8 (10 : UInt8)))[r]?).getD [])[c]?).getD 0 = 10 := by
      rw [List.getElem?_replicate, if_pos hr]
      show ((List.replicate 8 (10 : UInt8))[c]?).getD 0 = 10
      rw [List.getElem?_replicate, if_pos hc]; rfl
    unfold debOf accepted counter
    dsimp only
    rw [h1, h2]
    simp [bitOf, Deb.init]

/-- **C47**, the buffers: the keystroke buffer takes 16 codes and the message
buffer 128; together they fill the pool, so that every further reservation
fails. -/
theorem C47_buffer_sizes (cfg : Config) (h0 : cfg.valid 0 = true) (s : State)
    (hb : boot cfg = .ok s) :
    (∀ xs : List Code, ∃ s', xs.foldlM putCode s = .ok s' ∧ keystrokes s' = xs.take 16 ∧
      messages s' = []) ∧
    (∀ xs : List Code, ∃ s', xs.foldlM putMsg s = .ok s' ∧ messages s' = xs.take 128 ∧
      keystrokes s' = []) ∧
    (∀ n : Nat, 1 ≤ n → bufNew s.buf n = .ok (-1, s.buf)) := by
  obtain ⟨d, free, b, e1, _, e3⟩ := boot_ok h0
  obtain ⟨e3, hk, hm⟩ : BufRel s.buf (twoQ [] []) ∧ s.kcBuf = 0 ∧ s.msgBuf = 1 := by
    rw [e1] at hb
    cases hb
    exact ⟨e3, rfl, rfl⟩
  refine ⟨?_, ?_, ?_⟩
  · intro xs
    obtain ⟨s', g1, g2, g3, g4⟩ := putCodes_ok xs [] [] e3 hk hm
    refine ⟨s', g1, ?_⟩
    obtain ⟨g5, g6⟩ := streams_of g2 g3 g4
    rw [g5, g6, putAllL_take _ _ _ (by simp)]
    exact ⟨by simp, rfl⟩
  · intro xs
    obtain ⟨s', g1, g2, g3, g4⟩ := putMsgs_ok xs [] [] e3 hk hm
    refine ⟨s', g1, ?_⟩
    obtain ⟨g5, g6⟩ := streams_of g2 g3 g4
    rw [g5, g6, putAllL_take _ _ _ (by simp)]
    exact ⟨by simp, rfl⟩
  · intro n hn
    obtain ⟨b', f1, _, f3⟩ := e3.new n
    have hf : ¬ fits (twoQ [] []) n := by
      unfold fits twoQ reserved
      simp
      omega
    rw [f1, if_neg hf, f3 hf]

/-- Non-vacuity of C47: the shipped firmware has a keymap 0. -/
example : shipped.valid 0 = true ∧ boot shipped = .ok (after []) := by decide +kernel

/-! ## C35 -/

/-- **C35.** Switching to a valid keymap from any two states gives the same
tables, hooks, keymap number, output assignments and output functions, the ones
that the setup function of the new keymap defines. -/
theorem C35_no_residue (cfg : Config) (s1 s2 : State) (i : UInt8) (hv : cfg.valid i = true)
    (h1 : s1.maps.length = 4) (h2 : s2.maps.length = 4) :
    ∃ t1 t2, keymapsSwitch cfg s1 i = .ok t1 ∧ keymapsSwitch cfg s2 i = .ok t2 ∧
      t1.curIdx = i ∧ t2.curIdx = i ∧
      t1.maps = mapsOf (cfg.setup i) ∧ t2.maps = t1.maps ∧
      t1.hooks = hooksOf (cfg.setup i) ∧ t2.hooks = t1.hooks ∧
      t1.dev.virt = t2.dev.virt ∧
      (∀ v, v < 12 → outputsOf t1.dev v = some ((outsOf 0 (cfg.setup i)).2.lists v) ∧
        outputsOf t2.dev v = outputsOf t1.dev v) := by
  obtain ⟨d1, f1, e1, e2⟩ := keymapsSwitch_ok (s := s1) hv h1
  obtain ⟨d2, f2, g1, g2⟩ := keymapsSwitch_ok (s := s2) hv h2
  have ha := outsOf_lists s1.mods.caps 0 (cfg.setup i)
  have hb := outsOf_lists s2.mods.caps 0 (cfg.setup i)
  refine ⟨_, _, e1, g1, rfl, rfl, rfl, rfl, rfl, rfl, ?_, ?_⟩
  · show d1.virt = d2.virt
    apply List.ext_getElem?
    intro v
    have l1 := e2.virtLen
    have l2 := g2.virtLen
    by_cases hlt : v < NUM_VIRT
    · have k1 : d1.virt[v]? = some (d1.virt[v]'(by omega)) := List.getElem?_eq_getElem (by omega)
      have k2 : d2.virt[v]? = some (d2.virt[v]'(by omega)) := List.getElem?_eq_getElem (by omega)
      obtain ⟨x1, x2⟩ := e2.start v _ k1
      obtain ⟨y1, y2⟩ := g2.start v _ k2
      rw [k1, k2]
      generalize d1.virt[v]'(by omega) = ve at *
      generalize d2.virt[v]'(by omega) = we at *
      cases ve
      cases we
      simp only [ha.1, ha.2] at x1 x2
      simp only [hb.1, hb.2] at y1 y2
      rw [x1, x2, y1, y2]
    · rw [List.getElem?_eq_none (by omega), List.getElem?_eq_none (by omega)]
  · intro v hv'
    rw [e2.outputsOf hv', g2.outputsOf hv', ha.1, hb.1]
    exact ⟨rfl, rfl⟩

/-- **C35**, what is kept: pending output, debounce state, the code due for
repetition, the repeat timer and the SHIFT and CTRL state. -/
theorem C35_kept (cfg : Config) (s : State) (i : UInt8) (h : s.maps.length = 4) :
    ∃ t, keymapsSelect cfg s i = .ok t ∧ t.buf = s.buf ∧ t.kcBuf = s.kcBuf ∧
      t.msgBuf = s.msgBuf ∧ t.stable = s.stable ∧ t.counters = s.counters ∧
      t.lastKey = s.lastKey ∧ t.rep = s.rep ∧ t.mods.shift = s.mods.shift ∧
      t.mods.ctrl = s.mods.ctrl := by
  unfold keymapsSelect
  by_cases hne : i ≠ s.curIdx
  · rw [if_pos hne]
    by_cases hv : cfg.valid i = true
    · obtain ⟨d1, f1, e1, e2⟩ := keymapsSwitch_ok (s := s) hv h
      exact ⟨_, e1, rfl, rfl, rfl, rfl, rfl, rfl, rfl, rfl, rfl⟩
    · exact ⟨s, keymapsSwitch_invalid hv, rfl, rfl, rfl, rfl, rfl, rfl, rfl, rfl, rfl⟩
  · rw [if_neg hne]
    exact ⟨s, rfl, rfl, rfl, rfl, rfl, rfl, rfl, rfl, rfl, rfl⟩

/-- Non-vacuity of C35: the power-up state and a state with another keymap, held
keys and pending output have four tables, and every shipped keymap is valid. -/
example : (after []).maps.length = 4 ∧ (after typedA).maps.length = 4 ∧
    keystrokes (after typedA) ≠ [] ∧ (after (List.replicate 10 (closing 8 1))).curIdx = 2 ∧
    (after (List.replicate 10 (closing 8 1))).maps.length = 4 ∧
    ∀ i ∈ shippedNumbers, shipped.valid i = true := by decide +kernel

/-! ## C38 -/

/-- The claim of C38, for the shipped firmware: a sample of a DIP switch never
changes the queue of keystrokes. -/
def C38Statement : Prop :=
  ∀ s log, History shipped shippedLayout s log → ∀ c, c < 8 → ∀ p s',
    (p = true → shippedLayout.blocked DIP_ROW c = false) →
    keyStep shipped p s DIP_ROW c = .ok s' → keystrokes s' = keystrokes s

/-- Closing DIP switch 4 sends a NUL to the host. -/
theorem C38_dip4_types : runsOk (List.replicate 11 (closing 8 4)) = true ∧
    sends (after (List.replicate 11 (closing 8 4))).dev.trace = [0] := by decide +kernel

/-- **C38 is false**: a reachable state just before DIP switch 4 is accepted (row 8 is the
last row; columns 0-3 are open). -/
theorem C38_false : ¬ C38Statement := by
  intro h
  have hr : Reachable shipped shippedLayout (after (List.replicate 9 (closing 8 4))) :=
    after_reachable (by decide +kernel) (by
      intro inp hi
      rw [(List.mem_replicate.mp hi).2]
      intro r c _ _ hb
      simp only [shippedLayout, Bool.and_eq_true, beq_iff_eq] at hb
      rw [hb.1, hb.2]
      decide)
  obtain ⟨log, hl⟩ := hr.history (cfgFacts shipped_ok)
  have hk : (match keyStep shipped true (after (List.replicate 9 (closing 8 4))) DIP_ROW 4 with
      | .ok s' => keystrokes s' == [0]
      | .error _ => false) = true := by decide +kernel
  have hs : keystrokes (after (List.replicate 9 (closing 8 4))) = [] := by decide +kernel
  cases hst : keyStep shipped true (after (List.replicate 9 (closing 8 4))) DIP_ROW 4 with
  | error e => rw [hst] at hk; cases hk
  | ok s' =>
    rw [hst] at hk
    have := h _ log hl 4 (by decide) true s' (by decide) hst
    rw [hs] at this
    simp only [this, beq_iff_eq] at hk
    cases hk

/-- **C38** (partial: all DIP switches except number 4).  In every history of the
shipped firmware with keymaps 0-3, no sample of DIP switch 0-3 or 5-7 changes the
queue of keystrokes. -/
theorem C38_dips_never_type_partial (s s' : State) (log : List KeyEv)
    (h : History shipped shippedLayout s log) (c : Nat) (hc : c < 8) (h4 : c ≠ 4) (p : Bool)
    (hp : p = true → shippedLayout.blocked DIP_ROW c = false)
    (hk : keyStep shipped p s DIP_ROW c = .ok s') : keystrokes s' = keystrokes s := by
  have hcf := cfgFacts shipped_ok
  obtain ⟨⟨ks, ms, a, free, hw⟩, _⟩ := h.inv hcf
  have hgt : 0xA0 < (codeOf s 8 DIP_ROW c).toNat := by
    obtain ⟨t, h1, h2⟩ := codeOf_mem hcf hw DIP_ROW c
    have : ∀ i ∈ shippedLayout.maps, ∀ t ∈ tablesOf shipped i, ∀ c, c < 8 → c ≠ 4 →
        0xA0 < (entryAt t 8 DIP_ROW c).toNat := by decide +kernel
    rw [show codeOf s 8 DIP_ROW c = entryAt t 8 DIP_ROW c from h2]
    exact this _ hw.idx t h1 c hc h4
  obtain ⟨s2, ms', a', f', e1, e2, _⟩ := keyStep_ev hcf hw (r := DIP_ROW) (c := c)
    (show DIP_ROW < 9 by decide) hc hp
  rw [hk] at e1
  cases e1
  rw [e2.keystrokes, hw.keystrokes]
  unfold eventOf
  show keysEv ks _ = ks
  rw [show shippedLayout.cols = 8 from rfl]
  by_cases h1 : p ≠ accepted s DIP_ROW c
  · rw [if_pos h1]
    by_cases h2 : counter s DIP_ROW c = 1
    · rw [if_pos h2]
      cases p
      · rfl
      · show keysAfterPress ks _ = ks
        unfold keysAfterPress
        rw [if_neg (by omega)]
    · rw [if_neg h2]; rfl
  · rw [if_neg h1]
    split
    · rename_i hx
      have := hw.last
      rw [← hx.2.1] at this
      omega
    · rfl

/-- Non-vacuity of C38: a press of DIP switch 7 is accepted in a history. -/
example : ∃ log, History shipped shippedLayout (after (List.replicate 10 (closing 8 7))) log ∧
    accepted (after (List.replicate 10 (closing 8 7))) DIP_ROW 7 = true := by
  have hr : Reachable shipped shippedLayout (after (List.replicate 10 (closing 8 7))) :=
    after_reachable (by decide +kernel) (by
      intro inp hi
      rw [(List.mem_replicate.mp hi).2]
      intro r c _ _ hb
      simp only [shippedLayout, Bool.and_eq_true, beq_iff_eq] at hb
      rw [hb.1, hb.2]
      decide)
  obtain ⟨log, hl⟩ := hr.history (cfgFacts shipped_ok)
  exact ⟨log, hl, by decide +kernel⟩

end Asdf.Props
