import Verif.Lemmas.Agree
import Verif.Lemmas.Whole
import Verif.Props.Whole

/-! # The shipped firmware and the one without keymaps 4 and 5, on the boards -/

namespace Asdf

open Spec Avr

theorem outputPhase_ext {s s' : State} (h : outputPhase s = .ok s') :
    ∃ evs, s'.dev.trace = s.dev.trace ++ evs := by
  unfold outputPhase at h
  obtain ⟨⟨c, s1⟩, h1, h⟩ := bind_eq_ok.mp h
  have e1 : ∃ evs, s1.dev.trace = s.dev.trace ++ evs := by
    unfold nextCode at h1
    obtain ⟨x, _, h1⟩ := bind_eq_ok.mp h1
    dsimp only at h1
    split at h1
    · obtain ⟨y, _, h1⟩ := bind_eq_ok.mp h1
      cases h1
      exact ⟨[], (List.append_nil _).symm⟩
    · cases h1
      exact ⟨_, rfl⟩
  obtain ⟨evs, e1⟩ := e1
  dsimp only at h
  split at h
  · unfold callOutput at h
    obtain ⟨f, _, h⟩ := bind_eq_ok.mp h
    split at h
    · cases h
      refine ⟨evs ++ [.send c], ?_⟩
      rw [← List.append_assoc, ← e1]
      rfl
    · cases h
  · cases h; exact ⟨evs, e1⟩

/-- How the matrix is read on a board once keymap 4 or 5 is selected. -/
theorem board_trap_scanRows {B : Board} {T : Whole.Target} {ready : Regs → Prop}
    (hf : OnBoard B T ready) {mx : Nat → Whole.Contacts} {p : Phys} (fuel : Nat) :
    ∀ {row : Nat} {w : Whole.Whole} {n : Nat}, Trapped n w.fw → Good B ready p w → 1 ≤ n →
      row ≤ 16 → 16 < row + fuel →
      Whole.scanRows T shipped .archReadRow mx fuel row w = .error .oob ∨
      ∃ w' n', Whole.scanRows T shipped .archReadRow mx fuel row w = .ok w' ∧ Trapped n' w'.fw ∧
        Good B ready p w' ∧ 1 ≤ n' ∧ n' ≤ n ∧ (row ≤ 8 → n' < n) := by
  induction fuel with
  | zero =>
    intro row w n h hg hn hrow hf
    omega
  | succ fuel ih =>
    intro row w n h hg hn _ hfu
    obtain ⟨ks, ms, a, free, hw⟩ := h.wf
    obtain ⟨m, h1, h2, h3⟩ := trap_rows hw
    unfold Whole.scanRows
    rw [h1, ok_bind]
    by_cases hrow : row < m.toNat
    · rw [if_pos hrow]
      have hst : row < w.fw.stable.length := by rw [hw.stableLen]; omega
      have hst' : w.fw.stable[row] = (w.fw.stable[row]?).getD 0 := by
        rw [List.getElem?_eq_getElem hst]; rfl
      have hrw : (UInt8.ofNat row).toNat = row := by
        rw [UInt8.toNat_ofNat']; omega
      obtain ⟨l, r1, r2, r3⟩ := hf.read (mx row) (UInt8.ofNat row) w.regs hg.ready (by omega)
      rw [hrw] at r1
      have hg1 : Good B ready p { w with regs := l.getLast?.getD w.regs, log := w.log ++ l } :=
        ⟨r2, hg.path.read l r3⟩
      unfold Whole.callReader
      simp only []
      rw [r1, ok_bind]
      simp only [ok_bind]
      rw [rd_ok hst, ok_bind]
      rcases trap_scanCols (r := row) (by omega) 8 (fuel := 256) (col := 0)
        (changed := (mx row).keys row ^^^ w.fw.stable[row]) (keys := (mx row).keys row) h hn
        (by omega) (by omega) (by
          intro hr8 _
          subst hr8
          rw [bitOf_xor, hst']
          have : bitOf ((w.fw.stable[8]?).getD 0) 2 = true := h.on
          show (bitOf ((mx 8).keys 8) 2 != bitOf ((w.fw.stable[8]?).getD 0) 2) = _
          rw [this]
          cases bitOf ((mx 8).keys 8) 2 <;> rfl) with e | ⟨s1, n1, e1, e2, e3, e4, e5⟩
      · left; rw [e]; rfl
      · rw [e1, ok_bind]
        obtain ⟨hg2, hfw⟩ := hg1.goOn hf (s := s1) (scanCols_ns _ e1).ext
        rcases ih (row := row + 1) (by rw [hfw]; exact e2) hg2 e3 (by omega) (by omega) with
          e | ⟨s', n', g1, g2, gg, g3, g4, g5⟩
        · exact Or.inl e
        · refine Or.inr ⟨s', n', g1, g2, gg, g3, by omega, ?_⟩
          intro hr8
          by_cases h8 : row = 8
          · have := e5 h8 (by omega); omega
          · have := g5 (by omega); omega
    · rw [if_neg hrow]
      exact Or.inr ⟨w, n, rfl, h, hg, hn, Nat.le_refl _, fun _ => by omega⟩

/-- How the matrix is read on a board. -/
theorem board_scanRows {B : Board} {T : Whole.Target} {ready : Regs → Prop}
    (hf : OnBoard B T ready) {mx : Nat → Whole.Contacts} {p : Phys} (n : Nat) :
    ∀ {fuel row : Nat} {w : Whole.Whole} {k : Kb}, Shows fourMaps openLayout w.fw k → Follows k →
      Good B ready p w → row + n = 9 → 16 < row + fuel →
      (Calm (contactsRead mx) (keyOrder 8 row n) k →
        Whole.scanRows T shipped .archReadRow mx fuel row w =
          Whole.scanRows T fourMaps .archReadRow mx fuel row w) ∧
      (¬ Calm (contactsRead mx) (keyOrder 8 row n) k →
        Whole.scanRows T shipped .archReadRow mx fuel row w = .error .oob ∨
        ∃ w' m, Whole.scanRows T shipped .archReadRow mx fuel row w = .ok w' ∧ Trapped m w'.fw ∧
          Good B ready p w' ∧ 1 ≤ m ∧ m ≤ 10) := by
  have hcf := fourMaps_facts
  induction n with
  | zero =>
    intro fuel row w k h _ hg hrow hfu
    obtain ⟨fuel, rfl⟩ : ∃ f, fuel = f + 1 := ⟨fuel - 1, by omega⟩
    obtain ⟨free, hw⟩ := h.wf
    obtain ⟨m, h1, h2⟩ := numRows_ok hcf hw.idx hw.maps
    have h2 : m.toNat = 9 := h2
    refine ⟨fun _ => ?_, fun hc => absurd trivial hc⟩
    unfold Whole.scanRows
    rw [h1, ok_bind, if_neg (by omega), ok_bind, if_neg (by omega)]
  | succ n ih =>
    intro fuel row w k h hfo hg hrow hfu
    obtain ⟨fuel, rfl⟩ : ∃ f, fuel = f + 1 := ⟨fuel - 1, by omega⟩
    obtain ⟨free, hw⟩ := h.wf
    obtain ⟨m, h1, h2⟩ := numRows_ok hcf hw.idx hw.maps
    have h2 : m.toNat = 9 := h2
    have hst : row < w.fw.stable.length := by rw [hw.stableLen]; omega
    have hst' : w.fw.stable[row] = (w.fw.stable[row]?).getD 0 := by
      rw [List.getElem?_eq_getElem hst]; rfl
    have hrw : (UInt8.ofNat row).toNat = row := by
      rw [UInt8.toNat_ofNat']; omega
    obtain ⟨l, r1, r2, r3⟩ := hf.read (mx row) (UInt8.ofNat row) w.regs hg.ready (by omega)
    rw [hrw] at r1
    have hg1 : Good B ready p { w with regs := l.getLast?.getD w.regs, log := w.log ++ l } :=
      ⟨r2, hg.path.read l r3⟩
    have hlist : keyOrder 8 row (n + 1) =
        ((List.range' 0 8).map fun c => (row, c)) ++ keyOrder 8 (row + 1) n := by
      unfold keyOrder; rw [List.range'_succ (n := n), List.flatMap_cons]
    have unf : ∀ cfg, Whole.scanRows T cfg .archReadRow mx (fuel + 1) row w =
        (scanCols cfg row 256 0 ((mx row).keys row ^^^ w.fw.stable[row]) ((mx row).keys row) w.fw
          >>= fun s => Whole.scanRows T cfg .archReadRow mx fuel (row + 1)
            (Whole.Whole.goOn T { w with regs := l.getLast?.getD w.regs, log := w.log ++ l } s)) := by
      intro cfg
      rw [Whole.scanRows, h1, ok_bind, if_pos (by omega)]
      unfold Whole.callReader
      simp only []
      rw [r1, ok_bind]
      simp only [ok_bind]
      rw [rd_ok hst, ok_bind]
    rw [unf shipped, unf fourMaps, hlist, calm_append]
    have hs1 : ∀ c, 0 ≤ c → c < 8 → bitOf ((mx row).keys row) (c - 0) =
        sample (contactsRead mx) row c := fun c _ _ => by simp [sample, contactsRead]
    have hs2 : ∀ c, 0 ≤ c → c < 8 →
        bitOf ((mx row).keys row ^^^ w.fw.stable[row]) (c - 0) =
          (sample (contactsRead mx) row c != accepted w.fw row c) :=
      fun c _ _ => by simp [sample, contactsRead, bitOf_xor, accepted, hst']
    obtain ⟨c1, c2⟩ := shipped_scanCols (inp := contactsRead mx) (r := row) (by omega) 8
      (fuel := 256) (col := 0) h hfo (by omega) (by omega) hs1 hs2
    by_cases hc : Calm (contactsRead mx) ((List.range' 0 8).map fun c => (row, c)) k
    · have hx : ∀ x ∈ (List.range' 0 8).map fun c => (row, c), x.1 < 9 ∧ x.2 < 8 := by
        intro x hx
        simp only [List.mem_map, List.mem_range'_1] at hx
        obtain ⟨c, hc, rfl⟩ := hx
        exact ⟨by omega, by omega⟩
      obtain ⟨s1, e1, e2⟩ := h.keys hcf (openLayout_allowed (contactsRead mx)) _ hx
      have hsc := c1 hc
      rw [e1] at hsc
      have hsf : scanCols fourMaps row 256 0 ((mx row).keys row ^^^ w.fw.stable[row])
          ((mx row).keys row) w.fw = .ok s1 := by
        rw [← e1]
        exact scanCols_fold hcf (openLayout_allowed (contactsRead mx)) (by simpa [openLayout] using (by omega : row < 9)) 8
          ⟨_, _, _, _, hw⟩ (by simp [openLayout]) (by omega) hs1 hs2
      obtain ⟨hg2, hfw⟩ := hg1.goOn hf (s := s1) (scanCols_ns _ hsc).ext
      obtain ⟨g1, g2⟩ := ih (fuel := fuel) (row := row + 1) (by rw [hfw]; exact e2)
        (follows_keys (contactsRead mx) _ hx hfo) hg2 (by omega) (by omega)
      rw [hsc, hsf, ok_bind, ok_bind]
      exact ⟨fun hh => g1 hh.2, fun hh => g2 (fun h2 => hh ⟨hc, h2⟩)⟩
    · refine ⟨fun hh => absurd hh.1 hc, fun _ => ?_⟩
      rcases c2 hc with e | ⟨s1, m1, e1, e2, e3, e4⟩
      · left
        rw [e]; rfl
      · rw [e1, ok_bind]
        obtain ⟨hg2, hfw⟩ := hg1.goOn hf (s := s1) (scanCols_ns _ e1).ext
        rcases board_trap_scanRows hf (mx := mx) fuel (row := row + 1) (by rw [hfw]; exact e2) hg2
          e3 (by omega) (by omega) with e | ⟨s', n', g1, g2, gg, g3, g4, _⟩
        · exact Or.inl e
        · exact Or.inr ⟨s', n', g1, g2, gg, g3, by omega⟩

/-- The scan on a board starts by calling the row reader. -/
theorem board_keyscan_eq {T : Whole.Target} {cfg : Config} {mx : Nat → Whole.Contacts}
    {w : Whole.Whole} (h2 : w.fw.hooks[HOOK_ROW_SCANNER]? = some .archReadRow)
    (h4 : w.fw.hooks[HOOK_EACH_SCAN]? = some .null) :
    Whole.keyscan T cfg mx w = Whole.scanRows T cfg .archReadRow mx 256 0 (w.goOn T w.fw) := by
  unfold Whole.keyscan hookGet hookExecute
  rw [if_pos (hookValid_iff.mpr (by decide)), rd_some h2, ok_bind]
  rw [if_pos (hookValid_iff.mpr (by decide)), rd_some h4, ok_bind]
  rfl

theorem board_trap_pass {B : Board} {T : Whole.Target} {ready : Regs → Prop}
    (hf : OnBoard B T ready) {mx : Nat → Whole.Contacts} {p : Phys} {w : Whole.Whole} {n : Nat}
    (h : Trapped n w.fw) (hg : Good B ready p w) (hn : 1 ≤ n) :
    Whole.pass T shipped w mx = .error .oob ∨
      ∃ w' n', Whole.pass T shipped w mx = .ok w' ∧ Trapped n' w'.fw ∧ Good B ready p w' ∧
        1 ≤ n' ∧ n' < n := by
  obtain ⟨s1, e1, e2⟩ := trap_output h
  obtain ⟨hg1, hfw1⟩ := hg.goOn hf (outputPhase_ext e1)
  unfold Whole.pass
  rw [e1, ok_bind]
  generalize w.goOn T s1 = w1 at hg1 hfw1
  subst hfw1
  obtain ⟨ks, ms, a, free, hw⟩ := e2.wf
  obtain ⟨hk2, _, hk4, _⟩ := hooksOk_facts (trap_tables _ hw.idx).2.2
  rw [← hw.hooks] at hk2 hk4
  rw [board_keyscan_eq hk2 hk4]
  obtain ⟨hg2, hfw2⟩ := hg1.goOn hf (s := w1.fw) ⟨[], (List.append_nil _).symm⟩
  rcases board_trap_scanRows hf (mx := mx) 256 (row := 0) (by rw [hfw2]; exact e2) hg2 hn
    (by omega) (by omega) with e | ⟨s', n', g1, g2, gg, g3, _, g5⟩
  · exact Or.inl e
  · exact Or.inr ⟨s', n', g1, g2, gg, g3, g5 (by omega)⟩

/-- With keymap 4 or 5 selected no run of `n` scans is possible. -/
theorem board_trap_run {B : Board} {T : Whole.Target} {ready : Regs → Prop}
    (hf : OnBoard B T ready) (mxs : List (Nat → Whole.Contacts)) {p : Phys} {w : Whole.Whole}
    {n : Nat} (h : Trapped n w.fw) (hg : Good B ready p w) (hn : 1 ≤ n) (hlen : n ≤ mxs.length) :
    mxs.foldlM (Whole.pass T shipped) w = .error .oob := by
  induction mxs generalizing w n with
  | nil => simp at hlen; omega
  | cons mx mxs ih =>
    rw [List.foldlM_cons]
    rcases board_trap_pass hf (mx := mx) h hg hn with e | ⟨w', n', g1, g2, gg, g3, g4⟩
    · rw [e]; rfl
    · rw [g1, ok_bind]
      simp only [List.length_cons] at hlen
      exact ih g2 gg g3 (by omega)

/-- One pass on a board after a run. -/
theorem board_pass {B : Board} {T : Whole.Target} {ready : Regs → Prop} (hf : OnBoard B T ready)
    (pre : List Input) (mx : Nat → Whole.Contacts) {p : Phys} {w : Whole.Whole}
    (h : Shows fourMaps openLayout w.fw (Kb.after fourMaps openLayout pre))
    (hfo : Follows (Kb.after fourMaps openLayout pre)) (hg : Good B ready p w) :
    (¬ Trips pre (contactsRead mx) → Whole.pass T shipped w mx = Whole.pass T fourMaps w mx) ∧
    (Trips pre (contactsRead mx) → Whole.pass T shipped w mx = .error .oob ∨
      ∃ w' m, Whole.pass T shipped w mx = .ok w' ∧ Trapped m w'.fw ∧ Good B ready p w' ∧ 1 ≤ m ∧
        m ≤ 10) := by
  have hcf := fourMaps_facts
  obtain ⟨s1, e1, e2⟩ := h.output hcf
  have ht := calm_trips pre (contactsRead mx)
  obtain ⟨hg1, hfw1⟩ := hg.goOn hf (outputPhase_ext e1)
  unfold Whole.pass
  rw [e1, ok_bind, ok_bind]
  generalize w.goOn T s1 = w1 at hg1 hfw1
  subst hfw1
  obtain ⟨free, hw⟩ := e2.wf
  obtain ⟨hk2, _, hk4, _⟩ := hooksOk_facts (hcf.parts hw.idx).2.2.2
  rw [← hw.hooks] at hk2 hk4
  rw [board_keyscan_eq hk2 hk4, board_keyscan_eq hk2 hk4]
  obtain ⟨hg2, hfw2⟩ := hg1.goOn hf (s := w1.fw) ⟨[], (List.append_nil _).symm⟩
  obtain ⟨g1, g2⟩ := board_scanRows hf (mx := mx) 9 (fuel := 256) (row := 0) (by rw [hfw2]; exact e2)
    hfo.output hg2 (by omega) (by omega)
  rw [keysOf_allKeys] at ht
  exact ⟨fun hn => g1 (ht.mpr hn), fun hn => g2 (fun hh => (ht.mp hh) hn)⟩

theorem life_snoc (T : Whole.Target) (cfg : Config) (r0 : Regs) (mxs : List (Nat → Whole.Contacts))
    (mx : Nat → Whole.Contacts) : Whole.life T cfg r0 (mxs ++ [mx]) =
      (Whole.life T cfg r0 mxs >>= fun w => Whole.pass T cfg w mx) := by
  unfold Whole.life
  cases Whole.powerUp T cfg r0 with
  | error e => rfl
  | ok w =>
    rw [ok_bind, ok_bind, List.foldlM_append]
    cases List.foldlM (Whole.pass T cfg) w mxs with
    | error e => rfl
    | ok w' =>
      rw [ok_bind, ok_bind, List.foldlM_cons]
      cases Whole.pass T cfg w' mx <;> rfl

/-- A safe life of the repaired firmware on a board. -/
theorem board_four {B : Board} {T : Whole.Target} {ready : Regs → Prop} (hf : OnBoard B T ready)
    (r0 : Regs) (mxs : List (Nat → Whole.Contacts)) :
    ∃ w, Whole.life T fourMaps r0 mxs = .ok w ∧
      Shows fourMaps openLayout w.fw (Kb.after fourMaps openLayout (mxs.map contactsRead)) ∧
      Follows (Kb.after fourMaps openLayout (mxs.map contactsRead)) ∧
      Good B ready ⟨[], r0, []⟩ w := by
  obtain ⟨w, e1, e2, _, e4⟩ := whole_life hf fourMaps_facts r0 mxs
    (fun mx _ => openLayout_allowed _)
  obtain ⟨s, g1, g2, g3⟩ := four_run (mxs.map contactsRead)
  rw [e2] at g1
  have hs := Except.ok.inj g1
  subst hs
  exact ⟨w, e1, g2, g3, e4⟩

theorem life_nil (T : Whole.Target) (cfg : Config) (r0 : Regs) :
    Whole.life T cfg r0 [] = Whole.powerUp T cfg r0 := by
  unfold Whole.life
  cases Whole.powerUp T cfg r0 <;> rfl

theorem life_same {B : Board} {T : Whole.Target} {ready : Regs → Prop} (hf : OnBoard B T ready)
    (r0 : Regs) (mxs : List (Nat → Whole.Contacts)) (h : NeverTrips (mxs.map contactsRead)) :
    Whole.life T shipped r0 mxs = Whole.life T fourMaps r0 mxs := by
  induction mxs using snoc_induction with
  | h0 =>
    rw [life_nil, life_nil]
    unfold Whole.powerUp
    rw [boot_same]
  | h1 mxs mx ih =>
    rw [List.map_append] at h
    obtain ⟨h1, h2⟩ := Spec.NeverTrips.init (x := contactsRead mx) h
    obtain ⟨w, e1, e2, e3, e4⟩ := board_four hf r0 mxs
    rw [life_snoc, life_snoc, ih h1, e1, ok_bind, ok_bind]
    exact (board_pass hf _ mx e2 e3 e4).1 h2

theorem life_trips {B : Board} {T : Whole.Target} {ready : Regs → Prop} (hf : OnBoard B T ready)
    (r0 : Regs) (pre : List (Nat → Whole.Contacts)) (mx : Nat → Whole.Contacts)
    (post : List (Nat → Whole.Contacts)) (h : Trips (pre.map contactsRead) (contactsRead mx))
    (hn : NeverTrips (pre.map contactsRead)) (hp : 10 ≤ post.length) :
    Whole.life T shipped r0 (pre ++ mx :: post) = .error .oob := by
  obtain ⟨w, e1, e2, e3, e4⟩ := board_four hf r0 pre
  have hl : Whole.life T shipped r0 (pre ++ mx :: post) =
      (Whole.life T shipped r0 (pre ++ [mx]) >>= fun w => post.foldlM (Whole.pass T shipped) w) := by
    have : pre ++ mx :: post = (pre ++ [mx]) ++ post := by simp
    rw [this]
    unfold Whole.life
    cases Whole.powerUp T shipped r0 with
    | error e => rfl
    | ok w => rw [ok_bind, ok_bind, List.foldlM_append]
  rw [hl, life_snoc, life_same hf r0 pre hn, e1, ok_bind]
  rcases (board_pass hf _ mx e2 e3 e4).2 h with e | ⟨w', m, g1, g2, gg, g3, g4⟩
  · rw [e]; rfl
  · rw [g1, ok_bind]
    exact board_trap_run hf post g2 gg g3 (by omega)

end Asdf
