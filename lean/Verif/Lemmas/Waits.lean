import Verif.Lemmas.Timing
import Verif.Lemmas.CHwTarget
import Verif.Spec.Waits

/-! # The waiting times of a run -/

namespace Asdf.Waits

open Avr Spec Timing

/-! ## The accesses of the hardware events -/

theorem states_length (cg : CodeGen) (ext : Port → UInt8) (ops : List Op) (r : Regs) :
    (states cg ext r ops).length = ops.length := by
  induction ops generalizing r with
  | nil => rfl
  | cons op ops ih => rw [states, List.length_cons, ih, List.length_cons]

theorem timed_length (ops : List Op) (r : Regs) : (C.timed r ops).length = ops.length := by
  rw [← List.length_map (f := Prod.fst), C.timed_fst, states_length]

theorem timed_us (ops : List Op) (r : Regs) : ((C.timed r ops).map Prod.snd).sum = (ops.map C.us).sum := by
  induction ops generalizing r with
  | nil => rfl
  | cons op ops ih =>
    rw [C.timed, List.map_cons, List.sum_cons, ih]
    rfl

/-- How long a hardware event waits. -/
def eventUs : Event → Nat
  | .send _ => 10
  | .delayShort => 10
  | .delayLong => 50000
  | .delayMs m => 1000 * m.toNat
  | _ => 0

theorem event_us {B : Board} (hB : B ∈ boards) (e : Event) : ((B.opsOf e).map C.us).sum = eventUs e := by
  cases he : pauseUs e with
  | some us =>
    rw [pause_us hB he]
    cases e <;> cases he <;> rfl
  | none =>
    cases e with
    | send c => rcases two_boards hB with rfl | rfl <;> rfl
    | posStrobe => rcases two_boards hB with rfl | rfl <;> rfl
    | negStrobe => rcases two_boards hB with rfl | rfl <;> rfl
    | archInit => rcases two_boards hB with rfl | rfl <;> rfl
    | _ => cases he

/-- The waiting time of all events of a run. -/
def eventsUs (es : List Event) : Nat := (es.map eventUs).sum

/-- The number of accesses of a row reader. -/
def RowLength (T : Whole.Target) (n : Nat) : Prop :=
  ∀ c row r v l, T.read c row r = .ok (v, l) → l.length = n

theorem row328 : RowLength Whole.target328 (C.A328.readOps 0).length := by
  intro c row r v l h
  cases h
  rw [(C.A328.readRow_log c.keys c.other row ⟨r, c.sr, []⟩).2, List.nil_append, states_length]
  rfl

theorem row2560 (cols : (Nat → UInt8) → Regs → UInt8) : RowLength (Whole.target2560 cols) 4 := by
  intro c row r v l h
  have h : M2560.readRow (cols c.keys) row r = .ok (v, l) := h
  unfold M2560.readRow at h
  split at h
  · cases h
  · cases h
    rfl

/-- The accesses that the events and `k` row reads of `n` accesses make. -/
def Counted (T : Whole.Target) (n k : Nat) (es : List Event) (len : Nat) : Prop :=
  len = (es.flatMap T.opsOf).length + n * k

/-- The waiting time and the number of accesses of a run, by the number of row reads. -/
theorem story_us {B : Board} {T : Whole.Target} (hT : Built B T) {n : Nat} (hn : RowLength T n) {r0 r : Regs}
    {es : List Event} {l : List (Regs × Nat)} (h : C.Story T r0 es l r) :
    ∃ k, Counted T n k es l.length ∧ (l.map Prod.snd).sum = eventsUs es + T.rowUs * k := by
  obtain ⟨ready, hO⟩ := hT.onBoard
  have hB := hO.mem
  unfold Counted eventsUs
  induction h with
  | reset => exact ⟨0, rfl, rfl⟩
  | @event es l r h e ih =>
    obtain ⟨k, h1, h2⟩ := ih
    refine ⟨k, ?_, ?_⟩
    · rw [List.length_append, h1, timed_length, List.flatMap_append, List.length_append, List.flatMap_singleton]
      omega
    · rw [List.map_append, List.sum_append, h2, timed_us, hO.ops, event_us hB, List.map_append, List.sum_append]
      simp only [List.map_cons, List.map_nil, List.sum_cons, List.sum_nil]
      omega
  | @read es l r h c row v ops e ht ih =>
    obtain ⟨k, h1, h2⟩ := ih
    have hl := hn _ _ _ _ _ e
    rw [states_length] at hl
    refine ⟨k + 1, ?_, ?_⟩
    · rw [List.length_append, h1, timed_length, hl, Nat.mul_succ]
      omega
    · rw [List.map_append, List.sum_append, h2, timed_us, ht, Nat.mul_succ]
      omega

/-! ## Nine rows in each scan -/

theorem goOn_counted {T : Whole.Target} {n k : Nat} {w : Whole.Whole} {s : State}
    (h : Counted T n k w.fw.dev.trace w.log.length) (hs : ∃ evs, s.dev.trace = w.fw.dev.trace ++ evs) :
    Counted T n k (w.goOn T s).fw.dev.trace (w.goOn T s).log.length := by
  obtain ⟨evs, hs⟩ := hs
  unfold Counted at h ⊢
  unfold Whole.Whole.goOn
  show (w.log ++ _).length = (s.dev.trace.flatMap T.opsOf).length + _
  rw [hs, List.drop_left, List.length_append, states_length, h, List.flatMap_append, List.length_append]
  omega

theorem rows_counted {B : Board} {T : Whole.Target} {ready : Regs → Prop} (hf : OnBoard B T ready)
    {n : Nat} (hn : RowLength T n) {cfg : Config} {L : Layout} (hcf : CfgFacts cfg L) {mx : Nat → Whole.Contacts}
    (hin : Allowed L (contactsRead mx)) {p : Phys} (m : Nat) :
    ∀ {fuel row k : Nat} {w w' : Whole.Whole}, Inv cfg L w.fw → Good B ready p w → row + m = L.rows → m < fuel →
      Counted T n k w.fw.dev.trace w.log.length →
      Whole.scanRows T cfg .archReadRow mx fuel row w = .ok w' →
      Counted T n (k + m) w'.fw.dev.trace w'.log.length := by
  induction m with
  | zero =>
    intro fuel row k w w' h hg hrow hfu hc hr
    obtain ⟨fuel, rfl⟩ : ∃ f, fuel = f + 1 := ⟨fuel - 1, by omega⟩
    obtain ⟨ks, ms, a, free, hw⟩ := h
    obtain ⟨m, h1, h2⟩ := numRows_ok hcf hw.idx hw.maps
    unfold Whole.scanRows at hr
    rw [h1, ok_bind, if_neg (by omega)] at hr
    cases hr
    exact hc
  | succ m ih =>
    intro fuel row k w w' h hg hrow hfu hc hr
    obtain ⟨fuel, rfl⟩ : ∃ f, fuel = f + 1 := ⟨fuel - 1, by omega⟩
    have hinv := h
    obtain ⟨ks, ms, a, free, hw⟩ := h
    obtain ⟨m', h1, h2⟩ := numRows_ok hcf hw.idx hw.maps
    have h16 := hcf.rows16
    have hst : row < w.fw.stable.length := by
      rw [hw.stableLen]; omega
    have hst' : w.fw.stable[row] = (w.fw.stable[row]?).getD 0 := by
      rw [List.getElem?_eq_getElem hst]; rfl
    have hrw : (UInt8.ofNat row).toNat = row := by
      rw [UInt8.toNat_ofNat']; omega
    obtain ⟨l, r1, r2, r3⟩ := hf.read (mx row) (UInt8.ofNat row) w.regs hg.ready (by omega)
    rw [hrw] at r1
    obtain ⟨s1, e1, e2, _⟩ := keySteps_ok hcf hin ((List.range' 0 L.cols).map fun c => (row, c))
      hinv (by
        intro k hk
        simp only [List.mem_map, List.mem_range'_1] at hk
        obtain ⟨c, hc, rfl⟩ := hk
        exact ⟨by omega, by omega⟩) (rowKeys_nodup _ _ _)
    have hsc : scanCols cfg row 256 0 ((mx row).keys row ^^^ w.fw.stable[row]) ((mx row).keys row) w.fw =
        .ok s1 := by
      rw [← e1]
      exact scanCols_fold hcf hin (by omega) L.cols hinv (by omega)
        (by have := hcf.cols8; omega)
        (fun c _ _ => by simp [sample, contactsRead])
        (fun c _ _ => by simp [sample, contactsRead, bitOf_xor, accepted, hst'])
    have hg1 : Good B ready p { w with regs := l.getLast?.getD w.regs, log := w.log ++ l } :=
      ⟨r2, hg.path.read l r3⟩
    obtain ⟨hg2, hfw⟩ := hg1.goOn hf (s := s1) (scanCols_ns _ hsc).ext
    have hc1 : Counted T n (k + 1) w.fw.dev.trace (w.log ++ l).length := by
      unfold Counted at hc ⊢
      rw [List.length_append, hc, hn _ _ _ _ _ r1, Nat.mul_succ]
      omega
    have hc2 := goOn_counted (w := { w with regs := l.getLast?.getD w.regs, log := w.log ++ l }) (s := s1) hc1
      (scanCols_ns _ hsc).ext
    unfold Whole.scanRows at hr
    rw [h1, ok_bind, if_pos (by omega)] at hr
    unfold Whole.callReader at hr
    simp only [] at hr
    rw [r1, ok_bind] at hr
    simp only [ok_bind] at hr
    rw [rd_ok hst, ok_bind, hsc, ok_bind] at hr
    have := ih (by rw [hfw]; exact e2) hg2 (by omega) (by omega) hc2 hr
    rw [show k + (m + 1) = k + 1 + m by omega]
    exact this

theorem pass_counted {B : Board} {T : Whole.Target} {ready : Regs → Prop} (hf : OnBoard B T ready)
    {n : Nat} (hn : RowLength T n) {cfg : Config} {L : Layout} (hcf : CfgFacts cfg L) {mx : Nat → Whole.Contacts}
    (hin : Allowed L (contactsRead mx)) {p : Phys} {w w' : Whole.Whole} (h : Inv cfg L w.fw)
    (hg : Good B ready p w) {k : Nat} (hc : Counted T n k w.fw.dev.trace w.log.length)
    (hr : Whole.pass T cfg w mx = .ok w') : Counted T n (k + L.rows) w'.fw.dev.trace w'.log.length := by
  obtain ⟨ks, ms, a, free, hw⟩ := h
  obtain ⟨b', e1, e2⟩ := outputPhase_ok hcf hw
  generalize hs1 : ({ w.fw with
        buf := b',
        dev := { w.fw.dev with trace := w.fw.dev.trace ++ outTrace w.fw.printDelay ks ms } } : State) = s1
    at e1 e2
  have ht : ∃ evs, s1.dev.trace = w.fw.dev.trace ++ evs := ⟨_, by rw [← hs1]⟩
  obtain ⟨hg1, hfw1⟩ := hg.goOn hf ht
  have hc1 := goOn_counted hc ht
  obtain ⟨hk2, hk3, hk4, _⟩ := hooksOk_facts (hcf.parts e2.idx).2.2.2
  rw [← e2.hooks] at hk2 hk3 hk4
  have hk2' : s1.hooks[HOOK_ROW_SCANNER]? = some .archReadRow := hk2
  have hk4' : s1.hooks[HOOK_EACH_SCAN]? = some .null := hk4
  have hA : hookGet s1.hooks HOOK_ROW_SCANNER = .ok .archReadRow := by
    unfold hookGet
    rw [if_pos (hookValid_iff.mpr (by decide)), rd_some hk2']
  have hB : hookExecute s1 HOOK_EACH_SCAN = .ok s1 := by
    unfold hookExecute
    rw [if_pos (hookValid_iff.mpr (by decide)), rd_some hk4', ok_bind]
  generalize hw1 : w.goOn T s1 = w1 at hg1 hfw1 hc1
  have ht2 : ∃ evs, s1.dev.trace = w1.fw.dev.trace ++ evs := ⟨[], by rw [hfw1, List.append_nil]⟩
  obtain ⟨hg2, hfw2⟩ := hg1.goOn hf ht2
  have hc2 := goOn_counted hc1 ht2
  generalize hw2 : w1.goOn T s1 = w2 at hg2 hfw2 hc2
  unfold Whole.pass at hr
  rw [e1, ok_bind, hw1] at hr
  unfold Whole.keyscan at hr
  rw [hfw1, hA, ok_bind, hB, ok_bind, hw2] at hr
  exact rows_counted hf hn hcf hin L.rows (by rw [hfw2]; exact ⟨_, _, _, _, e2⟩) hg2 (by omega)
    (by have := hcf.rows16; omega) hc2 hr

theorem run_counted {B : Board} {T : Whole.Target} {ready : Regs → Prop} (hf : OnBoard B T ready)
    {n : Nat} (hn : RowLength T n) {cfg : Config} {L : Layout} (hcf : CfgFacts cfg L)
    (mxs : List (Nat → Whole.Contacts)) (hin : ∀ mx ∈ mxs, Allowed L (contactsRead mx)) {p : Phys}
    {w w' : Whole.Whole} (h : Inv cfg L w.fw) (hg : Good B ready p w) {k : Nat}
    (hc : Counted T n k w.fw.dev.trace w.log.length) (hr : mxs.foldlM (Whole.pass T cfg) w = .ok w') :
    Counted T n (k + L.rows * mxs.length) w'.fw.dev.trace w'.log.length := by
  induction mxs generalizing w k with
  | nil => cases hr; exact hc
  | cons mx mxs ih =>
    obtain ⟨w1, a1, a2, a3, a4⟩ := whole_pass hf hcf (hin mx List.mem_cons_self) h hg
    have hc1 := pass_counted hf hn hcf (hin mx List.mem_cons_self) h hg hc a1
    rw [List.foldlM_cons, a1, ok_bind] at hr
    have := ih (fun x hx => hin x (List.mem_cons_of_mem _ hx)) a3 a4 hc1 hr
    rw [List.length_cons, Nat.mul_succ, show k + (L.rows * mxs.length + L.rows) = k + L.rows + L.rows * mxs.length by omega]
    exact this

/-- All accesses since power-up. -/
theorem life_counted {B : Board} {T : Whole.Target} {ready : Regs → Prop} (hf : OnBoard B T ready)
    {n : Nat} (hn : RowLength T n) {cfg : Config} {L : Layout} (hcf : CfgFacts cfg L) (r0 : Regs)
    (mxs : List (Nat → Whole.Contacts)) (hin : ∀ mx ∈ mxs, Allowed L (contactsRead mx)) {w : Whole.Whole}
    (hr : Whole.life T cfg r0 mxs = .ok w) :
    Counted T n (L.rows * mxs.length) w.fw.dev.trace w.log.length := by
  obtain ⟨w0, a1, a2, a3, a4⟩ := whole_powerUp hf hcf r0
  have hc : Counted T n 0 w0.fw.dev.trace w0.log.length := by
    unfold Whole.powerUp at a1
    rw [a2, ok_bind] at a1
    have e := Except.ok.inj a1
    have := goOn_counted (T := T) (n := n) (k := 0) (w := ⟨State.zero, r0, []⟩) (s := w0.fw) rfl ⟨w0.fw.dev.trace, rfl⟩
    rw [e] at this
    exact this
  unfold Whole.life at hr
  rw [a1, ok_bind] at hr
  have := run_counted hf hn hcf mxs hin a3 a4 hc hr
  rw [Nat.zero_add] at this
  exact this

/-! ## What the events wait -/

def isPause : Event → Bool
  | .delayMs _ => true
  | _ => false

/-- All pauses take `d` milliseconds. -/
theorem eventsUs_eq {d : UInt16} : ∀ {es : List Event}, (∀ m, .delayMs m ∈ es → m = d) →
    eventsUs es = 10 * (sends es).length + 1000 * d.toNat * es.countP isPause + 10 * es.count .delayShort +
      50000 * es.count .delayLong
  | [], _ => rfl
  | e :: es, h => by
    have ih := eventsUs_eq (es := es) fun m hm => h m (List.mem_cons_of_mem _ hm)
    have hs : eventsUs (e :: es) = eventUs e + eventsUs es := rfl
    have h2 : (sends (e :: es)).length = (sends [e]).length + (sends es).length := by
      rw [← List.length_append, ← List.singleton_append (l := es)]
      unfold sends
      rw [← List.filterMap_append]
    rw [hs, ih, h2, List.countP_cons, List.count_cons, List.count_cons]
    cases e with
    | delayMs m =>
      cases h m List.mem_cons_self
      simp [eventUs, sends, isPause, Nat.mul_add]
      omega
    | _ => simp [eventUs, sends, isPause, Nat.mul_add] <;> omega

theorem quiet_pauses {es : List Event} (h : Quiet es) : es.countP isPause = 0 := by
  rw [List.countP_eq_zero]
  intro e he
  cases e with
  | delayMs m => exact absurd rfl ((h _ he).2 m)
  | _ => exact nofun

/-- There is a pause before every character of a message, and no other. -/
theorem after_pauses (cfg : Config) (L : Layout) (inps : List Input) :
    (Kb.after cfg L inps).trace.countP isPause = messageChars (hostSees (Kb.after cfg L inps).trace) := by
  refine snoc_induction (P := fun l => (Kb.after cfg L l).trace.countP isPause =
    messageChars (hostSees (Kb.after cfg L l).trace)) ?_ ?_ inps
  · have h := typing_install cfg (k := blankKb) ⟨Nat.zero_le _, Nat.zero_le _⟩ 0
    obtain ⟨es, q, e⟩ := h.trace
    have e : (Kb.start cfg).trace = [] ++ es := e
    show (Kb.start cfg).trace.countP isPause = messageChars (hostSees (Kb.start cfg).trace)
    rw [e, List.nil_append, quiet_pauses q, hostSees_quiet q]
    rfl
  · intro l x ih
    obtain ⟨g1, g2⟩ := after_good cfg L l
    rw [after_snoc]
    generalize Kb.after cfg L l = k at g1 g2 ih
    obtain ⟨_, _, h3, h4⟩ := output_flow g1 g2
    have hk := typing_keys cfg L x (keysOf L) h4
    obtain ⟨es, qu, e⟩ := hk.trace
    have e : (k.pass cfg L x).trace = k.output.trace ++ es := e
    rw [e, List.countP_append, quiet_pauses qu, hostSees_append _ _ h3, hostSees_quiet qu, List.append_nil,
      Nat.add_zero]
    have key : ∀ u, u.countP isPause = messageChars (hostSees u) →
        (k.trace ++ u).countP isPause = messageChars (hostSees (k.trace ++ u)) := by
      intro u hu
      rw [List.countP_append, hostSees_append _ _ g1, ih, hu]
      unfold messageChars
      rw [List.filter_append, List.length_append]
    unfold Kb.output
    split
    · exact key _ rfl
    · split
      · refine key _ ?_
        split <;> rfl
      · exact ih

/-- In each pass at most one code is sent. -/
theorem channel_pace (ts ms : List (List Code)) (h : ts.length = ms.length) :
    (channel ts ms).host.length ≤ ts.length := by
  refine channel_induction (P := fun ts _ q => q.host.length ≤ ts.length) (Nat.le_refl _) ?_ ts ms h
  intro ts ms q t m _ ih
  rw [List.length_append, List.length_singleton]
  show q.send.host.length ≤ _
  unfold Line.send
  split
  · rw [List.length_append, List.length_singleton]
    omega
  · rw [List.length_append]
    split <;> simp only [List.length_singleton, List.length_nil] <;> omega
  · omega

end Asdf.Waits
