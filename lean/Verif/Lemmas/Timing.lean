import Verif.Lemmas.CHwSim
import Verif.Lemmas.Host
import Verif.Lemmas.Channel
import Verif.Lemmas.SocketPins
import Verif.Spec.Timing

/-! # The record of a run on the strobe and the data lines -/

namespace Asdf.Timing

open Avr Spec HostWires

/-- The wires after each access, and the waiting times. -/
def timedWires (B : Board) (w : Wires) : List Op → List (Wires × Nat)
  | [] => []
  | op :: ops => (wireStep B w op, C.us op) :: timedWires B (wireStep B w op) ops

def look (B : Board) (x : Regs × Nat) : Wires × Nat := (wiresOf B x.1, x.2)

theorem timed_wires {B : Board} (hB : B ∈ boards) (ops : List Op) (r : Regs) :
    (C.timed r ops).map (look B) = timedWires B (wiresOf B r) ops := by
  induction ops generalizing r with
  | nil => rfl
  | cons op ops ih =>
    rw [C.timed, List.map_cons, ih, wire_step hB]
    unfold look
    rw [wire_step hB]
    rfl

theorem total_append (a b : List (Wires × Nat)) : total (a ++ b) = total a + total b := by
  simp [total]

theorem timed_total (B : Board) (ops : List Op) (w : Wires) : total (timedWires B w ops) = (ops.map C.us).sum := by
  induction ops generalizing w with
  | nil => rfl
  | cons op ops ih =>
    have : total (timedWires B w (op :: ops)) = C.us op + total (timedWires B (wireStep B w op) ops) := rfl
    rw [this, ih]
    rfl

theorem timed_sts (B : Board) (ops : List Op) (w : Wires) : (timedWires B w ops).map Prod.fst = wireSts B w ops := by
  induction ops generalizing w with
  | nil => rfl
  | cons op ops ih =>
    rw [timedWires, List.map_cons, ih]
    rfl

theorem pause_us {B : Board} (hB : B ∈ boards) {e : Event} {us : Nat} (he : pauseUs e = some us) :
    ((B.opsOf e).map C.us).sum = us := by
  cases e with
  | out dev v =>
    cases he
    by_cases hd : dev < 13
    · have key : ∀ B ∈ boards, ∀ dev, dev < 13 → ∀ v ∈ [(0 : UInt8), 1],
        ((B.opsOf (.out dev v)).map C.us).sum = 0 := by decide +kernel
      rw [handler_bool hB]
      exact key B hB dev hd _ (by split <;> decide)
    · rw [handler_none hB dev (by omega)]; rfl
  | delayShort =>
    cases he
    have key : ∀ B ∈ boards, ((B.opsOf .delayShort).map C.us).sum = 10 := by decide +kernel
    exact key B hB
  | delayLong =>
    cases he
    have key : ∀ B ∈ boards, ((B.opsOf .delayLong).map C.us).sum = 50000 := by decide +kernel
    exact key B hB
  | delayMs ms =>
    cases he
    rw [delayMs_ops hB, List.map_replicate]
    generalize ms.toNat = n
    induction n with
    | zero => rfl
    | succ n ih =>
      rw [List.replicate_succ, List.sum_cons, ih]
      show 1000 + _ = _
      omega
  | _ => cases he

theorem pause_free {e : Event} {us : Nat} (he : pauseUs e = some us) : strobeFree e = true := by
  cases e <;> first | rfl | cases he

theorem two_boards {B : Board} (hB : B ∈ boards) : B = m328 ∨ B = m2560 := by
  rcases List.mem_cons.mp hB with h | hB
  · exact .inl h
  · rcases List.mem_cons.mp hB with h | hB
    · exact .inr h
    · cases hB

theorem row_wires {B : Board} {T : Whole.Target} (hT : Built B T) {c : Whole.Contacts} {row v : UInt8} {r : Regs}
    {l : List Regs} (h : T.read c row r = .ok (v, l)) : ∀ x ∈ l, wiresOf B x = wiresOf B r := by
  intro x hx
  rcases hT with ⟨rfl, rfl⟩ | ⟨rfl, cols, _, rfl⟩
  · cases h
    exact wires_only (B := m328) List.mem_cons_self (Props.C41_other_pins c.keys c.other row c.sr r x hx)
  · exact wires_only (B := m2560) (List.mem_cons_of_mem _ List.mem_cons_self)
      (Props.C42_other_pins _ row v r x l h hx)

theorem exec_last (r : Regs) (ops : List Op) :
    Avr.exec .sbi (fun _ => 0) r ops = (states .sbi (fun _ => 0) r ops).getLast?.getD r := by
  induction ops generalizing r with
  | nil => rfl
  | cons op ops ih =>
    rw [states, List.getLast?_cons]
    exact ih _

theorem init_record {B : Board} (hB : B ∈ boards) (w : Wires) :
    (∃ a b d : List (Wires × Nat), timedWires B w (B.opsOf .archInit) = a ++ b ++ d ∧ (∀ x ∈ a, x = (w, 0)) ∧
      (∀ x ∈ b, x = (⟨w.strobe, 0⟩, 0)) ∧ (∀ x ∈ d, x = (⟨false, 0⟩, 0)) ∧ d ≠ []) ∧
      (B.opsOf .archInit).foldl (wireStep B) w = ⟨false, 0⟩ := by
  obtain ⟨st, d⟩ := w
  have rep : ∀ (n : Nat) (y : Wires × Nat), ∀ x ∈ List.replicate n y, x = y := fun n y x hx => (List.mem_replicate.mp hx).2
  rcases two_boards hB with rfl | rfl
  · refine ⟨⟨.replicate 7 (⟨st, d⟩, 0), .replicate 2 (⟨st, 0⟩, 0), .replicate 17 (⟨false, 0⟩, 0), ?_, rep _ _, rep _ _, rep _ _, nofun⟩, ?_⟩
    · cases st <;> rfl
    · cases st <;> rfl
  · refine ⟨⟨.replicate 7 (⟨st, d⟩, 0), .replicate 2 (⟨st, 0⟩, 0), .replicate 10 (⟨false, 0⟩, 0), ?_, rep _ _, rep _ _, rep _ _, nofun⟩, ?_⟩
    · cases st <;> rfl
    · cases st <;> rfl

/-- The record of a run. -/
theorem story_records {B : Board} {T : Whole.Target} (hT : Built B T) {r0 r : Regs} {es : List Event}
    {l : List (Regs × Nat)} (h : C.Story T r0 es l r) : Records T.rowUs (wiresOf B r0) es (l.map (look B)) (wiresOf B r) := by
  obtain ⟨ready, hO⟩ := hT.onBoard
  have hB := hO.mem
  induction h with
  | reset => exact .start
  | @event es l r h e ih =>
    rw [List.map_append, hO.ops, timed_wires hB, wire_exec hB]
    cases he : pauseUs e with
    | some us =>
      obtain ⟨h1, h2⟩ := wires_left hB (pause_free he) (wiresOf B r)
      rw [h2]
      refine ih.pause e he (fun x hx => h1 x.1 ?_) ?_
      · rw [← timed_sts]; exact List.mem_map_of_mem hx
      · rw [timed_total, pause_us hB he]
    | none =>
      cases e with
      | send c =>
        have hx : c ^^^ DATA_POLARITY = c := UInt8.xor_zero
        have h1 : ∀ st d, timedWires B ⟨st, d⟩ (B.opsOf (.send c)) =
            [(⟨st, c ^^^ DATA_POLARITY⟩, 0), (⟨!st, c ^^^ DATA_POLARITY⟩, 0), (⟨!st, c ^^^ DATA_POLARITY⟩, 10),
              (⟨!!st, c ^^^ DATA_POLARITY⟩, 0)] := by
          intro st d
          rcases two_boards hB with rfl | rfl <;> rfl
        have h2 : ∀ st d, (B.opsOf (.send c)).foldl (wireStep B) ⟨st, d⟩ = ⟨!!st, c ^^^ DATA_POLARITY⟩ := by
          intro st d
          rcases two_boards hB with rfl | rfl <;> rfl
        have := ih.send c
        rw [h1, h2, hx, Bool.not_not]
        exact this
      | posStrobe =>
        have h1 : ∀ w, timedWires B w (B.opsOf .posStrobe) = [(⟨false, w.data⟩, 0), (⟨false, w.data⟩, 0)] ∧
            (B.opsOf .posStrobe).foldl (wireStep B) w = ⟨false, w.data⟩ := by
          rintro ⟨st, d⟩
          rcases two_boards hB with rfl | rfl <;> cases st <;> exact ⟨rfl, rfl⟩
        rw [(h1 _).1, (h1 _).2]
        exact ih.positive
      | negStrobe =>
        have h1 : ∀ w, timedWires B w (B.opsOf .negStrobe) = [(⟨true, w.data⟩, 0), (⟨true, w.data⟩, 0)] ∧
            (B.opsOf .negStrobe).foldl (wireStep B) w = ⟨true, w.data⟩ := by
          rintro ⟨st, d⟩
          rcases two_boards hB with rfl | rfl <;> cases st <;> exact ⟨rfl, rfl⟩
        rw [(h1 _).1, (h1 _).2]
        exact ih.negative
      | archInit =>
        obtain ⟨⟨a, b, d, h1, ha, hb, hd, hne⟩, h2⟩ := init_record hB (wiresOf B r)
        rw [h1, h2]
        exact ih.init ha hb hd hne
      | _ => cases he
  | @read es l r h c row v ops e ht ih =>
    have hw := row_wires hT e
    have hr : wiresOf B (Avr.exec .sbi (fun _ => 0) r ops) = wiresOf B r := by
      rw [exec_last]
      rcases getLast_mem (l := states .sbi (fun _ => 0) r ops) (d := r) rfl with h | h
      · rw [h]
      · exact hw _ h
    rw [List.map_append, hr]
    refine ih.row (fun x hx => ?_) (by rw [timed_wires hB, timed_total, ht])
    obtain ⟨y, hy, rfl⟩ := List.mem_map.mp hx
    refine hw y.1 ?_
    rw [← C.timed_fst]
    exact List.mem_map_of_mem hy

/-! ## In positive polarity -/

theorem foldl_same {α σ : Type} {f : σ → α → σ} {s : σ} {l : List α} (h : ∀ x ∈ l, f s x = s) : l.foldl f s = s := by
  induction l with
  | nil => rfl
  | cons x l ih =>
    rw [List.foldl_cons, h x List.mem_cons_self]
    exact ih fun y hy => h y (List.mem_cons_of_mem _ hy)

theorem rests {u : Nat} {w0 : Wires} (h0 : w0.strobe = false) {es : List Event} {l : List (Wires × Nat)} {w : Wires}
    (h : Records u w0 es l w) (hn : Event.negStrobe ∉ es) : w.strobe = false := by
  induction h with
  | start => exact h0
  | send h c ih => exact ih fun hc => hn (List.mem_append_left _ hc)
  | positive => rfl
  | negative => exact absurd (List.mem_append_right _ List.mem_cons_self) hn
  | init => rfl
  | pause h e he hb ht ih => exact ih fun hc => hn (List.mem_append_left _ hc)
  | row h hb ht ih => exact ih hn

/-- A code on the way. -/
def pulseOf (c : Code) : List (Wires × Nat) := [(⟨true, c⟩, 0), (⟨true, c⟩, 10)]

theorem highs_low {l : List (Wires × Nat)} (h : ∀ x ∈ l, x.1.strobe = false) (ps : List (List (Wires × Nat))) :
    l.foldl highStep ([], ps) = ([], ps) :=
  foldl_same fun x hx => by simp [highStep, h x hx]

theorem sends_snoc (es : List Event) (e : Event) : sends (es ++ [e]) = sends es ++ sends [e] := by
  simp [sends]

theorem records_pulses {u : Nat} {w0 : Wires} (h0 : w0.strobe = false) {es : List Event} {l : List (Wires × Nat)} {w : Wires}
    (h : Records u w0 es l w) (hn : Event.negStrobe ∉ es) : highs l = ([], (sends es).map pulseOf) := by
  induction h with
  | start => rfl
  | @send es l w h c ih =>
    have hn : Event.negStrobe ∉ es := fun hc => hn (List.mem_append_left _ hc)
    have hw := rests h0 h hn
    have ih := ih hn
    unfold highs at ih ⊢
    rw [List.foldl_append, ih, hw, sends_snoc]
    show _ = ([], ((sends es ++ [c]).map pulseOf))
    simp [highStep, pulseOf]
  | @positive es l w h ih =>
    have ih := ih fun hc => hn (List.mem_append_left _ hc)
    unfold highs at ih ⊢
    rw [List.foldl_append, ih, sends_snoc, highs_low (by simp)]
    simp [sends]
  | negative => exact absurd (List.mem_append_right _ List.mem_cons_self) hn
  | @init es l w h a b d ha hb hd hne ih =>
    have hn : Event.negStrobe ∉ es := fun hc => hn (List.mem_append_left _ hc)
    have hw := rests h0 h hn
    have ih := ih hn
    unfold highs at ih ⊢
    rw [List.foldl_append, ih, sends_snoc, highs_low]
    · simp [sends]
    · intro x hx
      rcases List.mem_append.mp hx with hx | hx
      · rcases List.mem_append.mp hx with hx | hx
        · rw [ha x hx]; exact hw
        · rw [hb x hx]; exact hw
      · rw [hd x hx]
  | @pause es l w h e us he b hb ht ih =>
    have hn : Event.negStrobe ∉ es := fun hc => hn (List.mem_append_left _ hc)
    have hw := rests h0 h hn
    have ih := ih hn
    unfold highs at ih ⊢
    rw [List.foldl_append, ih, sends_snoc, highs_low fun x hx => by rw [hb x hx]; exact hw]
    have : sends [e] = [] := by cases e <;> first | rfl | cases he
    rw [this, List.append_nil]
  | @row es l w h b hb ht ih =>
    have hw := rests h0 h hn
    have ih := ih hn
    unfold highs at ih ⊢
    rw [List.foldl_append, ih, highs_low fun x hx => by rw [hb x hx]; exact hw]

theorem stable_append {a b : List (Wires × Nat)} {w v : Wires} (ha : DataStable w a)
    (hv : (a.getLast?.map Prod.fst).getD w = v) (hb : DataStable v b) : DataStable w (a ++ b) := by
  induction a generalizing w with
  | nil => cases hv; exact hb
  | cons x a ih =>
    refine ⟨ha.1, ih ha.2 ?_⟩
    rw [← hv, List.getLast?_cons]
    cases a.getLast? <;> rfl

theorem stable_low {b : List (Wires × Nat)} {w : Wires} (hw : w.strobe = false) (hb : ∀ x ∈ b, x.1.strobe = false) :
    DataStable w b := by
  induction b generalizing w with
  | nil => trivial
  | cons x b ih =>
    have hx := hb x List.mem_cons_self
    refine ⟨fun h => ?_, ih hx fun y hy => hb y (List.mem_cons_of_mem _ hy)⟩
    rw [hw, hx] at h
    rcases h with h | h <;> cases h

theorem last_same {l b : List (Wires × Nat)} {w0 w : Wires} (hl : (l.getLast?.map Prod.fst).getD w0 = w)
    (hb : ∀ x ∈ b, x.1 = w) : ((l ++ b).getLast?.map Prod.fst).getD w0 = w := by
  rw [List.getLast?_append]
  cases hx : b.getLast? with
  | none => exact hl
  | some x =>
    rw [Option.some_or, Option.map_some, hb x (List.mem_of_getLast? hx)]
    rfl

theorem last_new {l b : List (Wires × Nat)} {w0 w : Wires} (h : b.getLast?.map Prod.fst = some w) :
    ((l ++ b).getLast?.map Prod.fst).getD w0 = w := by
  rw [List.getLast?_append]
  cases hx : b.getLast? with
  | none => rw [hx] at h; cases h
  | some x =>
    rw [hx] at h
    rw [Option.some_or, h]
    rfl

theorem records_last {u : Nat} {w0 : Wires} {es : List Event} {l : List (Wires × Nat)} {w : Wires} (h : Records u w0 es l w) :
    (l.getLast?.map Prod.fst).getD w0 = w := by
  induction h with
  | start => rfl
  | send => exact last_new rfl
  | positive => exact last_new rfl
  | negative => exact last_new rfl
  | init h ha hb hd hne ih =>
    apply last_new
    rw [List.getLast?_append, List.getLast?_eq_some_getLast hne, hd _ (List.getLast_mem hne)]
    rfl
  | pause h e he hb ht ih => exact last_same ih hb
  | row h hb ht ih => exact last_same ih hb

theorem records_stable {u : Nat} {w0 : Wires} (h0 : w0.strobe = false) {es : List Event} {l : List (Wires × Nat)} {w : Wires}
    (h : Records u w0 es l w) (hn : Event.negStrobe ∉ es) : DataStable w0 l := by
  have low : ∀ {es l w b}, Records u w0 es l w → DataStable w0 l → w.strobe = false → (∀ x ∈ b, x.1.strobe = false) →
      DataStable w0 (l ++ b) := fun h hs hw hb => stable_append hs (records_last h) (stable_low hw hb)
  induction h with
  | start => trivial
  | @send es l w h c ih =>
    have hn : Event.negStrobe ∉ es := fun hc => hn (List.mem_append_left _ hc)
    have hw := rests h0 h hn
    refine stable_append (ih hn) (records_last h) ?_
    rw [hw]
    refine ⟨fun hx => ?_, fun _ => rfl, fun _ => rfl, fun _ => rfl, trivial⟩
    rw [hw] at hx
    rcases hx with hx | hx <;> cases hx
  | @positive es l w h ih =>
    have hn : Event.negStrobe ∉ es := fun hc => hn (List.mem_append_left _ hc)
    exact low h (ih hn) (rests h0 h hn) (by simp)
  | negative => exact absurd (List.mem_append_right _ List.mem_cons_self) hn
  | @init es l w h a b d ha hb hd hne ih =>
    have hn : Event.negStrobe ∉ es := fun hc => hn (List.mem_append_left _ hc)
    have hw := rests h0 h hn
    refine low h (ih hn) hw ?_
    intro x hx
    rcases List.mem_append.mp hx with hx | hx
    · rcases List.mem_append.mp hx with hx | hx
      · rw [ha x hx]; exact hw
      · rw [hb x hx]; exact hw
    · rw [hd x hx]
  | @pause es l w h e us he b hb ht ih =>
    have hn : Event.negStrobe ∉ es := fun hc => hn (List.mem_append_left _ hc)
    have hw := rests h0 h hn
    exact low h (ih hn) hw fun x hx => by rw [hb x hx]; exact hw
  | @row es l w h b hb ht ih =>
    have hw := rests h0 h hn
    exact low h (ih hn) hw fun x hx => by rw [hb x hx]; exact hw

/-! ## Arrival times -/

/-- The last event is a pause. -/
def pausing (es : List Event) : Bool :=
  match es.getLast? with
  | some (.delayMs _) => true
  | _ => false

theorem hostSees_snoc (es : List Event) (e : Event) :
    hostSees (es ++ [e]) = hostSees es ++ match e with
      | .send c => [(pausing es, c)]
      | _ => [] := by
  fun_induction hostSees es with
  | case1 => cases e <;> rfl
  | case2 m c es ih =>
    have : pausing (.delayMs m :: .send c :: es) = pausing (.send c :: es) := by
      unfold pausing; rw [List.getLast?_cons_cons]
    have h2 : pausing (.send c :: es) = pausing es := by
      cases es with
      | nil => rfl
      | cons x es => unfold pausing; rw [List.getLast?_cons_cons]
    rw [this, h2]
    show (true, c) :: hostSees (es ++ [e]) = _
    rw [ih]; rfl
  | case3 c es ih =>
    have h2 : pausing (.send c :: es) = pausing es := by
      cases es with
      | nil => rfl
      | cons x es => unfold pausing; rw [List.getLast?_cons_cons]
    rw [h2]
    show (false, c) :: hostSees (es ++ [e]) = _
    rw [ih]; rfl
  | case4 x es h1 h2 ih =>
    cases es with
    | nil =>
      cases x <;> cases e <;> first | rfl | exact (h2 _ rfl).elim
    | cons y es =>
      have h3 : pausing (x :: y :: es) = pausing (y :: es) := by
        unfold pausing; rw [List.getLast?_cons_cons]
      rw [h3, ← ih]
      cases x with
      | delayMs m => cases y <;> first | rfl | exact (h1 _ _ _ rfl rfl).elim
      | send c => exact (h2 _ rfl).elim
      | _ => rfl

/-- The host has read the codes, and waited long enough. -/
structure Paced (d : Nat) (es : List Event) (s : Clocked) : Prop where
  low : s.strobe = false
  wait : pausing es = true → d ≤ s.since
  all : s.got.length = (hostSees es).length
  each : ∀ p ∈ s.got.zip (hostSees es), p.1.1 = p.2.2 ∧ (p.2.1 = true → d ≤ p.1.2)

theorem see_low {l : List (Wires × Nat)} (h : ∀ x ∈ l, x.1.strobe = false) (s : Clocked) (hs : s.strobe = false) :
    l.foldl Clocked.see s = ⟨false, s.since + total l, s.got⟩ := by
  induction l generalizing s with
  | nil => rcases s with ⟨a, b, c⟩; cases hs; rfl
  | cons x l ih =>
    have hx := h x List.mem_cons_self
    have e : s.see x = ⟨false, s.since + x.2, s.got⟩ := by
      unfold Clocked.see
      rw [if_neg (fun hc => Bool.noConfusion (hx.symm.trans hc.1)), hx]
    rw [List.foldl_cons, e, ih (fun y hy => h y (List.mem_cons_of_mem _ hy)) _ rfl]
    show (⟨false, s.since + x.2 + total l, s.got⟩ : Clocked) = ⟨false, s.since + (x.2 + total l), s.got⟩
    rw [Nat.add_assoc]

theorem pausing_snoc (es : List Event) (e : Event) : pausing (es ++ [e]) = match e with
    | .delayMs _ => true
    | _ => false := by
  unfold pausing
  rw [List.getLast?_concat]
  cases e <;> rfl

theorem Paced.later {d : Nat} {es : List Event} {s : Clocked} (h : Paced d es s) (t : Nat) :
    Paced d es ⟨false, s.since + t, s.got⟩ :=
  ⟨rfl, fun hp => Nat.le_trans (h.wait hp) (Nat.le_add_right _ _), h.all, h.each⟩

theorem Paced.quiet {d : Nat} {es : List Event} {s : Clocked} (h : Paced d es s) (t : Nat) {e : Event}
    (h1 : ∀ c, e ≠ .send c) (h2 : ∀ m, e = .delayMs m → d ≤ s.since + t) :
    Paced d (es ++ [e]) ⟨false, s.since + t, s.got⟩ := by
  have hh : hostSees (es ++ [e]) = hostSees es := by
    rw [hostSees_snoc]
    cases e with
    | send c => exact absurd rfl (h1 c)
    | _ => exact List.append_nil _
  refine ⟨rfl, fun hp => ?_, by rw [hh]; exact h.all, by rw [hh]; exact h.each⟩
  rw [pausing_snoc] at hp
  cases e with
  | delayMs m => exact h2 m rfl
  | _ => cases hp

theorem records_paced {u : Nat} {w0 : Wires} (h0 : w0.strobe = false) (d : Nat) {es : List Event} {l : List (Wires × Nat)}
    {w : Wires} (h : Records u w0 es l w) (hn : Event.negStrobe ∉ es) (hd : ∀ m, Event.delayMs m ∈ es → d ≤ 1000 * m.toNat) :
    Paced d es (l.foldl Clocked.see ⟨false, 0, []⟩) := by
  induction h with
  | start => exact ⟨rfl, nofun, rfl, nofun⟩
  | @send es l w h c ih =>
    have hn : Event.negStrobe ∉ es := fun hc => hn (List.mem_append_left _ hc)
    have ih := ih hn fun m hm => hd m (List.mem_append_left _ hm)
    rw [List.foldl_append]
    generalize l.foldl Clocked.see ⟨false, 0, []⟩ = s at ih
    obtain ⟨st, t, got⟩ := s
    obtain rfl : st = false := ih.low
    have e : [((⟨w.strobe, c⟩ : Wires), 0), (⟨!w.strobe, c⟩, 0), (⟨!w.strobe, c⟩, 10), (⟨w.strobe, c⟩, 0)].foldl
        Clocked.see ⟨false, t, got⟩ = ⟨false, 10, got ++ [(c, t)]⟩ := by
      rw [rests h0 h hn]
      rfl
    rw [e]
    have hh : hostSees (es ++ [.send c]) = hostSees es ++ [(pausing es, c)] := hostSees_snoc es (.send c)
    refine ⟨rfl, fun hp => ?_, ?_, ?_⟩
    · rw [pausing_snoc] at hp; cases hp
    · rw [hh, List.length_append, List.length_append]
      exact congrArg (· + 1) ih.all
    · rw [hh, List.zip_append ih.all]
      intro p hp
      rcases List.mem_append.mp hp with hp | hp
      · exact ih.each p hp
      · rw [List.mem_singleton.mp hp]
        exact ⟨rfl, ih.wait⟩
  | @positive es l w h ih =>
    have ih := ih (fun hc => hn (List.mem_append_left _ hc)) fun m hm => hd m (List.mem_append_left _ hm)
    rw [List.foldl_append, see_low (by simp) _ ih.low]
    exact ih.quiet _ nofun nofun
  | negative => exact absurd (List.mem_append_right _ List.mem_cons_self) hn
  | @init es l w h a b d' ha hb hd' hne ih =>
    have hn : Event.negStrobe ∉ es := fun hc => hn (List.mem_append_left _ hc)
    have hw := rests h0 h hn
    have ih := ih hn fun m hm => hd m (List.mem_append_left _ hm)
    rw [List.foldl_append, see_low _ _ ih.low]
    · exact ih.quiet _ nofun nofun
    · intro x hx
      rcases List.mem_append.mp hx with hx | hx
      · rcases List.mem_append.mp hx with hx | hx
        · rw [ha x hx]; exact hw
        · rw [hb x hx]; exact hw
      · rw [hd' x hx]
  | @pause es l w h e us he b hb ht ih =>
    have hn : Event.negStrobe ∉ es := fun hc => hn (List.mem_append_left _ hc)
    have hw := rests h0 h hn
    have ih := ih hn fun m hm => hd m (List.mem_append_left _ hm)
    rw [List.foldl_append, see_low (fun x hx => by rw [hb x hx]; exact hw) _ ih.low]
    refine ih.quiet _ (fun c hc => by rw [hc] at he; cases he) fun m hm => ?_
    subst hm
    have := hd m (List.mem_append_right _ List.mem_cons_self)
    cases he
    omega
  | @row es l w h b hb ht ih =>
    have hw := rests h0 h hn
    have ih := ih hn hd
    rw [List.foldl_append, see_low (fun x hx => by rw [hb x hx]; exact hw) _ ih.low]
    exact ih.later _

end Asdf.Timing
