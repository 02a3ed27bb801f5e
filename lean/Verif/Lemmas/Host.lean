import Verif.Lemmas.Whole
import Verif.Spec.Host

/-! # Lemmas for C78: what a host reads -/

namespace Asdf.HostWires

open Avr Spec

/-- The effect of an access on one port. -/
def portStep (p : Port) (v : UInt8) : Op → UInt8
  | .setPort q b => if q = p then v ||| oneBit b else v
  | .clrPort q b => if q = p then v &&& ~~~ (oneBit b) else v
  | .setPin q b => if q = p then v ^^^ oneBit b else v
  | .mixPort q keep x => if q = p then (v &&& keep) ||| x else v
  | .wrPort q x => if q = p then x else v
  | _ => v

theorem upd_eq (f : Port → UInt8) (q p : Port) (v : UInt8) :
    upd f q v p = if q = p then v else f p := by
  unfold upd
  by_cases h : q = p
  · rw [if_pos h, if_pos h.symm]
  · rw [if_neg h, if_neg fun hc => h hc.symm]

theorem port_step (ext : Port → UInt8) (r : Regs) (op : Op) (p : Port) :
    (access .sbi ext r op).port p = portStep p (r.port p) op := by
  cases op with
  | wrIo reg v => exact congrFun (writeIo_port r reg v).1 p
  | setPort q b | clrPort q b | mixPort q k v | wrPort q v | setPin q b =>
    refine (upd_eq r.port q p _).trans ?_
    by_cases h : q = p
    · subst h; rfl
    · rw [if_neg h]; exact (if_neg h).symm
  | _ => rfl

/-- The effect of an access on the wires. -/
def wireStep (B : Board) (w : Wires) (op : Op) : Wires :=
  ⟨(pinStep B.strobe (w.strobe, true) op).1, portStep B.data w.data op⟩

theorem pinStep_fst (p : Pin) (a b b' : Bool) (op : Op) :
    (pinStep p (a, b) op).1 = (pinStep p (a, b') op).1 := by
  cases op <;> simp only [pinStep] <;> split <;> rfl

theorem wire_step {B : Board} (hB : B ∈ boards) (ext : Port → UInt8) (r : Regs) (op : Op) :
    wiresOf B (access .sbi ext r op) = wireStep B (wiresOf B r) op := by
  unfold wiresOf wireStep
  rw [port_step]
  have h := congrArg Prod.fst (pinSt_step ext r op B.strobe (strobe_bit hB))
  have h : level (access .sbi ext r op) B.strobe = (pinStep B.strobe (pinSt r B.strobe) op).1 := h
  rw [h]
  congr 1
  exact pinStep_fst _ _ _ _ _

/-- The wires after each access. -/
def wireSts (B : Board) (w : Wires) : List Op → List Wires
  | [] => []
  | op :: ops => wireStep B w op :: wireSts B (wireStep B w op) ops

theorem wire_states {B : Board} (hB : B ∈ boards) (ext : Port → UInt8) (ops : List Op) (r : Regs) :
    (states .sbi ext r ops).map (wiresOf B) = wireSts B (wiresOf B r) ops := by
  induction ops generalizing r with
  | nil => rfl
  | cons op ops ih =>
    rw [states, List.map_cons, ih, wire_step hB]
    rfl

theorem wire_exec {B : Board} (hB : B ∈ boards) (ext : Port → UInt8) (ops : List Op) (r : Regs) :
    wiresOf B (exec .sbi ext r ops) = ops.foldl (wireStep B) (wiresOf B r) := by
  induction ops generalizing r with
  | nil => rfl
  | cons op ops ih =>
    rw [List.foldl_cons, ← wire_step hB ext]
    exact ih _

/-- What is read from a sequence of wire states. -/
def reading (edge : Bool) (w : Wires) : List Wires → List Code
  | [] => []
  | w' :: l =>
    if w.strobe ≠ edge ∧ w'.strobe = edge then w'.data :: reading edge w' l else reading edge w' l

theorem latched_reading (B : Board) (edge : Bool) (l : List Regs) (r : Regs) :
    latched B edge r l = reading edge (wiresOf B r) (l.map (wiresOf B)) := by
  induction l generalizing r with
  | nil => rfl
  | cons x l ih =>
    rw [latched_cons, List.map_cons, ih]
    rfl

/-- Does the access leave the data port alone? -/
def leavesPort (p : Port) : Op → Bool
  | .setPort q _ | .clrPort q _ | .setPin q _ | .mixPort q _ _ | .wrPort q _ => decide (q ≠ p)
  | _ => true

theorem leavesPort_iff {p : Port} {op : Op} (h : leavesPort p op = true) (v : UInt8) :
    portStep p v op = v := by
  cases op with
  | setPort q b | clrPort q b | mixPort q k v | wrPort q v | setPin q b =>
    exact if_neg (of_decide_eq_true h)
  | _ => rfl

theorem data_left {B : Board} (hB : B ∈ boards) {e : Event} (he : strobeFree e = true) :
    (B.opsOf e).all (leavesPort B.data) = true := by
  cases e with
  | out dev v =>
    by_cases hd : dev < 13
    · have key : ∀ B ∈ boards, ∀ dev, dev < 13 → ∀ v ∈ [(0 : UInt8), 1],
        (B.opsOf (.out dev v)).all (leavesPort B.data) = true := by decide +kernel
      rw [handler_bool hB]
      exact key B hB dev hd _ (by split <;> decide)
    · rw [handler_none hB dev (by omega)]; rfl
  | delayShort =>
    have key : ∀ B ∈ boards, (B.opsOf .delayShort).all (leavesPort B.data) = true := by decide +kernel
    exact key B hB
  | delayLong =>
    have key : ∀ B ∈ boards, (B.opsOf .delayLong).all (leavesPort B.data) = true := by decide +kernel
    exact key B hB
  | delayMs ms =>
    rw [List.all_eq_true]
    intro op ho
    have : ∃ us, op = .delayUs us := by
      rcases List.mem_cons.mp hB with rfl | hB
      · obtain ⟨_, rfl⟩ := List.mem_replicate.mp ho; exact ⟨_, rfl⟩
      · rcases List.mem_cons.mp hB with rfl | hB
        · obtain ⟨_, rfl⟩ := List.mem_replicate.mp ho; exact ⟨_, rfl⟩
        · cases hB
    obtain ⟨us, rfl⟩ := this
    rfl
  | _ => cases he

theorem wires_left {B : Board} (hB : B ∈ boards) {e : Event} (he : strobeFree e = true) (w : Wires) :
    (∀ x ∈ wireSts B w (B.opsOf e), x = w) ∧ (B.opsOf e).foldl (wireStep B) w = w := by
  have h : ∀ op ∈ B.opsOf e, wireStep B w op = w := by
    intro op ho
    unfold wireStep
    rw [leaves_iff (List.all_eq_true.mp (strobe_left hB he) op ho),
      leavesPort_iff (List.all_eq_true.mp (data_left hB he) op ho)]
  generalize B.opsOf e = ops at h
  induction ops with
  | nil => exact ⟨(fun x hx => by cases hx), rfl⟩
  | cons op ops ih =>
    have h1 := h op List.mem_cons_self
    obtain ⟨i1, i2⟩ := ih fun o ho => h o (List.mem_cons_of_mem _ ho)
    refine ⟨fun x hx => ?_, ?_⟩
    · rw [wireSts, h1] at hx
      rcases List.mem_cons.mp hx with hx | hx
      · exact hx
      · exact i1 x hx
    · rw [List.foldl_cons, h1]; exact i2

theorem reading_still {edge : Bool} {w : Wires} {l : List Wires} (h : ∀ x ∈ l, x = w) :
    reading edge w l = [] := by
  induction l with
  | nil => rfl
  | cons x l ih =>
    rw [h x List.mem_cons_self, reading, if_neg fun hc => hc.1 hc.2]
    exact ih fun y hy => h y (List.mem_cons_of_mem _ hy)

/-- One event on the wires. -/
theorem event_wires {B : Board} (hB : B ∈ boards) (edge : Bool) (e : Event) (w : Wires) :
    reading edge w (wireSts B w (B.opsOf e)) = w.reads edge e ∧
      (B.opsOf e).foldl (wireStep B) w = w.after e := by
  by_cases hf : strobeFree e = true
  · obtain ⟨h1, h2⟩ := wires_left hB hf w
    rw [reading_still h1, h2]
    cases e <;> first | exact ⟨rfl, rfl⟩ | cases hf
  · obtain ⟨st, d⟩ := w
    have two : B = m328 ∨ B = m2560 := by
      rcases List.mem_cons.mp hB with h | hB
      · exact .inl h
      · rcases List.mem_cons.mp hB with h | hB
        · exact .inr h
        · cases hB
    cases e with
    | send c =>
      have hx : c ^^^ DATA_POLARITY = c := UInt8.xor_zero
      have h1 : wireSts B ⟨st, d⟩ (B.opsOf (.send c)) =
          [⟨st, c ^^^ DATA_POLARITY⟩, ⟨!st, c ^^^ DATA_POLARITY⟩, ⟨!st, c ^^^ DATA_POLARITY⟩,
            ⟨!!st, c ^^^ DATA_POLARITY⟩] := by
        rcases two with rfl | rfl <;> rfl
      have h2 : (B.opsOf (.send c)).foldl (wireStep B) ⟨st, d⟩ = ⟨!!st, c ^^^ DATA_POLARITY⟩ := by
        rcases two with rfl | rfl <;> rfl
      rw [h1, h2, hx]
      cases st <;> cases edge <;> exact ⟨rfl, rfl⟩
    | posStrobe | negStrobe | archInit =>
      rcases two with rfl | rfl <;> cases st <;> cases edge <;> exact ⟨rfl, rfl⟩
    | _ => exact absurd rfl hf

theorem hostReads_append (edge : Bool) (w : Wires) (a b : List Event) :
    hostReads edge w (a ++ b) = hostReads edge w a ++ hostReads edge (a.foldl Wires.after w) b := by
  induction a generalizing w with
  | nil => rfl
  | cons e a ih =>
    rw [List.cons_append, hostReads, hostReads, ih, List.append_assoc]
    rfl

theorem data_not_row {B : Board} (hB : B ∈ boards) (i : Nat) (hi : i < 8) :
    (⟨B.data, i⟩ : Pin) ∉ rowPins B := by
  have key : ∀ B ∈ boards, ∀ i, i < 8 → (⟨B.data, i⟩ : Pin) ∉ rowPins B := by decide +kernel
  exact key B hB i hi

theorem wires_only {B : Board} (hB : B ∈ boards) {r x : Regs} (h : onlyPins (rowPins B) r x) :
    wiresOf B x = wiresOf B r := by
  unfold wiresOf
  congr 1
  · exact (h _ (strobe_bit hB) (strobe_not_row hB)).1
  · exact byte_ext fun i hi => (h ⟨B.data, i⟩ hi (data_not_row hB i hi)).1

/-- Everything an edge-triggered host reads along a path. -/
theorem path_host {B : Board} (hB : B ∈ boards) (edge : Bool) {p q : Phys} (h : Path B p q)
    {evs : List Event} {l : List Regs} (ht : q.trace = p.trace ++ evs) (hl : q.log = p.log ++ l) :
    latched B edge p.regs l = hostReads edge (wiresOf B p.regs) evs ∧
      wiresOf B q.regs = evs.foldl Wires.after (wiresOf B p.regs) := by
  induction h generalizing evs l with
  | refl =>
    rw [List.self_eq_append_right.mp ht, List.self_eq_append_right.mp hl]
    exact ⟨rfl, rfl⟩
  | @event q h e ih =>
    obtain ⟨evs', l', h1, h2⟩ := h.trace
    have h3 : evs = evs' ++ [e] := by
      have ht : q.trace ++ [e] = p.trace ++ evs := ht
      rw [h1, List.append_assoc] at ht
      exact (List.append_cancel_left ht).symm
    have h4 : l = l' ++ boardStates B q.regs [e] := by
      have hl : q.log ++ boardStates B q.regs [e] = p.log ++ l := hl
      rw [h2, List.append_assoc] at hl
      exact (List.append_cancel_left hl).symm
    subst h3
    subst h4
    obtain ⟨i1, i2⟩ := ih h1 h2
    obtain ⟨j1, j2⟩ := event_wires hB edge e (wiresOf B q.regs)
    rw [latched_app, i1, ← h.last h2, hostReads_append, ← i2, List.foldl_append, ← i2,
      latched_reading, boardStates_one, wire_states hB, j1]
    refine ⟨?_, ?_⟩
    · show _ = _ ++ (_ ++ [])
      rw [List.append_nil]
    · show wiresOf B (boardAfter B q.regs [e]) = _
      rw [boardAfter_one, wire_exec hB, j2]
      rfl
  | @read q h l0 hl0 ih =>
    obtain ⟨evs', l', h1, h2⟩ := h.trace
    have h4 : l = l' ++ l0 := by
      have hl : q.log ++ l0 = p.log ++ l := hl
      rw [h2, List.append_assoc] at hl
      exact (List.append_cancel_left hl).symm
    subst h4
    obtain ⟨i1, i2⟩ := ih ht h2
    have hq : ∀ x ∈ l0, wiresOf B x = wiresOf B q.regs := fun x hx => wires_only hB (hl0 x hx)
    refine ⟨?_, ?_⟩
    · rw [latched_app, i1, ← h.last h2, latched_quiet B _ l0 q.regs
        (fun x hx => congrArg Wires.strobe (hq x hx)), List.append_nil]
    · show wiresOf B (l0.getLast?.getD q.regs) = _
      rcases getLast_mem (l := l0) (d := q.regs) rfl with h | h
      · rw [h]; exact i2
      · rw [hq _ h]; exact i2

/-! ## Consequences -/

theorem reads_sublist (edge : Bool) (t : List Event) (w : Wires) :
    (sends t).Sublist (hostReads edge w t) := by
  induction t generalizing w with
  | nil => exact List.Sublist.refl _
  | cons e t ih =>
    cases e with
    | send c => exact (ih _).cons_cons c
    | _ => exact (ih _).trans (List.sublist_append_right _ _)

/-- The extra readings: changes of the strobe's idle level to `edge`. -/
theorem reads_exact (edge : Bool) (t : List Event) (w : Wires)
    (h : ∀ a e b, t = a ++ e :: b → (a.foldl Wires.after w).strobe = !edge →
      ((a ++ [e]).foldl Wires.after w).strobe = !edge) :
    hostReads edge w t = sends t := by
  induction t generalizing w with
  | nil => rfl
  | cons e t ih =>
    have h0 := h [] e t rfl
    have ht := ih (w.after e) fun a e' b he => h (e :: a) e' b (by rw [he]; rfl)
    rw [hostReads, ht]
    obtain ⟨st, d⟩ := w
    have h0 : st = !edge → ((⟨st, d⟩ : Wires).after e).strobe = !edge := h0
    have hr : (⟨st, d⟩ : Wires).reads edge e = sends [e] := by
      cases e with
      | posStrobe | negStrobe | archInit =>
        cases st <;> cases edge <;> first | rfl | (have := h0 rfl; cases this)
      | _ => rfl
    rw [hr]
    cases e <;> rfl

end Asdf.HostWires
