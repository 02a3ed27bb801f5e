import Verif.Spec.Whole
import Verif.Lemmas.Rows
import Verif.Lemmas.Main
import Verif.Props.Rows

/-! # Lemmas about the whole keyboard

Everything that happens to the registers is a path of two kinds of steps: hardware
events of the portable part, and row reads that leave all other pins alone. -/

namespace Asdf

open Avr Spec

/-- What matters of the whole keyboard for its pins. -/
structure Phys where
  trace : List Event
  regs : Regs
  log : List Regs

inductive Path (B : Board) : Phys → Phys → Prop
  | refl (p : Phys) : Path B p p
  | event {p q : Phys} (h : Path B p q) (e : Event) :
      Path B p ⟨q.trace ++ [e], boardAfter B q.regs [e], q.log ++ boardStates B q.regs [e]⟩
  | read {p q : Phys} (h : Path B p q) (l : List Regs)
      (hl : ∀ x ∈ l, onlyPins (rowPins B) q.regs x) :
      Path B p ⟨q.trace, l.getLast?.getD q.regs, q.log ++ l⟩

theorem Path.trans {B : Board} {p q r : Phys} (h1 : Path B p q) (h2 : Path B q r) : Path B p r := by
  induction h2 with
  | refl => exact h1
  | event _ e ih => exact ih.event e
  | read _ l hl ih => exact ih.read l hl

theorem boardStates_append (B : Board) (r : Regs) (t1 t2 : List Event) :
    boardStates B r (t1 ++ t2) = boardStates B r t1 ++ boardStates B (boardAfter B r t1) t2 := by
  unfold boardStates boardAfter
  rw [List.flatMap_append, states_append]

theorem Path.events {B : Board} {p q : Phys} (h : Path B p q) (evs : List Event) :
    Path B p ⟨q.trace ++ evs, boardAfter B q.regs evs, q.log ++ boardStates B q.regs evs⟩ := by
  induction evs generalizing q with
  | nil =>
    have : (⟨q.trace ++ [], boardAfter B q.regs [], q.log ++ boardStates B q.regs []⟩ : Phys) = q := by
      show (⟨q.trace ++ [], q.regs, q.log ++ []⟩ : Phys) = q
      rw [List.append_nil, List.append_nil]
    rw [this]; exact h
  | cons e evs ih =>
    have h1 := ih (h.event e)
    have e1 : boardAfter B q.regs (e :: evs) = boardAfter B (boardAfter B q.regs [e]) evs :=
      boardAfter_append B q.regs [e] evs
    have e2 : boardStates B q.regs (e :: evs) =
        boardStates B q.regs [e] ++ boardStates B (boardAfter B q.regs [e]) evs :=
      boardStates_append B q.regs [e] evs
    rw [e1, e2, ← List.append_assoc]
    simpa only [List.append_assoc, List.singleton_append] using h1

/-- The events of a path. -/
theorem Path.trace {B : Board} {p q : Phys} (h : Path B p q) :
    ∃ evs l, q.trace = p.trace ++ evs ∧ q.log = p.log ++ l := by
  induction h with
  | refl => exact ⟨[], [], (List.append_nil _).symm, (List.append_nil _).symm⟩
  | event _ e ih =>
    obtain ⟨evs, l, h1, h2⟩ := ih
    exact ⟨evs ++ [e], _, by rw [h1, List.append_assoc], by rw [h2, List.append_assoc]⟩
  | read _ l' _ ih =>
    obtain ⟨evs, l, h1, h2⟩ := ih
    exact ⟨evs, l ++ l', h1, by rw [h2, List.append_assoc]⟩

theorem pinSt_only {B : Board} {r x : Regs} (h : onlyPins (rowPins B) r x) {p : Pin} (hp : p.bit < 8)
    (hr : p ∉ rowPins B) : pinSt x p = pinSt r p :=
  Prod.ext (h p hp hr).1 (h p hp hr).2

theorem getLast_mem {α : Type} {l : List α} {d x : α} (h : l.getLast?.getD d = x) : x = d ∨ x ∈ l := by
  cases hl : l.getLast? with
  | none => rw [hl] at h; exact Or.inl h.symm
  | some y =>
    rw [hl] at h
    cases h
    exact Or.inr (List.mem_of_getLast? hl)

/-- A pin not used for reading rows is as if no row had been read. -/
theorem Path.pins {B : Board} {p q : Phys} (h : Path B p q) {evs : List Event}
    (ht : q.trace = p.trace ++ evs) {x : Pin} (hx : x.bit < 8) (hr : x ∉ rowPins B) :
    pinSt q.regs x = pinSt (boardAfter B p.regs evs) x := by
  induction h generalizing evs with
  | refl =>
    have : evs = [] := List.self_eq_append_right.mp ht
    rw [this]; rfl
  | @event q h e ih =>
    obtain ⟨evs', _, h1, _⟩ := h.trace
    have h2 : evs = evs' ++ [e] := by
      have ht : q.trace ++ [e] = p.trace ++ evs := ht
      rw [h1, List.append_assoc] at ht
      exact (List.append_cancel_left ht).symm
    rw [h2, boardAfter_append]
    show pinSt (boardAfter B q.regs [e]) x = _
    rw [boardAfter_one, boardAfter_one, exec_pin _ _ hx, exec_pin _ _ hx, ih h1]
  | @read q h l hl ih =>
    show pinSt (l.getLast?.getD q.regs) x = _
    rw [← ih ht]
    rcases getLast_mem (l := l) (d := q.regs) rfl with h | h
    · rw [h]
    · exact pinSt_only (hl _ h) hx hr

theorem states_getLast (ext : Port → UInt8) (ops : List Op) (r : Regs) :
    (states .sbi ext r ops).getLast?.getD r = exec .sbi ext r ops := by
  induction ops generalizing r with
  | nil => rfl
  | cons op ops ih =>
    rw [states, List.getLast?_cons]
    show _ = exec .sbi ext (access .sbi ext r op) ops
    rw [← ih]
    cases (states .sbi ext (access .sbi ext r op) ops).getLast? <;> rfl

theorem getLastD_append {α : Type} (l1 l2 : List α) (d : α) :
    (l1 ++ l2).getLast?.getD d = l2.getLast?.getD (l1.getLast?.getD d) := by
  rw [List.getLast?_append]
  cases l2.getLast? <;> rfl

/-- The registers are those recorded last. -/
theorem Path.last {B : Board} {p q : Phys} (h : Path B p q) {l : List Regs}
    (hl : q.log = p.log ++ l) : q.regs = l.getLast?.getD p.regs := by
  induction h generalizing l with
  | refl =>
    rw [List.self_eq_append_right.mp hl]; rfl
  | @event q h e ih =>
    obtain ⟨_, l', _, h1⟩ := h.trace
    have h2 : l = l' ++ boardStates B q.regs [e] := by
      have hl : q.log ++ boardStates B q.regs [e] = p.log ++ l := hl
      rw [h1, List.append_assoc] at hl
      exact (List.append_cancel_left hl).symm
    rw [h2, getLastD_append, ← ih h1]
    exact (states_getLast _ _ _).symm
  | @read q h l0 _ ih =>
    obtain ⟨_, l', _, h1⟩ := h.trace
    have h2 : l = l' ++ l0 := by
      have hl : q.log ++ l0 = p.log ++ l := hl
      rw [h1, List.append_assoc] at hl
      exact (List.append_cancel_left hl).symm
    rw [h2, getLastD_append, ← ih h1]

theorem latched_app (B : Board) (a : Bool) (l1 l2 : List Regs) (r : Regs) :
    latched B a r (l1 ++ l2) = latched B a r l1 ++ latched B a (l1.getLast?.getD r) l2 := by
  induction l1 generalizing r with
  | nil => rfl
  | cons x l1 ih =>
    have e : (x :: l1).getLast?.getD r = l1.getLast?.getD x := by
      rw [List.getLast?_cons]
      cases l1.getLast? <;> rfl
    rw [List.cons_append, latched_cons, latched_cons, ih, e]
    split
    · rfl
    · rfl

/-! ## The strobe -/

/-- Selecting the polarity that is in force already changes nothing on the strobe pin. -/
theorem strobe_reselect {B : Board} (hB : B ∈ boards) {e : Event} {v : Bool}
    (he : idleStep (some v) e = some v) (hs : ∀ c, e ≠ .send c) :
    ∀ x ∈ pinSts B.strobe (v, true) (B.opsOf e), x = (v, true) := by
  have key : ∀ B ∈ boards,
      (∀ x ∈ pinSts B.strobe (false, true) (B.opsOf .archInit), x = (false, true)) ∧
      (∀ x ∈ pinSts B.strobe (false, true) (B.opsOf .posStrobe), x = (false, true)) ∧
      (∀ x ∈ pinSts B.strobe (true, true) (B.opsOf .negStrobe), x = (true, true)) := by
    decide +kernel
  obtain ⟨k1, k2, k3⟩ := key B hB
  cases e with
  | archInit => cases he; exact k1
  | posStrobe => cases he; exact k2
  | negStrobe => cases he; exact k3
  | send c => exact absurd rfl (hs c)
  | _ => exact pin_unchanged (fun op ho => leaves_iff
          (List.all_eq_true.mp (strobe_left hB rfl) op ho)) _

/-- One event, seen by the host. -/
theorem latched_event {B : Board} (hB : B ∈ boards) {v : Bool} {e : Event}
    (he : idleStep (some v) e = some v) {r : Regs} (hr : pinSt r B.strobe = (v, true)) :
    latched B (!v) r (boardStates B r [e]) = sends [e] ∧
      pinSt (boardAfter B r [e]) B.strobe = (v, true) := by
  have h1 : pinSt (boardAfter B r [e]) B.strobe = (v, true) := by
    rw [boardAfter_one, exec_pin _ _ (strobe_bit hB)]
    exact strobe_event hB e _ (some v) (fun l hl => by rw [← Option.some.inj hl]; exact hr) v he
  refine ⟨?_, h1⟩
  rw [boardStates_one]
  by_cases hs : ∃ c, e = .send c
  · obtain ⟨c, rfl⟩ := hs
    have : level r B.strobe = !!v := by
      rw [Bool.not_not]; exact congrArg Prod.fst hr
    rw [latched_send hB _ r c (!v) this]
    rfl
  · have hs' : ∀ c, e ≠ .send c := fun c hc => hs ⟨c, hc⟩
    have e1 : sends [e] = [] := by
      cases e <;> first | rfl | exact absurd rfl (hs' _)
    rw [e1]
    refine latched_quiet B _ _ r fun x hx => ?_
    have h2 := mem_states_pin hx B.strobe (strobe_bit hB)
    rw [hr] at h2
    have h3 := strobe_reselect hB he hs' _ h2
    exact (congrArg Prod.fst h3).trans (congrArg Prod.fst hr).symm

theorem strobe_not_row {B : Board} (hB : B ∈ boards) : B.strobe ∉ rowPins B := by
  have key : ∀ B ∈ boards, B.strobe ∉ rowPins B := by decide
  exact key B hB

/-- The host receives exactly the codes sent, whatever rows are read meanwhile. -/
theorem Path.host {B : Board} (hB : B ∈ boards) {p q : Phys} (h : Path B p q) {v : Bool}
    (hp : pinSt p.regs B.strobe = (v, true)) {evs : List Event} {l : List Regs}
    (ht : q.trace = p.trace ++ evs) (hl : q.log = p.log ++ l)
    (hv : ∀ e ∈ evs, idleStep (some v) e = some v) :
    latched B (!v) p.regs l = sends evs ∧ pinSt q.regs B.strobe = (v, true) := by
  induction h generalizing evs l with
  | refl =>
    rw [List.self_eq_append_right.mp ht, List.self_eq_append_right.mp hl]
    exact ⟨rfl, hp⟩
  | @event q h e ih =>
    obtain ⟨evs', l', h1, h2⟩ := h.trace
    have h3 : evs = evs' ++ [e] := by
      have ht : q.trace ++ [e] = p.trace ++ evs := ht
      rw [h1, List.append_assoc] at ht
      exact (List.append_cancel_left ht).symm
    have h4 : l = l' ++ boardStates B q.regs [e] := by
      have hl : q.log ++ boardStates B q.regs [e] = p.log ++ l := hl
      rw [h2, List.append_assoc] at hl
      exact (List.append_cancel_left hl).symm
    subst h3
    subst h4
    obtain ⟨i1, i2⟩ := ih h1 h2 fun x hx => hv x (List.mem_append_left _ hx)
    obtain ⟨j1, j2⟩ := latched_event hB (hv e (List.mem_append_right _ (List.mem_singleton.mpr rfl))) i2
    refine ⟨?_, j2⟩
    rw [latched_app, i1, ← h.last h2, j1]
    unfold sends
    rw [List.filterMap_append]
  | @read q h l0 hl0 ih =>
    obtain ⟨evs', l', h1, h2⟩ := h.trace
    have h4 : l = l' ++ l0 := by
      have hl : q.log ++ l0 = p.log ++ l := hl
      rw [h2, List.append_assoc] at hl
      exact (List.append_cancel_left hl).symm
    subst h4
    obtain ⟨i1, i2⟩ := ih ht h2 hv
    have hq : ∀ x ∈ l0, pinSt x B.strobe = pinSt q.regs B.strobe := fun x hx =>
      pinSt_only (hl0 x hx) (strobe_bit hB) (strobe_not_row hB)
    refine ⟨?_, ?_⟩
    · rw [latched_app, i1, ← h.last h2, latched_quiet B _ l0 q.regs
        (fun x hx => congrArg Prod.fst (hq x hx)), List.append_nil]
    · show pinSt (l0.getLast?.getD q.regs) B.strobe = _
      rcases getLast_mem (l := l0) (d := q.regs) rfl with h | h
      · rw [h]; exact i2
      · rw [hq _ h]; exact i2

/-- From any registers, events other than codes and negative polarity give a host that
latches rising edges nothing. -/
theorem latched_start {B : Board} (hB : B ∈ boards) (evs : List Event) (r : Regs)
    (h1 : sends evs = []) (h2 : Event.negStrobe ∉ evs) :
    latched B true r (boardStates B r evs) = [] := by
  induction evs generalizing r with
  | nil => rfl
  | cons e evs ih =>
    have hs : ∀ c, e ≠ .send c := by
      rintro c rfl
      cases h1
    have hrest : sends evs = [] := by
      cases e <;> first | exact h1 | cases h1
    have e2 : boardStates B r (e :: evs) =
        boardStates B r [e] ++ boardStates B (boardAfter B r [e]) evs :=
      boardStates_append B r [e] evs
    have e3 : (boardStates B r [e]).getLast?.getD r = boardAfter B r [e] := states_getLast _ _ _
    rw [e2, latched_app, e3, ih _ hrest fun hc => h2 (List.mem_cons_of_mem _ hc), List.append_nil,
      boardStates_one]
    have key : ∀ B ∈ boards, ∀ st ∈ allPinSt,
        (∀ e ∈ [Event.archInit, Event.posStrobe],
          (pinSts B.strobe st (B.opsOf e)).map Prod.fst = List.replicate (B.opsOf e).length false ∨
          ∃ n, n < (B.opsOf e).length ∧ (pinSts B.strobe st (B.opsOf e)).map Prod.fst =
            List.replicate n st.1 ++ List.replicate ((B.opsOf e).length - n) false) := by
      decide +kernel
    have fall : ∀ (l : List Regs) (r : Regs) (n m : Nat),
        l.map (level · B.strobe) = List.replicate n (level r B.strobe) ++ List.replicate m false →
        latched B true r l = [] := by
      intro l
      induction l with
      | nil => intro r n m _; rfl
      | cons x l ihl =>
        intro r n m hm
        cases n with
        | zero =>
          cases m with
          | zero => cases hm
          | succ m =>
            have hm : level x B.strobe = false ∧
                l.map (level · B.strobe) = List.replicate m false := by
              simpa [List.replicate_succ] using hm
            rw [latched_cons, if_neg (by rw [hm.1]; exact fun hc => by cases hc.2)]
            exact ihl x 0 m (by rw [hm.2]; rfl)
        | succ n =>
          have hm : level x B.strobe = level r B.strobe ∧ l.map (level · B.strobe) =
              List.replicate n (level r B.strobe) ++ List.replicate m false := by
            simpa [List.replicate_succ] using hm
          rw [latched_cons, if_neg (by rw [hm.1]; exact fun hc => hc.1 hc.2)]
          exact ihl x n m (by rw [hm.1]; exact hm.2)
    have viaKey : e ∈ [Event.archInit, Event.posStrobe] →
        latched B true r (states .sbi (fun _ => 0) r (B.opsOf e)) = [] := by
      intro he
      have hm : (states .sbi (fun _ => 0) r (B.opsOf e)).map (level · B.strobe) =
          (pinSts B.strobe (pinSt r B.strobe) (B.opsOf e)).map Prod.fst := by
        rw [← states_pin _ _ (strobe_bit hB), List.map_map]
        rfl
      rcases key B hB _ (mem_allPinSt (pinSt r B.strobe)) e he with h | ⟨n, _, h⟩
      · exact fall _ r 0 _ (by rw [hm, h]; rfl)
      · exact fall _ r n _ (by rw [hm, h]; rfl)
    by_cases hf : strobeFree e = true
    · refine latched_quiet B _ _ r fun x hx => ?_
      have := pin_unchanged (fun op ho => leaves_iff
        (List.all_eq_true.mp (strobe_left hB hf) op ho)) (pinSt r B.strobe) _
        (mem_states_pin hx B.strobe (strobe_bit hB))
      exact congrArg Prod.fst this
    · cases e with
      | archInit => exact viaKey (by decide)
      | posStrobe => exact viaKey (by decide)
      | negStrobe => exact absurd List.mem_cons_self h2
      | send c => exact absurd rfl (hs c)
      | _ => exact absurd rfl hf

/-! ## The boards -/

/-- A board with its row reader. -/
structure OnBoard (B : Board) (T : Whole.Target) (ready : Regs → Prop) : Prop where
  ops : T.opsOf = B.opsOf
  mem : B ∈ boards
  init : ∀ r, ready (boardAfter B r [.archInit])
  event : ∀ r e, ready r → ready (boardAfter B r [e])
  read : ∀ (c : Whole.Contacts) (row : UInt8) r, ready r → row.toNat < 16 →
    ∃ l, T.read c row r = .ok (c.keys row.toNat, l) ∧ ready (l.getLast?.getD r) ∧
      ∀ x ∈ l, onlyPins (rowPins B) r x

theorem byte_ext {x y : UInt8} (h : ∀ i, i < 8 → bitOf x i = bitOf y i) : x = y := by
  apply UInt8.toBitVec_inj.mp
  apply BitVec.eq_of_getLsbD_eq
  intro i hi
  exact h i hi

theorem fits328 : OnBoard m328 Whole.target328 rowReady328 where
  ops := rfl
  mem := List.mem_cons_self
  init := M328.ready_init
  event _ e h := M328.ready_event h e
  read c row r h hrow := by
    refine ⟨(M328.readRow c.keys c.other row ⟨r, c.sr, []⟩).2.log, ?_, ?_, ?_⟩
    · have : (M328.readRow c.keys c.other row ⟨r, c.sr, []⟩).1 = c.keys row.toNat :=
        byte_ext fun i hi => Props.C41_value c.keys c.other row ⟨r, c.sr, []⟩ h hrow i hi
      show Except.ok ((M328.readRow c.keys c.other row ⟨r, c.sr, []⟩).1, _) = _
      rw [this]
    · have h1 := M328.ready_read h c.keys c.other row c.sr
      have h2 : (M328.readRow c.keys c.other row ⟨r, c.sr, []⟩).2.log.getLast?.getD r =
          (M328.readRow c.keys c.other row ⟨r, c.sr, []⟩).2.regs := by
        rw [M328.readRow_world, (M328.world_log c.keys _ _).1, (M328.world_log c.keys _ _).2,
          List.nil_append, states_getLast]
      rw [h2]; exact h1
    · intro x hx
      exact Props.C41_other_pins c.keys c.other row c.sr r x hx

theorem fits2560 {cols : (Nat → UInt8) → Regs → UInt8} (hc : ∀ keys, matrixColumns keys (cols keys)) :
    OnBoard m2560 (Whole.target2560 cols) rowReady2560 where
  ops := rfl
  mem := List.mem_cons_of_mem _ List.mem_cons_self
  init := M2560.ready_init
  event _ e h := M2560.ready_event h e
  read c row r h hrow := by
    obtain ⟨v, l, e1, hv⟩ := Props.C42_matrix c.keys (cols c.keys) (hc c.keys) row r h hrow
    refine ⟨l, ?_, ?_, fun x hx => Props.C42_other_pins _ row v r x l e1 hx⟩
    · have : v = c.keys row.toNat := byte_ext hv
      subst this
      exact e1
    · cases hl : l.getLast? with
      | none => exact h
      | some r' => exact M2560.ready_read h _ row v l e1 hl

theorem Spec.Built.onBoard {B : Board} {T : Whole.Target} (h : Built B T) : ∃ ready, OnBoard B T ready := by
  rcases h with ⟨rfl, rfl⟩ | ⟨rfl, cols, hc, rfl⟩
  · exact ⟨_, fits328⟩
  · exact ⟨_, fits2560 hc⟩

theorem OnBoard.events {B : Board} {T : Whole.Target} {ready : Regs → Prop} (h : OnBoard B T ready)
    (evs : List Event) {r : Regs} (hr : ready r) : ready (boardAfter B r evs) := by
  induction evs generalizing r with
  | nil => exact hr
  | cons e evs ih =>
    have : boardAfter B r (e :: evs) = boardAfter B (boardAfter B r [e]) evs :=
      boardAfter_append B r [e] evs
    rw [this]
    exact ih (h.event _ e hr)

/-! ## The portable part on a board -/

/-- The pins of a whole keyboard. -/
def physOf (w : Whole.Whole) : Phys := ⟨w.fw.dev.trace, w.regs, w.log⟩

/-- The states between the actions of the portable part. -/
structure Good (B : Board) (ready : Regs → Prop) (p : Phys) (w : Whole.Whole) : Prop where
  ready : ready w.regs
  path : Path B p (physOf w)

theorem goOn_eq {B : Board} {T : Whole.Target} {ready : Regs → Prop} (hf : OnBoard B T ready)
    (w : Whole.Whole) {s : State} {evs : List Event} (hs : s.dev.trace = w.fw.dev.trace ++ evs) :
    w.goOn T s = ⟨s, boardAfter B w.regs evs, w.log ++ boardStates B w.regs evs⟩ := by
  unfold Whole.Whole.goOn
  rw [hs, List.drop_left, hf.ops]
  rfl

theorem Good.goOn {B : Board} {T : Whole.Target} {ready : Regs → Prop} (hf : OnBoard B T ready)
    {p : Phys} {w : Whole.Whole} (h : Good B ready p w) {s : State}
    (hs : ∃ evs, s.dev.trace = w.fw.dev.trace ++ evs) :
    Good B ready p (w.goOn T s) ∧ (w.goOn T s).fw = s := by
  obtain ⟨evs, hs⟩ := hs
  rw [goOn_eq hf w hs]
  refine ⟨⟨hf.events evs h.ready, ?_⟩, rfl⟩
  have := h.path.events evs
  unfold physOf at this ⊢
  rw [hs]
  exact this

theorem NS.ext {s s' : State} (h : NS s s') : ∃ evs, s'.dev.trace = s.dev.trace ++ evs := by
  obtain ⟨evs, h, _⟩ := h
  exact ⟨evs, h⟩

/-- The row loop on a board. -/
theorem whole_scanRows {B : Board} {T : Whole.Target} {ready : Regs → Prop} (hf : OnBoard B T ready)
    {cfg : Config} {L : Layout} (hcf : CfgFacts cfg L) {mx : Nat → Whole.Contacts}
    (hin : Allowed L (contactsRead mx)) {p : Phys} (n : Nat) :
    ∀ {fuel row : Nat} {w : Whole.Whole}, Inv cfg L w.fw → Good B ready p w → row + n = L.rows →
      n < fuel →
      ∃ w', Whole.scanRows T cfg .archReadRow mx fuel row w = .ok w' ∧
        scanRows cfg .archReadRow (contactsRead mx) fuel row w.fw = .ok w'.fw ∧
        Inv cfg L w'.fw ∧ Good B ready p w' := by
  induction n with
  | zero =>
    intro fuel row w h hg hrow hfu
    obtain ⟨fuel, rfl⟩ : ∃ f, fuel = f + 1 := ⟨fuel - 1, by omega⟩
    have hinv := h
    obtain ⟨ks, ms, a, free, hw⟩ := h
    obtain ⟨m, h1, h2⟩ := numRows_ok hcf hw.idx hw.maps
    refine ⟨w, ?_, ?_, hinv, hg⟩
    · unfold Whole.scanRows
      rw [h1, ok_bind, if_neg (by omega)]
    · unfold scanRows
      rw [h1, ok_bind, if_neg (by omega)]
  | succ n ih =>
    intro fuel row w h hg hrow hfu
    obtain ⟨fuel, rfl⟩ : ∃ f, fuel = f + 1 := ⟨fuel - 1, by omega⟩
    have hinv := h
    obtain ⟨ks, ms, a, free, hw⟩ := h
    obtain ⟨m, h1, h2⟩ := numRows_ok hcf hw.idx hw.maps
    have h16 := hcf.rows16
    have hst : row < w.fw.stable.length := by
      rw [hw.stableLen]; omega
    have hst' : w.fw.stable[row] = (w.fw.stable[row]?).getD 0 := by
      rw [List.getElem?_eq_getElem hst]; rfl
    have hrw : (UInt8.ofNat row).toNat = row := by
      rw [UInt8.toNat_ofNat']; omega
    obtain ⟨l, r1, r2, r3⟩ := hf.read (mx row) (UInt8.ofNat row) w.regs hg.ready (by omega)
    rw [hrw] at r1
    obtain ⟨s1, e1, e2, _⟩ := keySteps_ok hcf hin ((List.range' 0 L.cols).map fun c => (row, c))
      hinv (by
        intro k hk
        simp only [List.mem_map, List.mem_range'_1] at hk
        obtain ⟨c, hc, rfl⟩ := hk
        exact ⟨by omega, by omega⟩) (rowKeys_nodup _ _ _)
    have hsc : scanCols cfg row 256 0 ((mx row).keys row ^^^ w.fw.stable[row]) ((mx row).keys row) w.fw =
        .ok s1 := by
      rw [← e1]
      exact scanCols_fold hcf hin (by omega) L.cols hinv (by omega)
        (by have := hcf.cols8; omega)
        (fun c _ _ => by simp [sample, contactsRead])
        (fun c _ _ => by simp [sample, contactsRead, bitOf_xor, accepted, hst'])
    have hg1 : Good B ready p { w with regs := l.getLast?.getD w.regs, log := w.log ++ l } :=
      ⟨r2, hg.path.read l r3⟩
    obtain ⟨hg2, hfw⟩ := hg1.goOn hf (s := s1) (scanCols_ns _ hsc).ext
    generalize hw2 : Whole.Whole.goOn T { w with regs := l.getLast?.getD w.regs, log := w.log ++ l } s1
      = w2 at hg2 hfw
    obtain ⟨w', g1, g2, g3, g4⟩ := ih (fuel := fuel) (row := row + 1) (w := w2)
      (by rw [hfw]; exact e2) hg2 (by omega) (by omega)
    refine ⟨w', ?_, ?_, g3, g4⟩
    · unfold Whole.scanRows
      rw [h1, ok_bind, if_pos (by omega)]
      unfold Whole.callReader
      simp only []
      rw [r1, ok_bind]
      simp only [ok_bind]
      rw [rd_ok hst, ok_bind, hsc, ok_bind, hw2]
      exact g1
    · unfold scanRows
      rw [h1, ok_bind, if_pos (by omega)]
      show (rd w.fw.stable row >>= _) = _
      rw [rd_ok hst, ok_bind]
      show (scanCols cfg row 256 0 ((mx row).keys row ^^^ w.fw.stable[row]) ((mx row).keys row) w.fw
        >>= _) = _
      rw [hsc, ok_bind, ← hfw]
      exact g2

/-- One pass on a board. -/
theorem whole_pass {B : Board} {T : Whole.Target} {ready : Regs → Prop} (hf : OnBoard B T ready)
    {cfg : Config} {L : Layout} (hcf : CfgFacts cfg L) {mx : Nat → Whole.Contacts}
    (hin : Allowed L (contactsRead mx)) {p : Phys} {w : Whole.Whole} (h : Inv cfg L w.fw)
    (hg : Good B ready p w) :
    ∃ w', Whole.pass T cfg w mx = .ok w' ∧ tick cfg w.fw (contactsRead mx) = .ok w'.fw ∧
      Inv cfg L w'.fw ∧ Good B ready p w' := by
  obtain ⟨ks, ms, a, free, hw⟩ := h
  obtain ⟨b', e1, e2⟩ := outputPhase_ok hcf hw
  generalize hs1 : ({ w.fw with
        buf := b',
        dev := { w.fw.dev with trace := w.fw.dev.trace ++ outTrace w.fw.printDelay ks ms } } : State) = s1
    at e1 e2
  obtain ⟨hg1, hfw1⟩ := hg.goOn hf (s := s1) ⟨_, by rw [← hs1]⟩
  obtain ⟨hk2, hk3, hk4, _⟩ := hooksOk_facts (hcf.parts e2.idx).2.2.2
  rw [← e2.hooks] at hk2 hk3 hk4
  have hk2' : s1.hooks[HOOK_ROW_SCANNER]? = some .archReadRow := hk2
  have hk4' : s1.hooks[HOOK_EACH_SCAN]? = some .null := hk4
  have hA : hookGet s1.hooks HOOK_ROW_SCANNER = .ok .archReadRow := by
    unfold hookGet
    rw [if_pos (hookValid_iff.mpr (by decide)), rd_some hk2']
  have hB : hookExecute s1 HOOK_EACH_SCAN = .ok s1 := by
    unfold hookExecute
    rw [if_pos (hookValid_iff.mpr (by decide)), rd_some hk4', ok_bind]
  generalize hw1 : w.goOn T s1 = w1 at hg1 hfw1
  obtain ⟨hg2, hfw2⟩ := hg1.goOn hf (s := s1) ⟨[], by rw [hfw1, List.append_nil]⟩
  generalize hw2 : w1.goOn T s1 = w2 at hg2 hfw2
  obtain ⟨w', g1, g2, g3, g4⟩ := whole_scanRows hf hcf hin (p := p) L.rows (fuel := 256) (row := 0)
    (w := w2) (by rw [hfw2]; exact ⟨_, _, _, _, e2⟩) hg2 (by omega)
    (by have := hcf.rows16; omega)
  rw [hfw2] at g2
  refine ⟨w', ?_, ?_, g3, g4⟩
  · unfold Whole.pass
    rw [e1, ok_bind, hw1]
    unfold Whole.keyscan
    rw [hfw1, hA, ok_bind, hB, ok_bind, hw2]
    exact g1
  · unfold tick
    rw [e1, ok_bind]
    unfold keyscan
    rw [hA, ok_bind, hB, ok_bind]
    exact g2

theorem whole_run {B : Board} {T : Whole.Target} {ready : Regs → Prop} (hf : OnBoard B T ready)
    {cfg : Config} {L : Layout} (hcf : CfgFacts cfg L) (mxs : List (Nat → Whole.Contacts))
    (hin : ∀ mx ∈ mxs, Allowed L (contactsRead mx)) {p : Phys} {w : Whole.Whole}
    (h : Inv cfg L w.fw) (hg : Good B ready p w) :
    ∃ w', mxs.foldlM (Whole.pass T cfg) w = .ok w' ∧
      run cfg w.fw (mxs.map contactsRead) = .ok w'.fw ∧ Inv cfg L w'.fw ∧ Good B ready p w' := by
  induction mxs generalizing w with
  | nil => exact ⟨w, rfl, rfl, h, hg⟩
  | cons mx mxs ih =>
    obtain ⟨w1, a1, a2, a3, a4⟩ := whole_pass hf hcf (hin mx List.mem_cons_self) h hg
    obtain ⟨w2, b1, b2, b3, b4⟩ := ih (fun x hx => hin x (List.mem_cons_of_mem _ hx)) a3 a4
    refine ⟨w2, ?_, ?_, b3, b4⟩
    · rw [List.foldlM_cons, a1, ok_bind, b1]
    · rw [List.map_cons, run_cons, a2, ok_bind, b2]

/-- Power-up begins with the initialisation of the hardware and sends nothing. -/
theorem boot_trace {cfg : Config} (h0 : cfg.valid 0 = true) {s : State} (hb : boot cfg = .ok s) :
    ∃ evs, s.dev.trace = .archInit :: evs ∧ sends evs = [] := by
  unfold boot asdfInit at hb
  obtain ⟨s1, h1, h⟩ := bind_eq_ok.mp hb
  obtain ⟨x, _, h⟩ := bind_eq_ok.mp h
  dsimp only at h
  obtain ⟨y, _, h⟩ := bind_eq_ok.mp h
  cases h
  show ∃ evs, s1.dev.trace = _ ∧ _
  unfold keymapsInit keymapsSwitch at h1
  rw [if_pos h0] at h1
  obtain ⟨s3, h2, h3⟩ := bind_eq_ok.mp h1
  obtain ⟨evs, e1, e2⟩ := (keymapsReset_ns h2).trans (foldlM_ns (fun _ _ _ => runCmd_ns) _ h3)
  exact ⟨evs, e1, e2⟩

theorem whole_powerUp {B : Board} {T : Whole.Target} {ready : Regs → Prop} (hf : OnBoard B T ready)
    {cfg : Config} {L : Layout} (hcf : CfgFacts cfg L) (r0 : Regs) :
    ∃ w, Whole.powerUp T cfg r0 = .ok w ∧ boot cfg = .ok w.fw ∧ Inv cfg L w.fw ∧
      Good B ready ⟨[], r0, []⟩ w := by
  obtain ⟨s, a, free, e1, e2, _⟩ := boot_inv hcf
  obtain ⟨evs, t1, _⟩ := boot_trace (hcf.parts hcf.zero).2.1 e1
  have e3 := goOn_eq hf ⟨State.zero, r0, []⟩ (s := s) (evs := s.dev.trace) rfl
  refine ⟨Whole.Whole.goOn T ⟨State.zero, r0, []⟩ s, ?_, ?_, ?_, ?_⟩
  · unfold Whole.powerUp
    rw [e1, ok_bind]
  · rw [e3]; exact e1
  · rw [e3]; exact ⟨_, _, _, _, e2⟩
  · rw [e3]
    refine ⟨?_, ?_⟩
    · show ready (boardAfter B r0 s.dev.trace)
      rw [t1]
      have : boardAfter B r0 (.archInit :: evs) = boardAfter B (boardAfter B r0 [.archInit]) evs :=
        boardAfter_append B r0 [.archInit] evs
      rw [this]
      exact hf.events evs (hf.init r0)
    · exact (Path.refl (B := B) ⟨[], r0, []⟩).events s.dev.trace

theorem whole_life {B : Board} {T : Whole.Target} {ready : Regs → Prop} (hf : OnBoard B T ready)
    {cfg : Config} {L : Layout} (hcf : CfgFacts cfg L) (r0 : Regs) (mxs : List (Nat → Whole.Contacts))
    (hin : ∀ mx ∈ mxs, Allowed L (contactsRead mx)) :
    ∃ w, Whole.life T cfg r0 mxs = .ok w ∧
      (boot cfg >>= fun s0 => run cfg s0 (mxs.map contactsRead)) = .ok w.fw ∧
      Inv cfg L w.fw ∧ Good B ready ⟨[], r0, []⟩ w := by
  obtain ⟨w0, a1, a2, a3, a4⟩ := whole_powerUp hf hcf r0
  obtain ⟨w, b1, b2, b3, b4⟩ := whole_run hf hcf mxs hin a3 a4
  refine ⟨w, ?_, ?_, b3, b4⟩
  · unfold Whole.life
    rw [a1, ok_bind, b1]
  · rw [a2, ok_bind, b2]

/-- The hardware has been initialised. -/
theorem whole_init {B : Board} {T : Whole.Target} {ready : Regs → Prop} (hf : OnBoard B T ready)
    {cfg : Config} {L : Layout} (hcf : CfgFacts cfg L) (r0 : Regs) (mxs : List (Nat → Whole.Contacts))
    (hin : ∀ mx ∈ mxs, Allowed L (contactsRead mx)) {w : Whole.Whole}
    (hw : Whole.life T cfg r0 mxs = .ok w) : Event.archInit ∈ w.fw.dev.trace := by
  obtain ⟨w0, a1, a2, a3, a4⟩ := whole_powerUp hf hcf r0
  obtain ⟨w', b1, _, _, b4⟩ := whole_run hf hcf mxs hin a3 (p := physOf w0) ⟨a4.ready, .refl _⟩
  have e1 : Whole.life T cfg r0 mxs = .ok w' := by
    unfold Whole.life
    rw [a1, ok_bind, b1]
  rw [e1] at hw
  have hs := Except.ok.inj hw
  subst hs
  obtain ⟨evs0, t0, _⟩ := boot_trace (hcf.parts hcf.zero).2.1 a2
  obtain ⟨evs, l, h1, _⟩ := b4.path.trace
  have h1 : w'.fw.dev.trace = w0.fw.dev.trace ++ evs := h1
  rw [h1, t0]
  exact List.mem_append_left _ List.mem_cons_self

end Asdf
