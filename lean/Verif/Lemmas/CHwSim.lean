import Verif.Lemmas.CHwTarget
import Verif.Lemmas.CMain
import Verif.Lemmas.CSim

/-! # The portable text on a board does what it does by itself -/

namespace Asdf.C

open Avr

/-- The events since `tr0` have been carried out on the board since `h0`. -/
def QH (T : Whole.Target) (tr0 : List Event) (h0 : Hw) (io : Io) (h : Hw) : Prop :=
  io.polls = [] ∧ io.keys = none ∧ h0.polarity = 0 ∧
    ∃ es, io.trace = tr0 ++ es ∧ Adv (es.flatMap T.opsOf) h0 h

variable {B : Board} {T : Whole.Target} {W : Outside} {tr0 : List Event} {h0 : Hw} {w : Nat} {r0 : Regs}

theorem print_rel {c : Call Io} {d : Call Hw} (hc : CRel (QH T tr0 h0) c d) : ∀ (t : List Code) (s : St Io) (t' : St Hw),
    SRel (QH T tr0 h0) s t' → ORel (QH T tr0 h0) (printAll c t s) (printAll d t t')
  | [], _, _, h => ORel.ok h
  | _ :: cs, _, _, h => ORel.bind (hc _ _ _ _ h) fun _ s t h => print_rel hc cs s t h

theorem body_whole {f : F} {b : Fun} (hb : body f = some b) : wholeBody B f = some b := by
  unfold wholeBody
  split
  · cases hb
  · cases hb
  · rw [hb]; rfl

theorem run_rel [IsBoard B] (S : Serves B T) (hw : 65536 ≤ w) : ∀ n,
    CRel (QH T tr0 h0) (run prog w n) (run (hwProg B W) w (n + 6)) := by
  intro n
  induction n with
  | zero => intro f args s t _; exact ORel.bad (by decide)
  | succ n ih =>
    intro f args s t hst
    cases hb : body f with
    | some b =>
      rw [run_fn hb, hw_fn W w (n + 6) (body_whole hb)]
      exact apply_rel ih w b args s t hst
    | none =>
      rw [run_ext hb]
      unfold ext
      split
      · next e he =>
        obtain ⟨sm, se, sp, sk, hp, es, ht, ha⟩ := hst
        obtain ⟨h', hr, ha'⟩ := S.event W t.mem t.env t.io w (n + 1) f args e he (ha.polarity.trans hp) hw
        refine ⟨fun a s' e' => ?_, nofun⟩
        cases e'
        refine ⟨_, hr, sm, se, sp, sk, hp, es ++ [e], ?_, ?_⟩
        · show s.io.trace ++ [e] = _
          rw [ht, List.append_assoc]
        · refine (ha.trans ha').cast ?_
          simp
      · split
        · rw [hst.2.2.1]
          exact ORel.stop
        · rw [hst.2.2.2.1]
          exact ORel.bad (by decide)
        · next x off =>
          rw [hw_ext W w (n + 6) IsBoard.pgm]
          exact ORel.lift hst
        · rw [hw_ext W w (n + 6) IsBoard.print]
          exact ORel.ite ORel.err (print_rel ih _ _ _ hst)
        · exact ORel.bad (by decide)

/-! ## Moving a run to the board -/

/-- How the records of the hardware came about: events and row reads, one after the other, from
the registers `r0` on. -/
inductive Story (T : Whole.Target) (r0 : Regs) : List Event → List (Regs × Nat) → Regs → Prop
  | reset : Story T r0 [] [] r0
  | event {es : List Event} {l : List (Regs × Nat)} {r : Regs} (h : Story T r0 es l r) (e : Event) :
      Story T r0 (es ++ [e]) (l ++ timed r (T.opsOf e)) (Avr.exec .sbi (fun _ => 0) r (T.opsOf e))
  | read {es : List Event} {l : List (Regs × Nat)} {r : Regs} (h : Story T r0 es l r) {c : Whole.Contacts}
      {row v : UInt8} {ops : List Op} (e : T.read c row r = .ok (v, states .sbi (fun _ => 0) r ops))
      (ht : (ops.map us).sum = T.rowUs) :
      Story T r0 es (l ++ timed r ops) (Avr.exec .sbi (fun _ => 0) r ops)

theorem Story.events {T : Whole.Target} {r0 : Regs} (fs : List Event) : ∀ {es l r}, Story T r0 es l r →
    Story T r0 (es ++ fs) (l ++ timed r (fs.flatMap T.opsOf)) (Avr.exec .sbi (fun _ => 0) r (fs.flatMap T.opsOf)) := by
  induction fs with
  | nil => intro es l r h; simpa [timed, Avr.exec] using h
  | cons f fs ih =>
    intro es l r h
    have := ih (h.event f)
    have e : Avr.exec .sbi (fun _ => 0) r (T.opsOf f ++ fs.flatMap T.opsOf) =
        Avr.exec .sbi (fun _ => 0) (Avr.exec .sbi (fun _ => 0) r (T.opsOf f)) (fs.flatMap T.opsOf) := List.foldl_append
    rw [List.flatMap_cons, timed_append, ← List.append_assoc, e]
    rw [List.append_assoc es [f] fs] at this
    exact this

/-- The board is in the state that the model of the whole keyboard has, and went through the
same events since reset with the registers `r0`. -/
structure On (T : Whole.Target) (r0 : Regs) (wh : Whole.Whole) (h : Hw) : Prop where
  regs : h.regs = wh.regs
  log : h.log.map Prod.fst = wh.log
  pol : h.polarity = 0
  story : Story T r0 wh.fw.dev.trace h.log h.regs

/-- Later. -/
structure Fwd (h h' : Hw) : Prop where
  polls : h'.polls = h.polls
  found : h'.found = h.found
  credit : h.credit ≤ h'.credit
  time : h.time ≤ h'.time
  more : ∃ l, h'.log = h.log ++ l ∧ (h.regs.irq = true → (∀ x ∈ l, x.1.irq = true) → h'.regs.irq = true ∧ h.Kept h')

theorem Fwd.trans {a b c : Hw} (x : Fwd a b) (y : Fwd b c) : Fwd a c where
  polls := y.polls.trans x.polls
  found := y.found.trans x.found
  credit := Int.le_trans x.credit y.credit
  time := Nat.le_trans x.time y.time
  more := by
    obtain ⟨l, hl, kx⟩ := x.more
    obtain ⟨l', hl', ky⟩ := y.more
    refine ⟨l ++ l', by rw [hl', hl, List.append_assoc], fun hi hx => ?_⟩
    obtain ⟨i1, k1⟩ := kx hi fun x hx' => hx x (List.mem_append_left _ hx')
    obtain ⟨i2, k2⟩ := ky i1 fun x hx' => hx x (List.mem_append_right _ hx')
    exact ⟨i2, k1.trans k2⟩

theorem Fwd.of {ops : List Op} {h h' : Hw} (a : Adv ops h h') : Fwd h h' :=
  ⟨a.polls, a.found, a.credit, a.time, _, a.log, fun hi hl => ⟨by rw [a.regs]; exact exec_irq hi hl, a.kept hi hl⟩⟩

theorem goOn_self (wh : Whole.Whole) : wh.goOn T wh.fw = wh := by
  rcases wh with ⟨fw, regs, log⟩
  simp [Whole.Whole.goOn, Avr.exec, states]

theorem on_goOn {wh : Whole.Whole} {s' : State} {h h' : Hw} (o : On T r0 wh h) {es : List Event}
    (ht : s'.dev.trace = wh.fw.dev.trace ++ es) (a : Adv (es.flatMap T.opsOf) h h') : On T r0 (wh.goOn T s') h' where
  regs := by
    rw [a.regs, o.regs]
    simp only [Whole.Whole.goOn, ht, List.drop_left']
  log := by
    rw [a.log, List.map_append, timed_fst, o.log, o.regs]
    simp only [Whole.Whole.goOn, ht, List.drop_left']
  pol := a.polarity.trans o.pol
  story := by
    have := o.story.events es
    rw [← ht, ← a.log, ← a.regs] at this
    exact this

section
variable [IsBoard B] (S : Serves B T) (hw : 65536 ≤ w)
include S hw

theorem moveCall' {n : Nat} {f : F} {args : List Val} {x x' : Extra} {s s' : State} {env : List (L × Val)} {v : Val}
    {h : Hw} (hp : h.polarity = 0)
    (k : run prog w n f args (K x s env [] none) = .ok v (K x' s' env [] none)) :
    ∃ h' es, run (hwProg B W) w (n + 6) f args (KH (encMem x s) env h) = .ok v (KH (encMem x' s') env h') ∧
      s'.dev.trace = s.dev.trace ++ es ∧ Adv (es.flatMap T.opsOf) h h' := by
  obtain ⟨t, ht, hm, he, _, _, _, es, htr, ha⟩ := run_rel (B := B) (T := T) (W := W) (tr0 := s.dev.trace) (h0 := h)
    S hw n f args _ (KH (encMem x s) env h) ⟨rfl, rfl, rfl, rfl, hp, [], (List.append_nil _).symm, Adv.refl h⟩ |>.1 _ _ k
  refine ⟨t.io, es, ht.trans ?_, htr, ha⟩
  rcases t with ⟨m, e, h'⟩
  cases hm
  cases he
  rfl

theorem moveCall {n : Nat} {f : F} {args : List Val} {x x' : Extra} {s' : State} {env : List (L × Val)} {v : Val}
    {wh : Whole.Whole} {h : Hw} (o : On T r0 wh h)
    (k : run prog w n f args (K x wh.fw env [] none) = .ok v (K x' s' env [] none)) :
    ∃ h', run (hwProg B W) w (n + 6) f args (KH (encMem x wh.fw) env h) = .ok v (KH (encMem x' s') env h') ∧
      On T r0 (wh.goOn T s') h' ∧ Fwd h h' := by
  obtain ⟨h', es, e, htr, ha⟩ := moveCall' S hw (W := W) o.pol k
  exact ⟨h', e, on_goOn o htr ha, Fwd.of ha⟩

theorem moveTurns {n : Nat} {c : Expr} {b : Stmt} {st : Expr} {m : Nat} {x x' : Extra} {s' : State} {env env' : List (L × Val)}
    {k : Ctl} {wh : Whole.Whole} {h : Hw} (o : On T r0 wh h)
    (e : turns (evalE (run prog w n) c) (exec (run prog w n) w b) (evalE (run prog w n) st) m (K x wh.fw env [] none) =
      .ok k (K x' s' env' [] none)) :
    ∃ h', turns (evalE (run (hwProg B W) w (n + 6)) c) (exec (run (hwProg B W) w (n + 6)) w b)
        (evalE (run (hwProg B W) w (n + 6)) st) m (KH (encMem x wh.fw) env h) = .ok k (KH (encMem x' s') env' h') ∧
      On T r0 (wh.goOn T s') h' ∧ Fwd h h' := by
  have hr := run_rel (B := B) (T := T) (W := W) (tr0 := wh.fw.dev.trace) (h0 := h) S hw n
  obtain ⟨t, ht, hm, he, _, _, _, es, htr, ha⟩ := (turns_rel (evalE_rel hr c) (exec_rel hr w b) (evalE_rel hr st) m _
    (KH (encMem x wh.fw) env h) ⟨rfl, rfl, rfl, rfl, o.pol, [], (List.append_nil _).symm, Adv.refl h⟩).1 _ _ e
  refine ⟨t.io, ht.trans ?_, on_goOn o htr ha, Fwd.of ha⟩
  rcases t with ⟨m, e, h'⟩
  cases hm
  cases he
  rfl

theorem moveTurns_err {n : Nat} {c : Expr} {b : Stmt} {st : Expr} {m : Nat} {x : Extra} {env : List (L × Val)}
    {wh : Whole.Whole} {h : Hw} (o : On T r0 wh h)
    (e : turns (evalE (run prog w n) c) (exec (run prog w n) w b) (evalE (run prog w n) st) m (K x wh.fw env [] none) =
      .err .oob) :
    turns (evalE (run (hwProg B W) w (n + 6)) c) (exec (run (hwProg B W) w (n + 6)) w b)
        (evalE (run (hwProg B W) w (n + 6)) st) m (KH (encMem x wh.fw) env h) = .err .oob := by
  have hr := run_rel (B := B) (T := T) (W := W) (tr0 := wh.fw.dev.trace) (h0 := h) S hw n
  exact (turns_rel (evalE_rel hr c) (exec_rel hr w b) (evalE_rel hr st) m _
    (KH (encMem x wh.fw) env h) ⟨rfl, rfl, rfl, rfl, o.pol, [], (List.append_nil _).symm, Adv.refl h⟩).2 e

end

end Asdf.C
