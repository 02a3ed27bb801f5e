import Verif.Lemmas.CHwLoop
import Verif.Lemmas.AgreeBoard
import Verif.Spec.CBoard

/-! # The states at which the main loop looks at the timer flag -/

namespace Asdf.C

open Avr Spec

/-! ## Turns with any bound -/

section
variable {B : Board} {W : Outside} {w : Nat} [IsBoard B]

theorem turn_shift (L3 : Expr × Expr × Stmt) (n k : Nat) {m m' : G → Tree} {h h' : Hw} (hp : h'.polls = 0)
    (e : exec (run (hwProg B W) w n) w L3.2.2 (KH m [] { h with polls := 1 }) = .ok .next (KH m' [] h')) :
    exec (run (hwProg B W) w n) w L3.2.2 (KH m [] { h with polls := k + 1 }) = .ok .next (KH m' [] { h' with polls := k }) := by
  have r := exec_rel (run_shift (B := B) W k w n) w L3.2.2 (KH m [] { h with polls := 1 }) (KH m [] { h with polls := k + 1 })
    ⟨rfl, rfl, by show ({ h with polls := k + 1 } : Hw) = _; rw [show k + 1 = 1 + k by omega]; rfl⟩
  obtain ⟨t, e', hs⟩ := r.1 _ _ e
  rw [e', hs.shift]
  rcases h' with ⟨rg, tk, po, sr, lg, ints, tm, pl, fo⟩
  cases hp
  show Out.ok Ctl.next (⟨m', [], ⟨rg, tk, po, sr, lg, ints, tm, 0 + k, fo⟩⟩ : St Hw) = _
  rw [Nat.zero_add]
  rfl

theorem turns_next (L3 : Expr × Expr × Stmt) (hl : fn_main.body.loops[0]? = some L3) (n k j : Nat) {m m' : G → Tree} {h h' : Hw}
    (hp : h'.polls = 0)
    (e : exec (run (hwProg B W) w n) w L3.2.2 (KH m [] { h with polls := 1 }) = .ok .next (KH m' [] h')) :
    turns (evalE (run (hwProg B W) w n) L3.1) (exec (run (hwProg B W) w n) w L3.2.2)
      (evalE (run (hwProg B W) w n) L3.2.1) (j + 1) (KH m [] { h with polls := k + 1 }) =
    turns (evalE (run (hwProg B W) w n) L3.1) (exec (run (hwProg B W) w n) w L3.2.2)
      (evalE (run (hwProg B W) w n) L3.2.1) j (KH m' [] { h' with polls := k }) := by
  have e' := turn_shift L3 n k hp e
  obtain ⟨b, rfl⟩ : ∃ b, L3 = (.num 1, .num 0, b) := by
    cases hl
    exact ⟨_, rfl⟩
  rw [turns_succ]
  show (exec (run (hwProg B W) w n) w b (KH m [] { h with polls := k + 1 })).bind _ = _
  rw [e']
  rfl

theorem turns_err (L3 : Expr × Expr × Stmt) (hl : fn_main.body.loops[0]? = some L3) (n k j : Nat) {m : G → Tree} {h : Hw}
    (e : exec (run (hwProg B W) w n) w L3.2.2 (KH m [] { h with polls := 1 }) = .err .oob) :
    turns (evalE (run (hwProg B W) w n) L3.1) (exec (run (hwProg B W) w n) w L3.2.2)
      (evalE (run (hwProg B W) w n) L3.2.1) (j + 1) (KH m [] { h with polls := k + 1 }) = .err .oob := by
  have r := exec_rel (run_shift (B := B) W k w n) w L3.2.2 (KH m [] { h with polls := 1 }) (KH m [] { h with polls := k + 1 })
    ⟨rfl, rfl, by show ({ h with polls := k + 1 } : Hw) = _; rw [show k + 1 = 1 + k by omega]; rfl⟩
  have e' := r.2 e
  obtain ⟨b, rfl⟩ : ∃ b, L3 = (.num 1, .num 0, b) := by
    cases hl
    exact ⟨_, rfl⟩
  rw [turns_succ]
  show (exec (run (hwProg B W) w n) w b (KH m [] { h with polls := k + 1 })).bind _ = _
  rw [e']
  rfl

end

/-! ## Scans in order -/

theorem inOrder_mono {lo lo' hi hi' : Nat} {ts : List (Nat → Nat)} (h : InOrder lo hi ts) (h1 : lo' ≤ lo) (h2 : hi ≤ hi') :
    InOrder lo' hi' ts := by
  induction ts generalizing lo lo' with
  | nil => exact Nat.le_trans h1 (Nat.le_trans h h2)
  | cons t ts ih =>
    obtain ⟨mid, a, b⟩ := h
    exact ⟨mid, fun r => ⟨Nat.le_trans h1 (a r).1, (a r).2⟩, ih b (Nat.le_refl _)⟩

theorem inOrder_snoc {lo mid hi : Nat} {ts : List (Nat → Nat)} {t : Nat → Nat} (h : InOrder lo mid ts)
    (ht : ∀ r, mid ≤ t r ∧ t r ≤ hi) : InOrder lo hi (ts ++ [t]) := by
  induction ts generalizing lo with
  | nil =>
    have h : lo ≤ mid := h
    exact ⟨hi, fun r => ⟨Nat.le_trans h (ht r).1, (ht r).2⟩, Nat.le_refl _⟩
  | cons s ts ih =>
    obtain ⟨m, a, b⟩ := h
    exact ⟨m, a, ih b⟩

/-- What is read at these times. -/
def ReadAt (W : Outside) (times : List (Nat → Nat)) (mxs : List (Nat → Whole.Contacts)) : Prop :=
  mxs.map (fun mx r => (mx r).keys) = times.map fun t r => W.keys (t r)

theorem ReadAt.sampled {W : Outside} : ∀ {times mxs lo hi}, ReadAt W times mxs → InOrder lo hi times → SampledAll W lo hi mxs
  | [], [], _, _, _, h => h
  | t :: ts, mx :: mxs, lo, hi, e, ⟨mid, a, b⟩ => by
    have e : (fun r => (mx r).keys) :: mxs.map (fun mx r => (mx r).keys) =
      (fun r => W.keys (t r)) :: ts.map (fun t r => W.keys (t r)) := e
    injection e with e1 e2
    exact ⟨mid, fun r => ⟨t r, (a r).1, (a r).2, congrFun e1 r⟩, ReadAt.sampled e2 b⟩
  | [], _ :: _, _, _, e, _ => by cases e
  | _ :: _, [], _, _, e, _ => by cases e

theorem ReadAt.snoc {W : Outside} {times : List (Nat → Nat)} {mxs : List (Nat → Whole.Contacts)} {t : Nat → Nat}
    {mx : Nat → Whole.Contacts} (h : ReadAt W times mxs) (e : ∀ r, (mx r).keys = W.keys (t r)) :
    ReadAt W (times ++ [t]) (mxs ++ [mx]) := by
  unfold ReadAt at h ⊢
  rw [List.map_append, List.map_append, h]
  congr 1
  show [fun r => (mx r).keys] = [fun r => W.keys (t r)]
  rw [funext e]

/-! ## The states, one after the other -/

/-- The keyboard when the main loop is about to look at the flag. -/
structure Head where
  mxs : List (Nat → Whole.Contacts)
  times : List (Nat → Nat)
  x : Extra
  wh : Whole.Whole
  h : Hw

structure Head.Good (T : Whole.Target) (W : Outside) (r0 : Regs) (a : Head) : Prop where
  fits : Fits a.x a.wh.fw
  on : On T r0 a.wh a.h
  polls : a.h.polls = 0
  life : Whole.life T shipped r0 a.mxs = .ok a.wh
  found : a.h.found = a.mxs.length
  credit : a.mxs.length ≤ a.h.credit
  reads : ReadAt W a.times a.mxs
  order : InOrder 0 a.h.time a.times

/-- From one look to the next. -/
structure Head.Next (W : Outside) (a b : Head) : Prop where
  idle : (a.h.irq W).tick = 0 → b.mxs = a.mxs ∧ b.times = a.times ∧ b.wh = a.wh ∧ b.h = a.h.seen W
  scan : (a.h.irq W).tick ≠ 0 → ∃ t mx, b.mxs = a.mxs ++ [mx] ∧ b.times = a.times ++ [t] ∧
    (∀ r, (a.h.seen W).time ≤ t r ∧ t r ≤ b.h.time) ∧ Fwd (a.h.seen W) b.h

variable {B : Board} {T : Whole.Target} {W : Outside} {w : Nat} {r0 : Regs} [IsBoard B] (S : Serves B T) (hw : 65536 ≤ w)

omit [IsBoard B] in
theorem seen_on {wh : Whole.Whole} {h : Hw} (o : On T r0 wh h) :
    On T r0 wh (h.seen W) ∧ (h.seen W).polls = 0 ∧
    (h.seen W).found = h.found + (if (h.irq W).tick = 0 then 0 else 1) ∧
    (h.irq W).time + 2 ≤ (h.seen W).time ∧
    h.credit + (if (h.irq W).tick = 0 then 0 else 1) ≤ (h.seen W).credit := by
  have o' : On T r0 wh { h with polls := 1 } := ⟨o.regs, o.log, o.pol, o.story⟩
  obtain ⟨a, b, c, _, e⟩ := poll_on (W := W) (k := 0) o'
  have hirq : (({ h with polls := 1 } : Hw).irq W) = { h.irq W with polls := 1 } := by
    unfold Hw.irq; split <;> first | rfl | simp_all
  rw [hirq] at c e
  refine ⟨a, b, c, ?_, e⟩
  have h2 := irq_time W (({ h with polls := 1 } : Hw).looked W 0)
  unfold Hw.seen
  simp only [Hw.setTick, Hw.looked, Hw.quiet, hirq] at h2 ⊢
  omega

include S hw in
/-- From one look to the next, or the failure that the model of the board has too. -/
theorem head_step
    (L3 : Expr × Expr × Stmt) (hl : fn_main.body.loops[0]? = some L3) (n : Nat) (a : Head) (g : a.Good T W r0) :
    (∃ b : Head, b.Good T W r0 ∧ a.Next W b ∧
      exec (run (hwProg B W) w (n + 22)) w L3.2.2 (KH (encMem a.x a.wh.fw) [] { a.h with polls := 1 }) =
        .ok .next (KH (encMem b.x b.wh.fw) [] b.h)) ∨
    ((∃ mxs hi e, SampledAll W 0 hi mxs ∧ Whole.life T shipped r0 mxs = .error e) ∧
      (Readable T → Sane a.wh.fw →
      exec (run (hwProg B W) w (n + 22)) w L3.2.2 (KH (encMem a.x a.wh.fw) [] { a.h with polls := 1 }) = .err .oob)) := by
  obtain ⟨o1, p1, d1, t1, c1⟩ := seen_on (W := W) g.on
  have t0 := irq_time W a.h
  by_cases ht : (a.h.irq W).tick = 0
  · rw [if_pos ht] at d1 c1
    refine .inl ⟨⟨a.mxs, a.times, a.x, a.wh, a.h.seen W⟩, ⟨g.fits, o1, p1, g.life, ?_, ?_, g.reads, ?_⟩,
      ⟨fun _ => ⟨rfl, rfl, rfl, rfl⟩, fun h => absurd ht h⟩, turn_idle L3 hl n _ _ ht⟩
    · rw [d1, g.found]; rfl
    · have := g.credit
      show (a.mxs.length : Int) ≤ (a.h.seen W).credit
      omega
    · exact inOrder_mono g.order (Nat.le_refl _) (by show a.h.time ≤ (a.h.seen W).time; omega)
  · rw [if_neg ht] at d1 c1
    obtain ⟨mx, hi, hs, hr, herr⟩ := turn_scan S hw (W := W) L3 hl n a.x a.wh a.h g.fits o1 ht
    obtain ⟨t, htimes⟩ : ∃ t : Nat → Nat, ∀ r, (a.h.seen W).time ≤ t r ∧ t r ≤ hi ∧ (mx r).keys = W.keys (t r) :=
      ⟨fun r => (hs r).choose, fun r => (hs r).choose_spec⟩
    have hreads := g.reads.snoc fun r => (htimes r).2.2
    have horder : InOrder 0 hi (a.times ++ [t]) := inOrder_snoc g.order fun r =>
      ⟨by have := (htimes r).1; omega, (htimes r).2.1⟩
    have hlife : Whole.life T shipped r0 (a.mxs ++ [mx]) = Whole.pass T shipped a.wh mx := by
      rw [life_snoc, g.life]
      rfl
    cases hpass : Whole.pass T shipped a.wh mx with
    | error e => exact .inr ⟨⟨_, hi, e, hreads.sampled horder, hlife.trans hpass⟩, fun hR hs => herr hR hs e hpass⟩
    | ok wh' =>
    rw [hpass] at hlife
    obtain ⟨x', h', F', o', f', hi', e⟩ := hr wh' hpass
    refine .inl ⟨⟨a.mxs ++ [mx], a.times ++ [t], x', wh', h'⟩, ⟨F', o', f'.polls.trans p1, hlife, ?_, ?_, hreads, ?_⟩,
      ⟨fun h => absurd h ht, fun _ => ⟨t, mx, rfl, rfl, fun r => ⟨(htimes r).1, Nat.le_trans (htimes r).2.1 hi'⟩, f'⟩⟩, e⟩
    · rw [f'.found, d1, g.found, List.length_append]; rfl
    · have h1 := g.credit
      have h2 := f'.credit
      show (((a.mxs ++ [mx]).length : Nat) : Int) ≤ h'.credit
      rw [List.length_append]
      simp only [List.length_cons, List.length_nil]
      omega
    · exact inOrder_mono horder (Nat.le_refl _) hi'

omit [IsBoard B] in
theorem least_of {P : Nat → Prop} (n : Nat) (h : P n) : ∃ q, P q ∧ ∀ p < q, ¬ P p := by
  induction n using Nat.strongRecOn with
  | _ n ih =>
    by_cases hq : ∃ m, m < n ∧ P m
    · obtain ⟨m, h1, h2⟩ := hq
      exact ih m h1 h2
    · exact ⟨n, h, fun p h1 h2 => hq ⟨p, h1, h2⟩⟩

include S hw in
/-- The run from reset goes through a sequence of such states, for ever or until it fails; a run
with the bound `p` ends at the `p`th look. -/
theorem heads_or {s0 : State} (hb : boot shipped = .ok s0) (sr : UInt8) (n : Nat) :
    ∃ f : Nat → Head, (∀ p, (f p).Good T W r0) ∧ (f 0).mxs = [] ∧
      (((∀ p, (f p).Next W (f (p + 1))) ∧
        ∀ p, p < w → run (hwProg B W) w (n + 23) .main [] (KH mem0 [] (Hw.reset r0 sr p)) =
          .stop (KH (encMem (f p).x (f p).wh.fw) [] ((f p).h.irq W))) ∨
      ∃ q, (∀ p, p < q → (f p).Next W (f (p + 1))) ∧
        (∀ p, p ≤ q → p < w → run (hwProg B W) w (n + 23) .main [] (KH mem0 [] (Hw.reset r0 sr p)) =
          .stop (KH (encMem (f p).x (f p).wh.fw) [] ((f p).h.irq W))) ∧
        (∃ mxs hi e, SampledAll W 0 hi mxs ∧ Whole.life T shipped r0 mxs = .error e) ∧
        (Readable T → Sane (f q).wh.fw → ∀ p, q < p → p < w →
          run (hwProg B W) w (n + 23) .main [] (KH mem0 [] (Hw.reset r0 sr p)) = .err .oob)) := by
  obtain ⟨L3, hl⟩ : ∃ L3, fn_main.body.loops[0]? = some L3 := ⟨_, rfl⟩
  obtain ⟨x1, F1, k1⟩ := c_asdf_init (w := w) fits_zero hb (by omega) (n + 4)
  have o0 : On T r0 ⟨State.zero, r0, []⟩ (Hw.reset r0 sr 0) := ⟨rfl, rfl, rfl, .reset⟩
  have k1 : run prog w (n + 16) .asdf_init [] (K x0 (⟨State.zero, r0, []⟩ : Whole.Whole).fw [] [] none) = _ := k1 [] [] none
  obtain ⟨h1, k1, o1, f1⟩ := moveCall S hw (W := W) o0 k1
  have k1 : run (hwProg B W) w (n + 22) .asdf_init [] (KH (encMem x0 State.zero) [] (Hw.reset r0 sr 0)) = _ := k1
  let a0 : Head := ⟨[], [], x1, Whole.Whole.goOn T ⟨State.zero, r0, []⟩ s0, h1⟩
  have g0 : a0.Good T W r0 := by
    refine ⟨F1, o1, f1.polls, ?_, f1.found, ?_, rfl, Nat.zero_le _⟩
    · simp only [Whole.life, Whole.powerUp, hb, ok_bind, List.foldlM_nil]
      rfl
    · have c0 : (Hw.reset r0 sr 0).credit = 0 := rfl
      have c1 := f1.credit
      rw [c0] at c1
      exact c1
  let Ok : Head → Head → Prop := fun a b => a.Next W b ∧
    exec (run (hwProg B W) w (n + 22)) w L3.2.2 (KH (encMem a.x a.wh.fw) [] { a.h with polls := 1 }) =
      .ok .next (KH (encMem b.x b.wh.fw) [] b.h)
  have hstep : ∀ a : {a : Head // a.Good T W r0}, ∃ b : {a : Head // a.Good T W r0}, Ok a.1 b.1 ∨
      ((∃ mxs hi e, SampledAll W 0 hi mxs ∧ Whole.life T shipped r0 mxs = .error e) ∧
      (Readable T → Sane a.1.wh.fw →
      exec (run (hwProg B W) w (n + 22)) w L3.2.2 (KH (encMem a.1.x a.1.wh.fw) [] { a.1.h with polls := 1 }) = .err .oob)) := by
    intro a
    rcases head_step S hw (W := W) L3 hl n a.1 a.2 with ⟨b, h1, h2⟩ | h
    · exact ⟨⟨b, h1⟩, .inl h2⟩
    · exact ⟨a, .inr h⟩
  let f : Nat → {a : Head // a.Good T W r0} := fun p => Nat.rec ⟨a0, g0⟩ (fun _ a => (hstep a).choose) p
  have hf : ∀ p, Ok (f p).1 (f (p + 1)).1 ∨ _ := fun p => (hstep (f p)).choose_spec
  have hturns : ∀ p k j, (∀ i, i < p → Ok (f i).1 (f (i + 1)).1) →
      turns (evalE (run (hwProg B W) w (n + 22)) L3.1) (exec (run (hwProg B W) w (n + 22)) w L3.2.2)
        (evalE (run (hwProg B W) w (n + 22)) L3.2.1) (j + p) (KH (encMem a0.x a0.wh.fw) [] { a0.h with polls := p + k }) =
      turns (evalE (run (hwProg B W) w (n + 22)) L3.1) (exec (run (hwProg B W) w (n + 22)) w L3.2.2)
        (evalE (run (hwProg B W) w (n + 22)) L3.2.1) j (KH (encMem (f p).1.x (f p).1.wh.fw) [] { (f p).1.h with polls := k }) := by
    intro p
    induction p with
    | zero =>
      intro k j _
      rw [Nat.zero_add]
      rfl
    | succ p ih =>
      intro k j hok
      rw [show j + (p + 1) = (j + 1) + p by omega, show p + 1 + k = p + (k + 1) by omega,
        ih (k + 1) (j + 1) fun i hi => hok i (by omega)]
      exact turns_next L3 hl (n + 22) k j (f (p + 1)).2.polls (hok p (by omega)).2
  have hinit : ∀ p, run (hwProg B W) w (n + 22) .asdf_init [] (KH (encMem x0 State.zero) [] (Hw.reset r0 sr p)) =
      .ok .unit (KH (encMem a0.x a0.wh.fw) [] { a0.h with polls := p }) := by
    intro p
    have kp := run_shift (B := B) W p w (n + 22) .asdf_init [] (KH (encMem x0 State.zero) [] (Hw.reset r0 sr 0))
      (KH (encMem x0 State.zero) [] (Hw.reset r0 sr p))
      ⟨rfl, rfl, by show Hw.reset r0 sr p = { Hw.reset r0 sr 0 with polls := 0 + p }; rw [Nat.zero_add]; rfl⟩
    obtain ⟨t, e, hs⟩ := kp.1 _ _ k1
    have hs := hs.shift
    have hp0 : h1.polls = 0 := f1.polls
    rw [e, hs]
    show Out.ok Val.unit (KH (encMem a0.x a0.wh.fw) [] { h1 with polls := h1.polls + p }) = _
    rw [hp0, Nat.zero_add]
  have hstop : ∀ p, p < w → (∀ i, i < p → Ok (f i).1 (f (i + 1)).1) →
      run (hwProg B W) w (n + 23) .main [] (KH mem0 [] (Hw.reset r0 sr p)) =
        .stop (KH (encMem (f p).1.x (f p).1.wh.fw) [] ((f p).1.h.irq W)) := by
    intro p hp hok
    have e' := hinit p
    have h3 := hturns p 0 (w - p) hok
    rw [Nat.sub_add_cancel (Nat.le_of_lt hp)] at h3
    have hpp : (f p).1.h.polls = 0 := (f p).2.polls
    have k0 := tick_stop (B := B) W (encMem (f p).1.x (f p).1.wh.fw) [] (f p).1.h w (n + 18) hpp
    have hsame : ({ (f p).1.h with polls := 0 } : Hw) = (f p).1.h := by
      rw [← hpp]
    rw [hsame, Nat.add_zero] at h3
    generalize (f p).1.h.irq W = hI at k0 ⊢
    generalize (f p).1.h = hF at k0 h3
    generalize encMem (f p).1.x (f p).1.wh.fw = mF at k0 h3 ⊢
    have h4 : turns (evalE (run (hwProg B W) w (n + 22)) L3.1) (exec (run (hwProg B W) w (n + 22)) w L3.2.2)
          (evalE (run (hwProg B W) w (n + 22)) L3.2.1) (w - p) (KH mF [] hF) = .stop (KH mF [] hI) := by
      obtain ⟨j, hj⟩ : ∃ j, w - p = j + 1 := ⟨w - p - 1, by omega⟩
      rw [hj, turns_succ]
      cases hl
      cgo [k0]
    rw [h4] at h3
    rw [hw_fn (b := fn_main) W _ (n + 22) (body_whole rfl), mem0_eq]
    generalize ({ a0.h with polls := p } : Hw) = hA at e' h3
    generalize encMem a0.x a0.wh.fw = mA at e' h3
    cases hl
    unfold fn_main
    cgo [e', h3]
  refine ⟨fun p => (f p).1, fun p => (f p).2, rfl, ?_⟩
  by_cases hall : ∀ p, Ok (f p).1 (f (p + 1)).1
  · exact .inl ⟨fun p => (hall p).1, fun p hp => hstop p hp fun i _ => hall i⟩
  · obtain ⟨q0, hq0⟩ := Classical.not_forall.mp hall
    obtain ⟨q, hq, hlt⟩ := least_of (P := fun p => ¬ Ok (f p).1 (f (p + 1)).1) q0 hq0
    have hlt : ∀ p, p < q → Ok (f p).1 (f (p + 1)).1 := fun p hp => Classical.not_not.mp (hlt p hp)
    rcases hf q with h | ⟨hmx, herr⟩
    · exact absurd h hq
    refine .inr ⟨q, fun p hp => (hlt p hp).1, fun p hp hw => hstop p hw fun i hi => hlt i (by omega), hmx, fun hR hs p hp hpw => ?_⟩
    have e' := hinit p
    have h3 := hturns q (p - q) (w - q) hlt
    rw [Nat.sub_add_cancel (by omega : q ≤ w), Nat.add_sub_cancel' (Nat.le_of_lt hp)] at h3
    have h4 := herr hR hs
    obtain ⟨j, hj⟩ : ∃ j, w - q = j + 1 := ⟨w - q - 1, by omega⟩
    obtain ⟨k, hk⟩ : ∃ k, p - q = k + 1 := ⟨p - q - 1, by omega⟩
    have h5 := turns_err L3 hl (n + 22) k j h4
    rw [hj, hk, h5] at h3
    rw [hw_fn (b := fn_main) W _ (n + 22) (body_whole rfl), mem0_eq]
    generalize ({ a0.h with polls := p } : Hw) = hA at e' h3
    generalize encMem a0.x a0.wh.fw = mA at e' h3
    cases hl
    unfold fn_main
    cgo [e', h3]

include S hw in
/-- If no reading of the matrix makes the model of the board fail, the run goes on for ever. -/
theorem heads (hsafe : ∀ hi mxs, SampledAll W 0 hi mxs → ∃ wh, Whole.life T shipped r0 mxs = .ok wh) (sr : UInt8) (n : Nat) :
    ∃ f : Nat → Head, (∀ p, (f p).Good T W r0) ∧ (∀ p, (f p).Next W (f (p + 1))) ∧ (f 0).mxs = [] ∧
      ∀ p, p < w → run (hwProg B W) w (n + 23) .main [] (KH mem0 [] (Hw.reset r0 sr p)) =
        .stop (KH (encMem (f p).x (f p).wh.fw) [] ((f p).h.irq W)) := by
  cases hb : boot shipped with
  | error e =>
    obtain ⟨wh, h⟩ := hsafe 0 [] (Nat.le_refl 0)
    simp [Whole.life, Whole.powerUp, hb, bind, Except.bind] at h
  | ok s0 =>
    obtain ⟨f, h1, h2, ⟨h3, h4⟩ | ⟨_, _, _, ⟨mxs, hi, e, h3, h4⟩, _⟩⟩ := heads_or (r0 := r0) S hw (W := W) hb sr n
    · exact ⟨f, h1, h3, h2, h4⟩
    · obtain ⟨wh, h5⟩ := hsafe hi mxs h3
      rw [h4] at h5
      cases h5

omit [IsBoard B] in
theorem irq_on {wh : Whole.Whole} {h : Hw} (o : On T r0 wh h) : On T r0 wh (h.irq W) := by
  refine ⟨?_, ?_, ?_, ?_⟩
  · rw [irq_regs, o.regs]
  · rw [irq_log, o.log]
  · rw [irq_pol, o.pol]
  · rw [irq_log, irq_regs]; exact o.story

theorem inOrder_le {lo hi : Nat} {ts : List (Nat → Nat)} (h : InOrder lo hi ts) : lo ≤ hi := by
  induction ts generalizing lo with
  | nil => exact h
  | cons s ts ih =>
    obtain ⟨m, a, b⟩ := h
    have := a 0
    have := ih b
    omega

theorem inOrder_upto {lo hi : Nat} {ts : List (Nat → Nat)} (h : InOrder lo hi ts) : ∀ t ∈ ts, ∀ r, t r ≤ hi := by
  induction ts generalizing lo with
  | nil => exact fun _ h => (List.not_mem_nil h).elim
  | cons s ts ih =>
    obtain ⟨m, a, b⟩ := h
    intro t ht r
    rcases List.mem_cons.mp ht with rfl | ht
    · exact Nat.le_trans (a r).2 (inOrder_le b)
    · exact ih b t ht r

omit [IsBoard B] in
theorem Head.Good.length {a : Head} (g : a.Good T W r0) : a.times.length = a.h.found := by
  have := congrArg List.length g.reads
  rw [List.length_map, List.length_map] at this
  rw [g.found, this]

omit [IsBoard B] in
theorem next_times {a b : Head} (g : a.Good T W r0) (h : a.Next W b) : (a.h.irq W).time + 2 ≤ b.h.time ∧
    ∃ ts, b.times = a.times ++ ts ∧ ∀ t ∈ ts, ∀ r, (a.h.irq W).time < t r := by
  obtain ⟨_, _, _, t1, _⟩ := seen_on (W := W) g.on
  by_cases ht : (a.h.irq W).tick = 0
  · obtain ⟨_, h2, _, h3⟩ := h.idle ht
    rw [h3]
    exact ⟨t1, [], by rw [h2, List.append_nil], fun _ h => (List.not_mem_nil h).elim⟩
  · obtain ⟨t, mx, _, h2, h3, h4⟩ := h.scan ht
    have := h4.time
    refine ⟨by omega, [t], h2, fun s hs r => ?_⟩
    cases List.mem_singleton.mp hs
    have := (h3 r).1
    omega

omit [IsBoard B] in
theorem later_head {f : Nat → Head} (g : ∀ p, (f p).Good T W r0) (h : ∀ p, (f p).Next W (f (p + 1))) (p d : Nat) :
    ((f p).h.irq W).time + 2 ≤ (f (p + (d + 1))).h.time := by
  induction d with
  | zero => exact (next_times (g p) (h p)).1
  | succ d ih =>
    obtain ⟨k2, -⟩ := next_times (g (p + (d + 1))) (h (p + (d + 1)))
    have := irq_time W (f (p + (d + 1))).h
    show _ ≤ (f (p + (d + 1) + 1)).h.time
    omega

omit [IsBoard B] in
theorem later_times {f : Nat → Head} (g : ∀ p, (f p).Good T W r0) (h : ∀ p, (f p).Next W (f (p + 1))) (p d : Nat) :
    (f p).h.time ≤ (f (p + d)).h.time ∧
    ∃ ts, (f (p + d)).times = (f p).times ++ ts ∧ ∀ t ∈ ts, ∀ r, ((f p).h.irq W).time < t r := by
  induction d with
  | zero => exact ⟨Nat.le_refl _, [], (List.append_nil _).symm, fun _ h => (List.not_mem_nil h).elim⟩
  | succ d ih =>
    obtain ⟨i1, ts, i2, i3⟩ := ih
    obtain ⟨j1, us, j2, j3⟩ := next_times (g (p + d)) (h (p + d))
    have t0 := irq_time W (f (p + d)).h
    refine ⟨by show _ ≤ (f (p + d + 1)).h.time; omega, ts ++ us, ?_, fun t ht r => ?_⟩
    · show (f (p + d + 1)).times = _
      rw [j2, i2, List.append_assoc]
    · rcases List.mem_append.mp ht with ht | ht
      · exact i3 t ht r
      · have := j3 t ht r
        have : ((f p).h.irq W).time ≤ ((f (p + d)).h.irq W).time := by
          cases d with
          | zero => exact Nat.le_refl _
          | succ d =>
            have : ((f p).h.irq W).time + 2 ≤ (f (p + (d + 1))).h.time := later_head g h p d
            omega
        omega

end Asdf.C
