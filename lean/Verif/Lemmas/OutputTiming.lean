import Verif.Lemmas.Timing
import Verif.Lemmas.Pulse
import Verif.Lemmas.Kb
import Verif.Spec.OutputTiming

/-! # Outputs without an owner, and the record of a run on an output pin -/

namespace Asdf

open Spec

/-! ## Outputs without an owner are not driven -/

/-- Nothing owns output `p`. -/
def Free (p : Nat) (a : Outputs) : Prop := ∀ w, p ∉ a.lists w

theorem free_drive {p a} (h : Free p a) (w : Nat) (g : UInt8 → UInt8) :
    Free p (a.drive w g).1 ∧ Spares p (a.drive w g).2 := by
  refine ⟨h, fun e he z hz => ?_⟩
  obtain ⟨q, hq, rfl⟩ := List.mem_map.mp he
  cases hz
  exact h w hq

theorem free_act {p a} (h : Free p a) (w : Nat) (g : VFun) : Free p (a.act w g).1 ∧ Spares p (a.act w g).2 := by
  have hp : ∀ d : Event, (∀ q z, d ≠ .out q z) → Free p (a.pulse w d).1 ∧ Spares p (a.pulse w d).2 := by
    intro d hd
    obtain ⟨h1, h2⟩ := free_drive h w inv
    obtain ⟨h3, h4⟩ := free_drive h1 w inv
    refine ⟨h3, (h2.append ?_).append h4⟩
    intro e he z
    rw [List.mem_singleton.mp he]
    exact hd _ _
  cases g with
  | nofunc => exact ⟨h, fun e he => by cases he⟩
  | setHi => exact free_drive h w _
  | setLo => exact free_drive h w _
  | toggle => exact free_drive h w _
  | pulseShort => exact hp _ (fun _ _ hh => by cases hh)
  | pulseLong => exact hp _ (fun _ _ hh => by cases hh)

def FreeCfg (cfg : Config) (L : Layout) (p : Nat) : Prop :=
  ∀ (k : Kb) (i : UInt8), i ∈ L.maps → Free p (k.install cfg i).outs ∧
    ∃ es, Spares p es ∧ (k.install cfg i).trace = k.trace ++ es

def FreeInv (p : Nat) (k : Kb) : Prop := Free p k.outs ∧ Spares p k.trace

theorem FreeInv.spare {p k k'} (h : FreeInv p k) (h1 : Free p k'.outs)
    (h2 : ∃ es, Spares p es ∧ k'.trace = k.trace ++ es) : FreeInv p k' := by
  obtain ⟨es, hs, he⟩ := h2
  exact ⟨h1, he ▸ h.2.append hs⟩

theorem FreeInv.same {p k k'} (h : FreeInv p k) (h1 : k'.outs = k.outs) (h2 : k'.trace = k.trace) : FreeInv p k' := by
  unfold FreeInv
  rw [h1, h2]
  exact h

theorem FreeInv.apply {p k} (h : FreeInv p k) (w : Nat) (g : VFun) : FreeInv p (k.apply w g) := by
  obtain ⟨h1, h2⟩ := free_act h.1 w g
  exact h.spare h1 ⟨_, h2, rfl⟩

theorem FreeInv.select {cfg L p k} (hp : FreeCfg cfg L p) (h : FreeInv p k) {i : UInt8}
    (hi : (k.select cfg i).map ∈ L.maps) : FreeInv p (k.select cfg i) := by
  unfold Kb.select at hi ⊢
  by_cases hc : i ≠ k.map ∧ cfg.valid i = true
  · rw [if_pos hc] at hi ⊢
    rw [install_map] at hi
    obtain ⟨h1, h2⟩ := hp k i hi
    exact h.spare h1 h2
  · rw [if_neg hc]
    exact h

theorem FreeInv.emit {p k} (h : FreeInv p k) {e : Event} (he : ∀ y, e ≠ .out p y) : FreeInv p (k.emit [e]) :=
  h.spare h.1 ⟨[e], (fun a ha => by rw [List.mem_singleton.mp ha]; exact he), rfl⟩

theorem FreeInv.function {cfg p k} (h : FreeInv p k) (n : Nat) : FreeInv p (k.function cfg n) := by
  unfold Kb.function
  split
  · exact h.same rfl rfl
  · exact h

theorem FreeInv.press {cfg L p k} (hp : FreeCfg cfg L p) (h : FreeInv p k) (code : Code)
    (hm : (k.press cfg code).map ∈ L.maps) : FreeInv p (k.press cfg code) := by
  have h0 : ∀ k' : Kb, k'.outs = k.outs → k'.trace = k.trace → ∀ w g, FreeInv p (k'.apply w g) :=
    fun k' e1 e2 w g => (h.same (k' := k') e1 e2).apply w g
  unfold Kb.press at hm ⊢
  split at hm
  all_goals first
    | exact h.apply _ _
    | exact h.function _
    | exact FreeInv.select hp h hm
    | exact h0 _ rfl rfl _ _
    | exact h.emit (fun _ hh => by cases hh)
    | exact h.same rfl rfl
    | (split
       · exact h.same rfl rfl
       · exact h)

theorem FreeInv.release {cfg L p k} (hp : FreeCfg cfg L p) (h : FreeInv p k) (code : Code)
    (hm : (k.release cfg code).map ∈ L.maps) : FreeInv p (k.release cfg code) := by
  have h0 : ∀ k' : Kb, k'.outs = k.outs → k'.trace = k.trace → ∀ w g, FreeInv p (k'.apply w g) :=
    fun k' e1 e2 w g => (h.same (k' := k') e1 e2).apply w g
  unfold Kb.release at hm ⊢
  split at hm
  all_goals first
    | exact FreeInv.select hp h hm
    | exact h0 _ rfl rfl _ _
    | exact h.emit (fun _ hh => by cases hh)
    | exact h.same rfl rfl
    | (split
       · exact h.same rfl rfl
       · exact h)

theorem FreeInv.key {cfg L p k} (hp : FreeCfg cfg L p) (h : FreeInv p k) (r c : Nat) (b : Bool)
    (hm : (k.key cfg L b r c).map ∈ L.maps) : FreeInv p (k.key cfg L b r c) := by
  have h' : FreeInv p (stepDeb k b r c) := h.same rfl rfl
  unfold Kb.key at hm ⊢
  by_cases hne : b ≠ (k.deb r c).on
  · rw [if_pos hne] at hm ⊢
    by_cases h1 : (k.deb r c).left ≤ 1
    · rw [if_pos h1] at hm ⊢
      cases b with
      | true =>
        rw [if_pos rfl] at hm ⊢
        exact h'.press hp _ hm
      | false =>
        rw [if_neg (by decide)] at hm ⊢
        exact h'.release hp _ hm
    · rw [if_neg h1]
      exact h'
  · rw [if_neg hne]
    split
    · split
      · exact h.same rfl rfl
      · exact h.same rfl rfl
    · exact h'

theorem FreeInv.output {p k} (h : FreeInv p k) : FreeInv p k.output := by
  unfold Kb.output
  split
  · exact h.spare h.1 ⟨_, (fun a ha y hy => by
      rcases List.mem_cons.mp ha with e | ha
      · rw [hy] at e; cases e
      · rw [List.mem_singleton.mp ha] at hy; cases hy), rfl⟩
  · split
    · refine h.spare h.1 ⟨_, ?_, rfl⟩
      split
      · intro a ha y hy
        rw [List.mem_singleton.mp ha] at hy; cases hy
      · intro a ha; cases ha
    · exact h

theorem free_run {cfg : Config} {L : Layout} (hcf : CfgFacts cfg L) {p : Nat} (hp : FreeCfg cfg L p) (inps : List Input)
    (hin : ∀ inp ∈ inps, Allowed L inp) : Spares p (Kb.after cfg L inps).trace := by
  refine (after_induction (Q := fun _ _ _ => True) (P := FreeInv p) hcf ?_ (fun k h => h.output)
    (fun k b r c _ hm _ _ _ h => h.key hp r c b hm) inps hin (fun _ _ _ _ _ _ => trivial)).2
  obtain ⟨h1, es, hs, he⟩ := hp blankKb 0 hcf.zero
  exact ⟨h1, he ▸ hs⟩

theorem freeCfg_of_check {cfg : Config} {L : Layout} {p : Nat}
    (h : ∀ i ∈ L.maps, ∀ caps, freeCheck (cfg.setup i) p caps = true) : FreeCfg cfg L p := by
  intro k i hi
  obtain ⟨h1, h2⟩ := setup_fx (cfg.setup i)
    (Kb.emit { k with map := i, outs := Outputs.initial } [.archInit]) k.trace [.archInit] rfl
  have hc := h i hi k.caps
  unfold freeCheck at hc
  simp only [Bool.and_eq_true, List.all_eq_true, List.mem_range,
    Bool.not_eq_true', List.contains_eq_mem, decide_eq_false_iff_not] at hc
  obtain ⟨c4, c5⟩ := hc
  have h1 : (k.install cfg i).outs = _ := h1
  have h2 : (k.install cfg i).trace = k.trace ++ _ := h2
  rw [h1, h2]
  refine ⟨?_, _, ?_, rfl⟩
  · intro w
    by_cases h12 : w < 12
    · exact c4 w h12
    · have := setupFx_high (cfg.setup i) (Outputs.initial, k.caps, [.archInit]) w (by omega) rfl
      intro hm
      have hm : p ∈ (List.foldl setupFx (Outputs.initial, k.caps, [.archInit]) (cfg.setup i)).1.lists w := hm
      rw [this] at hm
      cases hm
  · intro e he y hy
    have := c5 e he
    rw [hy] at this
    simp at this

/-! ## Pulses, event by event -/

/-- Where a pulse has got to: none is under way, it has begun, its time has passed; and how many
were complete before. -/
inductive Phase where
  | rest (n : Nat) | begun (n : Nat) | waited (n : Nat) | bad

def Phase.step (p : Nat) (x y : UInt8) (d : Event) : Phase → Event → Phase
  | .rest n, .out q v => if q ≠ p then .rest n else if v = x then .begun n else .bad
  | .rest n, _ => .rest n
  | .begun n, e => if e = d then .waited n else .bad
  | .waited n, e => if e = .out p y then .rest (n + 1) else .bad
  | .bad, _ => .bad

theorem phase_pulses {p : Nat} {x y : UInt8} {d : Event} (es : List Event) :
    ∀ n m, pulses p x y d es = some m → es.foldl (Phase.step p x y d) (.rest n) = .rest (n + m) := by
  fun_induction pulses p x y d es with
  | case1 => intro n m h; cases h; rfl
  | case2 q v es hq ih =>
    intro n m h
    rw [List.foldl_cons]
    have e : Phase.step p x y d (.rest n) (.out q v) = .rest n := if_pos hq
    rw [e]
    exact ih n m h
  | case3 q v hq e q' v' es' hc ih =>
    intro n m h
    obtain ⟨k, hk, rfl⟩ := Option.map_eq_some_iff.mp h
    obtain ⟨rfl, rfl, rfl, rfl⟩ := hc
    have hq : q = q' := Decidable.of_not_not hq
    subst hq
    have := ih (n + 1) k hk
    simp only [List.foldl_cons, Phase.step, ne_eq, not_true, if_false, if_true]
    rw [this, Nat.add_right_comm, Nat.add_assoc]
  | case4 => intro n m h; cases h
  | case5 => intro n m h; cases h
  | case6 e es hne ih =>
    intro n m h
    rw [List.foldl_cons]
    have e : Phase.step p x y d (.rest n) e = .rest n := by
      cases e with
      | out q v => exact absurd rfl (hne q v)
      | _ => rfl
    rw [e]
    exact ih n m h

/-! ## A pin in time -/

open Avr

/-- The states of a pin after each access, and the waiting times. -/
def timedPin (p : Pin) (st : PinSt) : List Op → List (Drive × Nat)
  | [] => []
  | op :: ops => (driveOf (pinStep p st op), C.us op) :: timedPin p (pinStep p st op) ops

theorem timed_pin {p : Pin} (hp : p.bit < 8) (ops : List Op) (r : Regs) :
    (C.timed r ops).map (fun x => (drive x.1 p, x.2)) = timedPin p (pinSt r p) ops := by
  induction ops generalizing r with
  | nil => rfl
  | cons op ops ih =>
    rw [C.timed, List.map_cons, ih, drive_eq, pinSt_step _ _ _ _ hp]
    rfl

theorem timed_leaves {p : Pin} {st : PinSt} {ops : List Op} (h : ops.all (leaves p) = true) :
    timedPin p st ops = ops.map fun op => (driveOf st, C.us op) := by
  induction ops with
  | nil => rfl
  | cons op ops ih =>
    rw [List.all_cons, Bool.and_eq_true] at h
    rw [timedPin, leaves_iff h.1, ih h.2]
    rfl

theorem periods_append (d : Drive) (a b : List (Drive × Nat)) :
    periods d (a ++ b) = b.foldl (Periods.step d) (periods d a) := List.foldl_append

theorem periods_other {d : Drive} {l : List (Drive × Nat)} (h : ∀ x ∈ l, x.1 ≠ d) (ps : List Nat) :
    l.foldl (Periods.step d) ⟨none, ps⟩ = ⟨none, ps⟩ :=
  Timing.foldl_same fun x hx => by simp [Periods.step, h x hx]

theorem periods_end {d : Drive} {l : List (Drive × Nat)} (h : ∀ x ∈ l, x.1 ≠ d) (hne : l ≠ []) (t : Nat) (ps : List Nat) :
    l.foldl (Periods.step d) ⟨some t, ps⟩ = ⟨none, ps ++ [t]⟩ := by
  cases l with
  | nil => exact absurd rfl hne
  | cons x l =>
    have e : Periods.step d ⟨some t, ps⟩ x = ⟨none, ps ++ [t]⟩ := if_neg (h x List.mem_cons_self)
    rw [List.foldl_cons, e]
    exact periods_other (fun y hy => h y (List.mem_cons_of_mem _ hy)) _

theorem periods_on {d : Drive} {l : List (Drive × Nat)} (h : ∀ x ∈ l, x.1 = d) (t : Nat) (ps : List Nat) :
    l.foldl (Periods.step d) ⟨some t, ps⟩ = ⟨some (t + (l.map Prod.snd).sum), ps⟩ := by
  induction l generalizing t with
  | nil => rfl
  | cons x l ih =>
    have e : Periods.step d ⟨some t, ps⟩ x = ⟨some (t + x.2), ps⟩ := if_pos (h x List.mem_cons_self)
    rw [List.foldl_cons, e, ih fun y hy => h y (List.mem_cons_of_mem _ hy)]
    simp only [List.map_cons, List.sum_cons, Nat.add_assoc]

/-- How a board drives a pin for output `p`: value `x` brings it from rest to the state `act`, value
`y` back to rest, without the state `opp` in between; `d` takes `t` µs; outputs `ms` share the pin
and nothing else acts on it. -/
structure Pulsed (B : Board) (pin : Pin) (p : Nat) (ms : List Nat) (x y : UInt8) (d : Event) (t : Nat)
    (act opp : Drive) : Prop where
  bit : pin.bit < 8
  ne : act ≠ opp
  rise : ∀ st ∈ allPinSt, driveOf st ≠ act → driveOf st ≠ opp →
    ((timedPin pin st (B.opsOf (.out p x))).dropLast.all fun z => z.1 ≠ act && z.1 ≠ opp) = true ∧
    (timedPin pin st (B.opsOf (.out p x))).getLast?.map Prod.fst = some act ∧
    driveOf ((B.opsOf (.out p x)).foldl (pinStep pin) st) = act
  fall : ∀ st ∈ allPinSt, driveOf st = act →
    ((timedPin pin st (B.opsOf (.out p y))).all fun z => z.1 ≠ act && z.1 ≠ opp) = true ∧
    timedPin pin st (B.opsOf (.out p y)) ≠ [] ∧
    driveOf ((B.opsOf (.out p y)).foldl (pinStep pin) st) ≠ act ∧
    driveOf ((B.opsOf (.out p y)).foldl (pinStep pin) st) ≠ opp
  free : ∀ q, q < 13 → q ≠ p → q ∉ ms → ∀ v ∈ [(0 : UInt8), 1], (B.opsOf (.out q v)).all (leaves pin) = true
  rest : ∀ e ∈ [Event.delayShort, .delayLong, .posStrobe, .negStrobe, .archInit], (B.opsOf e).all (leaves pin) = true
  send : ∀ n, n < 256 → (B.opsOf (.send (UInt8.ofNat n))).all (leaves pin) = true
  wait : d ∈ [Event.delayShort, .delayLong] ∧ ((B.opsOf d).map C.us).sum = t
  rows : pin ∉ rowPins B

theorem Pulsed.leave {B : Board} (hB : B ∈ boards) {pin p ms x y d t act opp} (h : Pulsed B pin p ms x y d t act opp)
    (e : Event) (h1 : ∀ v, e ≠ .out p v) (h2 : ∀ q ∈ ms, ∀ v, e ≠ .out q v) : (B.opsOf e).all (leaves pin) = true := by
  cases e with
  | out q v =>
    by_cases hq : q < 13
    · rw [handler_bool hB]
      exact h.free q hq (fun hc => h1 v (by rw [hc])) (fun hc => h2 q hc v rfl) _ (by split <;> decide)
    · rw [handler_none hB q (by omega)]
      rfl
  | delayShort => exact h.rest _ (by decide)
  | delayLong => exact h.rest _ (by decide)
  | posStrobe => exact h.rest _ (by decide)
  | negStrobe => exact h.rest _ (by decide)
  | archInit => exact h.rest _ (by decide)
  | delayMs m =>
    rw [delayMs_ops hB, List.all_eq_true]
    intro op ho
    rw [(List.mem_replicate.mp ho).2]
    exact leaves_delay _ _
  | send code =>
    have h := h.send code.toNat code.toNat_lt
    rw [UInt8.ofNat_toNat] at h
    exact h

/-- Where the pin and its periods are, for each phase of a pulse. -/
def PhaseOk (t : Nat) (act opp : Drive) (now : Drive) (s : Periods) : Phase → Prop
  | .rest n => now ≠ act ∧ now ≠ opp ∧ s.now = none ∧ s.past.length = n ∧ ∀ u ∈ s.past, t ≤ u
  | .begun n => now = act ∧ s.now ≠ none ∧ s.past.length = n ∧ ∀ u ∈ s.past, t ≤ u
  | .waited n => now = act ∧ (∃ u, s.now = some u ∧ t ≤ u) ∧ s.past.length = n ∧ ∀ u ∈ s.past, t ≤ u
  | .bad => True

theorem PhaseOk.stay {t act opp now s ph} (hne : act ≠ opp) (h : PhaseOk t act opp now s ph) {l : List (Drive × Nat)}
    (hl : ∀ z ∈ l, z.1 = now) (hb : ph ≠ .bad) :
    PhaseOk t act opp now (l.foldl (Periods.step act) s) ph ∧ ∀ z ∈ l, z.1 ≠ opp := by
  obtain ⟨o, ps⟩ := s
  cases ph with
  | rest n =>
    obtain ⟨h1, h2, h3, h4⟩ := h
    cases h3
    rw [periods_other fun z hz => by rw [hl z hz]; exact h1]
    exact ⟨⟨h1, h2, rfl, h4⟩, fun z hz => by rw [hl z hz]; exact h2⟩
  | begun n =>
    obtain ⟨rfl, h2, h4⟩ := h
    obtain ⟨u, rfl⟩ := Option.ne_none_iff_exists'.mp h2
    rw [periods_on hl]
    exact ⟨⟨rfl, nofun, h4⟩, fun z hz => by rw [hl z hz]; exact hne⟩
  | waited n =>
    obtain ⟨rfl, ⟨u, h2, h3⟩, h4⟩ := h
    cases h2
    rw [periods_on hl]
    exact ⟨⟨rfl, ⟨_, rfl, Nat.le_add_right_of_le h3⟩, h4⟩, fun z hz => by rw [hl z hz]; exact hne⟩
  | bad => exact absurd rfl hb

theorem phase_bad {p x y d es} : List.foldl (Phase.step p x y d) .bad es = .bad := by
  induction es with
  | nil => rfl
  | cons e es ih => exact ih

theorem row_only {B : Board} {T : Whole.Target} (hT : Built B T) {c : Whole.Contacts} {row v : UInt8} {r : Regs}
    {l : List Regs} (h : T.read c row r = .ok (v, l)) : ∀ x ∈ l, onlyPins (rowPins B) r x := by
  intro x hx
  rcases hT with ⟨rfl, rfl⟩ | ⟨rfl, cols, _, rfl⟩
  · cases h
    exact Props.C41_other_pins c.keys c.other row c.sr r x hx
  · exact Props.C42_other_pins _ row v r x l h hx

theorem story_phase {B : Board} {T : Whole.Target} (hT : Built B T) {pin p ms x y d t act opp}
    (hP : Pulsed B pin p ms x y d t act opp) {r0 r : Regs} (h0 : drive r0 pin ≠ act ∧ drive r0 pin ≠ opp) {es : List Event}
    {l : List (Regs × Nat)} (h : C.Story T r0 es l r) (hm : ∀ q ∈ ms, Spares q es)
    (hb : es.foldl (Phase.step p x y d) (.rest 0) ≠ .bad) :
    PhaseOk t act opp (drive r pin) (periods act (l.map fun z => (drive z.1 pin, z.2)))
      (es.foldl (Phase.step p x y d) (.rest 0)) ∧ ∀ z ∈ l, drive z.1 pin ≠ opp := by
  obtain ⟨ready, hO⟩ := hT.onBoard
  have hB := hO.mem
  induction h with
  | reset => exact ⟨⟨h0.1, h0.2, rfl, rfl, fun u hu => by cases hu⟩, fun z hz => by cases hz⟩
  | @event es l r h e ih =>
    have hb' : es.foldl (Phase.step p x y d) (.rest 0) ≠ .bad := by
      intro hc
      rw [List.foldl_append, hc] at hb
      exact hb rfl
    have hm' : ∀ q ∈ ms, ∀ v, e ≠ .out q v := fun q hq v => hm q hq e (List.mem_append_right _ List.mem_cons_self) v
    obtain ⟨i1, i2⟩ := ih (fun q hq => fun f hf => hm q hq f (List.mem_append_left _ hf)) hb'
    rw [List.foldl_append] at hb ⊢
    rw [List.map_append, periods_append, hO.ops, timed_pin hP.bit, drive_eq, exec_pin _ _ hP.bit]
    rw [drive_eq] at i1
    have hopp : (∀ z ∈ timedPin pin (pinSt r pin) (B.opsOf e), z.1 ≠ opp) →
        ∀ z ∈ l ++ C.timed r (B.opsOf e), drive z.1 pin ≠ opp := by
      intro hk z hz
      rcases List.mem_append.mp hz with hz | hz
      · exact i2 z hz
      · rw [← timed_pin hP.bit] at hk
        exact hk _ (List.mem_map_of_mem hz)
    generalize es.foldl (Phase.step p x y d) (.rest 0) = ph at *
    generalize periods act (l.map fun z => (drive z.1 pin, z.2)) = s at *
    generalize pinSt r pin = st at *
    have stay : (B.opsOf e).all (leaves pin) = true → Phase.step p x y d ph e = ph →
        PhaseOk t act opp (driveOf ((B.opsOf e).foldl (pinStep pin) st))
          ((timedPin pin st (B.opsOf e)).foldl (Periods.step act) s) ([e].foldl (Phase.step p x y d) ph) ∧
        ∀ z ∈ l ++ C.timed r (B.opsOf e), drive z.1 pin ≠ opp := by
      intro hl hs
      have hk : ∀ z ∈ timedPin pin st (B.opsOf e), z.1 = driveOf st := by
        rw [timed_leaves hl]
        intro z hz
        obtain ⟨op, _, rfl⟩ := List.mem_map.mp hz
        rfl
      rw [foldl_leaves hl]
      show PhaseOk _ _ _ _ _ (Phase.step p x y d ph e) ∧ _
      rw [hs]
      obtain ⟨j1, j2⟩ := i1.stay hP.ne hk hb'
      exact ⟨j1, hopp j2⟩
    cases ph with
    | bad => exact absurd rfl hb'
    | rest n =>
      by_cases ho : ∃ v, e = .out p v
      · obtain ⟨v, rfl⟩ := ho
        have hv : v = x := by
          refine Decidable.byContradiction fun hv => hb ?_
          simp [Phase.step, hv]
        subst hv
        obtain ⟨h1, h2, h3, h4⟩ := i1
        obtain ⟨k1, k2, k3⟩ := hP.rise st (mem_allPinSt _) h1 h2
        generalize timedPin pin st (B.opsOf (.out p v)) = z at *
        obtain ⟨o, ps⟩ := s
        cases h3
        rcases List.eq_nil_or_concat z with rfl | ⟨z, w, rfl⟩
        · cases k2
        · rw [List.concat_eq_append] at *
          rw [List.dropLast_concat, List.all_eq_true] at k1
          rw [List.getLast?_concat] at k2
          have k2 : w.1 = act := Option.some.inj k2
          have k1 : ∀ q ∈ z, q.1 ≠ act ∧ q.1 ≠ opp := fun q hq => by simpa using k1 q hq
          rw [List.foldl_append, periods_other fun q hq => (k1 q hq).1]
          have e1 : [w].foldl (Periods.step act) ⟨none, ps⟩ = ⟨some (0 + w.2), ps⟩ := if_pos k2
          have e2 : [Event.out p v].foldl (Phase.step p v y d) (.rest n) = .begun n := by simp [Phase.step]
          rw [e1, e2]
          refine ⟨⟨k3, nofun, h4⟩, hopp ?_⟩
          intro q hq
          rcases List.mem_append.mp hq with hq | hq
          · exact (k1 q hq).2
          · rw [List.mem_singleton.mp hq, k2]
            exact hP.ne
      · have ho : ∀ v, e ≠ .out p v := fun v hc => ho ⟨v, hc⟩
        refine stay (hP.leave hB e ho hm') ?_
        cases e with
        | out q v => exact if_pos fun hc => ho v (by rw [hc])
        | _ => rfl
    | begun n =>
      have hd : e = d := Decidable.byContradiction fun hd => hb (if_neg hd)
      subst hd
      have hl : (B.opsOf e).all (leaves pin) = true := hP.rest e (by
        rcases List.mem_cons.mp hP.wait.1 with h | h
        · rw [h]; decide
        · rw [List.mem_singleton.mp h]; decide)
      rw [foldl_leaves hl]
      have e2 : [e].foldl (Phase.step p x y e) (.begun n) = .waited n := if_pos rfl
      rw [e2]
      obtain ⟨h1, h2, h4⟩ := i1
      obtain ⟨o, ps⟩ := s
      obtain ⟨u, rfl⟩ := Option.ne_none_iff_exists'.mp h2
      have hk : ∀ z ∈ timedPin pin st (B.opsOf e), z.1 = act := by
        rw [timed_leaves hl]
        intro z hz
        obtain ⟨op, _, rfl⟩ := List.mem_map.mp hz
        exact h1
      have hsum : ((timedPin pin st (B.opsOf e)).map Prod.snd).sum = t := by
        rw [timed_leaves hl, List.map_map, ← hP.wait.2]
        rfl
      rw [periods_on hk, hsum]
      exact ⟨⟨h1, ⟨_, rfl, Nat.le_add_left _ _⟩, h4⟩, hopp fun z hz => by rw [hk z hz]; exact hP.ne⟩
    | waited n =>
      have hd : e = .out p y := Decidable.byContradiction fun hd => hb (if_neg hd)
      subst hd
      obtain ⟨h1, ⟨u, h2, h3⟩, h4, h5⟩ := i1
      obtain ⟨o, ps⟩ := s
      cases h2
      obtain ⟨k1, k2, k3, k4⟩ := hP.fall st (mem_allPinSt _) h1
      rw [List.all_eq_true] at k1
      have k1 : ∀ q ∈ timedPin pin st (B.opsOf (.out p y)), q.1 ≠ act ∧ q.1 ≠ opp := fun q hq => by simpa using k1 q hq
      have e2 : [Event.out p y].foldl (Phase.step p x y d) (.waited n) = .rest (n + 1) := if_pos rfl
      rw [e2, periods_end (fun q hq => (k1 q hq).1) k2]
      refine ⟨⟨k3, k4, rfl, by simp; exact h4, ?_⟩, hopp fun q hq => (k1 q hq).2⟩
      intro w hw
      rcases List.mem_append.mp hw with hw | hw
      · exact h5 w hw
      · rw [List.mem_singleton.mp hw]; exact h3
  | @read es l r h c row v ops e ht ih =>
    obtain ⟨i1, i2⟩ := ih hm hb
    have hw : ∀ z ∈ states .sbi (fun _ => 0) r ops, drive z pin = drive r pin := by
      intro z hz
      obtain ⟨a, b⟩ := row_only hT e z hz pin hP.bit hP.rows
      unfold drive
      rw [a, b]
    have hr : drive (Avr.exec .sbi (fun _ => 0) r ops) pin = drive r pin := by
      rw [Timing.exec_last]
      rcases getLast_mem (l := states .sbi (fun _ => 0) r ops) (d := r) rfl with h | h
      · rw [h]
      · exact hw _ h
    have hl : ∀ z ∈ (C.timed r ops).map fun z => (drive z.1 pin, z.2), z.1 = drive r pin := by
      intro z hz
      obtain ⟨w, hw', rfl⟩ := List.mem_map.mp hz
      refine hw w.1 ?_
      rw [← C.timed_fst]
      exact List.mem_map_of_mem hw'
    rw [List.map_append, periods_append, hr]
    obtain ⟨j1, j2⟩ := i1.stay hP.ne hl hb
    refine ⟨j1, fun z hz => ?_⟩
    rcases List.mem_append.mp hz with hz | hz
    · exact i2 z hz
    · exact j2 _ (List.mem_map_of_mem hz)

end Asdf
