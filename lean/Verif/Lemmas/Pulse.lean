import Verif.Lemmas.Typed
import Verif.Spec.Pulse

/-! # Lemmas for C56: pulses -/

namespace Asdf

open Spec

/-! ## Induction over runs of the abstract keyboard -/

theorem log_keys_induction {cfg : Config} {L : Layout} (hcf : CfgFacts cfg L)
    (f : Config → Layout → Bool → Kb → Nat → Nat → List Code) {P : Kb → List Code → Prop}
    (hkey : ∀ k l r c p, k.map ∈ L.maps → (k.key cfg L p r c).map ∈ L.maps →
      P k l → P (k.key cfg L p r c) (l ++ f cfg L p k r c))
    {inp : Input} (hin : Allowed L inp) (xs : List (Nat × Nat))
    (hx : ∀ x ∈ xs, x.1 < L.rows ∧ x.2 < L.cols) {s : State} {k : Kb} (hs : Shows cfg L s k)
    {l : List Code} (h : P k l) :
    P (xs.foldl (fun k x => k.key cfg L (sample inp x.1 x.2) x.1 x.2) k)
      (l ++ k.logKeys cfg L f inp xs) := by
  induction xs generalizing s k l with
  | nil =>
    show P k (l ++ [])
    rw [List.append_nil]
    exact h
  | cons x xs ih =>
    have hx1 := hx x List.mem_cons_self
    obtain ⟨s1, _, e2⟩ := hs.key hcf hx1.1 hx1.2 (p := sample inp x.1 x.2) (fun hp => by
      cases hb : L.blocked x.1 x.2 with
      | false => rfl
      | true =>
        have := hin x.1 x.2 hx1.1 hx1.2 hb
        rw [this] at hp; cases hp)
    obtain ⟨_, w1⟩ := hs.wf
    obtain ⟨_, w2⟩ := e2.wf
    have := ih (fun y hy => hx y (List.mem_cons_of_mem _ hy)) e2
      (hkey k l x.1 x.2 (sample inp x.1 x.2) (hs.map ▸ w1.idx) (e2.map ▸ w2.idx) h)
    rw [List.append_assoc] at this
    exact this

/-- To show something about the abstract keyboard and one of its logs after every run,
show it for the start, for output and for one sample of one key. -/
theorem log_induction {cfg : Config} {L : Layout} (hcf : CfgFacts cfg L)
    (f : Config → Layout → Bool → Kb → Nat → Nat → List Code) {P : Kb → List Code → Prop}
    (hstart : P (Kb.start cfg) []) (hout : ∀ k l, P k l → P k.output l)
    (hkey : ∀ k l r c p, k.map ∈ L.maps → (k.key cfg L p r c).map ∈ L.maps →
      P k l → P (k.key cfg L p r c) (l ++ f cfg L p k r c))
    (inps : List Input) (hin : ∀ inp ∈ inps, Allowed L inp) :
    P (Kb.after cfg L inps) (Kb.log cfg L f inps (Kb.start cfg)).flatten := by
  revert hin
  refine snoc_induction (P := fun l => (∀ inp ∈ l, Allowed L inp) →
    P (Kb.after cfg L l) (Kb.log cfg L f l (Kb.start cfg)).flatten) ?_ ?_ inps
  · intro _; exact hstart
  · intro a x ih hin
    have ha := fun i hi => hin i (List.mem_append_left _ hi)
    obtain ⟨s0, _, e2⟩ := Shows.start hcf
    obtain ⟨s1, _, g2⟩ := e2.run hcf a ha
    obtain ⟨s2, _, o2⟩ := g2.output hcf
    rw [after_snoc, log_append, List.flatten_append]
    show P _ (_ ++ ([_] : List (List Code)).flatten)
    rw [List.flatten_singleton]
    refine log_keys_induction hcf f hkey (hin x (List.mem_append_right _ (List.mem_singleton.mpr rfl)))
      (keysOf L) ?_ o2 (hout _ _ (ih ha))
    intro y hy
    rw [keysOf_allKeys] at hy
    unfold allKeys at hy
    rw [mem_keyOrder] at hy
    omega

/-! ## Counting pulses -/

theorem pulses_other {p : Nat} {x y : UInt8} {d : Event} {q : Nat} (v : UInt8) (es : List Event)
    (hq : q ≠ p) : pulses p x y d (.out q v :: es) = pulses p x y d es := by
  conv => lhs; unfold pulses
  rw [if_pos hq]

theorem pulses_self {p : Nat} {x y : UInt8} {d : Event} (es : List Event) :
    pulses p x y d (.out p x :: d :: .out p y :: es) = (pulses p x y d es).map (· + 1) := by
  conv => lhs; unfold pulses
  simp

theorem pulses_append {p : Nat} {x y : UInt8} {d : Event} (t u : List Event) {n : Nat}
    (h : pulses p x y d t = some n) :
    pulses p x y d (t ++ u) = (pulses p x y d u).map (n + ·) := by
  fun_induction pulses p x y d t generalizing n with
  | case1 =>
    cases h
    show pulses p x y d u = _
    cases pulses p x y d u with
    | none => rfl
    | some m => show some m = some (0 + m); rw [Nat.zero_add]
  | case2 q v es hq ih =>
    rw [List.cons_append]
    rw [pulses_other _ _ hq]
    exact ih h
  | case3 q v hq e q' v' es' hc ih =>
    have hq' : q = p := Classical.not_not.mp hq
    obtain ⟨h1, h2, h3, h4⟩ := hc
    rw [List.cons_append, List.cons_append, List.cons_append, hq', h1, h2, h3, h4, pulses_self]
    cases hp : pulses p x y d es' with
    | none => rw [hp] at h; cases h
    | some m =>
      rw [hp] at h
      cases h
      rw [ih hp]
      cases pulses p x y d u with
      | none => rfl
      | some z => show some (m + z + 1) = some (m + 1 + z); congr 1; omega
  | case4 => cases h
  | case5 => cases h
  | case6 e es h1 ih =>
    rw [List.cons_append]
    rw [← ih h]
    cases e with
    | out q v => exact absurd rfl (h1 q v)
    | _ => rfl

/-- Events that do not drive output `p`. -/
def Spares (p : Nat) (es : List Event) : Prop := ∀ e ∈ es, ∀ y, e ≠ .out p y

theorem pulses_spares {p : Nat} {x y : UInt8} {d : Event} {es : List Event} (h : Spares p es) :
    pulses p x y d es = some 0 := by
  induction es with
  | nil => rfl
  | cons e es ih =>
    have ih := ih (fun a ha => h a (List.mem_cons_of_mem _ ha))
    have he := h e List.mem_cons_self
    cases e with
    | out q v =>
      unfold pulses
      rw [if_pos (fun hq => he v (by rw [hq]))]
      exact ih
    | _ => exact ih

/-! ## The invariant -/

/-- Output code `v` owns output `p` alone and pulses it from its resting level. -/
structure Resting (v p : Nat) (fn : VFun) (x : UInt8) (a : Outputs) : Prop where
  own : a.lists v = [p]
  fn : a.fn v = fn
  level : a.level p = x
  alone : ∀ w, w ≠ v → p ∉ a.lists w

theorem resting_drive {v p fn x a} (h : Resting v p fn x a) {w : Nat} (hw : w ≠ v)
    (g : UInt8 → UInt8) : Resting v p fn x (a.drive w g).1 ∧ Spares p (a.drive w g).2 := by
  refine ⟨⟨h.own, h.fn, ?_, h.alone⟩, ?_⟩
  · show (if p ∈ a.lists w then _ else _) = _
    rw [if_neg (h.alone w hw)]
    exact h.level
  · intro e he z hz
    obtain ⟨q, hq, rfl⟩ := List.mem_map.mp he
    cases hz
    exact h.alone w hw hq

theorem Spares.append {p : Nat} {a b : List Event} (ha : Spares p a) (hb : Spares p b) :
    Spares p (a ++ b) := by
  intro e he
  rcases List.mem_append.mp he with h | h
  · exact ha e h
  · exact hb e h

theorem resting_act_other {v p fn x a} (h : Resting v p fn x a) {w : Nat} (hw : w ≠ v)
    (g : VFun) : Resting v p fn x (a.act w g).1 ∧ Spares p (a.act w g).2 := by
  have hp : ∀ d : Event, (∀ q z, d ≠ .out q z) →
      Resting v p fn x (a.pulse w d).1 ∧ Spares p (a.pulse w d).2 := by
    intro d hd
    obtain ⟨h1, h2⟩ := resting_drive h hw inv
    obtain ⟨h3, h4⟩ := resting_drive h1 hw inv
    refine ⟨h3, (h2.append ?_).append h4⟩
    intro e he z
    rw [List.mem_singleton.mp he]
    exact hd _ _
  cases g with
  | nofunc => exact ⟨h, fun e he => by cases he⟩
  | setHi => exact resting_drive h hw _
  | setLo => exact resting_drive h hw _
  | toggle => exact resting_drive h hw _
  | pulseShort => exact hp _ (fun _ _ hh => by cases hh)
  | pulseLong => exact hp _ (fun _ _ hh => by cases hh)

/-- The delay of a pulse function. -/
def pulseDelayOf : VFun → Option Event
  | .pulseShort => some .delayShort
  | .pulseLong => some .delayLong
  | _ => none

theorem resting_act_self {v p fn x a d} (h : Resting v p fn x a) (hd : pulseDelayOf fn = some d)
    (hx : x = 0 ∨ x = 1) : Resting v p fn x (a.act v fn).1 ∧
      (a.act v fn).2 = [.out p (inv x), d, .out p x] := by
  have hii : inv (inv x) = x := by rcases hx with rfl | rfl <;> rfl
  have key : Resting v p fn x (a.pulse v d).1 ∧
      (a.pulse v d).2 = [.out p (inv x), d, .out p x] := by
    unfold Outputs.pulse Outputs.drive
    dsimp only
    rw [h.own]
    constructor
    · refine ⟨h.own, h.fn, ?_, h.alone⟩
      show (if p ∈ [p] then inv (if p ∈ [p] then _ else _) else _) = _
      rw [if_pos (List.mem_singleton.mpr rfl), if_pos (List.mem_singleton.mpr rfl), h.level, hii]
    · simp only [List.map_cons, List.map_nil, List.mem_singleton, if_true, h.level, hii]
      rfl
  cases fn with
  | pulseShort => cases hd; exact key
  | pulseLong => cases hd; exact key
  | _ => cases hd

/-- What the keymaps must provide: after installation, `v` pulses `p` from level `x`, and
installing does not drive `p`. -/
def PulseCfg (cfg : Config) (L : Layout) (v p : Nat) (fn : VFun) (x : UInt8) : Prop :=
  ∀ (k : Kb) (i : UInt8), i ∈ L.maps → Resting v p fn x (k.install cfg i).outs ∧
    ∃ es, Spares p es ∧ (k.install cfg i).trace = k.trace ++ es

/-- The invariant: at rest, with as many pulses as presses. -/
def PulseInv (v p : Nat) (fn : VFun) (x : UInt8) (d : Event) (k : Kb) (l : List Code) : Prop :=
  Resting v p fn x k.outs ∧ pulses p (inv x) x d k.trace = some l.length

theorem PulseInv.spare {v p fn x d k k' l} (h : PulseInv v p fn x d k l)
    (h1 : Resting v p fn x k'.outs) (h2 : ∃ es, Spares p es ∧ k'.trace = k.trace ++ es) :
    PulseInv v p fn x d k' l := by
  obtain ⟨es, hs, he⟩ := h2
  refine ⟨h1, ?_⟩
  rw [he, pulses_append _ _ h.2, pulses_spares hs]
  rfl

theorem PulseInv.same {v p fn x d k k' l} (h : PulseInv v p fn x d k l)
    (h1 : k'.outs = k.outs) (h2 : k'.trace = k.trace) : PulseInv v p fn x d k' l := by
  unfold PulseInv
  rw [h1, h2]
  exact h

theorem PulseInv.apply_other {v p fn x d k l} (h : PulseInv v p fn x d k l) {w : Nat} (hw : w ≠ v)
    (g : VFun) : PulseInv v p fn x d (k.apply w g) l := by
  obtain ⟨h1, h2⟩ := resting_act_other h.1 hw g
  exact h.spare h1 ⟨_, h2, rfl⟩

theorem PulseInv.apply_self {v p fn x d k l} (h : PulseInv v p fn x d k l)
    (hd : pulseDelayOf fn = some d) (hx : x = 0 ∨ x = 1) (c : Code) :
    PulseInv v p fn x d (k.apply v (k.outs.fn v)) (l ++ [c]) := by
  rw [h.1.fn]
  obtain ⟨h1, h2⟩ := resting_act_self h.1 hd hx
  refine ⟨h1, ?_⟩
  show pulses p (inv x) x d (k.trace ++ _) = _
  rw [h2, pulses_append _ _ h.2]
  have : pulses p (inv x) x d [.out p (inv x), d, .out p x] = some 1 := by
    simp [pulses]
  rw [this, List.length_append]
  rfl

theorem PulseInv.select {cfg L v p fn x d k l} (hp : PulseCfg cfg L v p fn x)
    (h : PulseInv v p fn x d k l) {i : UInt8} (hi : (k.select cfg i).map ∈ L.maps) :
    PulseInv v p fn x d (k.select cfg i) l := by
  unfold Kb.select at hi ⊢
  by_cases hc : i ≠ k.map ∧ cfg.valid i = true
  · rw [if_pos hc] at hi ⊢
    have hm : (k.install cfg i).map = i :=
      (setup_rest (cfg.setup i) (Kb.emit { k with map := i, outs := Outputs.initial } [.archInit])).map
    rw [hm] at hi
    obtain ⟨h1, h2⟩ := hp k i hi
    exact h.spare h1 h2
  · rw [if_neg hc]
    exact h

theorem PulseInv.emit {v p fn x d k l} (h : PulseInv v p fn x d k l) {e : Event}
    (he : ∀ y, e ≠ .out p y) : PulseInv v p fn x d (k.emit [e]) l :=
  h.spare h.1 ⟨[e], (fun a ha => by rw [List.mem_singleton.mp ha]; exact he), rfl⟩

theorem PulseInv.function {cfg v p fn x d k l} (h : PulseInv v p fn x d k l) (n : Nat) :
    PulseInv v p fn x d (k.function cfg n) l := by
  unfold Kb.function
  split
  · exact h.same rfl rfl
  · exact h

theorem PulseInv.press {cfg L v p fn x d k l} (hp : PulseCfg cfg L v p fn x)
    (hd : pulseDelayOf fn = some d) (hx : x = 0 ∨ x = 1) (hv : 1 ≤ v ∧ v ≤ 6)
    (h : PulseInv v p fn x d k l) (code : Code) (hm : (k.press cfg code).map ∈ L.maps) :
    PulseInv v p fn x d (k.press cfg code)
      (l ++ if code.toNat = 0xB0 + v then [UInt8.ofNat (0xB0 + v)] else []) := by
  have apply : ∀ w, w ≠ 0 → PulseInv v p fn x d (k.apply w (k.outs.fn w))
      (l ++ if 0xB0 + w = 0xB0 + v then [UInt8.ofNat (0xB0 + v)] else []) := by
    intro w _
    by_cases hw : w = v
    · rw [if_pos (by omega), hw]
      exact h.apply_self hd hx _
    · rw [if_neg (by omega), List.append_nil]
      exact h.apply_other hw _
  have other : ∀ n, (n < 0xB1 ∨ 0xB6 < n) →
      (l ++ if n = 0xB0 + v then [UInt8.ofNat (0xB0 + v)] else []) = l := by
    intro n hn
    rw [if_neg (by omega), List.append_nil]
  have led : ∀ w, 7 ≤ w → PulseInv v p fn x d (k.apply w (k.outs.fn w)) l :=
    fun w hw => h.apply_other (by omega) _
  have h0 : ∀ k' : Kb, k'.outs = k.outs → k'.trace = k.trace → ∀ w, 7 ≤ w → ∀ g,
      PulseInv v p fn x d (k'.apply w g) l :=
    fun k' e1 e2 w hw g => (h.same (k' := k') e1 e2).apply_other (by omega) g
  unfold Kb.press at hm ⊢
  split at hm <;> rename_i hn
  all_goals try rw [hn]
  case h_33 =>
    have hz : (if code.toNat = 0xB0 + v then [UInt8.ofNat (0xB0 + v)] else []) = [] :=
      if_neg (fun hh => by
      have hx : code.toNat = 177 ∨ code.toNat = 178 ∨ code.toNat = 179 ∨ code.toNat = 180 ∨
          code.toNat = 181 ∨ code.toNat = 182 := by omega
      rcases hx with hx | hx | hx | hx | hx | hx <;> exact absurd hx (by assumption))
    rw [hz, List.append_nil]
    split
    · exact h.same rfl rfl
    · exact h
  all_goals first
    | exact apply 1 (by omega)
    | exact apply 2 (by omega)
    | exact apply 3 (by omega)
    | exact apply 4 (by omega)
    | exact apply 5 (by omega)
    | exact apply 6 (by omega)
    | (rw [other _ (by omega)]
       first
         | exact led _ (by omega)
         | exact h.function _
         | exact PulseInv.select hp h hm
         | exact h0 _ rfl rfl _ (by decide) _
         | exact h.emit (fun _ hh => by cases hh)
         | exact h.same rfl rfl)

theorem PulseInv.release {cfg L v p fn x d k l} (hp : PulseCfg cfg L v p fn x) (hv : 1 ≤ v ∧ v ≤ 6)
    (h : PulseInv v p fn x d k l) (code : Code) (hm : (k.release cfg code).map ∈ L.maps) :
    PulseInv v p fn x d (k.release cfg code) l := by
  have h0 : ∀ k' : Kb, k'.outs = k.outs → k'.trace = k.trace → ∀ w, 7 ≤ w → ∀ g,
      PulseInv v p fn x d (k'.apply w g) l :=
    fun k' e1 e2 w hw g => (h.same (k' := k') e1 e2).apply_other (by omega) g
  unfold Kb.release at hm ⊢
  split at hm
  all_goals first
    | exact PulseInv.select hp h hm
    | exact h0 _ rfl rfl _ (by decide) _
    | exact h.emit (fun _ hh => by cases hh)
    | exact h.same rfl rfl
    | (split
       · exact h.same rfl rfl
       · exact h)

theorem PulseInv.key {cfg L v p fn x d k l} (hp : PulseCfg cfg L v p fn x)
    (hd : pulseDelayOf fn = some d) (hx : x = 0 ∨ x = 1) (hv : 1 ≤ v ∧ v ≤ 6)
    (h : PulseInv v p fn x d k l) (r c : Nat) (b : Bool) (hm : (k.key cfg L b r c).map ∈ L.maps) :
    PulseInv v p fn x d (k.key cfg L b r c)
      (l ++ Kb.pressedBy (UInt8.ofNat (0xB0 + v)) cfg L b k r c) := by
  have h' : PulseInv v p fn x d (stepDeb k b r c) l := h.same rfl rfl
  unfold Kb.key at hm ⊢
  by_cases hne : b ≠ (k.deb r c).on
  · rw [if_pos hne] at hm ⊢
    by_cases h1 : (k.deb r c).left ≤ 1
    · rw [if_pos h1] at hm ⊢
      cases b with
      | true =>
        have hon : (k.deb r c).on = false := by
          cases hh : (k.deb r c).on with
          | false => rfl
          | true => exact absurd hh.symm hne
        rw [if_pos rfl] at hm ⊢
        have := h'.press hp hd hx hv (k.code cfg L r c) hm
        have e : Kb.pressedBy (UInt8.ofNat (0xB0 + v)) cfg L true k r c =
            if (k.code cfg L r c).toNat = 0xB0 + v then [UInt8.ofNat (0xB0 + v)] else [] := by
          unfold Kb.pressedBy
          by_cases hc : (k.code cfg L r c).toNat = 0xB0 + v
          · rw [if_pos hc, if_pos ⟨rfl, hon, h1, by rw [← hc, UInt8.ofNat_toNat]⟩]
          · rw [if_neg hc, if_neg (fun hh => hc (by
              rw [hh.2.2.2, UInt8.toNat_ofNat_of_lt' (show 0xB0 + v < 256 by omega)]))]
        rw [e]
        exact this
      | false =>
        rw [if_neg (by decide)] at hm ⊢
        have e : Kb.pressedBy (UInt8.ofNat (0xB0 + v)) cfg L false k r c = [] :=
          if_neg (fun hh => by cases hh.1)
        rw [e, List.append_nil]
        exact h'.release hp hv _ hm
    · rw [if_neg h1]
      have e : Kb.pressedBy (UInt8.ofNat (0xB0 + v)) cfg L b k r c = [] :=
        if_neg (fun hh => h1 hh.2.2.1)
      rw [e, List.append_nil]
      exact h'
  · have he : b = (k.deb r c).on := by simpa using hne
    have e : Kb.pressedBy (UInt8.ofNat (0xB0 + v)) cfg L b k r c = [] :=
      if_neg (fun hh => by have h1 := hh.1; have h2 := hh.2.1; rw [he, h2] at h1; cases h1)
    rw [if_neg hne, e, List.append_nil]
    split
    · split
      · exact h.same rfl rfl
      · exact h.same rfl rfl
    · exact h'

theorem PulseInv.output {v p fn x d k l} (h : PulseInv v p fn x d k l) :
    PulseInv v p fn x d k.output l := by
  unfold Kb.output
  split
  · exact h.spare h.1 ⟨_, (fun a ha y hy => by
      rcases List.mem_cons.mp ha with e | ha
      · rw [hy] at e; cases e
      · rw [List.mem_singleton.mp ha] at hy; cases hy), rfl⟩
  · split
    · refine h.spare h.1 ⟨_, ?_, rfl⟩
      split
      · intro a ha y hy
        rw [List.mem_singleton.mp ha] at hy; cases hy
      · intro a ha; cases ha
    · exact h

/-- As many pulses as presses, after every run. -/
theorem pulse_run {cfg : Config} {L : Layout} (hcf : CfgFacts cfg L) {v p : Nat} {fn : VFun}
    {x : UInt8} {d : Event} (hp : PulseCfg cfg L v p fn x) (hd : pulseDelayOf fn = some d)
    (hx : x = 0 ∨ x = 1) (hv : 1 ≤ v ∧ v ≤ 6) (inps : List Input)
    (hin : ∀ inp ∈ inps, Allowed L inp) :
    pulses p (inv x) x d (Kb.after cfg L inps).trace =
      some (pressCount cfg L (UInt8.ofNat (0xB0 + v)) inps) := by
  refine (log_induction hcf (Kb.pressedBy (UInt8.ofNat (0xB0 + v)))
    (P := PulseInv v p fn x d) ?_ (fun k l h => h.output)
    (fun k l r c b _ hm h => h.key hp hd hx hv r c b hm) inps hin).2
  obtain ⟨h1, es, hs, he⟩ := hp blankKb 0 hcf.zero
  refine ⟨h1, ?_⟩
  show pulses p (inv x) x d (blankKb.install cfg 0).trace = _
  rw [he]
  exact pulses_spares hs

/-! ## Setup functions, without the rest of the keyboard -/

theorem setup_fx (cmds : List SetupCmd) (k : Kb) (t es : List Event) (ht : k.trace = t ++ es) :
    (cmds.foldl Kb.setup1 k).outs = (cmds.foldl setupFx (k.outs, k.caps, es)).1 ∧
    (cmds.foldl Kb.setup1 k).trace = t ++ (cmds.foldl setupFx (k.outs, k.caps, es)).2.2 := by
  induction cmds generalizing k es with
  | nil => exact ⟨rfl, ht⟩
  | cons c cmds ih =>
    rw [List.foldl_cons, List.foldl_cons]
    cases c with
    | vassign v p fn i => exact ih _ es ht
    | capsActivate =>
      exact ih k.flipCaps _ (by
        show k.trace ++ _ = t ++ (es ++ _)
        rw [ht, List.append_assoc])
    | negStrobe =>
      exact ih (k.emit [.negStrobe]) _ (by
        show k.trace ++ _ = t ++ (es ++ _)
        rw [ht, List.append_assoc])
    | printDelay ms => exact ih _ es ht
    | addMap _ _ _ _ => exact ih k es ht
    | hook _ _ => exact ih k es ht

theorem setupFx_high (cmds : List SetupCmd) (x : Outputs × Bool × List Event) (w : Nat)
    (hw : 12 ≤ w) (h : x.1.lists w = []) : (cmds.foldl setupFx x).1.lists w = [] := by
  induction cmds generalizing x with
  | nil => exact h
  | cons c cmds ih =>
    rw [List.foldl_cons]
    refine ih _ ?_
    cases c with
    | vassign v p fn i =>
      simp only [setupFx]
      split
      · rename_i hc
        simp only [Bool.and_eq_true, decide_eq_true_eq] at hc
        show (if w = v then _ else _) = _
        rw [if_neg (by omega)]
        exact h
      · exact h
    | capsActivate =>
      obtain ⟨a, b, es⟩ := x
      cases b <;> exact h
    | _ => exact h

theorem pulseCfg_of_check {cfg : Config} {L : Layout} {v p : Nat} {fn : VFun} {x : UInt8}
    (h : ∀ i ∈ L.maps, ∀ caps, pulseCheck (cfg.setup i) v p fn x caps = true) :
    PulseCfg cfg L v p fn x := by
  intro k i hi
  obtain ⟨h1, h2⟩ := setup_fx (cfg.setup i)
    (Kb.emit { k with map := i, outs := Outputs.initial } [.archInit]) k.trace [.archInit] rfl
  have hc := h i hi k.caps
  unfold pulseCheck at hc
  simp only [Bool.and_eq_true, beq_iff_eq, List.all_eq_true, List.mem_range, Bool.or_eq_true,
    Bool.not_eq_true', List.contains_eq_mem, decide_eq_false_iff_not] at hc
  obtain ⟨⟨⟨⟨c1, c2⟩, c3⟩, c4⟩, c5⟩ := hc
  have h1 : (k.install cfg i).outs = _ := h1
  have h2 : (k.install cfg i).trace = k.trace ++ _ := h2
  rw [h1, h2]
  refine ⟨⟨c1, c2, c3, ?_⟩, _, ?_, rfl⟩
  · intro w hw
    by_cases h12 : w < 12
    · rcases c4 w h12 with hh | hh
      · exact absurd hh hw
      · exact hh
    · have := setupFx_high (cfg.setup i) (Outputs.initial, k.caps, [.archInit]) w (by omega) rfl
      intro hm
      have hm : p ∈ (List.foldl setupFx (Outputs.initial, k.caps, [.archInit]) (cfg.setup i)).1.lists w := hm
      rw [this] at hm
      cases hm
  · intro e he y hy
    have := c5 e he
    rw [hy] at this
    simp at this

end Asdf
