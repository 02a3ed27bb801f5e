import Verif.Lemmas.Pulse

/-! # Lemmas for C118: as many delays of pulses as presses -/

namespace Asdf.PulseCount

open Spec

/-- Output code `v` is the only one with the function `fn`. -/
structure Sole (v : Nat) (fn : VFun) (a : Outputs) : Prop where
  has : a.fn v = fn
  alone : ∀ w, w < 12 → w ≠ v → a.fn w ≠ fn

/-- What the keymaps must provide: after installation, `v` alone has the function `fn`, and
installing puts out no `d`. -/
def SoleCfg (cfg : Config) (L : Layout) (v : Nat) (fn : VFun) (d : Event) : Prop :=
  ∀ (k : Kb) (i : UInt8), i ∈ L.maps → Sole v fn (k.install cfg i).outs ∧
    ∃ es, d ∉ es ∧ (k.install cfg i).trace = k.trace ++ es

/-- The same, as a computation. -/
def soleCheck (cmds : List SetupCmd) (v : Nat) (fn : VFun) (d : Event) (caps : Bool) : Bool :=
  let y := cmds.foldl setupFx (Outputs.initial, caps, [.archInit])
  y.1.fn v == fn && ((List.range 12).all fun w => w == v || !(y.1.fn w == fn)) && !y.2.2.contains d

theorem soleCfg_of_check {cfg : Config} {L : Layout} {v : Nat} {fn : VFun} {d : Event}
    (h : ∀ i ∈ L.maps, ∀ caps, soleCheck (cfg.setup i) v fn d caps = true) : SoleCfg cfg L v fn d := by
  intro k i hi
  obtain ⟨h1, h2⟩ := setup_fx (cfg.setup i)
    (Kb.emit { k with map := i, outs := Outputs.initial } [.archInit]) k.trace [.archInit] rfl
  have hc := h i hi k.caps
  unfold soleCheck at hc
  simp only [Bool.and_eq_true, beq_iff_eq, List.all_eq_true, List.mem_range, Bool.or_eq_true,
    Bool.not_eq_true', List.contains_eq_mem, decide_eq_false_iff_not, beq_eq_false_iff_ne] at hc
  obtain ⟨⟨c1, c2⟩, c3⟩ := hc
  have h1 : (k.install cfg i).outs = _ := h1
  have h2 : (k.install cfg i).trace = k.trace ++ _ := h2
  rw [h1, h2]
  exact ⟨⟨c1, fun w hw hne => (c2 w hw).resolve_left hne⟩, _, c3, rfl⟩

theorem act_fn (a : Outputs) (w : Nat) (g : VFun) : (a.act w g).1.fn = a.fn := by
  cases g <;> rfl

theorem drive_count (a : Outputs) (w : Nat) (g : UInt8 → UInt8) {d : Event} (hd : ∀ p x, d ≠ .out p x) :
    (a.drive w g).2.count d = 0 := by
  refine List.count_eq_zero.mpr fun h => ?_
  obtain ⟨p, _, h⟩ := List.mem_map.mp h
  exact hd _ _ h.symm

theorem act_count (a : Outputs) (w : Nat) {fn : VFun} {d : Event} (hd : pulseDelayOf fn = some d) (g : VFun) :
    (a.act w g).2.count d = if g = fn then 1 else 0 := by
  have hp : ∀ p x, d ≠ .out p x := by
    cases fn <;> cases hd <;> exact nofun
  have hpulse : ∀ e, (a.pulse w e).2.count d = if e = d then 1 else 0 := by
    intro e
    unfold Outputs.pulse
    dsimp only
    rw [List.count_append, List.count_append, drive_count _ _ _ hp, drive_count _ _ _ hp, List.count_singleton]
    simp
  cases g with
  | pulseShort => rw [Outputs.act, hpulse]; cases fn <;> cases hd <;> rfl
  | pulseLong => rw [Outputs.act, hpulse]; cases fn <;> cases hd <;> rfl
  | nofunc => cases fn <;> cases hd <;> rfl
  | _ => rw [Outputs.act, drive_count _ _ _ hp]; cases fn <;> cases hd <;> rfl

/-- As many delays as presses. -/
def CountInv (v : Nat) (fn : VFun) (d : Event) (k : Kb) (l : List Code) : Prop :=
  Sole v fn k.outs ∧ k.trace.count d = l.length

theorem CountInv.spare {v fn d k k' l} (h : CountInv v fn d k l)
    (h1 : Sole v fn k'.outs) (h2 : ∃ es, d ∉ es ∧ k'.trace = k.trace ++ es) : CountInv v fn d k' l := by
  obtain ⟨es, hs, he⟩ := h2
  exact ⟨h1, by rw [he, List.count_append, h.2, List.count_eq_zero.mpr hs, Nat.add_zero]⟩

theorem CountInv.same {v fn d k k' l} (h : CountInv v fn d k l)
    (h1 : k'.outs = k.outs) (h2 : k'.trace = k.trace) : CountInv v fn d k' l := by
  unfold CountInv
  rw [h1, h2]
  exact h

theorem CountInv.apply {v fn d k l} (h : CountInv v fn d k l) (hd : pulseDelayOf fn = some d) (w : Nat)
    (g : VFun) (c : Code) : CountInv v fn d (k.apply w g) (l ++ if g = fn then [c] else []) := by
  refine ⟨⟨?_, ?_⟩, ?_⟩
  · show (k.outs.act w g).1.fn v = fn
    rw [act_fn]; exact h.1.has
  · show ∀ w', w' < 12 → w' ≠ v → (k.outs.act w g).1.fn w' ≠ fn
    rw [act_fn]; exact h.1.alone
  · show (k.trace ++ (k.outs.act w g).2).count d = _
    rw [List.count_append, h.2, act_count _ _ hd, List.length_append]
    split <;> rfl

theorem CountInv.light {v fn d k l} (h : CountInv v fn d k l) (hd : pulseDelayOf fn = some d) (w : Nat)
    (on : Bool) : CountInv v fn d (k.light w on) l := by
  have := h.apply hd w (if on then .setHi else .setLo) 0
  rw [if_neg (show ¬ (if on = true then VFun.setHi else .setLo) = fn by
    cases on <;> cases fn <;> cases hd <;> decide), List.append_nil] at this
  exact this

theorem CountInv.emit {v fn d k l} (h : CountInv v fn d k l) {es : List Event} (he : d ∉ es) :
    CountInv v fn d (k.emit es) l := h.spare h.1 ⟨es, he, rfl⟩

theorem CountInv.select {cfg L v fn d k l} (hp : SoleCfg cfg L v fn d) (h : CountInv v fn d k l) {i : UInt8}
    (hi : (k.select cfg i).map ∈ L.maps) : CountInv v fn d (k.select cfg i) l := by
  unfold Kb.select at hi ⊢
  by_cases hc : i ≠ k.map ∧ cfg.valid i = true
  · rw [if_pos hc] at hi ⊢
    have hm : (k.install cfg i).map = i :=
      (setup_rest (cfg.setup i) (Kb.emit { k with map := i, outs := Outputs.initial } [.archInit])).map
    rw [hm] at hi
    obtain ⟨h1, h2⟩ := hp k i hi
    exact h.spare h1 h2
  · rw [if_neg hc]
    exact h

theorem CountInv.function {cfg v fn d k l} (h : CountInv v fn d k l) (n : Nat) :
    CountInv v fn d (k.function cfg n) l := by
  unfold Kb.function
  split
  · exact h.same rfl rfl
  · exact h

theorem CountInv.press {cfg L v fn d k l} (hp : SoleCfg cfg L v fn d) (hd : pulseDelayOf fn = some d)
    (hv : 1 ≤ v ∧ v ≤ 6) (h : CountInv v fn d k l) (code : Code) (hm : (k.press cfg code).map ∈ L.maps) :
    CountInv v fn d (k.press cfg code)
      (l ++ if code.toNat = 0xB0 + v then [UInt8.ofNat (0xB0 + v)] else []) := by
  have apply : ∀ w, w < 12 → CountInv v fn d (k.apply w (k.outs.fn w))
      (l ++ if w = v then [UInt8.ofNat (0xB0 + v)] else []) := by
    intro w h12
    have := h.apply hd w (k.outs.fn w) (UInt8.ofNat (0xB0 + v))
    by_cases hw : w = v
    · rw [if_pos (by rw [hw]; exact h.1.has)] at this
      rw [if_pos hw]; exact this
    · rw [if_neg (h.1.alone w h12 hw)] at this
      rw [if_neg hw]; exact this
  have code' : ∀ w n, n = 0xB0 + w → w < 12 → CountInv v fn d (k.apply w (k.outs.fn w))
      (l ++ if n = 0xB0 + v then [UInt8.ofNat (0xB0 + v)] else []) := by
    intro w n hn h12
    have := apply w h12
    by_cases hw : w = v
    · rw [if_pos hw] at this; rw [if_pos (by omega)]; exact this
    · rw [if_neg hw] at this; rw [if_neg (by omega)]; exact this
  have other : ∀ n, (n < 0xB1 ∨ 0xB6 < n) →
      (l ++ if n = 0xB0 + v then [UInt8.ofNat (0xB0 + v)] else []) = l := by
    intro n hn
    rw [if_neg (by omega), List.append_nil]
  have led : ∀ w, 7 ≤ w → w < 12 → CountInv v fn d (k.apply w (k.outs.fn w)) l := by
    intro w h7 h12
    have := apply w h12
    rw [if_neg (by omega), List.append_nil] at this
    exact this
  have h0 : ∀ k' : Kb, k'.outs = k.outs → k'.trace = k.trace → ∀ w on, CountInv v fn d (k'.light w on) l :=
    fun k' e1 e2 w on => (h.same (k' := k') e1 e2).light hd w on
  have one : ∀ e : Event, pulseDelayOf fn ≠ some e → d ∉ [e] := by
    intro e he hh
    rw [List.mem_singleton.mp hh] at hd
    exact he hd
  unfold Kb.press at hm ⊢
  split at hm <;> rename_i hn
  all_goals try rw [hn]
  case h_33 =>
    have hz : (if code.toNat = 0xB0 + v then [UInt8.ofNat (0xB0 + v)] else []) = [] :=
      if_neg (fun hh => by
      have hx : code.toNat = 177 ∨ code.toNat = 178 ∨ code.toNat = 179 ∨ code.toNat = 180 ∨
          code.toNat = 181 ∨ code.toNat = 182 := by omega
      rcases hx with hx | hx | hx | hx | hx | hx <;> exact absurd hx (by assumption))
    rw [hz, List.append_nil]
    split
    · exact h.same rfl rfl
    · exact h
  all_goals first
    | exact code' 1 _ rfl (by omega)
    | exact code' 2 _ rfl (by omega)
    | exact code' 3 _ rfl (by omega)
    | exact code' 4 _ rfl (by omega)
    | exact code' 5 _ rfl (by omega)
    | exact code' 6 _ rfl (by omega)
    | (rw [other _ (by omega)]
       first
         | exact led _ (by omega) (by omega)
         | exact h.function _
         | exact CountInv.select hp h hm
         | exact h0 _ rfl rfl _ _
         | exact h.emit (one _ (by cases fn <;> exact nofun))
         | exact h.same rfl rfl)

theorem CountInv.release {cfg L v fn d k l} (hp : SoleCfg cfg L v fn d) (hd : pulseDelayOf fn = some d)
    (h : CountInv v fn d k l) (code : Code) (hm : (k.release cfg code).map ∈ L.maps) :
    CountInv v fn d (k.release cfg code) l := by
  have h0 : ∀ k' : Kb, k'.outs = k.outs → k'.trace = k.trace → ∀ w on, CountInv v fn d (k'.light w on) l :=
    fun k' e1 e2 w on => (h.same (k' := k') e1 e2).light hd w on
  have one : ∀ e : Event, pulseDelayOf fn ≠ some e → d ∉ [e] := by
    intro e he hh
    rw [List.mem_singleton.mp hh] at hd
    exact he hd
  unfold Kb.release at hm ⊢
  split at hm
  all_goals first
    | exact CountInv.select hp h hm
    | exact h0 _ rfl rfl _ _
    | exact h.emit (one _ (by cases fn <;> exact nofun))
    | exact h.same rfl rfl
    | (split
       · exact h.same rfl rfl
       · exact h)

theorem CountInv.key {cfg L v fn d k l} (hp : SoleCfg cfg L v fn d) (hd : pulseDelayOf fn = some d)
    (hv : 1 ≤ v ∧ v ≤ 6) (h : CountInv v fn d k l) (r c : Nat) (b : Bool)
    (hm : (k.key cfg L b r c).map ∈ L.maps) :
    CountInv v fn d (k.key cfg L b r c) (l ++ Kb.pressedBy (UInt8.ofNat (0xB0 + v)) cfg L b k r c) := by
  have h' : CountInv v fn d (stepDeb k b r c) l := h.same rfl rfl
  unfold Kb.key at hm ⊢
  by_cases hne : b ≠ (k.deb r c).on
  · rw [if_pos hne] at hm ⊢
    by_cases h1 : (k.deb r c).left ≤ 1
    · rw [if_pos h1] at hm ⊢
      cases b with
      | true =>
        have hon : (k.deb r c).on = false := by
          cases hh : (k.deb r c).on with
          | false => rfl
          | true => exact absurd hh.symm hne
        rw [if_pos rfl] at hm ⊢
        have := h'.press hp hd hv (k.code cfg L r c) hm
        have e : Kb.pressedBy (UInt8.ofNat (0xB0 + v)) cfg L true k r c =
            if (k.code cfg L r c).toNat = 0xB0 + v then [UInt8.ofNat (0xB0 + v)] else [] := by
          unfold Kb.pressedBy
          by_cases hc : (k.code cfg L r c).toNat = 0xB0 + v
          · rw [if_pos hc, if_pos ⟨rfl, hon, h1, by rw [← hc, UInt8.ofNat_toNat]⟩]
          · rw [if_neg hc, if_neg (fun hh => hc (by
              rw [hh.2.2.2, UInt8.toNat_ofNat_of_lt' (show 0xB0 + v < 256 by omega)]))]
        rw [e]
        exact this
      | false =>
        rw [if_neg (by decide)] at hm ⊢
        have e : Kb.pressedBy (UInt8.ofNat (0xB0 + v)) cfg L false k r c = [] :=
          if_neg (fun hh => by cases hh.1)
        rw [e, List.append_nil]
        exact h'.release hp hd _ hm
    · rw [if_neg h1]
      have e : Kb.pressedBy (UInt8.ofNat (0xB0 + v)) cfg L b k r c = [] :=
        if_neg (fun hh => h1 hh.2.2.1)
      rw [e, List.append_nil]
      exact h'
  · have he : b = (k.deb r c).on := by simpa using hne
    have e : Kb.pressedBy (UInt8.ofNat (0xB0 + v)) cfg L b k r c = [] :=
      if_neg (fun hh => by have h1 := hh.1; have h2 := hh.2.1; rw [he, h2] at h1; cases h1)
    rw [if_neg hne, e, List.append_nil]
    split
    · split
      · exact h.same rfl rfl
      · exact h.same rfl rfl
    · exact h'

theorem CountInv.output {v fn d k l} (hd : pulseDelayOf fn = some d) (h : CountInv v fn d k l) :
    CountInv v fn d k.output l := by
  have no : ∀ e, e ∈ (.send 0 :: [] : List Event) ∨ True → (∀ c, d ≠ .send c) ∧ ∀ m, d ≠ .delayMs m := by
    intro _ _
    cases fn <;> cases hd <;> exact ⟨nofun, nofun⟩
  obtain ⟨n1, n2⟩ := no d (.inr trivial)
  unfold Kb.output
  split
  · refine h.spare h.1 ⟨_, fun ha => ?_, rfl⟩
    rcases List.mem_cons.mp ha with e | ha
    · exact n2 _ e
    · exact n1 _ (List.mem_singleton.mp ha)
  · split
    · refine h.spare h.1 ⟨_, ?_, rfl⟩
      split
      · exact fun ha => n1 _ (List.mem_singleton.mp ha)
      · exact nofun
    · exact h

/-- As many delays as presses, after every run. -/
theorem count_run {cfg : Config} {L : Layout} (hcf : CfgFacts cfg L) {v : Nat} {fn : VFun} {d : Event}
    (hp : SoleCfg cfg L v fn d) (hd : pulseDelayOf fn = some d) (hv : 1 ≤ v ∧ v ≤ 6) (inps : List Input)
    (hin : ∀ inp ∈ inps, Allowed L inp) :
    (Kb.after cfg L inps).trace.count d = pressCount cfg L (UInt8.ofNat (0xB0 + v)) inps := by
  refine (log_induction hcf (Kb.pressedBy (UInt8.ofNat (0xB0 + v)))
    (P := CountInv v fn d) ?_ (fun k l h => h.output hd)
    (fun k l r c b _ hm h => h.key hp hd hv r c b hm) inps hin).2
  obtain ⟨h1, es, hs, he⟩ := hp blankKb 0 hcf.zero
  refine ⟨h1, ?_⟩
  show (blankKb.install cfg 0).trace.count d = _
  rw [he]
  exact List.count_eq_zero.mpr hs

end Asdf.PulseCount
