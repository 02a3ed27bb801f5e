import Verif.Lemmas.Main
import Verif.Spec.Machine

/-! # The firmware refines the abstract keyboard -/

namespace Asdf

open Spec

/-! ## Key repeat -/

/-- The repeat timer of the firmware and of the abstract keyboard. -/
structure RptRel (r : RepState) (q : Rpt) : Prop where
  delay : r.state.toNat = q.delay
  rest : r.base.toNat = q.rest
  left : r.timer.toNat = q.left

theorem RptRel.restart {r q} (h : RptRel r q) : RptRel (repResetCount r) q.restart :=
  ⟨h.delay, h.rest, h.delay⟩

theorem RptRel.release {r q} (h : RptRel r q) : RptRel (repDeactivate r) q.release :=
  ⟨h.rest, h.rest, h.rest⟩

theorem RptRel.press {r q} (h : RptRel r q) : RptRel (repActivate r) q.press := by
  unfold repActivate Rpt.press
  have h1 : (r.timer > REPEAT_ON ∨ REPEAT_OFF = r.state) ↔ (66 < q.left ∨ q.delay = 0) := by
    rw [gt_iff_lt, UInt16.lt_iff_toNat_lt, h.left, eq_comm, ← UInt16.toNat_inj, h.delay]
    rfl
  by_cases hc : 66 < q.left ∨ q.delay = 0
  · rw [if_pos hc, if_pos (h1.mpr hc)]
    exact ⟨rfl, h.rest, rfl⟩
  · rw [if_neg hc, if_neg (fun hh => hc (h1.mp hh))]
    exact h

theorem repOn_iff {r q} (h : RptRel r q) : REPEAT_ON ≠ r.state ↔ ¬ q.delay = 66 := by
  rw [← h.delay, ne_eq, eq_comm, ← UInt16.toNat_inj]
  rfl

theorem RptRel.autoOn {r q} (h : RptRel r q) : RptRel (repAutoOn r) (q.auto true) := by
  unfold repAutoOn Rpt.auto
  by_cases hc : q.delay = 66
  · rw [if_neg (fun hh => (repOn_iff h).mp hh hc)]
    simp only [if_pos hc]
    exact ⟨h.delay, rfl, h.left⟩
  · rw [if_pos ((repOn_iff h).mpr hc)]
    simp only [if_neg hc]
    exact ⟨rfl, rfl, rfl⟩

theorem RptRel.autoOff {r q} (h : RptRel r q) : RptRel (repAutoOff r) (q.auto false) := by
  unfold repAutoOff Rpt.auto
  by_cases hc : q.delay = 66
  · rw [if_neg (fun hh => (repOn_iff h).mp hh hc)]
    simp only [if_pos hc]
    exact ⟨h.delay, rfl, h.left⟩
  · rw [if_pos ((repOn_iff h).mpr hc)]
    simp only [if_neg hc]
    exact ⟨rfl, rfl, rfl⟩

theorem RptRel.tick {r q} (h : RptRel r q) :
    RptRel (repTick r).2 q.tick ∧ ((repTick r).1 = true ↔ q.left = 1) := by
  obtain ⟨h1, h2, h3⟩ := repTick_spec r
  refine ⟨⟨?_, ?_, ?_⟩, ?_⟩
  · rw [h2]; exact h.delay
  · rw [h2]; exact h.rest
  · rw [h3, h.left]; rfl
  · rw [h1, h.left, decide_eq_true_eq]

/-! ## The relation -/

/-- The C value of the shift state. -/
def shiftCode (held locked : Bool) : UInt8 := (if held then 1 else 0) ||| (if locked then 2 else 0)

/-- The state of the firmware is that of the abstract keyboard. -/
structure Shows (cfg : Config) (L : Layout) (s : State) (k : Kb) : Prop where
  wf : ∃ free, WF cfg L s k.keys k.msgs k.outs free
  map : s.curIdx = k.map
  deb : ∀ r c, r < L.rows → c < L.cols → debOf s r c = k.deb r c
  shift : s.mods.shift = shiftCode k.held k.locked
  caps : s.mods.caps = b2u k.caps
  ctrl : s.mods.ctrl = b2u k.ctrl
  last : s.lastKey = k.last
  rpt : RptRel s.rep k.rpt
  pause : s.printDelay = k.pause
  trace : s.dev.trace = k.trace

theorem shiftCode_ne (held locked : Bool) : (shiftCode held locked != 0) = (held || locked) := by
  cases held <;> cases locked <;> rfl

theorem b2u_ne (b : Bool) : (b2u b != 0) = b := by cases b <;> rfl

theorem Shows.code {cfg L s k} (h : Shows cfg L s k) (r c : Nat) :
    codeOf s L.cols r c = k.code cfg L r c := by
  obtain ⟨free, hw⟩ := h.wf
  unfold codeOf Kb.code activeTable tablesOf
  rw [h.shift, h.caps, h.ctrl, shiftCode_ne, b2u_ne, b2u_ne, hw.maps, h.map, List.getElem?_map]
  cases (mapsOf (cfg.setup k.map))[tableFor (k.held || k.locked) k.caps k.ctrl]? <;> rfl

/-! ## Outputs and modifiers -/

theorem Shows.apply {cfg L s k} (h : Shows cfg L s k) {v : Nat} (hv : v < 12) (fn : VFun) :
    ∃ d, virtAction s.dev v fn = .ok d ∧ Shows cfg L { s with dev := d } (k.apply v fn) := by
  obtain ⟨free, hw⟩ := h.wf
  obtain ⟨d, e1, e2, e3⟩ := hw.dev.act (v := v) hv fn
  refine ⟨d, e1, ⟨free, hw.withDevMods s.mods e3⟩, h.map, h.deb, h.shift, h.caps, h.ctrl, h.last,
    h.rpt, h.pause, ?_⟩
  rw [e2, h.trace]
  rfl

theorem Shows.activate {cfg L s k} (h : Shows cfg L s k) {v : Nat} (hv : v < 12) :
    ∃ d, virtActivate s.dev v = .ok d ∧ Shows cfg L { s with dev := d } (k.apply v (k.outs.fn v)) := by
  obtain ⟨free, hw⟩ := h.wf
  obtain ⟨d, e1, e2, e3⟩ := hw.dev.activate (v := v) hv
  refine ⟨d, e1, ⟨free, hw.withDevMods s.mods e3⟩, h.map, h.deb, h.shift, h.caps, h.ctrl, h.last,
    h.rpt, h.pause, ?_⟩
  rw [e2, h.trace]
  rfl

theorem Shows.emit {cfg L s k} (h : Shows cfg L s k) (e : Event) :
    Shows cfg L (s.emit e) (k.emit [e]) := by
  obtain ⟨free, hw⟩ := h.wf
  refine ⟨⟨free, hw.withDevMods s.mods (hw.dev.emit e)⟩, h.map, h.deb, h.shift, h.caps, h.ctrl,
    h.last, h.rpt, h.pause, ?_⟩
  show s.dev.trace ++ [e] = k.trace ++ [e]
  rw [h.trace]

theorem Shows.setShift {cfg L s k} (h : Shows cfg L s k) (held locked : Bool) :
    ∃ s', setShiftState s (shiftCode held locked) = .ok s' ∧ Shows cfg L s' (k.setShift held locked) := by
  have h' : Shows cfg L { s with mods := { s.mods with shift := shiftCode held locked } }
      { k with held := held, locked := locked } := by
    obtain ⟨free, hw⟩ := h.wf
    exact ⟨⟨free, hw.withDevMods _ hw.dev⟩, h.map, h.deb, rfl, h.caps, h.ctrl, h.last, h.rpt,
      h.pause, h.trace⟩
  have hfn : (if shiftCode held locked &&& SHIFT_LOCKED_ST ≠ 0 then VFun.setHi else .setLo) =
      (if locked then .setHi else .setLo) := by
    cases held <;> cases locked <;> rfl
  obtain ⟨d, e1, e2⟩ := h'.apply (v := VSHIFT_LED) (by decide) (if locked then .setHi else .setLo)
  refine ⟨_, ?_, e2⟩
  unfold setShiftState
  rw [hfn]
  dsimp only at e1 ⊢
  rw [e1, ok_bind]

theorem Shows.flipCaps {cfg L s k} (h : Shows cfg L s k) :
    ∃ s', capslockActivate s = .ok s' ∧ Shows cfg L s' k.flipCaps := by
  have hx : s.mods.caps ^^^ 1 = b2u (!k.caps) := by
    rw [h.caps]; cases k.caps <;> rfl
  have h' : Shows cfg L { s with mods := { s.mods with caps := b2u (!k.caps) } }
      { k with caps := !k.caps } := by
    obtain ⟨free, hw⟩ := h.wf
    exact ⟨⟨free, hw.withDevMods _ hw.dev⟩, h.map, h.deb, h.shift, rfl, h.ctrl, h.last, h.rpt,
      h.pause, h.trace⟩
  have hfn : (if b2u (!k.caps) ≠ 0 then VFun.setHi else .setLo) =
      (if !k.caps then .setHi else .setLo) := by
    cases k.caps <;> rfl
  obtain ⟨d, e1, e2⟩ := h'.apply (v := VCAPS_LED) (by decide) (if !k.caps then .setHi else .setLo)
  refine ⟨_, ?_, e2⟩
  unfold capslockActivate setCapsState
  rw [hx, hfn]
  dsimp only at e1 ⊢
  rw [e1, ok_bind]

theorem Shows.setCtrl {cfg L s k} (h : Shows cfg L s k) (b : Bool) :
    Shows cfg L { s with mods := { s.mods with ctrl := b2u b } } { k with ctrl := b } := by
  obtain ⟨free, hw⟩ := h.wf
  exact ⟨⟨free, hw.withDevMods _ hw.dev⟩, h.map, h.deb, h.shift, h.caps, rfl, h.last, h.rpt,
    h.pause, h.trace⟩

theorem Shows.setRpt {cfg L s k} (h : Shows cfg L s k) {r : RepState} {q : Rpt} (hr : RepInv r)
    (hq : RptRel r q) : Shows cfg L { s with rep := r } { k with rpt := q } := by
  obtain ⟨free, hw⟩ := h.wf
  exact ⟨⟨free, hw.withRep hr⟩, h.map, h.deb, h.shift, h.caps, h.ctrl, h.last, hq, h.pause, h.trace⟩

/-! ## Messages -/

theorem Shows.function {cfg L s k} (hcf : CfgFacts cfg L) (h : Shows cfg L s k) {n : Nat}
    (hn : n < 10) :
    ∃ s', hookExecute s (5 + n) = .ok s' ∧ Shows cfg L s' (k.function cfg (n + 1)) := by
  obtain ⟨free, hw⟩ := h.wf
  obtain ⟨f, h1, h2⟩ := (hooksOk_facts (hcf.parts hw.idx).2.2.2).2.2.2 n hn
  have hf : (hooksOf (cfg.setup k.map))[4 + (n + 1)]? = some f := by
    rw [show 4 + (n + 1) = 5 + n by omega, ← h.map]; exact h1
  rw [← hw.hooks] at h1
  unfold hookExecute Kb.function
  rw [if_pos (hookValid_iff.mpr (by omega)), rd_some h1, ok_bind, hf]
  cases f with
  | null => exact ⟨s, rfl, h⟩
  | print text =>
    obtain ⟨b', e1, e2⟩ := print_ok text hw.buf hw.mb
    rw [foldl_putL_take] at e2
    refine ⟨_, e1, ⟨free, hw.withBuf e2 ⟨hw.codes.1, ?_⟩⟩, h.map, h.deb, h.shift, h.caps, h.ctrl,
      h.last, h.rpt, h.pause, h.trace⟩
    have := foldl_putL_codes (cap := 128) h2 hw.codes.2
    rw [foldl_putL_take] at this
    exact this
  | nullPtr => simp [quietHook] at h2
  | archReadRow => simp [quietHook] at h2
  | archSendCode => simp [quietHook] at h2
  | keyscan => simp [quietHook] at h2

/-! ## Keymaps -/

/-- The part of the relation that a keymap's setup changes. -/
structure Half (s : State) (k : Kb) (free : List Nat) : Prop where
  dev : DevRel s.dev k.outs free
  caps : s.mods.caps = b2u k.caps
  pause : s.printDelay = k.pause
  trace : s.dev.trace = k.trace

/-- The part of the abstract keyboard that a keymap's setup leaves alone. -/
structure SameRest (k k' : Kb) : Prop where
  map : k'.map = k.map
  deb : k'.deb = k.deb
  held : k'.held = k.held
  locked : k'.locked = k.locked
  ctrl : k'.ctrl = k.ctrl
  last : k'.last = k.last
  rpt : k'.rpt = k.rpt
  keys : k'.keys = k.keys
  msgs : k'.msgs = k.msgs

theorem setup1_rest (k : Kb) (c : SetupCmd) : SameRest k (k.setup1 c) := by
  cases c <;> exact ⟨rfl, rfl, rfl, rfl, rfl, rfl, rfl, rfl, rfl⟩

theorem setup_rest (cmds : List SetupCmd) (k : Kb) : SameRest k (cmds.foldl Kb.setup1 k) := by
  induction cmds generalizing k with
  | nil => exact ⟨rfl, rfl, rfl, rfl, rfl, rfl, rfl, rfl, rfl⟩
  | cons c cmds ih =>
    have h1 := setup1_rest k c
    have h2 := ih (k.setup1 c)
    exact ⟨h2.map.trans h1.map, h2.deb.trans h1.deb, h2.held.trans h1.held,
      h2.locked.trans h1.locked, h2.ctrl.trans h1.ctrl, h2.last.trans h1.last,
      h2.rpt.trans h1.rpt, h2.keys.trans h1.keys, h2.msgs.trans h1.msgs⟩

theorem canAssign_iff {d : Dev} {k : Kb} {free} (h : DevRel d k.outs free) (v p : Nat) :
    k.canAssign v p = true ↔ k.outs.CanAssign v p := by
  unfold Kb.canAssign Outputs.CanAssign
  simp only [Bool.and_eq_true, decide_eq_true_eq, and_assoc, List.all_eq_true, List.mem_range,
    Bool.not_eq_true', List.contains_eq_mem, decide_eq_false_iff_not]
  refine and_congr_right fun _ => and_congr_right fun _ => and_congr_right fun _ =>
    and_congr_right fun _ => ⟨fun hh w hw => ?_, fun hh w _ => hh w⟩
  have := h.vrange w (fun he => by rw [he] at hw; cases hw)
  exact hh w (show w < 12 from this.2) hw

theorem Half.setup1 {s s' : State} {k free} (h : Half s k free) (hm : s.maps.length = 4)
    (hh : s.hooks.length = 16) (c : SetupCmd) (hr : runCmd s c = .ok s') :
    ∃ free', Half s' (k.setup1 c) free' := by
  cases c with
  | printDelay ms =>
    cases hr
    exact ⟨free, h.dev, h.caps, rfl, h.trace⟩
  | addMap t i r cc =>
    have hr : addMap s (some t) i r cc = .ok s' := hr
    rw [addMap_ok hm] at hr
    cases hr
    exact ⟨free, h.dev, h.caps, h.pause, h.trace⟩
  | hook id f =>
    simp only [runCmd, hookAssign_ok hh, ok_bind] at hr
    cases hr
    exact ⟨free, h.dev, h.caps, h.pause, h.trace⟩
  | vassign v p fn i =>
    by_cases hc : k.outs.CanAssign v p
    · have hb := (canAssign_iff h.dev v p).mpr hc
      obtain ⟨d', h1, h2, h3⟩ := h.dev.assign (fn := fn) (i := i) hc
      simp only [runCmd, h1, ok_bind] at hr
      cases hr
      refine ⟨free.erase p, ?_, h.caps, h.pause, h2.trans h.trace⟩
      simp only [Kb.setup1, if_pos hb]
      exact h3
    · have hb : ¬ k.canAssign v p = true := fun hh => hc ((canAssign_iff h.dev v p).mp hh)
      simp only [runCmd, h.dev.assign_no hc, ok_bind] at hr
      cases hr
      refine ⟨free, ?_, h.caps, h.pause, h.trace⟩
      simp only [Kb.setup1, if_neg hb]
      exact h.dev
  | capsActivate =>
    have hx : s.mods.caps ^^^ 1 = b2u (!k.caps) := by
      rw [h.caps]; cases k.caps <;> rfl
    have hfn : (if b2u (!k.caps) ≠ 0 then VFun.setHi else .setLo) =
        (if !k.caps then .setHi else .setLo) := by
      cases k.caps <;> rfl
    obtain ⟨d, e1, e2, e3⟩ := h.dev.act (v := VCAPS_LED) (by decide)
      (if !k.caps then .setHi else .setLo)
    have hr : setCapsState s (s.mods.caps ^^^ 1) = .ok s' := hr
    unfold setCapsState at hr
    rw [hx, hfn] at hr
    dsimp only at hr
    rw [e1, ok_bind] at hr
    cases hr
    refine ⟨free, e3, rfl, h.pause, ?_⟩
    show d.trace = _
    rw [e2, h.trace]
    rfl
  | negStrobe =>
    cases hr
    refine ⟨free, h.dev.emit _, h.caps, h.pause, ?_⟩
    show s.dev.trace ++ [.negStrobe] = k.trace ++ [.negStrobe]
    rw [h.trace]

theorem Half.setup (cmds : List SetupCmd) {s s' : State} {k free} (h : Half s k free)
    (hm : s.maps.length = 4) (hh : s.hooks.length = 16) (hr : cmds.foldlM runCmd s = .ok s') :
    ∃ free', Half s' (cmds.foldl Kb.setup1 k) free' := by
  induction cmds generalizing s k free with
  | nil => cases hr; exact ⟨free, h⟩
  | cons c cmds ih =>
    rw [List.foldlM_cons] at hr
    obtain ⟨s1, h1, h2⟩ := bind_eq_ok.mp hr
    obtain ⟨f1, g1⟩ := h.setup1 hm hh c h1
    obtain ⟨d', f', e1, _⟩ := runCmd_ok hm hh h.dev c
    rw [e1] at h1
    cases h1
    exact ih g1 (by rw [← hm]; exact mapsStep_length _ _)
      (by rw [← hh]; exact hooksStep_length _ _) h2

/-- Installing a keymap. -/
theorem install_half {cfg : Config} {s : State} {k : Kb} {i : UInt8} (hv : cfg.valid i = true)
    (hm : s.maps.length = 4) (hcaps : s.mods.caps = b2u k.caps) (hp : s.printDelay = k.pause)
    (ht : s.dev.trace = k.trace) :
    ∃ d' free', keymapsSwitch cfg s i = .ok { s with
        curIdx := i
        maps := mapsOf (cfg.setup i)
        hooks := hooksOf (cfg.setup i)
        printDelay := delayOf s.printDelay (cfg.setup i)
        mods := { s.mods with caps := capsOf s.mods.caps (cfg.setup i) }
        dev := d' } ∧
      Half { s with
        curIdx := i
        maps := mapsOf (cfg.setup i)
        hooks := hooksOf (cfg.setup i)
        printDelay := delayOf s.printDelay (cfg.setup i)
        mods := { s.mods with caps := capsOf s.mods.caps (cfg.setup i) }
        dev := d' } (k.install cfg i) free' := by
  obtain ⟨d', f', h1, _⟩ := keymapsSwitch_ok (cfg := cfg) (s := s) hv hm
  have hr := keymapsReset_ok (s := ({ s with curIdx := i } : State).emit .archInit) hm
  have h2 := h1
  unfold keymapsSwitch at h2
  rw [if_pos hv] at h2
  simp only [hr, ok_bind] at h2
  have h0 : Half { (({ s with curIdx := i } : State).emit .archInit) with
      maps := List.replicate 4 ⟨none, 0, 0⟩,
      dev := virtInit (({ s with curIdx := i } : State).emit .archInit).dev, hooks := hookInit [] }
      (Kb.emit { k with map := i, outs := Outputs.initial } [.archInit]) (List.range' 1 12) := by
    refine ⟨DevRel.init _, hcaps, hp, ?_⟩
    show s.dev.trace ++ [.archInit] = k.trace ++ [.archInit]
    rw [ht]
  obtain ⟨f2, g⟩ := h0.setup (cfg.setup i) (by simp) (by rfl) h2
  exact ⟨d', f2, h1, g⟩

theorem Shows.select {cfg L s k} (hcf : CfgFacts cfg L) (h : Shows cfg L s k) {i : UInt8}
    (hi : i ∈ L.maps ∨ cfg.valid i = false) :
    ∃ s', keymapsSelect cfg s i = .ok s' ∧ Shows cfg L s' (k.select cfg i) := by
  unfold keymapsSelect Kb.select
  obtain ⟨free, hw⟩ := h.wf
  rw [h.map]
  by_cases he : i ≠ k.map
  · rw [if_pos he]
    rcases hi with hi | hi
    · have hv := (hcf.parts hi).2.1
      rw [if_pos ⟨he, hv⟩]
      obtain ⟨d', f', h1, h2⟩ := install_half (k := k) hv (by rw [hw.maps, mapsOf_length]) h.caps h.pause
        h.trace
      have hk : SameRest { k with map := i } (k.install cfg i) := by
        have := setup_rest (cfg.setup i)
          (Kb.emit { k with map := i, outs := Outputs.initial } [.archInit])
        exact ⟨this.map, this.deb, this.held, this.locked, this.ctrl, this.last, this.rpt,
          this.keys, this.msgs⟩
      refine ⟨_, h1, ⟨f', ?_⟩, ?_, ?_, ?_, h2.caps, ?_, ?_, ?_, h2.pause, h2.trace⟩
      · rw [hk.keys, hk.msgs]
        exact ⟨hw.buf, hw.kc, hw.mb, h2.dev, hi, rfl, rfl, hw.stableLen, hw.cntLen, hw.cntRow,
          hw.cntVal, hw.rep, hw.last, hw.blocked, hw.codes⟩
      · rw [hk.map]
      · rw [hk.deb]; exact h.deb
      · rw [hk.held, hk.locked]; exact h.shift
      · rw [hk.ctrl]; exact h.ctrl
      · rw [hk.last]; exact h.last
      · rw [hk.rpt]; exact h.rpt
    · rw [if_neg (fun hh => by rw [hi] at hh; cases hh.2)]
      exact ⟨s, keymapsSwitch_invalid (by simp [hi]), h⟩
  · rw [if_neg he, if_neg (fun hh => he hh.1)]
    exact ⟨s, rfl, h⟩

/-! ## Pressing and releasing keys -/

/-- What pressing an action key does. -/
noncomputable def Spec.Kb.pressAct (cfg : Config) (k : Kb) : Action → Kb
  | .shift => k.setShift true false
  | .shiftlockOn => k.setShift k.held true
  | .shiftlockToggle => k.setShift k.held (!k.locked)
  | .caps => k.flipCaps
  | .ctrl => { k with ctrl := true }
  | .repeat => { k with rpt := k.rpt.press }
  | .hereIs => k.function cfg 1
  | .nothing => k
  | .mapsel b => k.select cfg (k.map ||| b)
  | .autorepeatSelect => { k with rpt := k.rpt.auto true }
  | .strobeSelect => k.emit [.posStrobe]
  | .virt v => k.apply v (k.outs.fn v)
  | .fn n => if n ≤ 10 then k.function cfg n else k
  | .other => k

/-- What releasing an action key does. -/
noncomputable def Spec.Kb.releaseAct (cfg : Config) (k : Kb) : Action → Kb
  | .shift => k.setShift false false
  | .ctrl => { k with ctrl := false }
  | .repeat => { k with rpt := k.rpt.release }
  | .mapsel b => k.select cfg (k.map &&& ~~~b)
  | .autorepeatSelect => { k with rpt := k.rpt.auto false }
  | .strobeSelect => k.emit [.negStrobe]
  | _ => k

theorem press_act (cfg : Config) (k : Kb) (code : Code) (h : 0xA0 < code.toNat) :
    k.press cfg code = k.pressAct cfg (decodeAction code) := by
  unfold Kb.press decodeAction
  generalize code.toNat = n at h
  split
  all_goals first
    | rfl
    | skip
  rw [if_neg (by omega)]
  split <;> first | rfl | omega | (exfalso; simp_all; done)

theorem release_act (cfg : Config) (k : Kb) (code : Code) (h : 0xA0 < code.toNat) :
    k.release cfg code = k.releaseAct cfg (decodeAction code) := by
  unfold Kb.release decodeAction
  generalize code.toNat = n at h
  split
  all_goals first
    | rfl
    | skip
  rw [if_neg (by omega)]
  split <;> first | rfl | omega | (exfalso; simp_all; done)

theorem press_code (cfg : Config) (k : Kb) (code : Code) (h : code.toNat ≤ 0xA0) :
    k.press cfg code = k.type code := by
  unfold Kb.press
  generalize code.toNat = n at h
  split
  all_goals first
    | omega
    | rw [if_pos h]

theorem release_code (cfg : Config) (k : Kb) (code : Code) (h : code.toNat ≤ 0xA0) :
    k.release cfg code = { k with last := if k.last = code then 0xA0 else k.last } := by
  unfold Kb.release
  generalize code.toNat = n at h
  split
  all_goals first
    | omega
    | rw [if_pos h]

theorem Shows.pressAct {cfg L s k} (hcf : CfgFacts cfg L) (h : Shows cfg L s k) {act : Action}
    (ha : actionOk cfg L act) (hn : act ≠ .nothing) :
    ∃ s', activateAction cfg s act = .ok s' ∧ Shows cfg L s' (k.pressAct cfg act) := by
  obtain ⟨free, hw⟩ := h.wf
  cases act with
  | nothing => exact absurd rfl hn
  | shift => exact h.setShift true false
  | shiftlockOn =>
    have hx : s.mods.shift ||| SHIFT_LOCKED_ST = shiftCode k.held true := by
      rw [h.shift]; cases k.held <;> cases k.locked <;> rfl
    show ∃ s', setShiftState s (s.mods.shift ||| SHIFT_LOCKED_ST) = .ok s' ∧ _
    rw [hx]
    exact h.setShift k.held true
  | shiftlockToggle =>
    have hx : s.mods.shift ^^^ SHIFT_LOCKED_ST = shiftCode k.held (!k.locked) := by
      rw [h.shift]; cases k.held <;> cases k.locked <;> rfl
    show ∃ s', setShiftState s (s.mods.shift ^^^ SHIFT_LOCKED_ST) = .ok s' ∧ _
    rw [hx]
    exact h.setShift k.held (!k.locked)
  | caps => exact h.flipCaps
  | ctrl => exact ⟨_, rfl, h.setCtrl true⟩
  | «repeat» => exact ⟨_, rfl, h.setRpt hw.rep.activate h.rpt.press⟩
  | hereIs => exact h.function hcf (n := 0) (by omega)
  | mapsel b =>
    show ∃ s', keymapsSelect cfg s (s.curIdx ||| b) = .ok s' ∧ _
    rw [h.map]
    refine h.select hcf ?_
    rw [← h.map]
    exact (ha s.curIdx hw.idx).1
  | autorepeatSelect => exact ⟨_, rfl, h.setRpt hw.rep.autoOn h.rpt.autoOn⟩
  | strobeSelect => exact ⟨_, rfl, h.emit _⟩
  | virt v =>
    obtain ⟨d, e1, e2⟩ := h.activate (v := v) ha
    refine ⟨_, ?_, e2⟩
    show (virtActivate s.dev v >>= fun d => (.ok { s with dev := d } : Res State)) = _
    rw [e1, ok_bind]
  | fn n =>
    show ∃ s', (if 1 ≤ n ∧ n ≤ 10 then hookExecute s (HOOK_USER_1 + (n - 1)) else .ok s) = .ok s' ∧
      Shows cfg L s' (if n ≤ 10 then k.function cfg n else k)
    by_cases h1 : 1 ≤ n ∧ n ≤ 10
    · rw [if_pos h1, if_pos h1.2]
      have := h.function hcf (n := n - 1) (by omega)
      rw [show n - 1 + 1 = n by omega] at this
      exact this
    · rw [if_neg h1]
      by_cases h2 : n ≤ 10
      · have hz : n = 0 := by omega
        subst hz
        rw [if_pos h2]
        obtain ⟨_, _, hk4, _⟩ := hooksOk_facts (hcf.parts hw.idx).2.2.2
        have : k.function cfg 0 = k := by
          unfold Kb.function
          rw [← h.map, show 4 + 0 = 4 from rfl, hk4]
        rw [this]
        exact ⟨s, rfl, h⟩
      · rw [if_neg h2]
        exact ⟨s, rfl, h⟩
  | other => exact ⟨s, rfl, h⟩

theorem Shows.releaseAct {cfg L s k} (hcf : CfgFacts cfg L) (h : Shows cfg L s k) {act : Action}
    (ha : actionOk cfg L act) :
    ∃ s', deactivateAction cfg s act = .ok s' ∧ Shows cfg L s' (k.releaseAct cfg act) := by
  obtain ⟨free, hw⟩ := h.wf
  cases act with
  | shift => exact h.setShift false false
  | ctrl => exact ⟨_, rfl, h.setCtrl false⟩
  | «repeat» => exact ⟨_, rfl, h.setRpt hw.rep.deactivate h.rpt.release⟩
  | mapsel b =>
    show ∃ s', keymapsSelect cfg s (s.curIdx &&& ~~~b) = .ok s' ∧ _
    rw [h.map]
    refine h.select hcf ?_
    rw [← h.map]
    exact (ha s.curIdx hw.idx).2
  | autorepeatSelect => exact ⟨_, rfl, h.setRpt hw.rep.autoOff h.rpt.autoOff⟩
  | strobeSelect => exact ⟨_, rfl, h.emit _⟩
  | nothing => exact ⟨s, rfl, h⟩
  | shiftlockOn => exact ⟨s, rfl, h⟩
  | shiftlockToggle => exact ⟨s, rfl, h⟩
  | caps => exact ⟨s, rfl, h⟩
  | hereIs => exact ⟨s, rfl, h⟩
  | virt _ => exact ⟨s, rfl, h⟩
  | fn _ => exact ⟨s, rfl, h⟩
  | other => exact ⟨s, rfl, h⟩

theorem decode_nothing {code : Code} (h : 0xA0 < code.toNat) : decodeAction code ≠ .nothing := by
  have : ∀ n, n < 256 → 0xA0 < n → decodeAction (UInt8.ofNat n) ≠ .nothing := by decide +kernel
  have := this code.toNat code.toNat_lt h
  rwa [UInt8.ofNat_toNat] at this

theorem Shows.type {cfg L s k} (h : Shows cfg L s k) {code : Code} (hc : code.toNat ≤ 0xA0) :
    ∃ s', activateKey cfg s code = .ok s' ∧ Shows cfg L s' (k.type code) := by
  obtain ⟨free, hw⟩ := h.wf
  obtain ⟨b', e1, e2⟩ := activateKey_code (cfg := cfg) hw hc
  refine ⟨_, e1, ⟨free, e2⟩, h.map, h.deb, h.shift, h.caps, h.ctrl, rfl, ?_, h.pause, h.trace⟩
  show RptRel (if s.lastKey ≠ code then repResetCount s.rep else s.rep)
    (if k.last = code then k.rpt else k.rpt.restart)
  rw [h.last]
  by_cases he : k.last = code
  · rw [if_pos he, if_neg (fun hh => hh he)]
    exact h.rpt
  · rw [if_neg he, if_pos he]
    exact h.rpt.restart

theorem Shows.press {cfg L s k} (hcf : CfgFacts cfg L) (h : Shows cfg L s k) {code : Code}
    (ha : mapselOk cfg L code = true) :
    ∃ s', activateKey cfg s code = .ok s' ∧ Shows cfg L s' (k.press cfg code) := by
  by_cases hc : code.toNat ≤ 0xA0
  · rw [press_code cfg k code hc]
    exact h.type hc
  · rw [press_act cfg k code (by omega)]
    unfold activateKey
    rw [if_pos (by rw [gt_invalid]; omega)]
    exact h.pressAct hcf (actionOk_of ha) (decode_nothing (by omega))

theorem Shows.release {cfg L s k} (hcf : CfgFacts cfg L) (h : Shows cfg L s k) {code : Code}
    (ha : mapselOk cfg L code = true) :
    ∃ s', deactivateKey cfg s code = .ok s' ∧ Shows cfg L s' (k.release cfg code) := by
  by_cases hc : code.toNat ≤ 0xA0
  · rw [release_code cfg k code hc, deactivateKey_code hc]
    obtain ⟨free, hw⟩ := h.wf
    refine ⟨_, rfl, ⟨free, hw.withLast ?_⟩, h.map, h.deb, h.shift, h.caps, h.ctrl, ?_, h.rpt,
      h.pause, h.trace⟩
    · split
      · decide
      · exact hw.last
    · show (if s.lastKey = code then INVALID_CODE else s.lastKey) = if k.last = code then 0xA0 else k.last
      rw [h.last]
      rfl
  · rw [release_act cfg k code (by omega)]
    unfold deactivateKey
    rw [if_pos (by rw [gt_invalid]; omega)]
    exact h.releaseAct hcf (actionOk_of ha)

/-! ## One key, one pass, many passes -/

/-- The abstract keyboard with one debouncer stepped. -/
def stepDeb (k : Kb) (p : Bool) (r c : Nat) : Kb :=
  { k with deb := fun r' c' => if r' = r ∧ c' = c then (k.deb r c).step p else k.deb r' c' }

theorem Shows.key {cfg L s k} (hcf : CfgFacts cfg L) (h : Shows cfg L s k) {r c : Nat}
    (hr : r < L.rows) (hc : c < L.cols) {p : Bool} (hp : p = true → L.blocked r c = false) :
    ∃ s', keyStep cfg p s r c = .ok s' ∧ Shows cfg L s' (k.key cfg L p r c) := by
  have hr16 : r < 16 := Nat.lt_of_lt_of_le hr hcf.rows16
  have hc8 : c < 8 := Nat.lt_of_lt_of_le hc hcf.cols8
  obtain ⟨free, hw⟩ := h.wf
  have hd := h.deb r c hr hc
  have hon : (k.deb r c).on = accepted s r c := by rw [← hd]; rfl
  have hlf : (k.deb r c).left = counter s r c := by rw [← hd]; rfl
  have hcode := h.code r c
  obtain ⟨x, _, hxc, hx1, _⟩ := hw.cell hr16 hc8
  -- what the general lemma says about the debouncers
  obtain ⟨s1, _, _, _, e1, _, _, e4⟩ := keyStep_ok hcf hw hr hc hp
  have hdeb : ∀ r' c', r' < L.rows → c' < L.cols → debOf s1 r' c' = (stepDeb k p r c).deb r' c' := by
    intro r' c' hr' hc'
    rw [e4 r' c' (Nat.lt_of_lt_of_le hc' hcf.cols8)]
    show _ = if r' = r ∧ c' = c then (k.deb r c).step p else k.deb r' c'
    by_cases he : r' = r ∧ c' = c
    · rw [if_pos he, if_pos he, hd]
    · rw [if_neg he, if_neg he, h.deb r' c' hr' hc']
  show ∃ s', keyStep cfg p s r c = .ok s' ∧ Shows cfg L s'
    (if p ≠ (k.deb r c).on then
      if (k.deb r c).left ≤ 1 then
        if p = true then (stepDeb k p r c).press cfg (k.code cfg L r c)
        else (stepDeb k p r c).release cfg (k.code cfg L r c)
      else stepDeb k p r c
    else if p = true ∧ k.code cfg L r c = k.last then
      if k.rpt.left = 1 then Kb.type { stepDeb k p r c with rpt := k.rpt.tick } k.last
      else { stepDeb k p r c with rpt := k.rpt.tick }
    else stepDeb k p r c)
  rw [hon, hlf, ← hcode, ← h.last]
  have hsame : p = accepted s r c → stepDeb k p r c = k := by
    intro he
    unfold stepDeb
    have : (k.deb r c).step p = k.deb r c := if_pos (by rw [hon]; exact he)
    have h2 : (fun r' c' => if r' = r ∧ c' = c then (k.deb r c).step p else k.deb r' c') = k.deb := by
      funext r' c'
      by_cases hh : r' = r ∧ c' = c
      · rw [if_pos hh, this, hh.1, hh.2]
      · rw [if_neg hh]
    rw [h2]
  unfold keyStep at e1 ⊢
  by_cases hne : p ≠ accepted s r c
  · rw [if_pos hne] at e1
    rw [if_pos hne, if_pos hne]
    by_cases h1 : counter s r c = 1
    · rw [if_pos (by omega)]
      have hfl := hw.flip hcf hr hc hp
      have hF : Shows cfg L (flipCell s r c p) (stepDeb k p r c) := by
        refine ⟨⟨free, hfl⟩, h.map, ?_, h.shift, h.caps, h.ctrl, h.last, h.rpt, h.pause, h.trace⟩
        intro r' c' hr' hc'
        show _ = if r' = r ∧ c' = c then (k.deb r c).step p else k.deb r' c'
        unfold debOf
        rw [accepted_flip (by rw [hw.stableLen]; exact hr16) hc8 p r' c'
            (Nat.lt_of_lt_of_le hc' hcf.cols8),
          counter_flip (by rw [hw.cntLen]; exact hr16) (by rw [(hw.cntRow' hr16).2]; exact hc8)]
        by_cases he : r' = r ∧ c' = c
        · rw [if_pos he, if_pos he, if_pos he]
          unfold Deb.step
          rw [hon, hlf, if_neg hne, if_pos (by omega)]
        · rw [if_neg he, if_neg he, if_neg he]
          exact h.deb r' c' hr' hc'
      obtain ⟨hlook, hms⟩ := lookup_ok hcf hfl.idx hfl.maps hr hc
      have hmsel : mapselOk cfg L (codeOf s L.cols r c) = true := by
        rcases hms with hb | hb
        · exfalso
          cases p with
          | true => rw [hp rfl] at hb; cases hb
          | false =>
            have := hw.blocked r c hr hc hb
            rw [this] at hne; exact hne rfl
        · exact hb
      rw [pressOrRelease_accept hw hr16 hc8 p h1, hlook, ok_bind, codeOf_flip]
      cases p with
      | true =>
        rw [if_pos rfl, if_pos rfl]
        exact hF.press hcf hmsel
      | false =>
        rw [if_neg (by decide), if_neg (by decide)]
        exact hF.release hcf hmsel
    · rw [if_neg (by omega)]
      obtain ⟨y, hy, hy1, hy2, e⟩ := pressOrRelease_count (cfg := cfg) hw hr16 hc8 p h1
      rw [e] at e1
      cases e1
      exact ⟨_, e, ⟨free, hw.withCount hr16 hy1 hy2⟩, h.map, hdeb, h.shift, h.caps, h.ctrl, h.last,
        h.rpt, h.pause, h.trace⟩
  · rw [if_neg hne, if_neg hne]
    have heq : p = accepted s r c := by simpa using hne
    rw [hsame heq]
    cases p with
    | false =>
      rw [if_neg (by decide), if_neg (fun hh => by cases hh.1)]
      exact ⟨s, rfl, h⟩
    | true =>
      rw [if_pos rfl]
      obtain ⟨t1, t2⟩ := h.rpt.tick
      by_cases hl : codeOf s L.cols r c = s.lastKey
      · rw [if_pos ⟨rfl, hl⟩]
        have hT := h.setRpt hw.rep.tick t1
        by_cases hf : (repTick s.rep).1 = true
        · rw [if_pos (t2.mp hf)]
          obtain ⟨s', g1, g2⟩ := hT.type (cfg := cfg) (code := s.lastKey) hw.last
          refine ⟨s', ?_, g2⟩
          unfold heldPressed
          rw [(lookup_ok hcf hw.idx hw.maps hr hc).1, ok_bind, if_pos hl]
          show (if (repTick s.rep).1 = true then _ else _) = _
          rw [if_pos hf]
          exact g1
        · rw [if_neg (fun hh => hf (t2.mpr hh))]
          exact ⟨_, heldPressed_wait hcf hw hr hc hl (by simpa using hf), hT⟩
      · rw [if_neg (fun hh => hl hh.2)]
        exact ⟨s, heldPressed_other hcf hw hr hc hl, h⟩

theorem Shows.output {cfg L s k} (hcf : CfgFacts cfg L) (h : Shows cfg L s k) :
    ∃ s', outputPhase s = .ok s' ∧ Shows cfg L s' k.output := by
  obtain ⟨free, hw⟩ := h.wf
  obtain ⟨b', e1, e2⟩ := outputPhase_ok hcf hw
  refine ⟨_, e1, ?_⟩
  have hst : ∀ k' : Kb, SameRest { k with keys := k'.keys, msgs := k'.msgs } k' →
      k'.caps = k.caps → k'.pause = k.pause → k'.outs = k.outs →
      k'.keys = (if frontL k.msgs = 0xA0 then k.keys.tail else k.keys) → k'.msgs = k.msgs.tail →
      k'.trace = k.trace ++ outTrace k.pause k.keys k.msgs →
      Shows cfg L { s with
        buf := b',
        dev := { s.dev with trace := s.dev.trace ++ outTrace s.printDelay k.keys k.msgs } } k' := by
    intro k' hk h2 h3 h4 h5 h6 h7
    refine ⟨⟨free, ?_⟩, ?_, ?_, ?_, ?_, ?_, ?_, ?_, ?_, ?_⟩
    · rw [h5, h6, h4]; exact e2
    · rw [hk.map]; exact h.map
    · rw [hk.deb]; exact h.deb
    · rw [hk.held, hk.locked]; exact h.shift
    · rw [h2]; exact h.caps
    · rw [hk.ctrl]; exact h.ctrl
    · rw [hk.last]; exact h.last
    · rw [hk.rpt]; exact h.rpt
    · rw [h3]; exact h.pause
    · rw [h7]
      show s.dev.trace ++ _ = _
      rw [h.trace, h.pause]
  cases hm : k.msgs with
  | cons m ms =>
    have hlt : m.toNat < 0xA0 := hw.codes.2 m (by rw [hm]; exact List.mem_cons_self)
    have hf : ¬ frontL (m :: ms) = 0xA0 := by
      intro hh
      have : m = 0xA0 := hh
      rw [this] at hlt
      exact absurd hlt (by decide)
    have ho : k.output = Kb.emit { k with msgs := ms } [.delayMs k.pause, .send m] := by
      unfold Kb.output; simp only [hm]
    rw [← hm, ho]
    refine hst _ ⟨rfl, rfl, rfl, rfl, rfl, rfl, rfl, rfl, rfl⟩ rfl rfl rfl ?_ ?_ ?_
    · rw [hm, if_neg hf]; rfl
    · rw [hm]; rfl
    · show k.trace ++ _ = _
      rw [hm]
      unfold outTrace
      rw [if_neg hf, if_pos (show (frontL (m :: ms)).toNat < 0xA0 from hlt)]
      rfl
  | nil =>
    have hf : frontL ([] : List Code) = 0xA0 := rfl
    rw [← hm]
    cases hk : k.keys with
    | cons c cs =>
      have ho : k.output = Kb.emit { k with keys := cs }
          (if c.toNat < 0xA0 then [.send c] else []) := by
        unfold Kb.output; simp only [hm, hk]
      rw [← hk, ho]
      refine hst _ ⟨rfl, rfl, rfl, rfl, rfl, rfl, rfl, rfl, rfl⟩ rfl rfl rfl ?_ ?_ ?_
      · rw [hm, if_pos hf, hk]; rfl
      · show k.msgs = _
        rw [hm]; rfl
      · show k.trace ++ _ = _
        rw [hm, hk]
        unfold outTrace
        rw [if_pos hf]
        rfl
    | nil =>
      have ho : k.output = k := by
        unfold Kb.output; simp only [hm, hk]
      rw [← hk, ho]
      refine hst _ ⟨rfl, rfl, rfl, rfl, rfl, rfl, rfl, rfl, rfl⟩ rfl rfl rfl ?_ ?_ ?_
      · rw [hm, if_pos hf, hk]; rfl
      · rw [hm]; rfl
      · rw [hm, hk]
        show _ = k.trace ++ []
        rw [List.append_nil]

theorem keysOf_allKeys (L : Layout) : keysOf L = allKeys L := by
  unfold keysOf allKeys keyOrder
  simp only [List.range_eq_range']

theorem Shows.keys {cfg L} (hcf : CfgFacts cfg L) {inp : Input} (hin : Allowed L inp)
    (keys : List (Nat × Nat)) {s k} (h : Shows cfg L s k)
    (hk : ∀ x ∈ keys, x.1 < L.rows ∧ x.2 < L.cols) :
    ∃ s', keySteps cfg inp keys s = .ok s' ∧
      Shows cfg L s' (keys.foldl (fun k x => k.key cfg L (sample inp x.1 x.2) x.1 x.2) k) := by
  induction keys generalizing s k with
  | nil => exact ⟨s, rfl, h⟩
  | cons x keys ih =>
    have hx := hk x List.mem_cons_self
    obtain ⟨s1, e1, e2⟩ := h.key hcf hx.1 hx.2 (p := sample inp x.1 x.2) (fun hp => by
      cases hb : L.blocked x.1 x.2 with
      | false => rfl
      | true =>
        have := hin x.1 x.2 hx.1 hx.2 hb
        rw [this] at hp; cases hp)
    obtain ⟨s2, g1, g2⟩ := ih e2 (fun y hy => hk y (List.mem_cons_of_mem _ hy))
    refine ⟨s2, ?_, g2⟩
    rw [keySteps_cons, e1, ok_bind, g1]

theorem Shows.pass {cfg L s k} (hcf : CfgFacts cfg L) (h : Shows cfg L s k) {inp : Input}
    (hin : Allowed L inp) : ∃ s', tick cfg s inp = .ok s' ∧ Shows cfg L s' (k.pass cfg L inp) := by
  obtain ⟨s1, e1, e2⟩ := h.output hcf
  obtain ⟨f, hw⟩ := e2.wf
  obtain ⟨s2, g1, g2⟩ := e2.keys hcf hin (keysOf L) (by
    intro x hx
    rw [keysOf_allKeys] at hx
    unfold allKeys at hx
    rw [mem_keyOrder] at hx
    omega)
  refine ⟨s2, ?_, g2⟩
  unfold tick
  rw [e1, ok_bind, keyscan_fold hcf hin ⟨_, _, _, _, hw⟩, ← keysOf_allKeys, g1]

theorem Shows.run {cfg L} (hcf : CfgFacts cfg L) (inps : List Input)
    (hin : ∀ inp ∈ inps, Allowed L inp) {s k} (h : Shows cfg L s k) :
    ∃ s', Asdf.run cfg s inps = .ok s' ∧ Shows cfg L s' (inps.foldl (Kb.pass cfg L) k) := by
  induction inps generalizing s k with
  | nil => exact ⟨s, rfl, h⟩
  | cons inp inps ih =>
    obtain ⟨s1, e1, e2⟩ := h.pass hcf (hin inp List.mem_cons_self)
    obtain ⟨s2, g1, g2⟩ := ih (fun i hi => hin i (List.mem_cons_of_mem _ hi)) e2
    exact ⟨s2, by rw [run_cons, e1, ok_bind]; exact g1, g2⟩

/-- The abstract keyboard before the first keymap is installed. -/
def blankKb : Kb where
  map := 0
  deb := fun _ _ => Deb.init
  held := false
  locked := false
  caps := false
  ctrl := false
  last := 0xA0
  rpt := ⟨525, 525, 525⟩
  keys := []
  msgs := []
  outs := Outputs.initial
  pause := 0
  trace := []

theorem Shows.start {cfg : Config} {L : Layout} (hcf : CfgFacts cfg L) :
    ∃ s, boot cfg = .ok s ∧ Shows cfg L s (Kb.start cfg) := by
  have h0 := (hcf.parts hcf.zero).2.1
  obtain ⟨s, _, free, e1, hw, hdeb⟩ := boot_inv hcf
  refine ⟨s, e1, ?_⟩
  -- the state after the keymap was installed
  obtain ⟨d, f1, i1, i2⟩ := install_half (cfg := cfg) (i := 0) h0
    (s := { State.zero with
      lastKey := INVALID_CODE, buf := bufInit BufState.zero, rep := repInit RepState.zero })
    (k := blankKb) rfl rfl rfl rfl
  obtain ⟨d', _, b, c1, _, c3⟩ := boot_ok (cfg := cfg) h0
  rw [e1] at c1
  have hs := Except.ok.inj c1
  -- the device part is the one of the installed keymap
  have hdev : s.dev = d := by
    unfold boot asdfInit keymapsInit at e1
    have e1 : (keymapsSwitch cfg { State.zero with
      lastKey := INVALID_CODE, buf := bufInit BufState.zero, rep := repInit RepState.zero } 0
      >>= _) = Except.ok s := e1
    rw [i1, ok_bind] at e1
    obtain ⟨⟨h1, b1⟩, _, e1⟩ := bind_eq_ok.mp e1
    obtain ⟨⟨h2, b2⟩, _, e1⟩ := bind_eq_ok.mp e1
    have := Except.ok.inj e1
    rw [← this]
  have hk : SameRest _ (Kb.start cfg) := setup_rest (cfg.setup 0) (Kb.emit
    blankKb [.archInit])
  refine ⟨⟨f1, ?_⟩, ?_, ?_, ?_, ?_, ?_, ?_, ?_, ?_, ?_⟩
  · rw [hk.keys, hk.msgs]
    refine ⟨hw.buf, hw.kc, hw.mb, ?_, hw.idx, hw.maps, hw.hooks, hw.stableLen, hw.cntLen, hw.cntRow,
          hw.cntVal, hw.rep, hw.last, hw.blocked, hw.codes⟩
    rw [hdev]
    exact i2.dev
  · rw [hk.map, hs]; rfl
  · intro r c hr hc
    rw [hk.deb, hdeb r c (Nat.lt_of_lt_of_le hr hcf.rows16) (Nat.lt_of_lt_of_le hc hcf.cols8)]
    rfl
  · rw [hk.held, hk.locked, hs]; rfl
  · rw [hs]; exact i2.caps
  · rw [hk.ctrl, hs]; rfl
  · rw [hk.last, hs]; rfl
  · rw [hk.rpt, hs]; exact ⟨rfl, rfl, rfl⟩
  · rw [hs]; exact i2.pause
  · rw [hdev]; exact i2.trace

end Asdf
