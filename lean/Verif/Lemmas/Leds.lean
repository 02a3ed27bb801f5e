import Verif.Lemmas.Frame
import Verif.Lemmas.Keymaps
import Verif.Spec.Tables

/-! # Indicators: what an output was last driven with -/

namespace Asdf

open Spec

/-! ## `lastOut` -/

/-- Not an output event of `p` and not a reset of the outputs. -/
def SilentFor (p : Nat) (e : Event) : Prop := e ≠ .archInit ∧ ∀ x, e ≠ .out p x

theorem lastOut_silent {t evs : List Event} {p : Nat} (h : ∀ e ∈ evs, SilentFor p e) :
    lastOut (t ++ evs) p = lastOut t p := by
  unfold lastOut
  rw [List.foldl_append]
  generalize List.foldl _ none t = o
  induction evs generalizing o with
  | nil => rfl
  | cons e evs ih =>
    obtain ⟨h1, h2⟩ := h e (by simp)
    rw [List.foldl_cons]
    have : outStep p o e = o := by
      cases e with
      | archInit => exact absurd rfl h1
      | out q v =>
        exact if_neg (fun hq => h2 v (by rw [hq]))
      | _ => rfl
    rw [this]
    exact ih (fun e he => h e (by simp [he])) o

theorem lastOut_init (t : List Event) (p : Nat) : lastOut (t ++ [.archInit]) p = none := by
  unfold lastOut
  rw [List.foldl_append]
  rfl

theorem lastOut_drive {t : List Event} {l : List Nat} {p : Nat} {x : UInt8} (h : p ∈ l) :
    lastOut (t ++ l.map (Event.out · x)) p = some x := by
  unfold lastOut
  rw [List.foldl_append]
  generalize List.foldl _ none t = o
  induction l generalizing o with
  | nil => cases h
  | cons q l ih =>
    rw [List.map_cons, List.foldl_cons]
    by_cases hl : p ∈ l
    · exact ih hl _
    · have hq : q = p := by
        simp only [List.mem_cons] at h
        rcases h with h | h
        · exact h.symm
        · exact absurd h hl
      have := lastOut_silent (t := [.out q x]) (evs := l.map (Event.out · x)) (p := p) (by
        intro e he
        obtain ⟨q', hq', rfl⟩ := List.mem_map.mp he
        refine ⟨(by intro hc; cases hc), ?_⟩
        intro y hy
        cases hy
        exact hl hq')
      unfold lastOut at this
      rw [List.foldl_append] at this
      subst hq
      simpa [outStep] using this

/-! ## The indicator invariant -/

/-- Every output of `v` was last driven with `x`, or (unless `drv`) not driven at
all, since the outputs were initialised; unassigned outputs were not driven. -/
def LedI (v : Nat) (x : Bool) (drv : Bool) (d : Dev) : Prop :=
  ∃ a free, DevRel d a free ∧
    (∀ p ∈ a.lists v, lastOut d.trace p = some (if x then 1 else 0) ∨
      (drv = false ∧ lastOut d.trace p = none)) ∧
    (∀ p, a.Unused p → lastOut d.trace p = none)

theorem LedI.emit {v x drv d} (h : LedI v x drv d) {e : Event} (h1 : ∀ p y, e ≠ .out p y)
    (h2 : e ≠ .archInit) : LedI v x drv (d.emit e) := by
  obtain ⟨a, free, h3, h4, h5⟩ := h
  have : ∀ p, lastOut (d.emit e).trace p = lastOut d.trace p := by
    intro p
    exact lastOut_silent (by
      intro e' he
      rw [List.mem_singleton] at he
      subst he
      exact ⟨h2, h1 p⟩)
  refine ⟨a, free, h3.emit e, ?_, ?_⟩
  · intro p hp; rw [this]; exact h4 p hp
  · intro p hp; rw [this]; exact h5 p hp

/-- The events of an action on `w` are about the outputs of `w`. -/
theorem act_events (a : Outputs) (w : Nat) (fn : VFun) {p : Nat} (hp : p ∉ a.lists w) :
    ∀ e ∈ (a.act w fn).2, SilentFor p e := by
  have hd : ∀ (a' : Outputs) (g : UInt8 → UInt8), a'.lists = a.lists →
      ∀ e ∈ (a'.drive w g).2, SilentFor p e := by
    intro a' g hl e he
    obtain ⟨q, hq, rfl⟩ := List.mem_map.mp he
    refine ⟨(by intro hc; cases hc), ?_⟩
    intro y hy
    cases hy
    rw [hl] at hq
    exact hp hq
  have hpulse : ∀ delay, (delay = Event.delayShort ∨ delay = Event.delayLong) →
      ∀ e ∈ (a.pulse w delay).2, SilentFor p e := by
    intro delay hdel e he
    simp only [Outputs.pulse, List.mem_append, List.mem_singleton] at he
    rcases he with (he | he) | he
    · exact hd a _ rfl e he
    · subst he
      rcases hdel with hc | hc <;> rw [hc] <;> exact ⟨by decide, by intro y hy; cases hy⟩
    · exact hd (a.drive w inv).1 _ rfl e he
  cases fn with
  | nofunc => intro e he; cases he
  | setHi => exact hd a _ rfl
  | setLo => exact hd a _ rfl
  | toggle => exact hd a _ rfl
  | pulseShort => exact hpulse _ (.inl rfl)
  | pulseLong => exact hpulse _ (.inr rfl)

theorem LedI.other {v x drv d} (h : LedI v x drv d) {w : Nat} (hw : w < NUM_VIRT) (hne : w ≠ v)
    {fn : VFun} {d' : Dev} (hd : virtAction d w fn = .ok d') : LedI v x drv d' := by
  obtain ⟨a, free, h3, h4, h5⟩ := h
  obtain ⟨d2, e1, e2, e3⟩ := h3.act hw fn
  rw [hd] at e1
  cases e1
  have hl := act_lists a w fn
  refine ⟨_, free, e3, ?_, ?_⟩
  · intro p hp
    rw [hl] at hp
    rw [e2, lastOut_silent (act_events a w fn (fun hc => hne (h3.disjoint w v p hc hp)))]
    exact h4 p hp
  · intro p hp
    have hp : a.Unused p := by unfold Outputs.Unused at hp ⊢; rw [hl] at hp; exact hp
    rw [e2, lastOut_silent (act_events a w fn (hp w))]
    exact h5 p hp

theorem LedI.own {v x drv d} (h : LedI v x drv d) (hv : v < NUM_VIRT) (y : Bool) {d' : Dev}
    (hd : virtAction d v (if y then .setHi else .setLo) = .ok d') : LedI v y true d' := by
  obtain ⟨a, free, h3, h4, h5⟩ := h
  obtain ⟨d2, e1, e2, e3⟩ := h3.act hv (if y then .setHi else .setLo)
  rw [hd] at e1
  cases e1
  have hl := act_lists a v (if y then .setHi else .setLo)
  have he : (a.act v (if y then .setHi else .setLo)).2 =
      (a.lists v).map (Event.out · (if y then 1 else 0)) := by
    cases y <;> rfl
  refine ⟨_, free, e3, ?_, ?_⟩
  · intro p hp
    rw [hl] at hp
    rw [e2, he]
    exact .inl (lastOut_drive hp)
  · intro p hp
    have hp : a.Unused p := by unfold Outputs.Unused at hp ⊢; rw [hl] at hp; exact hp
    rw [e2, lastOut_silent (act_events a v _ (hp v))]
    exact h5 p hp

theorem LedI.weaken {v x drv drv' d} (h : LedI v x drv d) (hd : drv' = true → drv = true) :
    LedI v x drv' d := by
  obtain ⟨a, free, h3, h4, h5⟩ := h
  refine ⟨a, free, h3, ?_, h5⟩
  intro p hp
  rcases h4 p hp with h | ⟨h, h'⟩
  · exact .inl h
  · refine .inr ⟨?_, h'⟩
    cases hq : drv' with
    | false => rfl
    | true => rw [hd hq] at h; cases h

theorem LedI.assign {v x drv d} (h : LedI v x drv d) {w p : Nat} {fn : VFun} {i : UInt8} {d' : Dev}
    (hd : virtAssign d w p fn i = .ok d') : LedI v x (drv && !(w == v)) d' := by
  obtain ⟨a, free, h3, h4, h5⟩ := h
  by_cases hc : a.CanAssign w p
  · obtain ⟨d2, e1, e2, e3⟩ := h3.assign (fn := fn) (i := i) hc
    rw [hd] at e1
    cases e1
    refine ⟨_, _, e3, ?_, ?_⟩
    · intro q hq
      rw [e2]
      by_cases hw : v = w
      · subst hw
        simp only [Outputs.assign, if_true, List.mem_cons] at hq
        rcases hq with rfl | hq
        · exact .inr ⟨by simp, h5 q hc.2.2⟩
        · rcases h4 q hq with h | ⟨h, h'⟩
          · exact .inl h
          · exact .inr ⟨by simp, h'⟩
      · simp only [Outputs.assign, if_neg hw] at hq
        rcases h4 q hq with h | ⟨h, h'⟩
        · exact .inl h
        · exact .inr ⟨by simp [h], h'⟩
    · intro q hq
      rw [e2]
      refine h5 q ?_
      intro u hu
      refine hq u ?_
      simp only [Outputs.assign]
      split
      · rename_i he; subst he; exact List.mem_cons_of_mem _ hu
      · exact hu
  · rw [h3.assign_no hc] at hd
    cases hd
    exact LedI.weaken ⟨a, free, h3, h4, h5⟩ (by intro hq; simp at hq; exact hq.1)

theorem LedI.init (v : Nat) (x : Bool) (d : Dev) : LedI v x true (virtInit (d.emit .archInit)) := by
  refine ⟨_, _, DevRel.init _, ?_, ?_⟩
  · intro p hp; cases hp
  · intro p _; exact lastOut_init d.trace p

/-! ## Setup functions -/

/-- One statement of `drivesCaps`. -/
def drivesStep (b : Bool) : SetupCmd → Bool
  | .vassign w _ _ _ => b && !(w == VCAPS_LED)
  | .capsActivate => true
  | _ => b

/-- Whether a setup function drives all outputs of the caps-lock indicator: a
caps-lock activation follows the last assignment. -/
def drivesCaps (cmds : List SetupCmd) : Bool := cmds.foldl drivesStep true

/-- An indicator: a virtual output that shows a function of the modifiers. -/
structure Indicator where
  v : Nat
  val : Mods → Bool
  /-- whether a setup function leaves it driven -/
  setup : List SetupCmd → Bool

/-- The caps-lock indicator. -/
def capsLed : Indicator := ⟨VCAPS_LED, fun m => m.caps != 0, drivesCaps⟩

/-- The shift-lock indicator (no setup function drives it). -/
def shiftLed : Indicator := ⟨VSHIFT_LED, fun m => m.shift &&& 2 != 0, fun _ => false⟩

/-- The indicator shows the current state, or was not driven since the keymap was
selected. -/
def LedOk (cfg : Config) (I : Indicator) (s : State) : Prop :=
  LedI I.v (I.val s.mods) (I.setup (cfg.setup s.curIdx)) s.dev

theorem setCaps_led {s s' : State} {n : UInt8} {drv : Bool} (h : setCapsState s n = .ok s')
    (hs : LedI VCAPS_LED (s.mods.caps != 0) drv s.dev) :
    LedI VCAPS_LED (s'.mods.caps != 0) true s'.dev := by
  unfold setCapsState at h
  obtain ⟨d, h1, h2⟩ := bind_eq_ok.mp h
  cases h2
  refine hs.own (by decide) (n != 0) ?_
  simpa using h1

theorem setCaps_shift {s s' : State} {n : UInt8} {drv : Bool} (h : setCapsState s n = .ok s')
    (hs : LedI VSHIFT_LED (s.mods.shift &&& 2 != 0) drv s.dev) :
    LedI VSHIFT_LED (s'.mods.shift &&& 2 != 0) drv s'.dev := by
  unfold setCapsState at h
  obtain ⟨d, h1, h2⟩ := bind_eq_ok.mp h
  cases h2
  exact hs.other (by decide) (by decide) h1

theorem setShift_led {s s' : State} {n : UInt8} {drv : Bool} (h : setShiftState s n = .ok s')
    (hs : LedI VSHIFT_LED (s.mods.shift &&& 2 != 0) drv s.dev) :
    LedI VSHIFT_LED (s'.mods.shift &&& 2 != 0) true s'.dev := by
  unfold setShiftState at h
  obtain ⟨d, h1, h2⟩ := bind_eq_ok.mp h
  cases h2
  refine hs.own (by decide) (n &&& 2 != 0) ?_
  have : (if (n &&& 2 != 0) = true then VFun.setHi else VFun.setLo) =
      (if n &&& SHIFT_LOCKED_ST ≠ 0 then VFun.setHi else VFun.setLo) := by
    by_cases hn : n &&& 2 = 0
    · rw [if_neg (by simp [hn]), if_neg (show ¬ (n &&& SHIFT_LOCKED_ST ≠ 0) from fun h => h hn)]
    · rw [if_pos (by simp [hn]), if_pos (show n &&& SHIFT_LOCKED_ST ≠ 0 from hn)]
  rw [this]
  exact h1

theorem setShift_caps {s s' : State} {n : UInt8} {drv : Bool} (h : setShiftState s n = .ok s')
    (hs : LedI VCAPS_LED (s.mods.caps != 0) drv s.dev) :
    LedI VCAPS_LED (s'.mods.caps != 0) drv s'.dev := by
  unfold setShiftState at h
  obtain ⟨d, h1, h2⟩ := bind_eq_ok.mp h
  cases h2
  exact hs.other (by decide) (by decide) h1

theorem addMap_parts {s s' : State} {m i r c} (h : addMap s m i r c = .ok s') :
    s'.dev = s.dev ∧ s'.mods = s.mods ∧ s'.curIdx = s.curIdx := by
  unfold addMap at h
  split at h
  · obtain ⟨x, _, h2⟩ := bind_eq_ok.mp h
    cases h2
    exact ⟨rfl, rfl, rfl⟩
  · cases h; exact ⟨rfl, rfl, rfl⟩

theorem keymapsReset_parts {s s' : State} (h : keymapsReset s = .ok s') :
    s'.dev = virtInit s.dev ∧ s'.mods = s.mods ∧ s'.curIdx = s.curIdx := by
  unfold keymapsReset at h
  obtain ⟨s1, h1, h2⟩ := bind_eq_ok.mp h
  cases h2
  have : s1.dev = s.dev ∧ s1.mods = s.mods ∧ s1.curIdx = s.curIdx := by
    refine Stable.foldlM (P := fun t => t.dev = s.dev ∧ t.mods = s.mods ∧ t.curIdx = s.curIdx)
      ?_ _ h1 ⟨rfl, rfl, rfl⟩
    intro t t' x ht hp
    obtain ⟨g1, g2, g3⟩ := addMap_parts ht
    exact ⟨g1.trans hp.1, g2.trans hp.2.1, g3.trans hp.2.2⟩
  exact ⟨congrArg virtInit this.1, this.2.1, this.2.2⟩

/-- One setup statement and the caps-lock indicator. -/
theorem runCmd_caps {s s' : State} {c : SetupCmd} {drv : Bool} (h : runCmd s c = .ok s')
    (hs : LedI VCAPS_LED (s.mods.caps != 0) drv s.dev) :
    LedI VCAPS_LED (s'.mods.caps != 0) (drivesStep drv c) s'.dev ∧ s'.curIdx = s.curIdx := by
  cases c with
  | printDelay ms => cases h; exact ⟨hs, rfl⟩
  | addMap m i r cc =>
    obtain ⟨g1, g2, g3⟩ := addMap_parts (show addMap s (some m) i r cc = .ok s' from h)
    rw [g1, g2]
    exact ⟨hs, g3⟩
  | hook id f =>
    obtain ⟨x, _, h2⟩ := bind_eq_ok.mp (show (hookAssign s.hooks id f >>= fun h =>
      (.ok { s with hooks := h } : Res State)) = .ok s' from h)
    cases h2
    exact ⟨hs, rfl⟩
  | vassign v p fn i =>
    obtain ⟨x, h1, h2⟩ := bind_eq_ok.mp (show (virtAssign s.dev v p fn i >>= fun d =>
      (.ok { s with dev := d } : Res State)) = .ok s' from h)
    cases h2
    exact ⟨hs.assign h1, rfl⟩
  | capsActivate =>
    refine ⟨setCaps_led h hs, ?_⟩
    unfold runCmd capslockActivate setCapsState at h
    obtain ⟨d, _, h2⟩ := bind_eq_ok.mp h
    cases h2
    rfl
  | negStrobe =>
    cases h
    exact ⟨hs.emit (by intro p y hc; cases hc) (by decide), rfl⟩

/-- One setup statement and the shift-lock indicator. -/
theorem runCmd_shift {s s' : State} {c : SetupCmd} (h : runCmd s c = .ok s')
    (hs : LedI VSHIFT_LED (s.mods.shift &&& 2 != 0) false s.dev) :
    LedI VSHIFT_LED (s'.mods.shift &&& 2 != 0) false s'.dev := by
  cases c with
  | printDelay ms => cases h; exact hs
  | addMap m i r cc =>
    obtain ⟨g1, g2, g3⟩ := addMap_parts (show addMap s (some m) i r cc = .ok s' from h)
    rw [g1, g2]
    exact hs
  | hook id f =>
    obtain ⟨x, _, h2⟩ := bind_eq_ok.mp (show (hookAssign s.hooks id f >>= fun h =>
      (.ok { s with hooks := h } : Res State)) = .ok s' from h)
    cases h2
    exact hs
  | vassign v p fn i =>
    obtain ⟨x, h1, h2⟩ := bind_eq_ok.mp (show (virtAssign s.dev v p fn i >>= fun d =>
      (.ok { s with dev := d } : Res State)) = .ok s' from h)
    cases h2
    exact (hs.assign h1).weaken (by intro hc; cases hc)
  | capsActivate => exact setCaps_shift h hs
  | negStrobe =>
    cases h
    exact hs.emit (by intro p y hc; cases hc) (by decide)

theorem runCmds_caps (cmds : List SetupCmd) {s s' : State} {drv : Bool}
    (h : cmds.foldlM runCmd s = .ok s') (hs : LedI VCAPS_LED (s.mods.caps != 0) drv s.dev) :
    LedI VCAPS_LED (s'.mods.caps != 0) (cmds.foldl drivesStep drv) s'.dev ∧ s'.curIdx = s.curIdx := by
  induction cmds generalizing s drv with
  | nil => cases h; exact ⟨hs, rfl⟩
  | cons c cmds ih =>
    rw [List.foldlM_cons] at h
    obtain ⟨s1, h1, h2⟩ := bind_eq_ok.mp h
    obtain ⟨g1, g2⟩ := runCmd_caps h1 hs
    obtain ⟨k1, k2⟩ := ih h2 g1
    exact ⟨k1, k2.trans g2⟩

/-! ## Both indicators after every step -/

theorem switch_caps {cfg : Config} {s s' : State} {i : UInt8} (hv : cfg.valid i = true)
    (h : keymapsSwitch cfg s i = .ok s') : LedOk cfg capsLed s' := by
  unfold keymapsSwitch at h
  rw [if_pos hv] at h
  obtain ⟨s1, h1, h2⟩ := bind_eq_ok.mp h
  obtain ⟨g1, g2, g3⟩ := keymapsReset_parts h1
  have hi : LedI VCAPS_LED (s1.mods.caps != 0) true s1.dev := by
    rw [g1]; exact LedI.init _ _ s.dev
  obtain ⟨k1, k2⟩ := runCmds_caps _ h2 hi
  have hidx : s'.curIdx = i := k2.trans g3
  unfold LedOk
  rw [hidx]
  exact k1

theorem switch_shift {cfg : Config} {s s' : State} {i : UInt8} (hv : cfg.valid i = true)
    (h : keymapsSwitch cfg s i = .ok s') : LedOk cfg shiftLed s' := by
  unfold keymapsSwitch at h
  rw [if_pos hv] at h
  obtain ⟨s1, h1, h2⟩ := bind_eq_ok.mp h
  obtain ⟨g1, g2, g3⟩ := keymapsReset_parts h1
  have hi : LedI VSHIFT_LED (s1.mods.shift &&& 2 != 0) false s1.dev := by
    rw [g1]; exact (LedI.init _ _ s.dev).weaken (fun _ => rfl)
  exact Stable.foldlM (P := fun t => LedI VSHIFT_LED (t.mods.shift &&& 2 != 0) false t.dev)
    (fun _ _ _ h hs => runCmd_shift h hs) _ h2 hi

theorem decode_virt {code : Code} {v : Nat} (h : decodeAction code = .virt v) : 1 ≤ v ∧ v ≤ 9 := by
  have key : ∀ n, n < 256 → (match decodeAction (UInt8.ofNat n) with
      | .virt v => decide (1 ≤ v ∧ v ≤ 9)
      | _ => true) = true := by decide +kernel
  have := key code.toNat code.toNat_lt
  rw [UInt8.ofNat_toNat, h] at this
  simpa using this

theorem activate_led {v x drv d} (h : LedI v x drv d) {w : Nat} (hw : w < NUM_VIRT) (hne : w ≠ v)
    {d' : Dev} (hd : virtActivate d w = .ok d') : LedI v x drv d' := by
  unfold virtActivate at hd
  obtain ⟨e, _, h2⟩ := bind_eq_ok.mp hd
  exact h.other hw hne h2

theorem setCaps_idx {s s' : State} {n : UInt8} (h : setCapsState s n = .ok s') :
    s'.curIdx = s.curIdx := by
  unfold setCapsState at h
  obtain ⟨d, _, h2⟩ := bind_eq_ok.mp h
  cases h2
  rfl

theorem setShift_idx {s s' : State} {n : UInt8} (h : setShiftState s n = .ok s') :
    s'.curIdx = s.curIdx := by
  unfold setShiftState at h
  obtain ⟨d, _, h2⟩ := bind_eq_ok.mp h
  cases h2
  rfl

theorem caps_stable (cfg : Config) : Stable cfg (LedOk cfg capsLed) where
  frame := by
    intro s s' h1 h2 h3 _ _ hs
    unfold LedOk at hs ⊢
    rw [h1, h2, h3]
    exact hs
  shift := by
    intro s s' n h hs
    have := setShift_caps h hs
    unfold LedOk
    rw [setShift_idx h]
    exact this
  caps := by
    intro s s' n h hs
    exact (setCaps_led h hs).weaken (fun _ => rfl)
  ctrl := by intro s x hs; exact hs
  virt := by
    intro s d code v hv h hs
    obtain ⟨h1, h2⟩ := decode_virt hv
    exact activate_led hs (show v < 12 by omega) (show v ≠ 10 by omega) h
  emit := by intro s e h1 h2 hs; exact LedI.emit hs h1 h2
  switch := by
    intro s s' i h hs
    by_cases hv : cfg.valid i = true
    · exact switch_caps hv h
    · rw [keymapsSwitch_invalid hv] at h
      cases h
      exact hs

theorem shift_stable (cfg : Config) : Stable cfg (LedOk cfg shiftLed) where
  frame := by
    intro s s' h1 h2 h3 _ _ hs
    unfold LedOk at hs ⊢
    rw [h1, h2, h3]
    exact hs
  shift := by
    intro s s' n h hs
    exact (setShift_led h hs).weaken (fun _ => rfl)
  caps := by intro s s' n h hs; exact setCaps_shift h hs
  ctrl := by intro s x hs; exact hs
  virt := by
    intro s d code v hv h hs
    obtain ⟨h1, h2⟩ := decode_virt hv
    exact activate_led hs (show v < 12 by omega) (show v ≠ 11 by omega) h
  emit := by intro s e h1 h2 hs; exact LedI.emit hs h1 h2
  switch := by
    intro s s' i h hs
    by_cases hv : cfg.valid i = true
    · exact switch_shift hv h
    · rw [keymapsSwitch_invalid hv] at h
      cases h
      exact hs

end Asdf
