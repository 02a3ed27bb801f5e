import Verif.Spec.Keymap
import Verif.Lemmas.Modifiers

/-! # Lemmas about keymap setup and switching -/

namespace Asdf

open Spec

theorem hookValid_iff {id : Nat} : hookValid id = true ↔ 1 ≤ id ∧ id ≤ 15 := by
  unfold hookValid
  rw [Bool.and_eq_true, decide_eq_true_eq, decide_eq_true_eq]
  show 0 < id ∧ id < 16 ↔ _
  omega

theorem mapsStep_length (m : List MapEntry) (c : SetupCmd) :
    (mapsStep m c).length = m.length := by
  cases c <;> simp only [mapsStep]
  split <;> simp

theorem hooksStep_length (m : List HookFn) (c : SetupCmd) :
    (hooksStep m c).length = m.length := by
  cases c <;> simp only [hooksStep]
  split <;> simp

theorem foldl_length {α β : Type} (f : List α → β → List α) (hf : ∀ l c, (f l c).length = l.length)
    (cs : List β) (l : List α) : (cs.foldl f l).length = l.length := by
  induction cs generalizing l with
  | nil => rfl
  | cons c cs ih => rw [List.foldl_cons, ih, hf]

theorem mapsOf_length (cmds : List SetupCmd) : (mapsOf cmds).length = 4 := by
  unfold mapsOf; rw [foldl_length _ mapsStep_length]; rfl

theorem hooksOf_length (cmds : List SetupCmd) : (hooksOf cmds).length = 16 := by
  unfold hooksOf; rw [foldl_length _ hooksStep_length]; rfl

theorem addMap_ok {s : State} (hl : s.maps.length = 4) (m : Option (List Code)) (i : Nat)
    (r c : UInt8) : addMap s m i r c =
      .ok { s with maps := if i < 4 ∧ r.toNat ≤ 16 ∧ c.toNat ≤ 8 then s.maps.set i ⟨m, r, c⟩
                           else s.maps } := by
  unfold addMap
  by_cases h : i < NUM_MODIFIERS ∧ r.toNat ≤ MAX_ROWS ∧ c.toNat ≤ MAX_COLS
  · have h' : i < 4 ∧ r.toNat ≤ 16 ∧ c.toNat ≤ 8 := h
    rw [if_pos h, if_pos h', wr_ok (by omega)]
    rfl
  · have h' : ¬ (i < 4 ∧ r.toNat ≤ 16 ∧ c.toNat ≤ 8) := h
    rw [if_neg h, if_neg h']

theorem hookAssign_ok {hs : List HookFn} (hl : hs.length = 16) (id : Nat) (f : HookFn) :
    hookAssign hs id f = .ok (if 1 ≤ id ∧ id ≤ 15 then hs.set id f else hs) := by
  unfold hookAssign
  by_cases h : hookValid id = true
  · have h' := hookValid_iff.mp h
    rw [if_pos h, if_pos h', wr_ok (by omega)]
  · have h' := mt hookValid_iff.mpr h
    rw [if_neg h, if_neg h']

/-- One setup statement. -/
theorem runCmd_ok {s : State} {a free} (hm : s.maps.length = 4) (hh : s.hooks.length = 16)
    (hd : DevRel s.dev a free) (c : SetupCmd) :
    ∃ d' free', runCmd s c = .ok { s with
        maps := mapsStep s.maps c
        hooks := hooksStep s.hooks c
        printDelay := delayOf s.printDelay [c]
        mods := { s.mods with caps := capsOf s.mods.caps [c] }
        dev := d' } ∧
      DevRel d' (outsStep (s.mods.caps, a) c).2 free' ∧
      (outsStep (s.mods.caps, a) c).1 = capsOf s.mods.caps [c] := by
  cases c with
  | printDelay ms => exact ⟨s.dev, free, rfl, hd, rfl⟩
  | addMap t i r cc =>
    refine ⟨s.dev, free, ?_, hd, rfl⟩
    show addMap s (some t) i r cc = _
    rw [addMap_ok hm]; rfl
  | hook id f =>
    refine ⟨s.dev, free, ?_, hd, rfl⟩
    simp only [runCmd, hookAssign_ok hh, ok_bind]; rfl
  | vassign v p fn i =>
    by_cases hc : a.CanAssign v p
    · obtain ⟨d', h1, _, h3⟩ := h_assign hd hc fn i
      refine ⟨d', free.erase p, ?_, ?_, rfl⟩
      · simp only [runCmd, h1, ok_bind]; rfl
      · simp only [outsStep, if_pos hc]; exact h3
    · refine ⟨s.dev, free, ?_, ?_, rfl⟩
      · simp only [runCmd, hd.assign_no hc, ok_bind]; rfl
      · simp only [outsStep, if_neg hc]; exact hd
  | capsActivate =>
    obtain ⟨d', e1, _, e3⟩ := setCapsState_ok hd (s.mods.caps ^^^ 1)
    exact ⟨d', free, e1, e3, rfl⟩
  | negStrobe => exact ⟨s.dev.emit .negStrobe, free, rfl, hd.emit _, rfl⟩
where
  h_assign {d : Dev} {a free} (hd : DevRel d a free) {v p : Nat} (hc : a.CanAssign v p)
      (fn : VFun) (i : UInt8) : ∃ d', virtAssign d v p fn i = .ok d' ∧ d'.trace = d.trace ∧
        DevRel d' (a.assign v p fn i) (free.erase p) := hd.assign hc

/-- A whole setup function. -/
theorem runCmds_ok (cmds : List SetupCmd) {s : State} {a free} (hm : s.maps.length = 4)
    (hh : s.hooks.length = 16) (hd : DevRel s.dev a free) :
    ∃ d' free', cmds.foldlM runCmd s = .ok { s with
        maps := cmds.foldl mapsStep s.maps
        hooks := cmds.foldl hooksStep s.hooks
        printDelay := delayOf s.printDelay cmds
        mods := { s.mods with caps := capsOf s.mods.caps cmds }
        dev := d' } ∧
      DevRel d' (cmds.foldl outsStep (s.mods.caps, a)).2 free' ∧
      (cmds.foldl outsStep (s.mods.caps, a)).1 = capsOf s.mods.caps cmds := by
  induction cmds generalizing s a free with
  | nil => exact ⟨s.dev, free, rfl, hd, rfl⟩
  | cons c cmds ih =>
    obtain ⟨d1, f1, h1, h2, h3⟩ := runCmd_ok hm hh hd c
    obtain ⟨d2, f2, g1, g2, g3⟩ := ih (s := { s with
        maps := mapsStep s.maps c
        hooks := hooksStep s.hooks c
        printDelay := delayOf s.printDelay [c]
        mods := { s.mods with caps := capsOf s.mods.caps [c] }
        dev := d1 }) (by rw [← hm]; exact mapsStep_length _ _)
        (by rw [← hh]; exact hooksStep_length _ _) h2
    have hp : outsStep (s.mods.caps, a) c = (capsOf s.mods.caps [c], (outsStep (s.mods.caps, a) c).2) :=
      Prod.ext h3 rfl
    refine ⟨d2, f2, ?_, ?_, ?_⟩
    · rw [List.foldlM_cons, h1, ok_bind, g1]; rfl
    · rw [List.foldl_cons, hp]; exact g2
    · rw [List.foldl_cons, hp, g3]; rfl

theorem keymapsReset_ok {s : State} (hm : s.maps.length = 4) :
    keymapsReset s = .ok { s with maps := List.replicate 4 ⟨none, 0, 0⟩,
                                  dev := virtInit s.dev, hooks := hookInit [] } := by
  obtain ⟨m0, m1, m2, m3, hms⟩ : ∃ a b c d, s.maps = [a, b, c, d] := by
    match h : s.maps, hm with
    | [a, b, c, d], _ => exact ⟨a, b, c, d, rfl⟩
  have hr : List.range NUM_MODIFIERS = [0, 1, 2, 3] := rfl
  unfold keymapsReset
  rw [hr]
  simp only [List.foldlM_cons, List.foldlM_nil]
  rw [addMap_ok hm, ok_bind, addMap_ok (by simp [hms]), ok_bind, addMap_ok (by simp [hms]), ok_bind,
    addMap_ok (by simp [hms])]
  simp [hms]
  rfl

/-- Switching to a valid keymap. -/
theorem keymapsSwitch_ok {cfg : Config} {s : State} {i : UInt8} (hv : cfg.valid i = true)
    (hm : s.maps.length = 4) :
    ∃ d' free', keymapsSwitch cfg s i = .ok { s with
        curIdx := i
        maps := mapsOf (cfg.setup i)
        hooks := hooksOf (cfg.setup i)
        printDelay := delayOf s.printDelay (cfg.setup i)
        mods := { s.mods with caps := capsOf s.mods.caps (cfg.setup i) }
        dev := d' } ∧
      DevRel d' (outsOf s.mods.caps (cfg.setup i)).2 free' := by
  unfold keymapsSwitch
  rw [if_pos hv]
  have hr := keymapsReset_ok (s := ({ s with curIdx := i } : State).emit .archInit) hm
  simp only [hr, ok_bind]
  obtain ⟨d', f', h1, h2, _⟩ := runCmds_ok (cfg.setup i)
    (s := { (({ s with curIdx := i } : State).emit .archInit) with
      maps := List.replicate 4 ⟨none, 0, 0⟩,
      dev := virtInit (({ s with curIdx := i } : State).emit .archInit).dev, hooks := hookInit [] })
    (a := Outputs.initial) (by simp) (by rfl) (DevRel.init _)
  exact ⟨d', f', h1, h2⟩

theorem keymapsSwitch_invalid {cfg : Config} {s : State} {i : UInt8} (hv : ¬ cfg.valid i = true) :
    keymapsSwitch cfg s i = .ok s := by
  unfold keymapsSwitch; rw [if_neg hv]

/-- The lists and functions of the output configuration do not depend on the
caps-lock state. -/
theorem outsStep_lists {x y : UInt8 × Outputs} (h1 : x.2.lists = y.2.lists) (h2 : x.2.fn = y.2.fn)
    (c : SetupCmd) : (outsStep x c).2.lists = (outsStep y c).2.lists ∧
      (outsStep x c).2.fn = (outsStep y c).2.fn := by
  cases c with
  | vassign v p fn i =>
    have hc : x.2.CanAssign v p ↔ y.2.CanAssign v p := by
      unfold Outputs.CanAssign Outputs.Unused; rw [h1]
    by_cases hx : x.2.CanAssign v p
    · simp only [outsStep, if_pos hx, if_pos (hc.mp hx), Outputs.assign, h1, h2]
      exact ⟨trivial, trivial⟩
    · simp only [outsStep, if_neg hx, if_neg (fun h => hx (hc.mpr h)), h1, h2]
      exact ⟨trivial, trivial⟩
  | capsActivate => simp only [outsStep, act_lists, act_fn, h1, h2]; exact ⟨trivial, trivial⟩
  | printDelay _ => exact ⟨h1, h2⟩
  | addMap _ _ _ _ => exact ⟨h1, h2⟩
  | hook _ _ => exact ⟨h1, h2⟩
  | negStrobe => exact ⟨h1, h2⟩

theorem outsOf_lists (c1 c2 : UInt8) (cmds : List SetupCmd) :
    (outsOf c1 cmds).2.lists = (outsOf c2 cmds).2.lists ∧
      (outsOf c1 cmds).2.fn = (outsOf c2 cmds).2.fn := by
  unfold outsOf
  suffices ∀ (x y : UInt8 × Outputs), x.2.lists = y.2.lists → x.2.fn = y.2.fn →
      (cmds.foldl outsStep x).2.lists = (cmds.foldl outsStep y).2.lists ∧
      (cmds.foldl outsStep x).2.fn = (cmds.foldl outsStep y).2.fn from this _ _ rfl rfl
  induction cmds with
  | nil => intro x y h1 h2; exact ⟨h1, h2⟩
  | cons c cmds ih =>
    intro x y h1 h2
    obtain ⟨g1, g2⟩ := outsStep_lists h1 h2 c
    exact ih _ _ g1 g2

end Asdf
