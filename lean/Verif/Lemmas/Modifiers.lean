import Verif.Spec.Modifiers
import Verif.Spec.Device
import Verif.Lemmas.Device

/-! # Lemmas about modifiers -/

namespace Asdf

open Spec

theorem snoc_induction {α : Type} {P : List α → Prop} (h0 : P [])
    (h1 : ∀ l a, P l → P (l ++ [a])) (l : List α) : P l := by
  have : ∀ l : List α, P l.reverse := by
    intro l
    induction l with
    | nil => exact h0
    | cons a l ih => rw [List.reverse_cons]; exact h1 _ _ ih
  have h := this l.reverse
  rwa [List.reverse_reverse] at h

theorem since_snoc (p : ModEvent → Bool) (h : List ModEvent) (e : ModEvent) :
    since p (h ++ [e]) = if p e then [] else since p h ++ [e] := by
  unfold since
  rw [List.reverse_append, List.reverse_singleton, List.singleton_append, List.takeWhile_cons]
  cases p e <;> simp

theorem ctrlActive_snoc (h : List ModEvent) (e : ModEvent) :
    ctrlActive (h ++ [e]) = if e = .ctrlDown then true else if e = .ctrlUp then false
      else ctrlActive h := by
  unfold ctrlActive
  rw [List.filter_append]
  cases e <;> simp [isCtrl]

theorem shiftHeld_snoc (h : List ModEvent) (e : ModEvent) :
    shiftHeld (h ++ [e]) = if e = .shiftDown then true else if e = .shiftUp then false
      else shiftHeld h := by
  unfold shiftHeld
  rw [List.filter_append]
  cases e <;> simp [isShift]

theorem odd_succ (n : Nat) : ((n + 1) % 2 == 1) = !(n % 2 == 1) := by
  rcases Nat.mod_two_eq_zero_or_one n with h | h
  · have : (n + 1) % 2 = 1 := by omega
    simp [h, this]
  · have : (n + 1) % 2 = 0 := by omega
    simp [h, this]

theorem capsOn_snoc (h : List ModEvent) (e : ModEvent) :
    capsOn (h ++ [e]) = if e = .capsDown then !capsOn h else capsOn h := by
  unfold capsOn
  rw [List.count_append]
  by_cases he : e = .capsDown
  · subst he
    rw [if_pos rfl]
    exact odd_succ _
  · rw [if_neg he]
    have : List.count ModEvent.capsDown [e] = 0 := by
      rw [List.count_eq_zero]; simpa using fun hc => he hc.symm
    rw [this]; rfl

theorem shiftLocked_snoc (h : List ModEvent) (e : ModEvent) :
    shiftLocked (h ++ [e]) = match e with
      | .shiftDown | .shiftUp => false
      | .lockOn => true
      | .lockToggle => !shiftLocked h
      | _ => shiftLocked h := by
  unfold shiftLocked
  rw [since_snoc isShift]
  cases e
  case shiftDown => rfl
  case shiftUp => rfl
  case lockOn =>
    simp [isShift, since_snoc]
  case lockToggle =>
    have h1 : (if isShift ModEvent.lockToggle = true then [] else since isShift h ++ [.lockToggle]) =
        since isShift h ++ [.lockToggle] := rfl
    rw [h1]
    have h2 := since_snoc (· == .lockOn) (since isShift h) .lockToggle
    rw [if_neg (by decide)] at h2
    simp [h2, List.count_append, odd_succ]
  all_goals
    simp [isShift, since_snoc, List.count_append]

/-- The numeric value of a lock state. -/
def b2u (b : Bool) : UInt8 := if b then 1 else 0

/-- `asdf_modifier_set_shift_state`. -/
theorem setShiftState_ok {s : State} {a free} (h : DevRel s.dev a free) (new : UInt8) :
    ∃ d', setShiftState s new = .ok { s with mods := { s.mods with shift := new }, dev := d' } ∧
      d'.trace = s.dev.trace ++
        (a.lists VSHIFT_LED).map (Event.out · (b2u (decide (new &&& SHIFT_LOCKED_ST ≠ 0)))) ∧
      DevRel d' (a.act VSHIFT_LED
        (if new &&& SHIFT_LOCKED_ST ≠ 0 then .setHi else .setLo)).1 free := by
  obtain ⟨d', h1, h2, h3⟩ := h.act (v := VSHIFT_LED) (by decide)
    (if new &&& SHIFT_LOCKED_ST ≠ 0 then .setHi else .setLo)
  refine ⟨d', ?_, ?_, h3⟩
  · unfold setShiftState
    simp only [h1, ok_bind]
  · rw [h2]
    by_cases hc : new &&& SHIFT_LOCKED_ST ≠ 0
    · simp [hc, Outputs.act, Outputs.drive, b2u]
    · simp [hc, Outputs.act, Outputs.drive, b2u]

/-- `asdf_modifier_set_caps_state`. -/
theorem setCapsState_ok {s : State} {a free} (h : DevRel s.dev a free) (new : UInt8) :
    ∃ d', setCapsState s new = .ok { s with mods := { s.mods with caps := new }, dev := d' } ∧
      d'.trace = s.dev.trace ++
        (a.lists VCAPS_LED).map (Event.out · (b2u (decide (new ≠ 0)))) ∧
      DevRel d' (a.act VCAPS_LED (if new ≠ 0 then .setHi else .setLo)).1 free := by
  obtain ⟨d', h1, h2, h3⟩ := h.act (v := VCAPS_LED) (by decide)
    (if new ≠ 0 then .setHi else .setLo)
  refine ⟨d', ?_, ?_, h3⟩
  · unfold setCapsState
    simp only [h1, ok_bind]
  · rw [h2]
    by_cases hc : new ≠ 0
    · simp [hc, Outputs.act, Outputs.drive, b2u]
    · simp [hc, Outputs.act, Outputs.drive, b2u]

theorem act_lists (a : Outputs) (v : Nat) (fn : VFun) : (a.act v fn).1.lists = a.lists := by
  cases fn <;> rfl

theorem act_fn (a : Outputs) (v : Nat) (fn : VFun) : (a.act v fn).1.fn = a.fn := by
  cases fn <;> rfl

/-- The shift byte for given held and locked states. -/
def shiftByte (held locked : Bool) : UInt8 := b2u held ||| (if locked then 2 else 0)

/-- The modifier variables after history `h`. -/
def modsAfter (h : List ModEvent) : Mods :=
  ⟨shiftByte (shiftHeld h) (shiftLocked h), b2u (capsOn h), b2u (ctrlActive h)⟩

/-- Which LED list an event drives, and with what. -/
def ledEvents (capsL shiftL : List Nat) (h : List ModEvent) (e : ModEvent) : List Event :=
  match e with
  | .capsDown => capsL.map (Event.out · (b2u (capsOn (h ++ [e]))))
  | .ctrlDown | .ctrlUp => []
  | _ => shiftL.map (Event.out · (b2u (shiftLocked (h ++ [e]))))

theorem callMod_ok (cfg : Config) {s : State} {a free} (hd : DevRel s.dev a free)
    (h : List ModEvent) (hm : s.mods = modsAfter h) (e : ModEvent) :
    ∃ d' a', callMod cfg s e = .ok { s with mods := modsAfter (h ++ [e]), dev := d' } ∧
      d'.trace = s.dev.trace ++ ledEvents (a.lists VCAPS_LED) (a.lists VSHIFT_LED) h e ∧
      DevRel d' a' free ∧ a'.lists = a.lists := by
  have hmods : ∀ sh c ct, s.mods = ⟨sh, c, ct⟩ → s.mods.shift = sh ∧ s.mods.caps = c ∧
      s.mods.ctrl = ct := by
    intro sh c ct hh; rw [hh]; exact ⟨rfl, rfl, rfl⟩
  obtain ⟨hsh, hca, hct⟩ := hmods _ _ _ hm
  have hS : ∀ new, ∀ held locked, new = shiftByte held locked →
      shiftHeld (h ++ [e]) = held → shiftLocked (h ++ [e]) = locked →
      capsOn (h ++ [e]) = capsOn h → ctrlActive (h ++ [e]) = ctrlActive h →
      ledEvents (a.lists VCAPS_LED) (a.lists VSHIFT_LED) h e =
        (a.lists VSHIFT_LED).map (Event.out · (b2u (shiftLocked (h ++ [e])))) →
      ∃ d' a', setShiftState s new = .ok { s with mods := modsAfter (h ++ [e]), dev := d' } ∧
      d'.trace = s.dev.trace ++ ledEvents (a.lists VCAPS_LED) (a.lists VSHIFT_LED) h e ∧
      DevRel d' a' free ∧ a'.lists = a.lists := by
    intro new held locked hn h1 h2 h3 h4 h5
    obtain ⟨d', e1, e2, e3⟩ := setShiftState_ok hd new
    refine ⟨d', _, ?_, ?_, e3, act_lists _ _ _⟩
    · rw [e1]
      unfold modsAfter
      rw [h1, h2, h3, h4, hn, ← hca, ← hct]
    · rw [e2, h5, h2, hn]
      cases held <;> cases locked <;> rfl
  cases e
  case shiftDown =>
    exact hS _ true false rfl (by simp [shiftHeld_snoc]) (by simp [shiftLocked_snoc])
      (by simp [capsOn_snoc]) (by simp [ctrlActive_snoc]) rfl
  case shiftUp =>
    exact hS _ false false rfl (by simp [shiftHeld_snoc]) (by simp [shiftLocked_snoc])
      (by simp [capsOn_snoc]) (by simp [ctrlActive_snoc]) rfl
  case lockOn =>
    refine hS (s.mods.shift ||| SHIFT_LOCKED_ST) (shiftHeld h) true ?_ (by simp [shiftHeld_snoc])
      (by simp [shiftLocked_snoc]) (by simp [capsOn_snoc]) (by simp [ctrlActive_snoc]) rfl
    rw [hsh]
    cases shiftHeld h <;> cases shiftLocked h <;> rfl
  case lockToggle =>
    refine hS (s.mods.shift ^^^ SHIFT_LOCKED_ST) (shiftHeld h) (!shiftLocked h) ?_
      (by simp [shiftHeld_snoc]) (by simp [shiftLocked_snoc]) (by simp [capsOn_snoc])
      (by simp [ctrlActive_snoc]) rfl
    rw [hsh]
    cases shiftHeld h <;> cases shiftLocked h <;> rfl
  case capsDown =>
    obtain ⟨d', e1, e2, e3⟩ := setCapsState_ok hd (s.mods.caps ^^^ 1)
    have hn : s.mods.caps ^^^ 1 = b2u (!capsOn h) := by
      rw [hca]; cases capsOn h <;> rfl
    refine ⟨d', _, ?_, ?_, e3, act_lists _ _ _⟩
    · show setCapsState s (s.mods.caps ^^^ 1) = _
      rw [e1]
      unfold modsAfter
      rw [shiftHeld_snoc, shiftLocked_snoc, capsOn_snoc, ctrlActive_snoc, hn]
      simp [hsh, hct]
    · rw [e2, hn]
      unfold ledEvents
      rw [capsOn_snoc]
      cases capsOn h <;> rfl
  case ctrlDown =>
    refine ⟨s.dev, a, ?_, by simp [ledEvents], hd, rfl⟩
    show Except.ok (ctrlActivate s) = _
    unfold ctrlActivate modsAfter
    rw [shiftHeld_snoc, shiftLocked_snoc, capsOn_snoc, ctrlActive_snoc]
    simp [hsh, hca, b2u]
  case ctrlUp =>
    refine ⟨s.dev, a, ?_, by simp [ledEvents], hd, rfl⟩
    show Except.ok (ctrlDeactivate s) = _
    unfold ctrlDeactivate modsAfter
    rw [shiftHeld_snoc, shiftLocked_snoc, capsOn_snoc, ctrlActive_snoc]
    simp [hsh, hca, b2u]

theorem runMods_ok (cfg : Config) {s : State} {a free} (hd : DevRel s.dev a free)
    (hm : s.mods = ⟨0, 0, 0⟩) (h : List ModEvent) :
    ∃ d' a', runMods cfg s h = .ok { s with mods := modsAfter h, dev := d' } ∧
      DevRel d' a' free ∧ a'.lists = a.lists := by
  induction h using snoc_induction with
  | h0 =>
    refine ⟨s.dev, a, ?_, hd, rfl⟩
    have : modsAfter [] = s.mods := by rw [hm]; rfl
    rw [this]; rfl
  | h1 h e ih =>
    obtain ⟨d1, a1, h1, h2, h3⟩ := ih
    obtain ⟨d2, a2, g1, _, g3, g4⟩ := callMod_ok cfg (s := { s with mods := modsAfter h, dev := d1 })
      h2 h rfl e
    refine ⟨d2, a2, ?_, g3, g4.trans h3⟩
    unfold runMods at h1 ⊢
    rw [List.foldlM_append, h1]
    simp only [ok_bind, List.foldlM_cons, List.foldlM_nil, g1, pure_eq_ok]

end Asdf
