import Verif.Spec.Locks
import Verif.Lemmas.Agree
import Verif.Lemmas.Typist
import Verif.Lemmas.Leds

/-! # The modifiers and the lamps of the shipped keyboard -/

namespace Asdf.Locks

open Spec

/-- What one more event does to the value shown. -/
def lampStep (q : Nat) (o : Option UInt8) : Event → Option UInt8
  | .out q' v => if q' = q then some v else o
  | _ => o

theorem shown_eq (t : List Event) (q : Nat) : shown t q = t.foldl (lampStep q) none := by
  unfold shown
  congr 1

theorem shown_append (a b : List Event) (q : Nat) :
    shown (a ++ b) q = b.foldl (lampStep q) (shown a q) := by
  rw [shown_eq, shown_eq, List.foldl_append]

theorem shown_silent {a b : List Event} {q : Nat} (h : ∀ e ∈ b, SilentFor q e) :
    shown (a ++ b) q = shown a q := by
  rw [shown_append]
  generalize shown a q = o
  induction b generalizing o with
  | nil => rfl
  | cons e b ih =>
    have he := (h e List.mem_cons_self).2
    have : lampStep q o e = o := by
      cases e with
      | out q' v =>
        show (if q' = q then some v else o) = o
        rw [if_neg]
        rintro rfl
        exact he v rfl
      | _ => rfl
    rw [List.foldl_cons, this]
    exact ih (fun e h' => h e (List.mem_cons_of_mem _ h')) o

/-- The outputs of the caps-lock lamp. -/
def capsList (x y : Bool) : List Nat := if x then [] else if y then [10] else [12]

/-- The abstract keyboard has the panel `p`. -/
structure Like (k : Kb) (p : Panel) : Prop where
  map : k.map = twoBits p.sw0 p.sw1
  held : k.held = p.shift
  locked : k.locked = false
  caps : k.caps = p.caps
  ctrl : k.ctrl = p.ctrl
  shiftLamp : k.outs.lists 11 = []
  capsLamp : k.outs.lists 10 = capsList p.sw0 p.sw1
  others : ∀ v, v = 1 ∨ v = 2 → 10 ∉ k.outs.lists v ∧ 12 ∉ k.outs.lists v
  led1 : shown k.trace 10 = p.led1.map b2u
  led3 : shown k.trace 12 = p.led3.map b2u

/-! ## Selecting a keymap -/

/-- Two keyboards with the same caps lock and outputs; the first has done `t` before. -/
def Twin (t : List Event) (k k' : Kb) : Prop :=
  k.caps = k'.caps ∧ k.outs = k'.outs ∧ k.trace = t ++ k'.trace

theorem Twin.setup1 {t : List Event} {k k' : Kb} (h : Twin t k k') (c : SetupCmd) :
    Twin t (k.setup1 c) (k'.setup1 c) := by
  obtain ⟨h1, h2, h3⟩ := h
  cases c with
  | vassign v p fn i =>
    refine ⟨h1, ?_, h3⟩
    show (if k.canAssign v p then k.outs.assign v p fn i else k.outs) =
      (if k'.canAssign v p then k'.outs.assign v p fn i else k'.outs)
    unfold Kb.canAssign
    rw [h2]
  | capsActivate =>
    refine ⟨congrArg not h1, ?_, ?_⟩
    · show (k.outs.act _ (if (!k.caps) then _ else _)).1 = (k'.outs.act _ (if (!k'.caps) then _ else _)).1
      rw [h1, h2]
    · show k.trace ++ (k.outs.act _ (if (!k.caps) then _ else _)).2 =
        t ++ (k'.trace ++ (k'.outs.act _ (if (!k'.caps) then _ else _)).2)
      rw [h1, h2, h3, List.append_assoc]
  | negStrobe =>
    refine ⟨h1, h2, ?_⟩
    show k.trace ++ _ = t ++ (k'.trace ++ _)
    rw [h3, List.append_assoc]
  | printDelay ms => exact ⟨h1, h2, h3⟩
  | addMap a b c d => exact ⟨h1, h2, h3⟩
  | hook a b => exact ⟨h1, h2, h3⟩

theorem Twin.setup {t : List Event} (cmds : List SetupCmd) {k k' : Kb} (h : Twin t k k') :
    Twin t (cmds.foldl Kb.setup1 k) (cmds.foldl Kb.setup1 k') := by
  induction cmds generalizing k k' with
  | nil => exact h
  | cons c cmds ih => exact ih (h.setup1 c)

/-- A new keyboard with caps lock as given. -/
def blank (caps : Bool) : Kb :=
  { map := 0, deb := fun _ _ => Deb.init, held := false, locked := false, caps := caps, ctrl := false,
    last := 0xA0, rpt := ⟨525, 525, 525⟩, keys := [], msgs := [], outs := Outputs.initial, pause := 0,
    trace := [] }

theorem install_twin (k : Kb) (i : UInt8) :
    Twin k.trace (k.install fourMaps i) ((blank k.caps).install fourMaps i) :=
  Twin.setup _ ⟨rfl, rfl, rfl⟩

/-- What the shipped keymaps do when they are selected. -/
theorem blank_install : ∀ x y c : Bool, ∀ k, k = (blank c).install fourMaps (twoBits x y) →
    k.caps = (c ^^ (y && !x)) ∧ k.outs.lists 11 = [] ∧ k.outs.lists 10 = capsList x y ∧
    (10 ∉ k.outs.lists 1 ∧ 12 ∉ k.outs.lists 1) ∧ (10 ∉ k.outs.lists 2 ∧ 12 ∉ k.outs.lists 2) ∧
    k.trace = if y && !x then [.archInit, .out 10 (b2u (!c))] else [.archInit] := by
  rintro x y c k rfl
  revert x y c
  decide +kernel

theorem install_like {k : Kb} {p : Panel} (x y : Bool) (h2 : k.held = p.shift) (h3 : k.locked = false)
    (h4 : k.caps = p.caps) (h5 : k.ctrl = p.ctrl) (h6 : shown k.trace 10 = p.led1.map b2u)
    (h7 : shown k.trace 12 = p.led3.map b2u) :
    Like (k.install fourMaps (twoBits x y)) (Panel.select { p with sw0 := x, sw1 := y }) := by
  obtain ⟨t1, t2, t3⟩ := install_twin k (twoBits x y)
  obtain ⟨b1, b2, b3, b4, b5, b6⟩ := blank_install x y k.caps _ rfl
  rw [b1] at t1
  rw [b6] at t3
  rw [← t2] at b2 b3 b4 b5
  have hr := setup_rest (fourMaps.setup (twoBits x y))
    (Kb.emit { k with map := twoBits x y, outs := Outputs.initial } [.archInit])
  have hs : (Panel.select { p with sw0 := x, sw1 := y }) = { p with
      sw0 := x, sw1 := y, caps := p.caps ^^ (y && !x),
      led1 := if y && !x then some (!p.caps) else p.led1 } := by
    cases x <;> cases y <;> simp [Panel.select, Panel.flipCaps]
  rw [hs]
  refine ⟨install_map _ _ _, hr.held.trans h2, hr.locked.trans h3, by rw [t1, h4], hr.ctrl.trans h5, b2, b3, ?_, ?_, ?_⟩
  · rintro v (rfl | rfl)
    · exact b4
    · exact b5
  · rw [t3, shown_append, h6, h4]
    cases x <;> cases y <;> rfl
  · rw [t3, shown_append, h7]
    cases x <;> cases y <;> rfl

theorem start_like : Like (Kb.start fourMaps) Panel.start :=
  install_like (p := Panel.start) false false rfl rfl rfl rfl rfl rfl

/-- The CAPS key. -/
theorem Like.flipCaps {k : Kb} {p : Panel} (h : Like k p) : Like k.flipCaps p.flipCaps := by
  have e : k.flipCaps.trace = k.trace ++ (k.outs.lists 10).map (Event.out · (b2u (!p.caps))) := by
    rw [← h.caps]
    cases hc : k.caps <;> simp only [Kb.flipCaps, hc] <;> rfl
  have hl : k.flipCaps.outs.lists = k.outs.lists := act_lists _ _ _
  have ht : ∀ q, shown k.flipCaps.trace q = ((capsList p.sw0 p.sw1).map (Event.out · (b2u (!p.caps)))).foldl
      (lampStep q) (shown k.trace q) := by
    intro q; rw [e, shown_append, h.capsLamp]
  refine ⟨h.map, h.held, h.locked, congrArg not h.caps, h.ctrl, by rw [hl]; exact h.shiftLamp,
    by rw [hl]; exact h.capsLamp, by rw [hl]; exact h.others, ?_, ?_⟩
  · rw [ht, h.led1]
    unfold Panel.flipCaps
    cases p.sw0 <;> cases p.sw1 <;> rfl
  · rw [ht, h.led3]
    unfold Panel.flipCaps
    cases p.sw0 <;> cases p.sw1 <;> rfl

/-! ## One key -/

/-- Nothing happens to the modifiers and the lamps. -/
theorem Like.same {k k' : Kb} {p : Panel} (h : Like k p) (h1 : k'.map = k.map) (h2 : k'.mods = k.mods)
    (h3 : k'.outs.lists = k.outs.lists)
    (h4 : ∀ q, q = 10 ∨ q = 12 → shown k'.trace q = shown k.trace q) : Like k' p := by
  injection h2 with m1 m2 m3 m4
  exact ⟨h1.trans h.map, m1.trans h.held, m2.trans h.locked, m3.trans h.caps, m4.trans h.ctrl,
    by rw [h3]; exact h.shiftLamp, by rw [h3]; exact h.capsLamp, by rw [h3]; exact h.others,
    (h4 10 (.inl rfl)).trans h.led1, (h4 12 (.inr rfl)).trans h.led3⟩

theorem Like.setShift {k : Kb} {p : Panel} (h : Like k p) (b : Bool) :
    Like (k.setShift b false) { p with shift := b } := by
  have e : (k.setShift b false).trace = k.trace ++ (k.outs.lists 11).map (Event.out · 0) := rfl
  rw [h.shiftLamp] at e
  have hl : (k.setShift b false).outs.lists = k.outs.lists := act_lists _ _ _
  exact ⟨h.map, rfl, rfl, h.caps, h.ctrl, by rw [hl]; exact h.shiftLamp, by rw [hl]; exact h.capsLamp,
    by rw [hl]; exact h.others, by rw [e, List.map_nil, List.append_nil]; exact h.led1,
    by rw [e, List.map_nil, List.append_nil]; exact h.led3⟩

theorem Like.setCtrl {k : Kb} {p : Panel} (h : Like k p) (b : Bool) :
    Like { k with ctrl := b } { p with ctrl := b } :=
  ⟨h.map, h.held, h.locked, h.caps, rfl, h.shiftLamp, h.capsLamp, h.others, h.led1, h.led3⟩

theorem Like.apply {k : Kb} {p : Panel} (h : Like k p) {v : Nat} (hv : v = 1 ∨ v = 2) (fn : VFun) :
    Like (k.apply v fn) p := by
  refine h.same rfl rfl (act_lists _ _ _) ?_
  rintro q (rfl | rfl)
  · exact shown_silent (act_events _ _ _ (h.others v hv).1)
  · exact shown_silent (act_events _ _ _ (h.others v hv).2)

theorem Like.emit {k : Kb} {p : Panel} (h : Like k p) {es : List Event}
    (he : ∀ q, ∀ e ∈ es, SilentFor q e) : Like (k.emit es) p :=
  h.same rfl rfl rfl (fun q _ => shown_silent (he q))

theorem Like.function {k : Kb} {p : Panel} (h : Like k p) (n : Nat) : Like (k.function fourMaps n) p := by
  unfold Kb.function
  split
  · exact h.same rfl rfl rfl (fun _ _ => rfl)
  · exact h

/-- Selecting a keymap that does not exist, or the one in use. -/
theorem Like.unselect {k : Kb} {p : Panel} (h : Like k p) {i : UInt8}
    (hi : ¬ (i ≠ k.map ∧ fourMaps.valid i = true)) : Like (k.select fourMaps i) p := by
  unfold Kb.select
  rw [if_neg hi]
  exact h

theorem Like.select {k : Kb} {p : Panel} (h : Like k p) (x y : Bool) (hxy : p.sw0 ≠ x ∨ p.sw1 ≠ y) :
    Like (k.select fourMaps (twoBits x y)) (Panel.select { p with sw0 := x, sw1 := y }) := by
  unfold Kb.select
  rw [if_pos]
  · exact install_like x y h.held h.locked h.caps h.ctrl h.led1 h.led3
  · rw [h.map]
    revert hxy
    generalize p.sw0 = a
    generalize p.sw1 = b
    revert a b x y
    decide

/-- The meanings that matter for the panel, by position. -/
def roleOf (sw1 : Bool) (r c : Nat) : Option Code :=
  if (r, c) = (0, 1) ∨ (r, c) = (0, 2) then some 0xA1
  else if (r, c) = (0, 6) then some 0xA5
  else if (r, c) = (if sw1 then (0, 0) else (5, 2)) then some 0xA4
  else if (r, c) = (8, 0) then some 0xA8
  else if (r, c) = (8, 1) then some 0xA9
  else none

/-- The meanings that do not matter. -/
def idleCodes : List Nat := [0xA6, 0xAA, 0xAB, 0xAC, 0xAD, 0xB1, 0xB2, 0xB7, 0xB8, 0xB9, 0xBA, 0xBB, 0xBC, 0xBD,
  0xBE, 0xBF, 0xC0, 0xC1]

/-- A code with the given role. -/
def Fits : Option Code → Code → Prop
  | some m, x => x = m
  | none, x => x.toNat ≤ 0xA0 ∨ x.toNat ∈ idleCodes

instance : ∀ o x, Decidable (Fits o x)
  | some m, x => inferInstanceAs (Decidable (x = m))
  | none, x => inferInstanceAs (Decidable (x.toNat ≤ 0xA0 ∨ x.toNat ∈ idleCodes))

theorem tables_roles : ∀ x y : Bool, ∀ j, j < 4 → ∀ r, r < 9 → ∀ c, c < 8 →
    Fits (roleOf y r c) (entryAt ((tablesOf fourMaps (twoBits x y))[j]?.getD []) 8 r c) := by
  decide +kernel

theorem tableFor_lt : ∀ a b c : Bool, tableFor a b c < 4 := by decide

theorem Like.code {k : Kb} {p : Panel} (h : Like k p) {r c : Nat} (hr : r < 9) (hc : c < 8) :
    Fits (roleOf p.sw1 r c) (k.code fourMaps openLayout r c) := by
  unfold Kb.code
  rw [h.map]
  exact tables_roles p.sw0 p.sw1 _ (tableFor_lt _ _ _) r hr c hc

theorem Like.pressOther {k : Kb} {p : Panel} (h : Like k p) {x : Code} (hx : x.toNat ≤ 0xA0 ∨ x.toNat ∈ idleCodes) :
    Like (k.press fourMaps x) p := by
  rcases hx with hx | hx
  · rw [press_code _ _ _ hx]
    exact h.same rfl rfl rfl (fun _ _ => rfl)
  · have hsel : ∀ b : UInt8, b = 4 ∨ b = 8 → Like (k.select fourMaps (k.map ||| b)) p := by
      intro b hb
      refine h.unselect ?_
      rw [h.map]
      rcases hb with rfl | rfl
      · exact (by decide : ∀ x y : Bool, ¬ (twoBits x y ||| 4 ≠ twoBits x y ∧ fourMaps.valid (twoBits x y ||| 4) = true)) _ _
      · exact (by decide : ∀ x y : Bool, ¬ (twoBits x y ||| 8 ≠ twoBits x y ∧ fourMaps.valid (twoBits x y ||| 8) = true)) _ _
    unfold Kb.press
    generalize x.toNat = n at hx ⊢
    simp only [idleCodes, List.mem_cons, List.not_mem_nil, or_false] at hx
    rcases hx with rfl | rfl | rfl | rfl | rfl | rfl | rfl | rfl | rfl | rfl | rfl | rfl | rfl | rfl | rfl |
      rfl | rfl | rfl
    · exact h.same rfl rfl rfl (fun _ _ => rfl)
    · exact hsel 4 (.inl rfl)
    · exact hsel 8 (.inr rfl)
    · exact h.same rfl rfl rfl (fun _ _ => rfl)
    · refine h.emit ?_
      intro q e he
      rw [List.mem_singleton.mp he]
      exact ⟨by decide, fun _ => by simp⟩
    · exact h.apply (.inl rfl) _
    · exact h.apply (.inr rfl) _
    · exact h.function 1
    · exact h.function 2
    · exact h.function 3
    · exact h.function 4
    · exact h.function 5
    · exact h.function 6
    · exact h.function 7
    · exact h.function 8
    · exact h.function 9
    · exact h.function 10
    · exact h

theorem Like.releaseOther {k : Kb} {p : Panel} (h : Like k p) {x : Code}
    (hx : x.toNat ≤ 0xA0 ∨ x.toNat ∈ idleCodes) : Like (k.release fourMaps x) p := by
  rcases hx with hx | hx
  · rw [release_code _ _ _ hx]
    exact h.same rfl rfl rfl (fun _ _ => rfl)
  · have hsel : ∀ b : UInt8, b = 4 ∨ b = 8 → Like (k.select fourMaps (k.map &&& ~~~b)) p := by
      intro b hb
      refine h.unselect ?_
      rw [h.map]
      rcases hb with rfl | rfl
      · exact (by decide : ∀ x y : Bool, ¬ (twoBits x y &&& ~~~4 ≠ twoBits x y ∧ fourMaps.valid (twoBits x y &&& ~~~4) = true)) _ _
      · exact (by decide : ∀ x y : Bool, ¬ (twoBits x y &&& ~~~8 ≠ twoBits x y ∧ fourMaps.valid (twoBits x y &&& ~~~8) = true)) _ _
    unfold Kb.release
    generalize x.toNat = n at hx ⊢
    simp only [idleCodes, List.mem_cons, List.not_mem_nil, or_false] at hx
    rcases hx with rfl | rfl | rfl | rfl | rfl | rfl | rfl | rfl | rfl | rfl | rfl | rfl | rfl | rfl | rfl |
      rfl | rfl | rfl
    · exact h.same rfl rfl rfl (fun _ _ => rfl)
    · exact hsel 4 (.inl rfl)
    · exact hsel 8 (.inr rfl)
    · exact h.same rfl rfl rfl (fun _ _ => rfl)
    · refine h.emit ?_
      intro q e he
      rw [List.mem_singleton.mp he]
      exact ⟨by decide, fun _ => by simp⟩
    all_goals exact h

/-- An accepted movement. -/
theorem Like.move {k : Kb} {p : Panel} (h : Like k p) {r c : Nat} (hr : r < 9) (hc : c < 8) (b : Bool)
    (h0 : (r, c) = (8, 0) → p.sw0 ≠ b) (h1 : (r, c) = (8, 1) → p.sw1 ≠ b) :
    Like (if b then k.press fourMaps (k.code fourMaps openLayout r c)
      else k.release fourMaps (k.code fourMaps openLayout r c)) (p.move ⟨(r, c), b⟩) := by
  have hcode := h.code hr hc
  unfold Panel.move
  unfold roleOf at hcode
  by_cases a1 : (r, c) = (0, 1) ∨ (r, c) = (0, 2)
  · rw [if_pos a1] at hcode ⊢
    rw [show k.code fourMaps openLayout r c = 0xA1 from hcode]
    cases b
    · exact h.setShift false
    · exact h.setShift true
  rw [if_neg a1] at hcode ⊢
  by_cases a2 : (r, c) = (0, 6)
  · rw [if_pos a2] at hcode ⊢
    rw [show k.code fourMaps openLayout r c = 0xA5 from hcode]
    cases b
    · exact h.setCtrl false
    · exact h.setCtrl true
  rw [if_neg a2] at hcode ⊢
  by_cases a3 : (r, c) = (if p.sw1 then (0, 0) else (5, 2))
  · rw [if_pos a3] at hcode ⊢
    rw [show k.code fourMaps openLayout r c = 0xA4 from hcode]
    cases b
    · exact h
    · exact h.flipCaps
  rw [if_neg a3] at hcode ⊢
  by_cases a4 : (r, c) = (8, 0)
  · rw [if_pos a4] at hcode ⊢
    rw [show k.code fourMaps openLayout r c = 0xA8 from hcode]
    have := h.select b p.sw1 (.inl (h0 a4))
    cases b
    · have e : k.map &&& ~~~1 = twoBits false p.sw1 := by
        rw [h.map]
        exact (by decide : ∀ x y : Bool, twoBits x y &&& ~~~1 = twoBits false y) _ _
      show Like (k.select fourMaps (k.map &&& ~~~1)) _
      rw [e]; exact this
    · have e : k.map ||| 1 = twoBits true p.sw1 := by
        rw [h.map]
        exact (by decide : ∀ x y : Bool, twoBits x y ||| 1 = twoBits true y) _ _
      show Like (k.select fourMaps (k.map ||| 1)) _
      rw [e]; exact this
  rw [if_neg a4] at hcode ⊢
  by_cases a5 : (r, c) = (8, 1)
  · rw [if_pos a5] at hcode ⊢
    rw [show k.code fourMaps openLayout r c = 0xA9 from hcode]
    have := h.select p.sw0 b (.inr (h1 a5))
    cases b
    · have e : k.map &&& ~~~2 = twoBits p.sw0 false := by
        rw [h.map]
        exact (by decide : ∀ x y : Bool, twoBits x y &&& ~~~2 = twoBits x false) _ _
      show Like (k.select fourMaps (k.map &&& ~~~2)) _
      rw [e]; exact this
    · have e : k.map ||| 2 = twoBits p.sw0 true := by
        rw [h.map]
        exact (by decide : ∀ x y : Bool, twoBits x y ||| 2 = twoBits x true) _ _
      show Like (k.select fourMaps (k.map ||| 2)) _
      rw [e]; exact this
  rw [if_neg a5] at hcode ⊢
  cases b
  · exact h.releaseOther hcode
  · exact h.pressOther hcode

theorem Like.stepDeb {k : Kb} {p : Panel} (h : Like k p) (s : Bool) (r c : Nat) : Like (stepDeb k s r c) p :=
  h.same rfl rfl rfl (fun _ _ => rfl)

theorem twoBits_inj : ∀ x y a b : Bool, twoBits x y = twoBits a b → x = a ∧ y = b := by decide

theorem Like.key {k : Kb} {p : Panel} (h : Like k p) (hf : Follows k) {r c : Nat} (hr : r < 9) (hc : c < 8)
    (s : Bool) :
    Like (k.key fourMaps openLayout s r c)
      (if (k.deb r c).on = ((k.deb r c).step s).on then p else p.move ⟨(r, c), ((k.deb r c).step s).on⟩) := by
  have hsw := twoBits_inj _ _ _ _ (h.map.symm.trans hf)
  have hd := h.stepDeb s r c
  by_cases hp : s ≠ (k.deb r c).on
  · by_cases hl : (k.deb r c).left ≤ 1
    · have hst : ((k.deb r c).step s).on = s := by
        unfold Deb.step; rw [if_neg hp, if_pos hl]
      have hkey : k.key fourMaps openLayout s r c = if s then
          (Asdf.stepDeb k s r c).press fourMaps ((Asdf.stepDeb k s r c).code fourMaps openLayout r c)
          else (Asdf.stepDeb k s r c).release fourMaps ((Asdf.stepDeb k s r c).code fourMaps openLayout r c) := by
        unfold Kb.key
        rw [if_pos hp, if_pos hl]
        rfl
      rw [hst, if_neg (fun e => hp e.symm), hkey]
      refine hd.move hr hc s ?_ ?_
      · intro e
        injection e with e1 e2
        subst e1 e2
        rw [hsw.1]
        exact fun e => hp e.symm
      · intro e
        injection e with e1 e2
        subst e1 e2
        rw [hsw.2]
        exact fun e => hp e.symm
    · have hst : ((k.deb r c).step s).on = (k.deb r c).on := by
        unfold Deb.step; rw [if_neg hp, if_neg hl]
      rw [hst, if_pos rfl]
      unfold Kb.key
      rw [if_pos hp, if_neg hl]
      exact hd
  · have hst : (k.deb r c).step s = k.deb r c := by
      unfold Deb.step; rw [if_pos (Classical.not_not.mp hp)]
    rw [hst, if_pos rfl]
    unfold Kb.key
    rw [if_neg hp]
    split
    · split
      · exact hd.same rfl rfl rfl (fun _ _ => rfl)
      · exact hd.same rfl rfl rfl (fun _ _ => rfl)
    · exact hd

theorem Like.output {k : Kb} {p : Panel} (h : Like k p) : Like k.output p := by
  unfold Kb.output
  split
  · rename_i m ms _
    refine Like.emit (k := { k with msgs := ms }) (h.same rfl rfl rfl (fun _ _ => rfl)) ?_
    intro q e he
    rcases List.mem_cons.mp he with rfl | he
    · exact ⟨by simp, fun _ => by simp⟩
    · rw [List.mem_singleton.mp he]
      exact ⟨by simp, fun _ => by simp⟩
  · split
    · rename_i c cs _
      refine Like.emit (k := { k with keys := cs }) (h.same rfl rfl rfl (fun _ _ => rfl)) ?_
      intro q e he
      split at he
      · rw [List.mem_singleton.mp he]
        exact ⟨by simp, fun _ => by simp⟩
      · cases he
    · exact h

theorem Like.keys {inp : Input} {before after : Down} (xs : List (Nat × Nat)) (hn : xs.Nodup)
    (hx : ∀ x ∈ xs, x.1 < 9 ∧ x.2 < 8) {k : Kb} {p : Panel} (h : Like k p) (hf : Follows k)
    (hb : ∀ x ∈ xs, (k.deb x.1 x.2).on = before x.1 x.2 ∧
      ((k.deb x.1 x.2).step (sample inp x.1 x.2)).on = after x.1 x.2) :
    Like (xs.foldl (fun k x => k.key fourMaps openLayout (sample inp x.1 x.2) x.1 x.2) k)
      ((movesIn before after xs).foldl Panel.move p) := by
  induction xs generalizing k p with
  | nil => exact h
  | cons x xs ih =>
    obtain ⟨n1, n2⟩ := List.nodup_cons.mp hn
    obtain ⟨x1, x2⟩ := hx x List.mem_cons_self
    have hk := h.key hf x1 x2 (sample inp x.1 x.2)
    obtain ⟨b1, b2⟩ := hb x List.mem_cons_self
    rw [b1, b2] at hk
    have hrest := ih n2 (fun y hy => hx y (List.mem_cons_of_mem _ hy)) hk (hf.key x1 x2 _) (by
      intro y hy
      rw [key_deb, if_neg]
      · exact hb y (List.mem_cons_of_mem _ hy)
      · rintro ⟨e1, e2⟩
        exact n1 (by rw [← Prod.ext e1 e2]; exact hy))
    rw [List.foldl_cons]
    by_cases e : before x.1 x.2 = after x.1 x.2
    · rw [if_pos e] at hrest
      have : movesIn before after (x :: xs) = movesIn before after xs := by
        unfold movesIn
        rw [List.filterMap_cons, if_pos e]
      rw [this]
      exact hrest
    · rw [if_neg e] at hrest
      have : movesIn before after (x :: xs) = ⟨x, after x.1 x.2⟩ :: movesIn before after xs := by
        unfold movesIn
        rw [List.filterMap_cons, if_neg e]
      rw [this]
      exact hrest

theorem movesFrom_snoc (L : Layout) (pre more : List Input) (inp : Input) :
    movesFrom L pre (more ++ [inp]) = movesFrom L pre more ++
      movesIn (downAfter (pre ++ more)) (downAfter (pre ++ more ++ [inp])) (keysOf L) := by
  induction more generalizing pre with
  | nil => simp [movesFrom]
  | cons x more ih =>
    show _ ++ movesFrom L (pre ++ [x]) (more ++ [inp]) = _ ++ movesFrom L (pre ++ [x]) more ++ _
    rw [ih (pre ++ [x])]
    simp

/-- From power-up on. -/
theorem after_like (inps : List Input) : Like (Kb.after fourMaps openLayout inps) (panelAfter inps) := by
  induction inps using snoc_induction with
  | h0 => exact start_like
  | h1 inps inp ih =>
    obtain ⟨_, _, _, hf⟩ := four_run inps
    have hp : panelAfter (inps ++ [inp]) = (movesIn (downAfter inps) (downAfter (inps ++ [inp]))
        (keysOf openLayout)).foldl Panel.move (panelAfter inps) := by
      unfold panelAfter movesOf
      rw [movesFrom_snoc, List.foldl_append, List.nil_append]
    rw [after_snoc, hp]
    refine Like.keys (keysOf openLayout) (keysOf_nodup _) ?_ ih.output hf.output ?_
    · rintro ⟨r, c⟩ hx
      exact (mem_keysOf openLayout).mp hx
    · rintro ⟨r, c⟩ hx
      obtain ⟨hr, hc⟩ := (mem_keysOf openLayout).mp hx
      rw [output_deb, kb_deb_after inps r c hr hc]
      refine ⟨rfl, ?_⟩
      show _ = debounced (samplesOf (inps ++ [inp]) r c)
      unfold debounced samplesOf
      rw [List.map_append, List.foldl_append]
      rfl

/-! ## The panel -/

theorem select_shift (p : Panel) : p.select.shift = p.shift ∧ p.select.ctrl = p.ctrl := by
  unfold Panel.select
  split <;> exact ⟨rfl, rfl⟩

theorem move_shift (p : Panel) (m : Move) :
    (p.move m).shift = if m.key = (0, 1) ∨ m.key = (0, 2) then m.down else p.shift := by
  unfold Panel.move
  generalize (if p.sw1 = true then ((0 : Nat), (0 : Nat)) else (5, 2)) = caps
  split
  · rfl
  split
  · rfl
  split
  · split <;> rfl
  split
  · exact (select_shift _).1
  split
  · exact (select_shift _).1
  · rfl

theorem shift_last (ms : List Move) : (ms.foldl Panel.move Panel.start).shift = true ↔
    (ms.filter fun m => m.key = (0, 1) ∨ m.key = (0, 2)).getLast?.map Move.down = some true := by
  induction ms using snoc_induction with
  | h0 => simp [Panel.start]
  | h1 ms m ih =>
    rw [List.foldl_append, List.foldl_cons, List.foldl_nil, move_shift, List.filter_append]
    by_cases hm : m.key = (0, 1) ∨ m.key = (0, 2)
    · simp [hm]
    · simp [hm, ih]

theorem move_ctrl (p : Panel) (m : Move) :
    (p.move m).ctrl = if m.key = (0, 6) then m.down else p.ctrl := by
  unfold Panel.move
  generalize (if p.sw1 = true then ((0 : Nat), (0 : Nat)) else (5, 2)) = caps
  split
  · rename_i h
    rw [if_neg]
    rcases h with h | h <;> rw [h] <;> decide
  split
  · rfl
  split
  · split <;> rfl
  split
  · exact (select_shift _).2
  split
  · exact (select_shift _).2
  · rfl

theorem movesIn_ctrl (before after : Down) (xs : List (Nat × Nat)) (p : Panel)
    (hp : p.ctrl = before 0 6) : ((movesIn before after xs).foldl Panel.move p).ctrl =
      if (0, 6) ∈ xs then after 0 6 else before 0 6 := by
  have gen : ∀ (xs : List (Nat × Nat)) (p : Panel), p.ctrl = before 0 6 ∨ p.ctrl = after 0 6 →
      ((movesIn before after xs).foldl Panel.move p).ctrl = if (0, 6) ∈ xs then after 0 6 else p.ctrl := by
    intro xs
    induction xs with
    | nil => intro p _; rfl
    | cons x xs ih =>
      intro p hp
      unfold movesIn
      rw [List.filterMap_cons]
      by_cases e : before x.1 x.2 = after x.1 x.2
      · rw [if_pos e]
        show ((movesIn before after xs).foldl Panel.move p).ctrl = _
        rw [ih p hp]
        by_cases hx : x = (0, 6)
        · subst hx
          have e : before 0 6 = after 0 6 := e
          rw [e, or_self] at hp
          rw [if_pos (List.mem_cons_self), hp, ite_self]
        · have : ((0, 6) ∈ x :: xs) = ((0, 6) ∈ xs) := by
            rw [List.mem_cons]; simp [Ne.symm hx]
          simp only [this]
      · rw [if_neg e]
        show ((movesIn before after xs).foldl Panel.move (p.move ⟨x, after x.1 x.2⟩)).ctrl = _
        by_cases hx : x = (0, 6)
        · subst hx
          have hm : (p.move ⟨(0, 6), after 0 6⟩).ctrl = after 0 6 := by rw [move_ctrl, if_pos rfl]
          rw [ih _ (.inr hm), if_pos List.mem_cons_self]
          split
          · rfl
          · exact hm
        · have hm : (p.move ⟨x, after x.1 x.2⟩).ctrl = p.ctrl := by rw [move_ctrl, if_neg hx]
          rw [ih _ (by rw [hm]; exact hp), hm]
          have : ((0, 6) ∈ x :: xs) = ((0, 6) ∈ xs) := by
            rw [List.mem_cons]; simp [Ne.symm hx]
          simp only [this]
  rw [gen xs p (.inl hp), hp]

theorem ctrl_down (inps : List Input) : (panelAfter inps).ctrl = downAfter inps 0 6 := by
  induction inps using snoc_induction with
  | h0 => rfl
  | h1 inps inp ih =>
    unfold panelAfter movesOf at ih ⊢
    rw [movesFrom_snoc, List.foldl_append, List.nil_append, movesIn_ctrl _ _ _ _ ih,
      if_pos ((mem_keysOf openLayout).mpr ⟨by decide, by decide⟩)]

theorem caps_count (ms : List Move) (h : ∀ m ∈ ms, m.key ≠ (8, 0) ∧ m.key ≠ (8, 1)) :
    let n := ms.countP fun m => m.key = (5, 2) ∧ m.down = true
    (ms.foldl Panel.move Panel.start).caps = decide (n % 2 = 1) ∧
      (ms.foldl Panel.move Panel.start).led3 = (if n = 0 then none else some (decide (n % 2 = 1))) ∧
      (ms.foldl Panel.move Panel.start).led1 = none := by
  suffices H : ∀ p, p = ms.foldl Panel.move Panel.start →
      let n := ms.countP fun m => m.key = (5, 2) ∧ m.down = true
      p.sw0 = false ∧ p.sw1 = false ∧ p.caps = decide (n % 2 = 1) ∧
      p.led3 = (if n = 0 then none else some (decide (n % 2 = 1))) ∧ p.led1 = none from (H _ rfl).2.2
  induction ms using snoc_induction with
  | h0 => rintro p rfl; exact ⟨rfl, rfl, rfl, rfl, rfl⟩
  | h1 ms m ih =>
    rintro p rfl
    obtain ⟨a1, a2, a3, a4, a5⟩ := ih (fun m hm => h m (List.mem_append_left _ hm)) _ rfl
    obtain ⟨n1, n2⟩ := h m (List.mem_append_right _ List.mem_cons_self)
    rw [List.foldl_append, List.foldl_cons, List.foldl_nil, List.countP_append, List.countP_cons, List.countP_nil]
    generalize ms.foldl Panel.move Panel.start = p at *
    generalize List.countP _ ms = n at *
    have hcp : (if p.sw1 = true then ((0 : Nat), (0 : Nat)) else (5, 2)) = (5, 2) := by rw [a2]; rfl
    by_cases hm : m.key = (5, 2) ∧ m.down = true
    · have e : p.move m = p.flipCaps := by
        unfold Panel.move
        rw [if_neg (by rw [hm.1]; decide), if_neg (by rw [hm.1]; decide), hcp, if_pos hm.1, if_pos hm.2]
      have hn : decide ((n + (0 + 1)) % 2 = 1) = !decide (n % 2 = 1) := by
        rcases Nat.mod_two_eq_zero_or_one n with e | e
        · have : (n + (0 + 1)) % 2 = 1 := by omega
          rw [decide_eq_true this, e]; rfl
        · have : ¬ (n + (0 + 1)) % 2 = 1 := by omega
          rw [decide_eq_false this, e]; rfl
      rw [e]
      simp only [decide_eq_true hm, if_true]
      rw [hn, if_neg (by omega), ← a3]
      refine ⟨a1, a2, rfl, ?_, ?_⟩
      · simp [Panel.flipCaps, a1, a2]
      · simp [Panel.flipCaps, a1, a2, a5]
    · have e : (p.move m).sw0 = p.sw0 ∧ (p.move m).sw1 = p.sw1 ∧ (p.move m).caps = p.caps ∧
          (p.move m).led3 = p.led3 ∧ (p.move m).led1 = p.led1 := by
        unfold Panel.move
        rw [hcp]
        split
        · exact ⟨rfl, rfl, rfl, rfl, rfl⟩
        split
        · exact ⟨rfl, rfl, rfl, rfl, rfl⟩
        split
        · rename_i hk
          rw [if_neg (fun hd => hm ⟨hk, hd⟩)]
          exact ⟨rfl, rfl, rfl, rfl, rfl⟩
        exact ⟨rfl, rfl, rfl, rfl, rfl⟩
      obtain ⟨e1, e2, e3, e4, e5⟩ := e
      simp only [decide_eq_false hm, Bool.false_eq_true, if_false, Nat.add_zero]
      rw [e1, e2, e3, e4, e5]
      exact ⟨a1, a2, a3, a4, a5⟩

end Asdf.Locks
