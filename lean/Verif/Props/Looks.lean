import Verif.Props.CHw
import Verif.Lemmas.Looks

/-! # Property C100: when the text of the firmware scans the keys -/

namespace Asdf.Props

open Avr Spec Pcb

theorem compiled_plain {X : C.Board} {B : Board} {T : Whole.Target} (h : Compiled X B T) :
    ∃ _ : C.IsBoard X, C.PlainBoard X := by
  rcases h with ⟨rfl, _, _⟩ | ⟨cols, _, rfl, _, _⟩
  · exact ⟨inferInstance, C.plain_328⟩
  · exact ⟨inferInstance, C.plain_2560 cols⟩

/-- **C100, the bounds on the run.**  A run of the text that has a meaning is the same with larger
bounds on the turns of loops and the depth of calls. -/
theorem C100_bounds (X : C.Board) (B : Board) (T : Whole.Target) (hX : Compiled X B T) (W : C.Outside)
    (w w' n n' : Nat) (hw : w ≤ w') (hn : n ≤ n') (r0 : Regs) (sr : UInt8) (polls : Nat) (h : C.Hw)
    (e : textRun X W w n r0 sr polls = some h) : textRun X W w' n' r0 sr polls = some h := by
  obtain ⟨_, hP⟩ := compiled_plain hX
  unfold textRun at e ⊢
  rcases C.run_bounds (W := W) hP hw hn .main [] (C.KH C.mem0 [] (C.Hw.reset r0 sr polls)) with h1 | h1
  · rw [← h1]
    exact e
  · rw [h1] at e
    cases e

/-- **C100, every look.**  In a world where every use is safe, the text of the firmware looks at the
timer flag again and again; it does not get stuck and does nothing without a meaning in C. -/
theorem C100_looks (X : C.Board) (B : Board) (T : Whole.Target) (hX : Compiled X B T) (W : C.Outside)
    (hW : SafeWorld W) (r0 : Regs) (sr : UInt8) (p : Nat) : ∃ h, AtLook X W r0 sr p h := by
  obtain ⟨f, _, _, _, hr⟩ := text_heads hX hW r0 sr (w := 65536 + p) (n := 23) (by omega) (by omega)
  refine ⟨(f p).h.irq W, fun w n hw hp hn => ?_⟩
  obtain ⟨f', _, _, _, hr'⟩ := text_heads hX hW r0 sr (w := w) (n := n) hw hn
  have h1 := C100_bounds X B T hX W (65536 + p) (max w (65536 + p)) 23 n (by omega) hn r0 sr p _ (hr p (by omega))
  have h2 := C100_bounds X B T hX W w (max w (65536 + p)) n n (by omega) (by omega) r0 sr p _ (hr' p hp)
  rw [hr' p hp, ← h1, ← h2]

theorem heads_irq {X : C.Board} {B : Board} {T : Whole.Target} (hX : Compiled X B T) {W : C.Outside} (hW : SafeWorld W)
    {r0 : Regs} {a : C.Head} (g : a.Good T W r0) : a.h.regs.irq = true := by
  have hB := compiled_built hX
  obtain ⟨wh, e1, e2, _⟩ := C75_board_safe B T hB r0 a.mxs (hW _ _ (g.reads.sampled g.order))
  rw [g.life] at e1
  cases e1
  obtain ⟨t, _, ht, _⟩ := life_watched hB fourMaps_ok r0 (fun mx _ => openLayout_allowed _) e2
  exact C.story_irq hB g.on.story (ht ▸ List.mem_cons_self)

/-- **C100, from one look to the next.** -/
theorem C100_next (X : C.Board) (B : Board) (T : Whole.Target) (hX : Compiled X B T) (W : C.Outside)
    (hW : SafeWorld W) (r0 : Regs) (sr : UInt8) (p : Nat) (h h' : C.Hw) (e : AtLook X W r0 sr p h)
    (e' : AtLook X W r0 sr (p + 1) h') : NextLook W h h' := by
  obtain ⟨f, g, hn, _, hr⟩ := text_heads hX hW r0 sr (w := 65536 + p + 2) (n := 23) (by omega) (by omega)
  have h1 := hr p (by omega)
  have h2 := hr (p + 1) (by omega)
  rw [e _ _ (by omega) (by omega) (Nat.le_refl _)] at h1
  rw [e' _ _ (by omega) (by omega) (Nat.le_refl _)] at h2
  cases h1
  cases h2
  exact C.next_look (g p) (hn p) (heads_irq hX hW (g p)) (heads_irq hX hW (g (p + 1)))

/-- **C100, the first look.**  Before it there is no scan. -/
theorem C100_first (X : C.Board) (B : Board) (T : Whole.Target) (hX : Compiled X B T) (W : C.Outside)
    (hW : SafeWorld W) (r0 : Regs) (sr : UInt8) (h : C.Hw) (e : AtLook X W r0 sr 0 h) : h.found = 0 := by
  obtain ⟨f, g, _, h0, hr⟩ := text_heads hX hW r0 sr (w := 65536) (n := 23) (by omega) (by omega)
  have h1 := hr 0 (by omega)
  rw [e _ _ (by omega) (by omega) (Nat.le_refl _)] at h1
  cases h1
  rw [C.irq_found, (g 0).found, h0]
  rfl

/-- If the timer does not stop, there is a later look that finds the flag set. -/
theorem ticks {X : C.Board} {W : C.Outside} {r0 : Regs} {sr : UInt8} (hlook : ∀ p, ∃ h, AtLook X W r0 sr p h)
    (hnext : ∀ p h h', AtLook X W r0 sr p h → AtLook X W r0 sr (p + 1) h' → NextLook W h h')
    (hT : Ticking W.fires) {p : Nat} {h : C.Hw} (e : AtLook X W r0 sr p h) :
    ∃ q g, AtLook X W r0 sr q g ∧ g.found = h.found ∧ g.tick ≠ 0 := by
  obtain ⟨u, hu, f0, f1, f2⟩ := hT (h.time + 1)
  have key : ∀ (d p : Nat) (h : C.Hw), u - h.time ≤ d → h.time < u → AtLook X W r0 sr p h →
      ∃ q g, AtLook X W r0 sr q g ∧ g.found = h.found ∧ g.tick ≠ 0 := by
    intro d
    induction d with
    | zero => intro p h h1 h2; omega
    | succ d ih =>
      intro p h h1 h2 e
      by_cases ht : h.tick = 0
      · obtain ⟨h', e'⟩ := hlook (p + 1)
        have nx := hnext p h h' e e'
        have hf := nx.found
        rw [if_pos ht] at hf
        obtain ⟨-, ht', -, hk⟩ := nx.idle ht
        by_cases hk' : h'.tick = 0
        · have hno : W.fires (h.time + 2 + asked W (h.time + 1)) ≠ true := fun hc => hk.mpr hc hk'
          have hle : asked W (h.time + 1) ≤ 1 := by
            unfold asked
            split <;> omega
          generalize hs : h.time + 2 + asked W (h.time + 1) = s at ht' hno
          have h0 : asked W s = 0 := if_neg hno
          have hlt : s < u := by
            refine Classical.byContradiction fun hc => ?_
            have : s = u ∨ s = u + 1 ∨ s = u + 2 := by omega
            rcases this with h | h | h <;> (rw [h] at hno; contradiction)
          obtain ⟨q, g, g1, g2, g3⟩ := ih (p + 1) h' (by omega) (by omega) e'
          exact ⟨q, g, g1, by omega, g3⟩
        · exact ⟨p + 1, h', e', by omega, hk'⟩
      · exact ⟨p, h, e, rfl, ht⟩
  exact key _ p h (Nat.le_refl _) (by omega) e

theorem tick_comes {X : C.Board} {B : Board} {T : Whole.Target} (hX : Compiled X B T) {W : C.Outside}
    (hW : SafeWorld W) (hT : Ticking W.fires) {r0 : Regs} {sr : UInt8} {p : Nat} {h : C.Hw} (e : AtLook X W r0 sr p h) :
    ∃ q g, AtLook X W r0 sr q g ∧ g.found = h.found ∧ g.tick ≠ 0 :=
  ticks (C100_looks X B T hX W hW r0 sr) (C100_next X B T hX W hW r0 sr) hT e

/-- **C100, the keyboard goes on scanning.**  If the timer does not stop, there is a first, second,
third … scan, whatever the keys do. -/
theorem C100_ticking (X : C.Board) (B : Board) (T : Whole.Target) (hX : Compiled X B T) (W : C.Outside)
    (hW : SafeWorld W) (hT : Ticking W.fires) (r0 : Regs) (sr : UInt8) (k : Nat) :
    ∃ p h, AtLook X W r0 sr p h ∧ h.found = k := by
  induction k with
  | zero =>
    obtain ⟨h, e⟩ := C100_looks X B T hX W hW r0 sr 0
    exact ⟨0, h, e, C100_first X B T hX W hW r0 sr h e⟩
  | succ k ih =>
    obtain ⟨p, h, e, hf⟩ := ih
    obtain ⟨q, g, e', hf', ht⟩ := tick_comes hX hW hT e
    obtain ⟨h', e''⟩ := C100_looks X B T hX W hW r0 sr (q + 1)
    have nx := C100_next X B T hX W hW r0 sr q g h' e' e''
    refine ⟨q + 1, h', e'', ?_⟩
    rw [nx.found, if_neg ht, hf', hf]

/-- **C100, a timer that asks all the time.**  Every look makes a scan. -/
theorem C100_busy (X : C.Board) (B : Board) (T : Whole.Target) (hX : Compiled X B T) (W : C.Outside)
    (hW : SafeWorld W) (hT : ∀ t, W.fires t = true) (r0 : Regs) (sr : UInt8) (p : Nat) (h : C.Hw)
    (e : AtLook X W r0 sr p h) : h.found = p := by
  obtain ⟨f, g, hn, h0, hr⟩ := text_heads hX hW r0 sr (w := 65536 + p) (n := 23) (by omega) (by omega)
  have h1 := hr p (by omega)
  rw [e _ _ (by omega) (by omega) (Nat.le_refl _)] at h1
  cases h1
  rw [C.irq_found]
  clear e hr
  have key : ∀ p, (f p).h.found = p := by
    intro p
    induction p with
    | zero => rw [(g 0).found, h0]; rfl
    | succ p ih =>
      have nx := (C.next_look (g p) (hn p) (heads_irq hX hW (g p)) (heads_irq hX hW (g (p + 1)))).found
      rw [C.irq_found, C.irq_found, ih, C.irq_fires (heads_irq hX hW (g p)), hT] at nx
      exact nx
  exact key p

/-- The key A is held, and the timer asks for an interrupt at every third access. -/
def worldThird : C.Outside := ⟨fun _ => closing 1 6, fun _ _ => 0, fun t => t % 3 == 0⟩

theorem worldThird_safe : SafeWorld worldThird := C90_safe_settings worldThird false false
  (fun _ => show bitOf (closing 1 6 8) 1 = false by decide) (fun _ => show bitOf (closing 1 6 8) 2 = false by decide) (.inl rfl)

/-- **C100, interrupts that are lost.**  An interrupt between looking at the flag and clearing it is
lost.  In the extreme all of them are: there is a timer that asks again and again, an interrupt
comes at every look, and there is never a scan. -/
theorem C100_lost : ∃ (X : C.Board) (B : Board) (T : Whole.Target) (W : C.Outside) (r0 : Regs),
    Compiled X B T ∧ SafeWorld W ∧ (∀ t, ∃ u, t ≤ u ∧ W.fires u = true) ∧
    ∀ p h, AtLook X W r0 0 p h → h.found = 0 ∧ p ≤ h.ints := by
  have hX : Compiled (C.board2560 exampleColumns) m2560 (Whole.target2560 exampleColumns) :=
    .inr ⟨exampleColumns, C42_matrix_exists, rfl, rfl, rfl⟩
  refine ⟨_, _, _, worldThird, allZero, hX, worldThird_safe,
    fun t => ⟨3 * t, by omega, beq_iff_eq.mpr (Nat.mul_mod_right 3 t)⟩, fun p => ?_⟩
  have key : ∃ h, AtLook (C.board2560 exampleColumns) worldThird allZero 0 p h ∧ h.found = 0 ∧ p ≤ h.ints ∧ h.tick = 0 ∧
      h.time % 3 = 2 := by
    induction p with
    | zero =>
      obtain ⟨h, e⟩ := C100_looks _ _ _ hX _ worldThird_safe allZero 0 0
      have e0 := e 65536 23 (by omega) (by omega) (by omega)
      have run : (textRun (C.board2560 exampleColumns) worldThird 65536 23 allZero 0 0).map (fun h => (h.tick, h.time % 3)) =
          some (0, 2) := by decide +kernel
      rw [e0] at run
      injection run with run
      injection run with r1 r2
      exact ⟨h, e, C100_first _ _ _ hX _ worldThird_safe _ _ h e, Nat.zero_le _, r1, r2⟩
    | succ p ih =>
      obtain ⟨h, e, h1, h2, h3, h4⟩ := ih
      obtain ⟨h', e'⟩ := C100_looks _ _ _ hX _ worldThird_safe allZero 0 (p + 1)
      have nx := C100_next _ _ _ hX _ worldThird_safe _ _ p h h' e e'
      have hf := nx.found
      obtain ⟨-, k1, k2, k3⟩ := nx.idle h3
      have a1 : asked worldThird (h.time + 1) = 1 := if_pos (beq_iff_eq.mpr (by omega))
      have a2 : worldThird.fires (h.time + 2 + 1) = false := beq_false_of_ne (by omega)
      have a3 : asked worldThird (h.time + 2 + 1) = 0 := if_neg (by rw [a2]; decide)
      rw [a1, a3] at k1 k2
      rw [a1, a2] at k3
      rw [if_pos h3] at hf
      refine ⟨h', e', by omega, by omega, ?_, by omega⟩
      refine Classical.byContradiction fun hc => ?_
      have := k3.mp hc
      cases this
  intro h e
  obtain ⟨g, e', h1, h2, _⟩ := key
  have h3 := e (65536 + p) 23 (by omega) (by omega) (by omega)
  rw [e' (65536 + p) 23 (by omega) (by omega) (by omega)] at h3
  cases h3
  exact ⟨h1, h2⟩

/-! ## Non-vacuity -/

example : Compiled (C.board2560 exampleColumns) m2560 (Whole.target2560 exampleColumns) :=
  .inr ⟨exampleColumns, C42_matrix_exists, rfl, rfl, rfl⟩

/-- A timer that asks for three of every thousand accesses. -/
example : Ticking fun t => decide (t % 1000 < 3) := fun t => by
  refine ⟨1000 * t, by omega, ?_, ?_, ?_⟩ <;> refine decide_eq_true ?_ <;> omega

/-- With the timer asking all the time (`worldA`), the second look is after the first scan. -/
example : ∃ h h', textRun C.board328 worldA 65536 23 allZero 0 0 = some h ∧
    textRun C.board328 worldA 65536 23 allZero 0 1 = some h' ∧ h.tick ≠ 0 ∧ h'.found = 1 := by
  have : ((textRun C.board328 worldA 65536 23 allZero 0 0).map fun h => decide (h.tick ≠ 0)) = some true ∧
      ((textRun C.board328 worldA 65536 23 allZero 0 1).map fun h => h.found) = some 1 := by decide +kernel
  obtain ⟨h1, h2⟩ := this
  cases e1 : textRun C.board328 worldA 65536 23 allZero 0 0 with
  | none => rw [e1] at h1; cases h1
  | some h =>
    cases e2 : textRun C.board328 worldA 65536 23 allZero 0 1 with
    | none => rw [e2] at h2; cases h2
    | some h' =>
      rw [e1] at h1
      rw [e2] at h2
      injection h1 with h1
      injection h2 with h2
      exact ⟨h, h', rfl, rfl, of_decide_eq_true h1, h2⟩

end Asdf.Props
