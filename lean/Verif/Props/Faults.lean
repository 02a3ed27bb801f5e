import Verif.Props.Looks
import Verif.Props.Computer
import Verif.Spec.Faults
import Verif.Lemmas.CHwSane

/-! # Property C102: when the text of the firmware accesses memory outside of an object -/

namespace Asdf.Props

open Avr Spec Pcb

/-- The run of the text from reset to a look. -/
abbrev runTo (X : C.Board) (W : C.Outside) (r0 : Regs) (sr : UInt8) (p w n : Nat) : C.Out C.Hw C.Val :=
  C.run (C.hwProg X W) w n .main [] (C.KH C.mem0 [] (C.Hw.reset r0 sr p))

theorem text_heads_or {X : C.Board} {B : Board} {T : Whole.Target} (hX : Compiled X B T) (W : C.Outside)
    (r0 : Regs) (sr : UInt8) {w n : Nat} (hw : 65536 ≤ w) (hn : 23 ≤ n) :
    ∃ f : Nat → C.Head, (∀ p, (f p).Good T W r0) ∧ (f 0).mxs = [] ∧
      (((∀ p, (f p).Next W (f (p + 1))) ∧ ∀ p, p < w → ∃ S, runTo X W r0 sr p w n = .stop S ∧ S.io = (f p).h.irq W) ∨
      ∃ q, (∀ p, p < q → (f p).Next W (f (p + 1))) ∧
        (∀ p, p ≤ q → p < w → ∃ S, runTo X W r0 sr p w n = .stop S ∧ S.io = (f p).h.irq W) ∧
        (∃ mxs hi e, C.SampledAll W 0 hi mxs ∧ Whole.life T shipped r0 mxs = .error e) ∧
        ∀ p, q < p → p < w → runTo X W r0 sr p w n = .err .oob) := by
  obtain ⟨n, rfl⟩ : ∃ k, n = k + 23 := ⟨n - 23, by omega⟩
  have hB := compiled_built hX
  obtain ⟨s0, _, _, hb, _⟩ := boot_inv fourMaps_facts
  rw [← boot_same] at hb
  have fin : ∀ {X : C.Board} [C.IsBoard X], C.Serves X T → _ := fun {X} _ S =>
    C.heads_or (B := X) (T := T) (W := W) (r0 := r0) S hw hb sr n
  have key : ∀ {X : C.Board} [C.IsBoard X], C.Serves X T → ∃ f : Nat → C.Head, (∀ p, (f p).Good T W r0) ∧ (f 0).mxs = [] ∧
      (((∀ p, (f p).Next W (f (p + 1))) ∧ ∀ p, p < w → ∃ S, runTo X W r0 sr p w (n + 23) = .stop S ∧ S.io = (f p).h.irq W) ∨
      ∃ q, (∀ p, p < q → (f p).Next W (f (p + 1))) ∧
        (∀ p, p ≤ q → p < w → ∃ S, runTo X W r0 sr p w (n + 23) = .stop S ∧ S.io = (f p).h.irq W) ∧
        (∃ mxs hi e, C.SampledAll W 0 hi mxs ∧ Whole.life T shipped r0 mxs = .error e) ∧
        ∀ p, q < p → p < w → runTo X W r0 sr p w (n + 23) = .err .oob) := by
    intro X _ S
    obtain ⟨f, h1, h2, ⟨h3, h4⟩ | ⟨q, h3, h4, h5, h6⟩⟩ := fin S
    · exact ⟨f, h1, h2, .inl ⟨h3, fun p hp => ⟨_, h4 p hp, rfl⟩⟩⟩
    · exact ⟨f, h1, h2, .inr ⟨q, h3, fun p hp hpw => ⟨_, h4 p hp hpw, rfl⟩, h5,
        h6 (C.readable hB) (C.life_sane hB r0 _ _ (h1 q).life).1⟩⟩
  rcases hX with ⟨rfl, _, rfl⟩ | ⟨cols, _, rfl, _, rfl⟩
  · exact key C89_atmega328p
  · exact key (C89_atmega2560 cols)

theorem runTo_ends {X : C.Board} {B : Board} {T : Whole.Target} (hX : Compiled X B T) (W : C.Outside) (r0 : Regs)
    (sr : UInt8) {p w n : Nat} (hw : 65536 ≤ w) (hp : p < w) (hn : 23 ≤ n) :
    (∃ S, runTo X W r0 sr p w n = .stop S) ∨ runTo X W r0 sr p w n = .err .oob := by
  obtain ⟨f, _, _, ⟨_, h4⟩ | ⟨q, _, h4, _, h6⟩⟩ := text_heads_or hX W r0 sr hw hn
  · obtain ⟨S, e, _⟩ := h4 p hp
    exact .inl ⟨S, e⟩
  · by_cases hq : p ≤ q
    · obtain ⟨S, e, _⟩ := h4 p hq hp
      exact .inl ⟨S, e⟩
    · exact .inr (h6 p (by omega) hp)

theorem runTo_more {X : C.Board} {B : Board} {T : Whole.Target} (hX : Compiled X B T) (W : C.Outside) (r0 : Regs)
    (sr : UInt8) {p w w' n n' : Nat} (hw : 65536 ≤ w) (hp : p < w) (hn : 23 ≤ n) (hw' : w ≤ w') (hn' : n ≤ n') :
    runTo X W r0 sr p w n = runTo X W r0 sr p w' n' := by
  obtain ⟨_, hP⟩ := compiled_plain hX
  rcases C.run_bounds (W := W) hP hw' hn' .main [] (C.KH C.mem0 [] (C.Hw.reset r0 sr p)) with h | h
  · exact h
  · have h : runTo X W r0 sr p w n = .err .fuel := h
    rcases runTo_ends hX W r0 sr hw hp hn with ⟨S, e⟩ | e <;> (rw [h] at e; cases e)

/-- The bounds on the run do not matter if they are large enough. -/
theorem runTo_same {X : C.Board} {B : Board} {T : Whole.Target} (hX : Compiled X B T) (W : C.Outside) (r0 : Regs)
    (sr : UInt8) {p w w' n n' : Nat} (hw : 65536 ≤ w) (hw' : 65536 ≤ w') (hp : p < w) (hp' : p < w') (hn : 23 ≤ n)
    (hn' : 23 ≤ n') : runTo X W r0 sr p w n = runTo X W r0 sr p w' n' := by
  rw [runTo_more hX W r0 sr hw hp hn (Nat.le_max_left w w') (Nat.le_max_left n n'),
    ← runTo_more hX W r0 sr hw' hp' hn' (Nat.le_max_right w w') (Nat.le_max_right n n')]

theorem atLook_of {X : C.Board} {B : Board} {T : Whole.Target} (hX : Compiled X B T) {W : C.Outside} {r0 : Regs}
    {sr : UInt8} {p w n : Nat} (hw : 65536 ≤ w) (hp : p < w) (hn : 23 ≤ n) {S : C.St C.Hw} (e : runTo X W r0 sr p w n = .stop S) :
    AtLook X W r0 sr p S.io := by
  intro w' n' h1 h2 h3
  have := runTo_same hX W r0 sr h1 hw h2 hp h3 hn
  unfold textRun
  unfold runTo at this
  unfold runTo at e
  rw [this, e]

/-- At a look the hardware is determined. -/
theorem atLook_io {X : C.Board} {W : C.Outside} {r0 : Regs} {sr : UInt8} {p w n : Nat} {h : C.Hw}
    (e : AtLook X W r0 sr p h) (hw : 65536 ≤ w) (hp : p < w) (hn : 23 ≤ n) :
    ∃ S, runTo X W r0 sr p w n = .stop S ∧ S.io = h := by
  have e := e w n hw hp hn
  unfold textRun at e
  unfold runTo
  split at e
  · next S h1 => exact ⟨S, h1, Option.some.inj e⟩
  · cases e

/-- **C102, the only way to fail.**  On either board, whatever the keys, the other pins and the timer
do: the run of the text either comes to the look, or accesses memory outside of an object.  It does
nothing else that has no meaning in C, and it does not get stuck. -/
theorem C102_only (X : C.Board) (B : Board) (T : Whole.Target) (hX : Compiled X B T) (W : C.Outside)
    (r0 : Regs) (sr : UInt8) (p : Nat) : (∃ h, AtLook X W r0 sr p h) ∨ OutOfBounds X W r0 sr p := by
  have hw : 65536 ≤ 65536 + p := by omega
  have hp : p < 65536 + p := by omega
  rcases runTo_ends hX W r0 sr hw hp (Nat.le_refl 23) with ⟨S, e⟩ | e
  · exact .inl ⟨_, atLook_of hX hw hp (Nat.le_refl 23) e⟩
  · exact .inr fun w n h1 h2 h3 => (runTo_same hX W r0 sr h1 hw h2 hp h3 (Nat.le_refl 23)).trans e

theorem not_both {X : C.Board} {W : C.Outside} {r0 : Regs} {sr : UInt8} {p : Nat} {h : C.Hw}
    (e : AtLook X W r0 sr p h) (o : OutOfBounds X W r0 sr p) : False := by
  obtain ⟨S, e1, _⟩ := atLook_io e (w := 65536 + p) (n := 23) (by omega) (by omega) (by omega)
  have o : runTo X W r0 sr p (65536 + p) 23 = .err .oob := o (65536 + p) 23 (by omega) (by omega) (by omega)
  rw [e1] at o
  cases o

/-- The states of the main loop up to a look that is reached. -/
theorem heads_upto {X : C.Board} {B : Board} {T : Whole.Target} (hX : Compiled X B T) {W : C.Outside} {r0 : Regs}
    {sr : UInt8} {p : Nat} {h : C.Hw} (e : AtLook X W r0 sr p h) :
    ∃ f : Nat → C.Head, (∀ p, (f p).Good T W r0) ∧ (f 0).mxs = [] ∧ (∀ i, i < p → (f i).Next W (f (i + 1))) ∧
      ∀ i, i ≤ p → AtLook X W r0 sr i ((f i).h.irq W) := by
  have hw : 65536 ≤ 65536 + p := by omega
  obtain ⟨f, h1, h2, ⟨h3, h4⟩ | ⟨q, h3, h4, _, h6⟩⟩ := text_heads_or hX W r0 sr hw (Nat.le_refl 23)
  · refine ⟨f, h1, h2, fun i _ => h3 i, fun i hi => ?_⟩
    obtain ⟨S, e1, e2⟩ := h4 i (by omega)
    rw [← e2]
    exact atLook_of hX hw (by omega) (Nat.le_refl 23) e1
  · have hq : p ≤ q := by
      refine Classical.byContradiction fun hc => ?_
      obtain ⟨S, e1, _⟩ := atLook_io e hw (by omega) (Nat.le_refl 23)
      rw [h6 p (by omega) (by omega)] at e1
      cases e1
    refine ⟨f, h1, h2, fun i hi => h3 i (by omega), fun i hi => ?_⟩
    obtain ⟨S, e1, e2⟩ := h4 i (by omega) (by omega)
    rw [← e2]
    exact atLook_of hX hw (by omega) (Nat.le_refl 23) e1

theorem atLook_unique {X : C.Board} {W : C.Outside} {r0 : Regs} {sr : UInt8} {p : Nat} {h h' : C.Hw}
    (e : AtLook X W r0 sr p h) (e' : AtLook X W r0 sr p h') : h = h' := by
  have a := e (65536 + p) 23 (by omega) (by omega) (by omega)
  rw [e' (65536 + p) 23 (by omega) (by omega) (by omega)] at a
  exact (Option.some.inj a).symm

/-- **C102, no way back.**  A look that is reached comes after all the looks before it. -/
theorem C102_stays (X : C.Board) (B : Board) (T : Whole.Target) (hX : Compiled X B T) (W : C.Outside)
    (r0 : Regs) (sr : UInt8) (p p' : Nat) (hp : p ≤ p') (o : OutOfBounds X W r0 sr p) : OutOfBounds X W r0 sr p' := by
  rcases C102_only X B T hX W r0 sr p' with ⟨h, e⟩ | h
  · obtain ⟨f, _, _, _, h4⟩ := heads_upto hX e
    exact (not_both (h4 p hp) o).elim
  · exact h

/-- **C102, the only cause.**  If memory is accessed outside of an object, then in some readings of
the keys of this world, in order, the closing of DIP switch 2 is accepted while switch 1 is
open. -/
theorem C102_cause (X : C.Board) (B : Board) (T : Whole.Target) (hX : Compiled X B T) (W : C.Outside)
    (r0 : Regs) (sr : UInt8) (p : Nat) (o : OutOfBounds X W r0 sr p) :
    ∃ mxs hi pre inp post, C.SampledAll W 0 hi mxs ∧ mxs.map contactsRead = pre ++ inp :: post ∧ Trips pre inp := by
  have hw : 65536 ≤ 65536 + p := by omega
  have o := o (65536 + p) 23 hw (by omega) (Nat.le_refl 23)
  obtain ⟨f, h1, h2, ⟨h3, h4⟩ | ⟨q, _, _, ⟨mxs, hi, e, k1, k2⟩, _⟩⟩ := text_heads_or hX W r0 sr hw (Nat.le_refl 23)
  · obtain ⟨S, e, _⟩ := h4 p (by omega)
    have o : runTo X W r0 sr p (65536 + p) 23 = .err .oob := o
    rw [e] at o
    cases o
  · rcases first_trip (mxs.map contactsRead) with hn | ⟨pre, inp, post, e1, e2, _⟩
    · obtain ⟨w, e1, _⟩ := C75_board_safe B T (compiled_built hX) r0 mxs hn
      rw [k2] at e1
      cases e1
    · exact ⟨mxs, hi, pre, inp, post, k1, e1, e2⟩

theorem good_irq {X : C.Board} {B : Board} {T : Whole.Target} (hX : Compiled X B T) {W : C.Outside}
    {r0 : Regs} {a : C.Head} (g : a.Good T W r0) : a.h.regs.irq = true :=
  C.story_irq (compiled_built hX) g.on.story (C.life_sane (compiled_built hX) r0 _ _ g.life).2

/-- **C102, from one look to the next,** in any world: as in C100. -/
theorem C102_next (X : C.Board) (B : Board) (T : Whole.Target) (hX : Compiled X B T) (W : C.Outside)
    (r0 : Regs) (sr : UInt8) (p : Nat) (h h' : C.Hw) (e : AtLook X W r0 sr p h)
    (e' : AtLook X W r0 sr (p + 1) h') : NextLook W h h' := by
  obtain ⟨f, g, _, hn, hr⟩ := heads_upto hX e'
  obtain rfl := atLook_unique e (hr p (by omega))
  obtain rfl := atLook_unique e' (hr (p + 1) (by omega))
  exact C.next_look (g p) (hn p (by omega)) (good_irq hX (g p)) (good_irq hX (g (p + 1)))

/-- **C102, at most nineteen scans.**  If DIP switch 2 is closed and switch 1 is open all the time,
the text does not get further than the nineteenth scan. -/
theorem C102_scans (X : C.Board) (B : Board) (T : Whole.Target) (hX : Compiled X B T) (W : C.Outside)
    (h1 : ∀ t, bitOf (W.keys t 8) 1 = false) (h2 : ∀ t, bitOf (W.keys t 8) 2 = true) (r0 : Regs) (sr : UInt8)
    (p : Nat) (h : C.Hw) (e : AtLook X W r0 sr p h) : h.found ≤ 19 := by
  refine Classical.byContradiction fun hc => ?_
  obtain ⟨f, g, _, _, hr⟩ := heads_upto hX e
  obtain rfl := atLook_unique e (hr p (Nat.le_refl _))
  rw [C.irq_found, (g p).found] at hc
  have hs := (g p).reads.sampled (g p).order
  have hl := (g p).life
  have g1 := sampled_reads h1 hs
  have g2 := sampled_reads h2 hs
  generalize (f p).mxs = mxs at hc hs hl g1 g2
  have conv : ∀ (c : Nat) (b : Bool), (∀ mx ∈ mxs, sample (contactsRead mx) 8 c = b) → ∀ n, n ≤ mxs.length →
      dip ((mxs.take n).map contactsRead) c = (b && decide (10 ≤ n)) := by
    intro c b hb n hn
    rw [← Asdf.debounced_constant]
    unfold dip samplesOf
    congr 1
    rw [List.eq_replicate_iff]
    refine ⟨by simp; omega, fun z hz => ?_⟩
    obtain ⟨i, hi, rfl⟩ := List.mem_map.mp hz
    obtain ⟨mx, hm, rfl⟩ := List.mem_map.mp hi
    exact hb mx (List.mem_of_mem_take hm)
  have h9 : 9 < mxs.length := by omega
  have hsplit : mxs = mxs.take 9 ++ mxs[9] :: mxs.drop 10 := by
    rw [← List.drop_eq_getElem_cons h9, List.take_append_drop]
  have htrip : Trips ((mxs.take 9).map contactsRead) (contactsRead mxs[9]) := by
    have e10 : (mxs.take 9).map contactsRead ++ [contactsRead mxs[9]] = (mxs.take 10).map contactsRead := by
      rw [List.take_succ_eq_append_getElem h9, List.map_append]
      rfl
    refine ⟨?_, ?_, ?_⟩
    · rw [conv 2 true g2 9 (by omega)]; rfl
    · rw [e10, conv 2 true g2 10 (by omega)]; rfl
    · rw [e10, conv 1 false g1 10 (by omega)]; rfl
  have := C75_board_unsafe B T (compiled_built hX) r0 _ _ (mxs.drop 10) htrip (by simp; omega)
  rw [← hsplit, hl] at this
  cases this

/-- **C102, unsafe switches.**  If DIP switch 2 is closed and switch 1 is open all the time, and the
timer does not stop, the text of the firmware accesses memory outside of an object, whatever the
other keys do. -/
theorem C102_unsafe (X : C.Board) (B : Board) (T : Whole.Target) (hX : Compiled X B T) (W : C.Outside)
    (hT : Ticking W.fires) (h1 : ∀ t, bitOf (W.keys t 8) 1 = false) (h2 : ∀ t, bitOf (W.keys t 8) 2 = true)
    (r0 : Regs) (sr : UInt8) : ∃ p, OutOfBounds X W r0 sr p := by
  refine Classical.byContradiction fun hno => ?_
  have hlook : ∀ p, ∃ h, AtLook X W r0 sr p h := fun p =>
    (C102_only X B T hX W r0 sr p).resolve_right fun h => hno ⟨p, h⟩
  have more : ∀ k, ∃ p h, AtLook X W r0 sr p h ∧ k ≤ h.found := by
    intro k
    induction k with
    | zero =>
      obtain ⟨h, e⟩ := hlook 0
      exact ⟨0, h, e, Nat.zero_le _⟩
    | succ k ih =>
      obtain ⟨p, h, e, hf⟩ := ih
      obtain ⟨q, g, e', hf', ht⟩ := ticks hlook (C102_next X B T hX W r0 sr) hT e
      obtain ⟨h', e''⟩ := hlook (q + 1)
      have nx := C102_next X B T hX W r0 sr q g h' e' e''
      refine ⟨q + 1, h', e'', ?_⟩
      rw [nx.found, if_neg ht, hf']
      omega
  obtain ⟨p, h, e, hf⟩ := more 20
  have := C102_scans X B T hX W h1 h2 r0 sr p h e
  omega

/-- **C102.**  With a timer that does not stop, and DIP switches 1 and 2 that are not moved: the text
of the firmware, on either board, runs for ever without doing anything that has no meaning in C,
whatever the other keys do, exactly if switch 2 is open or switch 1 is closed. -/
theorem C102_exact (X : C.Board) (B : Board) (T : Whole.Target) (hX : Compiled X B T) (W : C.Outside)
    (hT : Ticking W.fires) (d1 d2 : Bool) (h1 : ∀ t, bitOf (W.keys t 8) 1 = d1) (h2 : ∀ t, bitOf (W.keys t 8) 2 = d2)
    (r0 : Regs) (sr : UInt8) : (∀ p, ∃ h, AtLook X W r0 sr p h) ↔ (d2 = false ∨ d1 = true) := by
  refine ⟨fun hl => ?_, fun hd p => C100_looks X B T hX W (C90_safe_settings W d1 d2 h1 h2 hd) r0 sr p⟩
  cases d2 with
  | false => exact .inl rfl
  | true =>
    cases d1 with
    | true => exact .inr rfl
    | false =>
      obtain ⟨p, o⟩ := C102_unsafe X B T hX W hT h1 h2 r0 sr
      obtain ⟨h, e⟩ := hl p
      exact (not_both e o).elim

theorem dip23 {ps : List Place} (hps : ps ∈ [classicPlaces, solPlaces]) (sw : Sw → Bool) :
    bitOf (closedKeys ps sw 8) 1 = sw (.dip 2) ∧ bitOf (closedKeys ps sw 8) 2 = sw (.dip 3) := by
  have key : ∀ ps ∈ [classicPlaces, solPlaces], (∀ p ∈ ps, p.col < 8) ∧ ∀ c ∈ [1, 2],
      (∀ p ∈ ps, p.row = 8 → p.col = c → p.sw = .dip (c + 1)) ∧
      ∃ p ∈ ps, p.col = c ∧ p.row = 8 ∧ p.sw = .dip (c + 1) := by decide +kernel
  obtain ⟨h1, h2⟩ := key ps hps
  have one : ∀ c, c ∈ [1, 2] → c < 8 → bitOf (closedKeys ps sw 8) c = sw (.dip (c + 1)) := by
    intro c hc hc8
    obtain ⟨h2, p, hp, h3, h4, h5⟩ := h2 c hc
    rw [Bool.eq_iff_iff, closedKeys_bit h1 sw 8 c hc8]
    constructor
    · rintro ⟨q, hq, k1, k2, k3⟩
      rw [h2 q hq k3 k1] at k2
      exact k2
    · exact fun h => ⟨p, hp, h3, h5 ▸ h, h4⟩
  exact ⟨one 1 (by decide) (by omega), one 2 (by decide) (by omega)⟩

/-- **C102, the keyboards.**  On every keyboard of C80 (all have the switches of the classic or of
the Sol keyboard), in terms of the switches on the board: with a timer that does not stop, and the
switches labelled DIP 2 and DIP 3 not moved, the text of the firmware runs for ever without doing
anything that has no meaning in C, exactly if DIP 3 is open or DIP 2 is closed. -/
theorem C102_keyboards (X : C.Board) (B : Board) (T : Whole.Target) (hX : Compiled X B T) (A : Assembly)
    (ps : List Place) (hA : (A, ps) ∈ boards328 classicPlaces solPlaces ++ boards2560 classicPlaces solPlaces)
    (sw : Nat → Sw → Bool) (W : C.Outside) (hS : SwitchWorld ps sw W) (hT : Ticking W.fires) (d2 d3 : Bool)
    (h2 : ∀ t, sw t (.dip 2) = d2) (h3 : ∀ t, sw t (.dip 3) = d3) (r0 : Regs) (sr : UInt8) :
    (∀ p, ∃ h, AtLook X W r0 sr p h) ↔ (d3 = false ∨ d2 = true) := by
  have key : ∀ x ∈ boards328 classicPlaces solPlaces ++ boards2560 classicPlaces solPlaces,
      x.2 = classicPlaces ∨ x.2 = solPlaces := by
    unfold boards328 boards2560
    simp
  have hps : ps ∈ [classicPlaces, solPlaces] := by
    rcases key _ hA with h | h
    · exact (show ps = _ from h) ▸ List.mem_cons_self
    · exact (show ps = _ from h) ▸ List.mem_cons_of_mem _ List.mem_cons_self
  refine C102_exact X B T hX W hT d2 d3 (fun t => ?_) (fun t => ?_) r0 sr
  · rw [hS t, (dip23 hps _).1, h2]
  · rw [hS t, (dip23 hps _).2, h3]

/-! ## Non-vacuity -/

theorem still_world (ps : List Place) (c : Sw → Bool) (fires : Nat → Bool) :
    SwitchWorld ps (fun _ => c) ⟨fun _ => closedKeys ps c, fun _ _ => 0, fires⟩ := fun _ => rfl

/-- Only DIP 3 is closed. -/
def dip3Closed (s : Sw) : Bool := s == .dip 3

/-- A Sol keyboard set to its own keymap, DIP 3 closed: the keyboard does not work. -/
example (fires : Nat → Bool) (hT : Ticking fires) : ¬ ∀ p, ∃ h, AtLook C.board328
    ⟨fun _ => closedKeys solPlaces dip3Closed, fun _ _ => 0, fires⟩ allZero 0 p h := by
  have hA : (sol328 false, solPlaces) ∈ boards328 classicPlaces solPlaces ++ boards2560 classicPlaces solPlaces :=
    List.mem_append_left _ (List.mem_cons_of_mem _ (List.mem_cons_of_mem _ List.mem_cons_self))
  have := C102_keyboards C.board328 m328 Whole.target328 (.inl ⟨rfl, rfl, rfl⟩) (sol328 false) solPlaces hA
    (fun _ => dip3Closed) ⟨fun _ => closedKeys solPlaces dip3Closed, fun _ _ => 0, fires⟩ (still_world _ _ _) hT
    false true (fun _ => rfl) (fun _ => rfl) allZero 0
  rw [this]
  decide

/-- DIP switch 2 alone is closed, and the timer asks for three of every thousand accesses. -/
def worldTrap : C.Outside := ⟨fun _ => closing 8 2, fun _ _ => 0, fun t => decide (t % 1000 < 3)⟩

/-- The hypotheses of C102 are met, and the text fails. -/
example : ∃ p, OutOfBounds C.board328 worldTrap allZero 0 p :=
  C102_unsafe C.board328 m328 Whole.target328 (.inl ⟨rfl, rfl, rfl⟩) worldTrap
    (fun t => by
      refine ⟨1000 * t, by omega, ?_, ?_, ?_⟩ <;> refine decide_eq_true ?_ <;> omega)
    (fun _ => by show bitOf (closing 8 2 8) 1 = false; decide) (fun _ => by show bitOf (closing 8 2 8) 2 = true; decide) allZero 0

/-- The first looks are reached. -/
example : ∃ h, AtLook C.board328 worldTrap allZero 0 0 h ∧ h.found ≤ 19 := by
  have hX : Compiled C.board328 m328 Whole.target328 := .inl ⟨rfl, rfl, rfl⟩
  rcases C102_only C.board328 m328 Whole.target328 hX worldTrap allZero 0 0 with ⟨h, e⟩ | o
  · exact ⟨h, e, C102_scans _ _ _ hX worldTrap (fun _ => by show bitOf (closing 8 2 8) 1 = false; decide)
      (fun _ => by show bitOf (closing 8 2 8) 2 = true; decide) _ _ _ _ e⟩
  · have h1 := o 65536 23 (by omega) (by omega) (by omega)
    have h2 : (textRun C.board328 worldTrap 65536 23 allZero 0 0).isSome = true := by decide +kernel
    unfold textRun at h2
    rw [h1] at h2
    cases h2

end Asdf.Props
