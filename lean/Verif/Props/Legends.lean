import Verif.Props.Matrix
import Verif.Props.Host
import Verif.Props.Typing
import Verif.Spec.Legends

/-! # Property C81: the keys type what their labels say -/

namespace Asdf.Props

open Avr Spec Pcb

/-! ## The classic keyboard -/

/-- **C81, classic keyboard.**  On keymap 0 every key with characters on it types them. -/
theorem C81_classic : ∀ p ∈ classicPlaces, ∀ x ∈ letterLegends ++ digitLegends ++ classicLegends,
    x.label = p.label → types 0 p x := by decide +kernel

/-- **C81, capital keymap.**  On keymap 1 the letters are always capitals; the other keys
are as on keymap 0. -/
theorem C81_capitals : ∀ p ∈ classicPlaces, ∀ x ∈ letterLegends ++ digitLegends ++ classicLegends,
    x.label = p.label → types 1 p ⟨x.label, if isLetter x.plain then x.shifted else x.plain, x.shifted⟩ := by
  decide +kernel

/-- **C81, functions.**  The keys with functions have them whatever modifiers are held. -/
theorem C81_functions : ∀ p ∈ classicPlaces, ∀ x ∈ classicFunctions, x.1 = p.label →
    does 0 p x.2 ∧ does 1 p x.2 := by decide +kernel

/-- **C81, the remaining keys.**  Every other key of the classic keyboard does nothing,
except BREAK, which works only with SHIFT or CTRL, and the DIP switches. -/
theorem C81_others : ∀ p ∈ classicPlaces,
    p.label ∈ (letterLegends ++ digitLegends ++ classicLegends).map (·.label) ∨
    p.label ∈ (classicFunctions ++ dipFunctions).map (·.1) ∨ p.label = "DIP 5" ∨
    (p.label ∈ classicSpare ∧ does 0 p .nothing ∧ does 1 p .nothing) ∨
    (p.label = "Break" ∧ ∀ i ∈ [0, 1],
      (∀ caps, decodeAction (codeUnder shipped i 8 p.row p.col false caps false) = .nothing) ∧
      (∀ caps, decodeAction (codeUnder shipped i 8 p.row p.col true caps false) = .virt VOUT2) ∧
      ∀ shift caps, decodeAction (codeUnder shipped i 8 p.row p.col shift caps true) = .virt VOUT1) := by
  decide +kernel

/-- **C81, Apple keymaps.**  On keymaps 2 and 3 the letters are in the labelled places
too: lower case on keymap 2, capitals on keymap 3. -/
theorem C81_apple : ∀ p ∈ classicPlaces, ∀ x ∈ letterLegends, x.label = p.label →
    codeUnder shipped 2 8 p.row p.col false false false = x.plain ∧
    codeUnder shipped 3 8 p.row p.col false false false = x.shifted := by decide +kernel

/-- **C81, DIP switches.**  On the four keymaps of the classic keyboard and on the Sol-20
keymap the DIP switches have their functions. -/
theorem C81_dips : (∀ p ∈ classicPlaces, ∀ x ∈ dipFunctions, x.1 = p.label → ∀ i ∈ [0, 1, 2, 3], does i p x.2) ∧
    ∀ p ∈ solPlaces, ∀ x ∈ dipFunctions, x.1 = p.label → does 4 p x.2 := by decide +kernel

/-! ## The Sol-20 keyboard -/

/-- **C81, Sol-20 keyboard.**  Every key with characters on it types them on keymap 4. -/
theorem C81_sol : ∀ p ∈ solPlaces, ∀ x ∈ letterLegends ++ digitLegends ++ solLegends,
    x.label = p.label → types 4 p x := by decide +kernel

/-- **C81, functions of the Sol-20 keyboard.** -/
theorem C81_sol_functions : ∀ p ∈ solPlaces, ∀ x ∈ solFunctions, x.1 = p.label → does 4 p x.2 := by
  decide +kernel

/-- **C81, the remaining keys of the Sol-20.**  REPEAT, which with CTRL is the reset
output, and a DIP switch. -/
theorem C81_sol_others : ∀ p ∈ solPlaces,
    p.label ∈ (letterLegends ++ digitLegends ++ solLegends).map (·.label) ∨
    p.label ∈ (solFunctions ++ dipFunctions).map (·.1) ∨ p.label = "DIP 5" ∨
    (p.label = "Repeat: 1.25x" ∧
      (∀ shift caps, decodeAction (codeUnder shipped 4 8 p.row p.col shift caps false) = .repeat) ∧
      ∀ shift caps, decodeAction (codeUnder shipped 4 8 p.row p.col shift caps true) = .virt VOUT1) := by
  decide +kernel

/-! ## From the key to the computer -/

/-- Only the given switches are closed. -/
def only (l : List Sw) : Sw → Bool := fun s => l.contains s

theorem dip_open {inps : List Input} {n : Nat} (h : ∀ inp ∈ inps, sample inp 8 n = false) :
    dip inps n = false := by
  have key : ∀ l : List Bool, (∀ b ∈ l, b = false) → l.foldl Deb.step Deb.init = Deb.init := by
    intro l
    induction l with
    | nil => intro _; rfl
    | cons b l ih =>
      intro hl
      rw [List.foldl_cons, hl b List.mem_cons_self]
      exact ih fun b hb => hl b (List.mem_cons_of_mem _ hb)
  show (List.foldl Deb.step Deb.init (samplesOf inps 8 n)).on = false
  rw [key]
  · rfl
  · intro b hb
    obtain ⟨inp, hi, rfl⟩ := List.mem_map.mp hb
    exact h inp hi

theorem never_of_open {inps : List Input} (h : ∀ inp ∈ inps, sample inp 8 2 = false) : NeverTrips inps := by
  rintro pre inp post rfl ⟨_, h2, _⟩
  rw [dip_open] at h2
  · cases h2
  · intro i hi
    rcases List.mem_append.mp hi with hi | hi
    · exact h i (List.mem_append_left _ hi)
    · rw [List.mem_singleton.mp hi]
      exact h inp (List.mem_append_right _ List.mem_cons_self)

/-- What the host receives, from the run of the firmware alone. -/
theorem host_gets {B : Board} {T : Whole.Target} (hB : Built B T) (r0 : Regs)
    {mxs : List (Nat → Whole.Contacts)}
    (h2 : ∀ mx ∈ mxs, sample (contactsRead mx) 8 2 = false)
    (h6 : ∀ mx ∈ mxs, sample (contactsRead mx) 8 6 = false) {s : State}
    (hs : powerUp fourMaps (mxs.map contactsRead) = .ok s) :
    ∃ w, Whole.life T shipped r0 mxs = .ok w ∧ latched B true r0 w.log = sends s.dev.trace := by
  have hn : NeverTrips (mxs.map contactsRead) := never_of_open fun inp hi => by
    obtain ⟨mx, hm, rfl⟩ := List.mem_map.mp hi
    exact h2 mx hm
  obtain ⟨w, e1, _, e3, _, _, e6⟩ := C75_board_safe B T hB r0 mxs hn
  have hstrobe : placed fourMaps openLayout .strobeSelect [(8, 6)] = true ∧
      ∀ i ∈ openLayout.maps, SetupCmd.negStrobe ∉ fourMaps.setup i := by decide +kernel
  have hp := after_positive (cfgFacts fourMaps_ok) hstrobe.1 hstrobe.2 (mxs.map contactsRead)
    (fun inp _ => openLayout_allowed inp) (b := false) (by
    intro inp hi
    obtain ⟨mx, hm, rfl⟩ := List.mem_map.mp hi
    exact h6 mx hm)
  obtain ⟨s', g1, g2, _⟩ := four_run (mxs.map contactsRead)
  have g1 : powerUp fourMaps (mxs.map contactsRead) = .ok s' := g1
  rw [hs] at g1
  cases g1
  refine ⟨w, e1, ?_⟩
  rw [e6 (by rw [e3]; exact hp), e3, g2.trace]

/-- The firmware after power-up and ten scans with the given reading. -/
def afterTen (inp : Option Input) : State :=
  match powerUp fourMaps (match inp with | none => [] | some i => List.replicate 10 i) with
  | .ok s => s
  | .error _ => State.zero

/-- A state in which exactly the keys `on` are accepted as closed, nothing is waiting and
nothing was sent. -/
def quiet (s : State) (shift : Bool) (on : Nat → Nat → Bool) : Bool :=
  (List.range 9).all (fun r => (List.range 8).all fun c =>
    accepted s r c == on r c && counter s r c == 10 &&
      codeOf s 8 r c == codeUnder shipped 0 8 r c shift false false) &&
  keystrokes s == [] && messages s == [] && s.rep.state == REPEAT_AUTO && s.lastKey == 0xA0 &&
  sends s.dev.trace == []

theorem afterTen_none : (powerUp fourMaps [] matches .ok _) = true ∧
    quiet (afterTen none) false (fun _ _ => false) = true := by decide +kernel

/-- The two SHIFT keys. -/
def shiftPlaces : List Place := classicPlaces.filter fun p => p.label == "L_Shift" || p.label == "R_Shift"

theorem afterTen_shift : ∀ q ∈ shiftPlaces,
    let i := closedKeys classicPlaces (only [q.sw])
    (powerUp fourMaps (List.replicate 10 i) matches .ok _) = true ∧
    quiet (afterTen (some i)) true (fun r c => r == q.row && c == q.col) = true ∧
    run fourMaps (afterTen (some i)) [i] = .ok (afterTen (some i)) ∧
    (∀ caps, codeUnder shipped 0 8 q.row q.col true caps false = 0xA1) := by decide +kernel

theorem quiet_facts {s : State} {shift : Bool} {on : Nat → Nat → Bool} (h : quiet s shift on = true) :
    (∀ r c, r < 9 → c < 8 → accepted s r c = on r c ∧ counter s r c = 10 ∧
      codeOf s 8 r c = codeUnder shipped 0 8 r c shift false false) ∧
    keystrokes s = [] ∧ messages s = [] ∧ s.rep.state = REPEAT_AUTO ∧ s.lastKey = 0xA0 ∧
    sends s.dev.trace = [] := by
  simp only [quiet, Bool.and_eq_true, List.all_eq_true, List.mem_range, beq_iff_eq] at h
  obtain ⟨⟨⟨⟨⟨h1, h2⟩, h3⟩, h4⟩, h5⟩, h6⟩ := h
  exact ⟨fun r c hr hc => ⟨(h1 r hr c hc).1.1, (h1 r hr c hc).1.2, (h1 r hr c hc).2⟩, h2, h3, h4, h5, h6⟩

/-- A key held alone, or with SHIFT keys that are held already. -/
theorem types_from {s : State} {shift : Bool} {on : Nat → Nat → Bool}
    (hs : Reachable fourMaps openLayout s) (hq : quiet s shift on = true) {r c : Nat} (hr : r < 9) (hc : c < 8)
    (hon : on r c = false) {x : Code} (hx : codeUnder shipped 0 8 r c shift false false = x)
    (hlt : x.toNat < 0xA0)
    (hshift : ∀ r c, on r c = true → codeUnder shipped 0 8 r c shift false false = 0xA1) {inps : List Input}
    (hin : ∀ inp ∈ inps, ∀ r' c', r' < 9 → c' < 8 → sample inp r' c' = (on r' c' || (r' == r && c' == c)))
    (hl : 10 < inps.length) (hl' : inps.length ≤ 535) :
    ∃ s', run fourMaps s inps = .ok s' ∧ sends s'.dev.trace = [x] := by
  obtain ⟨q1, q2, q3, q4, q5, q6⟩ := quiet_facts hq
  have hne : ∀ y : Code, 0xA0 ≤ y.toNat → y ≠ x := by
    rintro y hy rfl
    omega
  obtain ⟨s', evs, e1, e2, e3⟩ := C48_number_of_codes fourMaps openLayout fourMaps_ok s hs q2 q3 r c hr hc
    (by rw [(q1 r c hr hc).1, hon]) x (by rw [← hx]; exact (q1 r c hr hc).2.2) hlt q4
    (by rw [q5]; exact hne _ (by decide)) inps (fun inp hi => by
      refine ⟨openLayout_allowed inp, ?_, ?_⟩
      · rw [hin inp hi r c hr hc]; simp
      · intro r' c' hr' hc' hn
        have hr' : r' < 9 := hr'
        have hc' : c' < 8 := hc'
        have hb : (r' == r && c' == c) = false := by
          rw [Bool.eq_false_iff]
          simpa using hn
        obtain ⟨k1, _, k3⟩ := q1 r' c' hr' hc'
        refine ⟨by rw [hin inp hi r' c' hr' hc', hb, k1, Bool.or_false], fun ha => ?_⟩
        rw [k1] at ha
        have k3 : codeOf s openLayout.cols r' c' = 0xA1 := by
          rw [← hshift r' c' ha]; exact k3
        have kx : codeOf s openLayout.cols r c = x := by
          rw [← hx]; exact (q1 r c hr hc).2.2
        rw [k3, kx, q5]
        exact ⟨by decide, hne _ (by decide), by decide⟩) (q1 r c hr hc).2.1
  refine ⟨s', e1, ?_⟩
  rw [e2, sends_append, q6, e3, if_pos hl, if_neg (by omega)]
  rfl

theorem places_inj : ∀ p ∈ classicPlaces, ∀ q ∈ classicPlaces, p.sw = q.sw → p = q := by decide +kernel

/-- The keys that are read when only the given switches are closed. -/
theorem sample_only {l : List Place} (hl : ∀ p ∈ l, p ∈ classicPlaces) {r c : Nat} (hc : c < 8) :
    sample (closedKeys classicPlaces (only (l.map (·.sw)))) r c = l.any (fun p => r == p.row && c == p.col) := by
  have h := closedKeys_bit (fun p hp => places_cols p (List.mem_append_left _ hp)) (only (l.map (·.sw))) r c hc
  rw [Bool.eq_iff_iff]
  refine Iff.trans h ?_
  simp only [only, List.contains_iff_mem, List.mem_map, List.any_eq_true, Bool.and_eq_true, beq_iff_eq]
  constructor
  · rintro ⟨p, hp, rfl, ⟨q, hq, e⟩, rfl⟩
    rw [places_inj q (hl q hq) p hp e] at hq
    exact ⟨p, hq, rfl, rfl⟩
  · rintro ⟨p, hp, rfl, rfl⟩
    exact ⟨p, hl p hp, rfl, ⟨p, hp, rfl⟩, rfl⟩

theorem legend_codes : ∀ x ∈ letterLegends ++ digitLegends ++ classicLegends,
    x.plain.toNat < 0xA0 ∧ x.shifted.toNat < 0xA0 := by decide

theorem classic_rows : (∀ p ∈ classicPlaces, p.row < 9) ∧
    ∀ p ∈ classicPlaces, p.row = 8 ↔ p.label ∈ (dipFunctions.map (·.1)) ++ ["DIP 5"] := by decide +kernel

/-- Scans with only the given keys closed. -/
def Held (l : List Place) (mxs : List (Nat → Whole.Contacts)) : Prop :=
  ∀ mx ∈ mxs, ∀ r, (mx r).keys = closedKeys classicPlaces (only (l.map (·.sw)))

theorem Held.sample {l : List Place} (hl : ∀ p ∈ l, p ∈ classicPlaces) {mxs : List (Nat → Whole.Contacts)}
    (h : Held l mxs) {mx : Nat → Whole.Contacts} (hm : mx ∈ mxs) {r c : Nat} (hc : c < 8) :
    sample (contactsRead mx) r c = l.any (fun p => r == p.row && c == p.col) := by
  rw [← sample_only hl hc]
  show bitOf ((mx r).keys r) c = _
  rw [h mx hm r]
  rfl

theorem Held.dip {l : List Place} (hl : ∀ p ∈ l, p ∈ classicPlaces ∧ p.row ≠ 8)
    {mxs : List (Nat → Whole.Contacts)} (h : Held l mxs) {n : Nat} (hn : n < 8) :
    ∀ mx ∈ mxs, Spec.sample (contactsRead mx) 8 n = false := by
  intro mx hm
  rw [h.sample (fun p hp => (hl p hp).1) hm hn, List.any_eq_false]
  intro p hp hb
  rw [Bool.and_eq_true, beq_iff_eq] at hb
  exact (hl p hp).2 hb.1.symm

/-- **C81, from the key to the computer.**  The classic keyboard on either interface, after
power-up, with all DIP switches open: if a key with characters on it is pressed alone
and held for 11 to 535 scans, the computer receives the character on the key, once. -/
theorem C81_typed (B : Board) (T : Whole.Target) (hB : Built B T) (r0 : Regs) (p : Place)
    (hp : p ∈ classicPlaces) (x : Legend) (hx : x ∈ letterLegends ++ digitLegends ++ classicLegends)
    (hl : x.label = p.label) (mxs : List (Nat → Whole.Contacts)) (hm : Held [p] mxs)
    (h1 : 10 < mxs.length) (h2 : mxs.length ≤ 535) :
    ∃ w, Whole.life T shipped r0 mxs = .ok w ∧ latched B true r0 w.log = [x.plain] := by
  have hrow := classic_rows.1 p hp
  have hcol := places_cols p (List.mem_append_left _ hp)
  have hcode := C81_classic p hp x hx hl
  have hp8 : ∀ q ∈ [p], q ∈ classicPlaces ∧ q.row ≠ 8 := by
    intro q hq
    rw [List.mem_singleton.mp hq]
    refine ⟨hp, fun h8 => ?_⟩
    have hd := (classic_rows.2 p hp).mp h8
    rw [← hl] at hd
    exact absurd hd ((by decide : ∀ x ∈ letterLegends ++ digitLegends ++ classicLegends,
      x.label ∉ (dipFunctions.map (·.1)) ++ ["DIP 5"]) x hx)
  have hb : powerUp fourMaps [] = .ok (afterTen none) := by
    have := afterTen_none.1
    unfold afterTen
    split at this
    · rename_i s e
      simp only [e]
    · cases this
  have hreach : Reachable fourMaps openLayout (afterTen none) := by
    rw [powerUp_nil] at hb
    exact ⟨_, [], hb, by simp, rfl⟩
  obtain ⟨s', e1, e2⟩ := types_from hreach afterTen_none.2 hrow hcol rfl hcode.1 (legend_codes x hx).1
    (fun _ _ h => by cases h) (inps := mxs.map contactsRead) (by
      intro inp hi r' c' _ hc'
      obtain ⟨mx, hmx, rfl⟩ := List.mem_map.mp hi
      rw [hm.sample (fun q hq => (hp8 q hq).1) hmx hc']
      simp) (by simpa using h1) (by simpa using h2)
  have hs : powerUp fourMaps (mxs.map contactsRead) = .ok s' := by
    have := powerUp_append fourMaps [] (mxs.map contactsRead)
    rw [List.nil_append, hb, ok_bind] at this
    rw [this, e1]
  obtain ⟨w, g1, g2⟩ := host_gets hB r0 (hm.dip hp8 (by omega)) (hm.dip hp8 (by omega)) hs
  exact ⟨w, g1, by rw [g2, e2]⟩

theorem run_fix {s : State} {i : Input} (h : run fourMaps s [i] = .ok s) (n : Nat) :
    run fourMaps s (List.replicate n i) = .ok s := by
  induction n with
  | zero => rfl
  | succ n ih =>
    rw [List.replicate_succ, ← List.singleton_append, run_append, h, ok_bind, ih]

/-- **C81, with SHIFT.**  If SHIFT is held for at least 10 scans, and then a key with
characters on it as well, for 11 to 535 scans, the computer receives the shifted
character on the key, once. -/
theorem C81_typed_shifted (B : Board) (T : Whole.Target) (hB : Built B T) (r0 : Regs) (q : Place)
    (hq : q ∈ classicPlaces) (hql : q.label = "L_Shift" ∨ q.label = "R_Shift") (p : Place)
    (hp : p ∈ classicPlaces) (x : Legend) (hx : x ∈ letterLegends ++ digitLegends ++ classicLegends)
    (hl : x.label = p.label) (pre mxs : List (Nat → Whole.Contacts)) (hpre : Held [q] pre)
    (h0 : 10 ≤ pre.length) (hm : Held [q, p] mxs) (h1 : 10 < mxs.length) (h2 : mxs.length ≤ 535) :
    ∃ w, Whole.life T shipped r0 (pre ++ mxs) = .ok w ∧ latched B true r0 w.log = [x.shifted] := by
  have hrow := classic_rows.1 p hp
  have hcol := places_cols p (List.mem_append_left _ hp)
  have hcode := C81_classic p hp x hx hl
  have hqs : q ∈ shiftPlaces := List.mem_filter.mpr ⟨hq, by simpa using hql⟩
  obtain ⟨a1, a2, a3, a4⟩ := afterTen_shift q hqs
  have hq8 : q.row ≠ 8 := fun h8 => by
    have hd := (classic_rows.2 q hq).mp h8
    rcases hql with e | e <;> rw [e] at hd <;> exact absurd hd (by decide)
  have hp8 : p.row ≠ 8 := fun h8 => by
    have hd := (classic_rows.2 p hp).mp h8
    rw [← hl] at hd
    exact absurd hd ((by decide : ∀ x ∈ letterLegends ++ digitLegends ++ classicLegends,
      x.label ∉ (dipFunctions.map (·.1)) ++ ["DIP 5"]) x hx)
  have l1 : ∀ z ∈ [q], z ∈ classicPlaces ∧ z.row ≠ 8 := by
    intro z hz
    rw [List.mem_singleton.mp hz]
    exact ⟨hq, hq8⟩
  have l2 : ∀ z ∈ [q, p], z ∈ classicPlaces ∧ z.row ≠ 8 := by
    intro z hz
    rcases List.mem_cons.mp hz with rfl | hz
    · exact ⟨hq, hq8⟩
    · rw [List.mem_singleton.mp hz]
      exact ⟨hp, hp8⟩
  have hne : ¬ (p.row = q.row ∧ p.col = q.col) := by
    rintro ⟨e1, e2⟩
    have := (legend_codes x hx).2
    rw [← hcode.2.1 false, e1, e2, a4] at this
    exact absurd this (by decide)
  have hb : powerUp fourMaps (List.replicate 10 (closedKeys classicPlaces (only [q.sw]))) =
      .ok (afterTen (some (closedKeys classicPlaces (only [q.sw])))) := by
    unfold afterTen
    split at a1
    · rename_i s e
      simp only [e]
    · cases a1
  have hpre' : pre.map contactsRead =
      List.replicate 10 (closedKeys classicPlaces (only [q.sw])) ++
        List.replicate (pre.length - 10) (closedKeys classicPlaces (only [q.sw])) := by
    rw [List.replicate_append_replicate]
    rw [List.eq_replicate_iff]
    refine ⟨by rw [List.length_map]; omega, fun inp hi => ?_⟩
    obtain ⟨mx, hmx, rfl⟩ := List.mem_map.mp hi
    funext r
    exact congrFun (hpre mx hmx r) r
  have hpow : powerUp fourMaps (pre.map contactsRead) =
      .ok (afterTen (some (closedKeys classicPlaces (only [q.sw])))) := by
    rw [hpre', powerUp_append, hb, ok_bind, run_fix a3]
  have hreach : Reachable fourMaps openLayout (afterTen (some (closedKeys classicPlaces (only [q.sw])))) := by
    obtain ⟨s0, e0, e1⟩ : ∃ s0, boot fourMaps = .ok s0 ∧ run fourMaps s0 (pre.map contactsRead) =
        .ok (afterTen (some (closedKeys classicPlaces (only [q.sw])))) := by
      unfold Spec.powerUp at hpow
      cases hb0 : boot fourMaps with
      | error e => rw [hb0] at hpow; cases hpow
      | ok s0 => rw [hb0] at hpow; exact ⟨s0, rfl, hpow⟩
    exact ⟨s0, pre.map contactsRead, e0, fun inp _ => openLayout_allowed inp, e1⟩
  obtain ⟨s', e1, e2⟩ := types_from hreach a2 hrow hcol (by
      rw [Bool.eq_false_iff]
      simpa using hne) (hcode.2.1 false) (legend_codes x hx).2
    (fun r c h => by
      rw [Bool.and_eq_true, beq_iff_eq, beq_iff_eq] at h
      rw [h.1, h.2, a4]) (inps := mxs.map contactsRead) (by
      intro inp hi r' c' _ hc'
      obtain ⟨mx, hmx, rfl⟩ := List.mem_map.mp hi
      rw [hm.sample (fun z hz => (l2 z hz).1) hmx hc']
      simp) (by simpa using h1) (by simpa using h2)
  have hs : powerUp fourMaps ((pre ++ mxs).map contactsRead) = .ok s' := by
    rw [List.map_append, powerUp_append, hpow, ok_bind, e1]
  have hd : ∀ n < 8, ∀ mx ∈ pre ++ mxs, sample (contactsRead mx) 8 n = false := by
    intro n hn mx hmx
    rcases List.mem_append.mp hmx with hmx | hmx
    · exact hpre.dip l1 hn mx hmx
    · exact hm.dip l2 hn mx hmx
  obtain ⟨w, g1, g2⟩ := host_gets hB r0 (hd 2 (by omega)) (hd 6 (by omega)) hs
  exact ⟨w, g1, by rw [g2, e2]⟩

/-- Non-vacuity: any keys can be held for any number of scans, for example Q with SHIFT. -/
theorem held_exists (l : List Place) (n : Nat) : Held l (List.replicate n (fun _ =>
    (⟨closedKeys classicPlaces (only (l.map (·.sw))), 0, 0⟩ : Whole.Contacts))) := by
  intro mx hm r
  have h := (List.mem_replicate.mp hm).2
  exact h ▸ rfl

example : (⟨.key 58, "Q", 1, 7⟩ : Place) ∈ classicPlaces ∧
    (⟨"Q", ch 'q', ch 'Q'⟩ : Legend) ∈ letterLegends ++ digitLegends ++ classicLegends ∧
    ch 'q' = 0x71 ∧ ch 'Q' = 0x51 ∧ shiftPlaces.length = 2 := by
  refine ⟨by decide +kernel, by decide, rfl, rfl, by decide +kernel⟩

end Asdf.Props
