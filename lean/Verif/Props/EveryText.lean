import Verif.Props.Fingers
import Verif.Props.Looks

/-! # Property C101: every text can be typed -/

namespace Asdf.Props

open Avr Spec Pcb

/-! ## The future does not matter -/

/-- A look is the same in every world that is the same until then. -/
theorem look_same {X : C.Board} {B : Board} {T : Whole.Target} (hX : Compiled X B T) {W W' : C.Outside} {t : Nat}
    (hW : C.SameUntil t W W') {r0 : Regs} {sr : UInt8} {p : Nat} {h : C.Hw} (e : AtLook X W r0 sr p h) (ht : h.time ≤ t) :
    AtLook X W' r0 sr p h := by
  obtain ⟨_, hP⟩ := compiled_plain hX
  intro w n hw hp hn
  have e := e w n hw hp hn
  unfold textRun at e ⊢
  have a := (C.run_alike hP hW w n .main [] (C.KH C.mem0 [] (C.Hw.reset r0 sr p))).1
  rcases a with a | a
  · rw [← a]
    exact e
  · cases hr : C.run (C.hwProg X W) w n .main [] (C.KH C.mem0 [] (C.Hw.reset r0 sr p)) with
    | ok v S => rw [hr] at e; cases e
    | err r => rw [hr] at e; cases e
    | stop S =>
      rw [hr] at e a
      cases e
      have a : t < S.io.time := a
      omega

/-- Looks in order. -/
theorem looks_mono {X : C.Board} {B : Board} {T : Whole.Target} (hX : Compiled X B T) {W : C.Outside} (hW : SafeWorld W)
    {r0 : Regs} {sr : UInt8} {p : Nat} {h : C.Hw} (e : AtLook X W r0 sr p h) (d : Nat) {g : C.Hw}
    (e' : AtLook X W r0 sr (p + d) g) : h.found ≤ g.found ∧ h.time ≤ g.time := by
  induction d generalizing g with
  | zero =>
    have h1 := e (65536 + p) 23 (by omega) (by omega) (by omega)
    have h2 : _ = some g := e' (65536 + p) 23 (by omega) (by omega) (by omega)
    rw [Nat.add_zero, h1] at h2
    cases h2
    exact ⟨Nat.le_refl _, Nat.le_refl _⟩
  | succ d ih =>
    obtain ⟨m, em⟩ := C100_looks X B T hX W hW r0 sr (p + d)
    have h1 := ih em
    have nx := C100_next X B T hX W hW r0 sr (p + d) m g em e'
    have h2 := nx.found
    have h3 := nx.time
    omega

theorem looks_order {X : C.Board} {B : Board} {T : Whole.Target} (hX : Compiled X B T) {W : C.Outside} (hW : SafeWorld W)
    {r0 : Regs} {sr : UInt8} {p q : Nat} {h g : C.Hw} (e : AtLook X W r0 sr p h) (e' : AtLook X W r0 sr q g)
    (hlt : h.found < g.found) : p ≤ q ∧ h.time ≤ g.time := by
  have hpq : p ≤ q := Nat.le_of_not_lt fun hc => by
    obtain ⟨d, rfl⟩ : ∃ d, p = q + d := ⟨p - q, by omega⟩
    have := (looks_mono hX hW e' d e).1
    omega
  obtain ⟨d, rfl⟩ : ∃ d, q = p + d := ⟨q - p, by omega⟩
  exact ⟨hpq, (looks_mono hX hW e d e').2⟩

/-! ## Worlds with moving keys -/

/-- The switches move in this way; the rest of the world is given. -/
def worldOf (other : Nat → Port → UInt8) (fires : Nat → Bool) (ms : List TimedMove) : C.Outside :=
  ⟨fun t => closedKeys classicPlaces (switchesOf ms t), other, fires⟩

theorem worldOf_switch (other : Nat → Port → UInt8) (fires : Nat → Bool) (ms : List TimedMove) :
    SwitchWorld classicPlaces (switchesOf ms) (worldOf other fires ms) := fun _ => rfl

theorem open_of_rows {sw : Nat → Sw → Bool} {ms : List TimedMove} (hF : SwitchesFollow sw ms)
    (hr : ∀ m ∈ ms, m.key.row ≠ 8) (t : Nat) : ∀ p ∈ classicPlaces, p.row = 8 → sw t p.sw = false := by
  intro p hp h8
  have hno : ∀ m ∈ ms, m.key ≠ p := fun m hm e => hr m hm (by rw [e]; exact h8)
  rw [hF t p hp fun m hm e => absurd e (hno m hm), List.countP_eq_zero.mpr fun m hm => by
    simp only [decide_eq_true_eq]
    exact fun h => hno m hm h.1]
  rfl

theorem worldOf_safe (other : Nat → Port → UInt8) (fires : Nat → Bool) {ms : List TimedMove}
    (hr : ∀ m ∈ ms, m.key.row ≠ 8) : SafeWorld (worldOf other fires ms) :=
  safe_of_rows (worldOf_switch other fires ms) fun t => open_of_rows (follows_switchesOf ms) hr t

theorem switchesOf_snoc (ms : List TimedMove) (m : TimedMove) {t : Nat} (h1 : t < m.begins) (h2 : t < m.ends) :
    switchesOf (ms ++ [m]) t = switchesOf ms t := by
  funext s
  unfold switchesOf
  congr 1
  funext p
  have a : ((ms ++ [m]).any fun m => m.key == p && decide (m.begins ≤ t) && decide (t < m.ends)) =
      ms.any fun m => m.key == p && decide (m.begins ≤ t) && decide (t < m.ends) := by
    have : decide (m.begins ≤ t) = false := decide_eq_false (by omega)
    simp only [List.any_append, List.any_cons, List.any_nil, this, Bool.and_false, Bool.false_and, Bool.or_false]
  have b : ((ms ++ [m]).countP fun m => m.key = p ∧ m.ends ≤ t) = ms.countP fun m => m.key = p ∧ m.ends ≤ t := by
    rw [List.countP_append]
    have : List.countP (fun m => decide (m.key = p ∧ m.ends ≤ t)) [m] = 0 := by
      rw [List.countP_eq_zero]
      intro x hx
      cases List.mem_singleton.mp hx
      simp only [decide_eq_true_eq]
      omega
    omega
  rw [a, b]

theorem worldOf_same (other : Nat → Port → UInt8) (fires : Nat → Bool) (ms : List TimedMove) (m : TimedMove) {t : Nat}
    (h1 : t < m.begins) (h2 : t < m.ends) : C.SameUntil t (worldOf other fires ms) (worldOf other fires (ms ++ [m])) := by
  intro u hu
  refine ⟨?_, rfl, rfl⟩
  show closedKeys classicPlaces (switchesOf ms u) = closedKeys classicPlaces (switchesOf (ms ++ [m]) u)
  rw [switchesOf_snoc ms m (by omega) (by omega)]

/-! ## Moving a key after every twenty scans -/

/-- The key that moves as number `i` moves right after the look that finds scan number `20 * (i + 1)` done. -/
structure PacedRun (X : C.Board) (other : Nat → Port → UInt8) (fires : Nat → Bool) (r0 : Regs) (sr : UInt8)
    (ms : List TimedMove) : Prop where
  rows : ∀ m ∈ ms, m.key.row ≠ 8
  looks : ∀ (i : Nat) (hi : i < ms.length), ∃ q g, AtLook X (worldOf other fires ms) r0 sr q g ∧ g.found = 20 * (i + 1) ∧
    ms[i].begins = g.time + 1 ∧ ms[i].ends = g.time + 1

theorem paced_snoc {X : C.Board} {B : Board} {T : Whole.Target} (hX : Compiled X B T) {other : Nat → Port → UInt8}
    {fires : Nat → Bool} (hT : Ticking fires) {r0 : Regs} {sr : UInt8} {ms : List TimedMove}
    (h : PacedRun X other fires r0 sr ms) (z : Place) (hz : z.row ≠ 8) :
    ∃ m, m.key = z ∧ PacedRun X other fires r0 sr (ms ++ [m]) := by
  have hW := worldOf_safe other fires h.rows
  obtain ⟨q, g, e, hf⟩ := C100_ticking X B T hX _ hW hT r0 sr (20 * (ms.length + 1))
  have hsame := worldOf_same other fires ms ⟨z, g.time + 1, g.time + 1⟩ (Nat.lt_succ_self g.time) (Nat.lt_succ_self g.time)
  refine ⟨⟨z, g.time + 1, g.time + 1⟩, rfl, ?_, fun i hi => ?_⟩
  · intro m hm
    rcases List.mem_append.mp hm with hm | hm
    · exact h.rows m hm
    · cases List.mem_singleton.mp hm
      exact hz
  · rw [List.length_append] at hi
    by_cases hlt : i < ms.length
    · obtain ⟨q', g', e', hf', h1, h2⟩ := h.looks i hlt
      refine ⟨q', g', look_same hX hsame e' (looks_order hX hW e' e (by omega)).2, hf', ?_, ?_⟩
      · rw [List.getElem_append_left hlt]; exact h1
      · rw [List.getElem_append_left hlt]; exact h2
    · have : i = ms.length := by
        have : ([⟨z, g.time + 1, g.time + 1⟩] : List TimedMove).length = 1 := rfl
        omega
      subst this
      refine ⟨q, g, look_same hX hsame e (Nat.le_refl _), hf, ?_, ?_⟩ <;>
        rw [List.getElem_append_right (Nat.le_refl _)] <;> simp

theorem paced_exists {X : C.Board} {B : Board} {T : Whole.Target} (hX : Compiled X B T) {other : Nat → Port → UInt8}
    {fires : Nat → Bool} (hT : Ticking fires) (r0 : Regs) (sr : UInt8) (zs : List Place) (hz : ∀ z ∈ zs, z.row ≠ 8) :
    ∃ ms : List TimedMove, ms.map (·.key) = zs ∧ PacedRun X other fires r0 sr ms := by
  have key : ∀ (zs : List Place) (ms : List TimedMove), PacedRun X other fires r0 sr ms → (∀ z ∈ zs, z.row ≠ 8) →
      ∃ ms' : List TimedMove, ms'.map (·.key) = ms.map (·.key) ++ zs ∧ PacedRun X other fires r0 sr ms' := by
    intro zs
    induction zs with
    | nil => exact fun ms h _ => ⟨ms, (List.append_nil _).symm, h⟩
    | cons z zs ih =>
      intro ms h hz
      obtain ⟨m, hm, h'⟩ := paced_snoc hX hT h z (hz z List.mem_cons_self)
      obtain ⟨ms', h1, h2⟩ := ih _ h' fun x hx => hz x (List.mem_cons_of_mem _ hx)
      refine ⟨ms', ?_, h2⟩
      rw [h1, List.map_append, List.map_cons, hm, List.map_nil, List.append_assoc]
      rfl
  exact key zs [] ⟨fun _ h => (List.not_mem_nil h).elim, fun i hi => absurd hi (Nat.not_lt_zero i)⟩ hz

/-! ## The same, counted in scans -/

/-- The next key moves after `c` scans, and then one after every 20 scans. -/
def Paced (times : List (Nat → Nat)) : Nat → List TimedMove → Prop
  | c, [] => c ≤ times.length
  | c, m :: ms => m.ends = m.begins ∧ (∀ row, scansBefore times row m.begins = c) ∧ Paced times (c + 20) ms

theorem scansBefore_eq {times : List (Nat → Nat)} {c t row : Nat} (hc : c ≤ times.length)
    (h : ∀ (i : Nat) (hi : i < times.length), (i < c → times[i] row < t) ∧ (c ≤ i → t ≤ times[i] row)) :
    scansBefore times row t = c := by
  unfold scansBefore
  rw [← List.take_append_drop c times, List.countP_append]
  have h1 : List.countP (fun f => decide (f row < t)) (times.take c) = c := by
    have hl : (times.take c).length = c := by rw [List.length_take]; omega
    rw [List.countP_eq_length.mpr, hl]
    intro f hf
    obtain ⟨i, hi, rfl⟩ := List.mem_iff_getElem.mp hf
    rw [List.getElem_take]
    exact decide_eq_true ((h i (by omega)).1 (by omega))
  have h2 : List.countP (fun f => decide (f row < t)) (times.drop c) = 0 := by
    rw [List.countP_eq_zero]
    intro f hf
    obtain ⟨i, hi, rfl⟩ := List.mem_iff_getElem.mp hf
    rw [List.getElem_drop]
    rw [List.length_drop] at hi
    have := (h (c + i) (by omega)).2 (by omega)
    simp only [decide_eq_true_eq]
    omega
  omega

theorem paced_times {X : C.Board} {B : Board} {T : Whole.Target} (hX : Compiled X B T) {other : Nat → Port → UInt8}
    {fires : Nat → Bool} {r0 : Regs} {sr : UInt8} {ms : List TimedMove} (h : PacedRun X other fires r0 sr ms) {polls w n : Nat}
    {g : C.Hw} (e : AtLook X (worldOf other fires ms) r0 sr polls g) (hf : 20 * (ms.length + 1) ≤ g.found)
    (hw : 65536 ≤ w) (hp : polls < w) (hn : 23 ≤ n) {times : List (Nat → Nat)}
    (hl : g.found = times.length)
    (hb : BetweenLooks X (worldOf other fires ms) w n r0 sr polls times) : Paced times 20 ms := by
  have hW := worldOf_safe other fires h.rows
  have key : ∀ (k : Nat) (rest : List TimedMove), (∀ (i : Nat) (hi : i < rest.length), ∃ q g, AtLook X (worldOf other fires ms) r0 sr q g ∧
      g.found = 20 * (k + i + 1) ∧ rest[i].begins = g.time + 1 ∧ rest[i].ends = g.time + 1) →
      20 * (k + rest.length + 1) ≤ times.length → Paced times (20 * (k + 1)) rest := by
    intro k rest
    induction rest generalizing k with
    | nil => exact fun _ hl => hl
    | cons m rest ih =>
      intro hr hlen
      rw [List.length_cons] at hlen
      obtain ⟨q, u, eu, fu, h1, h2⟩ := hr 0 (Nat.succ_pos _)
      have h1 : m.begins = u.time + 1 := h1
      have h2 : m.ends = u.time + 1 := h2
      refine ⟨by omega, fun row => ?_, ?_⟩
      · obtain ⟨u', eu', hle, hbt⟩ := hb q (looks_order hX hW eu e (by omega)).1
        rw [eu w n hw (by have := (looks_order hX hW eu e (by omega)).1; omega) hn] at eu'
        cases eu'
        refine scansBefore_eq (by omega) fun i hi => ?_
        obtain ⟨b1, b2⟩ := hbt i hi row
        refine ⟨fun hlt => ?_, fun hge => ?_⟩
        · have := b1 (by omega)
          omega
        · have := b2 (by omega)
          omega
      · have := ih (k + 1) (fun i hi => by
          obtain ⟨q, u, eu, fu, h1, h2⟩ := hr (i + 1) (by rw [List.length_cons]; omega)
          exact ⟨q, u, eu, by omega, h1, h2⟩) (by omega)
        rw [show 20 * (k + 1) + 20 = 20 * (k + 1 + 1) by omega]
        exact this
  have := key 0 ms (fun i hi => by rw [Nat.zero_add]; exact h.looks i hi) (by omega)
  exact this

theorem paced_timing {times : List (Nat → Nat)} {ms : List TimedMove} : ∀ {c}, Paced times c ms → WellTimed times ms ∧
    c ≤ untilNext times ms := by
  induction ms with
  | nil => exact fun h => ⟨trivial, h⟩
  | cons m ms ih =>
    intro c h
    obtain ⟨h1, h2, h3⟩ := h
    obtain ⟨i1, i2⟩ := ih h3
    have h2 := h2 m.key.row
    refine ⟨⟨Nat.le_of_eq h1.symm, ?_, ?_, i1⟩, ?_⟩
    · rw [h1]; omega
    · rw [h1]; omega
    · show c ≤ scansBefore times m.key.row m.begins
      omega

/-! ## The keys of a text -/

/-- The movements of keys that type a character: the key, with SHIFT or CTRL around it if needed. -/
def strokeMoves (x : Code) : List Place :=
  match strokeFor x with
  | some s => match s.mod with
    | none => [s.key, s.key]
    | some q => [q, s.key, s.key, q]
  | none => []

/-- The movements of keys that type a text. -/
def textMoves (text : List Code) : List Place := text.flatMap strokeMoves

theorem strokeMoves_ok : ∀ n, n < 256 → onKeys (UInt8.ofNat n) = true →
    (Orderly .rest (strokeMoves (UInt8.ofNat n)) ∧ (strokeMoves (UInt8.ofNat n)).foldl Fingers.move .rest = .rest) ∧
      keysText .rest (strokeMoves (UInt8.ofNat n)) = [UInt8.ofNat n] := by
  decide +kernel

/-- A key with a character moves twice in a row, a key without one anyhow. -/
def pairs : List Place → Bool
  | [] => true
  | k :: zs =>
    if (legendOf k).isSome then
      match zs with
      | [] => false
      | k' :: zs => k == k' && pairs zs
    else pairs zs

theorem strokeMoves_pairs : ∀ n, n < 256 → onKeys (UInt8.ofNat n) = true → pairs (strokeMoves (UInt8.ofNat n)) = true := by
  decide +kernel

theorem pairs_append : ∀ {a b : List Place}, pairs a = true → pairs b = true → pairs (a ++ b) = true
  | [], _, _, hb => hb
  | k :: a, b, ha, hb => by
    unfold pairs at ha
    rw [List.cons_append]
    unfold pairs
    by_cases hk : (legendOf k).isSome = true
    · rw [if_pos hk] at ha ⊢
      cases a with
      | nil => cases ha
      | cons k' a =>
        simp only [Bool.and_eq_true, List.cons_append] at ha ⊢
        exact ⟨ha.1, pairs_append ha.2 hb⟩
    · rw [if_neg hk] at ha ⊢
      exact pairs_append ha hb
  termination_by a => a.length

theorem orderly_append {zs zs' : List Place} : ∀ {s : Fingers}, Orderly s zs → zs.foldl Fingers.move s = .rest →
    Orderly .rest zs' →
    Orderly s (zs ++ zs') ∧ keysText s (zs ++ zs') = keysText s zs ++ keysText .rest zs' := by
  induction zs with
  | nil =>
    intro s _ h h'
    have h : s = .rest := h
    subst h
    exact ⟨h', rfl⟩
  | cons z zs ih =>
    intro s h e h'
    obtain ⟨i1, i2⟩ := ih h.2 e h'
    refine ⟨⟨h.1, i1⟩, ?_⟩
    show (if z ∈ s.down then [] else (s.char z).toList) ++ keysText (s.move z) (zs ++ zs') =
      ((if z ∈ s.down then [] else (s.char z).toList) ++ keysText (s.move z) zs) ++ keysText .rest zs'
    rw [i2, List.append_assoc]

theorem textMoves_ok (text : List Code) (h : ∀ x ∈ text, onKeys x = true) :
    Orderly .rest (textMoves text) ∧ keysText .rest (textMoves text) = text ∧ pairs (textMoves text) = true := by
  induction text with
  | nil => exact ⟨rfl, rfl, rfl⟩
  | cons x text ih =>
    obtain ⟨i1, i2, i3⟩ := ih fun y hy => h y (List.mem_cons_of_mem _ hy)
    have hx : onKeys (UInt8.ofNat x.toNat) = true := by
      rw [UInt8.ofNat_toNat]
      exact h x List.mem_cons_self
    have h1 := strokeMoves_ok x.toNat x.toNat_lt hx
    have h2 := strokeMoves_pairs x.toNat x.toNat_lt hx
    rw [UInt8.ofNat_toNat] at h1 h2
    obtain ⟨a1, a2⟩ := orderly_append h1.1.1 h1.1.2 i1
    have e : textMoves (x :: text) = strokeMoves x ++ textMoves text := rfl
    rw [e]
    refine ⟨a1, ?_, pairs_append h2 i3⟩
    rw [a2, h1.2, i2]
    rfl

theorem orderly_rows {zs : List Place} : ∀ {s : Fingers}, Orderly s zs → ∀ z ∈ zs, z.row ≠ 8 := by
  induction zs with
  | nil => exact fun _ z hz => (List.not_mem_nil hz).elim
  | cons w zs ih =>
    intro s h z hz
    obtain ⟨hM, h⟩ := h
    rcases List.mem_cons.mp hz with rfl | hz
    · exact mayMove_row hM
    · exact ih h z hz

theorem paced_held {times : List (Nat → Nat)} {z : Place} (hz : (legendOf z).isSome = true) :
    ∀ {ms : List TimedMove} {c : Nat}, Paced times c ms → pairs (ms.map (·.key)) = true → HeldTimes times 525 z none ms
  | [], _, _, _ => trivial
  | m :: ms, c, h, hp => by
    obtain ⟨h1, h2, h3⟩ := h
    rw [List.map_cons] at hp
    unfold pairs at hp
    show HeldTimes times 525 z (if m.key = z then some (scansBefore times z.row m.begins) else none) ms
    by_cases hk : (legendOf m.key).isSome = true
    · rw [if_pos hk] at hp
      cases ms with
      | nil => cases hp
      | cons m' ms =>
        simp only [List.map_cons, Bool.and_eq_true, beq_iff_eq] at hp
        obtain ⟨g1, g2, g3⟩ := h3
        have ih := paced_held hz g3 hp.2
        by_cases e : m.key = z
        · rw [if_pos e]
          show if m'.key = z then scansBefore times z.row m'.ends ≤ _ + 525 ∧ HeldTimes times 525 z none ms else _
          rw [if_pos (hp.1 ▸ e), h2, g1, g2]
          exact ⟨by omega, ih⟩
        · rw [if_neg e]
          show HeldTimes times 525 z (if m'.key = z then some (scansBefore times z.row m'.begins) else none) ms
          rw [if_neg (hp.1 ▸ e)]
          exact ih
    · rw [if_neg hk] at hp
      rw [if_neg fun e : m.key = z => hk (e ▸ hz)]
      exact paced_held hz h3 hp
  termination_by ms => ms.length

/-! ## The text arrives -/

/-- The looks and the scans of a run during which a text is typed. -/
theorem text_typed {X : C.Board} {B : Board} {T : Whole.Target} (hX : Compiled X B T) (other : Nat → Port → UInt8)
    (fires : Nat → Bool) (hT : Ticking fires) (r0 : Regs) (sr : UInt8) (text : List Code) (h : ∀ x ∈ text, onKeys x = true) :
    ∃ ms last, SafeWorld (worldOf other fires ms) ∧ ms.map (·.key) = textMoves text ∧ ∀ polls, last ≤ polls → ∃ g,
      AtLook X (worldOf other fires ms) r0 sr polls g ∧
      ∀ times w n, 65536 ≤ w → polls < w → 23 ≤ n → g.found = times.length →
        BetweenLooks X (worldOf other fires ms) w n r0 sr polls times → CarefulFingers times ms := by
  obtain ⟨t1, t2, t3⟩ := textMoves_ok text h
  obtain ⟨ms, hk, hm⟩ := paced_exists hX (other := other) hT r0 sr (textMoves text) (orderly_rows t1)
  have hW := worldOf_safe other fires hm.rows
  obtain ⟨last, g0, e0, hf⟩ := C100_ticking X B T hX _ hW hT r0 sr (20 * (ms.length + 1))
  refine ⟨ms, last, hW, hk, fun polls hle => ?_⟩
  obtain ⟨d, rfl⟩ : ∃ d, polls = last + d := ⟨polls - last, by omega⟩
  obtain ⟨g, e⟩ := C100_looks X B T hX _ hW r0 sr (last + d)
  have hf : 20 * (ms.length + 1) ≤ g.found := by
    have := (looks_mono hX hW e0 d e).1
    omega
  refine ⟨g, e, ?_⟩
  intro times w n hw hp hn hl hb
  have hP := paced_times hX hm e hf hw hp hn hl hb
  exact ⟨by rw [hk]; exact t1, (paced_timing hP).1, fun z _ hz => paced_held hz hP (by rw [hk]; exact t3)⟩

/-- **C101, on the ATmega328P interface.**  The classic keyboard in any electrical state at power-up,
run by the text of the firmware, with a timer that does not stop and anything at the other pins.  For
every text of ASCII characters other than `^`, `_`, 0x1E and 0x1F there are times to press and release
its keys, one after the other, so that from some time on the computer has read exactly this text. -/
theorem C101_every_text_328 (A : Assembly) (h : (A, classicPlaces) ∈ boards328 classicPlaces solPlaces)
    (sockets : List (Nat × List (Nat × Signal))) (hA : (A, sockets) ∈ plugged328)
    (k : Nat) (lines : List (Nat × Signal)) (hk : (k, lines) ∈ sockets) (pin : Nat)
    (hpin : (pin, .strobe) ∈ lines) (other : Nat → Port → UInt8) (fires : Nat → Bool) (hT : Ticking fires)
    (r0 : Regs) (sr : UInt8) (text : List Code) (ht : ∀ x ∈ text, onKeys x = true) :
    ∃ (sw : Nat → Sw → Bool) (ms : List TimedMove) (last : Nat),
      SwitchesFollow sw ms ∧ Orderly .rest (ms.map (·.key)) ∧ keysText .rest (ms.map (·.key)) = text ∧
      ∀ polls, last ≤ polls → ∃ (hh : C.Hw) (log : List Regs),
      AtLook C.board328 ⟨fun t => closedKeys classicPlaces (sw t), other, fires⟩ r0 sr polls hh ∧
      statesOf hh = boardStates m328 r0 [.archInit] ++ log ∧
      ∀ edge v vs, AtSocket328 A k lines (boardAfter m328 r0 [.archInit]) v →
        Watches (AtSocket328 A k lines) log vs → computerReads lines edge v vs = text := by
  obtain ⟨ms, last, _, hk', hl⟩ := text_typed (.inl ⟨rfl, rfl, rfl⟩) other fires hT r0 sr text ht
  obtain ⟨ho, hx, _⟩ := textMoves_ok text ht
  rw [← hk'] at ho hx
  refine ⟨switchesOf ms, ms, last, follows_switchesOf ms, ho, hx, fun polls hle => ?_⟩
  obtain ⟨g, e, hC⟩ := hl polls hle
  obtain ⟨times, hi, hh, log, e0, e1, e2, e3, e4, e5, e6, e7⟩ := C99_computer_328 A h sockets hA k lines hk pin hpin
    (switchesOf ms) (worldOf other fires ms) (worldOf_switch _ _ _) ms (follows_switchesOf ms) ho r0 sr polls (65536 + polls) 23
    (by omega) (by omega) (by omega)
  rw [e _ 23 (by omega) (by omega) (by omega)] at e2
  cases e2
  refine ⟨_, log, e, e6, ?_⟩
  rw [← hx]
  exact e7 (hC times (65536 + polls) 23 (by omega) (by omega) (by omega) e4 e0)

/-- **C101, with the ATmega2560.** -/
theorem C101_every_text_2560 (A : Assembly) (h : (A, classicPlaces) ∈ boards2560 classicPlaces solPlaces)
    (out : Net → Prop) (hout : ∀ n, out n → Outside A n) (cols : (Sw → Bool) → Regs → UInt8)
    (hcols : ∀ closed r, rowReady2560 r →
      ReadsLevels A.links (column2560 A) closed (fun n => Low2560 A r n ∨ out n) (cols closed r))
    (sockets : List (Nat × List (Nat × Signal))) (hA : (A, sockets) ∈ plugged2560)
    (k : Nat) (lines : List (Nat × Signal)) (hk : (k, lines) ∈ sockets) (pin : Nat)
    (hpin : (pin, .strobe) ∈ lines) :
    ∃ f, (∀ closed r, rowReady2560 r → f (closedKeys classicPlaces closed) r = cols closed r) ∧
      ∀ (other : Nat → Port → UInt8) (fires : Nat → Bool), Ticking fires →
      ∀ (r0 : Regs) (sr : UInt8) (text : List Code), (∀ x ∈ text, onKeys x = true) →
        ∃ (sw : Nat → Sw → Bool) (ms : List TimedMove) (last : Nat),
          SwitchesFollow sw ms ∧ Orderly .rest (ms.map (·.key)) ∧ keysText .rest (ms.map (·.key)) = text ∧
          ∀ polls, last ≤ polls → ∃ (hh : C.Hw) (log : List Regs),
          AtLook (C.board2560 f) ⟨fun t => closedKeys classicPlaces (sw t), other, fires⟩ r0 sr polls hh ∧
          statesOf hh = boardStates m2560 r0 [.archInit] ++ log ∧
          ∀ edge v vs, AtSocket2560 A k lines (boardAfter m2560 r0 [.archInit]) v →
            Watches (AtSocket2560 A k lines) log vs → computerReads lines edge v vs = text := by
  obtain ⟨f, hf, hfc⟩ := columns_2560 A _ h out hout cols hcols
  refine ⟨f, hfc, fun other fires hT r0 sr text ht => ?_⟩
  have hX : Compiled (C.board2560 f) m2560 (Whole.target2560 f) := .inr ⟨f, hf, rfl, rfl, rfl⟩
  obtain ⟨ms, last, hW, hk', hl⟩ := text_typed hX other fires hT r0 sr text ht
  obtain ⟨ho, hx, _⟩ := textMoves_ok text ht
  rw [← hk'] at ho hx
  refine ⟨switchesOf ms, ms, last, follows_switchesOf ms, ho, hx, fun polls hle => ?_⟩
  obtain ⟨g, e, hC⟩ := hl polls hle
  have hd := fun t => follows_open (follows_switchesOf ms) ho t
  obtain ⟨times, hi, hh, log, e0, e1, e2, e3, e4, e5, e6, e7⟩ := text_watched hX (boards2560_places h)
    (worldOf_switch other fires ms) hW (dip7_open hd) r0 sr (polls := polls) (w := 65536 + polls) (n := 23) (by omega) (by omega) (by omega)
  rw [e _ 23 (by omega) (by omega) (by omega)] at e2
  cases e2
  refine ⟨_, log, e, e6, fun edge v vs hv hvs => ?_⟩
  rw [e7 lines pin hpin
    (seven_lines _ (List.mem_append_right _ hA) _ hk (List.any_eq_true.mpr ⟨_, hpin, rfl⟩)) edge v vs
    (shows_2560 hA hk hv) (watches_mono (fun _ _ => shows_2560 hA hk) hvs),
    show (channel _ _).host = _ from fingers_received e1 (follows_switchesOf ms)
      (hC times (65536 + polls) 23 (by omega) (by omega) (by omega) e4 e0), List.map_map, hx]
  exact List.map_id _

/-! ## Non-vacuity -/

example : (∀ x ∈ "10 PRINT \"Hello, world\"\n".toList.map ch, onKeys x = true) ∧
    Ticking fun t => decide (t % 1000 < 3) :=
  ⟨by decide, fun t => by refine ⟨1000 * t, by omega, ?_, ?_, ?_⟩ <;> refine decide_eq_true ?_ <;> omega⟩

end Asdf.Props
