import Verif.Lemmas.BoardFacts328
import Verif.Lemmas.BoardFacts2560
import Verif.Lemmas.Whole

/-! # Property C80: the key matrix of the boards -/

namespace Asdf.Props

open Avr Spec Pcb

/-! ## Bytes -/

theorem bit_oneBit (c d : Nat) (hc : c < 8) (hd : d < 8) : bitOf (oneBit d) c = decide (d = c) := by
  have : ∀ c < 8, ∀ d < 8, bitOf (oneBit d) c = decide (d = c) := by decide
  exact this c hc d hd

theorem foldl_closed (closed : Sw → Bool) (row c : Nat) (hc : c < 8) (ps : List Place)
    (h : ∀ p ∈ ps, p.col < 8) (b : UInt8) :
    bitOf (ps.foldl (fun b p => if p.row = row ∧ closed p.sw = true then b ||| oneBit p.col else b) b) c =
      true ↔ bitOf b c = true ∨ ∃ p ∈ ps, p.col = c ∧ closed p.sw = true ∧ p.row = row := by
  induction ps generalizing b with
  | nil => simp
  | cons q ps ih =>
    rw [List.foldl_cons, ih (fun p hp => h p (List.mem_cons_of_mem _ hp))]
    by_cases hq : q.row = row ∧ closed q.sw = true
    · rw [if_pos hq, bitOf_or, bit_oneBit c q.col hc (h q List.mem_cons_self), Bool.or_eq_true, or_assoc,
        decide_eq_true_eq]
      simp [hq]
    · rw [if_neg hq]
      simp only [List.mem_cons, exists_eq_or_imp]
      constructor
      · rintro (h | h)
        · exact .inl h
        · exact .inr (.inr h)
      · rintro (h | h | h)
        · exact .inl h
        · exact absurd ⟨h.2.2, h.2.1⟩ hq
        · exact .inr h

/-- The byte of a row has a 1 for every closed switch of the row. -/
theorem closedKeys_bit {ps : List Place} (h : ∀ p ∈ ps, p.col < 8) (closed : Sw → Bool) (row c : Nat)
    (hc : c < 8) :
    bitOf (closedKeys ps closed row) c = true ↔ ∃ p ∈ ps, p.col = c ∧ closed p.sw = true ∧ p.row = row := by
  unfold closedKeys
  rw [foldl_closed closed row c hc ps h, bitOf_zero]
  simp

theorem places_cols : ∀ p ∈ classicPlaces ++ solPlaces, p.col < 8 := by decide +kernel

/-! ## The ATmega328P interface -/

theorem facts328 {x : Assembly × List Place} (h : x ∈ boards328 classicPlaces solPlaces) :
    (∃ R ws, boardOk328 x.1 R x.2 ws = true) ∧ ∀ p ∈ x.2, p.col < 8 := by
  have c1 : ∀ p ∈ classicPlaces, p.col < 8 := fun p hp => places_cols p (List.mem_append_left _ hp)
  have c2 : ∀ p ∈ solPlaces, p.col < 8 := fun p hp => places_cols p (List.mem_append_right _ hp)
  simp only [boards328, List.mem_cons, List.not_mem_nil, or_false] at h
  rcases h with rfl | rfl | rfl | rfl
  · exact ⟨⟨_, _, classic328_ok false⟩, c1⟩
  · exact ⟨⟨_, _, classic328_ok true⟩, c1⟩
  · exact ⟨⟨_, _, sol328_ok false⟩, c2⟩
  · exact ⟨⟨_, _, sol328_ok true⟩, c2⟩

/-- **C80 on the ATmega328P.**  Whatever switches are closed, whatever the firmware
drives on its other pins, and whatever is pulled low from outside: when the
controller puts out a row number, a column line is low exactly when a switch of that
row and column is closed.  No combination of closed switches makes another key appear
(no ghost keys). -/
theorem C80_columns_328 (A : Assembly) (ps : List Place) (h : (A, ps) ∈ boards328 classicPlaces solPlaces)
    (r : Regs) (hr : ∀ p ∈ rowPins328, isOutput r p = true)
    (q : Bool) (closed : Sw → Bool) (ext : Net → Prop)
    (hext : ∀ n, ext n → Outside A n) (c : Nat) (hc : c < 8) :
    ∃ n, column328 A c = some n ∧
      (PulledLow A.links closed (fun n => Low328 A r q n ∨ ext n) n ↔
        ∃ p ∈ ps, p.row = M328.rowLines r ∧ p.col = c ∧ closed p.sw = true) := by
  obtain ⟨⟨R, ws, hok⟩, _⟩ := facts328 h
  have hm : matrixOk A.links R ps ws (column328 A) (driver328 A) = true := by
    simp only [boardOk328, Bool.and_eq_true] at hok
    exact hok.1.1.1
  obtain ⟨n, hn, _⟩ := (matrix_lines hm).1 c hc
  refine ⟨n, hn, ((board328 hok hr q closed hext).1 c n hc hn).trans ?_⟩
  constructor
  · rintro ⟨p, hp, h1, h2, h3⟩
    exact ⟨p, hp, h3.symm, h1, h2⟩
  · rintro ⟨p, hp, h1, h2, h3⟩
    exact ⟨p, hp, h2, h3, h1.symm⟩

/-- **C80, the shift register loads the closed keys.**  The byte that the shift register
takes over when it is loaded is the one the model of the row reader loads
(`Avr.M328.shiftReg`), for the closed switches of the board. -/
theorem C80_shift_register (A : Assembly) (ps : List Place) (h : (A, ps) ∈ boards328 classicPlaces solPlaces)
    (r : Regs) (hr : ∀ p ∈ rowPins328, isOutput r p = true)
    (q : Bool) (closed : Sw → Bool) (ext : Net → Prop)
    (hext : ∀ n, ext n → Outside A n) (b : UInt8)
    (hb : ReadsLevels A.links (column328 A) closed (fun n => Low328 A r q n ∨ ext n) b) :
    b = ~~~ closedKeys ps closed (M328.rowLines r) := by
  refine byte_ext fun c hc => ?_
  obtain ⟨n, hn, hp⟩ := C80_columns_328 A ps h r hr q closed ext hext c hc
  have h1 := (hb c n hc hn).trans hp
  have h2 := closedKeys_bit (facts328 h).2 closed (M328.rowLines r) c hc
  rw [bitOf_not _ _ hc, Bool.eq_iff_iff, ← Bool.not_eq_false, h1, Bool.not_eq_true', ← Bool.not_eq_true, h2]
  constructor
  · rintro hh ⟨p, hp, k1, k2, k3⟩
    exact hh ⟨p, hp, k3, k1, k2⟩
  · rintro hh ⟨p, hp, k1, k2, k3⟩
    exact hh ⟨p, hp, k2, k3, k1⟩

/-- **C80, no fights between row lines.**  A row line is low exactly when its own driver
pulls it low: no combination of closed switches connects a low row line to a high one. -/
theorem C80_rows_328 (A : Assembly) (ps : List Place) (h : (A, ps) ∈ boards328 classicPlaces solPlaces)
    (r : Regs) (hr : ∀ p ∈ rowPins328, isOutput r p = true)
    (q : Bool) (closed : Sw → Bool) (ext : Net → Prop)
    (hext : ∀ n, ext n → Outside A n) (k : Nat) (hk : k < 16) :
    ∃ n, driver328 A k = some n ∧
      (PulledLow A.links closed (fun n => Low328 A r q n ∨ ext n) n ↔ M328.rowLines r = k) := by
  obtain ⟨⟨R, ws, hok⟩, _⟩ := facts328 h
  have hm : matrixOk A.links R ps ws (column328 A) (driver328 A) = true := by
    simp only [boardOk328, Bool.and_eq_true] at hok
    exact hok.1.1.1
  obtain ⟨n, hn, _⟩ := (matrix_lines hm).2 k hk
  exact ⟨n, hn, (board328 hok hr q closed hext).2 k n hk hn⟩

/-! ## The boards with the ATmega2560 -/

theorem facts2560 {x : Assembly × List Place} (h : x ∈ boards2560 classicPlaces solPlaces) :
    (∃ R ws, boardOk2560 x.1 R x.2 ws = true) ∧ ∀ p ∈ x.2, p.col < 8 ∧ p.row < 16 := by
  have key : (∃ R ws, boardOk2560 x.1 R x.2 ws = true) := by
    simp only [boards2560, List.mem_cons, List.not_mem_nil, or_false] at h
    rcases h with rfl | rfl | rfl | rfl | rfl | rfl | rfl | rfl | rfl
    · exact ⟨_, _, classic2560_ok false⟩
    · exact ⟨_, _, classic2560_ok true⟩
    · exact ⟨_, _, sol2560_ok false⟩
    · exact ⟨_, _, sol2560_ok true⟩
    · exact ⟨_, _, sol1_ok⟩
    · exact ⟨_, _, classicEnc_ok false⟩
    · exact ⟨_, _, classicEnc_ok true⟩
    · exact ⟨_, _, solEnc_ok false⟩
    · exact ⟨_, _, solEnc_ok true⟩
  refine ⟨key, fun p hp => ?_⟩
  obtain ⟨R, ws, hok⟩ := key
  simp only [boardOk2560, matrixOk, Bool.and_eq_true] at hok
  have := ways_sound hok.1.1.2 hp
  exact ⟨this.2.1, this.1⟩

/-- **C80 on the ATmega2560.**  The same, for any set of row lines driven low at once. -/
theorem C80_columns_2560 (A : Assembly) (ps : List Place) (h : (A, ps) ∈ boards2560 classicPlaces solPlaces)
    (r : Regs) (hr : rowReady2560 r) (closed : Sw → Bool) (ext : Net → Prop)
    (hext : ∀ n, ext n → Outside A n) (c : Nat) (hc : c < 8) :
    ∃ n, column2560 A c = some n ∧
      (PulledLow A.links closed (fun n => Low2560 A r n ∨ ext n) n ↔
        ∃ p ∈ ps, drive r (rowLine2560 p.row) = .low ∧ p.col = c ∧ closed p.sw = true) := by
  obtain ⟨⟨R, ws, hok⟩, _⟩ := facts2560 h
  have hm : matrixOk A.links R ps ws (column2560 A) (driver2560 A) = true := by
    simp only [boardOk2560, Bool.and_eq_true] at hok
    exact hok.1.1
  obtain ⟨n, hn, _⟩ := (matrix_lines hm).1 c hc
  refine ⟨n, hn, ((board2560 hok hr closed hext).1 c n hc hn).trans ?_⟩
  constructor
  · rintro ⟨p, hp, h1, h2, h3⟩
    exact ⟨p, hp, h3, h1, h2⟩
  · rintro ⟨p, hp, h1, h2, h3⟩
    exact ⟨p, hp, h2, h3, h1⟩

/-- **C80, a matrix with diodes.**  The boards with the ATmega2560 are key matrices as
C42 and the whole-keyboard properties assume. -/
theorem C80_matrix_2560 (A : Assembly) (ps : List Place) (h : (A, ps) ∈ boards2560 classicPlaces solPlaces)
    (closed : Sw → Bool) (ext : Net → Prop) (hext : ∀ n, ext n → Outside A n) (cols : Regs → UInt8)
    (hb : ∀ r, rowReady2560 r →
      ReadsLevels A.links (column2560 A) closed (fun n => Low2560 A r n ∨ ext n) (cols r)) :
    matrixColumns (closedKeys ps closed) cols := by
  intro r c hr hc
  obtain ⟨n, hn, hp⟩ := C80_columns_2560 A ps h r hr closed ext hext c hc
  have hcols := (facts2560 h).2
  rw [(hb r hr c n hc hn).trans hp]
  constructor
  · rintro ⟨p, hp, k1, k2, k3⟩
    exact ⟨p.row, (hcols p hp).2, k1,
      (closedKeys_bit (fun p hp => (hcols p hp).1) closed _ c hc).mpr ⟨p, hp, k2, k3, rfl⟩⟩
  · rintro ⟨k, _, k1, k2⟩
    obtain ⟨p, hp, h1, h2, h3⟩ := (closedKeys_bit (fun p hp => (hcols p hp).1) closed k c hc).mp k2
    exact ⟨p, hp, h3 ▸ k1, h1, h2⟩

theorem matrix_unique {keys : Nat → UInt8} {a b : Regs → UInt8} (ha : matrixColumns keys a)
    (hb : matrixColumns keys b) {r : Regs} (hr : rowReady2560 r) : a r = b r :=
  byte_ext fun c hc => by
    have := (ha r c hr hc).trans (hb r c hr hc).symm
    cases h1 : bitOf (a r) c <;> cases h2 : bitOf (b r) c <;> simp_all

theorem readRow_unique {keys : Nat → UInt8} {a b : Regs → UInt8} (ha : matrixColumns keys a)
    (hb : matrixColumns keys b) {r : Regs} (hr : rowReady2560 r) (row : UInt8) :
    M2560.readRow a row r = M2560.readRow b row r := by
  unfold M2560.readRow
  cases M2560.rowBytes row with
  | none => rfl
  | some x =>
    have h : rowReady2560 (exec .sbi (fun _ => 0) r (M2560.rowOps x.1 x.2)) := hr
    show Except.ok _ = Except.ok _
    rw [matrix_unique ha hb h]

/-- The bytes at the column port, as a function of the keys. -/
theorem columns_2560 (A : Assembly) (ps : List Place) (h : (A, ps) ∈ boards2560 classicPlaces solPlaces)
    (ext : Net → Prop) (hext : ∀ n, ext n → Outside A n) (cols : (Sw → Bool) → Regs → UInt8)
    (hb : ∀ closed r, rowReady2560 r →
      ReadsLevels A.links (column2560 A) closed (fun n => Low2560 A r n ∨ ext n) (cols closed r)) :
    ∃ f : (Nat → UInt8) → Regs → UInt8, (∀ keys, matrixColumns keys (f keys)) ∧
      ∀ closed r, rowReady2560 r → f (closedKeys ps closed) r = cols closed r := by
  classical
  let f : (Nat → UInt8) → Regs → UInt8 := fun keys =>
    if h : ∃ closed, closedKeys ps closed = keys then cols h.choose else exampleColumns keys
  have hf : ∀ keys, matrixColumns keys (f keys) := by
    intro keys
    show matrixColumns keys (if h : ∃ closed, closedKeys ps closed = keys then cols h.choose
      else exampleColumns keys)
    by_cases hk : ∃ closed, closedKeys ps closed = keys
    · rw [dif_pos hk]
      have := C80_matrix_2560 A ps h hk.choose ext hext _ (hb hk.choose)
      rw [hk.choose_spec] at this
      exact this
    · rw [dif_neg hk]
      exact C42_matrix_exists keys
  exact ⟨f, hf, fun closed r hr => matrix_unique (hf _) (C80_matrix_2560 A ps h closed ext hext _ (hb closed)) hr⟩

/-- **C80, the whole keyboard.**  Each of the boards with the ATmega2560 is one of the
keyboards the whole-keyboard properties (C59 on) speak about: there is a target that
is `Built` and that reads rows as the board does, whatever switches are closed. -/
theorem C80_built (A : Assembly) (ps : List Place) (h : (A, ps) ∈ boards2560 classicPlaces solPlaces)
    (ext : Net → Prop) (hext : ∀ n, ext n → Outside A n) (cols : (Sw → Bool) → Regs → UInt8)
    (hb : ∀ closed r, rowReady2560 r →
      ReadsLevels A.links (column2560 A) closed (fun n => Low2560 A r n ∨ ext n) (cols closed r)) :
    ∃ T, Built m2560 T ∧ ∀ closed other sr row r, rowReady2560 r →
      T.read ⟨closedKeys ps closed, other, sr⟩ row r = M2560.readRow (cols closed) row r := by
  obtain ⟨f, hf, _⟩ := columns_2560 A ps h ext hext cols hb
  refine ⟨Whole.target2560 f, .inr ⟨rfl, f, hf, rfl⟩, fun closed other sr row r hr => ?_⟩
  exact readRow_unique (hf _) (C80_matrix_2560 A ps h closed ext hext _ (hb closed)) hr row

/-- **C80, no fights between row lines**, on the ATmega2560. -/
theorem C80_rows_2560 (A : Assembly) (ps : List Place) (h : (A, ps) ∈ boards2560 classicPlaces solPlaces)
    (r : Regs) (hr : rowReady2560 r) (closed : Sw → Bool) (ext : Net → Prop)
    (hext : ∀ n, ext n → Outside A n) (k : Nat) (hk : k < 16) :
    ∃ n, driver2560 A k = some n ∧
      (PulledLow A.links closed (fun n => Low2560 A r n ∨ ext n) n ↔ drive r (rowLine2560 k) = .low) := by
  obtain ⟨⟨R, ws, hok⟩, _⟩ := facts2560 h
  have hm : matrixOk A.links R ps ws (column2560 A) (driver2560 A) = true := by
    simp only [boardOk2560, Bool.and_eq_true] at hok
    exact hok.1.1
  obtain ⟨n, hn, _⟩ := (matrix_lines hm).2 k hk
  exact ⟨n, hn, (board2560 hok hr closed hext).2 k n hk hn⟩

/-! ## The positions -/

theorem switch_placed {ls : List Link} {R : Roles} {ps : List Place} (h : ls.all (linkOk ps R) = true)
    {s : Sw} {a b : Net} (hl : .switch s a b ∈ ls) : ∃ p ∈ ps, p.sw = s := by
  have hk := List.all_eq_true.mp h _ hl
  simp only [linkOk, switchOk] at hk
  split at hk
  all_goals first
    | (simp only [Bool.and_eq_true] at hk
       obtain ⟨p, hp, hs, _⟩ := placedAt_iff hk.2
       exact ⟨p, hp, hs⟩)
    | cases hk

/-- **C80, all switches.**  Every switch of the boards is in the list of positions. -/
theorem C80_all_switches (A : Assembly) (ps : List Place)
    (h : (A, ps) ∈ boards328 classicPlaces solPlaces ++ boards2560 classicPlaces solPlaces)
    (s : Sw) (a b : Net) (hl : .switch s a b ∈ A.links) : ∃ p ∈ ps, p.sw = s := by
  rcases List.mem_append.mp h with h | h
  · obtain ⟨⟨R, ws, hok⟩, _⟩ := facts328 h
    simp only [boardOk328, matrixOk, Bool.and_eq_true] at hok
    exact switch_placed hok.1.1.1.1.1 hl
  · obtain ⟨⟨R, ws, hok⟩, _⟩ := facts2560 h
    simp only [boardOk2560, matrixOk, Bool.and_eq_true] at hok
    exact switch_placed hok.1.1.1.1 hl

/-- **C80, one position each.**  No switch has two positions, and no two switches have
the same position. -/
theorem C80_positions : ∀ ps ∈ [classicPlaces, solPlaces],
    (ps.map (·.sw)).Nodup ∧ (ps.map fun p => (p.row, p.col)).Nodup := by decide +kernel

/-- **C80, labels.**  The labels in the lists of positions are those of the keys of the
boards. -/
theorem C80_labels : ∀ x ∈ [(Data.classic, classicPlaces), (Data.sol, solPlaces), (Data.solIntegrated, solPlaces)],
    ∀ p ∈ x.2, switchLabel x.1 p.sw = some p.label := by decide +kernel

/-- **C80, pull-ups.**  On the interface boards every column line has a resistor to the
supply; on the Sol-20 board with the controller the pull-ups are those of the
controller's column pins (`rowReady2560`, C42). -/
theorem C80_pullups : ∀ x ∈ [(classic328 false, column328), (classic2560 false, column2560)],
    ∃ p ∈ x.1.io, p.kind = .pullups ∧ p.net 1 = some x.1.vcc ∧
      ∀ c < 8, ∃ i < 10, i ≠ 1 ∧ (p.net i).isSome ∧ (p.net i).map Net.io = x.2 x.1 c := by
  decide +kernel

/-- **C80, the shift register.**  Its clock, mode and output pins are connected to the
controller pins of the row reader, its clock inhibit input is low and its clear input
high. -/
theorem C80_shift_register_pins : ∀ cut, ∀ A ∈ [classic328 cut, sol328 cut],
    inputOk A 2 7 ⟨.B, 2⟩ = true ∧ inputOk A 2 15 ⟨.B, 1⟩ = true ∧ inputOk A 2 13 ⟨.B, 0⟩ = true ∧
      A.chip 2 6 = some (.io A.gnd) ∧ A.chip 2 9 = some (.io A.vcc) := by decide +kernel

/-! ## Non-vacuity -/

/-- Three keys at three corners of a rectangle: without the diodes the fourth, `D`,
would seem to be closed. -/
def threeCorners : Sw → Bool := fun s => s ∈ [.key 54, .key 58, .key 60]

/-- The controller puts out row 3; the clock of the shift register is high. -/
def rowThree : Regs :=
  exec .sbi (fun _ => 0) (boardAfter m328 allZero [.archInit])
    [.mixPort .C (~~~ 0x0f) 3, .clrPort .B 1, .setPort .B 2]

example : M328.rowLines rowThree = 3 ∧ (∀ p ∈ rowPins328, isOutput rowThree p = true) := by decide +kernel

example : (⟨.key 54, "A", 1, 6⟩ ∈ classicPlaces ∧ ⟨.key 58, "Q", 1, 7⟩ ∈ classicPlaces ∧
    ⟨.key 60, "S", 3, 7⟩ ∈ classicPlaces ∧ ⟨.key 56, "D", 3, 6⟩ ∈ classicPlaces) ∧
    closedKeys classicPlaces threeCorners 1 = 0b11000000 ∧
    closedKeys classicPlaces threeCorners 3 = 0b10000000 := by decide +kernel

/-- On the board with the diodes, column 7 is low and column 6 is not. -/
example : ∃ a b, column328 (classic328 true) 7 = some a ∧ column328 (classic328 true) 6 = some b ∧
    PulledLow (classic328 true).links threeCorners (fun n => Low328 (classic328 true) rowThree true n ∨ False) a ∧
    ¬ PulledLow (classic328 true).links threeCorners
      (fun n => Low328 (classic328 true) rowThree true n ∨ False) b := by
  have hr : ∀ p ∈ rowPins328, isOutput rowThree p = true := by decide +kernel
  have hl : M328.rowLines rowThree = 3 := by decide +kernel
  have key := fun c hc => C80_columns_328 (classic328 true) classicPlaces (by simp [boards328]) rowThree hr true
    threeCorners (fun _ => False) (fun _ h => h.elim) c hc
  obtain ⟨a, ha, ha'⟩ := key 7 (by decide)
  obtain ⟨b, hb, hb'⟩ := key 6 (by decide)
  rw [hl] at ha' hb'
  refine ⟨a, b, ha, hb, ha'.mpr ⟨⟨.key 60, "S", 3, 7⟩, ?_, rfl, rfl, ?_⟩, fun h => ?_⟩
  · decide +kernel
  · decide
  · have : ¬ ∃ p ∈ classicPlaces, p.row = 3 ∧ p.col = 6 ∧ threeCorners p.sw = true := by decide +kernel
    exact this (hb'.mp h)

/-- The levels can be read: some byte has them, on the ATmega328P interface … -/
theorem C80_levels_328 (A : Assembly) (ps : List Place) (h : (A, ps) ∈ boards328 classicPlaces solPlaces)
    (r : Regs) (hr : ∀ p ∈ rowPins328, isOutput r p = true) (q : Bool) (closed : Sw → Bool)
    (ext : Net → Prop) (hext : ∀ n, ext n → Outside A n) :
    ReadsLevels A.links (column328 A) closed (fun n => Low328 A r q n ∨ ext n)
      (~~~ closedKeys ps closed (M328.rowLines r)) := by
  intro c n hc hn
  obtain ⟨n', hn', hp⟩ := C80_columns_328 A ps h r hr q closed ext hext c hc
  rw [hn] at hn'
  cases hn'
  rw [hp, bitOf_not _ _ hc, Bool.not_eq_false', closedKeys_bit (facts328 h).2 closed _ c hc]
  constructor
  · rintro ⟨p, hp, k1, k2, k3⟩
    exact ⟨p, hp, k3, k1, k2⟩
  · rintro ⟨p, hp, k1, k2, k3⟩
    exact ⟨p, hp, k2, k3, k1⟩

/-- … and with the ATmega2560. -/
theorem C80_levels_2560 (A : Assembly) (ps : List Place) (h : (A, ps) ∈ boards2560 classicPlaces solPlaces)
    (r : Regs) (hr : rowReady2560 r) (closed : Sw → Bool) (ext : Net → Prop)
    (hext : ∀ n, ext n → Outside A n) :
    ReadsLevels A.links (column2560 A) closed (fun n => Low2560 A r n ∨ ext n)
      (exampleColumns (closedKeys ps closed) r) := by
  intro c n hc hn
  obtain ⟨n', hn', hp⟩ := C80_columns_2560 A ps h r hr closed ext hext c hc
  rw [hn] at hn'
  cases hn'
  have hcols := (facts2560 h).2
  rw [hp, C42_matrix_exists (closedKeys ps closed) r c hr hc]
  constructor
  · rintro ⟨k, _, k1, k2⟩
    obtain ⟨p, hp, h1, h2, h3⟩ := (closedKeys_bit (fun p hp => (hcols p hp).1) closed k c hc).mp k2
    exact ⟨p, hp, h3 ▸ k1, h1, h2⟩
  · rintro ⟨p, hp, k1, k2, k3⟩
    exact ⟨p.row, (hcols p hp).2, k1,
      (closedKeys_bit (fun p hp => (hcols p hp).1) closed _ c hc).mpr ⟨p, hp, k2, k3, rfl⟩⟩

/-- The ATmega2560 can read rows after the start, and a plug to the outside has nets. -/
example : rowReady2560 (boardAfter m2560 allZero [.archInit]) ∧ Outside sol1 (.io sol1.gnd) :=
  ⟨C42_always_ready _ (.init _), 1, 1, by decide, by decide +kernel⟩

end Asdf.Props
