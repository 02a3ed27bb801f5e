import Verif.Lemmas.Rows

/-! # Properties C41 and C42: reading a row of keys -/

namespace Asdf.Props

open Avr Spec

/-! ## C41: the ATmega328P board -/

/-- **C41, value.**  Reading row `row` < 16 returns a byte whose bit `i` is 1 exactly
when the key in column `i` of that row is closed (`keys row` has the closed keys of
the row), whatever the shift register held, whatever the levels of the other inputs
of the port, and whatever the registers were, as long as the pins are configured. -/
theorem C41_value (keys : Nat → UInt8) (other row : UInt8) (w : M328.World)
    (h : rowReady328 w.regs) (hrow : row.toNat < 16) (i : Nat) (hi : i < 8) :
    bitOf (M328.readRow keys other row w).1 i = bitOf (keys row.toNat) i := by
  rw [Asdf.M328.readRow_bits keys other row h i hi, Nat.mod_eq_of_lt hrow]

/-- **C41, row numbers out of range.**  Only the low four bits of the row number count. -/
theorem C41_large_rows (keys : Nat → UInt8) (other row : UInt8) (w : M328.World)
    (h : rowReady328 w.regs) (i : Nat) (hi : i < 8) :
    bitOf (M328.readRow keys other row w).1 i = bitOf (keys (row.toNat % 16)) i :=
  Asdf.M328.readRow_bits keys other row h i hi

/-- **C41, other pins.**  No LED, output or strobe pin, and no other pin but the row
number, clock and mode pins, changes at any moment of the read. -/
theorem C41_other_pins (keys : Nat → UInt8) (other row sr : UInt8) (r r' : Regs)
    (hr : r' ∈ (M328.readRow keys other row ⟨r, sr, []⟩).2.log) : onlyPins rowPins328 r r' := by
  rw [Asdf.M328.readRow_world, (Asdf.M328.world_log keys _ _).1, List.nil_append] at hr
  exact onlyPins_of (Asdf.M328.rowOps_touch row) hr

/-- The pins a row read changes are none of the LED, output, strobe and data pins. -/
theorem C41_pins_disjoint : ∀ p ∈ rowPins328,
    p ∉ [m328.led1, m328.led2, m328.led3, m328.out1, m328.out2, m328.out3, m328.strobe] ∧
      p.port ≠ m328.data := by decide

/-- **C41, always.**  In every register state the firmware can be in after the
hardware was initialised, the pins are configured as `C41_value` asks. -/
theorem C41_always_ready (r : Regs) (h : Reached328 r) : rowReady328 r :=
  Asdf.M328.ready_reached h

/-- Non-vacuity: columns 0, 4 and 7 of row 3 are closed, LED1 is lit, every key of
the other rows is closed and the shift register holds junk. -/
example : (M328.readRow (fun n => if n = 3 then 0b10010001 else 0xff) 0xaa 3
    ⟨boardAfter m328 allZero [.archInit, .out PHYSICAL_LED1 1], 0x5a, []⟩).1 = 0b10010001 := by
  decide +kernel

example : Reached328 (boardAfter m328 allZero [.archInit]) := .init _

/-! ## C42: the ATmega2560 board -/

/-- **C42, row line.**  After row `row` < 16 was selected, its line and no other row
line is low, and it stays so until the columns are read. -/
theorem C42_row_line (cols : Regs → UInt8) (row : UInt8) (r : Regs) (h : rowReady2560 r)
    (hrow : row.toNat < 16) :
    ∃ v l r', M2560.readRow cols row r = .ok (v, l) ∧ l.getLast? = some r' ∧
      ∀ n, n < 16 → drive r' (rowLine2560 n) = if n = row.toNat then .low else .high := by
  obtain ⟨lo, hi, e, h1, h2⟩ := Asdf.M2560.readRow_ok cols row r (by omega)
  refine ⟨_, _, _, e, Asdf.M2560.states_last r lo hi, fun n hn => ?_⟩
  have hl := Asdf.M2560.lines r lo hi row.toNat h1 h2 n hn
  have ho : isOutput (exec .sbi (fun _ => 0) r (M2560.rowOps lo hi)) (rowLine2560 n) = true := h.1 n hn
  unfold drive
  rw [hl, ho]
  by_cases hc : n = row.toNat
  · rw [if_pos hc, decide_eq_false (not_not_intro hc)]
  · rw [if_neg hc, decide_eq_true hc]

/-- **C42, value.**  The byte returned has bit `i` set exactly when column `i` reads
low in the final register state. -/
theorem C42_value (cols : Regs → UInt8) (row : UInt8) (r : Regs) (h : rowReady2560 r)
    (hrow : row.toNat < 31) :
    ∃ v l r', M2560.readRow cols row r = .ok (v, l) ∧ l.getLast? = some r' ∧
      ∀ i, i < 8 → bitOf v i = !bitOf (cols r') i := by
  obtain ⟨lo, hi, e, _, _⟩ := Asdf.M2560.readRow_ok cols row r hrow
  refine ⟨_, _, _, e, Asdf.M2560.states_last r lo hi, fun i hi' => ?_⟩
  have ho : isOutput (exec .sbi (fun _ => 0) r (M2560.rowOps lo hi)) ⟨.C, i⟩ = false := (h.2 i hi').1
  rw [bitOf_not _ _ hi', Asdf.M2560.pinValue_input _ .C _ i hi' ho]

/-- **C42 with a key matrix.**  With a matrix with diodes connected, the byte has
exactly the closed keys of the row. -/
theorem C42_matrix (keys : Nat → UInt8) (cols : Regs → UInt8) (hk : matrixColumns keys cols)
    (row : UInt8) (r : Regs) (h : rowReady2560 r) (hrow : row.toNat < 16) :
    ∃ v l, M2560.readRow cols row r = .ok (v, l) ∧
      ∀ i, i < 8 → bitOf v i = bitOf (keys row.toNat) i := by
  obtain ⟨v, l, r', e, hl, hv⟩ := C42_value cols row r h (by omega)
  obtain ⟨v2, l2, r2, e2, hl2, hd⟩ := C42_row_line cols row r h hrow
  rw [e] at e2
  injection e2 with e2
  rw [Prod.mk.injEq] at e2
  rw [← e2.2, hl] at hl2
  injection hl2 with hl2
  subst hl2
  refine ⟨v, l, e, fun i hi => ?_⟩
  rw [hv i hi]
  have hc := hk r' i (Asdf.M2560.ready_read h cols row v l e hl) hi
  cases hb : bitOf (keys row.toNat) i with
  | true =>
    rw [hc.mpr ⟨row.toNat, hrow, by rw [hd _ hrow, if_pos rfl], hb⟩]; rfl
  | false =>
    have : bitOf (cols r') i ≠ false := by
      intro hf
      obtain ⟨n, hn, hlow, hkn⟩ := hc.mp hf
      rw [hd n hn] at hlow
      by_cases hnr : n = row.toNat
      · subst hnr; rw [hb] at hkn; cases hkn
      · rw [if_neg hnr] at hlow; cases hlow
    rw [(Bool.not_eq_false _).mp this]; rfl

/-- **C42, other pins.**  Only row lines change, at any moment, for every row number. -/
theorem C42_other_pins (cols : Regs → UInt8) (row v : UInt8) (r r' : Regs) (l : List Regs)
    (he : M2560.readRow cols row r = .ok (v, l)) (hr : r' ∈ l) :
    onlyPins (pinsOf .J ++ pinsOf .A) r r' := by
  by_cases hrow : row.toNat < 31
  · obtain ⟨lo, hi, e, _, _⟩ := Asdf.M2560.readRow_ok cols row r hrow
    rw [e] at he
    injection he with he
    rw [Prod.mk.injEq] at he
    rw [← he.2] at hr
    have hw : r' ∈ states .sbi (fun _ => 0) r (M2560.rowOps lo hi) := hr
    intro p _ hnot
    have hpa : p.port ≠ .A ∧ p.port ≠ .J := by
      have key : ∀ b, b < 8 → (⟨.A, b⟩ : Pin) ∈ pinsOf .J ++ pinsOf .A ∧
          (⟨.J, b⟩ : Pin) ∈ pinsOf .J ++ pinsOf .A := by decide
      obtain ⟨q, b⟩ := p
      constructor
      · rintro rfl; exact hnot (key b (by assumption)).1
      · rintro rfl; exact hnot (key b (by assumption)).2
    simp only [M2560.rowOps, states, List.mem_cons, List.not_mem_nil, or_false] at hw
    have h1 : ∀ (f : Port → UInt8) v, upd f .A v p.port = f p.port := fun f v => upd_ne f v hpa.1
    have h2 : ∀ (f : Port → UInt8) v, upd f .J v p.port = f p.port := fun f v => upd_ne f v hpa.2
    rcases hw with rfl | rfl | rfl | rfl <;>
      simp only [level, isOutput, access, h1, h2, and_self]
  · have : M2560.readRow cols row r = .error .overflow := by
      unfold M2560.readRow M2560.rowBytes
      rw [if_neg hrow]
    rw [this] at he
    cases he

/-- **C42, always.**  In every register state the firmware can be in after the
hardware was initialised, the pins are configured as the theorems above ask. -/
theorem C42_always_ready (r : Regs) (h : Reached2560 r) : rowReady2560 r :=
  Asdf.M2560.ready_reached h

/-- Row numbers from 31 on make the shift undefined; the shipped keymaps use rows
up to 12 only. -/
theorem C42_row_31_undefined (cols : Regs → UInt8) (r : Regs) :
    M2560.readRow cols 31 r = .error .overflow := rfl

/-- While a row is being selected, the line of the previous row in the other half
may still be low too; the columns are not read at that moment. -/
theorem C42_transient_two_lines :
    ∃ r l x v, Reached2560 r ∧ M2560.readRow (fun _ => 0xff) 3 r = .ok (v, l) ∧ x ∈ l ∧
      drive x (rowLine2560 3) = .low ∧ drive x (rowLine2560 9) = .low := by
  refine ⟨exec .sbi (fun _ => 0) (boardAfter m2560 allZero [.archInit]) (M2560.rowOps 0xff 0xfd), _, _, _,
    ?_, rfl, List.mem_cons_self, ?_, ?_⟩
  · exact .read (.init allZero) (fun _ => 0xff) 9 0 _ rfl rfl
  · decide +kernel
  · decide +kernel

/-- A key matrix with diodes, as a function. -/
def exampleColumns (keys : Nat → UInt8) (r : Regs) : UInt8 :=
  ~~~ ((List.range 16).foldl
    (fun acc n => if drive r (rowLine2560 n) = .low then acc ||| keys n else acc) 0)

theorem foldl_or_bit (keys : Nat → UInt8) (r : Regs) (c : Nat) (l : List Nat) (a : UInt8) :
    bitOf (l.foldl (fun acc n => if drive r (rowLine2560 n) = .low then acc ||| keys n else acc) a) c =
      true ↔ bitOf a c = true ∨ ∃ n ∈ l, drive r (rowLine2560 n) = .low ∧ bitOf (keys n) c = true := by
  induction l generalizing a with
  | nil => simp
  | cons n l ih =>
    rw [List.foldl_cons, ih]
    by_cases hd : drive r (rowLine2560 n) = .low
    · rw [if_pos hd, bitOf_or, Bool.or_eq_true, or_assoc]
      simp [hd]
    · rw [if_neg hd]
      simp [hd]

/-- Non-vacuity: every assignment of closed keys is realised by a column function. -/
theorem C42_matrix_exists (keys : Nat → UInt8) : matrixColumns keys (exampleColumns keys) := by
  intro r c _ hc
  unfold exampleColumns
  rw [bitOf_not _ _ hc, Bool.not_eq_false', foldl_or_bit, bitOf_zero]
  simp

/-- Non-vacuity: reading row 9 with keys closed in all rows. -/
example : (match M2560.readRow (exampleColumns fun n => UInt8.ofNat (17 * n)) 9
    (boardAfter m2560 allZero [.archInit]) with
    | .ok x => x.1
    | .error _ => 0) = UInt8.ofNat (17 * 9) := by decide +kernel

end Asdf.Props
