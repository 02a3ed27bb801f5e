import Verif.Spec.Osi
import Verif.Lemmas.Osi

/-! # Property C76: reading an OSI keyboard

The row reader for OSI keyboards is not used by any shipped keymap. -/

namespace Asdf.Props

open Avr Spec

/-- **C76, row selection.**  Reading row `row` < 8 writes to the keyboard a byte that
selects this row and no other, whatever was selected before, and at the end of it the
keyboard is being read, with the controller's side of the bus switched to input. -/
theorem C76_selects (cols : Regs → UInt8) (row latch : UInt8) (r : Regs) (h : osiWired r)
    (hrow : row.toNat < 8) :
    ∃ v l r', M2560.osiReadRow cols row r = .ok (v, l) ∧ l.getLast? = some r' ∧
      (∀ n, n < 8 → bitOf (osiLatch latch r l) n = decide (n = row.toNat)) ∧
      osiTalks r' ∧ (∀ i, i < 8 → isOutput r' ⟨.C, i⟩ = false) ∧
      ∀ i, i < 8 → bitOf v i = bitOf (cols r') i := by
  refine ⟨_, _, _, Osi.ok cols row r hrow, rfl, ?_, Osi.talks row r h,
    fun i _ => Osi.inputs row r i, ?_⟩
  · intro n hn
    rw [Osi.latch latch row r h]
    exact Osi.oneHot row hrow n hn
  · intro i hi
    exact Asdf.M2560.pinValue_input _ .C _ i hi (Osi.inputs row r i)

/-- **C76, value.**  With an OSI keyboard connected, the byte returned has exactly the
closed keys of the row. -/
theorem C76_value (keys : Nat → UInt8) (cols : Regs → UInt8) (row latch v : UInt8) (r r' : Regs)
    (l : List Regs) (h : osiWired r) (hrow : row.toNat < 8)
    (he : M2560.osiReadRow cols row r = .ok (v, l)) (hl : l.getLast? = some r')
    (hk : osiColumns keys (osiLatch latch r l) (cols r')) :
    ∀ i, i < 8 → bitOf v i = bitOf (keys row.toNat) i := by
  obtain ⟨v2, l2, r2, e2, hl2, hsel, _, _, hv⟩ := C76_selects cols row latch r h hrow
  rw [he] at e2
  injection e2 with e2
  rw [Prod.mk.injEq] at e2
  obtain ⟨e1, e2⟩ := e2
  subst e1
  subst e2
  rw [hl] at hl2
  injection hl2 with hl2
  subst hl2
  intro i hi
  rw [hv i hi, Bool.eq_iff_iff, hk i hi]
  constructor
  · rintro ⟨n, hn, h1, h2⟩
    rw [hsel n hn, decide_eq_true_eq] at h1
    rw [← h1]
    exact h2
  · intro hb
    exact ⟨row.toNat, hrow, by rw [hsel _ hrow]; exact decide_eq_true rfl, hb⟩

/-- **C76, other pins.**  Only the bus and the two control lines change, at any moment. -/
theorem C76_other_pins (cols : Regs → UInt8) (row v : UInt8) (r r' : Regs) (l : List Regs)
    (hrow : row.toNat < 8) (he : M2560.osiReadRow cols row r = .ok (v, l)) (hr : r' ∈ l) :
    onlyPins (pinsOf .C ++ [osiEnable, osiRw]) r r' := by
  rw [Osi.ok cols row r hrow] at he
  injection he with he
  rw [Prod.mk.injEq] at he
  rw [← he.2] at hr
  exact onlyPins_of (Osi.touches row hrow) hr

/-- **C76, finding: contention.**  In every read there is a moment when the keyboard
already talks on the bus and the controller still drives every line of it. -/
theorem C76_contention (cols : Regs → UInt8) (row : UInt8) (r : Regs) (h : osiWired r)
    (hrow : row.toNat < 8) :
    ∃ v l x, M2560.osiReadRow cols row r = .ok (v, l) ∧ x ∈ l ∧ osiTalks x ∧
      ∀ i, i < 8 → isOutput x ⟨.C, i⟩ = true := by
  refine ⟨_, _, exec .sbi (fun _ => 0) r ((M2560.osiOps row).take 5), Osi.ok cols row r hrow,
    ?_, Osi.talks5 row r h, Osi.outputs5 row r⟩
  exact .tail _ (.tail _ (.tail _ (.tail _ (.head _))))

/-- **C76, finding: pull-ups.**  A read of row `row` < 8 leaves the pull-up of column
`row` on and switches off those of all other columns, so that a later read of a row
from 8 on (the ordinary matrix, with the DIP switches) finds its open columns
floating. -/
theorem C76_pullups (cols : Regs → UInt8) (row : UInt8) (r : Regs) (hrow : row.toNat < 8) :
    ∃ v l r', M2560.osiReadRow cols row r = .ok (v, l) ∧ l.getLast? = some r' ∧
      ∀ i, i < 8 → drive r' ⟨.C, i⟩ = if i = row.toNat then .pullup else .floating := by
  refine ⟨_, _, exec .sbi (fun _ => 0) r (M2560.osiOps row), Osi.ok cols row r hrow, rfl,
    fun i hi => ?_⟩
  have h1 := Osi.inputs row r i
  have h2 := Osi.busLevel row r hrow i hi
  unfold drive
  rw [h1, h2]
  by_cases hc : i = row.toNat
  · rw [if_pos hc, decide_eq_true hc]
  · rw [if_neg hc, decide_eq_false hc]

/-- The configuration needed by the ordinary row reader is lost with the first read. -/
theorem C76_not_ready (cols : Regs → UInt8) (row : UInt8) (r : Regs) (hrow : row.toNat < 8) :
    ∃ v l r', M2560.osiReadRow cols row r = .ok (v, l) ∧ l.getLast? = some r' ∧
      ¬ rowReady2560 r' := by
  obtain ⟨v, l, r', e, hl, hd⟩ := C76_pullups cols row r hrow
  refine ⟨v, l, r', e, hl, fun hc => ?_⟩
  have key : ∃ i, i < 8 ∧ i ≠ row.toNat := by
    by_cases h0 : row.toNat = 0
    · exact ⟨1, by omega, by omega⟩
    · exact ⟨0, by omega, by omega⟩
  obtain ⟨i, hi, hne⟩ := key
  have h1 := hd i hi
  rw [if_neg hne] at h1
  obtain ⟨h2, h3⟩ := hc.2 i hi
  unfold drive at h1
  rw [h2, h3] at h1
  cases h1

/-- The initialised board drives both control lines. -/
theorem C76_always_wired (r : Regs) (h : Reached2560 r) : osiWired r :=
  ⟨(Asdf.M2560.ready_reached h).1 9 (by omega), (Asdf.M2560.ready_reached h).1 10 (by omega)⟩

/-- A read leaves the control lines driven, so that reads can follow one another. -/
theorem C76_stays_wired (cols : Regs → UInt8) (row v : UInt8) (r r' : Regs) (l : List Regs)
    (h : osiWired r) (hrow : row.toNat < 8) (he : M2560.osiReadRow cols row r = .ok (v, l))
    (hl : l.getLast? = some r') : osiWired r' := by
  obtain ⟨v2, l2, r2, e2, hl2, _, ht, _, _⟩ := C76_selects cols row 0 r h hrow
  rw [he] at e2
  injection e2 with e2
  rw [Prod.mk.injEq] at e2
  rw [← e2.2, hl] at hl2
  injection hl2 with hl2
  subst hl2
  obtain ⟨h1, h2⟩ := ht
  unfold drive at h1 h2
  constructor
  · cases hc : isOutput r' osiEnable
    · rw [hc] at h1
      cases hd : level r' osiEnable <;> rw [hd] at h1 <;> cases h1
    · rfl
  · cases hc : isOutput r' osiRw
    · rw [hc] at h2
      cases hd : level r' osiRw <;> rw [hd] at h2 <;> cases h2
    · rfl

/-- Rows from 8 on are read as on an ordinary matrix. -/
theorem C76_upper_rows (cols : Regs → UInt8) (row : UInt8) (r : Regs) (hrow : 7 < row.toNat) :
    M2560.osiReadRow cols row r = M2560.readRow cols row r := by
  unfold M2560.osiReadRow
  exact if_pos (UInt8.lt_iff_toNat_lt.mpr (show (7 : UInt8).toNat < row.toNat from hrow))

/-- Non-vacuity: the initialised board, a keyboard with rows 2 and 5 selected before,
keys closed in every row, and row 6 read. -/
example : Reached2560 (boardAfter m2560 allZero [.archInit]) := .init _

example : osiWired (boardAfter m2560 allZero [.archInit]) := C76_always_wired _ (.init _)

example : (match M2560.osiReadRow (fun _ => 0x66) 6 (boardAfter m2560 allZero [.archInit]) with
    | .ok x => (x.1, osiLatch 0x24 (boardAfter m2560 allZero [.archInit]) x.2)
    | .error _ => (0, 0)) = (0x66, 0x40) := by decide +kernel

example : osiColumns (fun n => UInt8.ofNat (17 * n)) 0x40 0x66 := by
  unfold osiColumns
  decide +kernel

end Asdf.Props
