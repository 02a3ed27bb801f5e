import Verif.Spec.Osi
import Verif.Lemmas.Rows

/-! # Register states of an OSI row read -/

namespace Asdf.Osi

open Avr Spec

theorem ok (cols : Regs → UInt8) (row : UInt8) (r : Regs) (h : row.toNat < 8) :
    M2560.osiReadRow cols row r =
      .ok (pinValue (exec .sbi (fun _ => 0) r (M2560.osiOps row)) .C
          (cols (exec .sbi (fun _ => 0) r (M2560.osiOps row))),
        states .sbi (fun _ => 0) r (M2560.osiOps row)) := by
  unfold M2560.osiReadRow
  rw [if_neg]
  intro hc
  rw [UInt8.lt_iff_toNat_lt] at hc
  exact absurd (show 7 < row.toNat from hc) (by omega)

/-- The electrical state from the two bits of the pin. -/
theorem drive_pinSt {r : Regs} {p : Pin} {x : PinSt} (h : pinSt r p = x) :
    drive r p = match x.2, x.1 with
      | true, true => .high
      | true, false => .low
      | false, true => .pullup
      | false, false => .floating := by
  subst h
  rfl

theorem wired_pin {r : Regs} {p : Pin} (h : isOutput r p = true) : pinSt r p = (level r p, true) := by
  unfold pinSt
  rw [h]

theorem rw_pin (row : UInt8) (r : Regs) (h : osiWired r) (k : Nat) :
    pinSt (exec .sbi (fun _ => 0) r ((M2560.osiOps row).take k)) osiRw =
      ((M2560.osiOps row).take k).foldl (pinStep osiRw) (level r osiRw, true) := by
  rw [exec_pin _ _ (by decide), wired_pin h.2]

theorem en_pin (row : UInt8) (r : Regs) (h : osiWired r) (k : Nat) :
    pinSt (exec .sbi (fun _ => 0) r ((M2560.osiOps row).take k)) osiEnable =
      ((M2560.osiOps row).take k).foldl (pinStep osiEnable) (level r osiEnable, true) := by
  rw [exec_pin _ _ (by decide), wired_pin h.1]

theorem latch (latch row : UInt8) (r : Regs) (h : osiWired r) :
    osiLatch latch r (states .sbi (fun _ => 0) r (M2560.osiOps row)) = (1 : UInt8) <<< row := by
  have h0 := drive_pinSt (wired_pin h.2)
  have h1 := drive_pinSt (rw_pin row r h 1)
  have h2 := drive_pinSt (rw_pin row r h 2)
  have h3 := drive_pinSt (rw_pin row r h 3)
  have h4 := drive_pinSt (rw_pin row r h 4)
  have h5 := drive_pinSt (rw_pin row r h 5)
  have h6 := drive_pinSt (rw_pin row r h 6)
  have e5 := drive_pinSt (en_pin row r h 5)
  have p5 : (exec .sbi (fun _ => 0) r ((M2560.osiOps row).take 5)).port .C &&&
      (exec .sbi (fun _ => 0) r ((M2560.osiOps row).take 5)).ddr .C = (1 : UInt8) <<< row := by
    show ((1 : UInt8) <<< row) &&& 0xff = _
    exact UInt8.and_neg_one
  generalize level r osiRw = a at h0 h1 h2 h3
  have hs : states .sbi (fun _ => 0) r (M2560.osiOps row) =
      [exec .sbi (fun _ => 0) r ((M2560.osiOps row).take 1),
        exec .sbi (fun _ => 0) r ((M2560.osiOps row).take 2),
        exec .sbi (fun _ => 0) r ((M2560.osiOps row).take 3),
        exec .sbi (fun _ => 0) r ((M2560.osiOps row).take 4),
        exec .sbi (fun _ => 0) r ((M2560.osiOps row).take 5),
        exec .sbi (fun _ => 0) r ((M2560.osiOps row).take 6)] := rfl
  rw [hs]
  simp only [osiLatch]
  have hh : ∀ r0 r1 : Regs, drive r0 osiRw = .high → ¬ (drive r1 osiEnable = .low ∧
      drive r0 osiRw = .low ∧ drive r1 osiRw = .high) := by
    intro r0 r1 h c
    rw [h] at c
    cases c.2.1
  rw [if_neg (hh _ _ h5), if_pos ⟨e5, h4, h5⟩, p5]

theorem talks (row : UInt8) (r : Regs) (h : osiWired r) :
    osiTalks (exec .sbi (fun _ => 0) r (M2560.osiOps row)) :=
  ⟨drive_pinSt (en_pin row r h 6), drive_pinSt (rw_pin row r h 6)⟩

theorem talks5 (row : UInt8) (r : Regs) (h : osiWired r) :
    osiTalks (exec .sbi (fun _ => 0) r ((M2560.osiOps row).take 5)) :=
  ⟨drive_pinSt (en_pin row r h 5), drive_pinSt (rw_pin row r h 5)⟩

theorem inputs (row : UInt8) (r : Regs) (i : Nat) :
    isOutput (exec .sbi (fun _ => 0) r (M2560.osiOps row)) ⟨.C, i⟩ = false := by
  show bitOf 0 i = false
  exact bitOf_zero i

theorem outputs5 (row : UInt8) (r : Regs) (i : Nat) (hi : i < 8) :
    isOutput (exec .sbi (fun _ => 0) r ((M2560.osiOps row).take 5)) ⟨.C, i⟩ = true := by
  show bitOf 0xff i = true
  have : ∀ i, i < 8 → bitOf 0xff i = true := by decide
  exact this i hi

theorem oneHot (row : UInt8) (hrow : row.toNat < 8) (n : Nat) (hn : n < 8) :
    bitOf ((1 : UInt8) <<< row) n = decide (n = row.toNat) := by
  have key : ∀ k, k < 8 → ∀ n, n < 8 → bitOf ((1 : UInt8) <<< UInt8.ofNat k) n = decide (n = k) := by
    decide
  have := key row.toNat hrow n hn
  rwa [UInt8.ofNat_toNat] at this

theorem busLevel (row : UInt8) (r : Regs) (hrow : row.toNat < 8) (i : Nat) (hi : i < 8) :
    level (exec .sbi (fun _ => 0) r (M2560.osiOps row)) ⟨.C, i⟩ = decide (i = row.toNat) := by
  show bitOf ((1 : UInt8) <<< row) i = _
  exact oneHot row hrow i hi

theorem touches (row : UInt8) (hrow : row.toNat < 8) :
    touchesOnly (pinsOf .C ++ [osiEnable, osiRw]) (M2560.osiOps row) = true := by
  have key : ∀ k, k < 8 →
      touchesOnly (pinsOf .C ++ [osiEnable, osiRw]) (M2560.osiOps (UInt8.ofNat k)) = true := by
    decide +kernel
  have := key row.toNat hrow
  rwa [UInt8.ofNat_toNat] at this

end Asdf.Osi
