import Verif.Lemmas.Depth
import Verif.Props.Faults

/-! # Property C117: how deep calls are nested -/

namespace Asdf.Props

open Avr Spec

/-- **C117.**  On either board, whatever the keys, the other pins and the timer do: no call of a
function by the text of the firmware is nested deeper than 23 levels, the interrupt routine and the
accesses to the hardware included. -/
theorem C117_depth (X : C.Board) (B : Board) (T : Whole.Target) (hX : Compiled X B T) (W : C.Outside)
    (r0 : Regs) (sr : UInt8) (p : Nat) : DepthAtMost 23 X W r0 sr p := by
  intro w hw hp deep deep'
  obtain ⟨_, hP⟩ := compiled_plain hX
  have h : C.run (C.hwProg X W) w 23 .main [] (C.KH C.mem0 [] (C.Hw.reset r0 sr p)) ≠ .err .fuel := by
    intro h
    have h : runTo X W r0 sr p w 23 = .err .fuel := h
    rcases runTo_ends hX W r0 sr hw hp (Nat.le_refl 23) with ⟨S, e⟩ | e <;> (rw [h] at e; cases e)
  rw [C.over_same hP h, C.over_same hP h]

/-- **C117, with a meaning.**  With 23 levels the run reaches the look or accesses memory outside of
an object (C102 says when), whatever deeper calls would do. -/
theorem C117_ends (X : C.Board) (B : Board) (T : Whole.Target) (hX : Compiled X B T) (W : C.Outside)
    (r0 : Regs) (sr : UInt8) (p w : Nat) (hw : 65536 ≤ w) (hp : p < w) (deep : C.Call C.Hw) :
    (∃ h, AtLook X W r0 sr p h ∧ ∃ S, S.io = h ∧
      runOver (C.hwProg X W) w deep 23 .main [] (C.KH C.mem0 [] (C.Hw.reset r0 sr p)) = .stop S) ∨
    OutOfBounds X W r0 sr p ∧
      runOver (C.hwProg X W) w deep 23 .main [] (C.KH C.mem0 [] (C.Hw.reset r0 sr p)) = .err .oob := by
  have e := C117_depth X B T hX W r0 sr p w hw hp deep (fun _ _ _ => .err .fuel)
  rw [C.runOver_run] at e
  rw [e]
  rcases C102_only X B T hX W r0 sr p with ⟨h, a⟩ | o
  · refine .inl ⟨h, a, ?_⟩
    obtain ⟨S, e1, e2⟩ := atLook_io a hw hp (Nat.le_refl 23)
    exact ⟨S, e2, e1⟩
  · exact .inr ⟨o, o w 23 hw hp (Nat.le_refl 23)⟩

/-- The registers of the example. -/
def zeroRegs : Regs := ⟨fun _ => 0, fun _ => 0, fun _ => 0, false, false⟩

/-- A world where nothing happens. -/
def stillWorld : C.Outside := ⟨fun _ _ => 0, fun _ _ => 0, fun _ => false⟩

/-- Is it the result of a stopped run? -/
def stopped {ι α : Type} : C.Out ι α → Bool
  | .stop _ => true
  | _ => false

/-- The bound says something: already until the first look there are calls on the ninth level. -/
example : ¬ DepthAtMost 8 C.board328 stillWorld zeroRegs 0 0 := by
  intro h
  have e := congrArg stopped (h 65536 (by decide) (by decide) (fun _ _ s => .stop s) (fun _ _ _ => .err .fuel))
  have e1 : stopped (runOver (C.hwProg C.board328 stillWorld) 65536 (fun _ _ s => .stop s) 8 .main []
      (C.KH C.mem0 [] (C.Hw.reset zeroRegs 0 0))) = true := by decide +kernel
  have e2 : stopped (runOver (C.hwProg C.board328 stillWorld) 65536 (fun _ _ _ => .err .fuel) 8 .main []
      (C.KH C.mem0 [] (C.Hw.reset zeroRegs 0 0))) = false := by decide +kernel
  rw [e1, e2] at e
  cases e

/-- Non-vacuity: a keyboard in this world, to its hundredth look. -/
example : DepthAtMost 23 C.board328 stillWorld zeroRegs 0 100 :=
  C117_depth _ m328 Whole.target328 (.inl ⟨rfl, rfl, rfl⟩) _ _ _ _

end Asdf.Props
