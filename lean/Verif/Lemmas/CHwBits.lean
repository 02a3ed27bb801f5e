import Verif.Lemmas.CHw

/-! # The text of `set_bit` and `clear_bit`, and the instructions that stand for it -/

namespace Asdf.C

open Avr

/-- The value that `set_bit` or `clear_bit` writes, as the C operators compute it. -/
def bitValue (on : Bool) (x b : Int) : Except Err Val :=
  match binop .shl (.int .i16 1) (.int .u8 b) with
  | .ok s =>
    if on then binop .bor (.int .u8 x) s
    else match unop .bnot s with
      | .ok k => binop .band (.int .u8 x) k
      | .error e => .error e
  | .error e => .error e

def bitByte (on : Bool) (x b : Nat) : UInt8 :=
  if on then UInt8.ofNat x ||| oneBit b else UInt8.ofNat x &&& ~~~ oneBit b

def bitFact (on : Bool) (x b : Nat) : Bool :=
  match bitValue on x b with
  | .ok (.int .i16 v) => UInt8.ofInt v == bitByte on x b
  | _ => false

theorem bitFact_all : ∀ on : Bool, ∀ x : Fin 256, ∀ b : Fin 8, bitFact on x.val b.val = true := by decide +kernel

theorem bit_set (x : UInt8) {b : Nat} (hb : b < 8) : ∃ s v, binop .shl (.int .i16 1) (.int .u8 b) = .ok s ∧
    binop .bor (.int .u8 x.toNat) s = .ok (.int .i16 v) ∧ UInt8.ofInt v = (x ||| oneBit b) := by
  have h := bitFact_all true ⟨x.toNat, x.toNat_lt⟩ ⟨b, hb⟩
  unfold bitFact bitValue bitByte at h
  simp only [↓reduceIte, UInt8.ofNat_toNat] at h
  cases h1 : binop .shl (.int .i16 1) (.int .u8 b) with
  | error e => simp [h1] at h
  | ok s =>
    simp only [h1] at h
    split at h
    · next v h2 => exact ⟨s, v, rfl, h2, eq_of_beq h⟩
    · cases h

theorem bit_clear (x : UInt8) {b : Nat} (hb : b < 8) : ∃ s k v, binop .shl (.int .i16 1) (.int .u8 b) = .ok s ∧
    unop .bnot s = .ok k ∧ binop .band (.int .u8 x.toNat) k = .ok (.int .i16 v) ∧ UInt8.ofInt v = (x &&& ~~~ oneBit b) := by
  have h := bitFact_all false ⟨x.toNat, x.toNat_lt⟩ ⟨b, hb⟩
  unfold bitFact bitValue bitByte at h
  simp only [Bool.false_eq_true, ↓reduceIte, UInt8.ofNat_toNat] at h
  cases h1 : binop .shl (.int .i16 1) (.int .u8 b) with
  | error e => simp [h1] at h
  | ok s =>
    simp only [h1] at h
    cases h2 : unop .bnot s with
    | error e => simp [h2] at h
    | ok k =>
      simp only [h2] at h
      split at h
      · next v h3 => exact ⟨s, k, v, rfl, h2, h3, eq_of_beq h⟩
      · cases h

variable {B : Board} [hB : IsBoard B] (W : Outside) (m : G → Tree) (env : List (L × Val)) (h : Hw) (w n : Nat)

/-- `SBI` on a register that is read and written. -/
def bitOp (on : Bool) : Cell → Nat → Option Op
  | .port p, b => some (if on then .setPort p b else .clrPort p b)
  | .ddr p, b => some (if on then .setDdr p b else .clrDdr p b)
  | _, _ => none

omit hB in
/-- Reading first and writing then. -/
theorem adv_write {op op' : Op} (hu : us op = us op')
    (he : access .sbi (fun _ => 0) h.regs op' = access .sbi (fun _ => 0) h.regs op) :
    Adv [op] h ((h.quiet W).acc B W op') := by
  have a : Adv [op'] h ((h.quiet W).acc B W op') := by simpa using (adv_quiet (W := W) (h := h)).trans (adv_acc (B := B) (W := W) op')
  have ht : timed h.regs [op'] = timed h.regs [op] := by simp only [timed, he, hu]
  refine { a with regs := a.regs.trans ?_, log := a.log.trans ?_, kept := ?_ }
  · exact he
  · rw [ht]
  · rw [← ht]
    exact a.kept

theorem text_set_bit (r : R) (b : Nat) (hb : b < 8) (op : Op) (ho : bitOp true (cellOf r) b = some op) :
    ∃ h', apply (run (hwProg B W) w (n + 3)) w A328.fn_set_bit [.reg r, .int .u8 b] (KH m env h) = .ok .unit (KH m env h') ∧
      Adv [op] h h' := by
  have kp : ∀ p, ∃ s v, _ := fun p => bit_set (h.regs.port p) hb
  have kd : ∀ p, ∃ s v, _ := fun p => bit_set (h.regs.ddr p) hb
  unfold A328.fn_set_bit
  cases r <;> cases ho
  · obtain ⟨s, v, e1, e2, e3⟩ := kp .A
    exact ⟨(h.quiet W).acc B W (.wrPort .A (UInt8.ofInt v)), by cgo [e1, e2], adv_write W h rfl (by rw [e3]; rfl)⟩
  · obtain ⟨s, v, e1, e2, e3⟩ := kp .B
    exact ⟨(h.quiet W).acc B W (.wrPort .B (UInt8.ofInt v)), by cgo [e1, e2], adv_write W h rfl (by rw [e3]; rfl)⟩
  · obtain ⟨s, v, e1, e2, e3⟩ := kp .C
    exact ⟨(h.quiet W).acc B W (.wrPort .C (UInt8.ofInt v)), by cgo [e1, e2], adv_write W h rfl (by rw [e3]; rfl)⟩
  · obtain ⟨s, v, e1, e2, e3⟩ := kp .D
    exact ⟨(h.quiet W).acc B W (.wrPort .D (UInt8.ofInt v)), by cgo [e1, e2], adv_write W h rfl (by rw [e3]; rfl)⟩
  · obtain ⟨s, v, e1, e2, e3⟩ := kp .H
    exact ⟨(h.quiet W).acc B W (.wrPort .H (UInt8.ofInt v)), by cgo [e1, e2], adv_write W h rfl (by rw [e3]; rfl)⟩
  · obtain ⟨s, v, e1, e2, e3⟩ := kp .J
    exact ⟨(h.quiet W).acc B W (.wrPort .J (UInt8.ofInt v)), by cgo [e1, e2], adv_write W h rfl (by rw [e3]; rfl)⟩
  · obtain ⟨s, v, e1, e2, e3⟩ := kd .A
    exact ⟨(h.quiet W).acc B W (.wrDdr .A (UInt8.ofInt v)), by cgo [e1, e2], adv_write W h rfl (by rw [e3]; rfl)⟩
  · obtain ⟨s, v, e1, e2, e3⟩ := kd .B
    exact ⟨(h.quiet W).acc B W (.wrDdr .B (UInt8.ofInt v)), by cgo [e1, e2], adv_write W h rfl (by rw [e3]; rfl)⟩
  · obtain ⟨s, v, e1, e2, e3⟩ := kd .C
    exact ⟨(h.quiet W).acc B W (.wrDdr .C (UInt8.ofInt v)), by cgo [e1, e2], adv_write W h rfl (by rw [e3]; rfl)⟩
  · obtain ⟨s, v, e1, e2, e3⟩ := kd .D
    exact ⟨(h.quiet W).acc B W (.wrDdr .D (UInt8.ofInt v)), by cgo [e1, e2], adv_write W h rfl (by rw [e3]; rfl)⟩
  · obtain ⟨s, v, e1, e2, e3⟩ := kd .H
    exact ⟨(h.quiet W).acc B W (.wrDdr .H (UInt8.ofInt v)), by cgo [e1, e2], adv_write W h rfl (by rw [e3]; rfl)⟩
  · obtain ⟨s, v, e1, e2, e3⟩ := kd .J
    exact ⟨(h.quiet W).acc B W (.wrDdr .J (UInt8.ofInt v)), by cgo [e1, e2], adv_write W h rfl (by rw [e3]; rfl)⟩

theorem text_clear_bit (r : R) (b : Nat) (hb : b < 8) (op : Op) (ho : bitOp false (cellOf r) b = some op) :
    ∃ h', apply (run (hwProg B W) w (n + 3)) w A328.fn_clear_bit [.reg r, .int .u8 b] (KH m env h) = .ok .unit (KH m env h') ∧
      Adv [op] h h' := by
  have kp : ∀ p, ∃ s k v, _ := fun p => bit_clear (h.regs.port p) hb
  have kd : ∀ p, ∃ s k v, _ := fun p => bit_clear (h.regs.ddr p) hb
  unfold A328.fn_clear_bit
  cases r <;> cases ho
  · obtain ⟨s, k, v, e1, e2, e3, e4⟩ := kp .A
    exact ⟨(h.quiet W).acc B W (.wrPort .A (UInt8.ofInt v)), by cgo [e1, e2, e3], adv_write W h rfl (by rw [e4]; rfl)⟩
  · obtain ⟨s, k, v, e1, e2, e3, e4⟩ := kp .B
    exact ⟨(h.quiet W).acc B W (.wrPort .B (UInt8.ofInt v)), by cgo [e1, e2, e3], adv_write W h rfl (by rw [e4]; rfl)⟩
  · obtain ⟨s, k, v, e1, e2, e3, e4⟩ := kp .C
    exact ⟨(h.quiet W).acc B W (.wrPort .C (UInt8.ofInt v)), by cgo [e1, e2, e3], adv_write W h rfl (by rw [e4]; rfl)⟩
  · obtain ⟨s, k, v, e1, e2, e3, e4⟩ := kp .D
    exact ⟨(h.quiet W).acc B W (.wrPort .D (UInt8.ofInt v)), by cgo [e1, e2, e3], adv_write W h rfl (by rw [e4]; rfl)⟩
  · obtain ⟨s, k, v, e1, e2, e3, e4⟩ := kp .H
    exact ⟨(h.quiet W).acc B W (.wrPort .H (UInt8.ofInt v)), by cgo [e1, e2, e3], adv_write W h rfl (by rw [e4]; rfl)⟩
  · obtain ⟨s, k, v, e1, e2, e3, e4⟩ := kp .J
    exact ⟨(h.quiet W).acc B W (.wrPort .J (UInt8.ofInt v)), by cgo [e1, e2, e3], adv_write W h rfl (by rw [e4]; rfl)⟩
  · obtain ⟨s, k, v, e1, e2, e3, e4⟩ := kd .A
    exact ⟨(h.quiet W).acc B W (.wrDdr .A (UInt8.ofInt v)), by cgo [e1, e2, e3], adv_write W h rfl (by rw [e4]; rfl)⟩
  · obtain ⟨s, k, v, e1, e2, e3, e4⟩ := kd .B
    exact ⟨(h.quiet W).acc B W (.wrDdr .B (UInt8.ofInt v)), by cgo [e1, e2, e3], adv_write W h rfl (by rw [e4]; rfl)⟩
  · obtain ⟨s, k, v, e1, e2, e3, e4⟩ := kd .C
    exact ⟨(h.quiet W).acc B W (.wrDdr .C (UInt8.ofInt v)), by cgo [e1, e2, e3], adv_write W h rfl (by rw [e4]; rfl)⟩
  · obtain ⟨s, k, v, e1, e2, e3, e4⟩ := kd .D
    exact ⟨(h.quiet W).acc B W (.wrDdr .D (UInt8.ofInt v)), by cgo [e1, e2, e3], adv_write W h rfl (by rw [e4]; rfl)⟩
  · obtain ⟨s, k, v, e1, e2, e3, e4⟩ := kd .H
    exact ⟨(h.quiet W).acc B W (.wrDdr .H (UInt8.ofInt v)), by cgo [e1, e2, e3], adv_write W h rfl (by rw [e4]; rfl)⟩
  · obtain ⟨s, k, v, e1, e2, e3, e4⟩ := kd .J
    exact ⟨(h.quiet W).acc B W (.wrDdr .J (UInt8.ofInt v)), by cgo [e1, e2, e3], adv_write W h rfl (by rw [e4]; rfl)⟩

end Asdf.C
