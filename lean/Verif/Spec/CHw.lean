import Verif.Model.CHw
import Verif.Model.Whole

/-! # What a run of the firmware text on a board should do to the hardware -/

namespace Asdf.C

open Avr

/-- Microseconds an access takes on purpose. -/
def us : Op → Nat
  | .delayUs n => n
  | _ => 0

/-- The register states after each access of a sequence, and the delays. -/
def timed (r : Regs) : List Op → List (Regs × Nat)
  | [] => []
  | op :: ops => (access .sbi (fun _ => 0) r op, us op) :: timed (access .sbi (fun _ => 0) r op) ops

/-- Interrupts that the main loop has not used yet do not count. -/
def Hw.credit (h : Hw) : Int := h.ints - if h.tick = 0 then 0 else 1

/-- No interrupt since `h`, or the flag is set. -/
def Hw.Kept (h h' : Hw) : Prop := h'.ints = h.ints ∧ h'.tick = h.tick ∨ h.ints < h'.ints ∧ h'.tick ≠ 0

/-- From `h` to `h'` the registers went through exactly the accesses `ops`; the polarity and the
bound on the run are as before, no interrupt was lost from the records; while interrupts are
enabled, the flag that they set is kept. -/
structure Adv (ops : List Op) (h h' : Hw) : Prop where
  regs : h'.regs = Avr.exec .sbi (fun _ => 0) h.regs ops
  log : h'.log = h.log ++ timed h.regs ops
  polarity : h'.polarity = h.polarity
  polls : h'.polls = h.polls
  found : h'.found = h.found
  credit : h.credit ≤ h'.credit
  time : h.time ≤ h'.time
  kept : h.regs.irq = true → (∀ x ∈ timed h.regs ops, x.1.irq = true) → h.Kept h'

/-- The state of the program with these static objects, local variables and hardware. -/
def KH (m : G → Tree) (env : List (L × Val)) (h : Hw) : St Hw := ⟨m, env, h⟩

/-- The text of the functions of the board does what the model of the board says.

* Every call that is a hardware event makes the register accesses of that event, and nothing else.
* The row reader returns what the model returns for the keys that are closed at one moment during
  the call, with the same register states, and waits as long; or both have no defined result.

This holds whatever the keys, the other pins and the timer interrupt do meanwhile. -/
structure Serves (B : Board) (T : Whole.Target) : Prop where
  event : ∀ (W : Outside) (m : G → Tree) (env : List (L × Val)) (h : Hw) (w n : Nat) (f : F) (args : List Val)
    (e : Event), callEvent f args = some e → h.polarity = 0 → 65536 ≤ w →
    ∃ h', run (hwProg B W) w (n + 6) f args (KH m env h) = .ok .unit (KH m env h') ∧ Adv (T.opsOf e) h h'
  read : ∀ (W : Outside) (m : G → Tree) (env : List (L × Val)) (h : Hw) (w n : Nat) (t : Ity) (row : UInt8), 9 ≤ w →
    ∃ k, h.time ≤ k ∧
      match T.read ⟨W.keys k, W.other k .B, h.sr⟩ row h.regs with
      | .error _ => run (hwProg B W) w (n + 6) .asdf_arch_read_row [.int t row.toNat] (KH m env h) = .err .overflow
      | .ok (v, l) => ∃ h' ops,
        run (hwProg B W) w (n + 6) .asdf_arch_read_row [.int t row.toNat] (KH m env h) =
          .ok (.int .u8 v.toNat) (KH m env h') ∧
        k < h'.time ∧ Adv ops h h' ∧ l = states .sbi (fun _ => 0) h.regs ops ∧ (ops.map us).sum = T.rowUs

/-- Each row is read at some moment from `lo` to `hi`, and what is read are the keys closed then. -/
def Sampled (W : Outside) (lo hi : Nat) (mx : Nat → Whole.Contacts) : Prop :=
  ∀ r, ∃ k, lo ≤ k ∧ k ≤ hi ∧ (mx r).keys = W.keys k

/-- Scans one after the other. -/
def SampledAll (W : Outside) : Nat → Nat → List (Nat → Whole.Contacts) → Prop
  | lo, hi, [] => lo ≤ hi
  | lo, hi, mx :: mxs => ∃ mid, Sampled W lo mid mx ∧ SampledAll W mid hi mxs

end Asdf.C
