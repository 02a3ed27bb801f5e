import Verif.Spec.Pins
import Verif.Lemmas.Bits

/-! # One pin at a time

Every register access acts on each pin separately, so statements about a pin
reduce to finitely many cases. -/

namespace Asdf

open Avr Spec

/-- The `PORT` and `DDR` bits of a pin. -/
abbrev PinSt := Bool × Bool

def pinSt (r : Regs) (p : Pin) : PinSt := (level r p, isOutput r p)

/-- The effect of an access on one pin. -/
def pinStep (p : Pin) (st : PinSt) : Op → PinSt
  | .setPort q b => if q = p.port ∧ bitOf (oneBit b) p.bit = true then (true, st.2) else st
  | .clrPort q b => if q = p.port ∧ bitOf (oneBit b) p.bit = true then (false, st.2) else st
  | .setDdr q b => if q = p.port ∧ bitOf (oneBit b) p.bit = true then (st.1, true) else st
  | .clrDdr q b => if q = p.port ∧ bitOf (oneBit b) p.bit = true then (st.1, false) else st
  | .setPin q b => if q = p.port ∧ bitOf (oneBit b) p.bit = true then (!st.1, st.2) else st
  | .mixPort q keep v =>
    if q = p.port then ((st.1 && bitOf keep p.bit) || bitOf v p.bit, st.2) else st
  | .orDdr q v => if q = p.port then (st.1, st.2 || bitOf v p.bit) else st
  | .wrPort q v => if q = p.port then (bitOf v p.bit, st.2) else st
  | .wrDdr q v => if q = p.port then (st.1, bitOf v p.bit) else st
  | .wrIo _ _ => st
  | .irq _ => st
  | .delayUs _ => st

theorem upd_same {α : Type} [DecidableEq α] (f : α → UInt8) (a : α) (v : UInt8) : upd f a v a = v :=
  if_pos rfl

theorem upd_ne {α : Type} [DecidableEq α] (f : α → UInt8) {a b : α} (v : UInt8) (h : b ≠ a) :
    upd f a v b = f b := if_neg h

theorem bitOf_upd (f : Port → UInt8) (q p : Port) (v : UInt8) (b : Nat) :
    bitOf (upd f q v p) b = if q = p then bitOf v b else bitOf (f p) b := by
  unfold upd
  by_cases h : q = p
  · rw [if_pos h, if_pos h.symm]
  · rw [if_neg h, if_neg fun hc => h hc.symm]

theorem writeIo_port (r : Regs) (reg : Io) (v : UInt8) :
    (writeIo r reg v).port = r.port ∧ (writeIo r reg v).ddr = r.ddr := by
  unfold writeIo
  split
  · split
    · exact ⟨rfl, rfl⟩
    · split <;> exact ⟨rfl, rfl⟩
  · exact ⟨rfl, rfl⟩

set_option linter.unusedSimpArgs false in
/-- Accesses act on each pin separately. -/
theorem pinSt_step (ext : Port → UInt8) (r : Regs) (op : Op) (p : Pin) (hp : p.bit < 8) :
    pinSt (access .sbi ext r op) p = pinStep p (pinSt r p) op := by
  obtain ⟨pp, b⟩ := p
  have hp : b < 8 := hp
  cases op <;>
    simp only [pinSt, level, isOutput, access, pinStep, togglePort, bitOf_upd, bitOf_or, bitOf_and,
      bitOf_xor, bitOf_not _ _ hp, writeIo_port]
  all_goals
    split
    · rename_i hq
      subst hq
      first
        | rfl
        | (rename_i b'
           simp only [true_and]
           cases h1 : bitOf (oneBit b') b <;> simp)
    · rename_i hq
      first
        | rfl
        | (rw [if_neg fun hc => hq hc.1])

/-- The states of a pin after each access. -/
def pinSts (p : Pin) (st : PinSt) : List Op → List PinSt
  | [] => []
  | op :: ops => pinStep p st op :: pinSts p (pinStep p st op) ops

theorem states_pin (ext : Port → UInt8) (p : Pin) (hp : p.bit < 8) (ops : List Op) (r : Regs) :
    (states .sbi ext r ops).map (pinSt · p) = pinSts p (pinSt r p) ops := by
  induction ops generalizing r with
  | nil => rfl
  | cons op ops ih =>
    rw [states, List.map_cons, ih, pinSt_step ext r op p hp]
    rfl

theorem exec_pin (ext : Port → UInt8) (p : Pin) (hp : p.bit < 8) (ops : List Op) (r : Regs) :
    pinSt (exec .sbi ext r ops) p = ops.foldl (pinStep p) (pinSt r p) := by
  induction ops generalizing r with
  | nil => rfl
  | cons op ops ih =>
    rw [List.foldl_cons, ← pinSt_step ext r op p hp]
    exact ih _

theorem states_append (cg : CodeGen) (ext : Port → UInt8) (a b : List Op) (r : Regs) :
    states cg ext r (a ++ b) = states cg ext r a ++ states cg ext (exec cg ext r a) b := by
  induction a generalizing r with
  | nil => rfl
  | cons op ops ih => rw [List.cons_append, states, states, ih]; rfl

theorem exec_append (cg : CodeGen) (ext : Port → UInt8) (a b : List Op) (r : Regs) :
    exec cg ext r (a ++ b) = exec cg ext (exec cg ext r a) b := List.foldl_append

/-- What every access of a list leaves alone stays as it is, at every moment. -/
theorem pin_unchanged {ops : List Op} {p : Pin} (h : ∀ op ∈ ops, ∀ st, pinStep p st op = st)
    (st : PinSt) : ∀ x ∈ pinSts p st ops, x = st := by
  induction ops with
  | nil => intro x hx; cases hx
  | cons op ops ih =>
    intro x hx
    rw [pinSts, h op (List.mem_cons_self) st] at hx
    rcases List.mem_cons.mp hx with hx | hx
    · exact hx
    · exact ih (fun o ho => h o (List.mem_cons_of_mem _ ho)) x hx

theorem mem_states_pin {ext : Port → UInt8} {ops : List Op} {r r' : Regs}
    (h : r' ∈ states .sbi ext r ops) (p : Pin) (hp : p.bit < 8) :
    pinSt r' p ∈ pinSts p (pinSt r p) ops := by
  rw [← states_pin ext p hp]
  exact List.mem_map_of_mem h

/-- Does the access leave the pin alone, whatever its state? -/
def leaves (p : Pin) (op : Op) : Bool :=
  [(false, false), (false, true), (true, false), (true, true)].all fun st =>
    decide (pinStep p st op = st)

theorem leaves_iff {p : Pin} {op : Op} (h : leaves p op = true) (st : PinSt) :
    pinStep p st op = st := by
  rw [leaves, List.all_eq_true] at h
  have := h st (by obtain ⟨a, b⟩ := st; cases a <;> cases b <;> decide)
  exact of_decide_eq_true this

def allPorts : List Port := [.A, .B, .C, .D, .H, .J]

def allPins : List Pin := allPorts.flatMap pinsOf

theorem mem_allPins (p : Pin) (hp : p.bit < 8) : p ∈ allPins := by
  obtain ⟨q, b⟩ := p
  have : ∀ q ∈ allPorts, ∀ b, b < 8 → (⟨q, b⟩ : Pin) ∈ allPins := by decide
  exact this q (by cases q <;> decide) b hp

/-- Only the pins of `l` are touched by the accesses. -/
def touchesOnly (l : List Pin) (ops : List Op) : Bool :=
  allPins.all fun p => l.contains p || ops.all (leaves p)

theorem onlyPins_of {l : List Pin} {ops : List Op} (h : touchesOnly l ops = true)
    {ext : Port → UInt8} {r r' : Regs} (hr : r' ∈ states .sbi ext r ops) : onlyPins l r r' := by
  intro p hp hl
  rw [touchesOnly, List.all_eq_true] at h
  have := h p (mem_allPins p hp)
  rw [Bool.or_eq_true] at this
  rcases this with h1 | h1
  · exact absurd (List.contains_iff_mem.mp h1) hl
  · have := pin_unchanged (fun op ho => leaves_iff (List.all_eq_true.mp h1 op ho)) (pinSt r p) _
      (mem_states_pin hr p hp)
    exact ⟨congrArg Prod.fst this, congrArg Prod.snd this⟩

end Asdf
