import Verif.Spec.Clock
import Verif.Lemmas.Boards
import Verif.Lemmas.Rows

/-! # Lemmas about the clock and timer registers -/

namespace Asdf

open Spec Avr

/-! ## The timer -/

theorem timer_cycle_phase {div top : Nat} (h0 : 0 < div) (ht : top < 256) {t : Timer}
    (h1 : t.sub < div) (h2 : t.count ≤ top) :
    (t.cycle div top).1.sub < div ∧ (t.cycle div top).1.count ≤ top ∧
    (t.count * div + t.sub + 1 = (t.cycle div top).2.toNat * (div * (top + 1)) +
      ((t.cycle div top).1.count * div + (t.cycle div top).1.sub)) := by
  unfold Timer.cycle
  split
  · next h => exact ⟨h, h2, by simp; omega⟩
  · next h =>
    have hs : t.sub + 1 = div := by omega
    have hm : (t.count + 1) * div = t.count * div + div := Nat.succ_mul _ _
    split
    · next hc =>
      refine ⟨h0, Nat.zero_le _, ?_⟩
      have : div * (top + 1) = (t.count + 1) * div := by rw [hc, Nat.mul_comm]
      rw [this]
      simp
      omega
    · next hc =>
      have hlt : (t.count + 1) % 256 = t.count + 1 := Nat.mod_eq_of_lt (by omega)
      refine ⟨h0, ?_, ?_⟩
      · show (t.count + 1) % 256 ≤ top
        omega
      · show _ = false.toNat * _ + ((t.count + 1) % 256 * div + 0)
        rw [hlt]
        simp
        omega

theorem timer_fires {div top : Nat} (h0 : 0 < div) (ht : top < 256) (n : Nat) (t : Timer)
    (h1 : t.sub < div) (h2 : t.count ≤ top) :
    Timer.fires div top n t = (t.count * div + t.sub + n) / (div * (top + 1)) := by
  have hP : 0 < div * (top + 1) := Nat.mul_pos h0 (Nat.succ_pos _)
  induction n generalizing t with
  | zero =>
    have hb : t.count * div + t.sub < div * (top + 1) := by
      have : t.count * div ≤ top * div := Nat.mul_le_mul_right _ h2
      rw [Nat.mul_comm div, Nat.succ_mul]
      omega
    exact (Nat.div_eq_of_lt hb).symm
  | succ n ih =>
    obtain ⟨a, b, c⟩ := timer_cycle_phase h0 ht h1 h2
    show (t.cycle div top).2.toNat + Timer.fires div top n (t.cycle div top).1 = _
    rw [ih _ a b, show t.count * div + t.sub + (n + 1) = t.count * div + t.sub + 1 + n by omega, c,
      Nat.mul_comm (t.cycle div top).2.toNat, Nat.add_assoc (div * (top + 1) * _), Nat.mul_add_div hP]

/-- Timer registers as initialised, with `cp` in the clock prescale register. -/
structure ClockSet (cp tc : UInt8) (r : Regs) : Prop where
  clkpr : r.io .clkpr = cp
  shut : r.clkOpen = false
  ocr : r.io .ocr0a = tc
  modeA : r.io .tccr0a = 2
  modeB : r.io .tccr0b = 3
  mask : r.io .timsk0 = 2
  irq : r.irq = true

theorem ClockSet.timer {cp tc : UInt8} {r : Regs} (h : ClockSet cp tc r) :
    tickTimer r = if (cp &&& 0x0f).toNat ≤ 8 then some (2 ^ (cp &&& 0x0f).toNat * 64, tc.toNat) else none := by
  have e1 : clearsOnMatch r = true := by
    unfold clearsOnMatch
    rw [h.modeA, h.modeB]
    rfl
  have e2 : matchInterrupt r = true := by
    unfold matchInterrupt
    rw [h.mask, h.irq]
    rfl
  have e3 : timerDivisor r = some 64 := by
    unfold timerDivisor
    rw [h.modeB]
    rfl
  unfold tickTimer systemDivisor
  rw [e1, e2, e3, h.clkpr, h.ocr]
  by_cases hp : (cp &&& 0x0f).toNat ≤ 8
  · rw [if_pos hp, if_pos hp]
    rfl
  · rw [if_neg hp, if_neg hp]
    rfl

theorem ClockSet.every {cp tc : UInt8} {r : Regs} {hz : Nat} (h : ClockSet cp tc r) (hp : (cp &&& 0x0f).toNat ≤ 8)
    (hf : hz / 1000 = 64 * (tc.toNat + 1)) : tickEvery hz (2 ^ (cp &&& 0x0f).toNat) r := by
  have ht := h.timer
  rw [if_pos hp] at ht
  refine ⟨_, _, ht, fun t n h1 h2 => ?_⟩
  generalize 2 ^ (cp &&& 0x0f).toNat = d at h1
  have h0 : 0 < d * 64 := by omega
  rw [timer_fires h0 tc.toNat_lt _ _ h1 h2, hf,
    show 64 * (tc.toNat + 1) * d * n = d * 64 * (tc.toNat + 1) * n by
      rw [Nat.mul_comm (64 * _) d, ← Nat.mul_assoc d], Nat.add_comm, Nat.mul_add_div (Nat.mul_pos h0 (Nat.succ_pos _))]
  have hb : t.count * (d * 64) + t.sub < d * 64 * (tc.toNat + 1) := by
    have : t.count * (d * 64) ≤ tc.toNat * (d * 64) := Nat.mul_le_mul_right _ h2
    rw [Nat.mul_comm (d * 64), Nat.succ_mul]
    omega
  rw [Nat.div_eq_of_lt hb, Nat.add_zero]

theorem ClockSet.millisecond_iff {cp tc : UInt8} {r : Regs} {hz : Nat} (h : ClockSet cp tc r)
    (hf : hz / 1000 = 64 * (tc.toNat + 1)) : millisecondTick hz r ↔ (cp &&& 0x0f).toNat = 0 := by
  constructor
  · rintro ⟨div, top, e, hn⟩
    rw [h.timer] at e
    split at e
    · cases e
      by_cases h0 : (cp &&& 0x0f).toNat = 0
      · exact h0
      exfalso
      obtain ⟨k, hk⟩ := Nat.exists_eq_succ_of_ne_zero h0
      have hd : 2 ≤ 2 ^ (cp &&& 0x0f).toNat := by
        rw [hk, Nat.pow_succ]
        have := Nat.one_le_two_pow (n := k)
        omega
      have h1 := hn ⟨0, 0⟩ 1 (by show 0 < _; omega) (Nat.zero_le _)
      rw [timer_fires (by omega) tc.toNat_lt _ _ (by show 0 < _; omega) (Nat.zero_le _), hf,
        Nat.div_eq_of_lt] at h1
      · cases h1
      · show 0 * _ + 0 + 64 * (tc.toNat + 1) * 1 < _
        rw [Nat.zero_mul, Nat.zero_add, Nat.mul_one]
        exact Nat.mul_lt_mul_of_pos_right (by omega) (Nat.succ_pos _)
    · cases e
  · intro h0
    obtain ⟨div, top, e, hn⟩ := h.every (by omega) hf
    refine ⟨div, top, e, fun t n h1 h2 => ?_⟩
    have := hn t n h1 h2
    rwa [h0, Nat.pow_zero, Nat.mul_one] at this

/-- An access to no clock or timer register. -/
def noClock : Op → Bool
  | .wrIo _ _ => false
  | .irq _ => false
  | _ => true

theorem access_noClock {op : Op} (h : noClock op = true) (cg : CodeGen) (ext : Port → UInt8)
    (r : Regs) : (access cg ext r op).io = r.io ∧ (access cg ext r op).clkOpen = r.clkOpen ∧
      (access cg ext r op).irq = r.irq := by
  cases op with
  | wrIo => cases h
  | irq => cases h
  | setPin => cases cg <;> exact ⟨rfl, rfl, rfl⟩
  | _ => exact ⟨rfl, rfl, rfl⟩

theorem exec_noClock {ops : List Op} (h : ops.all noClock = true) (cg : CodeGen)
    (ext : Port → UInt8) (r : Regs) : (exec cg ext r ops).io = r.io ∧
      (exec cg ext r ops).clkOpen = r.clkOpen ∧ (exec cg ext r ops).irq = r.irq := by
  induction ops generalizing r with
  | nil => exact ⟨rfl, rfl, rfl⟩
  | cons op ops ih =>
    rw [List.all_cons, Bool.and_eq_true] at h
    obtain ⟨a, b, c⟩ := ih h.2 (access cg ext r op)
    obtain ⟨a', b', c'⟩ := access_noClock h.1 cg ext r
    exact ⟨a.trans a', b.trans b', c.trans c'⟩

theorem ClockSet.exec {cp tc : UInt8} {r : Regs} (h : ClockSet cp tc r) {ops : List Op}
    (ho : ops.all noClock = true) (cg : CodeGen) (ext : Port → UInt8) :
    ClockSet cp tc (exec cg ext r ops) := by
  obtain ⟨a, b, c⟩ := exec_noClock ho cg ext r
  exact ⟨by rw [a, h.clkpr], by rw [b, h.shut], by rw [a, h.ocr], by rw [a, h.modeA],
    by rw [a, h.modeB], by rw [a, h.mask], by rw [c, h.irq]⟩

theorem event_noClock {B : Board} (hB : B ∈ boards) {e : Event} (he : e ≠ .archInit) :
    (B.opsOf e).all noClock = true := by
  cases e with
  | archInit => exact absurd rfl he
  | out dev v =>
    by_cases hd : dev < 13
    · have key : ∀ B ∈ boards, ∀ dev, dev < 13 → ∀ v ∈ [(0 : UInt8), 1],
        (B.opsOf (.out dev v)).all noClock = true := by decide +kernel
      rw [handler_bool hB]
      exact key B hB dev hd _ (by split <;> decide)
    · rw [handler_none hB dev (by omega)]
      rfl
  | delayMs ms =>
    have : B.opsOf (.delayMs ms) = delayMsOps ms := by
      rcases List.mem_cons.mp hB with rfl | hB
      · rfl
      · rw [List.mem_singleton.mp hB]; rfl
    rw [this, delayMsOps, List.all_eq_true]
    intro op hop
    rw [(List.mem_replicate.mp hop).2]
    rfl
  | send c =>
    rcases List.mem_cons.mp hB with rfl | hB
    · rfl
    · rw [List.mem_singleton.mp hB]; rfl
  | delayShort | delayLong | posStrobe | negStrobe =>
    rcases List.mem_cons.mp hB with rfl | hB
    · rfl
    · rw [List.mem_singleton.mp hB]; rfl

theorem init_328 {cp : UInt8} (r : Regs) (h1 : r.io .clkpr = cp) (h2 : r.clkOpen = false) :
    ClockSet cp M328.TICK_COUNT (boardAfter m328 r [.archInit]) := by
  obtain ⟨port, ddr, io, opn, irq⟩ := r
  cases h2
  exact ⟨h1, rfl, rfl, rfl, rfl, rfl, rfl⟩

theorem init_2560 {cp : UInt8} (r : Regs) (h1 : r.io .clkpr = cp) (h2 : r.clkOpen = false) :
    ClockSet cp M2560.TICK_COUNT (boardAfter m2560 r [.archInit]) := by
  obtain ⟨port, ddr, io, opn, irq⟩ := r
  cases h2
  exact ⟨h1, rfl, rfl, rfl, rfl, rfl, rfl⟩

theorem clock_328 {r0 r : Regs} (h2 : r0.clkOpen = false)
    (h : Since328 r0 r) : ClockSet (r0.io .clkpr) M328.TICK_COUNT r := by
  induction h with
  | init => exact init_328 r0 rfl h2
  | event _ e ih =>
    by_cases he : e = .archInit
    · subst he; exact init_328 _ ih.clkpr ih.shut
    · rw [boardAfter_one]
      exact ih.exec (event_noClock List.mem_cons_self he) _ _
  | read _ keys other row sr ih =>
    rw [M328.readRow_world, (M328.world_log keys _ _).2]
    exact ih.exec (M328.forall_byte (P := fun row => (M328.rowOps row 8).all noClock = true)
      (by decide +kernel) row) _ _

theorem clock_2560 {r0 r : Regs} (h2 : r0.clkOpen = false)
    (h : Since2560 r0 r) : ClockSet (r0.io .clkpr) M2560.TICK_COUNT r := by
  induction h with
  | init => exact init_2560 r0 rfl h2
  | event _ e ih =>
    by_cases he : e = .archInit
    · subst he; exact init_2560 _ ih.clkpr ih.shut
    · rw [boardAfter_one]
      exact ih.exec (event_noClock (List.mem_cons_of_mem _ List.mem_cons_self) he) _ _
  | read _ cols row v l hr hl ih =>
    unfold Avr.M2560.readRow at hr
    split at hr
    · cases hr
    · next lo hi _ =>
      cases hr
      rw [M2560.states_last] at hl
      cases hl
      exact ih.exec rfl _ _

end Asdf
