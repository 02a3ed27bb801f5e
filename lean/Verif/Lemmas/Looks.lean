import Verif.Lemmas.CHwHead
import Verif.Lemmas.Clock
import Verif.Lemmas.Timing
import Verif.Spec.Looks

/-! # Lemmas about the looks at the timer flag -/

namespace Asdf.C

open Avr Spec

/-! ## Interrupts stay enabled -/

theorem states_noIrq {ops : List Op} (h : ops.all noIrq = true) : ∀ r, ∀ x ∈ states .sbi (fun _ => 0) r ops, x.irq = r.irq := by
  induction ops with
  | nil => exact fun _ _ hx => (List.not_mem_nil hx).elim
  | cons op ops ih =>
    intro r x hx
    rw [List.all_cons, Bool.and_eq_true] at h
    rcases List.mem_cons.mp hx with rfl | hx
    · exact access_noIrq h.1 r
    · exact (ih h.2 _ x hx).trans (access_noIrq h.1 r)

theorem row_irq {B : Spec.Board} {T : Whole.Target} (hT : Built B T) {c : Whole.Contacts} {row v : UInt8} {r : Regs}
    {l : List Regs} (h : T.read c row r = .ok (v, l)) : ∀ x ∈ l, x.irq = r.irq := by
  rcases hT with ⟨rfl, rfl⟩ | ⟨rfl, cols, _, rfl⟩
  · cases h
    rw [M328.readRow_world, (M328.world_log _ _ _).1]
    exact states_noIrq (M328.forall_byte (P := fun row => (M328.rowOps row 8).all noIrq = true)
      (by decide +kernel) row) r
  · have h : M2560.readRow (cols c.keys) row r = _ := h
    unfold M2560.readRow at h
    split at h
    · cases h
    · cases h
      exact states_noIrq rfl r

theorem init_irq {B : Spec.Board} {T : Whole.Target} (hT : Built B T) (r : Regs) :
    (Avr.exec .sbi (fun _ => 0) r (T.opsOf .archInit)).irq = true := by
  rcases hT with ⟨rfl, rfl⟩ | ⟨rfl, cols, _, rfl⟩ <;> rfl

theorem event_irq {B : Spec.Board} {T : Whole.Target} (hT : Built B T) {e : Event} (he : e ≠ .archInit) (r : Regs) :
    (Avr.exec .sbi (fun _ => 0) r (T.opsOf e)).irq = r.irq := by
  rcases hT with ⟨rfl, rfl⟩ | ⟨rfl, cols, _, rfl⟩
  · exact (exec_noClock (event_noClock (B := m328) List.mem_cons_self he) _ _ r).2.2
  · exact (exec_noClock (event_noClock (B := m2560) (List.mem_cons_of_mem _ List.mem_cons_self) he) _ _ r).2.2

theorem story_irq {B : Spec.Board} {T : Whole.Target} (hT : Built B T) {r0 r : Regs} {es : List Event} {l : List (Regs × Nat)}
    (h : Story T r0 es l r) : .archInit ∈ es → r.irq = true := by
  induction h with
  | reset => exact fun h => (List.not_mem_nil h).elim
  | @event es l r h e ih =>
    intro hm
    by_cases he : e = .archInit
    · subst he
      exact init_irq hT r
    · rw [event_irq hT he]
      refine ih ?_
      rcases List.mem_append.mp hm with hm | hm
      · exact hm
      · exact absurd (List.mem_singleton.mp hm).symm he
  | @read es l r h c row v ops e ht ih =>
    intro hm
    have hr := row_irq hT e
    rw [← last_state]
    cases hg : (states .sbi (fun _ => 0) r ops).getLast? with
    | none => exact ih hm
    | some x => exact (hr x (List.mem_of_getLast? hg)).trans (ih hm)

/-! ## From one look to the next -/

variable {T : Whole.Target} {W : Outside} {r0 : Regs}

theorem irq_fires {h : Hw} (hi : h.regs.irq = true) :
    h.irq W = { h with tick := if W.fires h.time then 1 else h.tick, ints := h.ints + asked W h.time, time := h.time + asked W h.time } := by
  unfold Hw.irq asked
  rw [hi]
  cases W.fires h.time <;> rfl

theorem seen_fires {h : Hw} (hi : h.regs.irq = true) :
    (h.seen W).time = (h.irq W).time + 2 + asked W ((h.irq W).time + 1) ∧
    (h.seen W).ints = (h.irq W).ints + asked W ((h.irq W).time + 1) ∧ (h.seen W).tick = 0 ∧
    (h.seen W).log = h.log ∧ (h.seen W).regs = h.regs := by
  have h1 : (({ h with polls := 1 } : Hw).irq W) = { h.irq W with polls := 1 } := by
    unfold Hw.irq; split <;> first | rfl | simp_all
  have h2 : ((({ h with polls := 1 } : Hw).looked W 0)).regs.irq = true := by
    simp only [Hw.looked, Hw.quiet, irq_regs, hi]
  unfold Hw.seen
  simp only [Hw.setTick]
  rw [irq_fires h2]
  simp only [Hw.looked, Hw.quiet, h1, irq_log, irq_regs]
  refine ⟨by omega, trivial, trivial, trivial, trivial⟩

theorem next_look {a b : Head} (g : a.Good T W r0) (n : a.Next W b) (ha : a.h.regs.irq = true) (hb : b.h.regs.irq = true) :
    NextLook W (a.h.irq W) (b.h.irq W) := by
  obtain ⟨s1, s2, s3, s4, s5⟩ := seen_fires (W := W) ha
  obtain ⟨_, _, d1, _, _⟩ := seen_on (W := W) g.on
  have t0 := irq_time W b.h
  obtain ⟨t1, _⟩ := next_times g n
  by_cases ht : (a.h.irq W).tick = 0
  · obtain ⟨_, _, _, e⟩ := n.idle ht
    rw [if_pos ht] at d1
    have et : b.h.time = (a.h.irq W).time + 2 + asked W ((a.h.irq W).time + 1) := by rw [e]; exact s1
    have idle : (b.h.irq W).tick ≠ 0 ↔ W.fires ((a.h.irq W).time + 2 + asked W ((a.h.irq W).time + 1)) = true := by
      rw [irq_fires hb, et]
      have : b.h.tick = 0 := by rw [e]; exact s3
      simp only [this]
      cases W.fires _ <;> decide
    refine ⟨?_, by omega, fun _ => ⟨?_, ?_, ?_, idle⟩, [], ?_, fun _ => ?_⟩
    · rw [irq_found, irq_found, e, d1, if_pos ht]
    · rw [irq_log, irq_log, e, s4]
    · rw [irq_fires hb]
      show b.h.time + asked W b.h.time = _
      rw [et]
    · rw [irq_fires hb]
      show b.h.ints + asked W b.h.time = _
      rw [et, show b.h.ints = (a.h.irq W).ints + asked W ((a.h.irq W).time + 1) by rw [e]; exact s2]
    · rw [irq_log, irq_log, e, s4, List.append_nil]
    · rw [idle, irq_fires hb]
      show _ ↔ _ < b.h.ints + asked W b.h.time
      rw [et, show b.h.ints = (a.h.irq W).ints + asked W ((a.h.irq W).time + 1) by rw [e]; exact s2]
      generalize (a.h.irq W).time + 2 + asked W ((a.h.irq W).time + 1) = u
      unfold asked
      cases W.fires u <;> simp
  · obtain ⟨t, mx, _, _, _, f⟩ := n.scan ht
    rw [if_neg ht] at d1
    obtain ⟨l, hl, hk⟩ := f.more
    refine ⟨?_, by omega, fun h => absurd h ht, l, ?_, fun hx => ?_⟩
    · rw [irq_found, irq_found, f.found, d1, if_neg ht]
    · rw [irq_log, irq_log, hl, s4]
    · obtain ⟨-, hk⟩ := hk (by rw [s5]; exact ha) hx
      rw [irq_fires hb]
      unfold Hw.Kept at hk
      rw [s2, s3] at hk
      show (if W.fires b.h.time = true then (1 : UInt8) else b.h.tick) ≠ 0 ↔ _ < b.h.ints + asked W b.h.time
      unfold asked
      unfold asked at hk
      cases W.fires b.h.time
      · simp only [Bool.false_eq_true, ↓reduceIte]
        rcases hk with ⟨h1, h2⟩ | ⟨h1, h2⟩
        · rw [h1, h2]
          simp
        · simp only [ne_eq, h2, not_false_eq_true, true_iff]
          omega
      · simp only [↓reduceIte]
        refine ⟨fun _ => ?_, fun _ => by decide⟩
        rcases hk with ⟨h1, h2⟩ | ⟨h1, h2⟩ <;> omega

end Asdf.C
