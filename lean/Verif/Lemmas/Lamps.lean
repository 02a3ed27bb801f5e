import Verif.Lemmas.Boards
import Verif.Spec.Tables

/-! # The LED pins along a run -/

namespace Asdf

open Avr Spec

/-- The three LEDs. -/
def leds : List Nat := [PHYSICAL_LED1, PHYSICAL_LED2, PHYSICAL_LED3]

theorem led_facts : ∀ B ∈ boards, ∀ dev ∈ leds, ∀ p ∈ pinOfDev B dev,
    p.bit < 8 ∧ p ≠ B.strobe ∧ p.port ≠ B.data := by decide

/-- What one event does to the pin of an LED. -/
theorem lamp_event {B : Board} (hB : B ∈ boards) {dev : Nat} (hd : dev ∈ leds) {p : Pin}
    (hp : p ∈ pinOfDev B dev) (e : Event) (st : PinSt) :
    (∀ v, e = .out dev v → ∃ l, (B.opsOf e).foldl (pinStep p) st = (l, st.2) ∧
        meant B dev (v ≠ 0) = some (driveOf (l, true))) ∧
      (e = .archInit → (B.opsOf e).foldl (pinStep p) st = (st.1, true)) ∧
      ((∀ v, e ≠ .out dev v) → e ≠ .archInit → (B.opsOf e).foldl (pinStep p) st = st) := by
  refine ⟨?_, ?_, ?_⟩
  · rintro v rfl
    have key : ∀ B ∈ boards, ∀ dev ∈ leds, ∀ p ∈ pinOfDev B dev, ∀ v ∈ [(0 : UInt8), 1],
        ∀ st ∈ allPinSt, ((B.opsOf (.out dev v)).foldl (pinStep p) st).2 = st.2 ∧
          meant B dev (v ≠ 0) =
            some (driveOf (((B.opsOf (.out dev v)).foldl (pinStep p) st).1, true)) := by
      decide +kernel
    have h1 := key B hB dev hd p hp (if v ≠ 0 then 1 else 0) (by split <;> decide) st (mem_allPinSt _)
    have h2 : (decide ((if v ≠ 0 then (1 : UInt8) else 0) ≠ 0)) = decide (v ≠ 0) := by
      by_cases hv : v = 0
      · subst hv; rfl
      · rw [if_pos hv, decide_eq_true hv]; rfl
    rw [← handler_bool hB, h2] at h1
    exact ⟨_, Prod.ext rfl h1.1, h1.2⟩
  · rintro rfl
    have key : ∀ B ∈ boards, ∀ dev ∈ leds, ∀ p ∈ pinOfDev B dev, ∀ st ∈ allPinSt,
        (B.opsOf .archInit).foldl (pinStep p) st = (st.1, true) := by decide +kernel
    exact key B hB dev hd p hp st (mem_allPinSt _)
  · intro h1 h2
    have hbit := (led_facts B hB dev hd p hp).1
    have key : ∀ B ∈ boards, ∀ dev ∈ leds, ∀ p ∈ pinOfDev B dev,
        ∀ e ∈ [Event.delayShort, .delayLong, .posStrobe, .negStrobe],
          (B.opsOf e).all (leaves p) = true := by decide +kernel
    refine foldl_leaves ?_ st
    cases e with
    | out q v =>
      by_cases hq : q < 13
      · have key : ∀ B ∈ boards, ∀ dev ∈ leds, ∀ p ∈ pinOfDev B dev, ∀ q, q < 13 → q ≠ dev →
            ∀ v ∈ [(0 : UInt8), 1], (B.opsOf (.out q v)).all (leaves p) = true := by decide +kernel
        rw [handler_bool hB]
        exact key B hB dev hd p hp q hq (fun hc => h1 v (by rw [hc])) _ (by split <;> decide)
      · rw [handler_none hB q (by omega)]
        rfl
    | delayShort => exact key B hB dev hd p hp _ (by decide)
    | delayLong => exact key B hB dev hd p hp _ (by decide)
    | posStrobe => exact key B hB dev hd p hp _ (by decide)
    | negStrobe => exact key B hB dev hd p hp _ (by decide)
    | delayMs m =>
      have : B.opsOf (.delayMs m) = List.replicate m.toNat (.delayUs 1000) := by
        rcases List.mem_cons.mp hB with rfl | hB
        · rfl
        · rcases List.mem_cons.mp hB with rfl | hB
          · rfl
          · cases hB
      rw [this, List.all_eq_true]
      intro op ho
      rw [(List.mem_replicate.mp ho).2]
      exact leaves_delay _ _
    | archInit => exact absurd rfl h2
    | send code =>
      have key : ∀ n, n < 256 → ∀ B ∈ boards, ∀ dev ∈ leds, ∀ p ∈ pinOfDev B dev,
          (B.opsOf (.send (UInt8.ofNat n))).all (leaves p) = true := by decide +kernel
      have h := key code.toNat code.toNat_lt B hB dev hd p hp
      rw [UInt8.ofNat_toNat] at h
      exact h

/-- One step of `shown`. -/
def shownStep (dev : Nat) (o : Option UInt8) (e : Event) : Option UInt8 :=
  match e with
  | .out q v => if q = dev then some v else o
  | _ => o

/-- The LED pin after some events: an output once the hardware was initialised, at the
level of the last value, or at the old level if there was none. -/
theorem lamp_after {B : Board} (hB : B ∈ boards) {dev : Nat} (hd : dev ∈ leds) {p : Pin}
    (hp : p ∈ pinOfDev B dev) (t : List Event) (r : Regs) :
    (.archInit ∈ t → isOutput (boardAfter B r t) p = true) ∧
      (∀ v, shown t dev = some v →
        meant B dev (v ≠ 0) = some (driveOf (level (boardAfter B r t) p, true))) ∧
      (shown t dev = none → level (boardAfter B r t) p = level r p) := by
  have hbit := (led_facts B hB dev hd p hp).1
  have gen : ∀ (t : List Event) (r : Regs) (o : Option UInt8) (l0 : Bool),
      (∀ v, o = some v → meant B dev (v ≠ 0) = some (driveOf (level r p, true))) →
      (o = none → level r p = l0) →
      (isOutput r p = true ∨ .archInit ∈ t → isOutput (boardAfter B r t) p = true) ∧
      (∀ v, t.foldl (shownStep dev) o = some v →
        meant B dev (v ≠ 0) = some (driveOf (level (boardAfter B r t) p, true))) ∧
      (t.foldl (shownStep dev) o = none → level (boardAfter B r t) p = l0) := by
    intro t
    induction t with
    | nil =>
      intro r o l0 h1 h2
      refine ⟨?_, h1, h2⟩
      rintro (h | h)
      · exact h
      · cases h
    | cons e t ih =>
      intro r o l0 h1 h2
      have e0 : boardAfter B r (e :: t) = boardAfter B (boardAfter B r [e]) t :=
        boardAfter_append B r [e] t
      have e1 : pinSt (boardAfter B r [e]) p = (B.opsOf e).foldl (pinStep p) (pinSt r p) := by
        rw [boardAfter_one, exec_pin _ p hbit]
      obtain ⟨k1, k2, k3⟩ := lamp_event hB hd hp e (pinSt r p)
      rw [e0, List.foldl_cons]
      by_cases ho : ∃ v, e = .out dev v
      · obtain ⟨v, rfl⟩ := ho
        obtain ⟨l, g1, g2⟩ := k1 v rfl
        rw [g1] at e1
        have hlev : level (boardAfter B r [.out dev v]) p = l := congrArg Prod.fst e1
        have hout : isOutput (boardAfter B r [.out dev v]) p = isOutput r p := congrArg Prod.snd e1
        obtain ⟨i1, i2, i3⟩ := ih (boardAfter B r [.out dev v]) (some v) l0
          (fun w hw => by rw [← Option.some.inj hw, hlev]; exact g2) (fun h => by cases h)
        have hstep : shownStep dev o (.out dev v) = some v := if_pos rfl
        rw [hstep]
        refine ⟨?_, i2, i3⟩
        rintro (h | h)
        · exact i1 (.inl (by rw [hout]; exact h))
        · rcases List.mem_cons.mp h with h | h
          · cases h
          · exact i1 (.inr h)
      · have ho : ∀ v, e ≠ .out dev v := fun v hc => ho ⟨v, hc⟩
        have hstep : shownStep dev o e = o := by
          cases e with
          | out q v => exact if_neg fun hc => ho v (by rw [hc])
          | _ => rfl
        rw [hstep]
        by_cases ha : e = .archInit
        · rw [k2 ha] at e1
          have hlev : level (boardAfter B r [e]) p = level r p := congrArg Prod.fst e1
          have hout : isOutput (boardAfter B r [e]) p = true := congrArg Prod.snd e1
          obtain ⟨i1, i2, i3⟩ := ih (boardAfter B r [e]) o l0
            (fun w hw => by rw [hlev]; exact h1 w hw) (fun h => by rw [hlev]; exact h2 h)
          exact ⟨fun _ => i1 (.inl hout), i2, i3⟩
        · rw [k3 ho ha] at e1
          have hlev : level (boardAfter B r [e]) p = level r p := congrArg Prod.fst e1
          have hout : isOutput (boardAfter B r [e]) p = isOutput r p := congrArg Prod.snd e1
          obtain ⟨i1, i2, i3⟩ := ih (boardAfter B r [e]) o l0
            (fun w hw => by rw [hlev]; exact h1 w hw) (fun h => by rw [hlev]; exact h2 h)
          refine ⟨?_, i2, i3⟩
          rintro (h | h)
          · exact i1 (.inl (by rw [hout]; exact h))
          · rcases List.mem_cons.mp h with h | h
            · exact absurd h.symm ha
            · exact i1 (.inr h)
  obtain ⟨g1, g2, g3⟩ := gen t r none (level r p) (fun v hv => by cases hv) (fun _ => rfl)
  exact ⟨fun h => g1 (.inr h), g2, g3⟩

end Asdf
