import Verif.Lemmas.Boards

/-! # Property C44: the output pins of both boards -/

namespace Asdf.Props

open Avr Spec

/-! ## C44 -/

/-- **C44, first part.**  On both boards, whatever the registers were before and
whatever the value, no register access of an open-high output leaves its pin
driven high. -/
theorem C44_open_high_never_high (B : Board) (hB : B ∈ boards) (r : Regs) (dev : Nat)
    (hd : dev ∈ openHigh) (v : UInt8) (r' : Regs) (hr : r' ∈ boardStates B r [.out dev v])
    (p : Pin) (hp : p ∈ pinOfDev B dev) : drive r' p ≠ .high := by
  have key : ∀ B ∈ boards, ∀ dev ∈ openHigh, ∀ p ∈ pinOfDev B dev, p.bit < 8 ∧
      ∀ v ∈ [(0 : UInt8), 1], ∀ st ∈ allPinSt, ∀ x ∈ pinSts p st (B.opsOf (.out dev v)),
        driveOf x ≠ .high := by decide +kernel
  obtain ⟨hb, key⟩ := key B hB dev hd p hp
  rw [boardStates_one, handler_bool hB] at hr
  rw [drive_eq]
  exact key _ (by split <;> decide) _ (mem_allPinSt _) _ (mem_states_pin hr p hb)

/-- **C44, second part.**  No register access of an open-low output leaves its pin
driven low. -/
theorem C44_open_low_never_low (B : Board) (hB : B ∈ boards) (r : Regs) (dev : Nat)
    (hd : dev ∈ openLow) (v : UInt8) (r' : Regs) (hr : r' ∈ boardStates B r [.out dev v])
    (p : Pin) (hp : p ∈ pinOfDev B dev) : drive r' p ≠ .low := by
  have key : ∀ B ∈ boards, ∀ dev ∈ openLow, ∀ p ∈ pinOfDev B dev, p.bit < 8 ∧
      ∀ v ∈ [(0 : UInt8), 1], ∀ st ∈ allPinSt, ∀ x ∈ pinSts p st (B.opsOf (.out dev v)),
        driveOf x ≠ .low := by decide +kernel
  obtain ⟨hb, key⟩ := key B hB dev hd p hp
  rw [boardStates_one, handler_bool hB] at hr
  rw [drive_eq]
  exact key _ (by split <;> decide) _ (mem_allPinSt _) _ (mem_states_pin hr p hb)

/-- **C44, third part.**  Every output setter affects only its own pin, at every
moment. -/
theorem C44_own_pin_only (B : Board) (hB : B ∈ boards) (r : Regs) (dev : Nat) (v : UInt8)
    (r' : Regs) (hr : r' ∈ boardStates B r [.out dev v]) : onlyPins (pinOfDev B dev) r r' := by
  rw [boardStates_one] at hr
  by_cases hd : dev < 13
  · have key : ∀ B ∈ boards, ∀ dev, dev < 13 → ∀ v ∈ [(0 : UInt8), 1],
        touchesOnly (pinOfDev B dev) (B.opsOf (.out dev v)) = true := by decide +kernel
    rw [handler_bool hB] at hr
    exact onlyPins_of (key B hB dev hd _ (by split <;> decide)) hr
  · rw [handler_none hB dev (by omega)] at hr
    cases hr

/-- **C44, effect.**  After the call, the pin is in the state that the output's value
stands for (LEDs: once they are outputs, which `asdf_arch_init` arranges). -/
theorem C44_effect (B : Board) (hB : B ∈ boards) (r : Regs) (dev : Nat) (v : UInt8) (d : Drive)
    (hd : meant B dev (v ≠ 0) = some d) (p : Pin) (hp : p ∈ pinOfDev B dev)
    (hled : 10 ≤ dev → isOutput r p = true) : drive (boardAfter B r [.out dev v]) p = d := by
  have key : ∀ B ∈ boards, ∀ dev, dev < 13 → ∀ p ∈ pinOfDev B dev, p.bit < 8 ∧
      ∀ v ∈ [(0 : UInt8), 1], ∀ st ∈ allPinSt, (10 ≤ dev → st.2 = true) →
        meant B dev (v ≠ 0) = none ∨ meant B dev (v ≠ 0) =
          some (driveOf ((B.opsOf (.out dev v)).foldl (pinStep p) st)) := by decide +kernel
  by_cases hdev : dev < 13
  · obtain ⟨hb, key⟩ := key B hB dev hdev p hp
    have h1 := key (if v ≠ 0 then 1 else 0) (by split <;> decide) (pinSt r p) (mem_allPinSt _) hled
    have h2 : (decide ((if v ≠ 0 then (1 : UInt8) else 0) ≠ 0)) = decide (v ≠ 0) := by
      by_cases hv : v = 0
      · subst hv; rfl
      · rw [if_pos hv, decide_eq_true hv]; rfl
    rw [boardAfter_one, handler_bool hB, drive_eq, exec_pin _ p hb]
    rw [h2, hd] at h1
    rcases h1 with h1 | h1
    · cases h1
    · exact (Option.some.inj h1).symm
  · have hne : ∀ k, k < 13 → ¬ dev = k := fun k hk hc => by omega
    have hm : ∀ l : List Nat, (∀ k ∈ l, k < 13) → ¬ dev ∈ l := fun l hl hc => hdev (hl dev hc)
    unfold pinOfDev at hp
    rw [if_neg (hm _ (by decide)), if_neg (hm _ (by decide)), if_neg (hm _ (by decide)),
      if_neg (hne _ (by decide)), if_neg (hne _ (by decide)), if_neg (hne _ (by decide))] at hp
    cases hp

/-- On the ATmega328P board the two open modes of OUT2 do nothing at all (documented,
asdf_arch_atmega328p.c:386-387, 431). -/
theorem C44_no_open_out2_on_328p (r : Regs) (v : UInt8) :
    boardStates m328 r [.out PHYSICAL_OUT2_OPEN_HI v] = [] ∧
    boardStates m328 r [.out PHYSICAL_OUT2_OPEN_LO v] = [] := ⟨rfl, rfl⟩

/-- The outputs that exist: every value of each has a meaning, except for these two. -/
theorem C44_meant_exists : ∀ B ∈ boards, ∀ dev, dev < 13 → ∀ on : Bool,
    meant B dev on = none ↔ dev = PHYSICAL_NO_OUT ∨
      (B.out2Inverted = true ∧ (dev = PHYSICAL_OUT2_OPEN_HI ∨ dev = PHYSICAL_OUT2_OPEN_LO)) := by
  decide +kernel

/-- A register image for the examples: port B of the ATmega2560 drives everything
high. -/
def allHigh : Regs := ⟨fun _ => 0xff, fun _ => 0xff, fun _ => 0, false, true⟩

/-- Non-vacuity: switching OUT1 of the ATmega2560 from driven high to open-high 0
goes through two states, both low. -/
example : (boardStates m2560 allHigh [.out PHYSICAL_OUT1_OPEN_HI 0]).map (drive · m2560.out1) =
    [.low, .low] ∧ drive allHigh m2560.out1 = .high := by decide

/-- Non-vacuity: open-high 1 releases the pin at once. -/
example : (boardStates m2560 allHigh [.out PHYSICAL_OUT1_OPEN_HI 1]).map (drive · m2560.out1) =
    [.pullup, .pullup] := by decide

end Asdf.Props
