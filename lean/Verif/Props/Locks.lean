import Verif.Lemmas.Locks
import Verif.Props.Safety
import Verif.Props.Lamps
import Verif.Props.Interrupts

/-! # C94: exactly which modifiers are in force, and what the lamps show -/

namespace Asdf.Props

open Avr Spec

/-- **C94.**  In every safe run of the shipped firmware (C72) the modifiers, the keymap and the values
last given to the two lamps are those of the panel of `Spec/Locks.lean`, which knows only the accepted
movements of keys and switches.  Shift lock is never on. -/
theorem C94_panel (inps : List Input) (h : NeverTrips inps) :
    ∃ s, powerUp shipped inps = .ok s ∧
      (s.mods.shift ≠ 0 ↔ (panelAfter inps).shift = true) ∧ s.mods.shift &&& 2 = 0 ∧
      (s.mods.ctrl ≠ 0 ↔ (panelAfter inps).ctrl = true) ∧
      (s.mods.caps ≠ 0 ↔ (panelAfter inps).caps = true) ∧
      s.curIdx.toNat = (panelAfter inps).sw0.toNat + 2 * (panelAfter inps).sw1.toNat ∧
      shown s.dev.trace PHYSICAL_LED1 = (panelAfter inps).led1.map (fun b => if b then 1 else 0) ∧
      shown s.dev.trace PHYSICAL_LED3 = (panelAfter inps).led3.map (fun b => if b then 1 else 0) := by
  obtain ⟨s, h1, hs, _⟩ := four_run inps
  have hl := Locks.after_like inps
  have hb : ∀ b : Bool, b2u b ≠ 0 ↔ b = true := by decide
  refine ⟨s, (powerUp_same inps h).trans h1, ?_, ?_, ?_, ?_, ?_, ?_, ?_⟩
  · rw [hs.shift, hl.locked, hl.held]
    exact (by decide : ∀ b : Bool, shiftCode b false ≠ 0 ↔ b = true) _
  · rw [hs.shift, hl.locked]
    exact (by decide : ∀ b : Bool, shiftCode b false &&& 2 = 0) _
  · rw [hs.ctrl, hl.ctrl]; exact hb _
  · rw [hs.caps, hl.caps]; exact hb _
  · rw [hs.map, hl.map]
    exact (by decide : ∀ x y : Bool, (twoBits x y).toNat = x.toNat + 2 * y.toNat) _ _
  · rw [hs.trace]; exact hl.led1
  · rw [hs.trace]; exact hl.led3

/-- CAPS is pressed, then keymap 2 is selected and left again: caps lock is off although LED 3, the
lamp of keymap 0, shows it on. -/
def capsThenTwo : List Input :=
  List.replicate 10 (closing 5 2) ++ List.replicate 10 noKeys ++ List.replicate 10 (closing 8 1) ++
    List.replicate 10 noKeys

/-- Non-vacuity. -/
example : panelAfter capsThenTwo = ⟨false, false, false, false, false, some false, some true⟩ ∧
    movesOf capsThenTwo = [⟨(5, 2), true⟩, ⟨(5, 2), false⟩, ⟨(8, 1), true⟩, ⟨(8, 1), false⟩] := by
  decide +kernel

/-- That run is safe. -/
example : NeverTrips capsThenTwo := by
  intro pre inp post e ht
  have h2 : ∀ l : List Input, (∀ i ∈ l, sample i 8 2 = false) → dip l 2 = false := by
    intro l hl
    have : samplesOf l 8 2 = List.replicate l.length false := by
      rw [List.eq_replicate_iff]
      refine ⟨by simp [samplesOf], fun z hz => ?_⟩
      obtain ⟨i, hi, rfl⟩ := List.mem_map.mp hz
      exact hl i hi
    unfold dip
    rw [this, Asdf.debounced_constant]
    simp
  have h3 : ∀ i ∈ capsThenTwo, sample i 8 2 = false := by decide +kernel
  have := h2 (pre ++ [inp]) (fun i hi => h3 i (by
    rw [e]
    rcases List.mem_append.mp hi with hi | hi
    · exact List.mem_append_left _ hi
    · exact List.mem_append_right _ (List.mem_singleton.mp hi ▸ List.mem_cons_self)))
  rw [ht.2.1] at this
  cases this

/-- **C94, SHIFT** (the exact rule behind C70).  SHIFT is in force exactly if the last movement of
either SHIFT key was a press. -/
theorem C94_shift (inps : List Input) : (panelAfter inps).shift = true ↔
    ((movesOf inps).filter fun m => m.key = (0, 1) ∨ m.key = (0, 2)).getLast?.map Move.down = some true :=
  Locks.shift_last _

/-- Both SHIFT keys are pressed and one is released: SHIFT is off. -/
example : ((movesOf (List.replicate 10 (fun r => if r = 0 then 6 else 0) ++
    List.replicate 10 (closing 0 1))).filter fun m => m.key = (0, 1) ∨ m.key = (0, 2)) =
    [⟨(0, 1), true⟩, ⟨(0, 2), true⟩, ⟨(0, 2), false⟩] := by decide +kernel

/-- **C94, CTRL.**  CTRL is in force exactly while its key is down. -/
theorem C94_ctrl (inps : List Input) : (panelAfter inps).ctrl = downAfter inps 0 6 := Locks.ctrl_down inps

/-- **C94, caps lock with keymap 0** (switches 0 and 1 never closed).  Caps lock is on exactly if
CAPS was pressed an odd number of times; LED 3 shows it from the first press on and is not switched
before; LED 1 is never switched. -/
theorem C94_caps (inps : List Input)
    (h : ∀ m ∈ movesOf inps, m.key ≠ (8, 0) ∧ m.key ≠ (8, 1)) :
    let n := (movesOf inps).countP fun m => m.key = (5, 2) ∧ m.down = true
    (panelAfter inps).caps = decide (n % 2 = 1) ∧
      (panelAfter inps).led3 = (if n = 0 then none else some (decide (n % 2 = 1))) ∧
      (panelAfter inps).led1 = none :=
  Locks.caps_count _ h

example : (∀ m ∈ movesOf (List.replicate 10 (closing 5 2)), m.key ≠ (8, 0) ∧ m.key ≠ (8, 1)) ∧
    (movesOf (List.replicate 10 (closing 5 2))).countP (fun m => m.key = (5, 2) ∧ m.down = true) = 1 := by
  decide +kernel

/-- **C94, the lamps.**  On both boards, in every safe run, LED 1 and LED 3 are lit or dark as the panel
says; a lamp the panel calls never switched has the level its port had at power-up. -/
theorem C94_lamps (B : Board) (T : Whole.Target) (hB : Built B T) (r0 : Regs)
    (mxs : List (Nat → Whole.Contacts)) (h : NeverTrips (mxs.map contactsRead)) :
    ∃ w, Whole.life T shipped r0 mxs = .ok w ∧
      ∀ x ∈ [(PHYSICAL_LED1, B.led1, (panelAfter (mxs.map contactsRead)).led1),
        (PHYSICAL_LED3, B.led3, (panelAfter (mxs.map contactsRead)).led3)],
        match x.2.2 with
        | some on => meant B x.1 on = some (drive w.regs x.2.1)
        | none => drive w.regs x.2.1 = if level r0 x.2.1 then .high else .low := by
  obtain ⟨w, e1, e2, e3, _⟩ := C75_board_safe B T hB r0 mxs h
  refine ⟨w, e1, ?_⟩
  have hl := Locks.after_like (mxs.map contactsRead)
  have key : ∀ dev pin (o : Option Bool), dev ∈ [PHYSICAL_LED1, PHYSICAL_LED2, PHYSICAL_LED3] →
      pin ∈ pinOfDev B dev → shown w.fw.dev.trace dev = o.map b2u →
      match o with
      | some on => meant B dev on = some (drive w.regs pin)
      | none => drive w.regs pin = if level r0 pin then .high else .low := by
    intro dev pin o hd hp hs
    cases o with
    | none =>
      exact C60_never_switched B T hB fourMaps openLayout fourMaps_ok r0 mxs
        (fun _ _ => openLayout_allowed _) w e2 dev hd pin hp hs
    | some on =>
      have := C60_lamp B T hB fourMaps openLayout fourMaps_ok r0 mxs
        (fun _ _ => openLayout_allowed _) w e2 dev hd pin hp _ hs
      rw [show decide (b2u on ≠ 0) = on by cases on <;> rfl] at this
      exact this
  intro x hx
  rcases List.mem_cons.mp hx with rfl | hx
  · exact key PHYSICAL_LED1 B.led1 _ (by decide) (List.mem_singleton.mpr rfl) (by rw [e3]; exact hl.led1)
  · rw [List.mem_singleton.mp hx]
    exact key PHYSICAL_LED3 B.led3 _ (by decide) (List.mem_singleton.mpr rfl) (by rw [e3]; exact hl.led3)

end Asdf.Props
