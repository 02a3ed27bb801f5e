import Verif.Lemmas.OutputTiming
import Verif.Props.Timing

/-! # Property C98: the output pins in time

The source files of the firmware (C96), run on either board, and an oscilloscope on the pins of
outputs 1 and 3. -/

namespace Asdf.Props

open Avr Spec Pcb

theorem out3_pulsed : ∀ B ∈ boards, Pulsed B B.out3 PHYSICAL_OUT3_OPEN_HI [PHYSICAL_OUT3, PHYSICAL_OUT3_OPEN_LO] 0 1
    .delayShort 10 .low .high := by
  have key : ∀ B ∈ boards, ∀ n, n < 256 → (B.opsOf (.send (UInt8.ofNat n))).all (leaves B.out3) = true := by
    decide +kernel
  intro B hB
  rcases Timing.two_boards hB with rfl | rfl
  · exact ⟨by decide, by decide, by decide +kernel, by decide +kernel, by decide +kernel, by decide +kernel,
      key _ hB, by decide +kernel, by decide +kernel⟩
  · exact ⟨by decide, by decide, by decide +kernel, by decide +kernel, by decide +kernel, by decide +kernel,
      key _ hB, by decide +kernel, by decide +kernel⟩

theorem out1_pulsed : ∀ B ∈ boards, Pulsed B B.out1 PHYSICAL_OUT1_OPEN_LO [PHYSICAL_OUT1, PHYSICAL_OUT1_OPEN_HI] 1 0
    .delayLong 50000 .high .low := by
  have key : ∀ B ∈ boards, ∀ n, n < 256 → (B.opsOf (.send (UInt8.ofNat n))).all (leaves B.out1) = true := by
    decide +kernel
  intro B hB
  rcases Timing.two_boards hB with rfl | rfl
  · exact ⟨by decide, by decide, by decide +kernel, by decide +kernel, by decide +kernel, by decide +kernel,
      key _ hB, by decide +kernel, by decide +kernel⟩
  · exact ⟨by decide, by decide, by decide +kernel, by decide +kernel, by decide +kernel, by decide +kernel,
      key _ hB, by decide +kernel, by decide +kernel⟩

/-- No keymap uses these outputs. -/
theorem unused (inps : List Input) : ∀ p ∈ [PHYSICAL_OUT3, PHYSICAL_OUT3_OPEN_LO, PHYSICAL_OUT1, PHYSICAL_OUT1_OPEN_HI],
    Spares p (Kb.after fourMaps openLayout inps).trace := by
  have key : ∀ p ∈ [PHYSICAL_OUT3, PHYSICAL_OUT3_OPEN_LO, PHYSICAL_OUT1, PHYSICAL_OUT1_OPEN_HI],
      ∀ i ∈ openLayout.maps, ∀ caps, freeCheck (fourMaps.setup i) p caps = true := by decide +kernel
  intro p hp
  exact free_run (cfgFacts fourMaps_ok) (freeCfg_of_check (key p hp)) inps fun inp _ => openLayout_allowed inp

theorem run_story {b : C.Chip} {X : C.Board} (hb : X.body = C.layerOf b) {B : Board} {T : Whole.Target}
    (hX : Compiled X B T) {W : C.Outside} (hW : SafeWorld W) (r0 : Regs) (sr : UInt8) {polls w n : Nat}
    (hw : 65536 ≤ w) (hp : polls < w) (hn : 23 ≤ n) :
    ∃ mxs hi h, C.SampledAll W 0 hi mxs ∧ C.sourceRun b X W w n r0 sr polls = some h ∧
      h.found = mxs.length ∧ hi ≤ h.time ∧
      C.Story T r0 (Kb.after fourMaps openLayout (mxs.map contactsRead)).trace h.log h.regs := by
  obtain ⟨mxs, hi, h1, h2⟩ := text_on hX W r0 sr hw hp hn
  obtain ⟨wh, e1, _, e2, _⟩ := C75_board_safe B T (compiled_built hX) r0 mxs (hW hi mxs h1)
  obtain ⟨h, k1, o, kf, _, k5⟩ := h2 wh e1
  refine ⟨mxs, hi, h, h1, ?_, kf, k5, ?_⟩
  · rw [C96_run b X hb]; exact k1
  · have := o.story
    rw [e2] at this
    exact this

theorem pin_periods {B : Board} {T : Whole.Target} (hT : Built B T) {pin p ms x y d t act opp}
    (hP : Pulsed B pin p ms x y d t act opp) {r0 : Regs} (h0 : drive r0 pin ≠ act ∧ drive r0 pin ≠ opp)
    {es : List Event} {h : C.Hw} (hs : C.Story T r0 es h.log h.regs) (hm : ∀ q ∈ ms, Spares q es) {n : Nat}
    (hn : pulses p x y d es = some n) :
    (periods act (pinScope pin h)).now = none ∧ (periods act (pinScope pin h)).past.length = n ∧
      (∀ u ∈ (periods act (pinScope pin h)).past, t ≤ u) ∧ ∀ z ∈ pinScope pin h, z.1 ≠ opp := by
  have e := phase_pulses es 0 n hn
  rw [Nat.zero_add] at e
  obtain ⟨h1, h2⟩ := story_phase hT hP h0 hs hm (by rw [e]; nofun)
  rw [e] at h1
  obtain ⟨_, _, k3, k4, k5⟩ := h1
  refine ⟨k3, k4, k5, fun z hz => ?_⟩
  obtain ⟨w, hw, rfl⟩ := List.mem_map.mp hz
  exact h2 w hw

theorem input_rests {r0 : Regs} {p : Pin} (h : isOutput r0 p = false) : drive r0 p ≠ .low ∧ drive r0 p ≠ .high := by
  unfold drive
  rw [h]
  cases level r0 p <;> exact ⟨nofun, nofun⟩

/-- **C98, output 3.**  Whatever the keys, the other pins and the timer do, in a world where every
use is safe, on a board that comes out of reset with the pin as an input: output 3 is pulled low
once for each accepted press of a key for output code 1 (the RESET key), each time for at least
10 µs; it is never driven high and rests released. -/
theorem C98_output3 (b : C.Chip) (X : C.Board) (hb : X.body = C.layerOf b) (B : Board) (T : Whole.Target)
    (hX : Compiled X B T) (W : C.Outside) (hW : SafeWorld W) (r0 : Regs) (h0 : isOutput r0 B.out3 = false)
    (sr : UInt8) (polls w n : Nat) (hw : 65536 ≤ w) (hp : polls < w) (hn : 23 ≤ n) :
    ∃ mxs hi h, C.SampledAll W 0 hi mxs ∧ C.sourceRun b X W w n r0 sr polls = some h ∧
      h.found = mxs.length ∧ hi ≤ h.time ∧
      (periods .low (pinScope B.out3 h)).now = none ∧
      (periods .low (pinScope B.out3 h)).past.length =
        pressCount fourMaps openLayout 0xB1 (mxs.map contactsRead) ∧
      (∀ t ∈ (periods .low (pinScope B.out3 h)).past, 10 ≤ t) ∧
      ∀ x ∈ pinScope B.out3 h, x.1 ≠ .high := by
  obtain ⟨mxs, hi, h, h1, h2, h3, h4, h5⟩ := run_story hb hX hW r0 sr hw hp hn
  have hT := compiled_built hX
  obtain ⟨ready, hO⟩ := hT.onBoard
  have hcount := pulse_run (cfgFacts fourMaps_ok) (v := VOUT1) (p := PHYSICAL_OUT3_OPEN_HI) (fn := .pulseShort)
    (d := .delayShort) (pulseCfg_of_check (by decide +kernel : ∀ i ∈ openLayout.maps, ∀ caps,
      pulseCheck (fourMaps.setup i) VOUT1 PHYSICAL_OUT3_OPEN_HI .pulseShort 1 caps = true)) rfl (.inr rfl) (by decide)
    (mxs.map contactsRead) fun inp _ => openLayout_allowed inp
  exact ⟨mxs, hi, h, h1, h2, h3, h4, pin_periods hT (out3_pulsed B hO.mem) (input_rests h0) h5
    (fun q hq => unused _ q (by revert q; decide)) hcount⟩

/-- **C98, output 1.**  In the same way output 1 is driven high once for each accepted press of a
key for output code 2, each time for at least 50 ms; it is never driven low and rests released. -/
theorem C98_output1 (b : C.Chip) (X : C.Board) (hb : X.body = C.layerOf b) (B : Board) (T : Whole.Target)
    (hX : Compiled X B T) (W : C.Outside) (hW : SafeWorld W) (r0 : Regs) (h0 : isOutput r0 B.out1 = false)
    (sr : UInt8) (polls w n : Nat) (hw : 65536 ≤ w) (hp : polls < w) (hn : 23 ≤ n) :
    ∃ mxs hi h, C.SampledAll W 0 hi mxs ∧ C.sourceRun b X W w n r0 sr polls = some h ∧
      h.found = mxs.length ∧ hi ≤ h.time ∧
      (periods .high (pinScope B.out1 h)).now = none ∧
      (periods .high (pinScope B.out1 h)).past.length =
        pressCount fourMaps openLayout 0xB2 (mxs.map contactsRead) ∧
      (∀ t ∈ (periods .high (pinScope B.out1 h)).past, 50000 ≤ t) ∧
      ∀ x ∈ pinScope B.out1 h, x.1 ≠ .low := by
  obtain ⟨mxs, hi, h, h1, h2, h3, h4, h5⟩ := run_story hb hX hW r0 sr hw hp hn
  have hT := compiled_built hX
  obtain ⟨ready, hO⟩ := hT.onBoard
  have hcount := pulse_run (cfgFacts fourMaps_ok) (v := VOUT2) (p := PHYSICAL_OUT1_OPEN_LO) (fn := .pulseLong)
    (d := .delayLong) (pulseCfg_of_check (by decide +kernel : ∀ i ∈ openLayout.maps, ∀ caps,
      pulseCheck (fourMaps.setup i) VOUT2 PHYSICAL_OUT1_OPEN_LO .pulseLong 0 caps = true)) rfl (.inl rfl) (by decide)
    (mxs.map contactsRead) fun inp _ => openLayout_allowed inp
  have hi01 := input_rests h0
  exact ⟨mxs, hi, h, h1, h2, h3, h4, pin_periods hT (out1_pulsed B hO.mem) ⟨hi01.2, hi01.1⟩ h5
    (fun q hq => unused _ q (by revert q; decide)) hcount⟩

/-- CTRL and RESET are held all the time. -/
def resetKeys : Input := fun i => if i = 0 then 0x40 else if i = 2 then 1 else 0

def worldReset : C.Outside := ⟨fun _ => resetKeys, fun _ _ => 0, fun _ => true⟩

/-- The hypotheses can be met, and ten readings of this matrix count as one press. -/
example : SafeWorld worldReset ∧ isOutput allZero m328.out3 = false ∧ isOutput allZero m2560.out1 = false ∧
    pressCount fourMaps openLayout 0xB1 (List.replicate 10 resetKeys) = 1 :=
  ⟨C90_safe_settings worldReset false false (fun _ => show bitOf (resetKeys 8) 1 = false by decide)
    (fun _ => show bitOf (resetKeys 8) 2 = false by decide) (.inl rfl), by decide, by decide, by decide +kernel⟩

/-- What the record of such a pin looks like: released, a pulse of 10 µs, released. -/
example : periods .low [(.floating, 0), (.low, 0), (.low, 10), (.floating, 0), (.pullup, 0)] = ⟨none, [10]⟩ := by decide

/-- What the theorem excludes: a pin that stays low, a pulse that is too short, one that is cut in two. -/
example : (periods .low [(.pullup, 5), (.low, 3), (.low, 10)]).now = some 13 ∧
    periods .low [(.low, 3), (.pullup, 9)] = ⟨none, [3]⟩ ∧
    (periods .low [(.low, 10), (.pullup, 0), (.low, 10), (.pullup, 0)]).past.length = 2 := by decide

end Asdf.Props
