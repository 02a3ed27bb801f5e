import Verif.Lemmas.Waits
import Verif.Lemmas.PulseCount
import Verif.Props.Timing

/-! # Property C118: how long the keyboard waits on purpose

The source files of the firmware (C96), run on either board. -/

namespace Asdf.Props

open Avr Spec Pcb Waits PulseCount

theorem chip_row {b : C.Chip} {X : C.Board} (hb : X.body = C.layerOf b) {B : Board} {T : Whole.Target}
    (hX : Compiled X B T) : 9 * T.rowUs = scanUs b ∧ ∃ n, 0 < n ∧ RowLength T n := by
  rcases hX with ⟨rfl, _, rfl⟩ | ⟨cols, _, rfl, _, rfl⟩
  · cases b with
    | m328 => exact ⟨rfl, _, by decide, row328⟩
    | m2560 =>
      have := congrArg Option.isSome (congrFun hb .asdf_arch_osi_read_row)
      exact absurd this (by decide)
  · cases b with
    | m328 =>
      have := congrArg Option.isSome (congrFun hb .asdf_arch_osi_read_row)
      exact Bool.noConfusion (show true = false from this)
    | m2560 => exact ⟨rfl, 4, by decide, row2560 cols⟩

/-- One short pulse per press of the RESET key, which has output code 1. -/
theorem short_presses (inps : List Input) :
    (Kb.after fourMaps openLayout inps).trace.count .delayShort =
      pressCount fourMaps openLayout 0xB1 inps :=
  count_run (v := 1) (fn := .pulseShort) (cfgFacts fourMaps_ok) (soleCfg_of_check (by decide +kernel)) rfl
    (by decide) _ (fun inp _ => openLayout_allowed inp)

/-- One long pulse per press of the key with output code 2. -/
theorem long_presses (inps : List Input) :
    (Kb.after fourMaps openLayout inps).trace.count .delayLong =
      pressCount fourMaps openLayout 0xB2 inps :=
  count_run (v := 2) (fn := .pulseLong) (cfgFacts fourMaps_ok) (soleCfg_of_check (by decide +kernel)) rfl
    (by decide) _ (fun inp _ => openLayout_allowed inp)

/-- **C118.**  Whatever the keys, the other pins and the timer do, in a world where every use is safe:
the text of the firmware has waited on purpose 10 µs for each code that it sent, 40 ms for each
character of a message, 10 µs for each press of a key for output code 1 (a short pulse) and 50 ms for
each press of a key for output code 2 (a long pulse), and on the ATmega2560 72 µs for each scan of the
matrix; nothing else. -/
theorem C118_waits (b : C.Chip) (X : C.Board) (hb : X.body = C.layerOf b) (B : Board) (T : Whole.Target)
    (hX : Compiled X B T) (W : C.Outside) (hW : SafeWorld W) (r0 : Regs) (sr : UInt8) (polls w n : Nat)
    (hw : 65536 ≤ w) (hp : polls < w) (hn : 23 ≤ n) :
    ∃ mxs hi h, C.SampledAll W 0 hi mxs ∧ C.sourceRun b X W w n r0 sr polls = some h ∧
      h.found = mxs.length ∧ hi ≤ h.time ∧
      let host := (channel (typed fourMaps openLayout (mxs.map contactsRead))
        (said fourMaps openLayout (mxs.map contactsRead))).host
      waited h = 10 * host.length + 40000 * messageChars host +
        10 * pressCount fourMaps openLayout 0xB1 (mxs.map contactsRead) +
        50000 * pressCount fourMaps openLayout 0xB2 (mxs.map contactsRead) + scanUs b * h.found := by
  obtain ⟨mxs, hi, h1, h2⟩ := text_on hX W r0 sr hw hp hn
  obtain ⟨wh, e1, e1', e2, _⟩ := C75_board_safe B T (compiled_built hX) r0 mxs (hW hi mxs h1)
  obtain ⟨h, k1, o, kf, _, k5⟩ := h2 wh e1
  refine ⟨mxs, hi, h, h1, (C96_run b X hb ..).trans k1, kf, k5, ?_⟩
  intro host
  rw [← short_presses, ← long_presses]
  let events := (Kb.after fourMaps openLayout (mxs.map contactsRead)).trace
  obtain ⟨hr, m, hm, hl⟩ := chip_row hb hX
  obtain ⟨ready, hf⟩ := (compiled_built hX).onBoard
  obtain ⟨k, c1, c2⟩ := story_us (compiled_built hX) hl o.story
  have c3 := life_counted hf hl (cfgFacts fourMaps_ok) r0 mxs (fun mx _ => openLayout_allowed _) e1'
  rw [← o.log, List.length_map] at c3
  have hk : k = 9 * mxs.length := Nat.eq_of_mul_eq_mul_left hm (Nat.add_left_cancel (c1.symm.trans c3))
  have hh : hostSees events = host := (after_onLine fourMaps openLayout _).host
  have hs : (sends events).length = host.length := by rw [sends_hostSees, hh, List.length_map]
  have hp : events.countP isPause = messageChars host := by rw [← hh]; exact after_pauses _ _ _
  unfold waited
  rw [c2, e2, eventsUs_eq (fun m hm => shipped_delays _ m hm), hs, hp, kf, hk, ← hr]
  show _ = 10 * host.length + 40000 * messageChars host + 10 * events.count .delayShort +
    50000 * events.count .delayLong +
    9 * T.rowUs * mxs.length
  rw [show 9 * T.rowUs * mxs.length = T.rowUs * (9 * mxs.length) by
    rw [← Nat.mul_assoc, Nat.mul_comm T.rowUs 9]]
  rfl

/-- **C118, while keys are typed.**  As long as the host gets no message and no key for output code 1
or 2 is pressed, the firmware waits at most 10 µs in each scan, on the ATmega2560 at most 82 µs. -/
theorem C118_typing (b : C.Chip) (X : C.Board) (hb : X.body = C.layerOf b) (B : Board) (T : Whole.Target)
    (hX : Compiled X B T) (W : C.Outside) (hW : SafeWorld W) (r0 : Regs) (sr : UInt8) (polls w n : Nat)
    (hw : 65536 ≤ w) (hp : polls < w) (hn : 23 ≤ n) :
    ∃ mxs hi h, C.SampledAll W 0 hi mxs ∧ C.sourceRun b X W w n r0 sr polls = some h ∧
      h.found = mxs.length ∧ hi ≤ h.time ∧
      (messageChars (channel (typed fourMaps openLayout (mxs.map contactsRead))
          (said fourMaps openLayout (mxs.map contactsRead))).host = 0 →
        pressCount fourMaps openLayout 0xB1 (mxs.map contactsRead) = 0 →
        pressCount fourMaps openLayout 0xB2 (mxs.map contactsRead) = 0 →
        waited h ≤ (10 + scanUs b) * h.found) := by
  obtain ⟨mxs, hi, h, h1, h2, h3, h4, h5⟩ := C118_waits b X hb B T hX W hW r0 sr polls w n hw hp hn
  refine ⟨mxs, hi, h, h1, h2, h3, h4, fun m s l => ?_⟩
  have hl := typed_length fourMaps openLayout (mxs.map contactsRead)
  have hc := channel_pace _ _ (hl.1.trans hl.2.symm)
  rw [hl.1, List.length_map] at hc
  dsimp only at h5
  rw [h5, m, s, l, Nat.add_mul, h3]
  omega

/-- A run of the text on each board with key A closed, four looks at the timer flag. -/
example : (textRun C.board328 worldA 65536 23 allZero 0 3).map (fun h => (h.found, waited h)) = some (3, 0) ∧
    (textRun (C.board2560 exampleColumns) worldA 65536 23 allZero 0 3).map (fun h => (h.found, waited h)) =
      some (3, 216) := by decide +kernel

example : SafeWorld worldA ∧ C.board328.body = C.layerOf .m328 ∧
    (C.board2560 exampleColumns).body = C.layerOf .m2560 :=
  ⟨C90_safe_settings worldA false false (fun _ => show bitOf (closing 1 6 8) 1 = false by decide)
    (fun _ => show bitOf (closing 1 6 8) 2 = false by decide) (.inl rfl), rfl, rfl⟩

/-- Twelve scans with key A closed: one code, no message, no pulse. -/
example : (channel (typed fourMaps openLayout (List.replicate 12 (closing 1 6)))
      (said fourMaps openLayout (List.replicate 12 (closing 1 6)))).host.length = 1 ∧
    messageChars (channel (typed fourMaps openLayout (List.replicate 12 (closing 1 6)))
      (said fourMaps openLayout (List.replicate 12 (closing 1 6)))).host = 0 := by decide +kernel

end Asdf.Props
