import Verif.Lemmas.Timing
import Verif.Lemmas.Pause
import Verif.Props.CText

/-! # Property C97: the strobe and the data lines in time

The source files of the firmware (C96), run on either board, and an oscilloscope on the strobe and
the data lines. -/

namespace Asdf.Props

open Avr Spec Pcb Timing

/-- Every pause is the one that all keymaps ask for. -/
theorem after_delays {cfg : Config} {L : Layout} (hcf : CfgFacts cfg L) {d : UInt16}
    (h : ∀ i ∈ L.maps, ∀ d', delayOf d' (cfg.setup i) = d) (inps : List Input)
    (hin : ∀ inp ∈ inps, Allowed L inp) (m : UInt16) (hm : .delayMs m ∈ (Kb.after cfg L inps).trace) : m = d := by
  have hd : ∀ m, ¬ Drives (.delayMs m) := by
    rintro m (⟨p, v, h⟩ | h | h) <;> cases h
  refine (after_induction (Q := fun _ _ _ => True)
    (P := fun k => PauseOk (fun _ => d) k ∧ ∀ m, .delayMs m ∈ k.trace → m = d)
    hcf ?_ ?_ ?_ inps hin (fun _ _ _ _ _ _ => trivial)).2 m hm
  · refine ⟨install_pause (h 0 hcf.zero) _, fun m hm => ?_⟩
    rcases install_mem cfg _ 0 (hd m) hm with h | h | h
    · cases h
    · cases h
    · cases h.1
  · rintro k ⟨h1, h2⟩
    refine ⟨output_pause h1, fun m hm => ?_⟩
    unfold Kb.output at hm
    split at hm
    · rcases List.mem_append.mp hm with hm | hm
      · exact h2 m hm
      · rcases List.mem_cons.mp hm with hm | hm
        · cases hm; exact h1
        · cases List.mem_singleton.mp hm
    · split at hm
      · rcases List.mem_append.mp hm with hm | hm
        · exact h2 m hm
        · split at hm
          · cases List.mem_singleton.mp hm
          · cases hm
      · exact h2 m hm
  · rintro k p r c hk hm' hr hcl _ ⟨h1, h2⟩
    refine ⟨key_pause h h1 hm', fun m hm => ?_⟩
    rcases key_mem cfg L k p r c (hd m) hm with h | h | ⟨h, _⟩ | ⟨h, _⟩
    · exact h2 m h
    · cases h
    · cases h
    · cases h

theorem shipped_delays (inps : List Input) (m : UInt16)
    (hm : .delayMs m ∈ (Kb.after fourMaps openLayout inps).trace) : m = 40 :=
  after_delays (cfgFacts fourMaps_ok) (by
    intro i hi d
    have hi : i = 0 ∨ i = 1 ∨ i = 2 ∨ i = 3 := by simpa [openLayout] using hi
    rcases hi with rfl | rfl | rfl | rfl <;> rfl) inps (fun inp _ => openLayout_allowed inp) m hm

/-- The polarity switch is not moved. -/
theorem after_fixed {s : Bool} (mxs : List (Nat → Whole.Contacts))
    (hs : ∀ mx ∈ mxs, sample (contactsRead mx) 8 6 = s) :
    Event.negStrobe ∉ (Kb.after fourMaps openLayout (mxs.map contactsRead)).trace := by
  have hstrobe : placed fourMaps openLayout .strobeSelect [(8, 6)] = true ∧
      ∀ i ∈ openLayout.maps, SetupCmd.negStrobe ∉ fourMaps.setup i := by decide +kernel
  refine after_positive (cfgFacts fourMaps_ok) hstrobe.1 hstrobe.2 _ (fun inp _ => openLayout_allowed inp) (b := s) ?_
  intro inp hi
  obtain ⟨mx, hm, rfl⟩ := List.mem_map.mp hi
  exact hs mx hm

theorem run_records {b : C.Chip} {X : C.Board} (hb : X.body = C.layerOf b) {B : Board} {T : Whole.Target}
    (hX : Compiled X B T) {W : C.Outside} (hW : SafeWorld W) (r0 : Regs) (sr : UInt8) {polls w n : Nat}
    (hw : 65536 ≤ w) (hp : polls < w) (hn : 23 ≤ n) :
    ∃ mxs hi h, C.SampledAll W 0 hi mxs ∧ C.sourceRun b X W w n r0 sr polls = some h ∧
      h.found = mxs.length ∧ hi ≤ h.time ∧
      Records T.rowUs (wiresOf B r0) (Kb.after fourMaps openLayout (mxs.map contactsRead)).trace (scope B h)
        (wiresOf B h.regs) := by
  obtain ⟨mxs, hi, h1, h2⟩ := text_on hX W r0 sr hw hp hn
  obtain ⟨wh, e1, _, e2, _⟩ := C75_board_safe B T (compiled_built hX) r0 mxs (hW hi mxs h1)
  obtain ⟨h, k1, o, kf, _, k5⟩ := h2 wh e1
  refine ⟨mxs, hi, h, h1, ?_, kf, k5, ?_⟩
  · rw [C96_run b X hb]; exact k1
  · have := story_records (compiled_built hX) o.story
    rw [e2] at this
    exact this

/-- **C97, the oscilloscope.**  Whatever the keys, the other pins and the timer do, in a world where
every use is safe: the strobe and the data lines go through exactly what `Records` says for the
hardware events of the abstract keyboard that is given the readings of the matrix. -/
theorem C97_scope (b : C.Chip) (X : C.Board) (hb : X.body = C.layerOf b) (B : Board) (T : Whole.Target)
    (hX : Compiled X B T) (W : C.Outside) (hW : SafeWorld W) (r0 : Regs) (sr : UInt8) (polls w n : Nat)
    (hw : 65536 ≤ w) (hp : polls < w) (hn : 23 ≤ n) :
    ∃ mxs hi h, C.SampledAll W 0 hi mxs ∧ C.sourceRun b X W w n r0 sr polls = some h ∧
      h.found = mxs.length ∧ hi ≤ h.time ∧
      Records T.rowUs (wiresOf B r0) (Kb.after fourMaps openLayout (mxs.map contactsRead)).trace (scope B h)
        (wiresOf B h.regs) := run_records hb hX hW r0 sr hw hp hn

/-- **C97, the pulses.**  If moreover DIP switch 7 is not moved and the strobe is low at reset: the
strobe is high exactly once for each code that the host is sent (C77), for 10 µs; the code is on
the data lines all that time and at both edges of the strobe. -/
theorem C97_pulses (b : C.Chip) (X : C.Board) (hb : X.body = C.layerOf b) (B : Board) (T : Whole.Target)
    (hX : Compiled X B T) (W : C.Outside) (hW : SafeWorld W) (s : Bool) (hs : ∀ t, bitOf (W.keys t 8) 6 = s)
    (r0 : Regs) (h0 : level r0 B.strobe = false) (sr : UInt8) (polls w n : Nat) (hw : 65536 ≤ w) (hp : polls < w)
    (hn : 23 ≤ n) :
    ∃ mxs hi h, C.SampledAll W 0 hi mxs ∧ C.sourceRun b X W w n r0 sr polls = some h ∧
      h.found = mxs.length ∧ hi ≤ h.time ∧
      highs (scope B h) = ([], (channel (typed fourMaps openLayout (mxs.map contactsRead))
        (said fourMaps openLayout (mxs.map contactsRead))).host.map fun x => [(⟨true, x.2⟩, 0), (⟨true, x.2⟩, 10)]) ∧
      DataStable (wiresOf B r0) (scope B h) ∧ (wiresOf B h.regs).strobe = false := by
  obtain ⟨mxs, hi, h, h1, h2, h3, h4, h5⟩ := run_records hb hX hW r0 sr hw hp hn
  have hn := after_fixed mxs (sampled_reads hs h1)
  refine ⟨mxs, hi, h, h1, h2, h3, h4, ?_, records_stable h0 h5 hn, rests h0 h5 hn⟩
  rw [records_pulses h0 h5 hn, sends_hostSees, (after_onLine fourMaps openLayout _).host, List.map_map]
  rfl

/-- **C97, the pace.**  A host that takes the data when the strobe rises has read exactly the codes
of C77, and each character of a message came at least 40 ms after the code before it. -/
theorem C97_pace (b : C.Chip) (X : C.Board) (hb : X.body = C.layerOf b) (B : Board) (T : Whole.Target)
    (hX : Compiled X B T) (W : C.Outside) (hW : SafeWorld W) (s : Bool) (hs : ∀ t, bitOf (W.keys t 8) 6 = s)
    (r0 : Regs) (h0 : level r0 B.strobe = false) (sr : UInt8) (polls w n : Nat) (hw : 65536 ≤ w) (hp : polls < w)
    (hn : 23 ≤ n) :
    ∃ mxs hi h, C.SampledAll W 0 hi mxs ∧ C.sourceRun b X W w n r0 sr polls = some h ∧
      h.found = mxs.length ∧ hi ≤ h.time ∧
      let sent := (channel (typed fourMaps openLayout (mxs.map contactsRead))
        (said fourMaps openLayout (mxs.map contactsRead))).host
      (arrivals (scope B h)).length = sent.length ∧
        ∀ p ∈ (arrivals (scope B h)).zip sent, p.1.1 = p.2.2 ∧ (p.2.1 = true → 40000 ≤ p.1.2) := by
  obtain ⟨mxs, hi, h, h1, h2, h3, h4, h5⟩ := run_records hb hX hW r0 sr hw hp hn
  have hn := after_fixed mxs (sampled_reads hs h1)
  have key := records_paced h0 40000 h5 hn fun m hm => by rw [shipped_delays _ m hm]; decide
  have e := (after_onLine fourMaps openLayout (mxs.map contactsRead)).host
  refine ⟨mxs, hi, h, h1, h2, h3, h4, ?_⟩
  intro sent
  have a1 := key.all
  have a2 := key.each
  rw [e] at a1 a2
  exact ⟨a1, a2⟩

/-! Non-vacuity: the world of C90, with the key A held, meets the hypotheses. -/

example : (SafeWorld worldA ∧ (∀ t, bitOf (worldA.keys t 8) 6 = false) ∧ level allZero m2560.strobe = false) ∧
    C.board328.body = C.layerOf .m328 ∧ (C.board2560 exampleColumns).body = C.layerOf .m2560 :=
  ⟨⟨C90_safe_settings worldA false false (fun _ => show bitOf (closing 1 6 8) 1 = false by decide)
    (fun _ => show bitOf (closing 1 6 8) 2 = false by decide) (.inl rfl),
    fun _ => show bitOf (closing 1 6 8) 6 = false by decide, by decide⟩, rfl, rfl⟩

/-- A row is read, a character of a message is sent after its pause, then a keystroke. -/
def goodRecord : List (Wires × Nat) :=
  [(⟨false, 0⟩, 8), (⟨false, 0⟩, 40000), (⟨false, 0x4f⟩, 0), (⟨true, 0x4f⟩, 0), (⟨true, 0x4f⟩, 10), (⟨false, 0x4f⟩, 0),
    (⟨false, 0x41⟩, 0), (⟨true, 0x41⟩, 0), (⟨true, 0x41⟩, 10), (⟨false, 0x41⟩, 0)]

example : Records 8 ⟨false, 0⟩ [.delayMs 40, .send 0x4f, .send 0x41] goodRecord ⟨false, 0x41⟩ :=
  (((Records.start.row (b := [(⟨false, 0⟩, 8)]) (by decide) rfl).pause (.delayMs 40) rfl
    (b := [(⟨false, 0⟩, 40000)]) (by decide) rfl).send 0x4f).send 0x41

example : arrivals goodRecord = [(0x4f, 40008), (0x41, 10)] ∧
    highs goodRecord = ([], [[(⟨true, 0x4f⟩, 0), (⟨true, 0x4f⟩, 10)], [(⟨true, 0x41⟩, 0), (⟨true, 0x41⟩, 10)]]) := by
  decide

/-- What the theorems exclude: data that change too late, a strobe that stays high. -/
example : ¬ DataStable ⟨false, 0⟩ [(⟨true, 0x41⟩, 10), (⟨false, 0x41⟩, 0)] ∧
    ¬ DataStable ⟨true, 0x41⟩ [(⟨false, 0x42⟩, 0)] ∧
    highs [(⟨true, 1⟩, 10), (⟨true, 2⟩, 10)] = ([(⟨true, 1⟩, 10), (⟨true, 2⟩, 10)], []) :=
  ⟨fun h => absurd (h.1 (.inr rfl)) (by decide), fun h => absurd (h.1 (.inl rfl)) (by decide), by decide⟩

end Asdf.Props
