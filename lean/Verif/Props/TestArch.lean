import Verif.Lemmas.TestArch

/-! # Properties C46, C52 and C53: the simulated board of the unit tests -/

namespace Asdf.Props

open Spec TestArch

/-! ## C46 -/

theorem detect_pulses (h : List Ev) :
    (detect h = .highDetected ↔ pulseEnded true h ∧ illFormed h = false) ∧
    (detect h = .lowDetected ↔ pulseEnded false h ∧ illFormed h = false) := by
  have hc := classified h
  have hopen : ∀ b old, illFormed (.set (!b) :: .delay :: old) = false →
      ∃ o, old = .set b :: o ∧ outLevel o = some !b := by
    intro b old hi
    have hi : (illFormed (.delay :: old) || !changedTo (!!b) old) = false := hi
    rw [Bool.or_eq_false_iff, Bool.not_not] at hi
    have hch : changedTo b old = true := by
      cases hx : changedTo b old with
      | true => rfl
      | false => rw [hx] at hi; cases hi.2
    cases old with
    | nil => cases hch
    | cons x o =>
      cases x with
      | delay => cases hch
      | set c =>
        by_cases hh : o.head? = some .delay
        · cases o with
          | nil => cases hh
          | cons y o => cases hh; cases hch
        · rw [changedTo_set _ _ _ hh, Bool.and_eq_true] at hch
          have e1 := eq_of_beq hch.1
          have e2 := eq_of_beq hch.2
          subst e1
          exact ⟨o, rfl, e2⟩
  constructor
  · constructor
    · intro hs
      rw [hs] at hc
      rcases hc with ⟨_, hc⟩ | ⟨hi, hc⟩
      · exact absurd hc (by decide)
      · refine ⟨?_, hi⟩
        rcases hc with ⟨_, hc⟩ | ⟨_, _, ⟨_, hc⟩ | ⟨_, hc⟩⟩ | ⟨old, rfl, _⟩ | ⟨_, _, hc⟩ | ⟨b, _, _, _, hc⟩
        · cases hc
        · cases hc
        · cases hc
        · obtain ⟨o, rfl, ho⟩ := hopen true old hi
          exact ⟨o, rfl, ho⟩
        · cases hc
        · split at hc <;> cases b <;> cases hc
    · rintro ⟨⟨old, rfl, ho⟩, hi⟩
      rcases hc with ⟨hi', _⟩ | ⟨_, hc⟩
      · rw [hi] at hi'; cases hi'
      · rcases hc with ⟨hx, _⟩ | ⟨_, hx, _⟩ | ⟨_, _, hs⟩ | ⟨_, hx, _⟩ | ⟨_, _, hx, hh, _⟩
        · cases hx
        · cases hx
        · exact hs
        · cases hx
        · cases hx; exact absurd rfl hh
  · constructor
    · intro hs
      rw [hs] at hc
      rcases hc with ⟨_, hc⟩ | ⟨hi, hc⟩
      · exact absurd hc (by decide)
      · refine ⟨?_, hi⟩
        rcases hc with ⟨_, hc⟩ | ⟨_, _, ⟨_, hc⟩ | ⟨_, hc⟩⟩ | ⟨_, _, hc⟩ | ⟨old, rfl, _⟩ | ⟨b, _, _, _, hc⟩
        · cases hc
        · cases hc
        · cases hc
        · cases hc
        · obtain ⟨o, rfl, ho⟩ := hopen false old hi
          exact ⟨o, rfl, ho⟩
        · split at hc <;> cases b <;> cases hc
    · rintro ⟨⟨old, rfl, ho⟩, hi⟩
      rcases hc with ⟨hi', _⟩ | ⟨_, hc⟩
      · rw [hi] at hi'; cases hi'
      · rcases hc with ⟨hx, _⟩ | ⟨_, hx, _⟩ | ⟨_, hx, _⟩ | ⟨_, _, hs⟩ | ⟨_, _, hx, hh, _⟩
        · cases hx
        · cases hx
        · cases hx
        · exact hs
        · cases hx; exact absurd rfl hh

theorem detect_errors (h : List Ev) : detect h ∈ pulseErrors ↔ illFormed h = true := by
  have hc := classified h
  constructor
  · intro hs
    rcases hc with ⟨hi, _⟩ | ⟨_, hc⟩
    · exact hi
    · exfalso
      rcases hc with ⟨_, hc⟩ | ⟨_, _, ⟨_, hc⟩ | ⟨_, hc⟩⟩ | ⟨_, _, hc⟩ | ⟨_, _, hc⟩ | ⟨b, _, _, _, hc⟩
      · rw [hc] at hs; exact absurd hs (by decide)
      · rw [hc] at hs; exact absurd hs (by decide)
      · rw [hc] at hs; exact absurd hs (by decide)
      · rw [hc] at hs; exact absurd hs (by decide)
      · rw [hc] at hs; exact absurd hs (by decide)
      · split at hc <;> cases b <;> rw [hc] at hs <;> exact absurd hs (by decide)
  · intro hi
    rcases hc with ⟨_, hs⟩ | ⟨hi', _⟩
    · exact hs
    · rw [hi] at hi'; cases hi'

/-- **C46, pulses.**  Whatever happened at a plain output since the board was
initialised, the board reports a high pulse exactly when the latest events were a
change to high, one delay and a change back, and no delay before was ill-formed; the
same with low for high. -/
theorem C46_reports_pulses (dev : Nat) (hd : dev ∈ plainOutputs) (t : List Event) :
    (checkPulse (onEvents .zero t) dev = .ok .highDetected ↔
      pulseEnded true (historyAt dev (sinceInit t)) ∧ illFormed (historyAt dev (sinceInit t)) = false) ∧
    (checkPulse (onEvents .zero t) dev = .ok .lowDetected ↔
      pulseEnded false (historyAt dev (sinceInit t)) ∧ illFormed (historyAt dev (sinceInit t)) = false) := by
  have hk : checkPulse (onEvents .zero t) dev = .ok (detect (historyAt dev (sinceInit t))) := by
    unfold checkPulse
    rw [if_pos (plain_lt hd), (tracks hd t).1]
  rw [hk]
  have inj : ∀ a b : PulseSt, (Except.ok a : Res PulseSt) = .ok b ↔ a = b := by simp
  rw [inj, inj]
  exact detect_pulses _

/-- **C46, errors.**  The board reports an error exactly after an ill-formed delay. -/
theorem C46_reports_errors (dev : Nat) (hd : dev ∈ plainOutputs) (t : List Event) :
    (∃ s ∈ pulseErrors, checkPulse (onEvents .zero t) dev = .ok s) ↔
      illFormed (historyAt dev (sinceInit t)) = true := by
  have hk : checkPulse (onEvents .zero t) dev = .ok (detect (historyAt dev (sinceInit t))) := by
    unfold checkPulse
    rw [if_pos (plain_lt hd), (tracks hd t).1]
  rw [hk]
  rw [← detect_errors]
  constructor
  · rintro ⟨s, hs, e⟩
    injection e with e
    exact e ▸ hs
  · exact fun h => ⟨_, h, rfl⟩

/-- **C46, errors last.**  An error state is never left until the board is
initialised again. -/
theorem C46_errors_last (b : TestArch.Board) (dev : Nat) (s : PulseSt) (hs : s ∈ pulseErrors)
    (hb : checkPulse b dev = .ok s) (t : List Event) (ht : .archInit ∉ t) :
    checkPulse (onEvents b t) dev = .ok s := by
  have hlt : dev < NUM_PHYS := by
    unfold checkPulse at hb
    split at hb
    · assumption
    · cases hb
  unfold checkPulse at hb ⊢
  rw [if_pos hlt] at hb ⊢
  injection hb with hb
  have key : ∀ (t : List Event) (b : TestArch.Board), .archInit ∉ t → b.pulses dev = s →
      (onEvents b t).pulses dev = s := by
    intro t
    induction t with
    | nil => intro b _ hb; exact hb
    | cons e t ih =>
      intro b ht hb
      refine ih (onEvent b e) (fun hc => ht (List.mem_cons_of_mem _ hc)) ?_
      have hdel : (pulseDelay b).pulses dev = s := by
        refine Eq.trans (if_pos hlt) ?_
        rw [hb]; exact error_absorbing hs _
      cases e with
      | out q v =>
        show (if dev = route q then pulseDetect (b.pulses dev) _ else b.pulses dev) = s
        split
        · rw [hb]; exact error_absorbing hs _
        · exact hb
      | delayShort => exact hdel
      | delayLong => exact hdel
      | delayMs _ => exact hdel
      | archInit => exact absurd List.mem_cons_self ht
      | posStrobe => exact hb
      | negStrobe => exact hb
      | send c => exact hb
  rw [key t b ht hb]

/-- Non-vacuity: a high pulse; a pulse after another; a delay too many. -/
example : checkPulse (onEvents .zero [.archInit, .out 1 0, .out 1 1, .delayShort, .out 1 0]) 1 =
    .ok .highDetected := by decide +kernel
example : pulseEnded true (historyAt 1 (sinceInit [.archInit, .out 1 0, .out 1 1, .delayShort, .out 1 0])) :=
  ⟨[.set false], by decide +kernel, rfl⟩
example : checkPulse (onEvents .zero [.archInit, .out 1 1, .out 1 0, .delayLong, .out 1 1, .out 1 0,
    .delayLong, .out 1 1]) 1 = .ok .lowDetected := by decide +kernel
example : illFormed (historyAt 1 [.out 1 0, .out 1 1, .delayShort, .delayShort]) = true := by
  decide +kernel

/-! ## C52: the output values the simulated board reports -/

/-- The claim of C52. -/
def C52Statement : Prop :=
  ∀ (dev : Nat) (t : List Event), dev < NUM_PHYS →
    checkOutput (onEvents .zero t) dev = .ok ((lastOut t dev).getD 0)

/-- **C52 is false**: setting an open output sets output 1 open-high instead, so that a
test of, say, output 3 open-low tests nothing. -/
theorem C52_false : ¬ C52Statement := by
  intro h
  exact absurd (h PHYSICAL_OUT3_OPEN_LO [.archInit, .out PHYSICAL_OUT3_OPEN_LO 1] (by decide))
    (by decide +kernel)

/-- **C52** (partial: the outputs that are not open ones).  The board reports the value
the output was last set to since the board was initialised, 0 if it was not set. -/
theorem C52_reports_last_value_partial (dev : Nat) (hd : dev ∈ plainOutputs) (t : List Event) :
    checkOutput (onEvents .zero t) dev = .ok ((lastOut t dev).getD 0) := by
  unfold checkOutput
  rw [if_pos (plain_lt hd), (tracks hd t).2]

example : checkOutput (onEvents .zero [.archInit, .out PHYSICAL_LED1 1, .delayShort]) PHYSICAL_LED1 =
    .ok 1 := by decide +kernel

/-! ## C53: the detectors of two outputs -/

/-- The claim of C53: what the detector of an output reports depends only on the
settings of this output and the delays of its own pulses; a pulse on another output
does not matter. -/
def C53Statement : Prop :=
  ∀ (dev q : Nat) (v : UInt8) (t : List Event), dev ∈ plainOutputs → q ∈ plainOutputs → q ≠ dev →
    checkPulse (onEvents .zero (t ++ [.out q v, .delayShort, .out q (cNot v)])) dev =
      checkPulse (onEvents .zero t) dev

/-- **C53 is false**: every delay is seen by the detectors of all outputs; a pulse on
output 1 puts the detector of output 2 into an error state for good. -/
theorem C53_false : ¬ C53Statement := by
  intro h
  exact absurd (h PHYSICAL_OUT2 PHYSICAL_OUT1 1 [.archInit, .out PHYSICAL_OUT1 0, .out PHYSICAL_OUT2 0]
    (by decide) (by decide) (by decide)) (by decide +kernel)

/-- **C53** (partial: settings of other outputs, not delays).  Setting another plain
output does not disturb the detector. -/
theorem C53_settings_independent_partial (dev q : Nat) (hd : dev ∈ plainOutputs) (hq : q ≠ dev)
    (v : UInt8) (t : List Event) :
    checkPulse (onEvents .zero (t ++ [.out q v])) dev = checkPulse (onEvents .zero t) dev := by
  unfold checkPulse
  rw [if_pos (plain_lt hd), if_pos (plain_lt hd), (tracks hd _).1, (tracks hd t).1, sinceInit_snoc,
    if_neg (by simp), historyAt_snoc]
  show Except.ok (detect ((if q = dev then _ else []).reverse ++ _)) = _
  rw [if_neg hq]
  rfl

/-- Whoever pulses one output makes every other output report an error. -/
theorem C53_pulse_disturbs_all_others (t : List Event) (dev : Nat) (hd : dev ∈ plainOutputs)
    (h : changedTo true (historyAt dev (sinceInit t)) = false)
    (h' : changedTo false (historyAt dev (sinceInit t)) = false) (e : Event)
    (he : e ∈ [Event.delayShort, .delayLong]) :
    ∃ s ∈ pulseErrors, checkPulse (onEvents .zero (t ++ [e])) dev = .ok s := by
  rw [C46_reports_errors dev hd]
  rw [sinceInit_snoc]
  rcases List.mem_cons.mp he with rfl | he
  · rw [if_neg (by simp), historyAt_snoc]
    show (illFormed (historyAt dev (sinceInit t)) || (!changedTo true (historyAt dev (sinceInit t)) &&
      !changedTo false (historyAt dev (sinceInit t)))) = true
    rw [h, h']; simp
  · rcases List.mem_cons.mp he with rfl | he
    · rw [if_neg (by simp), historyAt_snoc]
      show (illFormed (historyAt dev (sinceInit t)) || (!changedTo true (historyAt dev (sinceInit t)) &&
      !changedTo false (historyAt dev (sinceInit t)))) = true
      rw [h, h']; simp
    · cases he

end Asdf.Props
