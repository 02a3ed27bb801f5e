import Verif.Spec.TestBoard
import Verif.Props.TestArch

/-! # Property C113: exactly what the simulated board of the unit tests reports -/

namespace Asdf.Props

open Spec TestArch

theorem route_eq (q : Nat) : route q = if q ∈ openOutputs then PHYSICAL_OUT1_OPEN_HI else q := by
  unfold route openOutputs
  by_cases h : q = PHYSICAL_OUT1_OPEN_HI
  · subst h; decide
  · simp only [List.mem_cons, List.not_mem_nil, or_false, h, false_or]
    by_cases h1 : q = PHYSICAL_OUT1_OPEN_LO <;> by_cases h2 : q = PHYSICAL_OUT2_OPEN_HI <;>
      by_cases h3 : q = PHYSICAL_OUT2_OPEN_LO <;> by_cases h4 : q = PHYSICAL_OUT3_OPEN_HI <;>
      by_cases h5 : q = PHYSICAL_OUT3_OPEN_LO <;> simp [h1, h2, h3, h4, h5]

theorem route_route (q : Nat) : route (route q) = route q := by
  rw [route_eq q]
  by_cases h : q ∈ openOutputs
  · rw [if_pos h]; decide
  · rw [if_neg h, route_eq, if_neg h]

theorem onEvent_taken (b : TestArch.Board) (e : Event) : onEvent b (taken e) = onEvent b e := by
  cases e with
  | out q v =>
    show setOutput b (route (if q ∈ openOutputs then _ else q)) v = setOutput b (route q) v
    rw [← route_eq, route_route]
  | _ => rfl

theorem onEvents_taken (b : TestArch.Board) (t : List Event) : onEvents b (t.map taken) = onEvents b t := by
  unfold onEvents
  induction t generalizing b with
  | nil => rfl
  | cons e t ih => rw [List.map_cons, List.foldl_cons, List.foldl_cons, onEvent_taken, ih]

theorem taken_tracks {dev : Nat} (hd : dev < NUM_PHYS) (t : List Event) :
    (onEvents .zero t).pulses dev = detect (historyAt dev (sinceInit (t.map taken))) ∧
      (onEvents .zero t).outputs dev = (lastOut (t.map taken) dev).getD 0 := by
  rw [← onEvents_taken]
  refine tracks_from hd (t.map taken) ?_ TestArch.Board.zero [] ⟨rfl, rfl⟩
  intro q v hq
  obtain ⟨e, -, he⟩ := List.mem_map.mp hq
  cases e with
  | out x w =>
    have e1 : route x = q := by
      have := (route_eq x)
      injection he with h1
      exact this.trans h1
    rw [← e1, route_route]
  | _ => cases he

/-- **C113, values.**  Whatever happened, the board reports for each of its outputs the value last set
since it was initialised, 0 if none was, where settings of all open outputs count for output 1
open-high. -/
theorem C113_values (dev : Nat) (hd : dev < 13) (t : List Event) :
    checkOutput (onEvents .zero t) dev = .ok ((lastOut (t.map taken) dev).getD 0) := by
  unfold checkOutput
  rw [if_pos (show dev < NUM_PHYS from hd), (taken_tracks hd t).2]

theorem lastOut_absent {t : List Event} {p : Nat} (h : ∀ v, Event.out p v ∉ t) : lastOut t p = none := by
  unfold lastOut
  suffices H : ∀ o, t.foldl (outStep p) o = none ∨ t.foldl (outStep p) o = o by
    rcases H none with h | h <;> exact h
  induction t with
  | nil => exact fun _ => .inr rfl
  | cons e t ih =>
    intro o
    rw [List.foldl_cons]
    have ih := ih fun v hv => h v (List.mem_cons_of_mem _ hv)
    cases e with
    | out q v =>
      have : outStep p o (.out q v) = o := if_neg (fun hq : q = p => h v (hq ▸ List.mem_cons_self))
      rw [this]
      exact ih o
    | archInit =>
      rcases ih (outStep p o .archInit) with h | h
      · exact .inl h
      · exact .inl h
    | _ => exact ih o

/-- **C113, open outputs.**  The other five open outputs report 0 whatever is done. -/
theorem C113_open_outputs (dev : Nat) (hd : dev ∈ openOutputs) (h1 : dev ≠ PHYSICAL_OUT1_OPEN_HI) (t : List Event) :
    checkOutput (onEvents .zero t) dev = .ok 0 := by
  have hlt : ∀ dev ∈ openOutputs, dev < 13 := by decide
  rw [C113_values dev (hlt dev hd), lastOut_absent]
  · rfl
  · intro v hv
    obtain ⟨e, -, he⟩ := List.mem_map.mp hv
    cases e with
    | out q w =>
      injection he with he
      by_cases hq : q ∈ openOutputs
      · rw [if_pos hq] at he; exact h1 he.symm
      · rw [if_neg hq] at he; exact hq (he ▸ hd)
    | _ => cases he

/-- **C113, exactly when the value is right.**  An output can be trusted to report what it was set to
exactly if it is not an open one: for each open output there is a sequence of events after which the
report is not the value set last. -/
theorem C113_trusted (dev : Nat) (hd : dev < 13) :
    (∀ t, checkOutput (onEvents .zero t) dev = .ok ((lastOut t dev).getD 0)) ↔ dev ∉ openOutputs := by
  have hs : ∀ d < 13, d ∉ openOutputs → d ∈ plainOutputs := by decide
  constructor
  · intro h hm
    have h1 := h [.out PHYSICAL_OUT1_OPEN_HI 0, .out dev 1, .out (if dev = PHYSICAL_OUT1_OPEN_HI then
      PHYSICAL_OUT1_OPEN_LO else PHYSICAL_OUT1_OPEN_HI) 0]
    have h2 : ∀ d ∈ openOutputs, checkOutput (onEvents .zero [.out PHYSICAL_OUT1_OPEN_HI 0, .out d 1,
        .out (if d = PHYSICAL_OUT1_OPEN_HI then PHYSICAL_OUT1_OPEN_LO else PHYSICAL_OUT1_OPEN_HI) 0]) d ≠
          .ok ((lastOut [.out PHYSICAL_OUT1_OPEN_HI 0, .out d 1,
        .out (if d = PHYSICAL_OUT1_OPEN_HI then PHYSICAL_OUT1_OPEN_LO else PHYSICAL_OUT1_OPEN_HI) 0] d).getD 0) := by
      decide +kernel
    exact h2 dev hm h1
  · intro h t
    exact C52_reports_last_value_partial dev (hs dev hd h) t

/-- **C113, pulses.**  The same for the pulse detectors of all outputs: they report a pulse exactly when
the latest events, so taken, were a change, one delay and the change back, and no delay before was
ill-formed; they report an error exactly after an ill-formed delay. -/
theorem C113_pulses (dev : Nat) (hd : dev < 13) (t : List Event) :
    ∃ s, checkPulse (onEvents .zero t) dev = .ok s ∧
      let h := historyAt dev (sinceInit (t.map taken))
      (s = .highDetected ↔ pulseEnded true h ∧ illFormed h = false) ∧
      (s = .lowDetected ↔ pulseEnded false h ∧ illFormed h = false) ∧
      (s ∈ pulseErrors ↔ illFormed h = true) := by
  refine ⟨detect (historyAt dev (sinceInit (t.map taken))), ?_, (detect_pulses _).1, (detect_pulses _).2, detect_errors _⟩
  unfold checkPulse
  rw [if_pos (show dev < NUM_PHYS from hd), (taken_tracks hd t).1]

/-- **C113, sent codes.**  After any sequence of events and readings, the board says that a code was sent
exactly if one was since it was initialised and since the last reading, and a reading gives the code
sent last. -/
theorem C113_sent (ops : List TestOp) :
    wasCodeSent (ops.foldl TestOp.apply .zero) = unread ops ∧
    (getSentCode (ops.foldl TestOp.apply .zero)).1 = lastSent ops := by
  suffices H : ∀ (b : TestArch.Board) (u : Bool) (c : Code), b.codeSent = u → b.codeReg = c →
      (ops.foldl TestOp.apply b).codeSent = ops.foldl (fun u o => match o with
        | .event (.send _) => true
        | .event .archInit => false
        | .readCode => false
        | _ => u) u ∧
      (ops.foldl TestOp.apply b).codeReg = ops.foldl (fun c o => match o with
        | .event (.send x) => x
        | _ => c) c from H _ _ _ rfl rfl
  induction ops with
  | nil => exact fun b u c h1 h2 => ⟨h1, h2⟩
  | cons o ops ih =>
    intro b u c h1 h2
    rw [List.foldl_cons, List.foldl_cons, List.foldl_cons]
    cases o with
    | readCode => exact ih _ _ _ rfl h2
    | event e =>
      cases e with
      | send x => exact ih _ _ _ rfl rfl
      | archInit => exact ih _ _ _ rfl h2
      | _ => exact ih _ _ _ h1 h2

/-- Non-vacuity: setting output 3 open-low shows at output 1 open-high, as a pulse too; a code is
reported as sent until it is read. -/
example : checkOutput (onEvents .zero [.archInit, .out PHYSICAL_OUT3_OPEN_LO 1]) PHYSICAL_OUT1_OPEN_HI = .ok 1 ∧
    checkPulse (onEvents .zero [.archInit, .out PHYSICAL_OUT3_OPEN_LO 0, .out PHYSICAL_OUT3_OPEN_LO 1, .delayShort,
      .out PHYSICAL_OUT3_OPEN_LO 0]) PHYSICAL_OUT1_OPEN_HI = .ok .highDetected ∧
    unread [.event .archInit, .event (.send 65)] = true ∧
    unread [.event .archInit, .event (.send 65), .readCode] = false ∧
    lastSent [.event .archInit, .event (.send 65), .readCode] = 65 := by decide +kernel

end Asdf.Props
