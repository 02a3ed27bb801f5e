import Verif.Spec.TestArch

/-! # Lemmas about the simulated board -/

namespace Asdf

open Spec TestArch

/-- The detector's input. -/
def toPulseEv : Ev → PulseEv
  | .set true => .hi
  | .set false => .lo
  | .delay => .delay

/-- The detector after a history (latest first). -/
def detect (h : List Ev) : PulseSt := h.foldr (fun e s => pulseDetect s (toPulseEv e)) .initial

/-- The state of the detector after a history, from the vocabulary of the specification. -/
def Classified (h : List Ev) (s : PulseSt) : Prop :=
  (illFormed h = true ∧ s ∈ pulseErrors) ∨
  (illFormed h = false ∧
    ((h = [] ∧ s = .initial) ∨
     (∃ old, h = .delay :: old ∧ ((changedTo true old = true ∧ s = .delayHigh) ∨
        (changedTo false old = true ∧ s = .delayLow))) ∨
     (∃ old, h = .set false :: .delay :: old ∧ s = .highDetected) ∨
     (∃ old, h = .set true :: .delay :: old ∧ s = .lowDetected) ∨
     (∃ b old, h = .set b :: old ∧ old.head? ≠ some .delay ∧
        s = if changedTo b h = true then (if b then .transHigh else .transLow)
          else if b then .stableHigh else .stableLow)))

theorem detect_cons (e : Ev) (h : List Ev) : detect (e :: h) = pulseDetect (detect h) (toPulseEv e) := rfl

theorem error_absorbing {s : PulseSt} (h : s ∈ pulseErrors) (e : PulseEv) : pulseDetect s e = s := by
  cases s <;> first | (cases e <;> rfl) | (exact absurd h (by decide))

theorem illFormed_cons {e : Ev} {h : List Ev} (hi : illFormed h = true) : illFormed (e :: h) = true := by
  cases e with
  | delay => simp [illFormed, hi]
  | set b =>
    cases h with
    | nil => exact absurd hi (by decide)
    | cons x h =>
      cases x with
      | delay => simp only [illFormed] at hi ⊢; simp only [Bool.or_eq_true] at hi ⊢; exact .inl hi
      | set b' => exact hi

theorem changedTo_set (b b' : Bool) (old : List Ev) (h : old.head? ≠ some .delay) :
    changedTo b (.set b' :: old) = (b' == b && outLevel old == some !b) := by
  cases old with
  | nil => rfl
  | cons x old =>
    cases x with
    | delay => exact absurd rfl h
    | set c => rfl

theorem illFormed_set (b : Bool) (old : List Ev) (h : old.head? ≠ some .delay) :
    illFormed (.set b :: old) = illFormed old := by
  cases old with
  | nil => rfl
  | cons x old =>
    cases x with
    | delay => exact absurd rfl h
    | set c => rfl

theorem not_both {old : List Ev} (h1 : changedTo true old = true) (h2 : changedTo false old = true) :
    False := by
  cases old with
  | nil => cases h1
  | cons x old =>
    cases x with
    | delay => cases h1
    | set c =>
      by_cases hd : old.head? = some .delay
      · cases old with
        | nil => cases hd
        | cons y old => cases hd; cases h1
      · rw [changedTo_set _ _ _ hd, Bool.and_eq_true] at h1 h2
        have e1 := eq_of_beq h1.1
        have e2 := eq_of_beq h2.1
        rw [e1] at e2
        cases e2

theorem classified (h : List Ev) : Classified h (detect h) := by
  induction h with
  | nil => exact .inr ⟨rfl, .inl ⟨rfl, rfl⟩⟩
  | cons e h ih =>
    rw [detect_cons]
    rcases ih with ⟨hi, hs⟩ | ⟨hi, hs⟩
    · rw [error_absorbing hs]
      exact .inl ⟨illFormed_cons hi, hs⟩
    · cases e with
      | delay =>
        have hdel : illFormed (.delay :: h) = (!changedTo true h && !changedTo false h) := by
          simp [illFormed, hi]
        rcases hs with ⟨rfl, hs⟩ | ⟨old, rfl, hs⟩ | ⟨old, rfl, hs⟩ | ⟨old, rfl, hs⟩ | ⟨b, old, rfl, hh, hs⟩
        · exact .inl ⟨rfl, by decide⟩
        · refine .inl ⟨by rw [hdel]; rfl, ?_⟩
          rcases hs with ⟨_, hs⟩ | ⟨_, hs⟩ <;> rw [hs] <;> decide
        · exact .inl ⟨by rw [hdel]; rfl, by rw [hs]; decide⟩
        · exact .inl ⟨by rw [hdel]; rfl, by rw [hs]; decide⟩
        · by_cases hc : changedTo b (.set b :: old) = true
          · refine .inr ⟨?_, .inr (.inl ⟨_, rfl, ?_⟩)⟩
            · rw [hdel]; cases b <;> rw [hc] <;> simp
            · rw [hs, if_pos hc]
              cases b
              · exact .inr ⟨hc, rfl⟩
              · exact .inl ⟨hc, rfl⟩
          · refine .inl ⟨?_, ?_⟩
            · have hc' : changedTo (!b) (.set b :: old) = false := by
                rw [changedTo_set _ _ _ hh]; cases b <;> rfl
              have hc : changedTo b (.set b :: old) = false := (Bool.not_eq_true _).mp hc
              rw [hdel]; cases b <;> simp only [Bool.not_true, Bool.not_false] at hc' <;> rw [hc, hc'] <;> rfl
            · rw [hs, if_neg hc]
              cases b <;> decide
      | set c =>
        rcases hs with ⟨rfl, hs⟩ | ⟨old, rfl, hs⟩ | ⟨old, rfl, hs⟩ | ⟨old, rfl, hs⟩ | ⟨b, old, rfl, hh, hs⟩
        · refine .inr ⟨rfl, .inr (.inr (.inr (.inr ⟨c, [], rfl, by simp, ?_⟩)))⟩
          rw [hs]
          cases c <;> rfl
        · have hset : illFormed (.set c :: .delay :: old) = !changedTo (!c) old := by
            show (illFormed (.delay :: old) || !changedTo (!c) old) = _
            rw [hi]; rfl
          rcases hs with ⟨hc, hs⟩ | ⟨hc, hs⟩
          · have hn : changedTo false old = false := (Bool.not_eq_true _).mp fun h => not_both hc h
            cases c with
            | true => exact .inl ⟨by rw [hset]; simp [hn], by rw [hs]; decide⟩
            | false =>
              exact .inr ⟨by rw [hset]; simp [hc], .inr (.inr (.inl ⟨old, rfl, by rw [hs]; rfl⟩))⟩
          · have hn : changedTo true old = false := (Bool.not_eq_true _).mp fun h => not_both h hc
            cases c with
            | true =>
              exact .inr ⟨by rw [hset]; simp [hc], .inr (.inr (.inr (.inl ⟨old, rfl, by rw [hs]; rfl⟩)))⟩
            | false => exact .inl ⟨by rw [hset]; simp [hn], by rw [hs]; decide⟩
        · refine .inr ⟨hi, .inr (.inr (.inr (.inr ⟨c, _, rfl, by simp, ?_⟩)))⟩
          rw [hs, changedTo_set _ _ _ (by simp)]
          cases c <;> rfl
        · refine .inr ⟨hi, .inr (.inr (.inr (.inr ⟨c, _, rfl, by simp, ?_⟩)))⟩
          rw [hs, changedTo_set _ _ _ (by simp)]
          cases c <;> rfl
        · refine .inr ⟨hi, .inr (.inr (.inr (.inr ⟨c, _, rfl, by simp, ?_⟩)))⟩
          rw [hs, changedTo_set c c _ (by simp)]
          split <;> cases b <;> cases c <;> rfl

/-! ## The whole board -/

theorem detect_append (h : List Ev) (l : List Ev) :
    detect (l.reverse ++ h) = l.foldl (fun s e => pulseDetect s (toPulseEv e)) (detect h) := by
  induction l generalizing h with
  | nil => rfl
  | cons e l ih =>
    rw [List.reverse_cons, List.append_assoc, List.foldl_cons]
    exact ih (e :: h)

theorem route_plain {dev : Nat} (h : dev ∈ plainOutputs) (q : Nat) : route q = dev ↔ q = dev := by
  have hne : dev ≠ PHYSICAL_OUT1_OPEN_HI := by
    have : ∀ d ∈ plainOutputs, d ≠ PHYSICAL_OUT1_OPEN_HI := by decide
    exact this dev h
  have hop : ∀ d ∈ plainOutputs, ¬ (d = PHYSICAL_OUT1_OPEN_LO ∨ d = PHYSICAL_OUT2_OPEN_HI ∨
      d = PHYSICAL_OUT2_OPEN_LO ∨ d = PHYSICAL_OUT3_OPEN_HI ∨ d = PHYSICAL_OUT3_OPEN_LO) := by decide
  unfold route
  split
  · rename_i hq
    constructor
    · intro e; exact absurd e.symm hne
    · rintro rfl; exact absurd hq (hop _ h)
  · exact Iff.rfl

theorem plain_lt {dev : Nat} (h : dev ∈ plainOutputs) : dev < NUM_PHYS := by
  have : ∀ d ∈ plainOutputs, d < NUM_PHYS := by decide
  exact this dev h

/-- What the board knows about an output that is not an open one. -/
def Tracks (dev : Nat) (b : TestArch.Board) (t : List Event) : Prop :=
  b.pulses dev = detect (historyAt dev (sinceInit t)) ∧ b.outputs dev = (lastOut t dev).getD 0

theorem sinceInit_snoc (t : List Event) (e : Event) :
    sinceInit (t ++ [e]) = if e = .archInit then [] else sinceInit t ++ [e] := by
  unfold sinceInit
  rw [List.foldl_append]
  rfl

theorem lastOut_snoc (t : List Event) (e : Event) (p : Nat) :
    lastOut (t ++ [e]) p = outStep p (lastOut t p) e := by
  unfold lastOut
  rw [List.foldl_append]
  rfl

theorem historyAt_snoc (dev : Nat) (t : List Event) (e : Event) :
    historyAt dev (t ++ [e]) = (atOutput dev e).reverse ++ historyAt dev t := by
  unfold historyAt
  rw [List.flatMap_append, List.reverse_append]
  simp

theorem tracks_step {dev : Nat} (hlt : dev < NUM_PHYS) {b : TestArch.Board} {t : List Event}
    (h : Tracks dev b t) (e : Event) (he : ∀ q v, e = .out q v → (route q = dev ↔ q = dev)) :
    Tracks dev (onEvent b e) (t ++ [e]) := by
  obtain ⟨h1, h2⟩ := h
  unfold Tracks
  rw [sinceInit_snoc, lastOut_snoc]
  have hother : ∀ e, e ≠ .archInit → atOutput dev e = [] →
      historyAt dev (if e = .archInit then [] else sinceInit t ++ [e]) = historyAt dev (sinceInit t) := by
    intro e he hn
    rw [if_neg he, historyAt_snoc, hn]
    rfl
  have hdelay : ∀ e, e ≠ .archInit → atOutput dev e = [.delay] →
      historyAt dev (if e = .archInit then [] else sinceInit t ++ [e]) =
        .delay :: historyAt dev (sinceInit t) := by
    intro e he hn
    rw [if_neg he, historyAt_snoc, hn]
    rfl
  have hp : (pulseDelay b).pulses dev = pulseDetect (b.pulses dev) .delay := if_pos hlt
  cases e with
  | out q v =>
    rw [if_neg (by simp), historyAt_snoc]
    show (if dev = route q then pulseDetect (b.pulses dev) (if v ≠ 0 then .hi else .lo) else b.pulses dev) =
      detect ((if q = dev then [Ev.set (decide (v ≠ 0))] else []).reverse ++ _) ∧
      (if dev = route q then v else b.outputs dev) =
        (if q = dev then some v else lastOut t dev).getD 0
    by_cases hq : q = dev
    · have hr : dev = route q := ((he q v rfl).mpr hq).symm
      rw [if_pos hr, if_pos hr, if_pos hq, if_pos hq, h1]
      refine ⟨?_, rfl⟩
      by_cases hv : v = 0
      · subst hv; rfl
      · rw [if_pos hv]
        have : decide (v ≠ 0) = true := decide_eq_true hv
        rw [this]; rfl
    · have hr : ¬ dev = route q := fun hc => hq ((he q v rfl).mp hc.symm)
      rw [if_neg hr, if_neg hr, if_neg hq, if_neg hq]
      exact ⟨h1, h2⟩
  | delayShort => rw [hdelay _ (by simp) rfl]; exact ⟨by rw [detect_cons, ← h1]; exact hp, h2⟩
  | delayLong => rw [hdelay _ (by simp) rfl]; exact ⟨by rw [detect_cons, ← h1]; exact hp, h2⟩
  | delayMs ms => rw [hdelay _ (by simp) rfl]; exact ⟨by rw [detect_cons, ← h1]; exact hp, h2⟩
  | posStrobe => rw [hother _ (by simp) rfl]; exact ⟨h1, h2⟩
  | negStrobe => rw [hother _ (by simp) rfl]; exact ⟨h1, h2⟩
  | send c => rw [hother _ (by simp) rfl]; exact ⟨h1, h2⟩
  | archInit =>
    rw [if_pos rfl]
    exact ⟨if_pos hlt, if_pos hlt⟩

theorem tracks_from {dev : Nat} (hlt : dev < NUM_PHYS) (t : List Event)
    (ht : ∀ q v, Event.out q v ∈ t → (route q = dev ↔ q = dev)) (b : TestArch.Board)
    (t0 : List Event) (h : Tracks dev b t0) : Tracks dev (onEvents b t) (t0 ++ t) := by
  induction t generalizing b t0 with
  | nil => rw [List.append_nil]; exact h
  | cons e t ih =>
    have := ih (fun q v hq => ht q v (List.mem_cons_of_mem _ hq)) (onEvent b e) (t0 ++ [e])
      (tracks_step hlt h e fun q v hq => ht q v (hq ▸ List.mem_cons_self))
    rw [List.append_assoc] at this
    exact this

theorem tracks {dev : Nat} (hd : dev ∈ plainOutputs) (t : List Event) :
    Tracks dev (onEvents TestArch.Board.zero t) t :=
  tracks_from (plain_lt hd) t (fun q _ _ => route_plain hd q) _ [] ⟨rfl, rfl⟩

end Asdf
