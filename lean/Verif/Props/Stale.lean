import Verif.Props.Bounce
import Verif.Props.Typing

/-! # Property C103: why a character must not be typed again at once

If a key is released under other modifiers than those it was pressed with, its character stays
recorded as the one pressed last, and when it is typed again the delay before repetition is not
started again. -/

namespace Asdf.Props

open Spec Avr Pcb Typist Loose

/-- The key `A`. -/
def keyA : Place := ⟨.key 54, "A", 1, 6⟩

/-- `A` is pressed, then SHIFT, `A` is released, then SHIFT; `A` again. -/
def aTwice : List Movement :=
  [⟨keyA, [], 12⟩, ⟨keyShift, [], 10⟩, ⟨keyA, [], 10⟩, ⟨keyShift, [], 10⟩, ⟨keyA, [], 525⟩, ⟨keyA, [], 10⟩]

/-- The readings until `A` is pressed the second time. -/
def aStart : List Input :=
  List.replicate 12 (keysClosed [keyA]) ++ (List.replicate 10 (keysClosed [keyShift, keyA]) ++
    (List.replicate 10 (keysClosed [keyShift]) ++ List.replicate 10 (keysClosed [])))

theorem aTwice_reads : movesRead [] aTwice =
    (aStart ++ List.replicate 525 (keysClosed [keyA])) ++ List.replicate 10 (keysClosed []) := by
  have m1 : moved [] keyA = [keyA] := by decide
  have m2 : moved [keyA] keyShift = [keyShift, keyA] := by decide
  have m3 : moved [keyShift, keyA] keyA = [keyShift] := by decide
  have m4 : moved [keyShift] keyShift = [] := by decide
  have m5 : moved [keyA] keyA = [] := by decide
  simp only [aTwice, movesRead, Movement.readings, List.map_nil, List.nil_append, m1, m2, m3, m4, m5, aStart,
    List.append_assoc, List.append_nil]

theorem keys_allowed {l : List Place} (h : ∀ p ∈ l, p ∈ classicPlaces ∧ p.row ≠ 8) :
    Allowed shippedLayout (keysClosed l) := by
  intro r c _ hc hb
  simp only [shippedLayout, Bool.and_eq_true, beq_iff_eq] at hb
  rw [hb.1]
  exact keys_not_dip h hc

theorem keyA_place : ∀ p ∈ [keyA], p ∈ classicPlaces ∧ p.row ≠ 8 := by decide +kernel

theorem aStart_ok : runsOk aStart = true := by decide +kernel

theorem aStart_reachable : Reachable shipped shippedLayout (after aStart) :=
  after_reachable aStart_ok (by
    intro inp hi
    simp only [aStart, List.mem_append, List.mem_replicate] at hi
    rcases hi with hi | hi | hi | hi <;> rw [hi.2] <;> exact keys_allowed (by decide +kernel))

theorem powerUp_after {inps : List Input} (h : runsOk inps = true) : powerUp shipped inps = .ok (after inps) := by
  unfold runsOk at h
  unfold after powerUp
  cases hb : boot shipped with
  | error e => rw [hb] at h; cases h
  | ok s0 =>
    rw [hb] at h
    dsimp only at h ⊢
    show run shipped s0 inps = _
    cases hr : run shipped s0 inps with
    | error e => rw [hr] at h; cases h
    | ok s => rfl

theorem powerUp_more {i1 i2 : List Input} {s s' : State} (h : powerUp shipped i1 = .ok s)
    (h' : run shipped s i2 = .ok s') : powerUp shipped (i1 ++ i2) = .ok s' := by
  rw [powerUp_append, h]
  exact h'

/-- **C103, the condition is needed.**  The letter `a` is typed twice on clean contacts, no key is held
for more than 525 scans; but the first time SHIFT is pressed before the key is released.  The host
receives the letter three times. -/
theorem C103_condition_needed :
    (∀ v ∈ aTwice, v.bounce.length ≤ 9 ∧ 10 ≤ v.steady) ∧ AllHeldAtMost 525 aTwice ∧
    movesText .rest aTwice = [ch 'a', ch 'a'] ∧
    ∃ n s, powerUp shipped ((movesRead [] aTwice).take n) = .ok s ∧
      sends s.dev.trace = [ch 'a', ch 'a', ch 'a'] := by
  refine ⟨by decide +kernel, by unfold AllHeldAtMost; decide +kernel, by decide +kernel, ?_⟩
  have hall : ∀ r, r < 9 → ∀ c, c < 8 → accepted (after aStart) r c = false := by decide +kernel
  have hin : ∀ inp ∈ List.replicate 525 (keysClosed [keyA]), Allowed shippedLayout inp ∧
      sample inp 1 6 = true ∧ OthersRest shippedLayout (after aStart) 1 6 inp := by
    intro inp hi
    rw [(List.mem_replicate.mp hi).2]
    refine ⟨keys_allowed keyA_place, by decide +kernel, ?_⟩
    have h : ∀ r, r < 9 → ∀ c, c < 8 → ¬ (r = 1 ∧ c = 6) → sample (keysClosed [keyA]) r c = false := by
      decide +kernel
    intro r c hr hc hn
    rw [hall r hr c hc]
    exact ⟨h r hr c hc hn, fun h3 => by cases h3⟩
  obtain ⟨s, evs, e1, e2, e3, _, _⟩ := C48_hold_sends shipped shippedLayout (by decide +kernel) (after aStart)
    aStart_reachable (by decide +kernel) (by decide +kernel) 1 6 (by decide) (by decide)
    (hall 1 (by omega) 6 (by omega)) 0x61 (by decide +kernel) (by decide) _ hin
  have hcnt : counter (after aStart) 1 6 = 10 := by decide +kernel
  have hdel : pressDelay (after aStart) 0x61 = some 514 := by decide +kernel
  have hs : sends (after aStart).dev.trace = [ch 'a'] := by decide +kernel
  have hn : (List.range 525).countP (holdDue 10 (some 514)) = 2 := by decide +kernel
  rw [hcnt, hdel, List.length_replicate, hn] at e3
  refine ⟨(aStart ++ List.replicate 525 (keysClosed [keyA])).length, s, ?_, ?_⟩
  · rw [aTwice_reads, List.take_left]
    exact powerUp_more (powerUp_after aStart_ok) e1
  · rw [e2, sends_append, hs, e3]
    rfl

/-- Text typed with SHIFT and CAPS LOCK moving while keys are down meets the hypotheses of
`C103_typed`. -/
example : (Kb.after fourMaps openLayout []).last = 0xA0 ∧
    Tidy fourMaps openLayout (Kb.after fourMaps openLayout []).map ⟨(Kb.after fourMaps openLayout []).mods, none⟩ []
      (movesRead [] hiih) ∧
    Brief fourMaps openLayout (Kb.after fourMaps openLayout []).map (Kb.after fourMaps openLayout []).rpt.delay []
      (movesRead [] hiih) ∧
    (typist fourMaps openLayout 0 ModKeys.none [] (movesRead [] hiih)).flatten = [ch 'H', ch 'i', ch 'I', ch 'h'] := by
  obtain ⟨h1, h2, h3⟩ := hiih_careful
  have h0 := rested_nil
  obtain ⟨b1, _, b3, _⟩ := moves_typed (s := .rest) downOk_rest h1 (pre := []) h0.settled
  rw [h0.map, h0.mods, h0.delay]
  exact ⟨h0.last, b1, moves_brief h1 h2 h0.settled, b3.trans h3⟩

end Asdf.Props
