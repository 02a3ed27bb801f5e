import Verif.Lemmas.Holds
import Verif.Props.Channel
import Verif.Props.Legends

/-! # Property C95: exactly how often a held code repeats

C19 describes one key held alone.  Here is the rule for any keys held together, after any history,
as long as none is pressed or released: every sample of a held key whose code is the last code typed
is one tick of the repeat timer.  So two held keys with the same code repeat twice as fast. -/

namespace Asdf.Props

open Spec

/-- **C95.**  After any readings `pre` and during any readings `more` in which no press or release is
accepted, what is typed is repetitions of the last code: as many as the ticks of `more` give, from the
state of the timer after `pre`. -/
theorem C95_exact (cfg : Config) (L : Layout) (hc : cfgOk cfg L = true) (pre more : List Input)
    (hin : ∀ inp ∈ pre, Allowed L inp) (h : Unmoved L pre more) :
    ∃ s, powerUp cfg pre = .ok s ∧
      (typed cfg L (pre ++ more)).flatten = (typed cfg L pre).flatten ++
        List.replicate (repsIn s.rep.timer.toNat
          (ticks L (downAfter pre) (codeOf s L.cols) s.lastKey more)) s.lastKey := by
  obtain ⟨s0, e1, e2⟩ := Shows.start (cfgFacts hc)
  obtain ⟨s, g1, g2⟩ := e2.run (cfgFacts hc) pre hin
  refine ⟨s, by show (boot cfg >>= _) = _; rw [e1, ok_bind]; exact g1, ?_⟩
  have e : codeOf s L.cols = fun r c => (Kb.after cfg L pre).code cfg L r c := by
    funext r c; exact g2.code r c
  have hh := (Holds.hold (cfg := cfg) pre more h).2.2
  rw [e, g2.last, g2.rpt.left]
  unfold typed
  rw [log_append, List.flatten_append]
  exact congrArg _ hh

/-- **C95, the host.**  The shipped firmware, any safe run: if nothing is waiting after `pre` and at most
66 of the keys down have the last code, the repetitions of `more` are sent, except one that may still
wait; no message is sent. -/
theorem C95_host (pre more : List Input) (ht : NeverTrips (pre ++ more)) (h : Unmoved openLayout pre more) :
    ∃ s s', powerUp shipped pre = .ok s ∧ powerUp shipped (pre ++ more) = .ok s' ∧
      (keystrokes s = [] → messages s = [] →
        (∀ inp ∈ more, ticksIn openLayout (downAfter pre) (codeOf s 8) s.lastKey inp ≤ 66) →
        keySends s'.dev.trace ++ sendable (keystrokes s') = keySends s.dev.trace ++
          sendable (List.replicate (repsIn s.rep.timer.toNat
            (ticks openLayout (downAfter pre) (codeOf s 8) s.lastKey more)) s.lastKey) ∧
        (keystrokes s').length ≤ 1 ∧
        msgSends s'.dev.trace = msgSends s.dev.trace ∧ messages s' = []) := by
  obtain ⟨s, e1, g2, _⟩ := four_run pre
  obtain ⟨s', e1', g2', _⟩ := four_run (pre ++ more)
  have hpre : NeverTrips pre := by
    intro a x b e
    exact ht a x (b ++ more) (by rw [e, List.append_assoc]; rfl)
  refine ⟨s, s', (powerUp_same pre hpre).trans e1, (powerUp_same _ ht).trans e1', ?_⟩
  obtain ⟨free, hw⟩ := g2.wf
  obtain ⟨free', hw'⟩ := g2'.wf
  have e : codeOf s 8 = fun r c => (Kb.after fourMaps openLayout pre).code fourMaps openLayout r c := by
    funext r c; exact g2.code r c
  rw [hw.keystrokes, hw.messages, hw'.keystrokes, hw'.messages, e, g2.last, g2.rpt.left, g2.trace, g2'.trace]
  intro hk hm hf
  obtain ⟨a1, a2, a3, a4⟩ := Holds.hold_flow (cfg := fourMaps) pre more h hk hm hf
  have hh := (Holds.hold (cfg := fourMaps) pre more h).2.2
  unfold keyFlow at a3
  unfold msgFlow at a4
  rw [hk, show sendable [] = [] from rfl, List.append_nil] at a3
  rw [a2, hm, List.append_nil, List.append_nil] at a4
  refine ⟨?_, a1, a4, a2⟩
  rw [a3]
  exact congrArg (fun l => _ ++ sendable l) hh

/-- Readings with `m` ticks each. -/
theorem ticks_steady {L : Layout} {down : Down} {code : Nat → Nat → Code} {x : Code} {more : List Input}
    {m : Nat} (hm : ∀ inp ∈ more, ticksIn L down code x inp = m) :
    ticks L down code x more = m * more.length := by
  unfold ticks
  induction more with
  | nil => rfl
  | cons a l ih =>
    rw [List.map_cons, List.sum_cons, hm a List.mem_cons_self, ih fun i hi => hm i (List.mem_cons_of_mem _ hi),
      List.length_cons, Nat.mul_succ, Nat.add_comm]

/-- **C95, the schedule.**  If every reading gives `m` ticks, there are `j` repetitions or more exactly
after `n` readings with `d + 66 * (j - 1) ≤ m * n`, where `d` is the delay left. -/
theorem C95_schedule (L : Layout) (down : Down) (code : Nat → Nat → Code) (x : Code) (more : List Input)
    (m d j : Nat) (hm : ∀ inp ∈ more, ticksIn L down code x inp = m) (hd : 0 < d) :
    j + 1 ≤ repsIn d (ticks L down code x more) ↔ d + 66 * j ≤ m * more.length := by
  rw [ticks_steady hm]
  generalize m * more.length = n
  unfold repsIn
  split <;> omega

/-- The same reading again and again: after ten of them nothing is accepted any more. -/
theorem unmoved_steady (L : Layout) (inp : Input) (m n : Nat) (hm : 10 ≤ m) :
    Unmoved L (List.replicate m inp) (List.replicate n inp) := by
  intro u v e r c _ _
  have hu : u = List.replicate u.length inp := by
    rw [List.eq_replicate_iff]
    exact ⟨rfl, fun b hb => (List.mem_replicate.mp (e ▸ List.mem_append_left v hb)).2⟩
  have hd : ∀ m, 10 ≤ m → downAfter (List.replicate m inp) r c = sample inp r c := by
    intro m hm
    unfold downAfter samplesOf
    rw [List.map_replicate, Asdf.debounced_constant, decide_eq_true hm, Bool.and_true]
  rw [hu, List.replicate_append_replicate, hd _ hm, hd _ (by omega)]

/-- Hypotheses of C95 met: any key held steadily. -/
example : Unmoved openLayout (List.replicate 20 (closing 1 6)) (List.replicate 600 (closing 1 6)) ∧
    NeverTrips (List.replicate 20 (closing 1 6) ++ List.replicate 600 (closing 1 6)) :=
  ⟨unmoved_steady _ _ _ _ (by decide), by
    rw [List.replicate_append_replicate]
    exact never_of_open fun i hi => by rw [(List.mem_replicate.mp hi).2]; decide⟩

/-- CTRL and M, and also RETURN: with CTRL both keys mean carriage return. -/
def ctrlM : Input := fun r => if r = 0 then 64 else if r = 2 then 4 else 0
def ctrlMReturn : Input := fun r => if r = 0 then 64 else if r = 2 then 4 else if r = 5 then 8 else 0

/-- The timer, the last code and the output after twenty scans with these keys. -/
theorem ctrl_start : ∀ y ∈ [(ctrlM, (515 : UInt16), [(13 : Code)], 1), (ctrlMReturn, 505, [13, 13], 2)],
    runsOk (List.replicate 20 y.1) = true ∧
    (after (List.replicate 20 y.1)).rep.timer = y.2.1 ∧ (after (List.replicate 20 y.1)).lastKey = 13 ∧
    keySends (after (List.replicate 20 y.1)).dev.trace = y.2.2.1 ∧
    keystrokes (after (List.replicate 20 y.1)) = [] ∧ messages (after (List.replicate 20 y.1)) = [] ∧
    ticksIn openLayout (downAfter (List.replicate 20 y.1)) (codeOf (after (List.replicate 20 y.1)) 8) 13 y.1 =
      y.2.2.2 ∧ sample y.1 8 2 = false := by
  decide +kernel

theorem powerUp_after {inps : List Input} (h : runsOk inps = true) : powerUp shipped inps = .ok (after inps) := by
  unfold runsOk at h
  unfold powerUp after
  cases hb : boot shipped with
  | error e => rw [hb] at h; cases h
  | ok s0 =>
    rw [hb] at h
    dsimp only at h ⊢
    rw [ok_bind]
    cases hr : run shipped s0 inps with
    | error e => rw [hr] at h; cases h
    | ok s => rfl

/-- **C95, two keys with the same code.**  CTRL and M are held: carriage return is typed once and, from
the twentieth scan, after 515 scans and then every 66.  CTRL, M and RETURN are held: carriage return
is typed twice and then repeated after 505 half scans and every 66 half scans, twice as fast. -/
theorem C95_double_rate (n : Nat) :
    ∃ s s', powerUp shipped (List.replicate (20 + n) ctrlM) = .ok s ∧
      powerUp shipped (List.replicate (20 + n) ctrlMReturn) = .ok s' ∧
      keySends s.dev.trace ++ sendable (keystrokes s) = List.replicate (1 + repsIn 515 n) 13 ∧
      keySends s'.dev.trace ++ sendable (keystrokes s') = List.replicate (2 + repsIn 505 (2 * n)) 13 ∧
      (keystrokes s).length ≤ 1 ∧ (keystrokes s').length ≤ 1 := by
  have key : ∀ (inp : Input) (t : UInt16) (l : List Code) (m : Nat),
      (inp, t, l, m) ∈ [(ctrlM, (515 : UInt16), [(13 : Code)], 1), (ctrlMReturn, 505, [13, 13], 2)] → m ≤ 66 →
      ∃ s, powerUp shipped (List.replicate (20 + n) inp) = .ok s ∧
        keySends s.dev.trace ++ sendable (keystrokes s) =
          l ++ List.replicate (repsIn t.toNat (m * n)) 13 ∧ (keystrokes s).length ≤ 1 := by
    intro inp t l m hm hle
    obtain ⟨a1, a2, a3, a4, a5, a6, a7, a8⟩ := ctrl_start _ hm
    obtain ⟨s, s', e1, e2, h⟩ := C95_host (List.replicate 20 inp) (List.replicate n inp)
      (by
        rw [List.replicate_append_replicate]
        exact never_of_open fun i hi => by rw [(List.mem_replicate.mp hi).2]; exact a8)
      (unmoved_steady _ _ _ _ (by decide))
    rw [powerUp_after a1] at e1
    cases e1
    dsimp only at a2 a3 a4 a5 a6 a7
    rw [a2, a3, a4] at h
    have hf : ∀ i ∈ List.replicate n inp, ticksIn openLayout (downAfter (List.replicate 20 inp))
        (codeOf (after (List.replicate 20 inp)) 8) 13 i = m := by
      intro i hi
      rw [(List.mem_replicate.mp hi).2]; exact a7
    obtain ⟨g1, g2, _⟩ := h a5 a6 (fun i hi => by rw [hf i hi]; exact hle)
    have ht : ticks openLayout (downAfter (List.replicate 20 inp)) (codeOf (after (List.replicate 20 inp)) 8) 13
        (List.replicate n inp) = m * n := by
      rw [ticks_steady hf, List.length_replicate]
    rw [ht] at g1
    refine ⟨s', by rw [← List.replicate_append_replicate]; exact e2, ?_, g2⟩
    rw [g1]
    congr 1
    exact List.filter_replicate_of_pos (by decide)
  obtain ⟨s, a1, a2, a3⟩ := key ctrlM 515 [13] 1 (by simp) (by decide)
  obtain ⟨s', b1, b2, b3⟩ := key ctrlMReturn 505 [13, 13] 2 (by simp) (by decide)
  refine ⟨s, s', a1, b1, ?_, ?_, a3, b3⟩
  · rw [a2, Nat.one_mul, ← List.replicate_append_replicate]; rfl
  · rw [b2, ← List.replicate_append_replicate]; rfl

/-- In 1000 scans the two keys give 25 carriage returns, the one key 9. -/
example : repsIn 515 1000 = 8 ∧ repsIn 505 2000 = 23 := by decide

end Asdf.Props
