import Verif.Lemmas.Typing
import Verif.Spec.Examples

/-! # Properties C15, C16, C18-C20, C22 and C48: typing -/

namespace Asdf.Props

open Spec

/-! ## C15 -/

/-- Every pass of the main loop is the output part followed by one sample of every
key, so that every reachable state has a history. -/
theorem C15_runs_are_histories (cfg : Config) (L : Layout) (hc : cfgOk cfg L = true) (s : State)
    (h : Reachable cfg L s) : ∃ log, History cfg L s log :=
  h.history (cfgFacts hc)

/-- **C15 (press).** At any point of any history, when a press of a key mapped to
a code below 0xA0 is accepted and the keystroke buffer is not full, exactly that
code is appended to the keystroke stream, and the message stream is unchanged. -/
theorem C15_press_queues_once (cfg : Config) (L : Layout) (hc : cfgOk cfg L = true) (s : State)
    (log : List KeyEv) (h : History cfg L s log) (r c : Nat) (hr : r < L.rows) (hcl : c < L.cols)
    (hb : L.blocked r c = false) (x : Code) (hx : x.toNat < 0xA0)
    (he : eventOf L.cols s r c true = some (.press r c x))
    (hroom : (keystrokes s).length < 16) :
    ∃ s', keyStep cfg true s r c = .ok s' ∧ keystrokes s' = keystrokes s ++ [x] ∧
      messages s' = messages s := by
  have hcf := cfgFacts hc
  obtain ⟨⟨ks, ms, a, free, hw⟩, _⟩ := h.inv hcf
  have hcode : codeOf s L.cols r c = x := by
    unfold eventOf at he
    split at he
    · split at he
      · simp only [if_true, Option.some.injEq, KeyEv.press.injEq, true_and] at he; exact he
      · cases he
    · split at he <;> cases he
  obtain ⟨s1, _, _, _, e1, e2, _, _⟩ := keyStep_ev hcf hw hr hcl (p := true) (fun _ => hb)
  obtain ⟨s2, g1, g2, g3, _⟩ := keyStep_one hcf hw hr hcl (p := true) (fun _ => hb)
    (by rw [hcode]; omega)
  rw [e1] at g1
  cases g1
  rw [hw.keystrokes] at hroom
  refine ⟨s1, e1, ?_, ?_⟩
  · rw [e2.keystrokes, hw.keystrokes, he]
    show (if x.toNat ≤ 0xA0 then putL 16 ks x else ks) = _
    rw [if_pos (by omega), putL, if_pos hroom]
  · rw [g2.messages, hw.messages]

/-- **C15 (everything else).** Accepting a press of an action key, accepting any
release, and a sample that is not accepted leave the keystroke stream
unchanged. -/
theorem C15_nothing_else_queues (cfg : Config) (L : Layout) (hc : cfgOk cfg L = true) (s : State)
    (log : List KeyEv) (h : History cfg L s log) (r c : Nat) (hr : r < L.rows) (hcl : c < L.cols)
    (p : Bool) (hb : p = true → L.blocked r c = false)
    (he : (∃ x, eventOf L.cols s r c p = some (.press r c x) ∧ 0xA0 < x.toNat) ∨
      (∃ x, eventOf L.cols s r c p = some (.release r c x)) ∨ eventOf L.cols s r c p = none) :
    ∃ s', keyStep cfg p s r c = .ok s' ∧ keystrokes s' = keystrokes s := by
  have hcf := cfgFacts hc
  obtain ⟨⟨ks, ms, a, free, hw⟩, _⟩ := h.inv hcf
  obtain ⟨s1, _, _, _, e1, e2, _, _⟩ := keyStep_ev hcf hw hr hcl hb
  refine ⟨s1, e1, ?_⟩
  rw [e2.keystrokes, hw.keystrokes]
  rcases he with ⟨x, he, hx⟩ | ⟨x, he⟩ | he
  · rw [he]
    show (if x.toNat ≤ 0xA0 then _ else _) = _
    rw [if_neg (by omega)]
  · rw [he]; rfl
  · rw [he]; rfl

/-- **C15 (whole pass).** If in a pass the other keys rest, then after the pass
the keystroke stream is what the output part left of it, plus the code of the key
exactly if its press was accepted (or it repeated) in this pass. -/
theorem C15_pass (cfg : Config) (L : Layout) (hc : cfgOk cfg L = true) (s : State)
    (h : Reachable cfg L s) (r c : Nat) (hr : r < L.rows) (hcl : c < L.cols)
    (hx : (codeOf s L.cols r c).toNat < 0xA0) (inp : Input) (hin : Allowed L inp)
    (ho : OthersRest L s r c inp)
    (hroom : (keystrokes s).length < 16) :
    ∃ s', tick cfg s inp = .ok s' ∧ keystrokes s' =
      (if messages s = [] then (keystrokes s).tail else keystrokes s) ++
        (match eventOf L.cols s r c (sample inp r c) with
          | some (.press _ _ x) => [x]
          | some (.again _ _ x) => [x]
          | _ => []) := by
  have hcf := cfgFacts hc
  obtain ⟨ks, ms, a, free, hw⟩ := h.inv hcf
  rw [hw.keystrokes, hw.messages] at *
  obtain ⟨s', evs, e1, e2, _⟩ := tick_one hcf hin hw hr hcl (by omega) ho
  refine ⟨s', e1, ?_⟩
  rw [e2.keystrokes]
  obtain ⟨y, _, hy, hy1, _⟩ := hw.cell (r := r) (c := c) (Nat.lt_of_lt_of_le hr hcf.rows16)
    (Nat.lt_of_lt_of_le hcl hcf.cols8)
  have hk : (keysLeft ks ms).length < 16 := by
    unfold keysLeft
    split
    · rw [List.length_tail]; omega
    · exact hroom
  have hput : putL 16 (keysLeft ks ms) (codeOf s L.cols r c) =
      keysLeft ks ms ++ [codeOf s L.cols r c] := by
    unfold putL; rw [if_pos hk]
  show (One.key _ _ (oneOf s r c ks ms).out).ks = keysLeft ks ms ++ _
  unfold One.key eventOf
  have hon : (oneOf s r c ks ms).out.deb.on = accepted s r c := rfl
  have hleft : (oneOf s r c ks ms).out.deb.left = counter s r c := rfl
  have hlast : (oneOf s r c ks ms).out.last = s.lastKey := rfl
  have hks : (oneOf s r c ks ms).out.ks = keysLeft ks ms := rfl
  have hrep : (oneOf s r c ks ms).out.rep = s.rep := rfl
  simp only [hon, hleft, hlast, hks, hrep]
  by_cases hne : sample inp r c ≠ accepted s r c
  · rw [if_pos hne, if_pos hne]
    by_cases h1 : counter s r c = 1
    · rw [if_pos (show counter s r c ≤ 1 by omega), if_pos h1]
      cases sample inp r c
      · exact (List.append_nil _).symm
      · exact hput
    · rw [if_neg (show ¬ counter s r c ≤ 1 by omega), if_neg h1]
      exact (List.append_nil _).symm
  · rw [if_neg hne, if_neg hne]
    by_cases h1 : sample inp r c = true ∧ codeOf s L.cols r c = s.lastKey
    · rw [if_pos h1]
      by_cases ht : s.rep.timer = 1
      · rw [if_pos (show sample inp r c = true ∧ codeOf s L.cols r c = s.lastKey ∧ s.rep.timer = 1 from
          ⟨h1.1, h1.2, ht⟩), if_pos ((fire_iff _).mpr ht)]
        exact hput
      · rw [if_neg (show ¬ (sample inp r c = true ∧ codeOf s L.cols r c = s.lastKey ∧
            s.rep.timer = 1) from fun hh => ht hh.2.2),
          if_neg (fun hh => ht ((fire_iff _).mp hh))]
        exact (List.append_nil _).symm
    · rw [if_neg h1, if_neg (show ¬ (sample inp r c = true ∧
        codeOf s L.cols r c = s.lastKey ∧ s.rep.timer = 1) from fun hh => h1 ⟨hh.1, hh.2.1⟩)]
      exact (List.append_nil _).symm

/-- Non-vacuity of C15: after nine samples the tenth is accepted as a press of A;
SHIFT is an action key; and in the pass the other keys rest. -/
example : Reachable shipped shippedLayout (after (List.replicate 9 (closing 1 6))) ∧
    eventOf 8 (after (List.replicate 9 (closing 1 6))) 1 6 true = some (.press 1 6 0x61) ∧
    eventOf 8 (after (List.replicate 9 (closing 0 1))) 0 1 true = some (.press 0 1 0xA1) ∧
    OthersRest shippedLayout (after (List.replicate 9 (closing 1 6))) 1 6 (closing 1 6) := by
  refine ⟨after_reachable (by decide +kernel) ?_, by decide +kernel, by decide +kernel, ?_⟩
  · intro inp hi
    rw [(List.mem_replicate.mp hi).2]
    exact allowed_of_row8 rfl
  · have h : ∀ r, r < 9 → ∀ c, c < 8 → ¬ (r = 1 ∧ c = 6) →
        sample (closing 1 6) r c = accepted (after (List.replicate 9 (closing 1 6))) r c ∧
        accepted (after (List.replicate 9 (closing 1 6))) r c = false := by decide +kernel
    intro r c hr hc hn
    obtain ⟨h1, h2⟩ := h r hr c hc hn
    exact ⟨h1, fun h3 => by rw [h2] at h3; cases h3⟩

/-! ## C48, C19, C20 -/

/-- **C48 (general).** From every reachable state without pending output, holding a
code key for any number of passes while the other keys rest makes the host receive
exactly the code that the key is mapped to: in the pass after the press was
accepted and then on the schedule of the repeat delay that applies to the press.
(Pass `j`, counted from 0, sends what scan `j`, counted from 1, has queued.) -/
theorem C48_hold_sends (cfg : Config) (L : Layout) (hc : cfgOk cfg L = true) (s : State)
    (h : Reachable cfg L s) (hk : keystrokes s = []) (hm : messages s = []) (r c : Nat)
    (hr : r < L.rows) (hcl : c < L.cols) (hacc : accepted s r c = false) (x : Code)
    (hxe : codeOf s L.cols r c = x) (hx : x.toNat < 0xA0) (inps : List Input)
    (hin : ∀ inp ∈ inps, Allowed L inp ∧ sample inp r c = true ∧ OthersRest L s r c inp) :
    ∃ s' evs, run cfg s inps = .ok s' ∧ s'.dev.trace = s.dev.trace ++ evs ∧
      sends evs = List.replicate
        ((List.range inps.length).countP (holdDue (counter s r c) (pressDelay s x))) x ∧
      keystrokes s' =
        (if holdDue (counter s r c) (pressDelay s x) inps.length then [x] else []) ∧
      messages s' = [] := by
  have hcf := cfgFacts hc
  obtain ⟨ks, ms, a, free, hw⟩ := h.inv hcf
  rw [hw.keystrokes] at hk
  rw [hw.messages] at hm
  subst hk hm
  obtain ⟨y, _, hy, hy1, _⟩ := hw.cell (r := r) (c := c) (Nat.lt_of_lt_of_le hr hcf.rows16)
    (Nat.lt_of_lt_of_le hcl hcf.cols8)
  obtain ⟨s', evs, e1, e2, e3, e4, e5, e6, _⟩ := run_one hcf inps (fun i hi => (hin i hi).1) hw hr hcl
    x hxe (by omega) (fun i hi => (hin i hi).2.2)
  have hs : samplesOf inps r c = List.replicate inps.length true := by
    rw [List.eq_replicate_iff]
    refine ⟨by simp [samplesOf], ?_⟩
    intro b hb
    simp only [samplesOf, List.mem_map] at hb
    obtain ⟨i, hi, rfl⟩ := hb
    exact (hin i hi).2.1
  have hold := One.hold x (oneOf s r c [] []) (by show 1 ≤ counter s r c; omega) hacc rfl rfl
    inps.length
  rw [hs, hold.1] at e2
  rw [hs, hold.2, if_pos hx] at e6
  have hq : ∀ j, (oneOf s r c [] []).queued x j = holdDue (counter s r c) (pressDelay s x) j := by
    intro j
    rw [One.queued_eq]
    have : (if ((oneOf s r c [] []).pressRep x).timer = 0 then none
        else some ((oneOf s r c [] []).pressRep x).timer.toNat) = pressDelay s x := by
      unfold One.pressRep pressDelay
      show (if (if s.lastKey ≠ x then repResetCount s.rep else s.rep).timer = 0 then none
        else some (if s.lastKey ≠ x then repResetCount s.rep else s.rep).timer.toNat) = _
      by_cases hl : s.lastKey ≠ x
      · rw [if_pos hl, if_pos hl]; rfl
      · rw [if_neg hl, if_neg hl]
    rw [this]; rfl
  refine ⟨s', evs, e1, e5, ?_, ?_, ?_⟩
  · rw [e6, show (oneOf s r c [] []).queued x = holdDue (counter s r c) (pressDelay s x) from
      funext hq]
  · rw [e2.keystrokes]
    show (if (oneOf s r c [] []).queued x inps.length then [x] else []) = _
    rw [hq]
  · rw [e2.messages]; rfl

/-- **C48.** From every reachable state without pending output, with autorepeat on
and REPEAT not active, holding a code key for any number of passes while the
other keys rest makes the host receive exactly its code: in the pass after the
press was accepted, after 525 more passes, and then every 66 passes.  (Pass `j`,
counted from 0, sends what scan `j`, counted from 1, has queued.) -/
theorem C48_hold_types_on_schedule (cfg : Config) (L : Layout) (hc : cfgOk cfg L = true) (s : State)
    (h : Reachable cfg L s) (hk : keystrokes s = []) (hm : messages s = []) (r c : Nat)
    (hr : r < L.rows) (hcl : c < L.cols) (hacc : accepted s r c = false) (x : Code)
    (hxe : codeOf s L.cols r c = x) (hx : x.toNat < 0xA0)
    (hauto : s.rep.state = REPEAT_AUTO) (hlast : s.lastKey ≠ x) (inps : List Input)
    (hin : ∀ inp ∈ inps, Allowed L inp ∧ sample inp r c = true ∧ OthersRest L s r c inp) :
    ∃ s' evs, run cfg s inps = .ok s' ∧ s'.dev.trace = s.dev.trace ++ evs ∧
      sends evs = List.replicate
        ((List.range inps.length).countP (holdDue (counter s r c) (some 525))) x := by
  obtain ⟨s', evs, e1, e2, e3, _⟩ := C48_hold_sends cfg L hc s h hk hm r c hr hcl hacc x hxe hx inps hin
  refine ⟨s', evs, e1, e2, ?_⟩
  rw [e3]
  unfold pressDelay
  rw [if_pos hlast, hauto]
  rfl

/-- **C48**, as a number: the host receives nothing for the first `d` passes
(`d` = ten from a settled state), then one code, and after 525 further passes one
more for every started 66 passes. -/
theorem C48_number_of_codes (cfg : Config) (L : Layout) (hc : cfgOk cfg L = true) (s : State)
    (h : Reachable cfg L s) (hk : keystrokes s = []) (hm : messages s = []) (r c : Nat)
    (hr : r < L.rows) (hcl : c < L.cols) (hacc : accepted s r c = false) (x : Code)
    (hxe : codeOf s L.cols r c = x) (hx : x.toNat < 0xA0)
    (hauto : s.rep.state = REPEAT_AUTO) (hlast : s.lastKey ≠ x) (inps : List Input)
    (hin : ∀ inp ∈ inps, Allowed L inp ∧ sample inp r c = true ∧ OthersRest L s r c inp)
    (hfresh : counter s r c = 10) :
    ∃ s' evs, run cfg s inps = .ok s' ∧ s'.dev.trace = s.dev.trace ++ evs ∧
      sends evs = List.replicate
        ((if 10 < inps.length then 1 else 0) +
          (if 535 < inps.length then 1 + (inps.length - 536) / 66 else 0)) x := by
  obtain ⟨s', evs, e1, e2, e3⟩ := C48_hold_types_on_schedule cfg L hc s h hk hm r c hr hcl hacc x
    hxe hx hauto hlast inps hin
  refine ⟨s', evs, e1, e2, ?_⟩
  rw [e3, hfresh, countP_holdDue 10 525 _ (by omega)]
  rw [show inps.length - 1 - 10 - 525 = inps.length - 536 by omega]

/-- **C19 (partial).**  Missing: a press of the very code that is still recorded
as last pressed (see `C19_false`).  Proved: with autorepeat on and REPEAT not
active, a code key held alone queues its code in the scan that accepts it, 525
scans later, then every 66 scans, and in no other scan, for every duration. -/
theorem C19_hold_schedule_partial (cfg : Config) (L : Layout) (hc : cfgOk cfg L = true) (s : State)
    (h : Reachable cfg L s) (hk : keystrokes s = []) (hm : messages s = []) (r c : Nat)
    (hr : r < L.rows) (hcl : c < L.cols) (hacc : accepted s r c = false) (x : Code)
    (hxe : codeOf s L.cols r c = x) (hx : x.toNat < 0xA0)
    (hauto : s.rep.state = REPEAT_AUTO) (hlast : s.lastKey ≠ x) (inps : List Input)
    (hin : ∀ inp ∈ inps, Allowed L inp ∧ sample inp r c = true ∧ OthersRest L s r c inp) :
    ∃ s', run cfg s inps = .ok s' ∧ keystrokes s' =
      (if holdDue (counter s r c) (some 525) inps.length then [x] else []) := by
  obtain ⟨s', evs, e1, _, _, e4, _⟩ := C48_hold_sends cfg L hc s h hk hm r c hr hcl hacc x hxe hx inps hin
  refine ⟨s', e1, ?_⟩
  rw [e4]
  unfold pressDelay
  rw [if_pos hlast, hauto]
  rfl

/-- The power-up state of the shipped keyboard, and A held: the hypotheses of
C48 and C19 are met. -/
theorem idle_rest (n : Nat) : ∀ inp ∈ List.replicate n (closing 1 6),
    Allowed shippedLayout inp ∧ sample inp 1 6 = true ∧
      OthersRest shippedLayout (after []) 1 6 inp := by
  intro inp hi
  rw [(List.mem_replicate.mp hi).2]
  refine ⟨allowed_of_row8 rfl, by decide, ?_⟩
  have h : ∀ r, r < 9 → ∀ c, c < 8 → ¬ (r = 1 ∧ c = 6) →
      sample (closing 1 6) r c = accepted (after []) r c ∧
      accepted (after []) r c = false := by decide +kernel
  intro r c hr hc hn
  obtain ⟨h1, h2⟩ := h r hr c hc hn
  exact ⟨h1, fun h3 => by rw [h2] at h3; cases h3⟩

theorem boot_reachable : Reachable shipped shippedLayout (after []) :=
  after_reachable (by decide +kernel) (by simp)

/-- Non-vacuity of C48 and C19: power-up, then A held for any number of passes. -/
example : Reachable shipped shippedLayout (after []) ∧ keystrokes (after []) = [] ∧
    messages (after []) = [] ∧ accepted (after []) 1 6 = false ∧
    codeOf (after []) 8 1 6 = 0x61 ∧ (after []).rep.state = REPEAT_AUTO ∧
    (after []).lastKey ≠ 0x61 ∧ counter (after []) 1 6 = 10 :=
  ⟨boot_reachable, by decide +kernel, by decide +kernel, by decide +kernel, by decide +kernel,
    by decide +kernel, by decide +kernel, by decide +kernel⟩

/-- The full property C19 for the shipped firmware, without the condition on the
last pressed code. -/
def C19Statement : Prop :=
  ∀ (s : State) (r c : Nat) (x : Code) (inps : List Input), Reachable shipped shippedLayout s →
    keystrokes s = [] → messages s = [] → r < 9 → c < 8 →
    (∀ r' c', r' < 9 → c' < 8 → accepted s r' c' = false) →
    codeOf s 8 r c = x → x.toNat < 0xA0 → s.rep.state = REPEAT_AUTO →
    (∀ inp ∈ inps, Allowed shippedLayout inp ∧ sample inp r c = true ∧
      OthersRest shippedLayout s r c inp) →
    ∃ s', run shipped s inps = .ok s' ∧ keystrokes s' =
      (if holdDue (counter s r c) (some 525) inps.length then [x] else [])

/-- A (row 1, column 6) and SHIFT (row 0, column 1) closed. -/
def shiftA : Input := fun i => if i = 0 then 0x02 else if i = 1 then 0x40 else 0

/-- A is pressed, SHIFT is pressed, A is released, SHIFT is released: the release
is looked up as a release of capital A, so that lower-case a stays recorded as
the last pressed code, with a partly elapsed repeat timer. -/
def staleA : List Input :=
  List.replicate 12 (closing 1 6) ++ List.replicate 10 shiftA ++
    List.replicate 10 (closing 0 1) ++ List.replicate 10 noKeys

theorem staleA_reachable : Reachable shipped shippedLayout (after staleA) :=
  after_reachable (by decide +kernel) (by
    intro inp hi
    simp only [staleA, List.mem_append, List.mem_replicate] at hi
    rcases hi with ((hi | hi) | hi) | hi <;> rw [hi.2] <;> exact allowed_of_row8 rfl)

/-- **C19 is false**: after `staleA` no key is held, but a new press of A repeats
11 scans early. -/
theorem C19_false : ¬ C19Statement := by
  intro hst
  have hall : ∀ r, r < 9 → ∀ c, c < 8 → accepted (after staleA) r c = false := by decide +kernel
  have hk : keystrokes (after staleA) = [] := by decide +kernel
  have hm : messages (after staleA) = [] := by decide +kernel
  have hcode : codeOf (after staleA) 8 1 6 = 0x61 := by decide +kernel
  have hin : ∀ inp ∈ List.replicate 524 (closing 1 6), Allowed shippedLayout inp ∧
      sample inp 1 6 = true ∧ OthersRest shippedLayout (after staleA) 1 6 inp := by
    intro inp hi
    rw [(List.mem_replicate.mp hi).2]
    refine ⟨allowed_of_row8 rfl, by decide, ?_⟩
    have h : ∀ r, r < 9 → ∀ c, c < 8 → ¬ (r = 1 ∧ c = 6) →
        sample (closing 1 6) r c = false := by decide +kernel
    intro r c hr hc hn
    rw [hall r hr c hc]
    exact ⟨h r hr c hc hn, fun h3 => by cases h3⟩
  obtain ⟨s1, e1, e2⟩ := hst (after staleA) 1 6 0x61 (List.replicate 524 (closing 1 6))
    staleA_reachable hk hm (by omega) (by omega) (fun r c hr hc => hall r hr c hc) hcode
    (by decide) (by decide +kernel) hin
  have hok : cfgOk shipped shippedLayout = true := by decide +kernel
  obtain ⟨s2, _, g1, _, _, g4, _⟩ := C48_hold_sends shipped shippedLayout hok (after staleA)
    staleA_reachable hk hm 1 6 (by decide) (by decide) (hall 1 (by omega) 6 (by omega)) 0x61 hcode
    (by decide) (List.replicate 524 (closing 1 6)) hin
  rw [e1] at g1
  cases g1
  rw [e2] at g4
  have hcnt : counter (after staleA) 1 6 = 10 := by decide +kernel
  have hdel : pressDelay (after staleA) 0x61 = some 514 := by decide +kernel
  rw [hcnt, hdel, List.length_replicate] at g4
  exact absurd g4 (by decide)

/-- **C20.** While autorepeat is off and REPEAT is not active, a code key held for
any number of passes is sent exactly once. -/
theorem C20_held_key_sent_once (cfg : Config) (L : Layout) (hc : cfgOk cfg L = true) (s : State)
    (h : Reachable cfg L s) (hk : keystrokes s = []) (hm : messages s = []) (r c : Nat)
    (hr : r < L.rows) (hcl : c < L.cols) (hacc : accepted s r c = false) (x : Code)
    (hxe : codeOf s L.cols r c = x) (hx : x.toNat < 0xA0)
    (hoff : s.rep.state = REPEAT_OFF) (inps : List Input)
    (hin : ∀ inp ∈ inps, Allowed L inp ∧ sample inp r c = true ∧ OthersRest L s r c inp) :
    ∃ s' evs, run cfg s inps = .ok s' ∧ s'.dev.trace = s.dev.trace ++ evs ∧
      sends evs = (if counter s r c < inps.length then [x] else []) := by
  have hcf := cfgFacts hc
  obtain ⟨ks, ms, a, free, hw⟩ := h.inv hcf
  obtain ⟨s', evs, e1, e2, e3, _⟩ := C48_hold_sends cfg L hc s h hk hm r c hr hcl hacc x hxe hx inps hin
  refine ⟨s', evs, e1, e2, ?_⟩
  have hdel : pressDelay s x = none := by
    unfold pressDelay
    rw [hw.rep.off hoff, hoff]
    split <;> rfl
  rw [e3, hdel, countP_holdDue_none]
  split <;> rfl

/-- Autorepeat switch (DIP switch 7, row 8, column 7) closed and opened. -/
def autoOffHistory : List Input :=
  List.replicate 10 (closing 8 7) ++ List.replicate 10 noKeys

/-- Non-vacuity of C20: the autorepeat switch was closed and opened again. -/
example : Reachable shipped shippedLayout (after autoOffHistory) ∧
    keystrokes (after autoOffHistory) = [] ∧ messages (after autoOffHistory) = [] ∧
    accepted (after autoOffHistory) 1 6 = false ∧ codeOf (after autoOffHistory) 8 1 6 = 0x61 ∧
    (after autoOffHistory).rep.state = REPEAT_OFF := by
  refine ⟨after_reachable (by decide +kernel) ?_, by decide +kernel, by decide +kernel,
    by decide +kernel, by decide +kernel, by decide +kernel⟩
  intro inp hi
  simp only [autoOffHistory, List.mem_append, List.mem_replicate] at hi
  rcases hi with hi | hi <;> rw [hi.2]
  · intro r c hr hc hb
    simp only [shippedLayout, Bool.and_eq_true, beq_iff_eq] at hb
    rw [hb.1, hb.2]; decide
  · exact allowed_of_row8 rfl

/-- **C21 (scan level, partial).**  Missing: as in
`C21_fast_repeat_while_held_partial`, the REPEAT key may have been ignored.
Proved: while REPEAT is active, a code key that is pressed and held alone is
queued when accepted and every 66 scans from then on, without the initial
delay. -/
theorem C21_fast_schedule_partial (cfg : Config) (L : Layout) (hc : cfgOk cfg L = true) (s : State)
    (h : Reachable cfg L s) (hk : keystrokes s = []) (hm : messages s = []) (r c : Nat)
    (hr : r < L.rows) (hcl : c < L.cols) (hacc : accepted s r c = false) (x : Code)
    (hxe : codeOf s L.cols r c = x) (hx : x.toNat < 0xA0)
    (hon : s.rep.state = REPEAT_ON) (hlast : s.lastKey ≠ x) (inps : List Input)
    (hin : ∀ inp ∈ inps, Allowed L inp ∧ sample inp r c = true ∧ OthersRest L s r c inp) :
    ∃ s' evs, run cfg s inps = .ok s' ∧ s'.dev.trace = s.dev.trace ++ evs ∧
      sends evs = List.replicate
        ((List.range inps.length).countP (holdDue (counter s r c) (some 66))) x := by
  obtain ⟨s', evs, e1, e2, e3, _⟩ :=
    C48_hold_sends cfg L hc s h hk hm r c hr hcl hacc x hxe hx inps hin
  refine ⟨s', evs, e1, e2, ?_⟩
  rw [e3]
  unfold pressDelay
  rw [if_pos hlast, hon]
  rfl

/-- Non-vacuity: the REPEAT key (row 5, column 1) is held. -/
example : Reachable shipped shippedLayout (after (List.replicate 10 (closing 5 1))) ∧
    keystrokes (after (List.replicate 10 (closing 5 1))) = [] ∧
    messages (after (List.replicate 10 (closing 5 1))) = [] ∧
    (after (List.replicate 10 (closing 5 1))).rep.state = REPEAT_ON ∧
    (after (List.replicate 10 (closing 5 1))).lastKey ≠ 0x61 ∧
    codeOf (after (List.replicate 10 (closing 5 1))) 8 5 1 ≠ 0xA0 :=
  ⟨after_reachable (by decide +kernel) (by
      intro inp hi
      rw [(List.mem_replicate.mp hi).2]
      exact allowed_of_row8 rfl),
    by decide +kernel, by decide +kernel, by decide +kernel, by decide +kernel, by decide +kernel⟩

/-! ## C22 -/

/-- **C22.** In every history, if a sample of a key that is not newly accepted
changes the keystroke stream (that is, the key repeats), then: the key is held;
its code `x` is what is appended; the last accepted press of any code key was a
press of `x`; and no key mapped to `x` was released since.  So at most one code
repeats at any time, and releasing the key stops it. -/
theorem C22_only_last_press_repeats (cfg : Config) (L : Layout) (hc : cfgOk cfg L = true)
    (s s' : State) (log : List KeyEv) (h : History cfg L s log) (r c : Nat) (hr : r < L.rows)
    (hcl : c < L.cols) (p : Bool) (hb : p = true → L.blocked r c = false) (x : Code)
    (hxe : codeOf s L.cols r c = x) (hx : x.toNat < 0xA0)
    (hstep : keyStep cfg p s r c = .ok s') (hsame : accepted s' r c = accepted s r c)
    (hgrow : keystrokes s' ≠ keystrokes s) :
    accepted s r c = true ∧ keystrokes s' = keystrokes s ++ [x] ∧
      ∃ l1 r' c' l2, log = l1 ++ .press r' c' x :: l2 ∧
        ∀ e ∈ l2, e.pressesCode = false ∧ e.releases x = false := by
  have hcf := cfgFacts hc
  obtain ⟨⟨ks, ms, a, free, hw⟩, hl⟩ := h.inv hcf
  obtain ⟨s1, _, _, _, e1, e2, _, _⟩ := keyStep_ev hcf hw hr hcl hb
  rw [hstep] at e1
  cases e1
  obtain ⟨s2, g1, _, g3, _⟩ := keyStep_one hcf hw hr hcl hb (by rw [hxe]; omega)
  rw [hstep] at g1
  cases g1
  rw [e2.keystrokes, hw.keystrokes] at hgrow ⊢
  unfold eventOf at hgrow ⊢
  by_cases hne : p ≠ accepted s r c
  · exfalso
    rw [if_pos hne] at hgrow
    by_cases h1 : counter s r c = 1
    · have hd := congrArg One.deb g3
      have hacc : accepted s' r c = (One.key (codeOf s L.cols r c) p (oneOf s r c ks ms)).deb.on :=
        congrArg Deb.on hd
      rw [hsame, One.key, if_pos (show p ≠ (oneOf s r c ks ms).deb.on from hne),
        if_pos (show (oneOf s r c ks ms).deb.left ≤ 1 from Nat.le_of_eq h1)] at hacc
      cases p
      · exact hne hacc.symm
      · exact hne hacc.symm
    · rw [if_neg h1] at hgrow
      exact hgrow rfl
  · rw [if_neg hne] at hgrow ⊢
    by_cases hh : p = true ∧ codeOf s L.cols r c = s.lastKey ∧ s.rep.timer = 1
    · rw [if_pos hh] at hgrow ⊢
      have hp : p = accepted s r c := by simpa using hne
      refine ⟨by rw [← hp]; exact hh.1, ?_, ?_⟩
      · rw [hxe] at hgrow ⊢
        have hput : putL 16 ks x ≠ ks := hgrow
        show putL 16 ks x = _
        unfold putL at hput ⊢
        split
        · rfl
        · rename_i hfull; rw [if_neg hfull] at hput; exact absurd rfl hput
      · rw [← hh.2.1, hxe] at hl
        rcases hl with hl | hl
        · rw [hl] at hx; exact absurd hx (by decide)
        · exact hl
    · rw [if_neg hh] at hgrow
      exact absurd rfl hgrow

/-- Non-vacuity of C22: A held until its autorepeat is due. -/
theorem C22_case : ∃ s s' log, History shipped shippedLayout s log ∧
    codeOf s 8 1 6 = 0x61 ∧ keyStep shipped true s 1 6 = .ok s' ∧
    accepted s' 1 6 = accepted s 1 6 ∧ keystrokes s' ≠ keystrokes s := by
  have hok : cfgOk shipped shippedLayout = true := by decide +kernel
  have hcf := cfgFacts hok
  have hrest := idle_rest 534
  obtain ⟨ks, ms, a, free, hw⟩ := boot_reachable.inv hcf
  have hk : ks = [] := hw.keystrokes.symm.trans (by decide +kernel)
  have hm : ms = [] := hw.messages.symm.trans (by decide +kernel)
  subst hk hm
  have hcode : codeOf (after []) 8 1 6 = 0x61 := by decide +kernel
  obtain ⟨s', evs, e1, e2, e3, e4, _⟩ := run_one hcf (List.replicate 534 (closing 1 6))
    (fun i hi => (hrest i hi).1) hw (r := 1) (c := 6) (by decide) (by decide) 0x61 hcode (by decide)
    (fun i hi => (hrest i hi).2.2)
  have hs : samplesOf (List.replicate 534 (closing 1 6)) 1 6 = List.replicate 534 true := by
    rw [samplesOf, List.map_replicate]; rfl
  have hcnt : counter (after []) 1 6 = 10 := by decide +kernel
  have hold := One.hold 0x61 (oneOf (after []) 1 6 [] []) (by show 1 ≤ counter (after []) 1 6; omega)
    (by decide +kernel) rfl rfl 534
  rw [hs, hold.1] at e3
  have hr' : Reachable shipped shippedLayout s' := by
    obtain ⟨s0, inps, b1, b2, b3⟩ := boot_reachable
    refine ⟨s0, inps ++ List.replicate 534 (closing 1 6), b1, ?_, ?_⟩
    · intro i hi
      rcases List.mem_append.mp hi with hi | hi
      · exact b2 i hi
      · exact (hrest i hi).1
    · rw [run_append, b3, ok_bind, e1]
  obtain ⟨log, hlog⟩ := hr'.history hcf
  have hn : ¬ 534 < (oneOf (after []) 1 6 [] []).deb.left := by
    show ¬ 534 < counter (after []) 1 6
    omega
  have hdeb : debOf s' 1 6 = ⟨true, 10⟩ := by
    have h1 : debOf s' 1 6 = (One.held 0x61 (oneOf (after []) 1 6 [] []) 534).deb :=
      congrArg One.deb e3
    rw [h1, One.held_deb _ _ hn]
  have hlast : s'.lastKey = 0x61 := by
    have h1 : s'.lastKey = (One.held 0x61 (oneOf (after []) 1 6 [] []) 534).last :=
      congrArg One.last e3
    rw [h1, One.held_last _ _ hn]
  have htim : s'.rep.timer = 1 := by
    have h1 : s'.rep = (One.held 0x61 (oneOf (after []) 1 6 [] []) 534).rep := congrArg One.rep e3
    have h2 : (oneOf (after []) 1 6 [] []).deb.left = 10 := hcnt
    have ht : (One.pressRep 0x61 (oneOf (after []) 1 6 [] [])).timer = 525 := by decide +kernel
    have h4 := (heldFor_timer (One.pressRep 0x61 (oneOf (after []) 1 6 [] []))
      (by rw [ht]; decide) 524).1
    rw [h1, One.held_rep _ _ hn, h2]
    apply UInt16.toNat_inj.mp
    show (heldFor _ 524).timer.toNat = 1
    rw [h4, ht]
    show timerAt 525 524 = 1
    decide
  have hacc : accepted s' 1 6 = true := congrArg Deb.on hdeb
  have hcode' : codeOf s' 8 1 6 = 0x61 := by rw [e4.codeOf]; exact hcode
  obtain ⟨s2, g1, g2, g3, _⟩ := keyStep_one hcf e2 (r := 1) (c := 6) (p := true) (by decide) (by decide)
    (fun _ => rfl) (by show (codeOf s' 8 1 6).toNat ≤ 0xA0; rw [hcode']; decide)
  rw [show codeOf s' shippedLayout.cols 1 6 = 0x61 from hcode'] at g2 g3
  rw [hs, hold.1] at g2 g3 e2
  have hag := One.key_again 0x61 (oneOf s' 1 6 (One.held 0x61 (oneOf (after []) 1 6 [] []) 534).ks
    (One.held 0x61 (oneOf (after []) 1 6 [] []) 534).ms) hacc hlast htim
  have hlen : (One.held 0x61 (oneOf (after []) 1 6 [] []) 534).ks.length < 16 := by
    rw [One.held_ks]
    split <;> decide
  generalize One.held 0x61 (oneOf (after []) 1 6 [] []) 534 = o at *
  refine ⟨s', s2, log, hlog, hcode', g1, ?_, ?_⟩
  · have h1 : debOf s2 1 6 = _ := congrArg One.deb g3
    rw [hag.1] at h1
    exact congrArg Deb.on h1
  · rw [g2.keystrokes, e2.keystrokes, hag.2]
    exact putL_ne _ _ hlen

/-! ## C16 -/

/-- **C16 (partial).**  Missing: other keys that are pressed or held at the same
time (see `C16_delays_other_keys` and `C16_stops_repeat`).  Proved: from every
reachable state without pending output, whatever is done with a key mapped to
NOTHING while the other keys rest, nothing is transmitted, and modifiers, key
tables, hooks and keymap number stay as they are. -/
theorem C16_nothing_key_is_silent_partial (cfg : Config) (L : Layout) (hc : cfgOk cfg L = true)
    (s : State) (h : Reachable cfg L s) (hk : keystrokes s = []) (hm : messages s = []) (r c : Nat)
    (hr : r < L.rows) (hcl : c < L.cols) (hx : codeOf s L.cols r c = 0xA0) (inps : List Input)
    (hin : ∀ inp ∈ inps, Allowed L inp ∧ OthersRest L s r c inp) :
    ∃ s' evs, run cfg s inps = .ok s' ∧ s'.dev.trace = s.dev.trace ++ evs ∧ sends evs = [] ∧
      s'.mods = s.mods ∧ s'.maps = s.maps ∧ s'.hooks = s.hooks ∧ s'.curIdx = s.curIdx := by
  have hcf := cfgFacts hc
  obtain ⟨ks, ms, a, free, hw⟩ := h.inv hcf
  rw [hw.keystrokes] at hk
  rw [hw.messages] at hm
  subst hk hm
  obtain ⟨s', evs, e1, _, _, e4, e5, e6, _⟩ := run_one hcf inps (fun i hi => (hin i hi).1) hw hr hcl
    0xA0 hx (by decide) (fun i hi => (hin i hi).2)
  refine ⟨s', evs, e1, e5, ?_, e4.mods, e4.maps, e4.hooks, e4.idx⟩
  rw [e6]
  exact One.nothing_sent _ (by intro k hk; cases hk) rfl _

/-- Non-vacuity of C16: key (0, 0) of the first keymap is mapped to NOTHING. -/
example : codeOf (after []) 8 0 0 = 0xA0 ∧
    (∀ r c, r < 9 → c < 8 → ¬ (r = 0 ∧ c = 0) → sample (closing 0 0) r c = accepted (after []) r c ∧
      accepted (after []) r c = false) := by
  have h : ∀ r, r < 9 → ∀ c, c < 8 → ¬ (r = 0 ∧ c = 0) →
      sample (closing 0 0) r c = accepted (after []) r c ∧ accepted (after []) r c = false := by
    decide +kernel
  exact ⟨by decide +kernel, fun r c hr hc => h r hr c hc⟩

/-- NOTHING (row 0, column 0) and A (row 1, column 6) closed. -/
def nothingAndA : Input := fun i => if i = 0 then 0x01 else if i = 1 then 0x40 else 0

/-- **C16 is false (1).** Pressing NOTHING together with A delays A: after eleven
passes the host has received A if A alone is held, but nothing if the NOTHING key
is held too. -/
theorem C16_delays_other_keys :
    runsOk (List.replicate 11 (closing 1 6)) = true ∧
    sends (after (List.replicate 11 (closing 1 6))).dev.trace = [0x61] ∧
    runsOk (List.replicate 11 nothingAndA) = true ∧
    sends (after (List.replicate 11 nothingAndA)).dev.trace = [] := by decide +kernel

/-- A held for eleven passes, then NOTHING pressed in addition. -/
def aThenNothing : List Input := List.replicate 11 (closing 1 6) ++ List.replicate 10 nothingAndA

/-- **C16 is false (2).** Pressing NOTHING while A is held stops the repetition of
A for good: however long both are held, the host receives A only once. -/
theorem C16_stops_repeat (n : Nat) :
    ∃ s', run shipped (after []) (aThenNothing ++ List.replicate n nothingAndA) = .ok s' ∧
      sends s'.dev.trace = [0x61] := by
  have hok : cfgOk shipped shippedLayout = true := by decide +kernel
  have hcf := cfgFacts hok
  have hall : ∀ inp ∈ aThenNothing, Allowed shippedLayout inp := by
    intro inp hi
    simp only [aThenNothing, List.mem_append, List.mem_replicate] at hi
    rcases hi with hi | hi <;> rw [hi.2] <;> exact allowed_of_row8 rfl
  have hreach : Reachable shipped shippedLayout (after aThenNothing) :=
    after_reachable (by decide +kernel) hall
  obtain ⟨ks, ms, a, free, hw⟩ := hreach.inv hcf
  have hk : ks = [0xA0] := hw.keystrokes.symm.trans (by decide +kernel)
  have hm : ms = [] := hw.messages.symm.trans (by decide +kernel)
  subst hk hm
  have hrun : run shipped (after []) aThenNothing = .ok (after aThenNothing) := by decide +kernel
  have hrest : OthersRest shippedLayout (after aThenNothing) 0 0 nothingAndA := by
    have h : ∀ r, r < 9 → ∀ c, c < 8 → ¬ (r = 0 ∧ c = 0) →
        sample nothingAndA r c = accepted (after aThenNothing) r c := by decide +kernel
    have h2 : ∀ r, r < 9 → ∀ c, c < 8 → ¬ (r = 0 ∧ c = 0) → accepted (after aThenNothing) r c = true →
        codeOf (after aThenNothing) 8 r c = 0x61 := by decide +kernel
    have h3 : (after aThenNothing).lastKey = 0xA0 := by decide +kernel
    have h4 : codeOf (after aThenNothing) 8 0 0 = 0xA0 := by decide +kernel
    intro r c hr hc hn
    refine ⟨h r hr c hc hn, fun hacc => ?_⟩
    have h5 : codeOf (after aThenNothing) shippedLayout.cols r c = 0x61 := h2 r hr c hc hn hacc
    have h6 : codeOf (after aThenNothing) shippedLayout.cols 0 0 = 0xA0 := h4
    rw [h5, h6, h3]
    decide
  obtain ⟨s', evs, e1, _, _, _, e5, e6, _⟩ := run_one hcf (List.replicate n nothingAndA)
    (fun i hi => by rw [(List.mem_replicate.mp hi).2]; exact allowed_of_row8 rfl) hw
    (r := 0) (c := 0) (by decide) (by decide) 0xA0 (by decide +kernel) (by decide)
    (fun i hi => by rw [(List.mem_replicate.mp hi).2]; exact hrest)
  refine ⟨s', ?_, ?_⟩
  · rw [run_append, hrun, ok_bind, e1]
  · rw [e5, sends_append, e6, One.nothing_sent _ (by
      intro k hk
      exact List.mem_singleton.mp hk) rfl]
    decide +kernel

/-! ## C18 -/

/-- The tables of the shipped keymaps in the order plain, shift, caps, ctrl, as
assigned in the keymap sources. -/
def shippedTables (i : Nat) : List (List Code) :=
  match i with
  | 0 => [classicPlainMatrix, classicShiftMatrix, classicCapsMatrix, classicCtrlMatrix]
  | 1 => [classicCapsMatrix, classicShiftMatrix, classicCapsMatrix, classicCtrlMatrix]
  | 2 => [applePlainMatrix, appleShiftMatrix, appleCapsMatrix, appleCtrlMatrix]
  | 3 => [appleCapsMatrix, appleCapsShiftMatrix, appleCapsMatrix, appleCtrlMatrix]
  | 4 => [solPlainMap, solShiftMap, solCapsMap, solCtrlMap]
  | 5 => [ace1000PlainMatrix, ace1000ShiftMatrix, ace1000CapsMatrix, ace1000CtrlMatrix]
  | _ => []

/-- **C18 (partial).**  Missing: keymaps 4 and 5 (see `C18_false`).  Proved: with
keymap 0-3 selected, for every modifier state and every key position, the code
used for the key is the entry in that row and column of the table for that
modifier state. -/
theorem C18_lookup_partial (s : State) (i : Nat) (hi : i < 4) (hidx : s.curIdx = UInt8.ofNat i)
    (hmaps : s.maps = mapsOf (shippedSetup s.curIdx)) (r c : Nat) (hr : r < 9) (hc : c < 8) :
    ∃ t, (shippedTables i)[tableFor (s.mods.shift != 0) (s.mods.caps != 0) (s.mods.ctrl != 0)]? =
        some t ∧ lookupKeycode s r c = .ok (entryAt t 8 r c) := by
  have hok : cfgOk shipped shippedLayout = true := by decide +kernel
  have hmem : s.curIdx ∈ shippedLayout.maps := by
    rw [hidx]
    have : ∀ i, i < 4 → UInt8.ofNat i ∈ shippedLayout.maps := by decide
    exact this i hi
  have hlk := (lookup_ok (cfgFacts hok) hmem hmaps (r := r) (c := c) hr hc).1
  have htab : ∀ i, i < 4 → ∀ m, m < 4 →
      (mapsOf (shippedSetup (UInt8.ofNat i)))[m]?.map (·.matrix) =
        some ((shippedTables i)[m]?) := by decide +kernel
  generalize hm : tableFor (s.mods.shift != 0) (s.mods.caps != 0) (s.mods.ctrl != 0) = m at *
  have hm4 : m < 4 := by rw [← hm]; exact tableFor_lt _ _ _
  have hlen : ∀ i, i < 4 → (shippedTables i).length = 4 := by decide +kernel
  have ht := htab i hi m hm4
  rw [← hidx, ← hmaps] at ht
  have hml : m < (shippedTables i).length := by rw [hlen i hi]; exact hm4
  refine ⟨(shippedTables i)[m], List.getElem?_eq_getElem hml, ?_⟩
  rw [hlk]
  rw [List.getElem?_eq_getElem hml] at ht
  unfold codeOf activeTable
  rw [hm]
  cases hs : s.maps[m]? with
  | none => rw [hs] at ht; cases ht
  | some e =>
    rw [hs] at ht
    simp only [Option.map_some, Option.some.injEq] at ht
    simp only [ht, Option.getD_some]
    rfl

/-- **C18 is false** for keymaps 4 and 5: there every lookup reads outside the
modifier table. -/
theorem C18_false (s : State) (hi : s.curIdx = 4 ∨ s.curIdx = 5)
    (hmaps : s.maps = mapsOf (shippedSetup s.curIdx)) (r c : Nat) :
    lookupKeycode s r c = .error .oob := by
  have hlen : s.maps.length = 4 := by rw [hmaps, mapsOf_length]
  unfold lookupKeycode getCode
  rw [modifierIndex_ok, ok_bind]
  unfold rd
  rw [List.getElem?_eq_none (by rcases hi with hi | hi <;> rw [hi, hlen] <;> decide)]
  rfl

/-- Non-vacuity of C18: the power-up state satisfies the hypotheses of the partial
theorem, and the states entered by selecting keymap 4 or 5 satisfy those of
`C18_false`. -/
example : (after []).curIdx = UInt8.ofNat 0 ∧
    (after []).maps = mapsOf (shippedSetup (after []).curIdx) ∧
    (∀ i : UInt8, i = 4 ∨ i = 5 → (match keymapsSelect shipped (after []) i with
      | .ok s => s.curIdx == i && s.maps == mapsOf (shippedSetup i)
      | .error _ => false) = true) := by
  refine ⟨by decide +kernel, by decide +kernel, ?_⟩
  rintro i (rfl | rfl) <;> decide +kernel

end Asdf.Props
