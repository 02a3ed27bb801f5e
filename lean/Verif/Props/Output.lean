import Verif.Lemmas.Stream
import Verif.Spec.Examples

/-! # Properties C05-C09: the output path -/

namespace Asdf.Props

open Spec

/-! ## C05 -/

/-- **C05.** Asking for the next code returns the oldest pending message
character if there is one, else the oldest pending keystroke, else 0xA0; exactly
the returned code is removed; a delay happens exactly for a message character. -/
theorem C05_next_code (s : State) (h : BuffersReady s) (hm : (0xA0 : Code) ∉ messages s) :
    ∃ s', nextCode s = .ok ((messages s ++ keystrokes s).head?.getD 0xA0, s') ∧
      messages s' = (messages s).tail ∧
      keystrokes s' = (if messages s = [] then (keystrokes s).tail else keystrokes s) ∧
      s'.dev.trace = s.dev.trace ++ (if messages s = [] then [] else [.delayMs s.printDelay]) ∧
      ∃ b t, s' = { s with buf := b, dev := { s.dev with trace := t } } := by
  have hr := h.rel
  obtain ⟨b', hb⟩ := nextCode_buf hr h.1 h.2.1
  cases hms : messages s with
  | nil =>
    rw [hms] at hb hr
    rw [if_pos frontL_nil] at hb
    have hs := streams_of (s := { s with buf := b' }) hb.2 h.1 h.2.1
    refine ⟨_, hb.1, ?_, ?_, ?_, b', s.dev.trace, rfl⟩
    · exact hs.2
    · rw [hs.1]; rfl
    · exact (List.append_nil _).symm
  | cons m ms =>
    rw [hms] at hb hr
    have hne : ¬ frontL (m :: ms) = 0xA0 := by
      intro he; rw [frontL_cons] at he
      exact hm (by rw [hms, he]; simp)
    rw [if_neg hne] at hb
    have hs := streams_of
      (s := { s with buf := b', dev := s.dev.emit (.delayMs s.printDelay) }) hb.2 h.1 h.2.1
    refine ⟨_, hb.1, ?_, ?_, ?_, b', s.dev.trace ++ [.delayMs s.printDelay], rfl⟩
    · rw [hs.2]
    · rw [hs.1]; simp
    · simp [Dev.emit]

/-- A keyboard with one message character and two keystrokes pending. -/
def sampleState : State :=
  { State.zero with
    kcBuf := 0
    msgBuf := 1
    buf := match runBuf BufState.zero
        ([.init, .new 16, .new 128] ++ [.put 0 0x41, .put 1 0x62, .put 0 0x43]) with
      | .ok (b, _) => b
      | .error _ => BufState.zero }

/-- Non-vacuity of C05 and C06. -/
example : BuffersReady sampleState ∧ (0xA0 : Code) ∉ messages sampleState ∧
    messages sampleState = [0x62] ∧ keystrokes sampleState = [0x41, 0x43] :=
  ⟨⟨rfl, rfl, [.put 0 0x41, .put 1 0x62, .put 0 0x43],
    [.unit, .handle 0, .handle 1, .unit, .unit, .unit], by decide, by decide +kernel⟩,
    by decide +kernel, by decide +kernel, by decide +kernel⟩

/-! ## C06 -/

/-- **C06.** Printing a text changes the message stream only: it appends the
text with a carriage return before every line feed, cut off where the message
buffer (128 codes) is full. -/
theorem C06_print (s : State) (h : BuffersReady s) (text : List Code) :
    ∃ b', print s text = .ok { s with buf := b' } ∧
      messages { s with buf := b' } =
        messages s ++ (withCR text).take (128 - (messages s).length) ∧
      keystrokes { s with buf := b' } = keystrokes s := by
  obtain ⟨b', e1, e2⟩ := print_ok text h.rel h.2.1
  have hs := streams_of (s := { s with buf := b' }) e2 h.1 h.2.1
  refine ⟨b', e1, ?_, hs.1⟩
  rw [hs.2, foldl_putL_take]

/-- **C06**, the case named in the property: the expanded text fits. -/
theorem C06_print_verbatim (s : State) (h : BuffersReady s) (text : List Code)
    (hfit : (messages s).length + (withCR text).length ≤ 128) :
    ∃ b', print s text = .ok { s with buf := b' } ∧
      messages { s with buf := b' } = messages s ++ withCR text ∧
      keystrokes { s with buf := b' } = keystrokes s := by
  obtain ⟨b', e1, e2, e3⟩ := C06_print s h text
  refine ⟨b', e1, ?_, e3⟩
  rw [e2, List.take_of_length_le (by omega)]

/-- Non-vacuity of C06: a text with line feeds that fits. -/
example : (messages sampleState).length + (withCR [0x0A, 0x41, 0x0A]).length ≤ 128 ∧
    withCR [0x0A, 0x41, 0x0A] = [0x0D, 0x0A, 0x41, 0x0D, 0x0A] := by decide +kernel

/-! ## C08 -/

theorem sends_one (c : Code) : sends [.send c] = [c] := rfl

/-- **C08**, for every state of the memory and every keymap list: if a
main-loop pass returns at all, it sent at most one code; that code is below 0xA0
and is the one `asdf_next_code` returned. -/
theorem C08_at_most_one_send (cfg : Config) (s s' : State) (inp : Input)
    (h : tick cfg s inp = .ok s') :
    ∃ evs, s'.dev.trace = s.dev.trace ++ evs ∧
      (sends evs = [] ∨ ∃ c s1, sends evs = [c] ∧ c.toNat < 0xA0 ∧ nextCode s = .ok (c, s1)) := by
  unfold tick at h
  obtain ⟨s1, h1, h2⟩ := bind_eq_ok.mp h
  obtain ⟨ev2, t2, n2⟩ := keyscan_ns h2
  unfold outputPhase at h1
  obtain ⟨⟨c, sn⟩, h3, h4⟩ := bind_eq_ok.mp h1
  have hn : NoSend s.dev.trace sn.dev.trace := by
    unfold nextCode at h3
    obtain ⟨⟨c1, b1⟩, _, h3⟩ := bind_eq_ok.mp h3
    dsimp only at h3
    split at h3
    · obtain ⟨⟨c2, b2⟩, _, h3⟩ := bind_eq_ok.mp h3
      cases h3; exact NoSend.refl _
    · cases h3; exact NoSend.one _ rfl
  obtain ⟨ev1, t1, n1⟩ := hn
  dsimp only at h4
  split at h4
  · rename_i hc
    unfold callOutput at h4
    obtain ⟨f, _, h4⟩ := bind_eq_ok.mp h4
    split at h4
    · cases h4
      refine ⟨ev1 ++ [.send c] ++ ev2, ?_, Or.inr ⟨c, sn, ?_, lt_invalid.mp hc, h3⟩⟩
      · rw [t2]
        show (sn.dev.trace ++ [.send c]) ++ ev2 = _
        rw [t1]; simp
      · rw [sends_append, sends_append, n1, n2, sends_one]; rfl
    · cases h4
  · cases h4
    refine ⟨ev1 ++ ev2, ?_, Or.inl ?_⟩
    · rw [t2, t1]; simp
    · rw [sends_append, n1, n2]; rfl

/-- **C08**, in every reachable state: what a pass sends is the front of the
message stream, or, if there is no message, the front of the keystroke stream
unless that is the reserved value. -/
theorem C08_front_is_sent (cfg : Config) (L : Layout) (hc : cfgOk cfg L = true) (s : State)
    (h : Reachable cfg L s) (inp : Input) (hin : Allowed L inp) :
    ∃ s' evs, tick cfg s inp = .ok s' ∧ s'.dev.trace = s.dev.trace ++ evs ∧
      sends evs = (match messages s with
        | m :: _ => [m]
        | [] => ((keystrokes s).take 1).filter fun c => decide (c.toNat < 0xA0)) := by
  obtain ⟨ks, ms, a, free, hw⟩ := h.inv (cfgFacts hc)
  obtain ⟨s', _, _, _, _, evs, e1, _, _, _, e2, e3⟩ := tick_wf (cfgFacts hc) hin hw
  refine ⟨s', evs, e1, e2, ?_⟩
  rw [hw.keystrokes, hw.messages]
  exact e3

/-! ## C09 -/

/-- **C09 (conservation).** Along every run, nothing is lost, duplicated or
reordered once it is in a stream: the messages pending before plus those added
are those sent plus those pending after, in order; the same for keystrokes; and
the host receives an interleaving of both (without reserved codes). -/
theorem C09_streams_conserved (cfg : Config) (L : Layout) (hc : cfgOk cfg L = true) (s : State)
    (h : Reachable cfg L s) (inps : List Input) (hin : ∀ inp ∈ inps, Allowed L inp) :
    ∃ s' evs newM newK sentM sentK, run cfg s inps = .ok s' ∧
      s'.dev.trace = s.dev.trace ++ evs ∧
      messages s ++ newM = sentM ++ messages s' ∧
      keystrokes s ++ newK = sentK ++ keystrokes s' ∧
      Interleaved sentM (sentK.filter fun c => decide (c.toNat < 0xA0)) (sends evs) := by
  have hcf := cfgFacts hc
  obtain ⟨ks, ms, a, free, hw⟩ := h.inv hcf
  clear h
  rw [hw.keystrokes, hw.messages]
  induction inps generalizing s ks ms a free with
  | nil =>
    exact ⟨s, [], [], [], [], [], rfl, by simp, by simp [hw.messages], by simp [hw.keystrokes], .nil⟩
  | cons inp inps ih =>
    obtain ⟨s1, ks1, ms1, a1, f1, ev1, e1, e2, ⟨nk, e3⟩, ⟨nm, e4⟩, e5, e6⟩ :=
      tick_wf hcf (hin inp (by simp)) hw
    obtain ⟨s2, ev2, nM, nK, sM, sK, g1, g2, g3, g4, g5⟩ :=
      ih s1 (fun i hi => hin i (by simp [hi])) ks1 ms1 a1 f1 e2
    have ht : s2.dev.trace = s.dev.trace ++ (ev1 ++ ev2) := by rw [g2, e5]; simp
    have hrun : run cfg s (inp :: inps) = .ok s2 := by rw [run_cons, e1, ok_bind, g1]
    cases ms with
    | cons m ms =>
      refine ⟨s2, ev1 ++ ev2, nm ++ nM, nk ++ nK, m :: sM, sK, hrun, ht, ?_, ?_, ?_⟩
      · rw [List.tail_cons] at e4
        rw [List.cons_append, List.cons_append, ← g3, ← e4, List.append_assoc]
      · rw [← g4, ← e3]; simp [keysLeft]
      · rw [sends_append, e6]
        exact .left m g5
    | nil =>
      cases ks with
      | nil =>
        refine ⟨s2, ev1 ++ ev2, nm ++ nM, nk ++ nK, sM, sK, hrun, ht, ?_, ?_, ?_⟩
        · rw [← g3, ← e4]; simp
        · rw [← g4, ← e3]; simp [keysLeft]
        · rw [sends_append, e6]; exact g5
      | cons k ks =>
        refine ⟨s2, ev1 ++ ev2, nm ++ nM, nk ++ nK, sM, k :: sK, hrun, ht, ?_, ?_, ?_⟩
        · rw [← g3, ← e4]; simp
        · rw [List.cons_append, List.cons_append, ← g4, ← e3]; simp [keysLeft]
        · rw [sends_append, e6]
          unfold sentNow
          by_cases hk : k.toNat < 0xA0
          · simp only [List.take_succ_cons, List.take_zero, List.filter_cons, hk, decide_true,
              if_true, List.filter_nil]
            exact .right k g5
          · simp only [List.take_succ_cons, List.take_zero, List.filter_cons, hk, decide_false,
              Bool.false_eq_true, if_false, List.filter_nil]
            exact g5

/-- Non-vacuity of C08 and C09: a reachable state with a pending keystroke. -/
example : Reachable shipped shippedLayout (after typedA) ∧ keystrokes (after typedA) = [0x61] :=
  ⟨typedA_reachable, by decide +kernel⟩

/-- Draining on the invariant. -/
theorem drain_quiet {cfg : Config} {L : Layout} (hcf : CfgFacts cfg L) (inps : List Input)
    {s : State} {ks ms a free} (hw : WF cfg L s ks ms a free)
    (hq : ∀ inp ∈ inps, Quiet L s inp) (hn : ms.length + ks.length ≤ inps.length) :
    ∃ b t, run cfg s inps = .ok { s with buf := b, dev := { s.dev with trace := s.dev.trace ++ t } } ∧
      sends t = (ms ++ ks).filter (fun c => decide (c.toNat < 0xA0)) ∧
      BufRel b (twoQ [] []) := by
  induction inps generalizing s ks ms with
  | nil =>
    simp only [List.length_nil, Nat.le_zero_eq, Nat.add_eq_zero_iff, List.length_eq_zero_iff] at hn
    obtain ⟨rfl, rfl⟩ := hn
    refine ⟨s.buf, [], ?_, rfl, hw.buf⟩
    rw [List.append_nil]; rfl
  | cons inp inps ih =>
    obtain ⟨b1, e1, e2⟩ := tick_quiet hcf hw (hq inp (by simp))
    obtain ⟨b2, t2, g1, g2, g3⟩ := ih e2 (fun i hi => hq i (by simp [hi])) (by
      unfold keysLeft
      simp only [List.length_cons, List.length_tail] at hn ⊢
      cases ms with
      | nil => simp at hn ⊢; omega
      | cons m ms => simp at hn ⊢; omega)
    refine ⟨b2, outTrace s.printDelay ks ms ++ t2, ?_, ?_, g3⟩
    · rw [run_cons, e1, ok_bind, g1]; simp
    · rw [sends_append, g2, sends_outTrace _ hw.codes]
      unfold sentNow keysLeft
      cases ms with
      | nil => cases ks <;> simp [List.filter_cons]; split <;> simp
      | cons m ms =>
        have := hw.codes.2 m (by simp)
        simp [this]

/-- **C09 (delivery).** In every reachable state, if for at least as many passes
as codes are pending no key event occurs, then exactly the pending codes are
sent (reserved values are dropped), messages first, both in order, and both
streams end empty. -/
theorem C09_pending_delivered (cfg : Config) (L : Layout) (hc : cfgOk cfg L = true) (s : State)
    (h : Reachable cfg L s) (inps : List Input) (hq : ∀ inp ∈ inps, Quiet L s inp)
    (hn : (messages s).length + (keystrokes s).length ≤ inps.length) :
    ∃ s' evs, run cfg s inps = .ok s' ∧ s'.dev.trace = s.dev.trace ++ evs ∧
      sends evs = (messages s ++ keystrokes s).filter (fun c => decide (c.toNat < 0xA0)) ∧
      messages s' = [] ∧ keystrokes s' = [] := by
  have hcf := cfgFacts hc
  obtain ⟨ks, ms, a, free, hw⟩ := h.inv hcf
  rw [hw.keystrokes, hw.messages] at hn ⊢
  obtain ⟨b, t, e1, e2, e3⟩ := drain_quiet hcf inps hw hq hn
  have hs := streams_of (s := { s with buf := b, dev := { s.dev with trace := s.dev.trace ++ t } })
    e3 hw.kc hw.mb
  exact ⟨_, t, e1, rfl, e2, hs.2, hs.1⟩

/-- CTRL (row 0, column 6) and 0 (row 6, column 5) held. -/
def ctrlZero : Input := fun i => if i = 0 then 0x40 else if i = 6 then 0x20 else 0

/-- Non-vacuity of C09 (delivery): CTRL-0 was just accepted and printed the
identification of the first keymap; holding both keys is quiet. -/
example : Reachable shipped shippedLayout (after (List.replicate 10 ctrlZero)) ∧
    Quiet shippedLayout (after (List.replicate 10 ctrlZero)) ctrlZero ∧
    messages (after (List.replicate 10 ctrlZero)) = withCR classicIdMessageText := by
  refine ⟨after_reachable (by decide +kernel) ?_, ?_, by decide +kernel⟩
  · intro inp hi
    rw [(List.mem_replicate.mp hi).2]
    exact allowed_of_row8 rfl
  · have h : ∀ r, r < 9 → ∀ c, c < 8 →
        sample ctrlZero r c = accepted (after (List.replicate 10 ctrlZero)) r c ∧
        (accepted (after (List.replicate 10 ctrlZero)) r c = true →
          codeOf (after (List.replicate 10 ctrlZero)) 8 r c ≠
            (after (List.replicate 10 ctrlZero)).lastKey) := by decide +kernel
    exact fun r c hr hc => h r hr c hc

/-! ## C07 -/

/-- The messages a shipped keymap can print. -/
def shippedMessages (i : UInt8) : List (List Code) :=
  (hooksOf (shippedSetup i)).filterMap fun f => match f with
    | .print text => some text
    | _ => none

/-- **C07 (fit).** Every message of every shipped keymap, with its line ends
expanded, fits the message buffer and consists of transmittable codes. -/
theorem C07_messages_fit : ∀ i ∈ ([0, 1, 2, 3, 4, 5] : List UInt8), ∀ text ∈ shippedMessages i,
    (withCR text).length ≤ 128 ∧ ∀ c ∈ withCR text, c.toNat < 0xA0 := by decide +kernel

/-- The shipped keymaps do print messages. -/
example : (shippedMessages 0).length = 2 ∧ ((shippedMessages 0).map List.length).sum > 50 := by
  decide +kernel

/-- The results of `n` successive calls of `asdf_next_code`. -/
def nextCodes : Nat → State → Res (List Code × State)
  | 0, s => .ok ([], s)
  | n + 1, s => do
    let (c, s) ← nextCode s
    let (cs, s) ← nextCodes n s
    .ok (c :: cs, s)

theorem nextCodes_messages {s : State} {ks : List Code} (ms : List Code)
    (hb : BufRel s.buf (twoQ ks ms)) (hk : s.kcBuf = 0) (hm : s.msgBuf = 1)
    (hcodes : ∀ c ∈ ms, c.toNat < 0xA0) :
    ∃ s', nextCodes ms.length s = .ok (ms, s') ∧ BufRel s'.buf (twoQ ks []) ∧ s'.kcBuf = 0 ∧
      s'.msgBuf = 1 := by
  induction ms generalizing s with
  | nil => exact ⟨s, rfl, hb, hk, hm⟩
  | cons m ms ih =>
    obtain ⟨b', h1⟩ := nextCode_buf hb hk hm
    rw [if_neg (by rw [frontL_ne hcodes]; simp)] at h1
    obtain ⟨s', g1, g2⟩ := ih (s := { s with buf := b', dev := s.dev.emit (.delayMs s.printDelay) })
      h1.2 hk hm (fun c hc => hcodes c (by simp [hc]))
    refine ⟨s', ?_, g2⟩
    show (nextCode s >>= _) = _
    rw [h1.1, ok_bind]
    show (nextCodes ms.length _ >>= _) = _
    rw [g1, ok_bind]
    rfl

/-- **C07 (transmission).** With any shipped keymap selected and no message
pending, running a hook that prints puts the complete message in the message
stream, and the next codes the keyboard hands out are exactly that message. -/
theorem C07_messages_transmitted (i : UInt8) (hi : i ∈ ([0, 1, 2, 3, 4, 5] : List UInt8))
    (s : State) (hh : s.hooks = hooksOf (shippedSetup i)) (hb : BuffersReady s)
    (he : messages s = []) (id : Nat) (text : List Code) (hid : s.hooks[id]? = some (.print text))
    (h1 : 1 ≤ id) :
    ∃ s1 s2, hookExecute s id = .ok s1 ∧ nextCodes (withCR text).length s1 = .ok (withCR text, s2) ∧
      messages s2 = [] ∧ keystrokes s2 = keystrokes s := by
  have hlen : ∀ j ∈ ([0, 1, 2, 3, 4, 5] : List UInt8), (hooksOf (shippedSetup j)).length = 16 := by
    decide +kernel
  have hlt : id < 16 := by
    have := (List.getElem?_eq_some_iff.mp hid).1
    rw [hh, hlen i hi] at this
    exact this
  have hmem : text ∈ shippedMessages i := by
    unfold shippedMessages
    rw [List.mem_filterMap]
    exact ⟨.print text, by rw [← hh]; exact List.mem_of_getElem? hid, rfl⟩
  obtain ⟨hfit, hcodes⟩ := C07_messages_fit i hi text hmem
  obtain ⟨b', e1, e2⟩ := print_ok text hb.rel hb.2.1
  rw [he, foldl_putL _ _ _ (by simpa using hfit), List.nil_append] at e2
  obtain ⟨s2, g1, g2, g3, g4⟩ := nextCodes_messages (s := { s with buf := b' }) _ e2 hb.1 hb.2.1 hcodes
  have hs := streams_of g2 g3 g4
  refine ⟨_, s2, ?_, g1, hs.2, hs.1⟩
  unfold hookExecute
  rw [if_pos (hookValid_iff.mpr ⟨h1, Nat.le_of_lt_succ hlt⟩), rd_some hid, ok_bind]
  exact e1

/-- Non-vacuity of C07: the identification message of every shipped keymap is on
`ASDF_HOOK_USER_9` or `ASDF_HOOK_USER_10`, and after typing and releasing a key
the output streams of the keyboard are empty. -/
example : ∀ i ∈ ([0, 1, 2, 3, 4, 5] : List UInt8), ∃ id ∈ [13, 14],
    (match (hooksOf (shippedSetup i))[id]? with
    | some (HookFn.print text) => decide (10 < text.length)
    | _ => false) = true := by decide +kernel

/-- **C07 (to the host).** With keymaps 0-3, from every reachable state without
pending output, after a printing hook ran and no key event occurs, the host
receives exactly the message. -/
theorem C07_messages_reach_host (s : State) (h : Reachable shipped shippedLayout s)
    (hk : keystrokes s = []) (hm : messages s = []) (id : Nat) (text : List Code)
    (hid : s.hooks[id]? = some (.print text)) (h1 : 5 ≤ id ∧ id ≤ 14)
    (inps : List Input) (hq : ∀ inp ∈ inps, Quiet shippedLayout s inp)
    (hn : (withCR text).length ≤ inps.length) :
    ∃ s1 s2 evs, hookExecute s id = .ok s1 ∧ run shipped s1 inps = .ok s2 ∧
      s2.dev.trace = s1.dev.trace ++ evs ∧ sends evs = withCR text := by
  have hc : cfgOk shipped shippedLayout = true := by decide +kernel
  have hcf := cfgFacts hc
  obtain ⟨ks, ms, a, free, hw⟩ := h.inv hcf
  rw [hw.keystrokes] at hk
  rw [hw.messages] at hm
  subst hk hm
  have hmem : text ∈ shippedMessages s.curIdx := by
    unfold shippedMessages
    rw [List.mem_filterMap]
    refine ⟨.print text, ?_, rfl⟩
    have := hw.hooks
    rw [show shipped.setup = shippedSetup from rfl] at this
    rw [← this]; exact List.mem_of_getElem? hid
  have hi : s.curIdx ∈ ([0, 1, 2, 3, 4, 5] : List UInt8) := by
    have : ∀ i ∈ shippedLayout.maps, i ∈ ([0, 1, 2, 3, 4, 5] : List UInt8) := by decide
    exact this _ hw.idx
  obtain ⟨hfit, hcodes⟩ := C07_messages_fit _ hi text hmem
  obtain ⟨b', e1, e2⟩ := print_ok text hw.buf hw.mb
  rw [foldl_putL _ _ _ (by simpa using hfit), List.nil_append] at e2
  have hw1 : WF shipped shippedLayout { s with buf := b' } [] (withCR text) a free :=
    hw.withBuf e2 ⟨by simp, hcodes⟩
  obtain ⟨b, t, g1, g2, _⟩ := drain_quiet hcf inps hw1 hq (by simpa using hn)
  refine ⟨_, _, t, ?_, g1, rfl, ?_⟩
  · unfold hookExecute
    rw [if_pos (hookValid_iff.mpr (by omega)), rd_some hid, ok_bind]
    exact e1
  · rw [g2, List.append_nil, List.filter_eq_self]
    intro c hc
    simpa using hcodes c hc

end Asdf.Props
