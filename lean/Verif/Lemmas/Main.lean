import Verif.Lemmas.Scan

/-! # The main loop and power-up -/

namespace Asdf

open Spec

/-- The next element of a stream, or "no code". -/
def frontL (l : List Code) : Code := l.head?.getD 0xA0

/-- `nextCode` on the two streams. -/
theorem nextCode_buf {s : State} {ks ms : List Code} (hb : BufRel s.buf (twoQ ks ms))
    (hk : s.kcBuf = 0) (hm : s.msgBuf = 1) :
    ∃ b', if frontL ms = 0xA0 then
        nextCode s = .ok (frontL ks, { s with buf := b' }) ∧ BufRel b' (twoQ ks.tail ms.tail)
      else
        nextCode s = .ok (frontL ms, { s with buf := b', dev := s.dev.emit (.delayMs s.printDelay) }) ∧
          BufRel b' (twoQ ks ms.tail) := by
  obtain ⟨b1, h1, h2⟩ := hb.get (i := 1) (by simp [twoQ])
  have hq : (twoQ ks ms).modify 1 Queue.pop = twoQ ks ms.tail := by simp [twoQ, Queue.pop]
  have hf : ((twoQ ks ms)[1]'(by simp [twoQ])).front = frontL ms := rfl
  rw [hq] at h2
  rw [hf] at h1
  have h1' : bufGet s.buf s.msgBuf = .ok (frontL ms, b1) := by rw [hm]; exact h1
  by_cases he : frontL ms = 0xA0
  · obtain ⟨b2, h3, h4⟩ := h2.get (i := 0) (by simp [twoQ])
    have hq2 : (twoQ ks ms.tail).modify 0 Queue.pop = twoQ ks.tail ms.tail := by
      simp [twoQ, Queue.pop]
    have hf2 : ((twoQ ks ms.tail)[0]'(by simp [twoQ])).front = frontL ks := rfl
    rw [hq2] at h4
    rw [hf2] at h3
    have h3' : bufGet b1 s.kcBuf = .ok (frontL ks, b2) := by rw [hk]; exact h3
    refine ⟨b2, ?_⟩
    rw [if_pos he]
    refine ⟨?_, h4⟩
    unfold nextCode
    rw [h1', ok_bind]
    show (if INVALID_CODE = frontL ms then _ else _) = _
    rw [if_pos (show INVALID_CODE = frontL ms from he.symm)]
    simp only [h3', ok_bind]
  · refine ⟨b1, ?_⟩
    rw [if_neg he]
    refine ⟨?_, h2⟩
    unfold nextCode
    rw [h1', ok_bind]
    show (if INVALID_CODE = frontL ms then _ else _) = _
    rw [if_neg (show ¬ INVALID_CODE = frontL ms from fun hc => he hc.symm)]
    rfl

theorem WF.withBuf {cfg L s ks ms a free} (h : WF cfg L s ks ms a free) {b : BufState} {ks' ms'}
    (hb : BufRel b (twoQ ks' ms')) (hc : CodesOk ks' ms') :
    WF cfg L { s with buf := b } ks' ms' a free :=
  ⟨hb, h.kc, h.mb, h.dev, h.idx, h.maps, h.hooks, h.stableLen, h.cntLen, h.cntRow, h.cntVal, h.rep,
    h.last, h.blocked, hc⟩

theorem nextCode_ok {cfg : Config} {L : Layout} {s : State} {ks ms : List Code} {a : Outputs}
    {free : List Nat} (h : WF cfg L s ks ms a free) :
    ∃ b', if frontL ms = 0xA0 then
        nextCode s = .ok (frontL ks, { s with buf := b' }) ∧
          WF cfg L { s with buf := b' } ks.tail ms.tail a free
      else
        nextCode s = .ok (frontL ms, { s with buf := b', dev := s.dev.emit (.delayMs s.printDelay) }) ∧
          WF cfg L { s with buf := b', dev := s.dev.emit (.delayMs s.printDelay) } ks ms.tail a free := by
  obtain ⟨b', hb⟩ := nextCode_buf h.buf h.kc h.mb
  refine ⟨b', ?_⟩
  by_cases he : frontL ms = 0xA0
  · rw [if_pos he] at hb ⊢
    exact ⟨hb.1, h.withBuf hb.2 ⟨fun c hc => h.codes.1 c (List.mem_of_mem_tail hc),
      fun c hc => h.codes.2 c (List.mem_of_mem_tail hc)⟩⟩
  · rw [if_neg he] at hb ⊢
    exact ⟨hb.1, (h.withDevMods s.mods (h.dev.emit _)).withBuf hb.2 ⟨h.codes.1,
      fun c hc => h.codes.2 c (List.mem_of_mem_tail hc)⟩⟩

/-- What the output part of one main-loop pass adds to the trace. -/
def outTrace (delay : UInt16) (ks ms : List Code) : List Event :=
  if frontL ms = 0xA0 then
    if (frontL ks).toNat < 0xA0 then [.send (frontL ks)] else []
  else .delayMs delay :: if (frontL ms).toNat < 0xA0 then [.send (frontL ms)] else []

theorem emit_append (d : Dev) (e : Event) : d.emit e = { d with trace := d.trace ++ [e] } := rfl

theorem lt_invalid {code : Code} : code < INVALID_CODE ↔ code.toNat < 0xA0 := by
  rw [UInt8.lt_iff_toNat_lt]; rfl

theorem callOutput_ok {cfg : Config} {L : Layout} (hcf : CfgFacts cfg L) {s : State}
    {ks ms : List Code} {a : Outputs} {free : List Nat} (h : WF cfg L s ks ms a free) (c : Code) :
    callOutput s c = .ok (s.emit (.send c)) := by
  obtain ⟨_, hk3, _⟩ := hooksOk_facts (hcf.parts h.idx).2.2.2
  rw [← h.hooks] at hk3
  have hk3' : s.hooks[HOOK_OUTPUT]? = some .archSendCode := hk3
  unfold callOutput hookGet
  rw [if_pos (hookValid_iff.mpr (by decide)), rd_some hk3', ok_bind]

theorem WF.withDev {cfg L s ks ms a free} (h : WF cfg L s ks ms a free) {d : Dev} {a' free'}
    (hd : DevRel d a' free') : WF cfg L { s with dev := d } ks ms a' free' :=
  h.withDevMods s.mods hd

/-- The output part of one main-loop pass. -/
theorem outputPhase_ok {cfg : Config} {L : Layout} (hcf : CfgFacts cfg L) {s : State}
    {ks ms : List Code} {a : Outputs} {free : List Nat} (h : WF cfg L s ks ms a free) :
    ∃ b', outputPhase s = .ok { s with
        buf := b',
        dev := { s.dev with trace := s.dev.trace ++ outTrace s.printDelay ks ms } } ∧
      WF cfg L { s with
        buf := b',
        dev := { s.dev with trace := s.dev.trace ++ outTrace s.printDelay ks ms } }
        (if frontL ms = 0xA0 then ks.tail else ks) ms.tail a free := by
  obtain ⟨b', hb⟩ := nextCode_ok h
  refine ⟨b', ?_⟩
  unfold outputPhase outTrace
  by_cases he : frontL ms = 0xA0
  · rw [if_pos he] at hb
    obtain ⟨e1, e2⟩ := hb
    rw [e1, ok_bind, if_pos he, if_pos he]
    by_cases hl : frontL ks < INVALID_CODE
    · have hl' := lt_invalid.mp hl
      rw [if_pos hl']
      simp only [if_pos hl]
      exact ⟨callOutput_ok hcf e2 _, e2.withDev (e2.dev.emit (.send (frontL ks)))⟩
    · have hl' : ¬ (frontL ks).toNat < 0xA0 := fun hc => hl (lt_invalid.mpr hc)
      rw [if_neg hl']
      simp only [if_neg hl, List.append_nil]
      exact ⟨trivial, e2⟩
  · rw [if_neg he] at hb
    obtain ⟨e1, e2⟩ := hb
    rw [e1, ok_bind, if_neg he, if_neg he]
    by_cases hl : frontL ms < INVALID_CODE
    · have hl' := lt_invalid.mp hl
      rw [if_pos hl']
      simp only [if_pos hl]
      have e3 := e2.withDev (e2.dev.emit (.send (frontL ms)))
      have e4 := callOutput_ok hcf e2 (frontL ms)
      have : s.dev.trace ++ [.delayMs s.printDelay, .send (frontL ms)] =
        s.dev.trace ++ [.delayMs s.printDelay] ++ [.send (frontL ms)] := by simp
      rw [this]
      exact ⟨e4, e3⟩
    · have hl' : ¬ (frontL ms).toNat < 0xA0 := fun hc => hl (lt_invalid.mpr hc)
      rw [if_neg hl']
      simp only [if_neg hl]
      exact ⟨rfl, e2⟩

/-- One main-loop pass. -/
theorem tick_ok {cfg : Config} {L : Layout} (hcf : CfgFacts cfg L) {inp : Input}
    (hin : Allowed L inp) {s : State} (h : Inv cfg L s) :
    ∃ s', tick cfg s inp = .ok s' ∧ Inv cfg L s' ∧
      ∀ r c, c < 8 → debOf s' r c =
        if r < L.rows ∧ c < L.cols then (debOf s r c).step (sample inp r c) else debOf s r c := by
  obtain ⟨ks, ms, a, free, hw⟩ := h
  obtain ⟨b', e1, e2⟩ := outputPhase_ok hcf hw
  obtain ⟨s', g1, g2, g3⟩ := keyscan_ok hcf hin (s := _) ⟨_, _, _, _, e2⟩
  refine ⟨s', ?_, g2, ?_⟩
  · unfold tick; rw [e1, ok_bind, g1]
  · intro r c hc; rw [g3 r c hc]; rfl

/-- Many main-loop passes. -/
theorem run_ok {cfg : Config} {L : Layout} (hcf : CfgFacts cfg L) (inps : List Input)
    (hin : ∀ inp ∈ inps, Allowed L inp) {s : State} (h : Inv cfg L s) :
    ∃ s', run cfg s inps = .ok s' ∧ Inv cfg L s' ∧
      ∀ r c, r < L.rows → c < L.cols → debOf s' r c =
        (inps.map (fun inp => sample inp r c)).foldl Deb.step (debOf s r c) := by
  induction inps generalizing s with
  | nil => exact ⟨s, rfl, h, fun _ _ _ _ => rfl⟩
  | cons inp inps ih =>
    obtain ⟨s1, e1, e2, e3⟩ := tick_ok hcf (hin inp (by simp)) h
    obtain ⟨s2, g1, g2, g3⟩ := ih (fun i hi => hin i (by simp [hi])) e2
    refine ⟨s2, ?_, g2, ?_⟩
    · unfold run; rw [List.foldlM_cons, e1, ok_bind]; exact g1
    · intro r c hr hc
      rw [g3 r c hr hc, e3 r c (Nat.lt_of_lt_of_le hc hcf.cols8), if_pos ⟨hr, hc⟩]
      rfl

theorem run_append (cfg : Config) (s : State) (i1 i2 : List Input) :
    run cfg s (i1 ++ i2) = (run cfg s i1 >>= fun s => run cfg s i2) := by
  unfold run; rw [List.foldlM_append]

theorem run_cons (cfg : Config) (s : State) (i : Input) (is : List Input) :
    run cfg s (i :: is) = (tick cfg s i >>= fun s => run cfg s is) := by
  unfold run; rw [List.foldlM_cons]

/-! ## Buffers of an initialised keyboard -/

theorem runBuf_append (b : BufState) (o1 o2 : List BufOp) :
    runBuf b (o1 ++ o2) = (runBuf b o1 >>= fun r => runBuf r.1 o2 >>= fun r' =>
      .ok (r'.1, r.2 ++ r'.2)) := by
  induction o1 generalizing b with
  | nil =>
    simp only [List.nil_append, runBuf, ok_bind]
    cases runBuf b o2 <;> rfl
  | cons op o1 ih =>
    simp only [List.cons_append, runBuf]
    cases callBuf b op with
    | error e => rfl
    | ok r =>
      simp only [ok_bind, ih]
      cases runBuf r.1 o1 with
      | error e => rfl
      | ok r1 =>
        simp only [ok_bind]
        cases runBuf r1.1 o2 <;> rfl

theorem twoQ_step (ks ms : List Code) (op : BufOp) (h : op.isPutGet = true) :
    ∃ ks' ms', (step (twoQ ks ms) op).1 = twoQ ks' ms' := by
  have hc : ∀ hd : Int, isHandle (twoQ ks ms) hd → hd.toNat = 0 ∨ hd.toNat = 1 := by
    intro hd hh
    unfold isHandle at hh
    simp [twoQ] at hh
    omega
  cases op with
  | init => cases h
  | new _ => cases h
  | put hd c =>
    show ∃ ks' ms', (if isHandle (twoQ ks ms) hd then _ else _ : Queues × BufOut).1 = _
    by_cases hh : isHandle (twoQ ks ms) hd
    · rw [if_pos hh]
      rcases hc hd hh with h0 | h0
      · exact ⟨putL 16 ks c, ms, by simp [h0, twoQ, Queue.put_putL]⟩
      · exact ⟨ks, putL 128 ms c, by simp [h0, twoQ, Queue.put_putL]⟩
    · rw [if_neg hh]; exact ⟨ks, ms, rfl⟩
  | get hd =>
    show ∃ ks' ms', (if isHandle (twoQ ks ms) hd then _ else _ : Queues × BufOut).1 = _
    by_cases hh : isHandle (twoQ ks ms) hd
    · rw [if_pos hh]
      rcases hc hd hh with h0 | h0
      · exact ⟨ks.tail, ms, by simp [h0, twoQ, Queue.pop]⟩
      · exact ⟨ks, ms.tail, by simp [h0, twoQ, Queue.pop]⟩
    · rw [if_neg hh]; exact ⟨ks, ms, rfl⟩

theorem twoQ_run (ops : List BufOp) (ks ms : List Code) (h : ∀ op ∈ ops, op.isPutGet = true) :
    ∃ ks' ms', (runSpec (twoQ ks ms) ops).1 = twoQ ks' ms' := by
  induction ops generalizing ks ms with
  | nil => exact ⟨ks, ms, rfl⟩
  | cons op ops ih =>
    obtain ⟨k1, m1, e1⟩ := twoQ_step ks ms op (h op (by simp))
    obtain ⟨k2, m2, e2⟩ := ih k1 m1 (fun o ho => h o (by simp [ho]))
    refine ⟨k2, m2, ?_⟩
    show (runSpec (step (twoQ ks ms) op).1 ops).1 = _
    rw [e1, e2]

theorem Spec.BuffersReady.rel {s : State} (h : BuffersReady s) :
    BufRel s.buf (twoQ (keystrokes s) (messages s)) := by
  obtain ⟨h1, h2, ops, outs, h3, h4⟩ := h
  obtain ⟨b, e1, e2⟩ := runBuf_refines ([.init, .new 16, .new 128] ++ ops) (by
    intro op hop
    rw [List.mem_append] at hop
    rcases hop with hop | hop
    · have : ∀ op ∈ ([.init, .new 16, .new 128] : List BufOp), op.sane = true := by decide
      exact this op hop
    · have := h3 op hop
      cases op <;> first | rfl | cases this) BufRel.zero
  rw [e1] at h4
  cases h4
  obtain ⟨ks, ms, e3⟩ := twoQ_run ops [] [] h3
  have e4 : (runSpec [] ([.init, .new 16, .new 128] ++ ops)).1 = (runSpec (twoQ [] []) ops).1 := rfl
  rw [e4, e3] at e2
  have hk : keystrokes s = ks := by
    unfold keystrokes; rw [h1]
    exact pending_rel e2 (i := 0) (by simp [twoQ])
  have hm : messages s = ms := by
    unfold messages; rw [h2]
    exact pending_rel e2 (i := 1) (by simp [twoQ])
  rw [hk, hm]; exact e2

/-- Reading the two streams off a state. -/
theorem streams_of {s : State} {ks ms : List Code} (hb : BufRel s.buf (twoQ ks ms))
    (hk : s.kcBuf = 0) (hm : s.msgBuf = 1) : keystrokes s = ks ∧ messages s = ms := by
  unfold keystrokes messages
  rw [hk, hm]
  exact ⟨pending_rel hb (i := 0) (by simp [twoQ]), pending_rel hb (i := 1) (by simp [twoQ])⟩

/-! ## Power-up -/

/-- The state after power-up. -/
theorem boot_ok {cfg : Config} (h0 : cfg.valid 0 = true) :
    ∃ d free b, boot cfg = .ok
      { buf := b
        rep := ⟨525, 525, 525⟩
        mods := ⟨0, capsOf 0 (cfg.setup 0), 0⟩
        dev := d
        hooks := hooksOf (cfg.setup 0)
        maps := mapsOf (cfg.setup 0)
        curIdx := 0
        stable := List.replicate 16 0
        counters := List.replicate 16 (List.replicate 8 10)
        lastKey := 0xA0
        kcBuf := 0
        msgBuf := 1
        printDelay := delayOf 0 (cfg.setup 0) } ∧
      DevRel d (outsOf 0 (cfg.setup 0)).2 free ∧ BufRel b (twoQ [] []) := by
  obtain ⟨d, free, e1, e2⟩ := keymapsSwitch_ok (cfg := cfg) (i := 0) h0
    (s := { State.zero with
      lastKey := INVALID_CODE, buf := bufInit BufState.zero, rep := repInit RepState.zero }) rfl
  obtain ⟨b1, f1, f2, _⟩ := BufRel.zero.init.new 16
  obtain ⟨b2, g1, g2, _⟩ := f2.new 128
  have t1 : fits ([] : Queues) 16 := by decide
  rw [if_pos t1] at f1 g1 g2
  have t2 : fits (([] : Queues) ++ [⟨16, []⟩]) 128 := by decide
  rw [if_pos t2] at g1 g2
  refine ⟨d, free, b2, ?_, e2, g2⟩
  unfold boot asdfInit keymapsInit
  show (keymapsSwitch cfg { State.zero with
      lastKey := INVALID_CODE, buf := bufInit BufState.zero, rep := repInit RepState.zero } 0
      >>= _) = _
  rw [e1, ok_bind]
  show (bufNew (bufInit BufState.zero) ((16 : Nat) : Int) >>= _) = _
  rw [f1, ok_bind]
  show (bufNew b1 ((128 : Nat) : Int) >>= _) = _
  rw [g1, ok_bind]
  rfl

theorem replicate_get {α} (n : Nat) (x : α) (i : Nat) {y : α}
    (h : (List.replicate n x)[i]? = some y) : y = x := by
  rw [List.getElem?_replicate] at h
  split at h
  · simpa using h.symm
  · cases h

theorem boot_inv {cfg : Config} {L : Layout} (hcf : CfgFacts cfg L) :
    ∃ s a free, boot cfg = .ok s ∧ WF cfg L s [] [] a free ∧
      ∀ r c, r < 16 → c < 8 → debOf s r c = Deb.init := by
  obtain ⟨d, free, b, e1, e2, e3⟩ := boot_ok (cfg := cfg) (hcf.parts hcf.zero).2.1
  have hst : ∀ r c : Nat, bitOf (((List.replicate 16 (0 : UInt8))[r]?).getD 0) c = false := by
    intro r c
    rw [List.getElem?_replicate]
    split <;> exact bitOf_zero c
  refine ⟨_, _, free, e1, ⟨e3, rfl, rfl, e2, hcf.zero, rfl, rfl, by simp, by simp, ?_, ?_, ?_, ?_, ?_,
    ⟨by simp, by simp⟩⟩,
    ?_⟩
  · intro r row hrow
    rw [replicate_get _ _ _ hrow]; simp
  · intro r row c x hrow hx
    rw [replicate_get _ _ _ hrow] at hx
    rw [replicate_get _ _ _ hx]; decide
  · exact RepInv.init RepState.zero
  · show (0xA0 : UInt8).toNat ≤ 0xA0
    decide
  · intro r c _ _ _; exact hst r c
  · intro r c hr hc
    unfold debOf Deb.init accepted counter
    simp only [hst]
    rw [List.getElem?_replicate, if_pos hr]
    show Deb.mk false (((List.replicate 8 (10 : UInt8))[c]?).getD 0).toNat = _
    rw [List.getElem?_replicate, if_pos hc]
    rfl

theorem Spec.Reachable.inv {cfg : Config} {L : Layout} (hcf : CfgFacts cfg L) {s : State}
    (h : Reachable cfg L s) : Inv cfg L s := by
  obtain ⟨s0, inps, h1, h2, h3⟩ := h
  obtain ⟨s, a, free, e1, e2, _⟩ := boot_inv hcf
  rw [e1] at h1
  cases h1
  obtain ⟨s', g1, g2, _⟩ := run_ok hcf inps h2 ⟨_, _, _, _, e2⟩
  rw [g1] at h3
  cases h3
  exact g2

theorem Spec.Reachable.tick {cfg : Config} {L : Layout} {s s' : State} (h : Reachable cfg L s)
    {inp : Input} (hin : Allowed L inp) (ht : Asdf.tick cfg s inp = .ok s') :
    Reachable cfg L s' := by
  obtain ⟨s0, inps, h1, h2, h3⟩ := h
  refine ⟨s0, inps ++ [inp], h1, ?_, ?_⟩
  · intro i hi
    rw [List.mem_append] at hi
    rcases hi with hi | hi
    · exact h2 i hi
    · simp at hi; rw [hi]; exact hin
  · rw [run_append, h3, ok_bind, run_cons, ht, ok_bind]; rfl

end Asdf
