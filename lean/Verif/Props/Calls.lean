import Verif.Lemmas.Calls
import Verif.Props.Repeats

/-! # Property C110: function keys among the text, at the computer -/

namespace Asdf.Props

open Spec Avr Pcb Typist Loose Movers Repeats Calls

/-! ## The queues -/

/-- If both queues are empty before these scans, they are empty afterwards, and this was sent. -/
def Clear (us ms : List (List Code)) (out : List (Bool × Code)) : Prop :=
  us.length = ms.length ∧ ∀ ts ns : List (List Code), ts.length = ns.length → (channel ts ns).keys = [] →
    (channel ts ns).msgs = [] →
    (channel (ts ++ us) (ns ++ ms)).keys = [] ∧ (channel (ts ++ us) (ns ++ ms)).msgs = [] ∧
      (channel (ts ++ us) (ns ++ ms)).host = (channel ts ns).host ++ out

theorem clear_nil : Clear [] [] [] :=
  ⟨rfl, fun ts ns _ h1 h2 => by rw [List.append_nil, List.append_nil, List.append_nil]; exact ⟨h1, h2, rfl⟩⟩

theorem clear_append {us us' ms ms' : List (List Code)} {out out' : List (Bool × Code)} (h : Clear us ms out)
    (h' : Clear us' ms' out') : Clear (us ++ us') (ms ++ ms') (out ++ out') := by
  refine ⟨by rw [List.length_append, List.length_append, h.1, h'.1], fun ts ns hl h1 h2 => ?_⟩
  obtain ⟨a1, a2, a3⟩ := h.2 ts ns hl h1 h2
  obtain ⟨b1, b2, b3⟩ := h'.2 (ts ++ us) (ns ++ ms) (by rw [List.length_append, List.length_append, hl, h.1]) a1 a2
  rw [List.append_assoc, List.append_assoc] at b1 b2 b3
  exact ⟨b1, b2, by rw [b3, a3, List.append_assoc]⟩

theorem clear_typed {us : List (List Code)} (h1 : ∀ u ∈ us, u.length ≤ 1) (hlt : ∀ u ∈ us, ∀ c ∈ u, c.toNat < 0xA0)
    (hl : us.getLast?.getD [] = []) : Clear us (List.replicate us.length []) (us.flatten.map (false, ·)) := by
  refine ⟨by rw [List.length_replicate], fun ts ns hn hk hm => ?_⟩
  obtain ⟨c1, c2, c3⟩ := channel_one ts ns us hn hk hm h1 hlt
  have c2 := c2.trans hl
  rw [c2, List.map_nil, List.append_nil] at c3
  exact ⟨c2, c1, c3⟩

theorem clear_quiet (n : Nat) : Clear (List.replicate n []) (List.replicate n []) [] := by
  have := clear_typed (us := List.replicate n []) (fun u hu => by rw [(List.mem_replicate.mp hu).2]; exact Nat.zero_le _)
    (fun u hu c hc => by rw [(List.mem_replicate.mp hu).2] at hc; cases hc)
    (by rw [List.getLast?_replicate]; split <;> rfl)
  rw [List.length_replicate, List.flatten_replicate_nil] at this
  exact this

/-- A message goes out, one character in each scan. -/
theorem drain {q : Line} (hk : q.keys = []) (b : Nat) {ts ns : List (List Code)} (hn : ts.length = ns.length)
    (hq : channel ts ns = q) :
    let r := channel (ts ++ List.replicate b []) (ns ++ List.replicate b [])
    r.keys = [] ∧ r.msgs = q.msgs.drop b ∧ r.host = q.host ++ (q.msgs.take b).map (true, ·) := by
  subst hq
  induction b with
  | zero => simp [hk]
  | succ b ih =>
    dsimp only at ih ⊢
    obtain ⟨i1, i2, i3⟩ := ih
    rw [List.replicate_succ', ← List.append_assoc, ← List.append_assoc, channel_snoc _ _ _ _ (by simp [hn])]
    generalize channel (ts ++ List.replicate b []) (ns ++ List.replicate b []) = r at i1 i2 i3 ⊢
    generalize (channel ts ns) = q at i2 i3 ⊢
    obtain ⟨rk, rm, rh, _, _⟩ := r
    dsimp only at i1 i2 i3
    subst i1
    cases e : q.msgs.drop b with
    | nil =>
      rw [e] at i2
      subst i2
      have hlen : q.msgs.length ≤ b := List.drop_eq_nil_iff.mp e
      simp [Line.send, Line.add, i3, List.take_of_length_le hlen, List.take_of_length_le (Nat.le_succ_of_le hlen),
        List.drop_eq_nil_iff.mpr (Nat.le_succ_of_le hlen)]
    | cons c cs =>
      rw [e] at i2
      subst i2
      have hlen : b < q.msgs.length := by
        have := congrArg List.length e
        rw [List.length_drop, List.length_cons] at this
        omega
      have h1 : q.msgs[b] = c := by
        have := List.drop_eq_getElem_cons hlen
        rw [e] at this
        injection this with this _
        exact this.symm
      have h2 : q.msgs.drop (b + 1) = cs := by
        have := List.drop_eq_getElem_cons hlen
        rw [e] at this
        injection this with _ this
        exact this.symm
      rw [h2, List.take_succ_eq_append_getElem hlen, h1]
      simp [Line.send, Line.add, i3]

theorem clear_call {a b : Nat} {m : List Code} (h1 : m.length ≤ 128) (h2 : m.length ≤ b) :
    Clear (List.replicate (a + 1 + b) []) (List.replicate a [] ++ ([m] ++ List.replicate b [])) (m.map (true, ·)) := by
  have key : Clear ([[]] ++ List.replicate b []) ([m] ++ List.replicate b []) (m.map (true, ·)) := by
    refine ⟨by simp, fun ts ns hn hk hm => ?_⟩
    have e : channel (ts ++ [[]]) (ns ++ [m]) =
        { channel ts ns with msgs := m, lostMsgs := (channel ts ns).lostMsgs, lostKeys := (channel ts ns).lostKeys } := by
      rw [channel_snoc _ _ _ _ hn]
      generalize channel ts ns = q at hk hm ⊢
      obtain ⟨qk, qm, qh, _, _⟩ := q
      dsimp only at hk hm
      subst hk
      subst hm
      simp [Line.send, Line.add, List.take_of_length_le h1, List.drop_eq_nil_iff.mpr h1]
    obtain ⟨d1, d2, d3⟩ := drain (q := channel (ts ++ [[]]) (ns ++ [m])) (by rw [e]; exact hk) b (by simp [hn]) rfl
    rw [List.append_assoc, List.append_assoc] at d1 d2 d3
    refine ⟨d1, ?_, ?_⟩
    · rw [d2, e]
      exact List.drop_eq_nil_iff.mpr h2
    · rw [d3, e]
      show _ ++ (m.take b).map _ = _
      rw [List.take_of_length_le h2]
  have := clear_append (clear_quiet a) key
  rw [← List.append_assoc, show [[]] = List.replicate 1 ([] : List Code) from rfl, List.replicate_append_replicate,
    List.replicate_append_replicate] at this
  exact this

theorem message_short {i : UInt8} (hi : i.toNat < 4) (x : Code) : (messageOf i x).length ≤ 128 := by
  have h : ∀ i < 4, ∀ n < 11, (textOf (UInt8.ofNat i) n).length ≤ 128 := by decide +kernel
  have h' : ∀ n < 11, (textOf i n).length ≤ 128 := by
    intro n hn
    have := h i.toNat hi n hn
    rwa [UInt8.ofNat_toNat] at this
  unfold messageOf
  split
  · exact h' 1 (by decide)
  · split
    · exact h' _ (by omega)
    · exact Nat.zero_le _

/-! ## All acts -/

theorem acts_moves (a : Act) (as : List Act) : actMoves (a :: as) = a.moves ++ actMoves as := rfl

/-- One act: what it types and prints, and the state afterwards. -/
theorem act_step {i : UInt8} (hi : i.toNat < 4) {a : Act} {s : Session} (hF : Free i s) (hal : a.Allowed i s)
    (hst : Steady a.moves) {pre : List Input} (hpre : Settled openLayout pre (posDown s.down))
    (hc : Repeats.Calm i 525 s.hand.mods pre) :
    let rs := keysRead s.down a.moves
    (∃ us ms, Logs fourMaps openLayout pre rs us ms ∧ Clear us ms (actText i s [a])) ∧
    Free i (a.next i s) ∧ Repeats.Calm i 525 (a.next i s).hand.mods (pre ++ rs) ∧
    Settled openLayout (pre ++ rs) (posDown (a.next i s).down) ∧
    ∀ vs, keysRead s.down (a.moves ++ vs) = rs ++ keysRead (a.next i s).down vs := by
  intro rs
  cases a with
  | modifier v =>
    obtain ⟨hmod, hM⟩ := hal
    obtain ⟨hb, hs⟩ := hst v List.mem_cons_self
    obtain ⟨o1, o2, o3⟩ := modifier_part hF.fine hF.last hmod hM (fun p hp => (hF.down p hp).1) hb hs hpre hc
    have hrs : rs = v.readings s.down := List.append_nil _
    rw [hrs]
    have l1 := Logs.of o1
    rw [List.length_replicate] at l1
    exact ⟨⟨_, _, l1, clear_quiet _⟩, hF.modifier hmod hM, o2, o3, fun vs => rfl⟩
  | stroke p =>
    obtain ⟨hmod, hM, hM'⟩ := hal
    obtain ⟨hb, hs⟩ := hst p.press List.mem_cons_self
    obtain ⟨hb', hs'⟩ := hst p.release (List.mem_cons_of_mem _ List.mem_cons_self)
    have hz : p.key ∉ s.down := fun e => hmod ((hF.down _ e).2 hM.1)
    obtain ⟨⟨us1, o1, o2, o3, o4⟩, o5, o6, o7, o8⟩ := stroke_part hF.fine hF.last hmod hz hM hM' hb hs hb' hs' hpre hc
    have hd : toggled (toggled s.down p.key) p.key = s.down := congrArg Session.down o6
    have hrs : rs = p.press.readings s.down ++ p.release.readings (toggled s.down p.key) :=
      congrArg (p.press.readings s.down ++ ·) (List.append_nil _)
    rw [hrs]
    refine ⟨⟨_, _, Logs.of o1, ?_⟩, hF, o7, o8, fun vs => ?_⟩
    · have hc1 := clear_typed o2 (fun u hu c hc => by
        have : c ∈ us1.flatten := List.mem_flatten.mpr ⟨u, hu, hc⟩
        rw [o3] at this
        rw [(List.mem_replicate.mp this).2]
        exact o5) o4
      rw [o3, List.map_replicate] at hc1
      show Clear _ _ (_ ++ [])
      rw [List.append_nil]
      exact hc1
    · show _ ++ (_ ++ keysRead (toggled (toggled s.down p.key) p.key) vs) = _
      rw [hd, List.append_assoc]
      rfl
  | call p =>
    obtain ⟨h1, h2, hz, hcall, hroom⟩ := hal
    obtain ⟨hb, hs⟩ := hst p.press List.mem_cons_self
    obtain ⟨hb', hs'⟩ := hst p.release (List.mem_cons_of_mem _ List.mem_cons_self)
    obtain ⟨⟨a, b, o0, o1⟩, o2, o3, o4⟩ := call_part hF.fine hF.last h1 h2 hz hcall hb hs hb' hs' hpre hc
    have hrs : rs = p.press.readings s.down ++ p.release.readings (toggled s.down p.key) :=
      congrArg (p.press.readings s.down ++ ·) (List.append_nil _)
    rw [hrs]
    refine ⟨⟨_, _, o1, ?_⟩, hF, o3, o4, fun vs => ?_⟩
    · show Clear _ _ (_ ++ [])
      rw [List.append_nil]
      exact clear_call (message_short hi _) (by omega)
    · show _ ++ (_ ++ keysRead (toggled (toggled s.down p.key) p.key) vs) = _
      rw [o2, List.append_assoc]
      rfl

theorem actText_cons (i : UInt8) (s : Session) (a : Act) (as : List Act) :
    actText i s (a :: as) = actText i s [a] ++ actText i (a.next i s) as := by
  cases a with
  | modifier v => rfl
  | stroke p => exact congrArg (· ++ actText i s as) (List.append_nil _).symm
  | call p => exact congrArg (· ++ actText i s as) (List.append_nil _).symm

theorem acts_out {i : UInt8} (hi : i.toNat < 4) {as : List Act} {s : Session} (hF : Free i s)
    (hA : ActsAllowed i s as) (hst : Steady (actMoves as))
    {pre : List Input} (hpre : Settled openLayout pre (posDown s.down)) (hc : Repeats.Calm i 525 s.hand.mods pre) :
    ∃ us ms, Logs fourMaps openLayout pre (keysRead s.down (actMoves as)) us ms ∧ Clear us ms (actText i s as) := by
  induction as generalizing s pre with
  | nil => exact ⟨[], [], ⟨rfl, rfl⟩, clear_nil⟩
  | cons a as ih =>
    obtain ⟨hal, hA⟩ := hA
    have hst' : Steady (actMoves as) := fun v hv => hst v (by rw [acts_moves]; exact List.mem_append_right _ hv)
    obtain ⟨⟨us, ms, o1, o2⟩, o3, o4, o5, o6⟩ := act_step hi hF hal
      (fun v hv => hst v (by rw [acts_moves]; exact List.mem_append_left _ hv)) hpre hc
    obtain ⟨us', ms', i1, i2⟩ := ih o3 hA hst' o5 o4
    rw [acts_moves, o6, actText_cons]
    exact ⟨_, _, o1.append i1, clear_append o2 i2⟩

theorem acts_inside {i : UInt8} {as : List Act} {s : Session} (hA : ActsAllowed i s as) :
    ∀ v ∈ actMoves as, v.key.1 < 8 ∧ v.key.2 < 8 := by
  induction as generalizing s with
  | nil => exact fun v hv => (List.not_mem_nil hv).elim
  | cons a as ih =>
    obtain ⟨hal, hA⟩ := hA
    intro v hv
    rw [acts_moves] at hv
    rcases List.mem_append.mp hv with hv | hv
    · cases a with
      | modifier w =>
        rw [List.mem_singleton.mp hv]
        exact ⟨hal.2.1, hal.2.2.1⟩
      | stroke p =>
        have : v.key = p.key := by
          rcases List.mem_cons.mp hv with rfl | hv
          · rfl
          · rw [List.mem_singleton.mp hv]; rfl
        rw [this]
        exact ⟨hal.2.1.1, hal.2.1.2.1⟩
      | call p =>
        have : v.key = p.key := by
          rcases List.mem_cons.mp hv with rfl | hv
          · rfl
          · rw [List.mem_singleton.mp hv]; rfl
        rw [this]
        exact ⟨hal.1, hal.2.1⟩
    · exact ih hA v hv

theorem keymap_lt (d : UInt8) : (d &&& 3).toNat < 4 := by
  rw [UInt8.toNat_and]
  exact Nat.lt_succ_of_le Nat.and_le_right

/-- What arrives, on the abstract keyboard. -/
theorem calls_received {d : UInt8} (hd : Setting d) {start : Nat} (hs : 10 ≤ start) {as : List Act}
    (hA : ActsAllowed (d &&& 3) (Session.start d) as) (hst : Steady (actMoves as)) :
    let inps := List.replicate start (closedAt (dipsOf d)) ++ keysRead (dipsOf d) (actMoves as)
    let q := channel (typed fourMaps openLayout inps) (said fourMaps openLayout inps)
    q.keys = [] ∧ q.msgs = [] ∧ q.host = actText (d &&& 3) (Session.start d) as ∧ NeverTrips inps := by
  intro inps q
  have hfree := start_free hd
  obtain ⟨hf, hdips, _⟩ := start_fine hd
  obtain ⟨k1, k2, k3, k4, k5, k6, k7⟩ := setting_start hd _ rfl
  have hset := ten_settled hd
  have hR := reads_closed (l := dipsOf d) fun p hp => (hf.inside p hp).2
  have hcalm : Repeats.Calm (d &&& 3) 525 (Session.start d).hand.mods (tenScans d) := ⟨k1, k3, k4, k2⟩
  have hstay : Stays openLayout (posDown (dipsOf d)) (tenScans d) (List.replicate (start - 10) (closedAt (dipsOf d))) := by
    intro k _ y hy
    obtain ⟨h1, h2⟩ := (mem_keysOf openLayout).mp hy
    rw [List.take_replicate]
    exact stay_down hR hset _ h1 h2
  obtain ⟨o1, o2, o3⟩ := quiet_part (cfg := fourMaps) _ _ hstay (fun y hy hd => by
    rw [hcalm.code, hcalm.last]
    exact (hf.held y hy hd).2 rfl)
  have hset' : Settled openLayout (tenScans d ++ List.replicate (start - 10) (closedAt (dipsOf d))) (posDown (dipsOf d)) :=
    hset.stay hR _
  obtain ⟨us, ms, p1, p2⟩ := acts_out (keymap_lt d) (s := Session.start d) hfree hA hst hset' (hcalm.same o2 o3)
  have l1 := Logs.of o1
  simp only [List.length_replicate] at l1
  have hout := l1.append p1
  have e0 : tenScans d ++ (List.replicate (start - 10) (closedAt (dipsOf d)) ++ keysRead (dipsOf d) (actMoves as)) = inps :=
    (lead_eq hs (actMoves as)).symm
  have hsd : (Session.start d).down = dipsOf d := rfl
  rw [hsd] at hout
  have hclear := clear_append (clear_quiet (start - 10)) p2
  rw [List.nil_append] at hclear
  generalize List.replicate (start - 10) [] ++ us = ws at hout hclear
  generalize List.replicate (start - 10) [] ++ ms = ns at hout hclear
  have hl := typed_length fourMaps openLayout (tenScans d)
  have hon := after_onLine fourMaps openLayout (tenScans d)
  obtain ⟨c1, c2, c3⟩ := hclear.2 (typed fourMaps openLayout (tenScans d)) (said fourMaps openLayout (tenScans d))
    (hl.1.trans hl.2.symm) (by rw [← hon.keys]; exact k5) (by rw [← hon.msgs]; exact k6)
  have et : typed fourMaps openLayout inps = typed fourMaps openLayout (tenScans d) ++ ws := by
    rw [← e0]
    unfold typed
    rw [log_append]
    exact congrArg _ hout.typed
  have es : said fourMaps openLayout inps = said fourMaps openLayout (tenScans d) ++ ns := by
    rw [← e0]
    unfold said
    rw [log_append]
    exact congrArg _ hout.said
  rw [← et, ← es] at c1 c2 c3
  refine ⟨c1, c2, ?_, ?_⟩
  · rw [k7, List.nil_append] at c3
    exact c3
  · refine never_of_open fun inp hi => ?_
    rcases List.mem_append.mp hi with hi | hi
    · rw [(List.mem_replicate.mp hi).2]
      exact rest_open hd
    · rw [dips_read hf.nodup (fun p hp => (hf.inside p hp).2) (acts_inside hA) hst inp hi 2 (by decide)]
      exact decide_eq_false fun h => (hdips (8, 2) h).2 rfl

/-- **C110, scan by scan.**  Any matrix, the DIP switches set to one of the keymaps 0 to 3, one key at a time, on
contacts that bounce: text is typed and keys that print messages, switch outputs or mean nothing are pressed in
between.  The host receives exactly the characters of the text, as often as they repeat, and each message once,
complete, where its key was pressed; nothing is left waiting. -/
theorem C110_calls (d : UInt8) (hd : Setting d) (start : Nat) (hs : 10 ≤ start) (as : List Act)
    (hA : ActsAllowed (d &&& 3) (Session.start d) as) (hst : Steady (actMoves as)) :
    ∃ s, powerUp shipped (List.replicate start (closedAt (dipsOf d)) ++ keysRead (dipsOf d) (actMoves as)) = .ok s ∧
      hostSees s.dev.trace = actText (d &&& 3) (Session.start d) as ∧
      sends s.dev.trace = (actText (d &&& 3) (Session.start d) as).map (·.2) ∧
      keystrokes s = [] ∧ messages s = [] := by
  obtain ⟨h1, h2, h3, h4⟩ := calls_received hd hs hA hst
  obtain ⟨s, e1, e2, e3, e4⟩ := C77_shipped _ h4
  have e5 := e2.trans h3
  exact ⟨s, e1, e5, by rw [sends_hostSees, e5], e3.trans h1, e4.trans h2⟩

/-! ## Keys that move in time -/

theorem closed_count {times : List (Nat → Nat)} {R : List Input} {m m' : SpotMove} {ms : List SpotMove}
    {v v' : KeyMove} {vs : List KeyMove} {down : List (Nat × Nat)} (hnd : down.Nodup) (hpl : ∀ p ∈ down, p.2 < 8)
    (h1 : m.key.1 < 8) (h2 : m.key.2 < 8) (hz : m.key ∉ down) (hmm : m'.key = m.key)
    (hst1 : v.bounce.length ≤ 9 ∧ 10 ≤ v.steady) (hst2 : v'.bounce.length ≤ 9 ∧ 10 ≤ v'.steady)
    (hg : GoodTimes times (m :: m' :: ms)) (hf : Fits times (m :: m' :: ms) (v :: v' :: vs))
    (hR : R.drop (untilMove times (m :: m' :: ms)) = keysRead down (v :: v' :: vs)) :
    closedScans R m.key (scansBefore times m.key.1 m.begins) (scansBefore times m.key.1 m'.ends) =
      v.bounce.count true + v.steady + v'.bounce.count true := by
  have hkey : v.key = m.key := hf.1
  have hkey' : v'.key = m.key := hf.2.2.2.1.trans hmm
  have M1 := moves_one hpl hnd (v := ⟨m.key, v.bounce, v.steady⟩) h1 h2 hst1.1 hst1.2
  have M2 := moves_one (toggled_cols hnd hpl h2) (toggled_nodup hnd m.key) (v := ⟨m.key, v'.bounce, v'.steady⟩)
    h1 h2 hst2.1 hst2.2
  have hv : (⟨m.key, v.bounce, v.steady⟩ : KeyMove) = v := by rw [← hkey]
  have hv' : (⟨m.key, v'.bounce, v'.steady⟩ : KeyMove) = v' := by rw [← hkey']
  obtain ⟨s1, s2, s3⟩ := fits_steps hg hf
  obtain ⟨t1, t2, t3⟩ := fits_steps hg.2.2.2 hf.2.2.2
  have tb := hf.2.2.2.2.1
  rw [show untilMove times (m' :: ms) = scansBefore times m'.key.1 m'.begins from rfl] at s2 s3
  rw [hmm] at s2 s3 t1 tb
  have hin : m.key ∈ toggled down m.key := (mem_toggled hnd).mpr (.inr ⟨rfl, hz⟩)
  have hR0 : R.drop (scansBefore times m.key.1 m.begins) =
      v.readings down ++ (v'.readings (toggled down m.key) ++ keysRead (toggled (toggled down v.key) v'.key) vs) :=
    hR.trans (by rw [← hkey]; rfl)
  unfold closedScans
  rw [hR0, show scansBefore times m.key.1 m'.ends - scansBefore times m.key.1 m.begins =
    (v.readings down).length + v'.bounce.length by rw [readings_length]; omega, List.take_length_add_append,
    samples_append, List.count_append]
  have a1 : (samplesOf (v.readings down) m.key.1 m.key.2).count true = v.bounce.count true + v.steady := by
    have := M1.moves
    rw [hv, hkey] at this
    rw [this, List.count_append, show posDown (toggled down m.key) m.key.1 m.key.2 = true from
      decide_eq_true hin, List.count_replicate_self]
  have a2 : ∀ X, samplesOf ((v'.readings (toggled down m.key) ++ X).take v'.bounce.length) m.key.1 m.key.2 = v'.bounce := by
    intro X
    rw [List.take_append_of_le_length (by rw [readings_length]; unfold KeyMove.scans; omega)]
    have := M2.moves
    rw [hv', hkey'] at this
    show ((v'.readings (toggled down m.key)).take v'.bounce.length).map _ = _
    rw [List.map_take, show (v'.readings (toggled down m.key)).map _ = _ from this, List.take_left]
  rw [a1, a2]

/-- The number of scans after the press of a key. -/
theorem room_left {times : List (Nat → Nat)} {m m' : SpotMove} {ms : List SpotMove} {v v' : KeyMove} {vs : List KeyMove}
    (hg : GoodTimes times (m :: m' :: ms)) (hf : Fits times (m :: m' :: ms) (v :: v' :: vs)) :
    scansBefore times m.key.1 m.ends + (v.steady + v'.bounce.length + v'.steady) = untilMove times ms := by
  obtain ⟨s1, s2, s3⟩ := fits_steps hg hf
  obtain ⟨t1, t2, t3⟩ := fits_steps hg.2.2.2 hf.2.2.2
  obtain ⟨_, f2, _, _⟩ := hf
  rw [show untilMove times (m' :: ms) = scansBefore times m'.key.1 m'.begins from rfl] at s2 s3
  unfold KeyMove.scans at s3 t3
  omega

/-- The acts in scans that belong to acts in time. -/
theorem acts_read {i : UInt8} {times : List (Nat → Nat)} {R : List Input} (as : List SpotAct) :
    ∀ (s : Session) (vs : List KeyMove), Free i s → SpotActsAllowed i times s as → GoodTimes times (spotActMoves as) →
      Fits times (spotActMoves as) vs → Steady vs → R.drop (untilMove times (spotActMoves as)) = keysRead s.down vs →
      ∃ es : List Act, actMoves es = vs ∧ ActsAllowed i s es ∧ actText i s es = spotActText i times R s as := by
  induction as with
  | nil =>
    intro s vs _ _ _ hf _ _
    cases vs with
    | nil => exact ⟨[], rfl, trivial, rfl⟩
    | cons v vs => exact hf.elim
  | cons a as ih =>
    intro s vs hF hA hg hf hst hR
    have hpl := fun p hp => (hF.fine.inside p hp).2
    cases a with
    | modifier m =>
      have hm : spotActMoves (.modifier m :: as) = m :: spotActMoves as := rfl
      rw [hm] at hg hf hR
      obtain ⟨hmod, hM, hA⟩ := hA
      cases vs with
      | nil => exact hf.elim
      | cons v vs =>
        have hkey := hf.1
        have hR' := drop_next hg hf hR
        rw [hkey] at hR'
        obtain ⟨es, e1, e2, e3⟩ := ih (s.move i m.key) vs (hF.modifier hmod hM) hA hg.2.2.2 hf.2.2.2
          (fun w hw => hst w (List.mem_cons_of_mem _ hw)) hR'
        refine ⟨.modifier v :: es, ?_, ⟨?_, ?_⟩, ?_⟩
        · show v :: actMoves es = _
          rw [e1]
        · show IsModKey fourMaps openLayout i v.key.1 v.key.2 ∧ MayToggle i s v.key
          rw [hkey]
          exact ⟨hmod, hM⟩
        · show ActsAllowed i (s.move i v.key) es
          rw [hkey]
          exact e2
        · show actText i (s.move i v.key) es = spotActText i times R (s.move i m.key) as
          rw [hkey, e3]
    | stroke m m' =>
      have hm : spotActMoves (.stroke m m' :: as) = m :: m' :: spotActMoves as := rfl
      rw [hm] at hg hf hR
      obtain ⟨hmm, hnm, hM, hM', hA⟩ := hA
      match vs, hf with
      | v :: v' :: vs, hf =>
        have hkey : v.key = m.key := hf.1
        have hkey' : v'.key = m.key := hf.2.2.2.1.trans hmm
        have hst1 := hst v List.mem_cons_self
        have hst2 := hst v' (List.mem_cons_of_mem _ List.mem_cons_self)
        obtain ⟨hz, hback⟩ := hF.stroke hnm hM
        have hR2 := drop_next hg.2.2.2 hf.2.2.2 (drop_next hg hf hR)
        have hdd : toggled (toggled s.down v.key) v'.key = s.down := by
          rw [hkey, hkey']
          exact congrArg Session.down hback
        rw [hdd] at hR2
        obtain ⟨es, e1, e2, e3⟩ := ih s vs hF hA hg.2.2.2.2.2.2 hf.2.2.2.2.2.2
          (fun w hw => hst w (List.mem_cons_of_mem _ (List.mem_cons_of_mem _ hw))) hR2
        have hcount := closed_count hF.fine.nodup hpl hM.1 hM.2.1 hz hmm hst1 hst2 hg hf hR
        refine ⟨.stroke ⟨m.key, v.bounce, v.steady, v'.bounce, v'.steady⟩ :: es, ?_, ⟨⟨hnm, hM, hM'⟩, e2⟩, ?_⟩
        · show KeyStroke.press _ :: KeyStroke.release _ :: actMoves es = _
          rw [e1, show KeyStroke.press ⟨m.key, v.bounce, v.steady, v'.bounce, v'.steady⟩ = v from (by rw [← hkey]; rfl),
            show KeyStroke.release ⟨m.key, v.bounce, v.steady, v'.bounce, v'.steady⟩ = v' from (by rw [← hkey']; rfl)]
        · show List.replicate (timesSent _) _ ++ actText i s es = List.replicate (timesSent _) _ ++ spotActText i times R s as
          rw [hcount, e3]
          rfl
    | call m m' =>
      have hm : spotActMoves (.call m m' :: as) = m :: m' :: spotActMoves as := rfl
      rw [hm] at hg hf hR
      obtain ⟨hmm, h1, h2, hz, hcall, hroom, hA⟩ := hA
      match vs, hf with
      | v :: v' :: vs, hf =>
        have hkey : v.key = m.key := hf.1
        have hkey' : v'.key = m.key := hf.2.2.2.1.trans hmm
        have hR2 := drop_next hg.2.2.2 hf.2.2.2 (drop_next hg hf hR)
        have hdd : toggled (toggled s.down v.key) v'.key = s.down := by
          rw [hkey, hkey']
          unfold toggled
          rw [if_neg hz, if_pos List.mem_cons_self, List.erase_cons_head]
        rw [hdd] at hR2
        obtain ⟨es, e1, e2, e3⟩ := ih s vs hF hA hg.2.2.2.2.2.2 hf.2.2.2.2.2.2
          (fun w hw => hst w (List.mem_cons_of_mem _ (List.mem_cons_of_mem _ hw))) hR2
        have hleft := room_left hg hf
        refine ⟨.call ⟨m.key, v.bounce, v.steady, v'.bounce, v'.steady⟩ :: es, ?_, ⟨⟨h1, h2, hz, hcall, ?_⟩, e2⟩, ?_⟩
        · show KeyStroke.press _ :: KeyStroke.release _ :: actMoves es = _
          rw [e1, show KeyStroke.press ⟨m.key, v.bounce, v.steady, v'.bounce, v'.steady⟩ = v from (by rw [← hkey]; rfl),
            show KeyStroke.release ⟨m.key, v.bounce, v.steady, v'.bounce, v'.steady⟩ = v' from (by rw [← hkey']; rfl)]
        · dsimp only
          omega
        · show _ ++ actText i s es = _ ++ spotActText i times R s as
          rw [e3]

theorem spot_acts_inside {i : UInt8} {times : List (Nat → Nat)} {as : List SpotAct} :
    ∀ {s : Session}, SpotActsAllowed i times s as → ∀ m ∈ spotActMoves as, m.key.1 < 8 ∧ m.key.2 < 8 := by
  induction as with
  | nil => exact fun _ m hm => (List.not_mem_nil hm).elim
  | cons a as ih =>
    intro s hA m hm
    cases a with
    | modifier n =>
      obtain ⟨_, hM, hA⟩ := hA
      rcases List.mem_cons.mp hm with rfl | hm
      · exact ⟨hM.1, hM.2.1⟩
      · exact ih hA m hm
    | stroke n n' =>
      obtain ⟨hmm, _, hM, _, hA⟩ := hA
      rcases List.mem_cons.mp hm with rfl | hm
      · exact ⟨hM.1, hM.2.1⟩
      · rcases List.mem_cons.mp hm with rfl | hm
        · rw [hmm]
          exact ⟨hM.1, hM.2.1⟩
        · exact ih hA m hm
    | call n n' =>
      obtain ⟨hmm, h1, h2, _, _, _, hA⟩ := hA
      rcases List.mem_cons.mp hm with rfl | hm
      · exact ⟨h1, h2⟩
      · rcases List.mem_cons.mp hm with rfl | hm
        · rw [hmm]
          exact ⟨h1, h2⟩
        · exact ih hA m hm

/-- What is read are acts, scan by scan. -/
theorem calling_acts {lo hi : Nat} {times : List (Nat → Nat)} (hT : InOrder lo hi times) {sw : Nat → Sw → Bool}
    {ps : List Place} (hps : ps ∈ [classicPlaces, solPlaces]) {d : UInt8} {as : List SpotAct}
    (hF : SwitchesMove ps (dipsOf d) sw (spotActMoves as)) (hH : Calling ps d times as) :
    ∃ start es, readingsAt ps sw times = List.replicate start (closedAt (dipsOf d)) ++ keysRead (dipsOf d) (actMoves es) ∧
      10 ≤ start ∧ ActsAllowed (d &&& 3) (Session.start d) es ∧ Steady (actMoves es) ∧
      actText (d &&& 3) (Session.start d) es =
        spotActText (d &&& 3) times (readingsAt ps sw times) (Session.start d) as := by
  obtain ⟨hf, hd, _⟩ := start_fine hH.setting
  obtain ⟨vs, h1, h2, h0, h3, _, _⟩ := spots_read hT (hands_cols hps) hf.nodup hF hH.there
    (fun z hz => by
      obtain ⟨p, hp, e, _⟩ := hands_dips hps z.2 (hf.inside z hz).2
      refine ⟨p, hp, e.trans ?_⟩
      rw [← (hd z hz).1])
    (spotActMoves as) [] rfl (dipsOf d) rfl hf.nodup (fun m hm => (spot_acts_inside hH.order m hm).2)
    hH.timing 0 (fun m hm => (List.not_mem_nil hm).elim) (Nat.zero_le _)
  rw [Nat.sub_zero, List.drop_zero] at h1
  have hdrop : (readingsAt ps sw times).drop (untilMove times (spotActMoves as)) = keysRead (Session.start d).down vs := by
    rw [h1, List.drop_append_of_le_length (by rw [List.length_replicate]; exact Nat.le_refl _), List.drop_of_length_le (by
      rw [List.length_replicate]; exact Nat.le_refl _), List.nil_append]
    rfl
  obtain ⟨es, e1, e2, e3⟩ := acts_read as (Session.start d) vs (start_free hH.setting) hH.order hH.timing h0 h3 hdrop
  subst e1
  exact ⟨_, es, h1, hH.first, e2, h3, e3⟩

theorem calling_received {lo hi : Nat} {times : List (Nat → Nat)} (hT : InOrder lo hi times) {sw : Nat → Sw → Bool}
    {ps : List Place} (hps : ps ∈ [classicPlaces, solPlaces]) {d : UInt8} {as : List SpotAct}
    (hF : SwitchesMove ps (dipsOf d) sw (spotActMoves as)) (hH : Calling ps d times as) :
    (channel (typed fourMaps openLayout (readingsAt ps sw times)) (said fourMaps openLayout (readingsAt ps sw times))).host =
      spotActText (d &&& 3) times (readingsAt ps sw times) (Session.start d) as := by
  obtain ⟨start, es, h1, h2, h3, h4, h5⟩ := calling_acts hT hps hF hH
  rw [← h5, h1]
  exact (calls_received hH.setting h2 h3 h4).2.2.1

/-- **C110, with the movements of the switches in time.** -/
theorem C110_fingers (lo hi : Nat) (times : List (Nat → Nat)) (hT : InOrder lo hi times) (sw : Nat → Sw → Bool)
    (ps : List Place) (hps : ps ∈ [classicPlaces, solPlaces]) (d : UInt8) (as : List SpotAct)
    (hF : SwitchesMove ps (dipsOf d) sw (spotActMoves as)) (hH : Calling ps d times as) :
    ∃ s, powerUp shipped (readingsAt ps sw times) = .ok s ∧
      hostSees s.dev.trace = spotActText (d &&& 3) times (readingsAt ps sw times) (Session.start d) as ∧
      keystrokes s = [] ∧ messages s = [] := by
  obtain ⟨start, es, h1, h2, h3, h4, h5⟩ := calling_acts hT hps hF hH
  obtain ⟨s, e1, e2, _, e4, e5⟩ := C110_calls d hH.setting start h2 es h3 h4
  rw [← h1] at e1
  exact ⟨s, e1, e2.trans h5, e4, e5⟩

/-! ## The boards -/

/-- **C110, from the fingers to the computer.**  Each keyboard on the ATmega328P interface, in any electrical state
at power-up, run by the text of the firmware, with the DIP switches set to one of the keymaps 0 to 3: the
computer reads the text that is typed and, in between, each message whose key is pressed. -/
theorem C110_computer_328 (A : Assembly) (ps : List Place) (h : (A, ps) ∈ boards328 classicPlaces solPlaces)
    (sockets : List (Nat × List (Nat × Signal))) (hA : (A, sockets) ∈ plugged328)
    (k : Nat) (lines : List (Nat × Signal)) (hk : (k, lines) ∈ sockets) (pin : Nat)
    (hpin : (pin, .strobe) ∈ lines) (sw : Nat → Sw → Bool) (W : C.Outside) (hS : SwitchWorld ps sw W)
    (d : UInt8) (hd : Setting d) (as : List SpotAct) (hF : SwitchesMove ps (dipsOf d) sw (spotActMoves as))
    (ho : ∀ m ∈ spotActMoves as, m.key.1 < 8) (r0 : Regs) (sr : UInt8)
    (polls w n : Nat) (hw : 65536 ≤ w) (hp : polls < w) (hn : 23 ≤ n) :
    ∃ times hi h log, BetweenLooks C.board328 W w n r0 sr polls times ∧ InOrder 0 hi times ∧
      textRun C.board328 W w n r0 sr polls = some h ∧
      hi ≤ h.time ∧ h.found = times.length ∧ h.found ≤ h.ints ∧
      statesOf h = boardStates m328 r0 [.archInit] ++ log ∧
      (Calling ps d times as →
        ∀ edge v vs, AtSocket328 A k lines (boardAfter m328 r0 [.archInit]) v →
          Watches (AtSocket328 A k lines) log vs →
          computerReads lines edge v vs =
            (spotActText (d &&& 3) times (readingsAt ps sw times) (Session.start d) as).map (·.2)) := by
  have hps := boards328_places h
  have hs := fun t => dips_still hF ho t
  obtain ⟨times, hi, hh, log, e0, e1, e2, e3, e4, e5, e6, e7⟩ := C90_computer_328 A ps h sockets hA k lines hk pin
    hpin sw W hS (dips_safe hps hd hS hs) _ (dips_dip7 hps hs) r0 sr polls w n hw hp hn
  refine ⟨times, hi, hh, log, e0, e1, e2, e3, e4, e5, e6, ?_⟩
  intro hH edge v vs hv hvs
  rw [e7 edge v vs hv hvs, show (channel _ _).host = _ from calling_received e1 hps hF hH]

/-- **C110, from the fingers to the computer,** with the ATmega2560. -/
theorem C110_computer_2560 (A : Assembly) (ps : List Place) (h : (A, ps) ∈ boards2560 classicPlaces solPlaces)
    (out : Net → Prop) (hout : ∀ n, out n → Outside A n) (cols : (Sw → Bool) → Regs → UInt8)
    (hcols : ∀ closed r, rowReady2560 r →
      ReadsLevels A.links (column2560 A) closed (fun n => Low2560 A r n ∨ out n) (cols closed r))
    (sockets : List (Nat × List (Nat × Signal))) (hA : (A, sockets) ∈ plugged2560)
    (k : Nat) (lines : List (Nat × Signal)) (hk : (k, lines) ∈ sockets) (pin : Nat)
    (hpin : (pin, .strobe) ∈ lines) :
    ∃ f, (∀ closed r, rowReady2560 r → f (closedKeys ps closed) r = cols closed r) ∧
      ∀ (sw : Nat → Sw → Bool) (W : C.Outside), SwitchWorld ps sw W → ∀ d, Setting d →
      ∀ (as : List SpotAct), SwitchesMove ps (dipsOf d) sw (spotActMoves as) →
      (∀ m ∈ spotActMoves as, m.key.1 < 8) →
      ∀ (r0 : Regs) (sr : UInt8) (polls w n : Nat), 65536 ≤ w → polls < w → 23 ≤ n →
        ∃ times hi h log, BetweenLooks (C.board2560 f) W w n r0 sr polls times ∧ InOrder 0 hi times ∧
          textRun (C.board2560 f) W w n r0 sr polls = some h ∧
          hi ≤ h.time ∧ h.found = times.length ∧ h.found ≤ h.ints ∧
          statesOf h = boardStates m2560 r0 [.archInit] ++ log ∧
          (Calling ps d times as →
            ∀ edge v vs, AtSocket2560 A k lines (boardAfter m2560 r0 [.archInit]) v →
              Watches (AtSocket2560 A k lines) log vs →
              computerReads lines edge v vs =
                (spotActText (d &&& 3) times (readingsAt ps sw times) (Session.start d) as).map (·.2)) := by
  have hps := boards2560_places h
  obtain ⟨f, hf, hrun⟩ := C90_computer_2560 A ps h out hout cols hcols sockets hA k lines hk pin hpin
  refine ⟨f, hf, fun sw W hS d hd as hF ho r0 sr polls w n hw hp hn => ?_⟩
  have hs := fun t => dips_still hF ho t
  obtain ⟨times, hi, hh, log, e0, e1, e2, e3, e4, e5, e6, e7⟩ := hrun sw W hS (dips_safe hps hd hS hs) _
    (dips_dip7 hps hs) r0 sr polls w n hw hp hn
  refine ⟨times, hi, hh, log, e0, e1, e2, e3, e4, e5, e6, ?_⟩
  intro hH edge v vs hv hvs
  rw [e7 edge v vs hv hvs, show (channel _ _).host = _ from calling_received e1 hps hF hH]

/-! ## A case -/

instance (i : UInt8) (s : Session) (a : Act) : Decidable (a.Allowed i s) := by
  cases a <;> unfold Act.Allowed <;> infer_instance

def actsAllowedDec (i : UInt8) : ∀ (as : List Act) (s : Session), Decidable (ActsAllowed i s as)
  | [], _ => isTrue trivial
  | _ :: as, _ => @instDecidableAnd _ _ inferInstance (actsAllowedDec i as _)

instance (i : UInt8) (s : Session) (as : List Act) : Decidable (ActsAllowed i s as) := actsAllowedDec i as s

def spotAllowedDec (i : UInt8) (times : List (Nat → Nat)) :
    ∀ (as : List SpotAct) (s : Session), Decidable (SpotActsAllowed i times s as)
  | [], _ => isTrue trivial
  | .modifier m :: as, s => by
    have := spotAllowedDec i times as (s.move i m.key)
    unfold SpotActsAllowed
    infer_instance
  | .stroke m m' :: as, s => by
    have := spotAllowedDec i times as s
    unfold SpotActsAllowed
    infer_instance
  | .call m m' :: as, s => by
    have := spotAllowedDec i times as s
    unfold SpotActsAllowed
    infer_instance

instance (i : UInt8) (times : List (Nat → Nat)) (s : Session) (as : List SpotAct) :
    Decidable (SpotActsAllowed i times s as) := spotAllowedDec i times as s

/-- `A`, CTRL with the key of the message of keymap 2, CTRL with a function key that prints nothing, and `B`; the
contacts bounce for up to 8 milliseconds. -/
def messageCalled : List SpotAct :=
  [.stroke ⟨(1, 6), 11300, 18000⟩ ⟨(1, 6), 40000, 42000⟩,
   .modifier ⟨(0, 6), 60000, 64000⟩,
   .call ⟨(6, 5), 80000, 84000⟩ ⟨(6, 5), 100000, 101000⟩,
   .call ⟨(7, 3), 130000, 133000⟩ ⟨(7, 3), 150000, 152000⟩,
   .modifier ⟨(0, 6), 170000, 173000⟩,
   .stroke ⟨(2, 4), 190000, 198000⟩ ⟨(2, 4), 215000, 216000⟩]

theorem messageCalled_classic : Calling classicPlaces 0xC2 (everyMs 240) messageCalled :=
  ⟨rfl, by decide +kernel, by decide +kernel, by decide +kernel, by decide +kernel⟩

theorem messageCalled_sol : Calling solPlaces 0xC2 (everyMs 240) messageCalled :=
  ⟨rfl, by decide +kernel, by decide +kernel, by decide +kernel, by decide +kernel⟩

example : (∀ n, InOrder 0 (1000 * n) (everyMs n)) ∧ (∀ m ∈ spotActMoves messageCalled, m.key.1 < 8) ∧
    SwitchesMove classicPlaces (dipsOf 0xC2)
      (switchesFor classicPlaces (dipsOf 0xC2) (spotActMoves messageCalled)) (spotActMoves messageCalled) :=
  ⟨everyMs_inOrder, by decide +kernel, move_switchesFor places_inj _ _⟩

/-- The computer reads `A`, the 28 characters of the message, and `B`. -/
example : spotActText (0xC2 &&& 3) (everyMs 240) (readingsAt classicPlaces
      (switchesFor classicPlaces (dipsOf 0xC2) (spotActMoves messageCalled)) (everyMs 240)) (Session.start 0xC2)
      messageCalled =
    [(false, ch 'A')] ++ (textOf 2 10).map (true, ·) ++ [(false, ch 'B')] ∧ (textOf 2 10).length = 28 := by
  decide +kernel

/-- Scan by scan, with the message of 86 characters of keymap 1. -/
def calledActs : List Act :=
  [.stroke ⟨(1, 6), [true, false, true], 30, [false, true, false], 20⟩, .modifier ⟨(0, 6), [true, false], 20⟩,
   .call ⟨(6, 6), [true], 40, [true, false], 54⟩, .modifier ⟨(0, 6), [], 20⟩, .stroke ⟨(1, 6), [], 600, [true], 20⟩]

example : Setting 0x81 ∧ ActsAllowed (0x81 &&& 3) (Session.start 0x81) calledActs ∧ Steady (actMoves calledActs) ∧
    actText (0x81 &&& 3) (Session.start 0x81) calledActs =
      [(false, ch 'A')] ++ (textOf 1 9).map (true, ·) ++ [(false, ch 'A'), (false, ch 'A'), (false, ch 'A')] ∧
    (textOf 1 9).length = 86 :=
  ⟨rfl, by decide +kernel, (by decide +kernel : ∀ v ∈ actMoves calledActs, _), by decide +kernel, by decide +kernel⟩

end Asdf.Props
