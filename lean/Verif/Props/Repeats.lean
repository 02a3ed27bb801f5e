import Verif.Lemmas.Repeats
import Verif.Props.AnyBoard
import Verif.Spec.SpotDeeds

/-! # Property C107: a key that is held repeats exactly so often at the computer -/

namespace Asdf.Props

open Spec Avr Pcb Typist Loose Movers Repeats

theorem start_free {d : UInt8} (hd : Setting d) : Free (d &&& 3) (Session.start d) := by
  obtain ⟨h1, h2, h3⟩ := start_fine hd
  refine ⟨h1, rfl, fun p hp => ⟨h3 p hp, fun h => ?_⟩⟩
  have := (h2 p hp).1
  omega

/-- What is typed, on the abstract keyboard. -/
theorem held_received {d : UInt8} (hd : Setting d) {start : Nat} (hs : 10 ≤ start) {ds : List Deed}
    (hr : ∀ a ∈ ds, a.Right (d &&& 3))
    (hc : Sound (d &&& 3) (dipsOf d) (Session.start d) ((allMoves ds).map (·.key))) (hst : Steady (allMoves ds)) :
    let inps := List.replicate start (closedAt (dipsOf d)) ++ keysRead (dipsOf d) (allMoves ds)
    let q := channel (typed fourMaps openLayout inps) (said fourMaps openLayout inps)
    q.keys = [] ∧ q.msgs = [] ∧ q.host = (deedText (d &&& 3) (Session.start d) ds).map (false, ·) ∧ NeverTrips inps := by
  intro inps q
  have hfree := start_free hd
  obtain ⟨hf, hdips, _⟩ := start_fine hd
  obtain ⟨k1, k2, k3, k4, k5, k6, k7⟩ := setting_start hd _ rfl
  have hset := ten_settled hd
  have hR := reads_closed (l := dipsOf d) fun p hp => (hf.inside p hp).2
  have hcalm : Repeats.Calm (d &&& 3) 525 (Session.start d).hand.mods (tenScans d) := ⟨k1, k3, k4, k2⟩
  -- the scans before the first movement
  have hstay : Stays openLayout (posDown (dipsOf d)) (tenScans d) (List.replicate (start - 10) (closedAt (dipsOf d))) := by
    intro k _ y hy
    obtain ⟨h1, h2⟩ := (mem_keysOf openLayout).mp hy
    rw [List.take_replicate]
    exact stay_down hR hset _ h1 h2
  obtain ⟨o1, o2, o3⟩ := quiet_part (cfg := fourMaps) _ _ hstay (fun y hy hd => by
    rw [hcalm.code, hcalm.last]
    exact (hf.held y hy hd).2 rfl)
  have hset' : Settled openLayout (tenScans d ++ List.replicate (start - 10) (closedAt (dipsOf d))) (posDown (dipsOf d)) :=
    hset.stay hR _
  obtain ⟨us, p1, p2, p3, p4, p5⟩ := deeds_out (s := Session.start d) hfree hr hc hst hset' (hcalm.same o2 o3)
  have hout := o1.append p1
  have e0 : tenScans d ++ (List.replicate (start - 10) (closedAt (dipsOf d)) ++ keysRead (dipsOf d) (allMoves ds)) = inps :=
    (lead_eq hs (allMoves ds)).symm
  have hsd : (Session.start d).down = dipsOf d := rfl
  rw [hsd] at hout
  generalize hws : List.replicate (List.replicate (start - 10) (closedAt (dipsOf d))).length [] ++ us = ws at hout
  have w1 : ∀ u ∈ ws, u.length ≤ 1 := by
    intro u hu
    rw [← hws] at hu
    rcases List.mem_append.mp hu with hu | hu
    · rw [(List.mem_replicate.mp hu).2]; exact Nat.zero_le _
    · exact p2 u hu
  have w2 : ∀ u ∈ ws, ∀ c ∈ u, c.toNat < 0xA0 := by
    intro u hu
    rw [← hws] at hu
    rcases List.mem_append.mp hu with hu | hu
    · rw [(List.mem_replicate.mp hu).2]; exact fun c hc => (List.not_mem_nil hc).elim
    · exact p3 u hu
  have w3 : ws.flatten = deedText (d &&& 3) (Session.start d) ds := by
    rw [← hws, List.flatten_append, List.flatten_replicate_nil, List.nil_append, p4]
  have w4 : ws.getLast?.getD [] = [] := by
    rw [← hws, List.getLast?_append]
    cases e : us.getLast? with
    | none => rw [Option.none_or, List.getLast?_replicate]; split <;> rfl
    | some u => rw [e] at p5; exact p5
  have hl := typed_length fourMaps openLayout (tenScans d)
  have hon := after_onLine fourMaps openLayout (tenScans d)
  obtain ⟨c1, c2, c3⟩ := channel_one (typed fourMaps openLayout (tenScans d)) (said fourMaps openLayout (tenScans d)) ws
    (hl.1.trans hl.2.symm) (by rw [← hon.keys]; exact k5) (by rw [← hon.msgs]; exact k6) w1 w2
  have et : typed fourMaps openLayout inps = typed fourMaps openLayout (tenScans d) ++ ws := by
    rw [← e0]
    unfold typed
    rw [log_append]
    exact congrArg _ hout.typed
  have es : said fourMaps openLayout inps = said fourMaps openLayout (tenScans d) ++ List.replicate ws.length [] := by
    rw [← e0, hout.length]
    unfold said
    rw [log_append]
    exact congrArg _ hout.said
  rw [← et, ← es] at c1 c2 c3
  have c2 := c2.trans w4
  refine ⟨c2, c1, ?_, ?_⟩
  · rw [c2, k7, List.map_nil, List.append_nil, List.nil_append, w3] at c3
    exact c3
  · refine never_of_open fun inp hi => ?_
    rcases List.mem_append.mp hi with hi | hi
    · rw [(List.mem_replicate.mp hi).2]
      exact rest_open hd
    · rw [read_dips (s := Session.start d) hf hc hst inp hi 2 (by decide)]
      exact decide_eq_false fun h => (hdips (8, 2) h).2 rfl

/-- **C107, scan by scan.**  Any matrix, the DIP switches set to one of the keymaps 0 to 3, one key at a time, on
contacts that bounce, with modifiers in between: a key that is read as closed `n` times sends its character
once and again after 525 and then after every 66 of the readings that follow the tenth; the host receives
exactly this, and nothing is left waiting. -/
theorem C107_held (d : UInt8) (hd : Setting d) (start : Nat) (hs : 10 ≤ start) (ds : List Deed)
    (hr : ∀ a ∈ ds, a.Right (d &&& 3))
    (hc : Sound (d &&& 3) (dipsOf d) (Session.start d) ((allMoves ds).map (·.key))) (hst : Steady (allMoves ds)) :
    ∃ s, powerUp shipped (List.replicate start (closedAt (dipsOf d)) ++ keysRead (dipsOf d) (allMoves ds)) = .ok s ∧
      sends s.dev.trace = deedText (d &&& 3) (Session.start d) ds ∧
      hostSees s.dev.trace = (deedText (d &&& 3) (Session.start d) ds).map (false, ·) ∧
      keystrokes s = [] ∧ messages s = [] := by
  obtain ⟨h1, h2, h3, h4⟩ := held_received hd hs hr hc hst
  obtain ⟨s, e1, e2, e3, e4⟩ := C77_shipped _ h4
  refine ⟨s, e1, ?_, e2.trans h3, e3.trans h1, e4.trans h2⟩
  rw [sends_hostSees, e2, show (channel _ _).host = _ from h3, List.map_map]
  exact List.map_id _

/-! ## Keys that move in time -/

theorem fits_keys {times : List (Nat → Nat)} : ∀ {ms : List SpotMove} {vs : List KeyMove}, Fits times ms vs →
    vs.map (·.key) = ms.map (·.key)
  | [], [], _ => rfl
  | _ :: _, _ :: _, h => by rw [List.map_cons, List.map_cons, h.1, fits_keys h.2.2.2]

theorem fits_steps {times : List (Nat → Nat)} {m : SpotMove} {ms : List SpotMove} {v : KeyMove} {vs : List KeyMove}
    (hg : GoodTimes times (m :: ms)) (hf : Fits times (m :: ms) (v :: vs)) :
    scansBefore times m.key.1 m.begins ≤ scansBefore times m.key.1 m.ends ∧
    scansBefore times m.key.1 m.ends ≤ untilMove times ms ∧
    scansBefore times m.key.1 m.begins + v.scans = untilMove times ms := by
  obtain ⟨g1, g2, g3, _⟩ := hg
  obtain ⟨_, f2, f3, _⟩ := hf
  have hAB := scansBefore_mono times m.key.1 g1
  refine ⟨hAB, by omega, ?_⟩
  unfold KeyMove.scans
  omega

theorem readings_length (v : KeyMove) (down : List (Nat × Nat)) : (v.readings down).length = v.scans := by
  simp [KeyMove.readings, KeyMove.scans]

theorem drop_next {times : List (Nat → Nat)} {R : List Input} {m : SpotMove} {ms : List SpotMove} {v : KeyMove}
    {vs : List KeyMove} (hg : GoodTimes times (m :: ms)) (hf : Fits times (m :: ms) (v :: vs)) {down : List (Nat × Nat)}
    (h : R.drop (untilMove times (m :: ms)) = keysRead down (v :: vs)) :
    R.drop (untilMove times ms) = keysRead (toggled down v.key) vs := by
  obtain ⟨_, _, h3⟩ := fits_steps hg hf
  rw [← h3, ← List.drop_drop]
  have h : R.drop (scansBefore times m.key.1 m.begins) = v.readings down ++ keysRead (toggled down v.key) vs := h
  rw [h, ← readings_length v down, List.drop_left]

/-- The deeds in scans that belong to deeds in time. -/
theorem deeds_read {i : UInt8} {dips : List (Nat × Nat)} {times : List (Nat → Nat)} {R : List Input} (ds : List SpotDeed) :
    ∀ (s : Session) (vs : List KeyMove), Free i s → (∀ a ∈ ds, a.Right i) →
      Sound i dips s ((spotMoves ds).map (·.key)) → GoodTimes times (spotMoves ds) → Fits times (spotMoves ds) vs →
      Steady vs → R.drop (untilMove times (spotMoves ds)) = keysRead s.down vs →
      ∃ es : List Deed, allMoves es = vs ∧ (∀ a ∈ es, a.Right i) ∧ deedText i s es = spotText i times R s ds := by
  induction ds with
  | nil =>
    intro s vs _ _ _ _ hf _ _
    cases vs with
    | nil => exact ⟨[], rfl, fun a ha => (List.not_mem_nil ha).elim, rfl⟩
    | cons v vs => exact hf.elim
  | cons a ds ih =>
    intro s vs hF hr hS hg hf hst hR
    have hra := hr a List.mem_cons_self
    have hr' : ∀ b ∈ ds, b.Right i := fun b hb => hr b (List.mem_cons_of_mem _ hb)
    cases a with
    | modifier m =>
      have hm : spotMoves (.modifier m :: ds) = m :: spotMoves ds := rfl
      rw [hm] at hS hg hf hR
      cases vs with
      | nil => exact hf.elim
      | cons v vs =>
        obtain ⟨hM, hS⟩ := hS
        have hkey := hf.1
        have hR' := drop_next hg hf hR
        rw [hkey] at hR'
        obtain ⟨es, e1, e2, e3⟩ := ih (s.move i m.key) vs (hF.modifier hra hM) hr' hS hg.2.2.2 hf.2.2.2
          (fun w hw => hst w (List.mem_cons_of_mem _ hw)) hR'
        refine ⟨.modifier v :: es, ?_, ?_, ?_⟩
        · show v :: allMoves es = _
          rw [e1]
        · intro b hb
          rcases List.mem_cons.mp hb with rfl | hb
          · show IsModKey fourMaps openLayout i v.key.1 v.key.2
            rw [hkey]
            exact hra
          · exact e2 b hb
        · show deedText i (s.move i v.key) es = spotText i times R (s.move i m.key) ds
          rw [hkey, e3]
    | stroke m m' =>
      have hm : spotMoves (.stroke m m' :: ds) = m :: m' :: spotMoves ds := rfl
      rw [hm] at hS hg hf hR
      obtain ⟨hnm, hmm⟩ := hra
      match vs, hf with
      | v :: v' :: vs, hf =>
        obtain ⟨hM, hM', hS⟩ := hS
        dsimp only at hM hM' hS
        rw [hmm] at hM' hS
        have hkey : v.key = m.key := hf.1
        have hkey' : v'.key = m.key := hf.2.2.2.1.trans hmm
        have hst1 := hst v List.mem_cons_self
        have hst2 := hst v' (List.mem_cons_of_mem _ List.mem_cons_self)
        obtain ⟨hz, hback⟩ := hF.stroke hnm hM
        have hR1 := drop_next hg hf hR
        have hR2 := drop_next hg.2.2.2 hf.2.2.2 hR1
        have hdd : toggled (toggled s.down v.key) v'.key = s.down := by
          rw [hkey, hkey']
          exact congrArg Session.down hback
        rw [hdd] at hR2
        obtain ⟨es, e1, e2, e3⟩ := ih s vs hF hr' (by rw [← hback]; exact hS) hg.2.2.2.2.2.2 hf.2.2.2.2.2.2
          (fun w hw => hst w (List.mem_cons_of_mem _ (List.mem_cons_of_mem _ hw))) hR2
        have hf1 := hF.fine.next hM
        have M1 := Movers.one_moves hF.fine (v := ⟨m.key, v.bounce, v.steady⟩) hM hst1.1 hst1.2
        have M2 := Movers.one_moves hf1 (v := ⟨m.key, v'.bounce, v'.steady⟩) hM' hst2.1 hst2.2
        have hv : (⟨m.key, v.bounce, v.steady⟩ : KeyMove) = v := by rw [← hkey]
        have hv' : (⟨m.key, v'.bounce, v'.steady⟩ : KeyMove) = v' := by rw [← hkey']
        obtain ⟨s1, s2, s3⟩ := fits_steps hg hf
        obtain ⟨t1, t2, t3⟩ := fits_steps hg.2.2.2 hf.2.2.2
        have tb := hf.2.2.2.2.1
        rw [show untilMove times (m' :: spotMoves ds) = scansBefore times m'.key.1 m'.begins from rfl] at s2 s3
        rw [hmm] at s2 s3 t1 tb
        have hin : m.key ∈ toggled s.down m.key := (mem_toggled hF.fine.nodup).mpr (.inr ⟨rfl, hz⟩)
        have hcount : closedScans R m.key (scansBefore times m.key.1 m.begins) (scansBefore times m.key.1 m'.ends) =
            v.bounce.count true + v.steady + v'.bounce.count true := by
          have hR0 : R.drop (scansBefore times m.key.1 m.begins) =
              v.readings s.down ++ (v'.readings (toggled s.down m.key) ++ keysRead (toggled (toggled s.down v.key) v'.key) vs) := by
            rw [← hkey]
            rw [hkey]
            exact hR.trans (by rw [← hkey]; rfl)
          unfold closedScans
          rw [hR0, show scansBefore times m.key.1 m'.ends - scansBefore times m.key.1 m.begins =
            (v.readings s.down).length + v'.bounce.length by rw [readings_length]; omega, List.take_length_add_append,
            samples_append, List.count_append]
          have a1 : (samplesOf (v.readings s.down) m.key.1 m.key.2).count true = v.bounce.count true + v.steady := by
            have := M1.moves
            rw [hv, hkey] at this
            rw [this, List.count_append, show posDown (toggled s.down m.key) m.key.1 m.key.2 = true from
              decide_eq_true hin, List.count_replicate_self]
          have a2 : ∀ X, samplesOf ((v'.readings (toggled s.down m.key) ++ X).take v'.bounce.length) m.key.1 m.key.2 = v'.bounce := by
            intro X
            rw [List.take_append_of_le_length (by rw [readings_length]; unfold KeyMove.scans; omega)]
            have := M2.moves
            rw [hv', hkey'] at this
            show ((v'.readings (toggled s.down m.key)).take v'.bounce.length).map _ = _
            rw [List.map_take, show (v'.readings (toggled s.down m.key)).map _ = _ from this, List.take_left]
          rw [a1, a2]
        refine ⟨.stroke ⟨m.key, v.bounce, v.steady, v'.bounce, v'.steady⟩ :: es, ?_, ?_, ?_⟩
        · show KeyStroke.press _ :: KeyStroke.release _ :: allMoves es = _
          rw [e1, show KeyStroke.press ⟨m.key, v.bounce, v.steady, v'.bounce, v'.steady⟩ = v from hv,
            show KeyStroke.release ⟨m.key, v.bounce, v.steady, v'.bounce, v'.steady⟩ = v' from hv']
        · intro b hb
          rcases List.mem_cons.mp hb with rfl | hb
          · exact hnm
          · exact e2 b hb
        · show List.replicate (timesSent _) _ ++ deedText i ((s.move i m.key).move i m.key) es =
            List.replicate (timesSent _) _ ++ spotText i times R ((s.move i m.key).move i m.key) ds
          rw [hcount, hback, e3]
          rfl

/-- What is read are deeds, scan by scan. -/
theorem holding_deeds {lo hi : Nat} {times : List (Nat → Nat)} (hT : InOrder lo hi times) {sw : Nat → Sw → Bool}
    {ps : List Place} (hps : ps ∈ [classicPlaces, solPlaces]) {d : UInt8} {ds : List SpotDeed}
    (hF : SwitchesMove ps (dipsOf d) sw (spotMoves ds)) (hH : Holding ps d times ds) :
    ∃ start es, readingsAt ps sw times = List.replicate start (closedAt (dipsOf d)) ++ keysRead (dipsOf d) (allMoves es) ∧
      10 ≤ start ∧ (∀ a ∈ es, a.Right (d &&& 3)) ∧
      Sound (d &&& 3) (dipsOf d) (Session.start d) ((allMoves es).map (·.key)) ∧ Steady (allMoves es) ∧
      deedText (d &&& 3) (Session.start d) es = spotText (d &&& 3) times (readingsAt ps sw times) (Session.start d) ds := by
  obtain ⟨hf, hd, _⟩ := start_fine hH.setting
  obtain ⟨vs, h1, h2, h0, h3, _, _⟩ := spots_read hT (hands_cols hps) hf.nodup hF hH.there
    (fun z hz => by
      obtain ⟨p, hp, e, _⟩ := hands_dips hps z.2 (hf.inside z hz).2
      refine ⟨p, hp, e.trans ?_⟩
      rw [← (hd z hz).1])
    (spotMoves ds) [] rfl (dipsOf d) rfl hf.nodup (fun m hm => (sound_inside hH.order _ (List.mem_map_of_mem hm)).2)
    hH.timing 0 (fun m hm => (List.not_mem_nil hm).elim) (Nat.zero_le _)
  rw [Nat.sub_zero, List.drop_zero] at h1
  have hdrop : (readingsAt ps sw times).drop (untilMove times (spotMoves ds)) = keysRead (Session.start d).down vs := by
    rw [h1, List.drop_append_of_le_length (by rw [List.length_replicate]; exact Nat.le_refl _), List.drop_of_length_le (by
      rw [List.length_replicate]; exact Nat.le_refl _), List.nil_append]
    rfl
  obtain ⟨es, e1, e2, e3⟩ := deeds_read ds (Session.start d) vs (start_free hH.setting) hH.right hH.order hH.timing h0 h3 hdrop
  subst e1
  exact ⟨_, es, h1, hH.first, e2, by rw [h2]; exact hH.order, h3, e3⟩

theorem holding_received {lo hi : Nat} {times : List (Nat → Nat)} (hT : InOrder lo hi times) {sw : Nat → Sw → Bool}
    {ps : List Place} (hps : ps ∈ [classicPlaces, solPlaces]) {d : UInt8} {ds : List SpotDeed}
    (hF : SwitchesMove ps (dipsOf d) sw (spotMoves ds)) (hH : Holding ps d times ds) :
    (channel (typed fourMaps openLayout (readingsAt ps sw times)) (said fourMaps openLayout (readingsAt ps sw times))).host =
      (spotText (d &&& 3) times (readingsAt ps sw times) (Session.start d) ds).map (false, ·) := by
  obtain ⟨start, es, h1, h2, h3, h4, h5, h6⟩ := holding_deeds hT hps hF hH
  rw [← h6, h1]
  exact (held_received hH.setting h2 h3 h4 h5).2.2.1

/-- **C107, with the movements of the switches in time.**  The switches of a keyboard move as they like between
the looks of the firmware; what the firmware reads is enough to tell how often each character is sent. -/
theorem C107_fingers (lo hi : Nat) (times : List (Nat → Nat)) (hT : InOrder lo hi times) (sw : Nat → Sw → Bool)
    (ps : List Place) (hps : ps ∈ [classicPlaces, solPlaces]) (d : UInt8) (ds : List SpotDeed)
    (hF : SwitchesMove ps (dipsOf d) sw (spotMoves ds)) (hH : Holding ps d times ds) :
    ∃ s, powerUp shipped (readingsAt ps sw times) = .ok s ∧
      sends s.dev.trace = spotText (d &&& 3) times (readingsAt ps sw times) (Session.start d) ds ∧
      keystrokes s = [] ∧ messages s = [] := by
  obtain ⟨start, es, h1, h2, h3, h4, h5, h6⟩ := holding_deeds hT hps hF hH
  obtain ⟨s, e1, e2, _, e4, e5⟩ := C107_held d hH.setting start h2 es h3 h4 h5
  rw [← h1] at e1
  exact ⟨s, e1, e2.trans h6, e4, e5⟩

/-! ## The boards -/

/-- **C107, from the fingers to the computer.**  Each keyboard on the ATmega328P interface, in any electrical
state at power-up, run by the text of the firmware, with the DIP switches set to one of the keymaps 0 to 3: keys
are pressed and released one after the other, on contacts that bounce, and held as long as one likes; the
computer reads the character of each key as often as the number of scans in which it was read as closed
demands. -/
theorem C107_computer_328 (A : Assembly) (ps : List Place) (h : (A, ps) ∈ boards328 classicPlaces solPlaces)
    (sockets : List (Nat × List (Nat × Signal))) (hA : (A, sockets) ∈ plugged328)
    (k : Nat) (lines : List (Nat × Signal)) (hk : (k, lines) ∈ sockets) (pin : Nat)
    (hpin : (pin, .strobe) ∈ lines) (sw : Nat → Sw → Bool) (W : C.Outside) (hS : SwitchWorld ps sw W)
    (d : UInt8) (hd : Setting d) (ds : List SpotDeed) (hF : SwitchesMove ps (dipsOf d) sw (spotMoves ds))
    (ho : Sound (d &&& 3) (dipsOf d) (Session.start d) ((spotMoves ds).map (·.key))) (r0 : Regs) (sr : UInt8)
    (polls w n : Nat) (hw : 65536 ≤ w) (hp : polls < w) (hn : 23 ≤ n) :
    ∃ times hi h log, BetweenLooks C.board328 W w n r0 sr polls times ∧ InOrder 0 hi times ∧
      textRun C.board328 W w n r0 sr polls = some h ∧
      hi ≤ h.time ∧ h.found = times.length ∧ h.found ≤ h.ints ∧
      statesOf h = boardStates m328 r0 [.archInit] ++ log ∧
      (Holding ps d times ds →
        ∀ edge v vs, AtSocket328 A k lines (boardAfter m328 r0 [.archInit]) v →
          Watches (AtSocket328 A k lines) log vs →
          computerReads lines edge v vs = spotText (d &&& 3) times (readingsAt ps sw times) (Session.start d) ds) := by
  have hps := boards328_places h
  have hs := fun t => dips_still hF (fun m hm => sound_rows _ _ ho _ (List.mem_map_of_mem hm)) t
  obtain ⟨times, hi, hh, log, e0, e1, e2, e3, e4, e5, e6, e7⟩ := C90_computer_328 A ps h sockets hA k lines hk pin
    hpin sw W hS (dips_safe hps hd hS hs) _ (dips_dip7 hps hs) r0 sr polls w n hw hp hn
  refine ⟨times, hi, hh, log, e0, e1, e2, e3, e4, e5, e6, ?_⟩
  intro hH edge v vs hv hvs
  rw [e7 edge v vs hv hvs, show (channel _ _).host = _ from holding_received e1 hps hF hH, List.map_map]
  exact List.map_id _

/-- **C107, from the fingers to the computer,** with the ATmega2560. -/
theorem C107_computer_2560 (A : Assembly) (ps : List Place) (h : (A, ps) ∈ boards2560 classicPlaces solPlaces)
    (out : Net → Prop) (hout : ∀ n, out n → Outside A n) (cols : (Sw → Bool) → Regs → UInt8)
    (hcols : ∀ closed r, rowReady2560 r →
      ReadsLevels A.links (column2560 A) closed (fun n => Low2560 A r n ∨ out n) (cols closed r))
    (sockets : List (Nat × List (Nat × Signal))) (hA : (A, sockets) ∈ plugged2560)
    (k : Nat) (lines : List (Nat × Signal)) (hk : (k, lines) ∈ sockets) (pin : Nat)
    (hpin : (pin, .strobe) ∈ lines) :
    ∃ f, (∀ closed r, rowReady2560 r → f (closedKeys ps closed) r = cols closed r) ∧
      ∀ (sw : Nat → Sw → Bool) (W : C.Outside), SwitchWorld ps sw W → ∀ d, Setting d →
      ∀ (ds : List SpotDeed), SwitchesMove ps (dipsOf d) sw (spotMoves ds) →
      Sound (d &&& 3) (dipsOf d) (Session.start d) ((spotMoves ds).map (·.key)) →
      ∀ (r0 : Regs) (sr : UInt8) (polls w n : Nat), 65536 ≤ w → polls < w → 23 ≤ n →
        ∃ times hi h log, BetweenLooks (C.board2560 f) W w n r0 sr polls times ∧ InOrder 0 hi times ∧
          textRun (C.board2560 f) W w n r0 sr polls = some h ∧
          hi ≤ h.time ∧ h.found = times.length ∧ h.found ≤ h.ints ∧
          statesOf h = boardStates m2560 r0 [.archInit] ++ log ∧
          (Holding ps d times ds →
            ∀ edge v vs, AtSocket2560 A k lines (boardAfter m2560 r0 [.archInit]) v →
              Watches (AtSocket2560 A k lines) log vs →
              computerReads lines edge v vs = spotText (d &&& 3) times (readingsAt ps sw times) (Session.start d) ds) := by
  have hps := boards2560_places h
  obtain ⟨f, hf, hrun⟩ := C90_computer_2560 A ps h out hout cols hcols sockets hA k lines hk pin hpin
  refine ⟨f, hf, fun sw W hS d hd ds hF ho r0 sr polls w n hw hp hn => ?_⟩
  have hs := fun t => dips_still hF (fun m hm => sound_rows _ _ ho _ (List.mem_map_of_mem hm)) t
  obtain ⟨times, hi, hh, log, e0, e1, e2, e3, e4, e5, e6, e7⟩ := hrun sw W hS (dips_safe hps hd hS hs) _
    (dips_dip7 hps hs) r0 sr polls w n hw hp hn
  refine ⟨times, hi, hh, log, e0, e1, e2, e3, e4, e5, e6, ?_⟩
  intro hH edge v vs hv hvs
  rw [e7 edge v vs hv hvs, show (channel _ _).host = _ from holding_received e1 hps hF hH, List.map_map]
  exact List.map_id _

/-! ## A case -/

instance (i : UInt8) (a : Deed) : Decidable (a.Right i) := by
  cases a <;> unfold Deed.Right <;> infer_instance

instance (i : UInt8) (a : SpotDeed) : Decidable (a.Right i) := by
  cases a <;> unfold SpotDeed.Right <;> infer_instance

/-- `A` held for seven tenths of a second, CAPS LOCK, `b`, the contacts bouncing for up to 8 milliseconds. -/
def aHeld : List SpotDeed :=
  [.stroke ⟨(1, 6), 11300, 18000⟩ ⟨(1, 6), 718000, 720000⟩,
   .modifier ⟨(0, 0), 745000, 749000⟩, .modifier ⟨(0, 0), 795432, 801000⟩,
   .stroke ⟨(2, 4), 820000, 828000⟩ ⟨(2, 4), 850000, 851000⟩]

theorem aHeld_classic : Holding classicPlaces 0xC2 (everyMs 870) aHeld :=
  ⟨rfl, by decide +kernel, by decide +kernel, by decide +kernel, by decide +kernel, by decide +kernel⟩

theorem aHeld_sol : Holding solPlaces 0xC2 (everyMs 870) aHeld :=
  ⟨rfl, by decide +kernel, by decide +kernel, by decide +kernel, by decide +kernel, by decide +kernel⟩

example : (∀ n, InOrder 0 (1000 * n) (everyMs n)) ∧
    SwitchesMove classicPlaces (dipsOf 0xC2) (switchesFor classicPlaces (dipsOf 0xC2) (spotMoves aHeld)) (spotMoves aHeld) :=
  And.intro everyMs_inOrder (move_switchesFor places_inj _ _)

/-- The key is read as closed more than 10 + 525 + 2 * 66 times: `A` is sent four times. -/
example : spotText (0xC2 &&& 3) (everyMs 870) (readingsAt classicPlaces
      (switchesFor classicPlaces (dipsOf 0xC2) (spotMoves aHeld)) (everyMs 870)) (Session.start 0xC2) aHeld =
    [ch 'A', ch 'A', ch 'A', ch 'A', ch 'b'] := by
  decide +kernel

/-- Scan by scan, with readings that bounce at the press and at the release. -/
def heldDeeds : List Deed :=
  [.stroke ⟨(1, 6), [true, false, true], 531, [false, true, false], 20⟩, .stroke ⟨(1, 6), [true], 534, [], 20⟩,
   .modifier ⟨(0, 0), [true, false], 20⟩, .modifier ⟨(0, 0), [], 20⟩, .stroke ⟨(2, 4), [], 600, [true], 20⟩]

example : Setting 0xC2 ∧ (∀ a ∈ heldDeeds, a.Right (0xC2 &&& 3)) ∧
    Sound (0xC2 &&& 3) (dipsOf 0xC2) (Session.start 0xC2) ((allMoves heldDeeds).map (·.key)) ∧
    Steady (allMoves heldDeeds) ∧
    deedText (0xC2 &&& 3) (Session.start 0xC2) heldDeeds = [ch 'A', ch 'A', ch 'A', ch 'b', ch 'b', ch 'b'] :=
  ⟨rfl, by decide +kernel, by decide +kernel, (by decide +kernel : ∀ v ∈ allMoves heldDeeds, _), by decide +kernel⟩

end Asdf.Props
