import Verif.Lemmas.Swaps
import Verif.Props.Calls

/-! # Property C115: the keymap is changed within the text -/

namespace Asdf.Props

open Spec Avr Pcb Typist Loose Movers Repeats Calls Swaps

theorem deals_moves (e : Deal) (ds : List Deal) : dealMoves (e :: ds) = e.moves ++ dealMoves ds := rfl

theorem act_inside {i : UInt8} {s : Session} {a : Act} (hal : a.Allowed i s) : ∀ v ∈ a.moves, v.key.1 < 8 ∧ v.key.2 < 8 :=
  fun v hv => acts_inside (as := [a]) (s := s) ⟨hal, trivial⟩ v (by
    show v ∈ a.moves ++ []
    rw [List.append_nil]
    exact hv)

/-- Only the keymap switches move among the DIP switches. -/
theorem next_dips {i : UInt8} {s : Session} (hn : s.down.Nodup) {a : Act} (hal : a.Allowed i s) :
    spelled (a.next i s).down = spelled s.down ∧ ∀ c, (8, c) ∈ (a.next i s).down → (8, c) ∈ s.down := by
  cases a with
  | modifier v =>
    refine ⟨spelled_keys hn hal.2.1, fun c hc => ?_⟩
    rcases (mem_toggled hn).mp hc with ⟨_, h⟩ | ⟨e, _⟩
    · exact h
    · have h1 := hal.2.1
      rw [← e] at h1
      exact absurd h1 (Nat.lt_irrefl 8)
  | stroke p => exact ⟨rfl, fun _ h => h⟩
  | call p => exact ⟨rfl, fun _ h => h⟩

theorem deals_out {ds : List Deal} {s : Session} (hF : Free (spelled s.down) s) (h4 : (8, 4) ∉ s.down)
    (hA : DealsAllowed s ds) (hst : Steady (dealMoves ds))
    {pre : List Input} (hpre : Settled openLayout pre (posDown s.down))
    (hc : Repeats.Calm (spelled s.down) 525 s.hand.mods pre) :
    ∃ us ms, Logs fourMaps openLayout pre (keysRead s.down (dealMoves ds)) us ms ∧ Clear us ms (dealText s ds) := by
  induction ds generalizing s pre with
  | nil => exact ⟨[], [], ⟨rfl, rfl⟩, clear_nil⟩
  | cons e ds ih =>
    obtain ⟨hal, hA⟩ := hA
    have hst' : Steady (dealMoves ds) := fun v hv => hst v (by rw [deals_moves]; exact List.mem_append_right _ hv)
    have hst1 : Steady e.moves := fun v hv => hst v (by rw [deals_moves]; exact List.mem_append_left _ hv)
    cases e with
    | act a =>
      obtain ⟨⟨us, ms, o1, o2⟩, o3, o4, o5, o6⟩ := act_step (spelled_lt _) hF hal hst1 hpre hc
      obtain ⟨n1, n2⟩ := next_dips hF.fine.nodup hal
      obtain ⟨us', ms', i1, i2⟩ := ih (s := a.next (spelled s.down) s) (by rw [n1]; exact o3) (fun h => h4 (n2 4 h))
        hA hst' o5 (by rw [n1]; exact o4)
      rw [deals_moves]
      show ∃ us ms, Logs _ _ _ (keysRead s.down (a.moves ++ dealMoves ds)) us ms ∧ _
      rw [o6]
      exact ⟨_, _, o1.append i1, clear_append o2 i2⟩
    | swap v =>
      obtain ⟨hb, hs⟩ := hst1 v List.mem_cons_self
      obtain ⟨o1, o2, o3⟩ := swap_part hF h4 hal hb hs hpre hc
      have h4' : (8, 4) ∉ (s.swap v.key).down := by
        intro h
        rcases (mem_toggled hF.fine.nodup).mp h with ⟨_, h⟩ | ⟨e, _⟩
        · exact h4 h
        · rcases hal.1 with e' | e' <;> rw [e'] at e <;> cases e
      obtain ⟨us', ms', i1, i2⟩ := ih (free_swap hF h4 hal) h4' hA hst' o3 o2
      exact ⟨_, _, o1.append i1, clear_append (clear_quiet _) i2⟩

theorem deals_inside {ds : List Deal} {s : Session} (hA : DealsAllowed s ds) :
    ∀ v ∈ dealMoves ds, (v.key.1 < 8 ∧ v.key.2 < 8) ∨ v.key = (8, 0) ∨ v.key = (8, 1) := by
  induction ds generalizing s with
  | nil => exact fun v hv => (List.not_mem_nil hv).elim
  | cons e ds ih =>
    obtain ⟨hal, hA⟩ := hA
    intro v hv
    rw [deals_moves] at hv
    rcases List.mem_append.mp hv with hv | hv
    · cases e with
      | act a => exact .inl (act_inside hal v hv)
      | swap w =>
        rw [List.mem_singleton.mp hv]
        exact .inr hal.1
    · exact ih hA v hv

theorem start_spelled {d : UInt8} (hd : Setting d) : spelled (Session.start d).down = d &&& 3 ∧
    (8, 4) ∉ (Session.start d).down := by
  have h : ∀ n < 256, UInt8.ofNat n &&& 0x1C = 0 → spelled (dipsOf (UInt8.ofNat n)) = UInt8.ofNat n &&& 3 ∧
      (8, 4) ∉ dipsOf (UInt8.ofNat n) := by decide +kernel
  have := h d.toNat (UInt8.toNat_lt d)
  rw [UInt8.ofNat_toNat] at this
  exact this hd

/-- What arrives, on the abstract keyboard. -/
theorem swaps_received {d : UInt8} (hd : Setting d) {start : Nat} (hs : 10 ≤ start) {ds : List Deal}
    (hA : DealsAllowed (Session.start d) ds) (hst : Steady (dealMoves ds)) :
    let inps := List.replicate start (closedAt (dipsOf d)) ++ keysRead (dipsOf d) (dealMoves ds)
    let q := channel (typed fourMaps openLayout inps) (said fourMaps openLayout inps)
    q.keys = [] ∧ q.msgs = [] ∧ q.host = dealText (Session.start d) ds ∧ NeverTrips inps := by
  intro inps q
  obtain ⟨hsp, h4⟩ := start_spelled hd
  have hfree := start_free hd
  obtain ⟨hf, hdips, _⟩ := start_fine hd
  obtain ⟨k1, k2, k3, k4, k5, k6, k7⟩ := setting_start hd _ rfl
  have hset := ten_settled hd
  have hR := reads_closed (l := dipsOf d) fun p hp => (hf.inside p hp).2
  have hcalm : Repeats.Calm (d &&& 3) 525 (Session.start d).hand.mods (tenScans d) := ⟨k1, k3, k4, k2⟩
  have hstay : Stays openLayout (posDown (dipsOf d)) (tenScans d) (List.replicate (start - 10) (closedAt (dipsOf d))) := by
    intro k _ y hy
    obtain ⟨h1, h2⟩ := (mem_keysOf openLayout).mp hy
    rw [List.take_replicate]
    exact stay_down hR hset _ h1 h2
  obtain ⟨o1, o2, o3⟩ := quiet_part (cfg := fourMaps) _ _ hstay (fun y hy hd => by
    rw [hcalm.code, hcalm.last]
    exact (hf.held y hy hd).2 rfl)
  have hset' : Settled openLayout (tenScans d ++ List.replicate (start - 10) (closedAt (dipsOf d))) (posDown (dipsOf d)) :=
    hset.stay hR _
  obtain ⟨us, ms, p1, p2⟩ := deals_out (s := Session.start d) (by rw [hsp]; exact hfree) h4 hA hst hset'
    (by rw [hsp]; exact hcalm.same o2 o3)
  have l1 := Logs.of o1
  simp only [List.length_replicate] at l1
  have hout := l1.append p1
  have e0 : tenScans d ++ (List.replicate (start - 10) (closedAt (dipsOf d)) ++ keysRead (dipsOf d) (dealMoves ds)) = inps :=
    (lead_eq hs (dealMoves ds)).symm
  have hsd : (Session.start d).down = dipsOf d := rfl
  rw [hsd] at hout
  have hclear := clear_append (clear_quiet (start - 10)) p2
  rw [List.nil_append] at hclear
  generalize List.replicate (start - 10) [] ++ us = ws at hout hclear
  generalize List.replicate (start - 10) [] ++ ms = ns at hout hclear
  have hl := typed_length fourMaps openLayout (tenScans d)
  have hon := after_onLine fourMaps openLayout (tenScans d)
  obtain ⟨c1, c2, c3⟩ := hclear.2 (typed fourMaps openLayout (tenScans d)) (said fourMaps openLayout (tenScans d))
    (hl.1.trans hl.2.symm) (by rw [← hon.keys]; exact k5) (by rw [← hon.msgs]; exact k6)
  have et : typed fourMaps openLayout inps = typed fourMaps openLayout (tenScans d) ++ ws := by
    rw [← e0]
    unfold typed
    rw [log_append]
    exact congrArg _ hout.typed
  have es : said fourMaps openLayout inps = said fourMaps openLayout (tenScans d) ++ ns := by
    rw [← e0]
    unfold said
    rw [log_append]
    exact congrArg _ hout.said
  rw [← et, ← es] at c1 c2 c3
  refine ⟨c1, c2, ?_, ?_⟩
  · rw [k7, List.nil_append] at c3
    exact c3
  · refine never_of_open fun inp hi => ?_
    rcases List.mem_append.mp hi with hi | hi
    · rw [(List.mem_replicate.mp hi).2]
      exact rest_open hd
    · rw [still_read (z := (8, 2)) (by decide) (by decide) hf.nodup (fun p hp => (hf.inside p hp).2) (fun v hv => by
        rcases deals_inside hA v hv with h | h | h
        · exact ⟨fun e => (by rw [e] at h; exact absurd h.1 (by decide)), Nat.lt_succ_of_lt h.1, h.2⟩
        · rw [h]; decide
        · rw [h]; decide) hst inp hi]
      exact decide_eq_false fun h => (hdips (8, 2) h).2 rfl

/-- **C115, scan by scan.**  Any matrix, the DIP switches set to one of the keymaps 0 to 3 at first, one key at a
time, on contacts that bounce: in between, the DIP switches 0 and 1 are moved.  The host receives exactly the text
and the messages of C110, each key in the keymap that the switches spell at that time; moving the switches sends
nothing, and nothing is left waiting. -/
theorem C115_swaps (d : UInt8) (hd : Setting d) (start : Nat) (hs : 10 ≤ start) (ds : List Deal)
    (hA : DealsAllowed (Session.start d) ds) (hst : Steady (dealMoves ds)) :
    ∃ s, powerUp shipped (List.replicate start (closedAt (dipsOf d)) ++ keysRead (dipsOf d) (dealMoves ds)) = .ok s ∧
      hostSees s.dev.trace = dealText (Session.start d) ds ∧
      sends s.dev.trace = (dealText (Session.start d) ds).map (·.2) ∧
      keystrokes s = [] ∧ messages s = [] := by
  obtain ⟨h1, h2, h3, h4⟩ := swaps_received hd hs hA hst
  obtain ⟨s, e1, e2, e3, e4⟩ := C77_shipped _ h4
  have e5 := e2.trans h3
  exact ⟨s, e1, e5, by rw [sends_hostSees, e5], e3.trans h1, e4.trans h2⟩

/-! ## Keys that move in time -/

/-- One act in scans that belongs to an act in time. -/
theorem act_read {i : UInt8} {times : List (Nat → Nat)} {R : List Input} {a : SpotAct} {ms : List SpotMove}
    {s : Session} {vs : List KeyMove} (hF : Free i s) (hA : a.Allowed i times s (untilMove times ms))
    (hg : GoodTimes times (a.moves ++ ms)) (hf : Fits times (a.moves ++ ms) vs) (hst : Steady vs)
    (hR : R.drop (untilMove times (a.moves ++ ms)) = keysRead s.down vs) :
    ∃ e vs', vs = e.moves ++ vs' ∧ e.Allowed i s ∧ actText i s [e] = spotActText i times R s [a] ∧
      e.next i s = a.next i s ∧ GoodTimes times ms ∧ Fits times ms vs' ∧ Steady vs' ∧
      R.drop (untilMove times ms) = keysRead (a.next i s).down vs' := by
  have hpl := fun p hp => (hF.fine.inside p hp).2
  cases a with
  | modifier m =>
    obtain ⟨hmod, hM⟩ := hA
    match vs, hf with
    | v :: vs, hf =>
      have hkey : v.key = m.key := hf.1
      have hR' := drop_next hg hf hR
      rw [hkey] at hR'
      refine ⟨.modifier v, vs, rfl, ?_, rfl, ?_, hg.2.2.2, hf.2.2.2, fun w hw => hst w (List.mem_cons_of_mem _ hw), hR'⟩
      · show IsModKey fourMaps openLayout i v.key.1 v.key.2 ∧ MayToggle i s v.key
        rw [hkey]
        exact ⟨hmod, hM⟩
      · show s.move i v.key = s.move i m.key
        rw [hkey]
  | stroke m m' =>
    obtain ⟨hmm, hnm, hM, hM'⟩ := hA
    match vs, hf with
    | v :: v' :: vs, hf =>
      have hkey : v.key = m.key := hf.1
      have hkey' : v'.key = m.key := hf.2.2.2.1.trans hmm
      have hst1 := hst v List.mem_cons_self
      have hst2 := hst v' (List.mem_cons_of_mem _ List.mem_cons_self)
      obtain ⟨hz, hback⟩ := hF.stroke hnm hM
      have hR2 := drop_next hg.2.2.2 hf.2.2.2 (drop_next hg hf hR)
      have hdd : toggled (toggled s.down v.key) v'.key = s.down := by
        rw [hkey, hkey']
        exact congrArg Session.down hback
      rw [hdd] at hR2
      have hcount := closed_count hF.fine.nodup hpl hM.1 hM.2.1 hz hmm hst1 hst2 hg hf hR
      refine ⟨.stroke ⟨m.key, v.bounce, v.steady, v'.bounce, v'.steady⟩, vs, ?_, ⟨hnm, hM, hM'⟩, ?_, rfl,
        hg.2.2.2.2.2.2, hf.2.2.2.2.2.2, fun w hw => hst w (List.mem_cons_of_mem _ (List.mem_cons_of_mem _ hw)), hR2⟩
      · show v :: v' :: vs = KeyStroke.press _ :: KeyStroke.release _ :: vs
        rw [show KeyStroke.press ⟨m.key, v.bounce, v.steady, v'.bounce, v'.steady⟩ = v from (by rw [← hkey]; rfl),
          show KeyStroke.release ⟨m.key, v.bounce, v.steady, v'.bounce, v'.steady⟩ = v' from (by rw [← hkey']; rfl)]
      · show List.replicate (timesSent _) _ ++ [] = List.replicate (timesSent _) _ ++ []
        rw [hcount]
        rfl
  | call m m' =>
    obtain ⟨hmm, h1, h2, hz, hcall, hroom⟩ := hA
    match vs, hf with
    | v :: v' :: vs, hf =>
      have hkey : v.key = m.key := hf.1
      have hkey' : v'.key = m.key := hf.2.2.2.1.trans hmm
      have hR2 := drop_next hg.2.2.2 hf.2.2.2 (drop_next hg hf hR)
      have hdd : toggled (toggled s.down v.key) v'.key = s.down := by
        rw [hkey, hkey']
        unfold toggled
        rw [if_neg hz, if_pos List.mem_cons_self, List.erase_cons_head]
      rw [hdd] at hR2
      have hleft : scansBefore times m.key.1 m.ends + (v.steady + v'.bounce.length + v'.steady) = untilMove times ms :=
        room_left hg hf
      refine ⟨.call ⟨m.key, v.bounce, v.steady, v'.bounce, v'.steady⟩, vs, ?_, ⟨h1, h2, hz, hcall, ?_⟩, rfl, rfl,
        hg.2.2.2.2.2.2, hf.2.2.2.2.2.2, fun w hw => hst w (List.mem_cons_of_mem _ (List.mem_cons_of_mem _ hw)), hR2⟩
      · show v :: v' :: vs = KeyStroke.press _ :: KeyStroke.release _ :: vs
        rw [show KeyStroke.press ⟨m.key, v.bounce, v.steady, v'.bounce, v'.steady⟩ = v from (by rw [← hkey]; rfl),
          show KeyStroke.release ⟨m.key, v.bounce, v.steady, v'.bounce, v'.steady⟩ = v' from (by rw [← hkey']; rfl)]
      · dsimp only
        omega

theorem deals_read {times : List (Nat → Nat)} {R : List Input} (ds : List SpotDeal) :
    ∀ (s : Session) (vs : List KeyMove), Free (spelled s.down) s → (8, 4) ∉ s.down → SpotDealsAllowed times s ds →
      GoodTimes times (spotDealMoves ds) → Fits times (spotDealMoves ds) vs → Steady vs →
      R.drop (untilMove times (spotDealMoves ds)) = keysRead s.down vs →
      ∃ es : List Deal, dealMoves es = vs ∧ DealsAllowed s es ∧ dealText s es = spotDealText times R s ds := by
  induction ds with
  | nil =>
    intro s vs _ _ _ _ hf _ _
    cases vs with
    | nil => exact ⟨[], rfl, trivial, rfl⟩
    | cons v vs => exact hf.elim
  | cons e ds ih =>
    intro s vs hF h4 hA hg hf hst hR
    obtain ⟨hal, hA⟩ := hA
    cases e with
    | act a =>
      obtain ⟨e, vs', rfl, f1, f2, f3, f4, f5, f6, f7⟩ := act_read hF hal hg hf hst hR
      obtain ⟨n1, n2⟩ := next_dips hF.fine.nodup f1
      have hF' : Free (spelled s.down) (e.next (spelled s.down) s) := by
        cases e with
        | modifier v => exact hF.modifier f1.1 f1.2
        | stroke p => exact hF
        | call p => exact hF
      rw [← f3] at f7
      obtain ⟨es, g1, g2, g3⟩ := ih (e.next (spelled s.down) s) vs' (by rw [n1]; exact hF') (fun h => h4 (n2 4 h))
        (by rw [f3]; exact hA) f4 f5 f6 f7
      refine ⟨.act e :: es, by rw [deals_moves, g1]; rfl, ⟨f1, g2⟩, ?_⟩
      show _ ++ dealText (e.next (spelled s.down) s) es = spotActText (spelled s.down) times R s [a] ++
        spotDealText times R (a.next (spelled s.down) s) ds
      rw [g3, f3, ← f2]
      rfl
    | swap m =>
      match vs, hf with
      | v :: vs, hf =>
        have hkey : v.key = m.key := hf.1
        have hR' := drop_next hg hf hR
        rw [hkey] at hR'
        have h4' : (8, 4) ∉ (s.swap m.key).down := by
          intro h
          rcases (mem_toggled hF.fine.nodup).mp h with ⟨_, h⟩ | ⟨e, _⟩
          · exact h4 h
          · rcases hal.1 with e' | e' <;> rw [e'] at e <;> cases e
        obtain ⟨es, g1, g2, g3⟩ := ih (s.swap m.key) vs (free_swap hF h4 hal) h4' hA hg.2.2.2 hf.2.2.2
          (fun w hw => hst w (List.mem_cons_of_mem _ hw)) hR'
        refine ⟨.swap v :: es, by rw [deals_moves, g1]; rfl, ⟨?_, ?_⟩, ?_⟩
        · show MaySwap s v.key
          rw [hkey]
          exact hal
        · show DealsAllowed (s.swap v.key) es
          rw [hkey]
          exact g2
        · show [] ++ dealText (s.swap v.key) es = [] ++ spotDealText times R (s.swap m.key) ds
          rw [hkey, g3]

theorem spot_act_inside {i : UInt8} {times : List (Nat → Nat)} {s : Session} {next : Nat} {a : SpotAct}
    (hA : a.Allowed i times s next) : ∀ m ∈ a.moves, m.key.1 < 8 ∧ m.key.2 < 8 := by
  intro m hm
  cases a with
  | modifier n =>
    rw [List.mem_singleton.mp hm]
    exact ⟨hA.2.1, hA.2.2.1⟩
  | stroke n n' =>
    obtain ⟨hmm, _, hM, _⟩ := hA
    rcases List.mem_cons.mp hm with rfl | hm
    · exact ⟨hM.1, hM.2.1⟩
    · rw [List.mem_singleton.mp hm, hmm]
      exact ⟨hM.1, hM.2.1⟩
  | call n n' =>
    obtain ⟨hmm, h1, h2, _⟩ := hA
    rcases List.mem_cons.mp hm with rfl | hm
    · exact ⟨h1, h2⟩
    · rw [List.mem_singleton.mp hm, hmm]
      exact ⟨h1, h2⟩

theorem spot_deals_inside {times : List (Nat → Nat)} {ds : List SpotDeal} :
    ∀ {s : Session}, SpotDealsAllowed times s ds →
      ∀ m ∈ spotDealMoves ds, (m.key.1 < 8 ∧ m.key.2 < 8) ∨ m.key = (8, 0) ∨ m.key = (8, 1) := by
  induction ds with
  | nil => exact fun _ m hm => (List.not_mem_nil hm).elim
  | cons e ds ih =>
    intro s hA m hm
    obtain ⟨hal, hA⟩ := hA
    rcases List.mem_append.mp (show m ∈ e.moves ++ spotDealMoves ds from hm) with hm | hm
    · cases e with
      | act a => exact .inl (spot_act_inside hal m hm)
      | swap n =>
        rw [List.mem_singleton.mp hm]
        exact .inr hal.1
    · exact ih hA m hm

/-- What is read are acts and movements of the switches, scan by scan. -/
theorem swapping_deals {lo hi : Nat} {times : List (Nat → Nat)} (hT : InOrder lo hi times) {sw : Nat → Sw → Bool}
    {ps : List Place} (hps : ps ∈ [classicPlaces, solPlaces]) {d : UInt8} {ds : List SpotDeal}
    (hF : SwitchesMove ps (dipsOf d) sw (spotDealMoves ds)) (hH : Swapping ps d times ds) :
    ∃ start es, readingsAt ps sw times = List.replicate start (closedAt (dipsOf d)) ++ keysRead (dipsOf d) (dealMoves es) ∧
      10 ≤ start ∧ DealsAllowed (Session.start d) es ∧ Steady (dealMoves es) ∧
      dealText (Session.start d) es = spotDealText times (readingsAt ps sw times) (Session.start d) ds := by
  obtain ⟨hsp, h4⟩ := start_spelled hH.setting
  obtain ⟨hf, hd, _⟩ := start_fine hH.setting
  obtain ⟨vs, h1, h2, h0, h3, _, _⟩ := spots_read hT (hands_cols hps) hf.nodup hF hH.there
    (fun z hz => by
      obtain ⟨p, hp, e, _⟩ := hands_dips hps z.2 (hf.inside z hz).2
      refine ⟨p, hp, e.trans ?_⟩
      rw [← (hd z hz).1])
    (spotDealMoves ds) [] rfl (dipsOf d) rfl hf.nodup (fun m hm => by
      rcases spot_deals_inside hH.order m hm with h | h | h
      · exact h.2
      · rw [h]; decide
      · rw [h]; decide)
    hH.timing 0 (fun m hm => (List.not_mem_nil hm).elim) (Nat.zero_le _)
  rw [Nat.sub_zero, List.drop_zero] at h1
  have hdrop : (readingsAt ps sw times).drop (untilMove times (spotDealMoves ds)) = keysRead (Session.start d).down vs := by
    rw [h1, List.drop_append_of_le_length (by rw [List.length_replicate]; exact Nat.le_refl _), List.drop_of_length_le (by
      rw [List.length_replicate]; exact Nat.le_refl _), List.nil_append]
    rfl
  obtain ⟨es, e1, e2, e3⟩ := deals_read ds (Session.start d) vs (by rw [hsp]; exact start_free hH.setting) h4 hH.order
    hH.timing h0 h3 hdrop
  subst e1
  exact ⟨_, es, h1, hH.first, e2, h3, e3⟩

theorem swapping_received {lo hi : Nat} {times : List (Nat → Nat)} (hT : InOrder lo hi times) {sw : Nat → Sw → Bool}
    {ps : List Place} (hps : ps ∈ [classicPlaces, solPlaces]) {d : UInt8} {ds : List SpotDeal}
    (hF : SwitchesMove ps (dipsOf d) sw (spotDealMoves ds)) (hH : Swapping ps d times ds) :
    (channel (typed fourMaps openLayout (readingsAt ps sw times)) (said fourMaps openLayout (readingsAt ps sw times))).host =
      spotDealText times (readingsAt ps sw times) (Session.start d) ds := by
  obtain ⟨start, es, h1, h2, h3, h4, h5⟩ := swapping_deals hT hps hF hH
  rw [← h5, h1]
  exact (swaps_received hH.setting h2 h3 h4).2.2.1

/-- **C115, with the movements of the switches in time.** -/
theorem C115_fingers (lo hi : Nat) (times : List (Nat → Nat)) (hT : InOrder lo hi times) (sw : Nat → Sw → Bool)
    (ps : List Place) (hps : ps ∈ [classicPlaces, solPlaces]) (d : UInt8) (ds : List SpotDeal)
    (hF : SwitchesMove ps (dipsOf d) sw (spotDealMoves ds)) (hH : Swapping ps d times ds) :
    ∃ s, powerUp shipped (readingsAt ps sw times) = .ok s ∧
      hostSees s.dev.trace = spotDealText times (readingsAt ps sw times) (Session.start d) ds ∧
      keystrokes s = [] ∧ messages s = [] := by
  obtain ⟨start, es, h1, h2, h3, h4, h5⟩ := swapping_deals hT hps hF hH
  obtain ⟨s, e1, e2, _, e4, e5⟩ := C115_swaps d hH.setting start h2 es h3 h4
  rw [← h1] at e1
  exact ⟨s, e1, e2.trans h5, e4, e5⟩

/-! ## The boards -/

theorem dip_still {sw : Nat → Sw → Bool} {ps : List Place} {d : UInt8} {ms : List SpotMove}
    (hF : SwitchesMove ps (dipsOf d) sw ms) (ho : OnlyKeymap ms) (t : Nat) :
    ∀ p ∈ ps, p.row = 8 → 2 ≤ p.col → sw t p.sw = decide (spotOf p ∈ dipsOf d) := by
  intro p hp h8 h2
  have hno : ∀ m ∈ ms, m.key ≠ spotOf p := fun m hm e => by
    have h1 := ho m hm
    rw [e] at h1
    rcases h1 with h1 | h1 | h1
    · have h1 : p.row < 8 := h1
      omega
    · have : p.col = 0 := congrArg Prod.snd h1
      omega
    · have : p.col = 1 := congrArg Prod.snd h1
      omega
  rw [hF t p hp fun m hm e => absurd e (hno m hm), List.countP_eq_zero.mpr fun m hm => by
    simp only [decide_eq_true_eq]
    exact fun h => hno m hm h.1]
  exact Bool.xor_false _

/-- A world in which only these DIP switches move is safe. -/
theorem swap_safe {sw : Nat → Sw → Bool} {ps : List Place} (hps : ps ∈ [classicPlaces, solPlaces]) {d : UInt8}
    (hs : Setting d) {W : C.Outside} (hS : SwitchWorld ps sw W)
    (hd : ∀ t, ∀ p ∈ ps, p.row = 8 → 2 ≤ p.col → sw t p.sw = decide (spotOf p ∈ dipsOf d)) : SafeWorld W := by
  have key : ∀ t, bitOf (W.keys t 8) 2 = false := by
    intro t
    rw [hS t]
    cases e : bitOf (closedKeys ps (sw t) 8) 2
    · rfl
    · obtain ⟨p, hp, h1, h2, h3⟩ := (closedKeys_bit (hands_cols hps) (sw t) 8 2 (by decide)).mp e
      rw [hd t p hp h3 (by omega)] at h2
      have h2 := of_decide_eq_true h2
      unfold spotOf at h2
      rw [h1, h3] at h2
      exact absurd rfl ((start_fine hs).2.1 (8, 2) h2).2
  intro hi mxs hx
  refine never_of_open fun inp hi => ?_
  obtain ⟨mx, hm, rfl⟩ := List.mem_map.mp hi
  exact sampled_reads key hx mx hm

theorem swap_dip7 {sw : Nat → Sw → Bool} {ps : List Place} (hps : ps ∈ [classicPlaces, solPlaces]) {d : UInt8}
    (hd : ∀ t, ∀ p ∈ ps, p.row = 8 → 2 ≤ p.col → sw t p.sw = decide (spotOf p ∈ dipsOf d)) (t : Nat) :
    sw t (.dip 7) = decide ((8, 6) ∈ dipsOf d) := by
  obtain ⟨p, hp, e, h⟩ := hands_dips hps 6 (by omega)
  have h6 : p.col = 6 := congrArg Prod.snd e
  have := hd t p hp (congrArg Prod.fst e) (by omega)
  rwa [e, h] at this

/-- **C115, from the fingers to the computer.**  Each keyboard on the ATmega328P interface, in any electrical state
at power-up, run by the text of the firmware, with the DIP switches set to one of the keymaps 0 to 3 at first: while
the keymap is changed in between, the computer reads the text that is typed and each message whose key is pressed. -/
theorem C115_computer_328 (A : Assembly) (ps : List Place) (h : (A, ps) ∈ boards328 classicPlaces solPlaces)
    (sockets : List (Nat × List (Nat × Signal))) (hA : (A, sockets) ∈ plugged328)
    (k : Nat) (lines : List (Nat × Signal)) (hk : (k, lines) ∈ sockets) (pin : Nat)
    (hpin : (pin, .strobe) ∈ lines) (sw : Nat → Sw → Bool) (W : C.Outside) (hS : SwitchWorld ps sw W)
    (d : UInt8) (hd : Setting d) (ds : List SpotDeal) (hF : SwitchesMove ps (dipsOf d) sw (spotDealMoves ds))
    (ho : OnlyKeymap (spotDealMoves ds)) (r0 : Regs) (sr : UInt8)
    (polls w n : Nat) (hw : 65536 ≤ w) (hp : polls < w) (hn : 23 ≤ n) :
    ∃ times hi h log, BetweenLooks C.board328 W w n r0 sr polls times ∧ InOrder 0 hi times ∧
      textRun C.board328 W w n r0 sr polls = some h ∧
      hi ≤ h.time ∧ h.found = times.length ∧ h.found ≤ h.ints ∧
      statesOf h = boardStates m328 r0 [.archInit] ++ log ∧
      (Swapping ps d times ds →
        ∀ edge v vs, AtSocket328 A k lines (boardAfter m328 r0 [.archInit]) v →
          Watches (AtSocket328 A k lines) log vs →
          computerReads lines edge v vs =
            (spotDealText times (readingsAt ps sw times) (Session.start d) ds).map (·.2)) := by
  have hps := boards328_places h
  have hs := fun t => dip_still hF ho t
  obtain ⟨times, hi, hh, log, e0, e1, e2, e3, e4, e5, e6, e7⟩ := C90_computer_328 A ps h sockets hA k lines hk pin
    hpin sw W hS (swap_safe hps hd hS hs) _ (swap_dip7 hps hs) r0 sr polls w n hw hp hn
  refine ⟨times, hi, hh, log, e0, e1, e2, e3, e4, e5, e6, ?_⟩
  intro hH edge v vs hv hvs
  rw [e7 edge v vs hv hvs, show (channel _ _).host = _ from swapping_received e1 hps hF hH]

/-- **C115, from the fingers to the computer,** with the ATmega2560. -/
theorem C115_computer_2560 (A : Assembly) (ps : List Place) (h : (A, ps) ∈ boards2560 classicPlaces solPlaces)
    (out : Net → Prop) (hout : ∀ n, out n → Outside A n) (cols : (Sw → Bool) → Regs → UInt8)
    (hcols : ∀ closed r, rowReady2560 r →
      ReadsLevels A.links (column2560 A) closed (fun n => Low2560 A r n ∨ out n) (cols closed r))
    (sockets : List (Nat × List (Nat × Signal))) (hA : (A, sockets) ∈ plugged2560)
    (k : Nat) (lines : List (Nat × Signal)) (hk : (k, lines) ∈ sockets) (pin : Nat)
    (hpin : (pin, .strobe) ∈ lines) :
    ∃ f, (∀ closed r, rowReady2560 r → f (closedKeys ps closed) r = cols closed r) ∧
      ∀ (sw : Nat → Sw → Bool) (W : C.Outside), SwitchWorld ps sw W → ∀ d, Setting d →
      ∀ (ds : List SpotDeal), SwitchesMove ps (dipsOf d) sw (spotDealMoves ds) →
      OnlyKeymap (spotDealMoves ds) →
      ∀ (r0 : Regs) (sr : UInt8) (polls w n : Nat), 65536 ≤ w → polls < w → 23 ≤ n →
        ∃ times hi h log, BetweenLooks (C.board2560 f) W w n r0 sr polls times ∧ InOrder 0 hi times ∧
          textRun (C.board2560 f) W w n r0 sr polls = some h ∧
          hi ≤ h.time ∧ h.found = times.length ∧ h.found ≤ h.ints ∧
          statesOf h = boardStates m2560 r0 [.archInit] ++ log ∧
          (Swapping ps d times ds →
            ∀ edge v vs, AtSocket2560 A k lines (boardAfter m2560 r0 [.archInit]) v →
              Watches (AtSocket2560 A k lines) log vs →
              computerReads lines edge v vs =
                (spotDealText times (readingsAt ps sw times) (Session.start d) ds).map (·.2)) := by
  have hps := boards2560_places h
  obtain ⟨f, hf, hrun⟩ := C90_computer_2560 A ps h out hout cols hcols sockets hA k lines hk pin hpin
  refine ⟨f, hf, fun sw W hS d hd ds hF ho r0 sr polls w n hw hp hn => ?_⟩
  have hs := fun t => dip_still hF ho t
  obtain ⟨times, hi, hh, log, e0, e1, e2, e3, e4, e5, e6, e7⟩ := hrun sw W hS (swap_safe hps hd hS hs) _
    (swap_dip7 hps hs) r0 sr polls w n hw hp hn
  refine ⟨times, hi, hh, log, e0, e1, e2, e3, e4, e5, e6, ?_⟩
  intro hH edge v vs hv hvs
  rw [e7 edge v vs hv hvs, show (channel _ _).host = _ from swapping_received e1 hps hF hH]

/-! ## A case -/

instance (s : Session) (z : Nat × Nat) : Decidable (MaySwap s z) := by
  unfold MaySwap
  infer_instance

instance (s : Session) (e : Deal) : Decidable (e.Allowed s) := by
  cases e <;> unfold Deal.Allowed <;> infer_instance

def dealsAllowedDec : ∀ (ds : List Deal) (s : Session), Decidable (DealsAllowed s ds)
  | [], _ => isTrue trivial
  | _ :: ds, _ => @instDecidableAnd _ _ inferInstance (dealsAllowedDec ds _)

instance (s : Session) (ds : List Deal) : Decidable (DealsAllowed s ds) := dealsAllowedDec ds s

instance (i : UInt8) (times : List (Nat → Nat)) (s : Session) (next : Nat) (a : SpotAct) :
    Decidable (a.Allowed i times s next) := by
  cases a <;> unfold SpotAct.Allowed <;> infer_instance

instance (times : List (Nat → Nat)) (s : Session) (next : Nat) (e : SpotDeal) :
    Decidable (e.Allowed times s next) := by
  cases e <;> unfold SpotDeal.Allowed <;> infer_instance

def spotDealsDec (times : List (Nat → Nat)) : ∀ (ds : List SpotDeal) (s : Session), Decidable (SpotDealsAllowed times s ds)
  | [], _ => isTrue trivial
  | _ :: ds, _ => @instDecidableAnd _ _ inferInstance (spotDealsDec times ds _)

instance (times : List (Nat → Nat)) (s : Session) (ds : List SpotDeal) :
    Decidable (SpotDealsAllowed times s ds) := spotDealsDec times ds s

/-- With keymap 0: `a`.  Keymap 2 is selected, which turns caps lock on: `A`, and CTRL with the key of its message.
Keymap 3 is selected: `A` once more. -/
def keymapsSwapped : List SpotDeal :=
  [.act (.stroke ⟨(1, 6), 11300, 18000⟩ ⟨(1, 6), 40000, 42000⟩),
   .swap ⟨(8, 1), 60000, 64000⟩,
   .act (.stroke ⟨(1, 6), 80300, 84000⟩ ⟨(1, 6), 100000, 102000⟩),
   .act (.modifier ⟨(0, 6), 120000, 124000⟩),
   .act (.call ⟨(6, 5), 140000, 144000⟩ ⟨(6, 5), 160000, 161000⟩),
   .act (.modifier ⟨(0, 6), 190000, 193000⟩),
   .swap ⟨(8, 0), 210000, 213000⟩,
   .act (.stroke ⟨(1, 6), 230000, 238000⟩ ⟨(1, 6), 255000, 256000⟩)]

theorem keymapsSwapped_classic : Swapping classicPlaces 0xC0 (everyMs 280) keymapsSwapped :=
  ⟨rfl, by decide +kernel, by decide +kernel, by decide +kernel, by decide +kernel⟩

example : (∀ n, InOrder 0 (1000 * n) (everyMs n)) ∧ (∀ m ∈ spotDealMoves keymapsSwapped,
      m.key.1 < 8 ∨ m.key = (8, 0) ∨ m.key = (8, 1)) ∧
    SwitchesMove classicPlaces (dipsOf 0xC0)
      (switchesFor classicPlaces (dipsOf 0xC0) (spotDealMoves keymapsSwapped)) (spotDealMoves keymapsSwapped) :=
  ⟨everyMs_inOrder, by decide +kernel, move_switchesFor places_inj _ _⟩

/-- The computer reads `a`, `A`, the 28 characters of the message, and `A`. -/
example : spotDealText (everyMs 280) (readingsAt classicPlaces
      (switchesFor classicPlaces (dipsOf 0xC0) (spotDealMoves keymapsSwapped)) (everyMs 280)) (Session.start 0xC0)
      keymapsSwapped =
    [(false, ch 'a'), (false, ch 'A')] ++ (textOf 2 10).map (true, ·) ++ [(false, ch 'A')] := by
  decide +kernel

/-- Scan by scan: both switches move, with SHIFT held. -/
def swappedDeals : List Deal :=
  [.act (.stroke ⟨(1, 6), [true, false, true], 30, [false, true, false], 20⟩), .act (.modifier ⟨(0, 1), [true, false], 20⟩),
   .swap ⟨(8, 0), [true, false, false, true], 20⟩, .swap ⟨(8, 1), [], 10⟩, .act (.modifier ⟨(0, 1), [], 20⟩),
   .act (.stroke ⟨(1, 6), [], 600, [true], 20⟩)]

example : Setting 0x81 ∧ DealsAllowed (Session.start 0x81) swappedDeals ∧ Steady (dealMoves swappedDeals) ∧
    dealText (Session.start 0x81) swappedDeals =
      [(false, ch 'A'), (false, ch 'A'), (false, ch 'A'), (false, ch 'A')] :=
  ⟨rfl, by decide +kernel, (by decide +kernel : ∀ v ∈ dealMoves swappedDeals, _), by decide +kernel⟩

end Asdf.Props
