import Verif.Lemmas.Rolls
import Verif.Props.Swaps

/-! # Property C116: keys overlap and are held as long as one likes -/

namespace Asdf.Props

open Spec Avr Pcb Typist Loose Movers Repeats Swaps Rolls

theorem allowed_inside {i : UInt8} (zs : List (Nat × Nat)) :
    ∀ {s : Session}, MovesAllowed i s zs → ∀ z ∈ zs, z.2 < 8 ∧ (z.1 < 8 ∨ z = (8, 7)) := by
  induction zs with
  | nil => exact fun _ z hz => (List.not_mem_nil hz).elim
  | cons w zs ih =>
    intro s h z hz
    rcases List.mem_cons.mp hz with rfl | hz
    · exact step_inside h.1
    · exact ih h.2 z hz

theorem inside_rows {z : Nat × Nat} (h : z.2 < 8 ∧ (z.1 < 8 ∨ z = (8, 7))) : z ≠ (8, 2) ∧ z.1 < 9 ∧ z.2 < 8 := by
  obtain ⟨h1, h2 | h2⟩ := h
  · exact ⟨fun e => by rw [e] at h2; exact absurd h2 (by decide), Nat.lt_succ_of_lt h2, h1⟩
  · rw [h2]
    decide

/-- The repeat timer after the first ten scans. -/
def timerOk (d : UInt8) : Bool :=
  match powerUp shipped (tenScans d) with
  | .ok s => s.rep.state == 525 && s.rep.base == 525 && s.rep.timer == 525
  | .error _ => false

theorem timers_ok : ∀ n < 256, UInt8.ofNat n &&& 0x1C = 0 → timerOk (UInt8.ofNat n) = true := by decide +kernel

theorem setting_timer {d : UInt8} (hd : Setting d) : (Kb.after fourMaps openLayout (tenScans d)).rpt = Rpt.first := by
  have hsafe : NeverTrips (tenScans d) := never_of_open fun inp hi => by
    rw [(List.mem_replicate.mp hi).2]
    exact rest_open hd
  obtain ⟨s, e1, e2⟩ := safe_shows _ hsafe
  have h := forall_setting (P := fun d => timerOk d = true) timers_ok d hd
  unfold timerOk at h
  rw [e1] at h
  simp only [Bool.and_eq_true, beq_iff_eq] at h
  obtain ⟨⟨h1, h2⟩, h3⟩ := h
  refine rpt_ext ?_ ?_ ?_
  · rw [← e2.rpt.delay, h1]
    rfl
  · rw [← e2.rpt.rest, h2]
    rfl
  · rw [← e2.rpt.left, h3]
    rfl

/-- What arrives, on the abstract keyboard. -/
theorem rolls_received {d : UInt8} (hd : Setting d) {start : Nat} (hs : 10 ≤ start) {vs : List KeyMove}
    (hA : MovesAllowed (d &&& 3) (Session.start d) (vs.map (·.key))) (hst : Steady vs) :
    let inps := List.replicate start (closedAt (dipsOf d)) ++ keysRead (dipsOf d) vs
    let q := channel (typed fourMaps openLayout inps) (said fourMaps openLayout inps)
    q.msgs = [] ∧ q.keys.length ≤ 2 ∧
      (((Session.start d).steps (d &&& 3) (vs.map (·.key))).hand.last = none → q.keys = []) ∧
      q.host ++ q.keys.map (false, ·) = (rollText (d &&& 3) (Session.start d) .first vs).map (false, ·) ∧
      NeverTrips inps := by
  intro inps q
  obtain ⟨hf, hdips, _⟩ := start_fine hd
  obtain ⟨k1, k2, k3, k4, k5, k6, k7⟩ := setting_start hd _ rfl
  have hset := ten_settled hd
  have hR := reads_closed (l := dipsOf d) fun p hp => (hf.inside p hp).2
  have hbeat : Beat (d &&& 3) (Session.start d) .first (tenScans d) :=
    ⟨k1, k3, k4, setting_timer hd, fun y hy => by cases hy⟩
  have hstay : Stays openLayout (posDown (dipsOf d)) (tenScans d) (List.replicate (start - 10) (closedAt (dipsOf d))) := by
    intro k _ y hy
    obtain ⟨h1, h2⟩ := (mem_keysOf openLayout).mp hy
    rw [List.take_replicate]
    exact stay_down hR hset _ h1 h2
  obtain ⟨us0, o1, o2, o3, o4⟩ := still_part hf hbeat hstay
  have hz0 : ∀ u ∈ us0, u = [] := all_empty (by
    rw [o3]
    exact (congrArg (fun n => List.replicate n _) (Holds.repsIn_zero 525)).trans rfl)
  have hset' : Settled openLayout (tenScans d ++ List.replicate (start - 10) (closedAt (dipsOf d))) (posDown (dipsOf d)) :=
    hset.stay hR _
  obtain ⟨us, p1, p2⟩ := rolls_out hf o4 ⟨show 525 ≠ 1 by decide, show 525 ≠ 1 by decide⟩ hA hst hset'
  have e0 : tenScans d ++ (List.replicate (start - 10) (closedAt (dipsOf d)) ++ keysRead (dipsOf d) vs) = inps :=
    (lead_eq hs vs).symm
  have hout := o1.append p1
  have hl := typed_length fourMaps openLayout (tenScans d)
  have hon := after_onLine fourMaps openLayout (tenScans d)
  have et : typed fourMaps openLayout inps = typed fourMaps openLayout (tenScans d) ++ (us0 ++ us) := by
    rw [← e0]
    unfold typed
    rw [log_append]
    exact congrArg _ hout.typed
  have es : said fourMaps openLayout inps = said fourMaps openLayout (tenScans d) ++ List.replicate (us0 ++ us).length [] := by
    rw [← e0]
    unfold said
    rw [log_append, hout.length]
    exact congrArg _ hout.said
  have hq : q = Rolls.run (Rolls.run (channel (typed fourMaps openLayout (tenScans d)) (said fourMaps openLayout (tenScans d))) us0) us := by
    show channel (typed fourMaps openLayout inps) (said fourMaps openLayout inps) = _
    rw [et, es, channel_run (hl.1.trans hl.2.symm)]
    unfold Rolls.run
    rw [List.foldl_append]
  have hkeys : (channel (typed fourMaps openLayout (tenScans d)) (said fourMaps openLayout (tenScans d))).keys = [] := by
    rw [← hon.keys]; exact k5
  have hE0 : Easy 0 (channel (typed fourMaps openLayout (tenScans d)) (said fourMaps openLayout (tenScans d))) :=
    ⟨by rw [← hon.msgs]; exact k6, by rw [hkeys]; exact Nat.le_refl _, by rw [hkeys]; exact fun c hc => (List.not_mem_nil hc).elim⟩
  have hfl : ∀ u ∈ us0, ∀ c ∈ u, c.toNat < 0xA0 := fun u hu c hc => by
    rw [hz0 u hu] at hc
    cases hc
  have hE1 := run_quiet hz0 hE0
  have hF1 := (run_ones (b := 1) ⟨by decide, by decide⟩ o2 hfl (hE0.more (by decide))).2
  have hflat : us0.flatten = [] := List.flatten_eq_nil_iff.mpr hz0
  obtain ⟨m1, m2⟩ := p2 _ (show Easy (room (Session.start d)) _ from hE1)
  rw [← hq] at m1 m2
  refine ⟨m1.msgs, Nat.le_trans m1.keys (room_le _), fun h => ?_, ?_, ?_⟩
  · have := m1.keys
    unfold room at this
    rw [if_pos (show (Rolls.after _ _ vs).hand.last = none from h)] at this
    exact List.length_eq_zero_iff.mp (Nat.le_zero.mp this)
  · refine Eq.trans m2 ?_
    rw [hF1, hflat]
    unfold flow
    rw [k7, hkeys]
    exact congrArg (fun t => List.map (fun x => (false, x)) (rollText (d &&& 3) (Session.start d) t vs))
      (show Rpt.ticks .first 0 = .first from rpt_ext rfl rfl (Holds.leftAfter_zero 525))
  · refine never_of_open fun inp hi => ?_
    rcases List.mem_append.mp hi with hi | hi
    · rw [(List.mem_replicate.mp hi).2]
      exact rest_open hd
    · rw [still_read (z := (8, 2)) (by decide) (by decide) hf.nodup (fun p hp => (hf.inside p hp).2)
        (fun v hv => inside_rows (allowed_inside _ hA _ (List.mem_map_of_mem hv))) hst inp hi]
      exact decide_eq_false fun h => (hdips (8, 2) h).2 rfl

/-- **C116, scan by scan.**  Any matrix, the DIP switches set to one of the keymaps 0 to 3, keys that overlap and
are held as long as one likes, modifiers, REPEAT and the autorepeat switch that move at any time, on contacts that
bounce: what the host has received,
followed by what is still waiting (at most two codes, none if no key is down that could repeat), is exactly the text:
the codes of the keys that were pressed and the repetitions of the one pressed last. -/
theorem C116_rolls (d : UInt8) (hd : Setting d) (start : Nat) (hs : 10 ≤ start) (vs : List KeyMove)
    (hA : MovesAllowed (d &&& 3) (Session.start d) (vs.map (·.key))) (hst : Steady vs) :
    ∃ s, powerUp shipped (List.replicate start (closedAt (dipsOf d)) ++ keysRead (dipsOf d) vs) = .ok s ∧
      hostSees s.dev.trace ++ (keystrokes s).map (false, ·) =
        (rollText (d &&& 3) (Session.start d) .first vs).map (false, ·) ∧
      (keystrokes s).length ≤ 2 ∧ messages s = [] ∧
      (((Session.start d).steps (d &&& 3) (vs.map (·.key))).hand.last = none → keystrokes s = []) := by
  obtain ⟨h1, h2, h3, h4, h5⟩ := rolls_received hd hs hA hst
  obtain ⟨s, e1, e2, e3, e4⟩ := C77_shipped _ h5
  refine ⟨s, e1, ?_, ?_, e4.trans h1, fun h => e3.trans (h3 h)⟩
  · rw [e2, e3]
    exact h4
  · rw [e3]
    exact h2

/-! ## Without autorepeat -/

theorem text_off {i : UInt8} (vs : List KeyMove) : ∀ {s : Session}, NoControl i s (vs.map (·.key)) →
    rollText i s ⟨0, 0, 0⟩ vs = sessionText i s (vs.map (·.key)) := by
  induction vs with
  | nil => exact fun _ => rfl
  | cons v vs ih =>
    intro s h
    obtain ⟨h1, h2⟩ := h
    have h1 : ¬ isControl (s.code i v.key) = true := by rw [h1]; decide
    have ht : ∀ n, Rpt.ticks ⟨0, 0, 0⟩ n = ⟨0, 0, 0⟩ := fun n => rfl
    have hv : v.timer i s ⟨0, 0, 0⟩ = ⟨0, 0, 0⟩ := by
      unfold KeyMove.timer Session.timer
      rw [if_neg h1, ht]
      split <;> rfl
    show v.rolled i s _ ++ rollText i (s.step i v.key) ((v.timer i s _).ticks _) vs = s.text i v.key ++ sessionText i _ _
    unfold KeyMove.rolled
    rw [hv, ht, step_plain h1, ih h2]
    unfold Session.types
    rw [if_neg h1]
    have h0 : ∀ n, repsIn 0 n = 0 := fun n => if_pos (.inl rfl)
    rw [show repsIn (Rpt.left ⟨0, 0, 0⟩) (v.before i s) = 0 from h0 _,
      show repsIn (Rpt.left ⟨0, 0, 0⟩) (v.behind i s) = 0 from h0 _]
    simp only [List.replicate_zero, List.nil_append, List.append_nil]

theorem auto_code : ∀ n < 256, UInt8.ofNat n &&& 0x1C = 0 →
    (Session.start (UInt8.ofNat n)).code (UInt8.ofNat n &&& 3) (8, 7) = 0xAC := by decide +kernel

/-- **C116, with autorepeat switched off.**  The autorepeat switch is opened before the first key: then the host
receives exactly the codes of the keys that were pressed, each once, however long they are held. -/
theorem C116_off (d : UInt8) (hd : Setting d) (h7 : (8, 7) ∈ dipsOf d) (start : Nat) (hs : 10 ≤ start) (v : KeyMove)
    (hv : v.key = (8, 7)) (vs : List KeyMove)
    (hA : MovesAllowed (d &&& 3) (Session.start d) ((v :: vs).map (·.key))) (hst : Steady (v :: vs))
    (hN : NoControl (d &&& 3) ((Session.start d).step (d &&& 3) (8, 7)) (vs.map (·.key))) :
    ∃ s, powerUp shipped (List.replicate start (closedAt (dipsOf d)) ++ keysRead (dipsOf d) (v :: vs)) = .ok s ∧
      hostSees s.dev.trace ++ (keystrokes s).map (false, ·) =
        (sessionText (d &&& 3) ((Session.start d).step (d &&& 3) (8, 7)) (vs.map (·.key))).map (false, ·) ∧
      (keystrokes s).length ≤ 2 ∧ messages s = [] := by
  obtain ⟨s, h1, h2, h3, h4, _⟩ := C116_rolls d hd start hs _ hA hst
  refine ⟨s, h1, h2.trans (congrArg _ ?_), h3, h4⟩
  have hc := forall_setting (P := fun d => (Session.start d).code (d &&& 3) (8, 7) = 0xAC) auto_code d hd
  have hctl : isControl ((Session.start d).code (d &&& 3) (8, 7)) = true := by rw [hc]; rfl
  have hrep : (Session.start d).repeating (d &&& 3) = none := rfl
  have hrep' : ((Session.start d).step (d &&& 3) (8, 7)).repeating (d &&& 3) = none := by
    rw [step_control hctl]
    rfl
  have hb : v.before (d &&& 3) (Session.start d) = 0 := by
    unfold KeyMove.before
    rw [hrep]
  have hb' : v.behind (d &&& 3) (Session.start d) = 0 := by
    unfold KeyMove.behind
    rw [hv, hrep']
  have ht : v.timer (d &&& 3) (Session.start d) .first = ⟨0, 0, 0⟩ := by
    unfold KeyMove.timer Session.timer
    rw [hb, hv, if_pos hctl, hc, decide_eq_false (not_not_intro (show (8, 7) ∈ (Session.start d).down from h7))]
    rfl
  show v.rolled _ _ _ ++ rollText _ _ _ vs = _
  unfold KeyMove.rolled Session.types
  rw [ht, hb, hb', hv, if_pos hctl, Holds.repsIn_zero, Holds.repsIn_zero]
  show [] ++ rollText _ _ ⟨0, 0, 0⟩ vs = _
  rw [text_off vs hN]
  rfl

/-! ## Keys that move in time -/

theorem moves_scanned {times : List (Nat → Nat)} {R : List Input} :
    ∀ (ms : List SpotMove) (vs : List KeyMove) (down : List (Nat × Nat)), down.Nodup → (∀ p ∈ down, p.2 < 8) →
      (∀ m ∈ ms, m.key.1 < 9 ∧ m.key.2 < 8) → GoodTimes times ms → Fits times ms vs → Steady vs →
      R.drop (untilMove times ms) = keysRead down vs → vs = scanMoves times R ms := by
  intro ms
  induction ms with
  | nil =>
    intro vs down _ _ _ _ hf _ _
    cases vs with
    | nil => rfl
    | cons v vs => exact hf.elim
  | cons m ms ih =>
    intro vs down hn hc hin hg hf hst hR
    match vs, hf with
    | v :: vs, hf =>
      obtain ⟨hkey, hlen, hsteady, hf'⟩ := hf
      obtain ⟨hb, hs⟩ := hst v List.mem_cons_self
      obtain ⟨hr1, hc1⟩ := hin m List.mem_cons_self
      have M := moves_any hc hn (v := v) (by rw [hkey]; exact hr1) (by rw [hkey]; exact hc1) hb hs
      have hR' := drop_next hg ⟨hkey, hlen, hsteady, hf'⟩ hR
      have hrest := ih vs (toggled down v.key) (toggled_nodup hn _) (toggled_cols hn hc (by rw [hkey]; exact hc1))
        (fun x hx => hin x (List.mem_cons_of_mem _ hx)) hg.2.2.2 hf' (fun x hx => hst x (List.mem_cons_of_mem _ hx)) hR'
      have hbounce : v.bounce = ((R.map fun inp => sample inp m.key.1 m.key.2).drop (scansBefore times m.key.1 m.begins)).take
          (scansBefore times m.key.1 m.ends - scansBefore times m.key.1 m.begins) := by
        have hR : R.drop (scansBefore times m.key.1 m.begins) = v.readings down ++ keysRead (toggled down v.key) vs := hR
        have hm := M.moves
        unfold samplesOf at hm
        rw [hkey] at hm
        rw [← List.map_drop, hR, List.map_append, hm, List.append_assoc, ← hlen, List.take_left]
      cases v with
      | mk key bounce steady =>
        dsimp only at hkey hbounce hsteady
        show _ :: vs = KeyMove.mk _ _ _ :: scanMoves times R ms
        rw [← hrest, hkey, ← hbounce, ← hsteady]

/-- The readings are those of the movements found in them. -/
theorem rolling_moves {lo hi : Nat} {times : List (Nat → Nat)} (hT : InOrder lo hi times) {sw : Nat → Sw → Bool}
    {ps : List Place} (hps : ps ∈ [classicPlaces, solPlaces]) {d : UInt8} {ms : List SpotMove}
    (hF : SwitchesMove ps (dipsOf d) sw ms) (hH : Rolling ps d times ms) :
    let vs := scanMoves times (readingsAt ps sw times) ms
    ∃ start, readingsAt ps sw times = List.replicate start (closedAt (dipsOf d)) ++ keysRead (dipsOf d) vs ∧
      10 ≤ start ∧ vs.map (·.key) = ms.map (·.key) ∧ Steady vs := by
  intro vs
  obtain ⟨hf, hd, _⟩ := start_fine hH.setting
  have hin : ∀ m ∈ ms, m.key.1 < 9 ∧ m.key.2 < 8 := fun m hm =>
    (inside_rows (allowed_inside _ hH.order _ (List.mem_map_of_mem hm))).2
  obtain ⟨ws, h1, h2, h0, h3, _, _⟩ := spots_read hT (hands_cols hps) hf.nodup hF hH.there
    (fun z hz => by
      obtain ⟨p, hp, e, _⟩ := hands_dips hps z.2 (hf.inside z hz).2
      refine ⟨p, hp, e.trans ?_⟩
      rw [← (hd z hz).1])
    ms [] rfl (dipsOf d) rfl hf.nodup (fun m hm => (hin m hm).2)
    hH.timing 0 (fun m hm => (List.not_mem_nil hm).elim) (Nat.zero_le _)
  rw [Nat.sub_zero, List.drop_zero] at h1
  have hdrop : (readingsAt ps sw times).drop (untilMove times ms) = keysRead (dipsOf d) ws := by
    rw [h1, List.drop_append_of_le_length (by rw [List.length_replicate]; exact Nat.le_refl _), List.drop_of_length_le (by
      rw [List.length_replicate]; exact Nat.le_refl _), List.nil_append]
  have hws : ws = vs := moves_scanned ms ws (dipsOf d) hf.nodup (fun p hp => (hf.inside p hp).2)
    hin hH.timing h0 h3 hdrop
  rw [← hws]
  exact ⟨_, h1, hH.first, h2, h3⟩

/-- **C116, with the movements of the switches in time.** -/
theorem C116_fingers (lo hi : Nat) (times : List (Nat → Nat)) (hT : InOrder lo hi times) (sw : Nat → Sw → Bool)
    (ps : List Place) (hps : ps ∈ [classicPlaces, solPlaces]) (d : UInt8) (ms : List SpotMove)
    (hF : SwitchesMove ps (dipsOf d) sw ms) (hH : Rolling ps d times ms) :
    ∃ s, powerUp shipped (readingsAt ps sw times) = .ok s ∧
      hostSees s.dev.trace ++ (keystrokes s).map (false, ·) =
        (rollText (d &&& 3) (Session.start d) .first (scanMoves times (readingsAt ps sw times) ms)).map (false, ·) ∧
      (keystrokes s).length ≤ 2 ∧ messages s = [] ∧
      (((Session.start d).steps (d &&& 3) (ms.map (·.key))).hand.last = none → keystrokes s = []) := by
  obtain ⟨start, h1, h2, h3, h4⟩ := rolling_moves hT hps hF hH
  have := C116_rolls d hH.setting start h2 _ (by rw [h3]; exact hH.order) h4
  rw [← h1, h3] at this
  exact this

theorem rolling_received {lo hi : Nat} {times : List (Nat → Nat)} (hT : InOrder lo hi times) {sw : Nat → Sw → Bool}
    {ps : List Place} (hps : ps ∈ [classicPlaces, solPlaces]) {d : UInt8} {ms : List SpotMove}
    (hF : SwitchesMove ps (dipsOf d) sw ms) (hH : Rolling ps d times ms) :
    ∃ waiting : List Code,
      (channel (typed fourMaps openLayout (readingsAt ps sw times))
        (said fourMaps openLayout (readingsAt ps sw times))).host.map (·.2) ++ waiting =
        rollText (d &&& 3) (Session.start d) .first (scanMoves times (readingsAt ps sw times) ms) ∧
      waiting.length ≤ 2 ∧
      (((Session.start d).steps (d &&& 3) (ms.map (·.key))).hand.last = none → waiting = []) := by
  obtain ⟨start, h1, h2, h3, h4⟩ := rolling_moves hT hps hF hH
  obtain ⟨_, r2, r3, r4, _⟩ := rolls_received hH.setting h2 (by rw [h3]; exact hH.order) h4
  rw [← h1] at r2 r3 r4
  rw [h3] at r3
  refine ⟨_, ?_, r2, r3⟩
  have := congrArg (List.map (·.2)) r4
  rw [List.map_append, List.map_map, List.map_map] at this
  exact (congrArg (_ ++ ·) (List.map_id _).symm).trans (this.trans (List.map_id _))

/-! ## The boards -/

/-- The DIP switches except the last do not move. -/
theorem seven_still {sw : Nat → Sw → Bool} {ps : List Place} {d : UInt8} {ms : List SpotMove}
    (hF : SwitchesMove ps (dipsOf d) sw ms) (ho : OnlyKeys (ms.map (·.key))) (t : Nat) :
    ∀ p ∈ ps, p.row = 8 → p.col ≠ 7 → sw t p.sw = decide (spotOf p ∈ dipsOf d) := by
  intro p hp h8 h7
  have hno : ∀ m ∈ ms, m.key ≠ spotOf p := fun m hm e => by
    have h1 := ho _ (List.mem_map_of_mem hm)
    rw [e] at h1
    rcases h1 with h1 | h1
    · have h1 : p.row < 8 := h1
      omega
    · exact h7 (congrArg Prod.snd h1)
  rw [hF t p hp fun m hm e => absurd e (hno m hm), List.countP_eq_zero.mpr fun m hm => by
    simp only [decide_eq_true_eq]
    exact fun h => hno m hm h.1]
  exact Bool.xor_false _

theorem seven_safe {sw : Nat → Sw → Bool} {ps : List Place} (hps : ps ∈ [classicPlaces, solPlaces]) {d : UInt8}
    (hs : Setting d) {W : C.Outside} (hS : SwitchWorld ps sw W)
    (hd : ∀ t, ∀ p ∈ ps, p.row = 8 → p.col ≠ 7 → sw t p.sw = decide (spotOf p ∈ dipsOf d)) : SafeWorld W := by
  have key : ∀ t, bitOf (W.keys t 8) 2 = false := by
    intro t
    rw [hS t]
    cases e : bitOf (closedKeys ps (sw t) 8) 2
    · rfl
    · obtain ⟨p, hp, h1, h2, h3⟩ := (closedKeys_bit (hands_cols hps) (sw t) 8 2 (by decide)).mp e
      rw [hd t p hp h3 (by omega)] at h2
      have h2 := of_decide_eq_true h2
      unfold spotOf at h2
      rw [h1, h3] at h2
      exact absurd rfl ((start_fine hs).2.1 (8, 2) h2).2
  intro hi mxs hx
  refine never_of_open fun inp hi => ?_
  obtain ⟨mx, hm, rfl⟩ := List.mem_map.mp hi
  exact sampled_reads key hx mx hm

theorem seven_dip7 {sw : Nat → Sw → Bool} {ps : List Place} (hps : ps ∈ [classicPlaces, solPlaces]) {d : UInt8}
    (hd : ∀ t, ∀ p ∈ ps, p.row = 8 → p.col ≠ 7 → sw t p.sw = decide (spotOf p ∈ dipsOf d)) (t : Nat) :
    sw t (.dip 7) = decide ((8, 6) ∈ dipsOf d) := by
  obtain ⟨p, hp, e, h⟩ := hands_dips hps 6 (by omega)
  have h6 : p.col = 6 := congrArg Prod.snd e
  have := hd t p hp (congrArg Prod.fst e) (by omega)
  rwa [e, h] at this

/-- **C116, from the fingers to the computer.**  Each keyboard on the ATmega328P interface, in any electrical state
at power-up, run by the text of the firmware, with the DIP switches set to one of the keymaps 0 to 3: what the
computer reads, followed by at most two characters that are still waiting, is the text. -/
theorem C116_computer_328 (A : Assembly) (ps : List Place) (h : (A, ps) ∈ boards328 classicPlaces solPlaces)
    (sockets : List (Nat × List (Nat × Signal))) (hA : (A, sockets) ∈ plugged328)
    (k : Nat) (lines : List (Nat × Signal)) (hk : (k, lines) ∈ sockets) (pin : Nat)
    (hpin : (pin, .strobe) ∈ lines) (sw : Nat → Sw → Bool) (W : C.Outside) (hS : SwitchWorld ps sw W)
    (d : UInt8) (hd : Setting d) (ms : List SpotMove) (hF : SwitchesMove ps (dipsOf d) sw ms)
    (ho : OnlyKeys (ms.map (·.key))) (r0 : Regs) (sr : UInt8)
    (polls w n : Nat) (hw : 65536 ≤ w) (hp : polls < w) (hn : 23 ≤ n) :
    ∃ times hi h log, BetweenLooks C.board328 W w n r0 sr polls times ∧ InOrder 0 hi times ∧
      textRun C.board328 W w n r0 sr polls = some h ∧
      hi ≤ h.time ∧ h.found = times.length ∧ h.found ≤ h.ints ∧
      statesOf h = boardStates m328 r0 [.archInit] ++ log ∧
      (Rolling ps d times ms →
        ∀ edge v vs, AtSocket328 A k lines (boardAfter m328 r0 [.archInit]) v →
          Watches (AtSocket328 A k lines) log vs →
          ∃ waiting, computerReads lines edge v vs ++ waiting =
              rollText (d &&& 3) (Session.start d) .first (scanMoves times (readingsAt ps sw times) ms) ∧
            waiting.length ≤ 2 ∧
            (((Session.start d).steps (d &&& 3) (ms.map (·.key))).hand.last = none → waiting = [])) := by
  have hps := boards328_places h
  have hs := fun t => seven_still hF ho t
  obtain ⟨times, hi, hh, log, e0, e1, e2, e3, e4, e5, e6, e7⟩ := C90_computer_328 A ps h sockets hA k lines hk pin
    hpin sw W hS (seven_safe hps hd hS hs) _ (seven_dip7 hps hs) r0 sr polls w n hw hp hn
  refine ⟨times, hi, hh, log, e0, e1, e2, e3, e4, e5, e6, ?_⟩
  intro hH edge v vs hv hvs
  rw [e7 edge v vs hv hvs]
  exact rolling_received e1 hps hF hH

/-- **C116, from the fingers to the computer,** with the ATmega2560. -/
theorem C116_computer_2560 (A : Assembly) (ps : List Place) (h : (A, ps) ∈ boards2560 classicPlaces solPlaces)
    (out : Net → Prop) (hout : ∀ n, out n → Outside A n) (cols : (Sw → Bool) → Regs → UInt8)
    (hcols : ∀ closed r, rowReady2560 r →
      ReadsLevels A.links (column2560 A) closed (fun n => Low2560 A r n ∨ out n) (cols closed r))
    (sockets : List (Nat × List (Nat × Signal))) (hA : (A, sockets) ∈ plugged2560)
    (k : Nat) (lines : List (Nat × Signal)) (hk : (k, lines) ∈ sockets) (pin : Nat)
    (hpin : (pin, .strobe) ∈ lines) :
    ∃ f, (∀ closed r, rowReady2560 r → f (closedKeys ps closed) r = cols closed r) ∧
      ∀ (sw : Nat → Sw → Bool) (W : C.Outside), SwitchWorld ps sw W → ∀ d, Setting d →
      ∀ (ms : List SpotMove), SwitchesMove ps (dipsOf d) sw ms → OnlyKeys (ms.map (·.key)) →
      ∀ (r0 : Regs) (sr : UInt8) (polls w n : Nat), 65536 ≤ w → polls < w → 23 ≤ n →
        ∃ times hi h log, BetweenLooks (C.board2560 f) W w n r0 sr polls times ∧ InOrder 0 hi times ∧
          textRun (C.board2560 f) W w n r0 sr polls = some h ∧
          hi ≤ h.time ∧ h.found = times.length ∧ h.found ≤ h.ints ∧
          statesOf h = boardStates m2560 r0 [.archInit] ++ log ∧
          (Rolling ps d times ms →
            ∀ edge v vs, AtSocket2560 A k lines (boardAfter m2560 r0 [.archInit]) v →
              Watches (AtSocket2560 A k lines) log vs →
              ∃ waiting, computerReads lines edge v vs ++ waiting =
                  rollText (d &&& 3) (Session.start d) .first (scanMoves times (readingsAt ps sw times) ms) ∧
                waiting.length ≤ 2 ∧
                (((Session.start d).steps (d &&& 3) (ms.map (·.key))).hand.last = none → waiting = [])) := by
  have hps := boards2560_places h
  obtain ⟨f, hf, hrun⟩ := C90_computer_2560 A ps h out hout cols hcols sockets hA k lines hk pin hpin
  refine ⟨f, hf, fun sw W hS d hd ms hF ho r0 sr polls w n hw hp hn => ?_⟩
  have hs := fun t => seven_still hF ho t
  obtain ⟨times, hi, hh, log, e0, e1, e2, e3, e4, e5, e6, e7⟩ := hrun sw W hS (seven_safe hps hd hS hs) _
    (seven_dip7 hps hs) r0 sr polls w n hw hp hn
  refine ⟨times, hi, hh, log, e0, e1, e2, e3, e4, e5, e6, ?_⟩
  intro hH edge v vs hv hvs
  rw [e7 edge v vs hv hvs]
  exact rolling_received e1 hps hF hH

/-! ## Examples -/

instance decMovesAllowed (i : UInt8) : (s : Session) → (zs : List (Nat × Nat)) → Decidable (MovesAllowed i s zs)
  | _, [] => isTrue trivial
  | s, z :: zs => @instDecidableAnd _ _ (by unfold MayStep MayToggle; infer_instance) (decMovesAllowed i (s.step i z) zs)

/-- `A` is held for seven tenths of a second and `1` is pressed meanwhile and held; SHIFT is held for some time, then
`1` is released and `C` is pressed: contacts that bounce for up to 8 milliseconds. -/
def rolledKeys : List SpotMove :=
  [⟨(1, 6), 11300, 18000⟩, ⟨(7, 7), 600000, 605000⟩, ⟨(1, 6), 700000, 708000⟩, ⟨(0, 1), 1150000, 1151000⟩,
   ⟨(0, 1), 1250000, 1251000⟩, ⟨(7, 7), 1320000, 1321000⟩, ⟨(2, 6), 1340000, 1345000⟩]

theorem rolledKeys_classic : Rolling classicPlaces 0xC2 (everyMs 1370) rolledKeys :=
  ⟨rfl, by decide +kernel, by decide +kernel, by decide +kernel, by decide +kernel⟩

theorem rolledKeys_sol : Rolling solPlaces 0xC2 (everyMs 1370) rolledKeys :=
  ⟨rfl, by decide +kernel, by decide +kernel, by decide +kernel, by decide +kernel⟩

example : (∀ n, InOrder 0 (1000 * n) (everyMs n)) ∧
    SwitchesMove classicPlaces (dipsOf 0xC2) (switchesFor classicPlaces (dipsOf 0xC2) rolledKeys) rolledKeys :=
  And.intro everyMs_inOrder (move_switchesFor places_inj _ _)

/-- Each key repeats while it is the one pressed last; `1` does not while SHIFT is held, as its code is that of `!`
then. -/
example : rollText (0xC2 &&& 3) (Session.start 0xC2) .first (scanMoves (everyMs 1370) (readingsAt classicPlaces
      (switchesFor classicPlaces (dipsOf 0xC2) rolledKeys) (everyMs 1370)) rolledKeys) =
    [ch 'A', ch 'A', ch '1', ch '1', ch '1', ch 'C'] := by
  decide +kernel

/-- Scan by scan: `A` and `b` overlap, caps lock is released while `A` is held, and in the end no key is down. -/
def rolledMoves : List KeyMove :=
  [⟨(1, 6), [true, false, true], 700⟩, ⟨(0, 0), [true, false], 12⟩, ⟨(2, 4), [], 534⟩, ⟨(1, 6), [false, true], 66⟩,
   ⟨(2, 4), [false], 10⟩, ⟨(0, 0), [], 10⟩]

example : Setting 0xC2 ∧ MovesAllowed (0xC2 &&& 3) (Session.start 0xC2) (rolledMoves.map (·.key)) ∧ Steady rolledMoves ∧
    ((Session.start 0xC2).steps (0xC2 &&& 3) (rolledMoves.map (·.key))).hand.last = none ∧
    rollText (0xC2 &&& 3) (Session.start 0xC2) .first rolledMoves =
      [ch 'A', ch 'A', ch 'A', ch 'A', ch 'b', ch 'b', ch 'b'] :=
  ⟨rfl, by decide +kernel, (by decide +kernel : ∀ v ∈ rolledMoves, _), by decide +kernel, by decide +kernel⟩

/-- REPEAT is pressed while `A` is held, then the autorepeat switch is opened; `B` is held for three quarters of a
second, and `C` while REPEAT is held. -/
def controlledKeys : List SpotMove :=
  [⟨(1, 6), 11300, 18000⟩, ⟨(5, 4), 50000, 52000⟩, ⟨(5, 4), 250000, 252000⟩, ⟨(1, 6), 300000, 301000⟩,
   ⟨(8, 7), 320000, 325000⟩, ⟨(2, 4), 340000, 341000⟩, ⟨(2, 4), 1100000, 1101000⟩,
   ⟨(5, 4), 1120000, 1121000⟩, ⟨(2, 6), 1140000, 1142000⟩, ⟨(2, 6), 1300000, 1302000⟩]

theorem controlledKeys_classic : Rolling classicPlaces 0xC2 (everyMs 1320) controlledKeys ∧
    OnlyKeys (controlledKeys.map (·.key)) :=
  ⟨⟨rfl, by decide +kernel, by decide +kernel, by decide +kernel, by decide +kernel⟩,
    (by decide +kernel : ∀ z ∈ controlledKeys.map (·.key), _)⟩

example : rollText (0xC2 &&& 3) (Session.start 0xC2) .first (scanMoves (everyMs 1320) (readingsAt classicPlaces
      (switchesFor classicPlaces (dipsOf 0xC2) controlledKeys) (everyMs 1320)) controlledKeys) =
    [ch 'A', ch 'A', ch 'A', ch 'A', ch 'B', ch 'C', ch 'C', ch 'C'] := by
  decide +kernel

instance decNoControl (i : UInt8) : (s : Session) → (zs : List (Nat × Nat)) → Decidable (NoControl i s zs)
  | _, [] => isTrue trivial
  | s, z :: zs => @instDecidableAnd _ _ inferInstance (decNoControl i (s.move i z) zs)

/-- The hypotheses of `C116_off`: `A` and `b` overlap and are held for more than a second. -/
def patientMoves : List KeyMove :=
  [⟨(1, 6), [true, false, true], 1700⟩, ⟨(0, 0), [true, false], 12⟩, ⟨(2, 4), [], 1534⟩, ⟨(1, 6), [false, true], 66⟩,
   ⟨(2, 4), [false], 10⟩, ⟨(0, 0), [], 10⟩]

example : Setting 0xC2 ∧ (8, 7) ∈ dipsOf 0xC2 ∧ MovesAllowed (0xC2 &&& 3) (Session.start 0xC2)
      (((⟨(8, 7), [true, false], 20⟩ : KeyMove) :: patientMoves).map (·.key)) ∧
    Steady (⟨(8, 7), [true, false], 20⟩ :: patientMoves) ∧
    NoControl (0xC2 &&& 3) ((Session.start 0xC2).step (0xC2 &&& 3) (8, 7)) (patientMoves.map (·.key)) ∧
    sessionText (0xC2 &&& 3) ((Session.start 0xC2).step (0xC2 &&& 3) (8, 7)) (patientMoves.map (·.key)) =
      [ch 'A', ch 'b'] :=
  ⟨rfl, by decide +kernel, by decide +kernel,
    (by decide +kernel : ∀ v ∈ (⟨(8, 7), [true, false], 20⟩ : KeyMove) :: patientMoves, _), by decide +kernel,
    by decide +kernel⟩

end Asdf.Props
