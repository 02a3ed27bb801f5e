import Verif.Lemmas.Keystrokes
import Verif.Props.Loose
import Verif.Props.Strokes
import Verif.Props.Dips

/-! # Property C104: text on any matrix, with any of the keymaps 0 to 3 -/

namespace Asdf.Props

open Spec Avr Pcb Typist Loose Movers

/-! ## The settings of the DIP switches -/

theorem forall_setting {P : UInt8 → Prop} (h : ∀ n < 256, UInt8.ofNat n &&& 0x1C = 0 → P (UInt8.ofNat n))
    (d : UInt8) (hd : Setting d) : P d := by
  have := h d.toNat d.toNat_lt (by rw [UInt8.ofNat_toNat]; exact hd)
  rwa [UInt8.ofNat_toNat] at this

/-- The first ten scans. -/
abbrev tenScans (d : UInt8) : List Input := List.replicate 10 (closedAt (dipsOf d))

/-- The firmware after the first ten scans. -/
def settingOk (d : UInt8) : Bool :=
  match powerUp shipped (tenScans d) with
  | .ok s => s.curIdx == d &&& 3 && s.rep.state == 525 && s.mods.shift == 0 &&
      s.mods.caps == (if d &&& 3 == 2 then 1 else 0) && s.mods.ctrl == 0 && s.lastKey == 0xA0 &&
      decide (keystrokes s = [] ∧ messages s = [] ∧ hostSees s.dev.trace = [])
  | .error _ => false

theorem settings_ok : ∀ n < 256, UInt8.ofNat n &&& 0x1C = 0 → settingOk (UInt8.ofNat n) = true := by decide +kernel

/-- The switches that are closed. -/
def DipsOk (d : UInt8) : Prop :=
  (dipsOf d).Nodup ∧ ∀ p ∈ dipsOf d, p.1 = 8 ∧ p.2 < 8 ∧ p.2 ≠ 2 ∧
    ∀ s c t, 0xA0 < (codeUnder fourMaps (d &&& 3) 8 p.1 p.2 s c t).toNat

instance (d : UInt8) : Decidable (DipsOk d) := inferInstanceAs (Decidable (_ ∧ _))

theorem settings_dips : ∀ n < 256, UInt8.ofNat n &&& 0x1C = 0 → DipsOk (UInt8.ofNat n) := by decide +kernel

theorem start_fine {d : UInt8} (hd : Setting d) : Fine (d &&& 3) (Session.start d) ∧
    (∀ p ∈ dipsOf d, p.1 = 8 ∧ p.2 ≠ 2) ∧
    ∀ p ∈ (Session.start d).down, Functional fourMaps openLayout (d &&& 3) p.1 p.2 := by
  obtain ⟨h1, h2⟩ := forall_setting settings_dips d hd
  refine ⟨⟨fun p hp => ⟨by have := (h2 p hp).1; omega, (h2 p hp).2.1⟩, h1, fun p hp => ⟨fun y hy => (by cases hy), fun _ e => ?_⟩⟩,
    fun p hp => ⟨(h2 p hp).1, (h2 p hp).2.2.1⟩, fun p hp m => (h2 p hp).2.2.2 _ _ _⟩
  have := (h2 p hp).2.2.2 ((Session.start d).hand.mods.held || (Session.start d).hand.mods.locked)
    (Session.start d).hand.mods.caps (Session.start d).hand.mods.ctrl
  rw [show codeUnder fourMaps (d &&& 3) 8 p.1 p.2 _ _ _ = _ from e] at this
  exact absurd this (by decide)

theorem rest_open {d : UInt8} (hd : Setting d) : sample (closedAt (dipsOf d)) 8 2 = false := by
  have hf := (start_fine hd).1
  rw [reads_closed (l := dipsOf d) (fun p hp => (hf.inside p hp).2) 8 2 (by decide) (by decide)]
  exact decide_eq_false fun h => ((start_fine hd).2.1 (8, 2) h).2 rfl

theorem shift_off {held locked : Bool} (h : shiftCode held locked = 0) : held = false ∧ locked = false := by
  cases held <;> cases locked <;> first | exact ⟨rfl, rfl⟩ | exact absurd h (by decide)

theorem b2u_inj {a b : Bool} (h : b2u a = b2u b) : a = b := by
  cases a <;> cases b <;> first | rfl | exact absurd h (by decide)

/-- The abstract keyboard after the first ten scans. -/
theorem setting_start {d : UInt8} (hd : Setting d) (k : Kb) (hk : k = Kb.after fourMaps openLayout (tenScans d)) :
    k.map = d &&& 3 ∧ k.rpt.delay = 525 ∧ k.mods = (Session.start d).hand.mods ∧
      k.last = 0xA0 ∧ k.keys = [] ∧ k.msgs = [] ∧
      (channel (typed fourMaps openLayout (tenScans d)) (said fourMaps openLayout (tenScans d))).host = [] := by
  have hsafe : NeverTrips (tenScans d) := never_of_open fun inp hi => by
    rw [(List.mem_replicate.mp hi).2]
    exact rest_open hd
  obtain ⟨s, e1, e2⟩ := safe_shows _ hsafe
  obtain ⟨s', f1, _, f2, f3, f4, _⟩ := C72_safe _ hsafe
  obtain ⟨s'', g1, g2, _⟩ := C77_shipped _ hsafe
  rw [e1] at f1 g1
  cases f1
  cases g1
  have h := forall_setting (P := fun d => settingOk d = true) settings_ok d hd
  unfold settingOk at h
  rw [e1] at h
  simp only [Bool.and_eq_true, beq_iff_eq, decide_eq_true_eq] at h
  obtain ⟨⟨⟨⟨⟨⟨h1, h2⟩, h3⟩, h4⟩, h5⟩, h6⟩, h7, h8, h9⟩ := h
  rw [← hk] at e2 f3 f4
  obtain ⟨m1, m2⟩ := shift_off (e2.shift.symm.trans h3)
  have m3 : k.caps = (d &&& 3 == 2) := b2u_inj (by
    rw [← e2.caps, h4]
    simp only [b2u, beq_iff_eq])
  have m4 : k.ctrl = false := b2u_inj (e2.ctrl.symm.trans h5)
  refine ⟨e2.map.symm.trans h1, ?_, ?_, e2.last.symm.trans h6, f3.symm.trans h7, f4.symm.trans h8, g2.symm.trans h9⟩
  · rw [← e2.rpt.delay, h2]
    rfl
  · show (⟨k.held, k.locked, k.caps, k.ctrl⟩ : ModKeys) = _
    rw [m1, m2, m3, m4]
    rfl

theorem ten_settled {d : UInt8} (hd : Setting d) : Settled openLayout (tenScans d) (posDown (dipsOf d)) := by
  have hR := reads_closed (l := dipsOf d) fun p hp => ((start_fine hd).1.inside p hp).2
  have h0 : Settled openLayout [] (fun _ _ => false) := fun r c _ _ => rfl
  have := Settled.next h0 hR (Nat.le_refl 10)
  rwa [List.nil_append] at this

/-- The readings: at least ten scans in which nothing moves, then the movements. -/
theorem lead_eq {d : UInt8} {start : Nat} (hs : 10 ≤ start) (vs : List KeyMove) :
    List.replicate start (closedAt (dipsOf d)) ++ keysRead (dipsOf d) vs =
      tenScans d ++ (List.replicate (start - 10) (closedAt (dipsOf d)) ++ keysRead (dipsOf d) vs) := by
  rw [← List.append_assoc, List.replicate_append_replicate, show 10 + (start - 10) = start by omega]

/-- What is typed, on the abstract keyboard. -/
theorem session_received {d : UInt8} (hd : Setting d) {start : Nat} (hs : 10 ≤ start) {vs : List KeyMove}
    (hc : Sound (d &&& 3) (dipsOf d) (Session.start d) (vs.map (·.key))) (hst : Steady vs)
    (hb : KeysBrief (d &&& 3) 525 vs) :
    let inps := List.replicate start (closedAt (dipsOf d)) ++ keysRead (dipsOf d) vs
    let q := channel (typed fourMaps openLayout inps) (said fourMaps openLayout inps)
    q.keys = [] ∧ q.msgs = [] ∧
      q.host = (sessionText (d &&& 3) (Session.start d) (vs.map (·.key))).map (false, ·) ∧ NeverTrips inps := by
  intro inps q
  obtain ⟨hf, hdips, hfun⟩ := start_fine hd
  obtain ⟨k1, k2, k3, k4, k5, k6, k7⟩ := setting_start hd _ rfl
  have hset := ten_settled hd
  obtain ⟨b1, b2, b3, b4⟩ := lead_typed (s := Session.start d) (fun p hp => (hdips p hp).1) hf hc hst hset (start - 10)
  have hbrief := lead_brief (s := Session.start d) hf hc hst hfun hb hset (start - 10)
  have hand : (⟨(Kb.after fourMaps openLayout (tenScans d)).mods, none⟩ : Hand) = (Session.start d).hand := by rw [k3]; rfl
  obtain ⟨q1, q2, q3⟩ := loose_text (pre := tenScans d)
    (more := List.replicate (start - 10) (closedAt (dipsOf d)) ++ keysRead (dipsOf d) vs) rfl k4
    (by rw [hand, k1]; exact b1) (by rw [k1, k2]; exact hbrief) ⟨k5, k6⟩ (by rw [k1, k3]; exact b2)
  rw [k1, k3] at q2 q3
  rw [← lead_eq hs] at q1 q2 q3
  have q2 := q2.trans b4
  refine ⟨q2, q1, ?_, ?_⟩
  · rw [q2, k7, List.map_nil, List.append_nil, List.nil_append] at q3
    exact q3.trans (congrArg (List.map (false, ·)) b3)
  · refine never_of_open fun inp hi => ?_
    rcases List.mem_append.mp hi with hi | hi
    · rw [(List.mem_replicate.mp hi).2]
      exact rest_open hd
    · rw [read_dips (s := Session.start d) hf hc hst inp hi 2 (by decide)]
      exact decide_eq_false fun h => (hdips (8, 2) h).2 rfl

/-- **C104, scan by scan.**  Any matrix, the DIP switches set to one of the keymaps 0 to 3: whatever
keys are pressed and released, overlapping as they like, modifiers and locks at any time, with
contacts that bounce for up to 9 scans, the host receives exactly the codes of the keys that were
pressed, in the selected keymap and under the modifiers of that moment, and nothing is left
waiting. -/
theorem C104_bounce (d : UInt8) (hd : Setting d) (start : Nat) (hs : 10 ≤ start) (vs : List KeyMove)
    (hc : Sound (d &&& 3) (dipsOf d) (Session.start d) (vs.map (·.key))) (hst : Steady vs)
    (hb : KeysBrief (d &&& 3) 525 vs) :
    ∃ s, powerUp shipped (List.replicate start (closedAt (dipsOf d)) ++ keysRead (dipsOf d) vs) = .ok s ∧
      sends s.dev.trace = sessionText (d &&& 3) (Session.start d) (vs.map (·.key)) ∧
      hostSees s.dev.trace = (sessionText (d &&& 3) (Session.start d) (vs.map (·.key))).map (false, ·) ∧
      keystrokes s = [] ∧ messages s = [] := by
  obtain ⟨h1, h2, h3, h4⟩ := session_received hd hs hc hst hb
  obtain ⟨s, e1, e2, e3, e4⟩ := C77_shipped _ h4
  refine ⟨s, e1, ?_, e2.trans h3, e3.trans h1, e4.trans h2⟩
  rw [sends_hostSees, e2, show (channel _ _).host = _ from h3, List.map_map]
  exact List.map_id _

/-! ## Every text -/

theorem dip_codes {d : UInt8} (hd : Setting d) : DipCodes (d &&& 3) (dipsOf d) := by
  obtain ⟨_, h1, h2⟩ := start_fine hd
  exact fun p hp => ⟨(h1 p hp).1, h2 p hp⟩

theorem map_small : ∀ n < 256, (UInt8.ofNat n &&& 3).toNat < 4 := by decide +kernel

/-- The movements of a text, a key every `n` scans. -/
def movesFor (d : UInt8) (n : Nat) (text : List Code) : List KeyMove :=
  (spotsFor (d &&& 3) text).map fun z => ⟨z, [], n⟩

theorem movesFor_ok {d : UInt8} (hd : Setting d) {n : Nat} (h1 : 10 ≤ n) (h2 : n ≤ 525) {text : List Code}
    (h : OnKeymap (d &&& 3) text) :
    Sound (d &&& 3) (dipsOf d) (Session.start d) ((movesFor d n text).map (·.key)) ∧ Steady (movesFor d n text) ∧
      KeysBrief (d &&& 3) 525 (movesFor d n text) ∧
      sessionText (d &&& 3) (Session.start d) ((movesFor d n text).map (·.key)) = text := by
  have hi : (d &&& 3).toNat < 4 := by
    have := map_small d.toNat d.toNat_lt
    rwa [UInt8.ofNat_toNat] at this
  obtain ⟨a1, a2, a3⟩ := spots_ok hi text h
  obtain ⟨b1, b2⟩ := sound_dips (dip_codes hd) a1 fun y hy => (by cases hy)
  have ek : (movesFor d n text).map (·.key) = spotsFor (d &&& 3) text := by
    unfold movesFor
    rw [List.map_map]
    exact List.map_id _
  rw [ek]
  refine ⟨b1, ?_, fun z hz => twice_held h2 hz a3, b2.trans a2⟩
  intro v hv
  obtain ⟨z, _, rfl⟩ := List.mem_map.mp hv
  exact ⟨Nat.zero_le _, h1⟩

/-- **C104, every text.**  With each of the keymaps 0 to 3, every text of the ASCII characters that
are on its keys can be typed, at every pace from 10 to 525 scans between movements: the host receives
exactly this text. -/
theorem C104_every_text (d : UInt8) (hd : Setting d) (start : Nat) (hs : 10 ≤ start) (n : Nat) (h1 : 10 ≤ n)
    (h2 : n ≤ 525) (text : List Code) (h : OnKeymap (d &&& 3) text) :
    ∃ s, powerUp shipped (List.replicate start (closedAt (dipsOf d)) ++ keysRead (dipsOf d) (movesFor d n text)) = .ok s ∧
      sends s.dev.trace = text ∧ keystrokes s = [] ∧ messages s = [] := by
  obtain ⟨a1, a2, a3, a4⟩ := movesFor_ok hd h1 h2 h
  obtain ⟨s, e1, e2, _, e4, e5⟩ := C104_bounce d hd start hs _ a1 a2 a3
  exact ⟨s, e1, e2.trans a4, e4, e5⟩

/-! ## The boards -/

/-- **C104, the text of the firmware on the ATmega328P interface.**  If the readings of the matrix are
those of a typist with one of the keymaps 0 to 3, the computer has read the text. -/
theorem C104_computer_328 (A : Assembly) (ps : List Place) (h : (A, ps) ∈ boards328 classicPlaces solPlaces)
    (sockets : List (Nat × List (Nat × Signal))) (hA : (A, sockets) ∈ plugged328)
    (k : Nat) (lines : List (Nat × Signal)) (hk : (k, lines) ∈ sockets) (pin : Nat)
    (hpin : (pin, .strobe) ∈ lines) (sw : Nat → Sw → Bool) (W : C.Outside) (hS : SwitchWorld ps sw W)
    (hW : SafeWorld W) (b : Bool) (hb : ∀ t, sw t (.dip 7) = b) (r0 : Regs) (sr : UInt8)
    (polls w n : Nat) (hw : 65536 ≤ w) (hp : polls < w) (hn : 23 ≤ n) :
    ∃ times hi h log, BetweenLooks C.board328 W w n r0 sr polls times ∧ InOrder 0 hi times ∧
      textRun C.board328 W w n r0 sr polls = some h ∧
      hi ≤ h.time ∧ h.found = times.length ∧ h.found ≤ h.ints ∧
      statesOf h = boardStates m328 r0 [.archInit] ++ log ∧
      ∀ d start vs, Setting d → 10 ≤ start →
        readingsAt ps sw times = List.replicate start (closedAt (dipsOf d)) ++ keysRead (dipsOf d) vs →
        Sound (d &&& 3) (dipsOf d) (Session.start d) (vs.map (·.key)) → Steady vs → KeysBrief (d &&& 3) 525 vs →
        ∀ edge v us, AtSocket328 A k lines (boardAfter m328 r0 [.archInit]) v →
          Watches (AtSocket328 A k lines) log us →
          computerReads lines edge v us = sessionText (d &&& 3) (Session.start d) (vs.map (·.key)) := by
  obtain ⟨times, hi, hh, log, e0, e1, e2, e3, e4, e5, e6, e7⟩ := C90_computer_328 A ps h sockets hA k lines hk pin
    hpin sw W hS hW b hb r0 sr polls w n hw hp hn
  refine ⟨times, hi, hh, log, e0, e1, e2, e3, e4, e5, e6, ?_⟩
  intro d start vs hd hs hr hc hst hbr edge v us hv hus
  rw [e7 edge v us hv hus, hr, show (channel _ _).host = _ from (session_received hd hs hc hst hbr).2.2.1, List.map_map]
  exact List.map_id _

/-- **C104, the text of the firmware with the ATmega2560.** -/
theorem C104_computer_2560 (A : Assembly) (ps : List Place) (h : (A, ps) ∈ boards2560 classicPlaces solPlaces)
    (out : Net → Prop) (hout : ∀ n, out n → Outside A n) (cols : (Sw → Bool) → Regs → UInt8)
    (hcols : ∀ closed r, rowReady2560 r →
      ReadsLevels A.links (column2560 A) closed (fun n => Low2560 A r n ∨ out n) (cols closed r))
    (sockets : List (Nat × List (Nat × Signal))) (hA : (A, sockets) ∈ plugged2560)
    (k : Nat) (lines : List (Nat × Signal)) (hk : (k, lines) ∈ sockets) (pin : Nat)
    (hpin : (pin, .strobe) ∈ lines) :
    ∃ f, (∀ closed r, rowReady2560 r → f (closedKeys ps closed) r = cols closed r) ∧
      ∀ (sw : Nat → Sw → Bool) (W : C.Outside), SwitchWorld ps sw W → SafeWorld W →
      ∀ b, (∀ t, sw t (.dip 7) = b) → ∀ (r0 : Regs) (sr : UInt8) (polls w n : Nat),
        65536 ≤ w → polls < w → 23 ≤ n →
        ∃ times hi h log, BetweenLooks (C.board2560 f) W w n r0 sr polls times ∧ InOrder 0 hi times ∧
          textRun (C.board2560 f) W w n r0 sr polls = some h ∧
          hi ≤ h.time ∧ h.found = times.length ∧ h.found ≤ h.ints ∧
          statesOf h = boardStates m2560 r0 [.archInit] ++ log ∧
          ∀ d start vs, Setting d → 10 ≤ start →
            readingsAt ps sw times = List.replicate start (closedAt (dipsOf d)) ++ keysRead (dipsOf d) vs →
            Sound (d &&& 3) (dipsOf d) (Session.start d) (vs.map (·.key)) → Steady vs → KeysBrief (d &&& 3) 525 vs →
            ∀ edge v us, AtSocket2560 A k lines (boardAfter m2560 r0 [.archInit]) v →
              Watches (AtSocket2560 A k lines) log us →
              computerReads lines edge v us = sessionText (d &&& 3) (Session.start d) (vs.map (·.key)) := by
  obtain ⟨f, hf, hrun⟩ := C90_computer_2560 A ps h out hout cols hcols sockets hA k lines hk pin hpin
  refine ⟨f, hf, fun sw W hS hW b hb r0 sr polls w n hw hp hn => ?_⟩
  obtain ⟨times, hi, hh, log, e0, e1, e2, e3, e4, e5, e6, e7⟩ := hrun sw W hS hW b hb r0 sr polls w n hw hp hn
  refine ⟨times, hi, hh, log, e0, e1, e2, e3, e4, e5, e6, ?_⟩
  intro d start vs hd hs hr hc hst hbr edge v us hv hus
  rw [e7 edge v us hv hus, hr, show (channel _ _).host = _ from (session_received hd hs hc hst hbr).2.2.1, List.map_map]
  exact List.map_id _

/-! ## Non-vacuity -/

instance decHeldFor (d : Nat) (z : Nat × Nat) : (o : Option Nat) → (vs : List KeyMove) → Decidable (HeldFor d z o vs)
  | none, [] => inferInstanceAs (Decidable True)
  | some a, [] => inferInstanceAs (Decidable (a ≤ d))
  | none, v :: vs => decHeldFor d z (if v.key = z then some v.scans else none) vs
  | some a, v :: vs =>
    have := decHeldFor d z none vs
    have := decHeldFor d z (some (a + v.scans)) vs
    inferInstanceAs (Decidable (if v.key = z then a + v.bounce.length ≤ d ∧ HeldFor d z none vs
      else HeldFor d z (some (a + v.scans)) vs))

theorem heldFor_never {d : Nat} {z : Nat × Nat} {vs : List KeyMove} (h : ∀ v ∈ vs, v.key ≠ z) : HeldFor d z none vs := by
  induction vs with
  | nil => trivial
  | cons v vs ih =>
    unfold HeldFor
    rw [if_neg (h v List.mem_cons_self)]
    exact ih fun w hw => h w (List.mem_cons_of_mem _ hw)

/-- Only the keys that move need be looked at. -/
theorem keysBrief_of {i : UInt8} {d : Nat} {vs : List KeyMove}
    (h : ∀ v ∈ vs, ¬ IsModKey fourMaps openLayout i v.key.1 v.key.2 → HeldFor d v.key none vs) : KeysBrief i d vs := by
  intro z hz
  by_cases e : ∃ v ∈ vs, v.key = z
  · obtain ⟨v, hv, rfl⟩ := e
    exact h v hv hz
  · exact heldFor_never fun v hv e' => e ⟨v, hv, e'⟩

/-- Keymap 2 (caps lock is on at first) with DIP switches 1, 6 and 7 closed, on contacts that bounce: `A` is
pressed, caps lock released before `A` is, then `b`, and with SHIFT, which is released before its key, `!`. -/
def bouncyMoves : List KeyMove :=
  [⟨(1, 6), [true, false], 40⟩, ⟨(0, 0), [true, false, true, true, false], 12⟩, ⟨(1, 6), [false, true, true], 10⟩,
   ⟨(0, 0), [], 10⟩, ⟨(2, 4), [true, false, false], 500⟩, ⟨(2, 4), [false], 30⟩, ⟨(0, 1), [], 15⟩,
   ⟨(7, 7), [false, false, true], 20⟩, ⟨(0, 1), [true], 11⟩, ⟨(7, 7), [true, true, true, true, true, true, true, true, false], 10⟩]

example : Setting 0xC2 ∧ Sound (0xC2 &&& 3) (dipsOf 0xC2) (Session.start 0xC2) (bouncyMoves.map (·.key)) ∧ Steady bouncyMoves ∧
    KeysBrief (0xC2 &&& 3) 525 bouncyMoves ∧
    sessionText (0xC2 &&& 3) (Session.start 0xC2) (bouncyMoves.map (·.key)) = [ch 'A', ch 'b', ch '!'] := by
  refine ⟨rfl, by decide +kernel, ?_, keysBrief_of (by decide +kernel), by decide +kernel⟩
  unfold Steady
  decide +kernel

example : OnKeymap 2 ("Hello, {world}".toList.map ch) ∧ OnKeymap 1 ("10 PRINT \"A\"".toList.map ch) := by
  constructor <;> unfold OnKeymap <;> decide

end Asdf.Props
