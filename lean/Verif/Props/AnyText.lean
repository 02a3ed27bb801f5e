import Verif.Props.AnyBoard
import Verif.Props.EveryText
import Verif.Lemmas.AnyText

/-! # Property C106: every text that is on the keys of a board can be typed on it -/

namespace Asdf.Props

open Avr Spec Pcb Movers

/-! ## Worlds with moving keys -/

/-- The switches move in this way; the rest of the world is given. -/
def boardWorld (ps : List Place) (d : UInt8) (other : Nat → Port → UInt8) (fires : Nat → Bool) (ms : List SpotMove) : C.Outside :=
  ⟨fun t => closedKeys ps (switchesFor ps (dipsOf d) ms t), other, fires⟩

theorem boardWorld_switch (ps : List Place) (d : UInt8) (other : Nat → Port → UInt8) (fires : Nat → Bool) (ms : List SpotMove) :
    SwitchWorld ps (switchesFor ps (dipsOf d) ms) (boardWorld ps d other fires ms) := fun _ => rfl

theorem board_inj {ps : List Place} (hps : ps ∈ [classicPlaces, solPlaces]) : ∀ p ∈ ps, ∀ q ∈ ps, p.sw = q.sw → p = q := by
  rcases List.mem_cons.mp hps with rfl | h
  · exact places_inj
  · rw [List.mem_singleton.mp h]
    decide +kernel

section
variable {ps : List Place} (hps : ps ∈ [classicPlaces, solPlaces]) {d : UInt8} (hd : Setting d)
include hps hd

theorem boardWorld_safe (other : Nat → Port → UInt8) (fires : Nat → Bool) {ms : List SpotMove}
    (hr : ∀ m ∈ ms, m.key.1 < 8) : SafeWorld (boardWorld ps d other fires ms) :=
  dips_safe hps hd (boardWorld_switch ps d other fires ms) fun t =>
    dips_still (move_switchesFor (board_inj hps) _ ms) hr t

end

theorem switchesFor_snoc (ps : List Place) (d : UInt8) (ms : List SpotMove) (m : SpotMove) {t : Nat} (h1 : t < m.begins) (h2 : t < m.ends) :
    switchesFor ps (dipsOf d) (ms ++ [m]) t = switchesFor ps (dipsOf d) ms t := by
  funext s
  unfold switchesFor
  congr 1
  funext p
  have a : ((ms ++ [m]).any fun m => m.key == spotOf p && decide (m.begins ≤ t) && decide (t < m.ends)) =
      ms.any fun m => m.key == spotOf p && decide (m.begins ≤ t) && decide (t < m.ends) := by
    have : decide (m.begins ≤ t) = false := decide_eq_false (by omega)
    simp only [List.any_append, List.any_cons, List.any_nil, this, Bool.and_false, Bool.false_and, Bool.or_false]
  have b : ((ms ++ [m]).countP fun m => m.key = spotOf p ∧ m.ends ≤ t) = ms.countP fun m => m.key = spotOf p ∧ m.ends ≤ t := by
    rw [List.countP_append]
    have : List.countP (fun m => decide (m.key = spotOf p ∧ m.ends ≤ t)) [m] = 0 := by
      rw [List.countP_eq_zero]
      intro x hx
      cases List.mem_singleton.mp hx
      simp only [decide_eq_true_eq]
      omega
    omega
  rw [a, b]

theorem boardWorld_same (ps : List Place) (d : UInt8) (other : Nat → Port → UInt8) (fires : Nat → Bool) (ms : List SpotMove) (m : SpotMove) {t : Nat}
    (h1 : t < m.begins) (h2 : t < m.ends) : C.SameUntil t (boardWorld ps d other fires ms) (boardWorld ps d other fires (ms ++ [m])) := by
  intro u hu
  refine ⟨?_, rfl, rfl⟩
  show closedKeys ps (switchesFor ps (dipsOf d) ms u) = closedKeys ps (switchesFor ps (dipsOf d) (ms ++ [m]) u)
  rw [switchesFor_snoc ps d ms m (by omega) (by omega)]

/-! ## Moving a key after every twenty scans -/

section
variable {ps : List Place} {d : UInt8}

/-- The key that moves as number `i` moves right after the look that finds scan number `20 * (i + 1)` done. -/
structure SpacedRun (ps : List Place) (d : UInt8) (X : C.Board) (other : Nat → Port → UInt8) (fires : Nat → Bool) (r0 : Regs) (sr : UInt8)
    (ms : List SpotMove) : Prop where
  rows : ∀ m ∈ ms, m.key.1 < 8
  looks : ∀ (i : Nat) (hi : i < ms.length), ∃ q g, AtLook X (boardWorld ps d other fires ms) r0 sr q g ∧ g.found = 20 * (i + 1) ∧
    ms[i].begins = g.time + 1 ∧ ms[i].ends = g.time + 1

variable (hps : ps ∈ [classicPlaces, solPlaces]) (hd : Setting d)
include hps hd

theorem spaced_snoc {X : C.Board} {B : Board} {T : Whole.Target} (hX : Compiled X B T) {other : Nat → Port → UInt8}
    {fires : Nat → Bool} (hT : Ticking fires) {r0 : Regs} {sr : UInt8} {ms : List SpotMove}
    (h : SpacedRun ps d X other fires r0 sr ms) (z : Nat × Nat) (hz : z.1 < 8) :
    ∃ m, m.key = z ∧ SpacedRun ps d X other fires r0 sr (ms ++ [m]) := by
  have hW := boardWorld_safe hps hd other fires h.rows
  obtain ⟨q, g, e, hf⟩ := C100_ticking X B T hX _ hW hT r0 sr (20 * (ms.length + 1))
  have hsame := boardWorld_same ps d other fires ms ⟨z, g.time + 1, g.time + 1⟩ (Nat.lt_succ_self g.time) (Nat.lt_succ_self g.time)
  refine ⟨⟨z, g.time + 1, g.time + 1⟩, rfl, ?_, fun i hi => ?_⟩
  · intro m hm
    rcases List.mem_append.mp hm with hm | hm
    · exact h.rows m hm
    · cases List.mem_singleton.mp hm
      exact hz
  · rw [List.length_append] at hi
    by_cases hlt : i < ms.length
    · obtain ⟨q', g', e', hf', h1, h2⟩ := h.looks i hlt
      refine ⟨q', g', look_same hX hsame e' (looks_order hX hW e' e (by omega)).2, hf', ?_, ?_⟩
      · rw [List.getElem_append_left hlt]; exact h1
      · rw [List.getElem_append_left hlt]; exact h2
    · have : i = ms.length := by
        have : ([⟨z, g.time + 1, g.time + 1⟩] : List SpotMove).length = 1 := rfl
        omega
      subst this
      refine ⟨q, g, look_same hX hsame e (Nat.le_refl _), hf, ?_, ?_⟩ <;>
        rw [List.getElem_append_right (Nat.le_refl _)] <;> simp

theorem spaced_exists {X : C.Board} {B : Board} {T : Whole.Target} (hX : Compiled X B T) {other : Nat → Port → UInt8}
    {fires : Nat → Bool} (hT : Ticking fires) (r0 : Regs) (sr : UInt8) (zs : List (Nat × Nat)) (hz : ∀ z ∈ zs, z.1 < 8) :
    ∃ ms : List SpotMove, ms.map (·.key) = zs ∧ SpacedRun ps d X other fires r0 sr ms := by
  have key : ∀ (zs : List (Nat × Nat)) (ms : List SpotMove), SpacedRun ps d X other fires r0 sr ms → (∀ z ∈ zs, z.1 < 8) →
      ∃ ms' : List SpotMove, ms'.map (·.key) = ms.map (·.key) ++ zs ∧ SpacedRun ps d X other fires r0 sr ms' := by
    intro zs
    induction zs with
    | nil => exact fun ms h _ => ⟨ms, (List.append_nil _).symm, h⟩
    | cons z zs ih =>
      intro ms h hz
      obtain ⟨m, hm, h'⟩ := spaced_snoc hps hd hX hT h z (hz z List.mem_cons_self)
      obtain ⟨ms', h1, h2⟩ := ih _ h' fun x hx => hz x (List.mem_cons_of_mem _ hx)
      refine ⟨ms', ?_, h2⟩
      rw [h1, List.map_append, List.map_cons, hm, List.map_nil, List.append_assoc]
      rfl
  exact key zs [] ⟨fun _ h => (List.not_mem_nil h).elim, fun i hi => absurd hi (Nat.not_lt_zero i)⟩ hz

/-! ## The same, counted in scans -/

/-- The next key moves after `c` scans, and then one after every 20 scans. -/
def Spaced (times : List (Nat → Nat)) : Nat → List SpotMove → Prop
  | c, [] => c ≤ times.length
  | c, m :: ms => m.ends = m.begins ∧ (∀ row, scansBefore times row m.begins = c) ∧ Spaced times (c + 20) ms

theorem spaced_times {X : C.Board} {B : Board} {T : Whole.Target} (hX : Compiled X B T) {other : Nat → Port → UInt8}
    {fires : Nat → Bool} {r0 : Regs} {sr : UInt8} {ms : List SpotMove} (h : SpacedRun ps d X other fires r0 sr ms) {polls w n : Nat}
    {g : C.Hw} (e : AtLook X (boardWorld ps d other fires ms) r0 sr polls g) (hf : 20 * (ms.length + 1) ≤ g.found)
    (hw : 65536 ≤ w) (hp : polls < w) (hn : 23 ≤ n) {times : List (Nat → Nat)}
    (hl : g.found = times.length)
    (hb : BetweenLooks X (boardWorld ps d other fires ms) w n r0 sr polls times) : Spaced times 20 ms := by
  have hW := boardWorld_safe hps hd other fires h.rows
  have key : ∀ (k : Nat) (rest : List SpotMove), (∀ (i : Nat) (hi : i < rest.length), ∃ q g, AtLook X (boardWorld ps d other fires ms) r0 sr q g ∧
      g.found = 20 * (k + i + 1) ∧ rest[i].begins = g.time + 1 ∧ rest[i].ends = g.time + 1) →
      20 * (k + rest.length + 1) ≤ times.length → Spaced times (20 * (k + 1)) rest := by
    intro k rest
    induction rest generalizing k with
    | nil => exact fun _ hl => hl
    | cons m rest ih =>
      intro hr hlen
      rw [List.length_cons] at hlen
      obtain ⟨q, u, eu, fu, h1, h2⟩ := hr 0 (Nat.succ_pos _)
      have h1 : m.begins = u.time + 1 := h1
      have h2 : m.ends = u.time + 1 := h2
      refine ⟨by omega, fun row => ?_, ?_⟩
      · obtain ⟨u', eu', hle, hbt⟩ := hb q (looks_order hX hW eu e (by omega)).1
        rw [eu w n hw (by have := (looks_order hX hW eu e (by omega)).1; omega) hn] at eu'
        cases eu'
        refine scansBefore_eq (by omega) fun i hi => ?_
        obtain ⟨b1, b2⟩ := hbt i hi row
        refine ⟨fun hlt => ?_, fun hge => ?_⟩
        · have := b1 (by omega)
          omega
        · have := b2 (by omega)
          omega
      · have := ih (k + 1) (fun i hi => by
          obtain ⟨q, u, eu, fu, h1, h2⟩ := hr (i + 1) (by rw [List.length_cons]; omega)
          exact ⟨q, u, eu, by omega, h1, h2⟩) (by omega)
        rw [show 20 * (k + 1) + 20 = 20 * (k + 1 + 1) by omega]
        exact this
  have := key 0 ms (fun i hi => by rw [Nat.zero_add]; exact h.looks i hi) (by omega)
  exact this

omit hps hd in
theorem spaced_timing {times : List (Nat → Nat)} {ms : List SpotMove} : ∀ {c}, Spaced times c ms → GoodTimes times ms ∧
    c ≤ untilMove times ms := by
  induction ms with
  | nil => exact fun h => ⟨trivial, h⟩
  | cons m ms ih =>
    intro c h
    obtain ⟨h1, h2, h3⟩ := h
    obtain ⟨i1, i2⟩ := ih h3
    have h2 := h2 m.key.1
    refine ⟨⟨Nat.le_of_eq h1.symm, ?_, ?_, i1⟩, ?_⟩
    · rw [h1]; omega
    · rw [h1]; omega
    · show c ≤ scansBefore times m.key.1 m.begins
      omega

end

/-! ## The keys of a text -/

theorem spots_typed {ps : List Place} (hps : ps ∈ [classicPlaces, solPlaces]) {d : UInt8} (hd : Setting d)
    {text : List Code} (h : ∀ x ∈ text, OnKeyOf ps (d &&& 3) x) :
    Sound (d &&& 3) (dipsOf d) (Session.start d) (spotsFor (d &&& 3) text) ∧
      sessionText (d &&& 3) (Session.start d) (spotsFor (d &&& 3) text) = text ∧
      twice (d &&& 3) (spotsFor (d &&& 3) text) = true ∧
      ∀ z ∈ spotsFor (d &&& 3) text, ∃ p ∈ ps, spotOf p = z := by
  have hi : (d &&& 3).toNat < 4 := by
    have := map_small d.toNat d.toNat_lt
    rwa [UInt8.ofNat_toNat] at this
  obtain ⟨a1, a2, a3⟩ := spots_ok hi text fun x hx => (typable_of hps hi (h x hx)).1
  obtain ⟨b1, b2⟩ := sound_dips (dip_codes hd) a1 fun y hy => (by cases hy)
  refine ⟨b1, b2.trans a2, a3, fun z hz => ?_⟩
  obtain ⟨x, hx, hz⟩ := List.mem_flatMap.mp hz
  exact (typable_of hps hi (h x hx)).2 z hz

theorem spaced_held {times : List (Nat → Nat)} {i : UInt8} {z : Nat × Nat} (hz : ¬ IsModKey fourMaps openLayout i z.1 z.2) :
    ∀ {ms : List SpotMove} {c : Nat}, Spaced times c ms → twice i (ms.map (·.key)) = true → HeldScans times 525 z none ms
  | [], _, _, _ => trivial
  | m :: ms, c, h, hp => by
    obtain ⟨h1, h2, h3⟩ := h
    rw [List.map_cons] at hp
    unfold twice at hp
    show HeldScans times 525 z (if m.key = z then some (scansBefore times z.1 m.begins) else none) ms
    by_cases hk : modKeyB i m.key = true
    · rw [if_pos hk] at hp
      rw [if_neg fun e : m.key = z => hz (by rw [← e]; exact modKeyB_iff.mp hk)]
      exact spaced_held hz h3 hp
    · rw [if_neg hk] at hp
      cases ms with
      | nil => cases hp
      | cons m' ms =>
        simp only [List.map_cons, Bool.and_eq_true, beq_iff_eq] at hp
        obtain ⟨g1, g2, g3⟩ := h3
        have ih := spaced_held hz g3 hp.2
        by_cases e : m.key = z
        · rw [if_pos e]
          show if m'.key = z then scansBefore times z.1 m'.ends ≤ _ + 525 ∧ HeldScans times 525 z none ms else _
          rw [if_pos (hp.1 ▸ e), h2, g1, g2]
          exact ⟨by omega, ih⟩
        · rw [if_neg e]
          show HeldScans times 525 z (if m'.key = z then some (scansBefore times z.1 m'.begins) else none) ms
          rw [if_neg (hp.1 ▸ e)]
          exact ih
  termination_by ms => ms.length

/-! ## The text arrives -/

/-- The looks and the scans of a run during which a text is typed. -/
theorem text_spaced {X : C.Board} {B : Board} {T : Whole.Target} (hX : Compiled X B T) {ps : List Place}
    (hps : ps ∈ [classicPlaces, solPlaces]) {d : UInt8} (hd : Setting d) (other : Nat → Port → UInt8)
    (fires : Nat → Bool) (hT : Ticking fires) (r0 : Regs) (sr : UInt8) (text : List Code)
    (h : ∀ x ∈ text, OnKeyOf ps (d &&& 3) x) :
    ∃ ms last, SafeWorld (boardWorld ps d other fires ms) ∧ ms.map (·.key) = spotsFor (d &&& 3) text ∧
      ∀ polls, last ≤ polls → ∃ g, AtLook X (boardWorld ps d other fires ms) r0 sr polls g ∧
      ∀ times w n, 65536 ≤ w → polls < w → 23 ≤ n → g.found = times.length →
        BetweenLooks X (boardWorld ps d other fires ms) w n r0 sr polls times → Hands ps d times ms := by
  obtain ⟨t1, t2, t3, t4⟩ := spots_typed hps hd h
  obtain ⟨ms, hk, hm⟩ := spaced_exists hps hd hX (other := other) hT r0 sr (spotsFor (d &&& 3) text) (sound_rows _ _ t1)
  have hW := boardWorld_safe hps hd other fires hm.rows
  obtain ⟨last, g0, e0, hf⟩ := C100_ticking X B T hX _ hW hT r0 sr (20 * (ms.length + 1))
  refine ⟨ms, last, hW, hk, fun polls hle => ?_⟩
  obtain ⟨d, rfl⟩ : ∃ d, polls = last + d := ⟨polls - last, by omega⟩
  obtain ⟨g, e⟩ := C100_looks X B T hX _ hW r0 sr (last + d)
  have hf : 20 * (ms.length + 1) ≤ g.found := by
    have := (looks_mono hX hW e0 d e).1
    omega
  refine ⟨g, e, ?_⟩
  intro times w n hw hp hn hl hb
  have hP := spaced_times hps hd hX hm e hf hw hp hn hl hb
  have hQ := spaced_timing hP
  exact ⟨hd, fun m hm => t4 _ (by rw [← hk]; exact List.mem_map_of_mem hm), by rw [hk]; exact t1,
    Nat.le_trans (by omega) hQ.2, hQ.1, fun z hz => spaced_held hz hP (by rw [hk]; exact t3)⟩

/-- **C106, on the ATmega328P interface.**  Each keyboard in any electrical state at power-up, run by the
text of the firmware, with the DIP switches set to one of the keymaps 0 to 3, with a timer that does not
stop and anything at the other pins.  For every text whose characters are on the keys of this keyboard
there are times to press and release its keys, one after the other, so that from some time on the computer
has read exactly this text. -/
theorem C106_every_text_328 (A : Assembly) (ps : List Place) (h : (A, ps) ∈ boards328 classicPlaces solPlaces)
    (sockets : List (Nat × List (Nat × Signal))) (hA : (A, sockets) ∈ plugged328)
    (k : Nat) (lines : List (Nat × Signal)) (hk : (k, lines) ∈ sockets) (pin : Nat)
    (hpin : (pin, .strobe) ∈ lines) (d : UInt8) (hd : Setting d) (other : Nat → Port → UInt8) (fires : Nat → Bool)
    (hT : Ticking fires) (r0 : Regs) (sr : UInt8) (text : List Code) (ht : ∀ x ∈ text, OnKeyOf ps (d &&& 3) x) :
    ∃ (sw : Nat → Sw → Bool) (ms : List SpotMove) (last : Nat),
      SwitchesMove ps (dipsOf d) sw ms ∧ Sound (d &&& 3) (dipsOf d) (Session.start d) (ms.map (·.key)) ∧
      sessionText (d &&& 3) (Session.start d) (ms.map (·.key)) = text ∧
      ∀ polls, last ≤ polls → ∃ (hh : C.Hw) (log : List Regs),
      AtLook C.board328 ⟨fun t => closedKeys ps (sw t), other, fires⟩ r0 sr polls hh ∧
      statesOf hh = boardStates m328 r0 [.archInit] ++ log ∧
      ∀ edge v vs, AtSocket328 A k lines (boardAfter m328 r0 [.archInit]) v →
        Watches (AtSocket328 A k lines) log vs → computerReads lines edge v vs = text := by
  have hps := boards328_places h
  obtain ⟨ms, last, _, hk', hl⟩ := text_spaced (.inl ⟨rfl, rfl, rfl⟩) hps hd other fires hT r0 sr text ht
  obtain ⟨ho, hx, _⟩ := spots_typed hps hd ht
  rw [← hk'] at ho hx
  have hF := move_switchesFor (board_inj hps) (dipsOf d) ms
  refine ⟨_, ms, last, hF, ho, hx, fun polls hle => ?_⟩
  obtain ⟨g, e, hC⟩ := hl polls hle
  obtain ⟨times, hi, hh, log, e0, e1, e2, e3, e4, e5, e6, e7⟩ := C105_computer_328 A ps h sockets hA k lines hk pin hpin
    _ (boardWorld ps d other fires ms) (boardWorld_switch _ _ _ _ _) d hd ms hF ho r0 sr polls (65536 + polls) 23
    (by omega) (by omega) (by omega)
  rw [e _ 23 (by omega) (by omega) (by omega)] at e2
  cases e2
  refine ⟨_, log, e, e6, ?_⟩
  rw [← hx]
  exact e7 (hC times (65536 + polls) 23 (by omega) (by omega) (by omega) e4 e0)

/-- **C106, with the ATmega2560.** -/
theorem C106_every_text_2560 (A : Assembly) (ps : List Place) (h : (A, ps) ∈ boards2560 classicPlaces solPlaces)
    (out : Net → Prop) (hout : ∀ n, out n → Outside A n) (cols : (Sw → Bool) → Regs → UInt8)
    (hcols : ∀ closed r, rowReady2560 r →
      ReadsLevels A.links (column2560 A) closed (fun n => Low2560 A r n ∨ out n) (cols closed r))
    (sockets : List (Nat × List (Nat × Signal))) (hA : (A, sockets) ∈ plugged2560)
    (k : Nat) (lines : List (Nat × Signal)) (hk : (k, lines) ∈ sockets) (pin : Nat)
    (hpin : (pin, .strobe) ∈ lines) :
    ∃ f, (∀ closed r, rowReady2560 r → f (closedKeys ps closed) r = cols closed r) ∧
      ∀ d, Setting d → ∀ (other : Nat → Port → UInt8) (fires : Nat → Bool), Ticking fires →
      ∀ (r0 : Regs) (sr : UInt8) (text : List Code), (∀ x ∈ text, OnKeyOf ps (d &&& 3) x) →
        ∃ (sw : Nat → Sw → Bool) (ms : List SpotMove) (last : Nat),
          SwitchesMove ps (dipsOf d) sw ms ∧ Sound (d &&& 3) (dipsOf d) (Session.start d) (ms.map (·.key)) ∧
          sessionText (d &&& 3) (Session.start d) (ms.map (·.key)) = text ∧
          ∀ polls, last ≤ polls → ∃ (hh : C.Hw) (log : List Regs),
          AtLook (C.board2560 f) ⟨fun t => closedKeys ps (sw t), other, fires⟩ r0 sr polls hh ∧
          statesOf hh = boardStates m2560 r0 [.archInit] ++ log ∧
          ∀ edge v vs, AtSocket2560 A k lines (boardAfter m2560 r0 [.archInit]) v →
            Watches (AtSocket2560 A k lines) log vs → computerReads lines edge v vs = text := by
  have hps := boards2560_places h
  obtain ⟨f, hf, hfc⟩ := columns_2560 A _ h out hout cols hcols
  refine ⟨f, hfc, fun d hd other fires hT r0 sr text ht => ?_⟩
  have hX : Compiled (C.board2560 f) m2560 (Whole.target2560 f) := .inr ⟨f, hf, rfl, rfl, rfl⟩
  obtain ⟨ms, last, hW, hk', hl⟩ := text_spaced hX hps hd other fires hT r0 sr text ht
  obtain ⟨ho, hx, _⟩ := spots_typed hps hd ht
  rw [← hk'] at ho hx
  have hF := move_switchesFor (board_inj hps) (dipsOf d) ms
  refine ⟨_, ms, last, hF, ho, hx, fun polls hle => ?_⟩
  obtain ⟨g, e, hC⟩ := hl polls hle
  have hs := fun t => dips_still hF (fun m hm => sound_rows _ _ ho _ (List.mem_map_of_mem hm)) t
  obtain ⟨times, hi, hh, log, e0, e1, e2, e3, e4, e5, e6, e7⟩ := text_watched hX hps
    (boardWorld_switch ps d other fires ms) hW (dips_dip7 hps hs) r0 sr (polls := polls) (w := 65536 + polls) (n := 23)
    (by omega) (by omega) (by omega)
  rw [e _ 23 (by omega) (by omega) (by omega)] at e2
  cases e2
  refine ⟨_, log, e, e6, fun edge v vs hv hvs => ?_⟩
  rw [e7 lines pin hpin
    (seven_lines _ (List.mem_append_right _ hA) _ hk (List.any_eq_true.mpr ⟨_, hpin, rfl⟩)) edge v vs
    (shows_2560 hA hk hv) (watches_mono (fun _ _ => shows_2560 hA hk) hvs),
    show (channel _ _).host = _ from hands_received e1 hps hF
      (hC times (65536 + polls) 23 (by omega) (by omega) (by omega) e4 e0), List.map_map, hx]
  exact List.map_id _

/-- **C106, nothing else.**  However the keys of a keyboard are moved with care, every character that is
typed is on one of its keys. -/
theorem C106_nothing_else (ps : List Place) (d : UInt8) (times : List (Nat → Nat)) (ms : List SpotMove)
    (hH : Hands ps d times ms) :
    ∀ x ∈ sessionText (d &&& 3) (Session.start d) (ms.map (·.key)), OnKeyOf ps (d &&& 3) x := by
  have key : ∀ (zs : List (Nat × Nat)) (s : Session), (∀ z ∈ zs, ∃ p ∈ ps, spotOf p = z) →
      Sound (d &&& 3) (dipsOf d) s zs → ∀ x ∈ sessionText (d &&& 3) s zs, OnKeyOf ps (d &&& 3) x := by
    intro zs
    induction zs with
    | nil => exact fun _ _ _ x hx => (List.not_mem_nil hx).elim
    | cons z zs ih =>
      intro s ht ho x hx
      obtain ⟨hM, ho⟩ := ho
      rcases List.mem_append.mp hx with hx | hx
      · unfold Session.text at hx
        by_cases hz : z ∈ s.down
        · rw [if_pos hz] at hx
          exact (List.not_mem_nil hx).elim
        · rw [if_neg hz] at hx
          by_cases hc : isModCode (s.code (d &&& 3) z) = true
          · rw [if_pos hc] at hx
            exact (List.not_mem_nil hx).elim
          · rw [if_neg hc] at hx
            rw [List.mem_singleton.mp hx]
            obtain ⟨p, hp, e⟩ := ht z List.mem_cons_self
            rcases hM.2.2.1.press (decide_eq_false hz) (decide_eq_true hz) with ⟨y, h1, h2⟩ | ⟨h1, _⟩
            · exact absurd (by rw [← h2 s.hand.mods] at h1; exact h1) hc
            · refine ⟨h1, p, hp, ?_, s.hand.mods.held || s.hand.mods.locked, s.hand.mods.caps, s.hand.mods.ctrl, ?_⟩
              · have := hM.1
                rw [← e] at this
                exact this
              · rw [← e]
                rfl
      · exact ih _ (fun y hy => ht y (List.mem_cons_of_mem _ hy)) ho x hx
  refine key _ _ (fun z hz => ?_) hH.order
  obtain ⟨m, hm, rfl⟩ := List.mem_map.mp hz
  exact hH.there m hm

/-! ## Non-vacuity -/

example : ∀ x ∈ "Hello, {world}".toList.map ch, OnKeyOf classicPlaces 2 x := by decide +kernel

/-- On the Sol keyboard `S` and `D` of these keymaps have no key. -/
example : (∀ x ∈ "10 PRINT \"A\"".toList.map ch, OnKeyOf solPlaces 1 x) ∧ ¬ OnKeyOf solPlaces 1 (ch 'S') := by decide +kernel

end Asdf.Props
