import Verif.Lemmas.GhostFactsEnc
import Verif.Props.Matrix

/-! # Property C119: a keyboard without diodes -/

namespace Asdf.Props

open Avr Spec Pcb

theorem ghosts328 {x : Assembly × List Place × (Sw → Bool)} (h : x ∈ bare328 true) :
    (∃ R ds ws row, Ghosts.boardOk328 x.1 R ds x.2.2 x.2.1 ws row = true) ∧
      (x.1, x.2.1) ∈ boards328 classicPlaces solPlaces := by
  simp only [bare328, List.mem_cons, List.not_mem_nil, or_false] at h
  rcases h with rfl | rfl
  · exact ⟨⟨_, _, _, _, Ghosts.classic328_ok⟩, by simp [boards328]⟩
  · exact ⟨⟨_, _, _, _, Ghosts.sol328_ok⟩, by simp [boards328]⟩

theorem ghosts2560 {x : Assembly × List Place × (Sw → Bool)} (h : x ∈ bare2560 true) :
    (∃ R ds ws row, Ghosts.boardOk2560 x.1 R ds x.2.2 x.2.1 ws row = true) ∧
      (x.1, x.2.1) ∈ boards2560 classicPlaces solPlaces := by
  simp only [bare2560, List.mem_cons, List.not_mem_nil, or_false] at h
  rcases h with rfl | rfl | rfl | rfl
  · exact ⟨⟨_, _, _, _, Ghosts.classic2560_ok⟩, by simp [boards2560]⟩
  · exact ⟨⟨_, _, _, _, Ghosts.sol2560_ok⟩, by simp [boards2560]⟩
  · exact ⟨⟨_, _, _, _, Ghosts.classicEnc_ok⟩, by simp [boards2560]⟩
  · exact ⟨⟨_, _, _, _, Ghosts.solEnc_ok⟩, by simp [boards2560]⟩

/-- **C119 on the ATmega328P.**  A keyboard without diodes, on the interface with the diodes of the rows:
whatever switches are closed, a column line is low exactly when closed switches join it to the selected
row. -/
theorem C119_columns_328 (A : Assembly) (ps : List Place) (g : Sw → Bool) (h : (A, ps, g) ∈ bare328 true)
    (r : Regs) (hr : ∀ p ∈ rowPins328, isOutput r p = true) (q : Bool) (closed : Sw → Bool) (ext : Net → Prop)
    (hext : ∀ n, ext n → Outside A n) (c : Nat) (hc : c < 8) :
    ∃ n, column328 A c = some n ∧
      (PulledLow (bare A) closed (fun n => Low328 A r q n ∨ ext n) n ↔
        Reaches ps g closed (fun k => M328.rowLines r = k) (.col c)) := by
  obtain ⟨⟨R, ds, ws, row, hok⟩, _⟩ := ghosts328 h
  have hm := hok
  simp only [Ghosts.boardOk328, Bool.and_eq_true] at hm
  obtain ⟨n, hn, _⟩ := (Ghosts.matrix_lines hm.1.1.1.1).1 c hc
  exact ⟨n, hn, (Ghosts.board328 hok hr q closed hext).1 c n hc hn⟩

/-- **C119 on the ATmega2560.**  The same, for any set of row lines driven low at once. -/
theorem C119_columns_2560 (A : Assembly) (ps : List Place) (g : Sw → Bool) (h : (A, ps, g) ∈ bare2560 true)
    (r : Regs) (hr : rowReady2560 r) (closed : Sw → Bool) (ext : Net → Prop)
    (hext : ∀ n, ext n → Outside A n) (c : Nat) (hc : c < 8) :
    ∃ n, column2560 A c = some n ∧
      (PulledLow (bare A) closed (fun n => Low2560 A r n ∨ ext n) n ↔
        Reaches ps g closed (fun k => drive r (rowLine2560 k) = .low) (.col c)) := by
  obtain ⟨⟨R, ds, ws, row, hok⟩, _⟩ := ghosts2560 h
  have hm := hok
  simp only [Ghosts.boardOk2560, Bool.and_eq_true] at hm
  obtain ⟨n, hn, _⟩ := (Ghosts.matrix_lines hm.1.1.1).1 c hc
  exact ⟨n, hn, (Ghosts.board2560 hok hr closed hext).1 c n hc hn⟩

/-- **C119, no fights.**  With the diodes of the rows, the output that drives a row is low exactly when it
pulls low itself, whatever switches are closed: no low output is connected to a high one. -/
theorem C119_drivers_328 (A : Assembly) (ps : List Place) (g : Sw → Bool) (h : (A, ps, g) ∈ bare328 true)
    (r : Regs) (hr : ∀ p ∈ rowPins328, isOutput r p = true) (q : Bool) (closed : Sw → Bool) (ext : Net → Prop)
    (hext : ∀ n, ext n → Outside A n) (k : Nat) (hk : k < 16) :
    ∃ n, driver328 A k = some n ∧
      (PulledLow (bare A) closed (fun n => Low328 A r q n ∨ ext n) n ↔ M328.rowLines r = k) := by
  obtain ⟨⟨R, ds, ws, row, hok⟩, _⟩ := ghosts328 h
  have hm := hok
  simp only [Ghosts.boardOk328, Bool.and_eq_true] at hm
  obtain ⟨n, _, hn, _⟩ := (Ghosts.matrix_lines hm.1.1.1.1).2 k hk
  exact ⟨n, hn, (Ghosts.board328 hok hr q closed hext).2 k n hk hn⟩

theorem C119_drivers_2560 (A : Assembly) (ps : List Place) (g : Sw → Bool) (h : (A, ps, g) ∈ bare2560 true)
    (r : Regs) (hr : rowReady2560 r) (closed : Sw → Bool) (ext : Net → Prop)
    (hext : ∀ n, ext n → Outside A n) (k : Nat) (hk : k < 16) :
    ∃ n, driver2560 A k = some n ∧
      (PulledLow (bare A) closed (fun n => Low2560 A r n ∨ ext n) n ↔ drive r (rowLine2560 k) = .low) := by
  obtain ⟨⟨R, ds, ws, row, hok⟩, _⟩ := ghosts2560 h
  have hm := hok
  simp only [Ghosts.boardOk2560, Bool.and_eq_true] at hm
  obtain ⟨n, _, hn, _⟩ := (Ghosts.matrix_lines hm.1.1.1).2 k hk
  exact ⟨n, hn, (Ghosts.board2560 hok hr closed hext).2 k n hk hn⟩

/-- The rows that can be joined when there is no open corner. -/
theorem joined_closed {ps : List Place} {g closed : Sw → Bool} {sel : Nat → Prop} (h : ¬ OpenCorner ps g closed)
    {L : MatrixLine} (hL : Reaches ps g closed sel L) :
    match L with
    | .row r => sel r ∨ ∃ r0, sel r0 ∧ ∃ q ∈ ps, closed q.sw = true ∧ g q.sw = false ∧ q.row = r ∧
        ClosedAt ps closed r0 q.col
    | .col c => ∃ r0, sel r0 ∧ ClosedAt ps closed r0 c := by
  induction hL with
  | selected hs => exact .inl hs
  | @toColumn s hp hc _ ih =>
    rcases ih with ih | ⟨r0, hr0, q, hq, k1, k2, k3, p, hp0, k4, k5, k6⟩
    · exact ⟨_, ih, s, hp, rfl, rfl, hc⟩
    · refine ⟨r0, hr0, ?_⟩
      by_cases hh : ClosedAt ps closed r0 s.col
      · exact hh
      · exact absurd ⟨p, hp0, q, hq, s, hp, k6, k1, hc, k2, k5, k3, by rw [k4]; exact hh⟩ h
  | @toRow q hp hc hg _ ih =>
    obtain ⟨r0, hr0, ih⟩ := ih
    exact .inr ⟨r0, hr0, q, hp, hc, hg, rfl, ih⟩

/-- **C119, exactly when there are ghosts.**  The columns show exactly the closed switches of the selected
rows, for every selection, exactly if no three closed switches are at corners of a rectangle with the fourth
open. -/
theorem C119_ghosts (ps : List Place) (g closed : Sw → Bool) :
    (∀ (sel : Nat → Prop) (c : Nat), Reaches ps g closed sel (.col c) ↔ ∃ r, sel r ∧ ClosedAt ps closed r c) ↔
      ¬ OpenCorner ps g closed := by
  constructor
  · rintro h ⟨p, hp, q, hq, s, hs, k1, k2, k3, k4, k5, k6, k7⟩
    have j1 : Reaches ps g closed (fun r => r = p.row) (.col p.col) := .toColumn hp k1 (.selected rfl)
    rw [k5] at j1
    have j2 := Reaches.toRow hq k2 k4 j1
    rw [k6] at j2
    obtain ⟨r, rfl, hr⟩ := (h _ _).mp (.toColumn hs k3 j2)
    exact k7 hr
  · intro h sel c
    refine ⟨fun hj => joined_closed h hj, ?_⟩
    rintro ⟨r, hr, p, hp, rfl, rfl, hc⟩
    exact .toColumn hp hc (.selected hr)

theorem map_inj {α β : Type} {f : α → β} {l : List α} (h : (l.map f).Nodup) {a b : α} (ha : a ∈ l) (hb : b ∈ l)
    (e : f a = f b) : a = b := by
  induction l with
  | nil => cases ha
  | cons x l ih =>
    rw [List.map_cons, List.nodup_cons] at h
    rcases List.mem_cons.mp ha with rfl | ha'
    · rcases List.mem_cons.mp hb with rfl | hb'
      · rfl
      · exact absurd (List.mem_map.mpr ⟨b, hb', e.symm⟩) h.1
    · rcases List.mem_cons.mp hb with rfl | hb'
      · exact absurd (List.mem_map.mpr ⟨a, ha', e⟩) h.1
      · exact ih h.2 ha' hb'

theorem same_place {ps : List Place} (hps : ps ∈ [classicPlaces, solPlaces]) {p q : Place} (hp : p ∈ ps) (hq : q ∈ ps)
    (h : p.sw = q.sw) : p = q :=
  map_inj (C80_positions ps hps).1 hp hq h

/-- **C119, two switches.**  Two closed switches, wherever they are, show no ghost. -/
theorem C119_two_switches (ps : List Place) (hps : ps ∈ [classicPlaces, solPlaces]) (g closed : Sw → Bool)
    (a b : Sw) (h : ∀ s, closed s = true → s = a ∨ s = b) : ¬ OpenCorner ps g closed := by
  rintro ⟨p, hp, q, hq, s, hs, k1, k2, k3, _, k5, k6, k7⟩
  have pq : p.sw = q.sw → False := fun e => by
    cases same_place hps hp hq e
    exact k7 ⟨s, hs, k6.symm, rfl, k3⟩
  have qs : q.sw = s.sw → False := fun e => by
    cases same_place hps hq hs e
    exact k7 ⟨p, hp, rfl, k5, k1⟩
  have ps' : p.sw = s.sw → False := fun e => by
    cases same_place hps hp hs e
    exact k7 ⟨p, hp, rfl, rfl, k1⟩
  rcases h _ k1 with e1 | e1 <;> rcases h _ k2 with e2 | e2 <;> rcases h _ k3 with e3 | e3
  · exact pq (e1.trans e2.symm)
  · exact pq (e1.trans e2.symm)
  · exact ps' (e1.trans e3.symm)
  · exact qs (e2.trans e3.symm)
  · exact qs (e2.trans e3.symm)
  · exact ps' (e1.trans e3.symm)
  · exact pq (e1.trans e2.symm)
  · exact pq (e1.trans e2.symm)

/-- The DIP switches are the switches of row 8. -/
theorem dip_row : ∀ ps ∈ [classicPlaces, solPlaces], ∀ p ∈ ps, (match p.sw with | .dip _ => true | .key _ => false) =
    decide (p.row = 8) := by decide +kernel

/-- **C119, one key.**  One closed key and any set of closed DIP switches show no ghost. -/
theorem C119_one_key (ps : List Place) (hps : ps ∈ [classicPlaces, solPlaces]) (g closed : Sw → Bool)
    (hg : ∀ n, g (.dip n) = true) (a : Nat) (h : ∀ n, closed (.key n) = true → n = a) : ¬ OpenCorner ps g closed := by
  rintro ⟨p, hp, q, hq, s, hs, k1, k2, k3, k4, k5, k6, k7⟩
  have hqk : q.sw = .key a := by
    cases e : q.sw with
    | dip n => rw [e, hg] at k4; cases k4
    | key n => rw [e] at k2; rw [h n k2]
  have hq8 : q.row ≠ 8 := fun e => by
    have := dip_row ps hps q hq
    rw [hqk, e] at this
    cases this
  cases e : s.sw with
  | dip n =>
    have := dip_row ps hps s hs
    rw [e] at this
    exact hq8 (k6.trans (of_decide_eq_true this.symm))
  | key n =>
    rw [e] at k3
    have : q.sw = s.sw := by rw [hqk, e, h n k3]
    cases same_place hps hq hs this
    exact k7 ⟨p, hp, rfl, k5, k1⟩

/-- **C119, what is read on the ATmega328P.**  As long as there is no open corner, the byte that the shift
register takes over is the one of a keyboard with diodes. -/
theorem C119_read_328 (A : Assembly) (ps : List Place) (g : Sw → Bool) (h : (A, ps, g) ∈ bare328 true)
    (r : Regs) (hr : ∀ p ∈ rowPins328, isOutput r p = true) (q : Bool) (closed : Sw → Bool)
    (hno : ¬ OpenCorner ps g closed) (ext : Net → Prop) (hext : ∀ n, ext n → Outside A n) (b : UInt8)
    (hb : ReadsLevels (bare A) (column328 A) closed (fun n => Low328 A r q n ∨ ext n) b) :
    b = ~~~ closedKeys ps closed (M328.rowLines r) := by
  refine byte_ext fun c hc => ?_
  obtain ⟨n, hn, hp⟩ := C119_columns_328 A ps g h r hr q closed ext hext c hc
  have h1 := (hb c n hc hn).trans (hp.trans ((C119_ghosts ps g closed).mpr hno _ c))
  have h2 := closedKeys_bit (facts328 (ghosts328 h).2).2 closed (M328.rowLines r) c hc
  rw [bitOf_not _ _ hc, Bool.eq_iff_iff, ← Bool.not_eq_false, h1, Bool.not_eq_true', ← Bool.not_eq_true, h2]
  constructor
  · rintro hh ⟨p, hp, k1, k2, k3⟩
    exact hh ⟨_, rfl, p, hp, k3, k1, k2⟩
  · rintro hh ⟨_, rfl, p, hp, k1, k2, k3⟩
    exact hh ⟨p, hp, k2, k3, k1⟩

/-- **C119, what is read on the ATmega2560.**  As long as there is no open corner, the column port shows
what it shows with a keyboard that has diodes. -/
theorem C119_read_2560 (A : Assembly) (ps : List Place) (g : Sw → Bool) (h : (A, ps, g) ∈ bare2560 true)
    (closed : Sw → Bool) (hno : ¬ OpenCorner ps g closed) (ext : Net → Prop)
    (hext : ∀ n, ext n → Outside A n) (cols : Regs → UInt8)
    (hb : ∀ r, rowReady2560 r →
      ReadsLevels (bare A) (column2560 A) closed (fun n => Low2560 A r n ∨ ext n) (cols r)) :
    matrixColumns (closedKeys ps closed) cols := by
  intro r c hr hc
  obtain ⟨n, hn, hp⟩ := C119_columns_2560 A ps g h r hr closed ext hext c hc
  have hcols := (facts2560 (ghosts2560 h).2).2
  rw [(hb r hr c n hc hn).trans (hp.trans ((C119_ghosts ps g closed).mpr hno _ c))]
  constructor
  · rintro ⟨k, hk, p, hp, k1, k2, k3⟩
    exact ⟨k, k1 ▸ (hcols p hp).2, hk,
      (closedKeys_bit (fun p hp => (hcols p hp).1) closed _ c hc).mpr ⟨p, hp, k2, k3, k1⟩⟩
  · rintro ⟨k, _, k1, k2⟩
    obtain ⟨p, hp, h1, h2, h3⟩ := (closedKeys_bit (fun p hp => (hcols p hp).1) closed k c hc).mp k2
    exact ⟨k, k1, p, hp, h3, h1, h2⟩

/-- The bytes at the column port, as a function of the keys, as long as there is no open corner. -/
theorem bare_columns (A : Assembly) (ps : List Place) (g : Sw → Bool) (h : (A, ps, g) ∈ bare2560 true)
    (ext : Net → Prop) (hext : ∀ n, ext n → Outside A n) (cols : (Sw → Bool) → Regs → UInt8)
    (hb : ∀ closed r, rowReady2560 r →
      ReadsLevels (bare A) (column2560 A) closed (fun n => Low2560 A r n ∨ ext n) (cols closed r)) :
    ∃ f : (Nat → UInt8) → Regs → UInt8, (∀ keys, matrixColumns keys (f keys)) ∧
      ∀ closed, ¬ OpenCorner ps g closed → ∀ r, rowReady2560 r → f (closedKeys ps closed) r = cols closed r := by
  classical
  let f : (Nat → UInt8) → Regs → UInt8 := fun keys =>
    if h : ∃ closed, ¬ OpenCorner ps g closed ∧ closedKeys ps closed = keys then cols h.choose
    else exampleColumns keys
  have hf : ∀ keys, matrixColumns keys (f keys) := by
    intro keys
    show matrixColumns keys (if h : ∃ closed, ¬ OpenCorner ps g closed ∧ closedKeys ps closed = keys
      then cols h.choose else exampleColumns keys)
    by_cases hk : ∃ closed, ¬ OpenCorner ps g closed ∧ closedKeys ps closed = keys
    · rw [dif_pos hk]
      have := C119_read_2560 A ps g h hk.choose hk.choose_spec.1 ext hext _ (hb hk.choose)
      rw [hk.choose_spec.2] at this
      exact this
    · rw [dif_neg hk]
      exact C42_matrix_exists keys
  exact ⟨f, hf, fun closed hno r hr =>
    matrix_unique (hf _) (C119_read_2560 A ps g h closed hno ext hext _ (hb closed)) hr⟩

/-- **C119, the whole keyboard.**  Each keyboard without diodes on a board with the ATmega2560 is one of the
keyboards the whole-keyboard properties (C59 on) speak about, as long as there is no open corner: there is a target
that is `Built` and that reads rows as the board does. -/
theorem C119_built (A : Assembly) (ps : List Place) (g : Sw → Bool) (h : (A, ps, g) ∈ bare2560 true)
    (ext : Net → Prop) (hext : ∀ n, ext n → Outside A n) (cols : (Sw → Bool) → Regs → UInt8)
    (hb : ∀ closed r, rowReady2560 r →
      ReadsLevels (bare A) (column2560 A) closed (fun n => Low2560 A r n ∨ ext n) (cols closed r)) :
    ∃ T, Built m2560 T ∧ ∀ closed, ¬ OpenCorner ps g closed → ∀ other sr row r, rowReady2560 r →
      T.read ⟨closedKeys ps closed, other, sr⟩ row r = M2560.readRow (cols closed) row r := by
  obtain ⟨f, hf, _⟩ := bare_columns A ps g h ext hext cols hb
  refine ⟨Whole.target2560 f, .inr ⟨rfl, f, hf, rfl⟩, fun closed hno other sr row r hr => ?_⟩
  exact readRow_unique (hf _) (C119_read_2560 A ps g h closed hno ext hext _ (hb closed)) hr row

/-- The levels can be read: some byte has them, on the ATmega328P interface … -/
theorem C119_levels_328 (A : Assembly) (ps : List Place) (g : Sw → Bool) (h : (A, ps, g) ∈ bare328 true)
    (r : Regs) (hr : ∀ p ∈ rowPins328, isOutput r p = true) (q : Bool) (closed : Sw → Bool)
    (hno : ¬ OpenCorner ps g closed) (ext : Net → Prop) (hext : ∀ n, ext n → Outside A n) :
    ReadsLevels (bare A) (column328 A) closed (fun n => Low328 A r q n ∨ ext n)
      (~~~ closedKeys ps closed (M328.rowLines r)) := by
  intro c n hc hn
  obtain ⟨n', hn', hp⟩ := C119_columns_328 A ps g h r hr q closed ext hext c hc
  rw [hn] at hn'
  cases hn'
  rw [hp.trans ((C119_ghosts ps g closed).mpr hno _ c), bitOf_not _ _ hc, Bool.not_eq_false',
    closedKeys_bit (facts328 (ghosts328 h).2).2 closed _ c hc]
  constructor
  · rintro ⟨p, hp, k1, k2, k3⟩
    exact ⟨_, rfl, p, hp, k3, k1, k2⟩
  · rintro ⟨_, rfl, p, hp, k1, k2, k3⟩
    exact ⟨p, hp, k2, k3, k1⟩

/-- … and with the ATmega2560. -/
theorem C119_levels_2560 (A : Assembly) (ps : List Place) (g : Sw → Bool) (h : (A, ps, g) ∈ bare2560 true)
    (r : Regs) (hr : rowReady2560 r) (closed : Sw → Bool) (hno : ¬ OpenCorner ps g closed) (ext : Net → Prop)
    (hext : ∀ n, ext n → Outside A n) :
    ReadsLevels (bare A) (column2560 A) closed (fun n => Low2560 A r n ∨ ext n)
      (exampleColumns (closedKeys ps closed) r) := by
  intro c n hc hn
  obtain ⟨n', hn', hp⟩ := C119_columns_2560 A ps g h r hr closed ext hext c hc
  rw [hn] at hn'
  cases hn'
  have hcols := (facts2560 (ghosts2560 h).2).2
  rw [hp.trans ((C119_ghosts ps g closed).mpr hno _ c), C42_matrix_exists (closedKeys ps closed) r c hr hc]
  constructor
  · rintro ⟨k, _, k1, k2⟩
    obtain ⟨p, hp, h1, h2, h3⟩ := (closedKeys_bit (fun p hp => (hcols p hp).1) closed k c hc).mp k2
    exact ⟨k, k1, p, hp, h3, h1, h2⟩
  · rintro ⟨k, hk, p, hp, k1, k2, k3⟩
    exact ⟨k, k1 ▸ (hcols p hp).2, hk,
      (closedKeys_bit (fun p hp => (hcols p hp).1) closed _ c hc).mpr ⟨p, hp, k2, k3, k1⟩⟩

theorem fight328 (A : Assembly) {R : Roles} {ds : List Nat} {g : Sw → Bool} {ps : List Place} {ws : List (List Net)}
    {row : Nat → Option Net} (h : Ghosts.boardOk328 { A with cut := true } R ds g ps ws row = true)
    (hd : (Ghosts.driversOk (bare { A with cut := false }) row (driver328 { A with cut := false }) &&
      (bare { A with cut := false }).all Ghosts.noDip0) = true) {closed : Sw → Bool} {low : Net → Prop} {p q : Place}
    (hp : p ∈ ps) (hq : q ∈ ps) (hc : p.col = q.col) (h1 : closed p.sw = true) (h2 : closed q.sw = true)
    (hg : g q.sw = false) :
    ∃ n m, driver328 { A with cut := false } p.row = some n ∧ driver328 { A with cut := false } q.row = some m ∧
      (low n → PulledLow (bare { A with cut := false }) closed low m) := by
  simp only [Ghosts.boardOk328, Bool.and_eq_true] at h hd
  exact Ghosts.fight (Ghosts.bare_looser A) h.1.1.1.1 (Ghosts.noDip0_sound hd.2) hd.1 hp hq hc h1 h2 hg

theorem fight2560 (A : Assembly) {R : Roles} {ds : List Nat} {g : Sw → Bool} {ps : List Place} {ws : List (List Net)}
    {row : Nat → Option Net} (h : Ghosts.boardOk2560 { A with cut := true } R ds g ps ws row = true)
    (hd : (Ghosts.driversOk (bare { A with cut := false }) row (driver2560 { A with cut := false }) &&
      (bare { A with cut := false }).all Ghosts.noDip0) = true) {closed : Sw → Bool} {low : Net → Prop} {p q : Place}
    (hp : p ∈ ps) (hq : q ∈ ps) (hc : p.col = q.col) (h1 : closed p.sw = true) (h2 : closed q.sw = true)
    (hg : g q.sw = false) :
    ∃ n m, driver2560 { A with cut := false } p.row = some n ∧ driver2560 { A with cut := false } q.row = some m ∧
      (low n → PulledLow (bare { A with cut := false }) closed low m) := by
  simp only [Ghosts.boardOk2560, Bool.and_eq_true] at h hd
  exact Ghosts.fight (Ghosts.bare_looser A) h.1.1.1 (Ghosts.noDip0_sound hd.2) hd.1 hp hq hc h1 h2 hg

/-- **C119, the diodes of the rows are needed.**  On the interface without them, two closed keys of one
column connect the outputs that drive their two rows: while one is low it pulls the other low. -/
theorem C119_fight (A : Assembly) (ps : List Place) (g : Sw → Bool) (drv : Assembly → Nat → Option Net)
    (h : (A, ps, g) ∈ bare328 false ∧ drv = driver328 ∨ (A, ps, g) ∈ bare2560 false ∧ drv = driver2560)
    (closed : Sw → Bool) (low : Net → Prop) (p q : Place)
    (hp : p ∈ ps) (hq : q ∈ ps) (hc : p.col = q.col) (h1 : closed p.sw = true) (h2 : closed q.sw = true)
    (hg : g q.sw = false) :
    ∃ n m, drv A p.row = some n ∧ drv A q.row = some m ∧ (low n → PulledLow (bare A) closed low m) := by
  rcases h with ⟨h, rfl⟩ | ⟨h, rfl⟩
  · simp only [bare328, List.mem_cons, List.not_mem_nil, or_false, Prod.mk.injEq] at h
    rcases h with ⟨rfl, rfl, rfl⟩ | ⟨rfl, rfl, rfl⟩
    · exact fight328 (classic328 true) Ghosts.classic328_ok Ghosts.fights328.1 hp hq hc h1 h2 hg
    · exact fight328 (sol328 true) Ghosts.sol328_ok Ghosts.fights328.2 hp hq hc h1 h2 hg
  · simp only [bare2560, List.mem_cons, List.not_mem_nil, or_false, Prod.mk.injEq] at h
    rcases h with ⟨rfl, rfl, rfl⟩ | ⟨rfl, rfl, rfl⟩ | ⟨rfl, rfl, rfl⟩ | ⟨rfl, rfl, rfl⟩
    · exact fight2560 (classic2560 true) Ghosts.classic2560_ok Ghosts.fights2560.1 hp hq hc h1 h2 hg
    · exact fight2560 (sol2560 true) Ghosts.sol2560_ok Ghosts.fights2560.2 hp hq hc h1 h2 hg
    · exact fight2560 (classicEnc true) Ghosts.classicEnc_ok Ghosts.fightsEnc.1 hp hq hc h1 h2 hg
    · exact fight2560 (solEnc true) Ghosts.solEnc_ok Ghosts.fightsEnc.2 hp hq hc h1 h2 hg

/-- **C119, keys can turn DIP switches on.**  On the classic keyboard without diodes, with the first DIP
switch closed, the right arrow key and I together make the second DIP switch appear closed: the column of
the second switch is joined to the row of the switches. -/
theorem C119_dip_ghost :
    let closed : Sw → Bool := fun s => s ∈ [.dip 1, .key 1, .key 4]
    Reaches classicPlaces classicGuarded closed (fun k => k = 8) (.col 1) ∧
      ¬ ClosedAt classicPlaces closed 8 1 ∧ OpenCorner classicPlaces classicGuarded closed := by
  intro closed
  have p : (⟨.dip 1, "DIP 1", 8, 0⟩ : Place) ∈ classicPlaces := by decide +kernel
  have q : (⟨.key 1, "RT Arrow", 4, 0⟩ : Place) ∈ classicPlaces := by decide +kernel
  have s : (⟨.key 4, "I", 4, 1⟩ : Place) ∈ classicPlaces := by decide +kernel
  have hn : ¬ ClosedAt classicPlaces closed 8 1 := by
    have : ∀ p ∈ classicPlaces, ¬ (p.row = 8 ∧ p.col = 1 ∧ p.sw ∈ [Sw.dip 1, .key 1, .key 4]) := by decide +kernel
    rintro ⟨p, hp, h1, h2, h3⟩
    exact this p hp ⟨h1, h2, of_decide_eq_true h3⟩
  have j1 : Reaches classicPlaces classicGuarded closed (fun k => k = 8) (.col 0) :=
    .toColumn p (by decide) (.selected rfl)
  have j2 : Reaches classicPlaces classicGuarded closed (fun k => k = 8) (.row 4) := .toRow q (by decide) rfl j1
  exact ⟨.toColumn s (by decide) j2, hn, _, p, _, q, _, s, by decide, by decide, by decide, rfl, rfl, rfl, hn⟩

/-- **C119, a ghost in typing.**  On the classic keyboard without diodes, typing V and M overlapping while the
left SHIFT is held makes the TAB key appear closed. -/
theorem C119_shift_ghost :
    let closed : Sw → Bool := fun s => s ∈ [.key 39, .key 41, .key 51]
    (∀ n ∈ [39, 41, 51, 49], ∃ p ∈ classicPlaces, p.sw = .key n ∧
      (n, p.label) ∈ [(39, "L_Shift"), (41, "M"), (51, "V"), (49, "TAB")] ∧ (n = 49 → p.row = 0 ∧ p.col = 5)) ∧
    Reaches classicPlaces classicGuarded closed (fun k => k = 0) (.col 5) ∧ ¬ ClosedAt classicPlaces closed 0 5 := by
  intro closed
  have p : (⟨.key 39, "L_Shift", 0, 2⟩ : Place) ∈ classicPlaces := by decide +kernel
  have q : (⟨.key 41, "M", 2, 2⟩ : Place) ∈ classicPlaces := by decide +kernel
  have s : (⟨.key 51, "V", 2, 5⟩ : Place) ∈ classicPlaces := by decide +kernel
  have j1 : Reaches classicPlaces classicGuarded closed (fun k => k = 0) (.col 2) :=
    .toColumn p (by decide) (.selected rfl)
  have j2 : Reaches classicPlaces classicGuarded closed (fun k => k = 0) (.row 2) := .toRow q (by decide) rfl j1
  refine ⟨by decide +kernel, .toColumn s (by decide) j2, ?_⟩
  have : ∀ p ∈ classicPlaces, ¬ (p.row = 0 ∧ p.col = 5 ∧ p.sw ∈ [Sw.key 39, .key 41, .key 51]) := by decide +kernel
  rintro ⟨p, hp, h1, h2, h3⟩
  exact this p hp ⟨h1, h2, of_decide_eq_true h3⟩

/-- Three keys at corners of a rectangle: the fourth, D, appears closed when its row is selected. -/
example : Reaches classicPlaces classicGuarded threeCorners (fun k => k = 3) (.col 6) ∧
    ¬ ClosedAt classicPlaces threeCorners 3 6 := by
  have p : (⟨.key 60, "S", 3, 7⟩ : Place) ∈ classicPlaces := by decide +kernel
  have q : (⟨.key 58, "Q", 1, 7⟩ : Place) ∈ classicPlaces := by decide +kernel
  have s : (⟨.key 54, "A", 1, 6⟩ : Place) ∈ classicPlaces := by decide +kernel
  have j1 : Reaches classicPlaces classicGuarded threeCorners (fun k => k = 3) (.col 7) :=
    .toColumn p (by decide) (.selected rfl)
  have j2 : Reaches classicPlaces classicGuarded threeCorners (fun k => k = 3) (.row 1) := .toRow q (by decide) rfl j1
  refine ⟨.toColumn s (by decide) j2, ?_⟩
  have : ∀ p ∈ classicPlaces, ¬ (p.row = 3 ∧ p.col = 6 ∧ threeCorners p.sw = true) := by decide +kernel
  rintro ⟨p, hp, h⟩
  exact this p hp h

/-- The hypotheses can be met: the controller selects row 3, A and S are closed. -/
example : (classic328 true, classicPlaces, classicGuarded) ∈ bare328 true ∧
    M328.rowLines rowThree = 3 ∧ (∀ p ∈ rowPins328, isOutput rowThree p = true) ∧
    (∀ s, (s ∈ [Sw.key 54, .key 60] : Bool) = true → s = .key 54 ∨ s = .key 60) ∧
    closedKeys classicPlaces (fun s => s ∈ [.key 54, .key 60]) 3 = 0b10000000 := by
  refine ⟨List.mem_cons_self, by decide +kernel, by decide +kernel, fun s h => ?_, by decide +kernel⟩
  simpa using h

/-- … and with the ATmega2560 after the start. -/
example : (classic2560 true, classicPlaces, classicGuarded) ∈ bare2560 true ∧
    rowReady2560 (boardAfter m2560 allZero [.archInit]) ∧ (∀ n, classicGuarded (.dip n) = true) ∧
    ∀ n, solGuarded (.dip n) = true :=
  ⟨List.mem_cons_self, C42_always_ready _ (.init _), fun _ => rfl, fun _ => rfl⟩

end Asdf.Props
