import Verif.Spec.KeyPlaces
import Verif.Lemmas.Rows

/-! # What can pull what low, on a board

Every net of a board is given a role; a check of every link by itself shows that the
roles tell which nets can be pulled low. -/

namespace Asdf

open Pcb Spec Avr

/-- What a net is for: a row line, a column line, the net between a key at row `r`,
column `c` and its diode, the net between a DIP switch and its diode, the anode of a
diode at row `r` with nothing behind it, or none of these. -/
inductive Role where
  | row (r : Nat)
  | col (c : Nat)
  | mid (r c : Nat) (s : Sw)
  | dmid (r c : Nat) (s : Sw)
  | stub (r : Nat)
  | free
  deriving DecidableEq, Repr

/-- The roles of a board, by net. -/
structure Roles where
  kb : List (Nat × Role)
  io : List (Nat × Role)

def Roles.at (R : Roles) (n : Net) : Role :=
  match n with
  | .kb n => (R.kb.lookup n).getD .free
  | .io n => (R.io.lookup n).getD .free

/-- Column `c` has a closed switch in a low row. -/
def colLow (ps : List Place) (closed : Sw → Bool) (lowRow : Nat → Prop) (c : Nat) : Prop :=
  ∃ p ∈ ps, p.col = c ∧ closed p.sw = true ∧ lowRow p.row

/-- When a net with a role can be low. -/
def Role.Low (ps : List Place) (closed : Sw → Bool) (lowRow : Nat → Prop) : Role → Prop
  | .row r => lowRow r
  | .col c => colLow ps closed lowRow c
  | .mid r c s => lowRow r ∨ (closed s = true ∧ colLow ps closed lowRow c)
  | .dmid r _ s => lowRow r ∧ closed s = true
  | .stub r => lowRow r
  | .free => True

/-- A switch is at a place of the list. -/
def placedAt (ps : List Place) (r c : Nat) (s : Sw) : Bool :=
  ps.any fun p => p.sw = s && p.row = r && p.col = c

/-- Current may always flow from a net with the first role to one with the second. -/
def flowOk (ps : List Place) : Role → Role → Bool
  | .free, _ => true
  | .mid r c s, .row r' => r = r' && placedAt ps r c s
  | .stub r, .row r' => r = r'
  | .col c, .dmid r c' s => c = c' && placedAt ps r c s
  | a, b => a = b

/-- Current may flow through switch `s`, in both directions. -/
def switchOk (ps : List Place) (s : Sw) : Role → Role → Bool
  | .col c, .mid r c' s' => c = c' && s = s' && placedAt ps r c s
  | .mid r c' s', .col c => c = c' && s = s' && placedAt ps r c s
  | .row r, .dmid r' c s' => r = r' && s = s' && placedAt ps r c s
  | .dmid r' c s', .row r => r = r' && s = s' && placedAt ps r c s
  | _, _ => false

/-- The check of one link. -/
def linkOk (ps : List Place) (R : Roles) : Link → Bool
  | .switch s a b => switchOk ps s (R.at a) (R.at b)
  | .diode a b => flowOk ps (R.at a) (R.at b)
  | .wire a b => flowOk ps (R.at a) (R.at b) && flowOk ps (R.at b) (R.at a)

theorem placedAt_iff {ps : List Place} {r c : Nat} {s : Sw} (h : placedAt ps r c s = true) :
    ∃ p ∈ ps, p.sw = s ∧ p.row = r ∧ p.col = c := by
  unfold placedAt at h
  rw [List.any_eq_true] at h
  obtain ⟨p, hp, h⟩ := h
  simp only [Bool.and_eq_true, decide_eq_true_eq] at h
  exact ⟨p, hp, h.1.1, h.1.2, h.2⟩

theorem colLow_of {ps : List Place} {closed : Sw → Bool} {lowRow : Nat → Prop} {r c : Nat} {s : Sw}
    (h : placedAt ps r c s = true) (hs : closed s = true) (hr : lowRow r) :
    colLow ps closed lowRow c := by
  obtain ⟨p, hp, rfl, rfl, rfl⟩ := placedAt_iff h
  exact ⟨p, hp, rfl, hs, hr⟩

theorem flow_sound {ps : List Place} {closed : Sw → Bool} {lowRow : Nat → Prop} {a b : Role}
    (h : flowOk ps a b = true) (hb : b.Low ps closed lowRow) : a.Low ps closed lowRow := by
  unfold flowOk at h
  split at h
  · trivial
  · simp only [Bool.and_eq_true, decide_eq_true_eq] at h
    obtain ⟨rfl, _⟩ := h
    exact .inl hb
  · simp only [decide_eq_true_eq] at h
    subst h
    exact hb
  · simp only [Bool.and_eq_true, decide_eq_true_eq] at h
    obtain ⟨rfl, h⟩ := h
    exact colLow_of h hb.2 hb.1
  · simp only [decide_eq_true_eq] at h
    subst h
    exact hb

theorem switch_sound {ps : List Place} {closed : Sw → Bool} {lowRow : Nat → Prop} {s : Sw}
    {a b : Role} (h : switchOk ps s a b = true) (hs : closed s = true) :
    a.Low ps closed lowRow ↔ b.Low ps closed lowRow := by
  unfold switchOk at h
  split at h
  all_goals first
    | (simp only [Bool.and_eq_true, decide_eq_true_eq] at h; obtain ⟨⟨rfl, rfl⟩, h⟩ := h)
    | cases h
  · exact ⟨fun k => .inr ⟨hs, k⟩, fun k => k.elim (colLow_of h hs) And.right⟩
  · exact ⟨fun k => k.elim (colLow_of h hs) And.right, fun k => .inr ⟨hs, k⟩⟩
  · exact ⟨fun k => ⟨k, hs⟩, And.left⟩
  · exact ⟨And.left, fun k => ⟨k, hs⟩⟩

/-- No net is pulled low but as its role says. -/
theorem roles_sound {ls : List Link} {ps : List Place} {R : Roles}
    (hls : (ls.all (linkOk ps R)) = true) {closed : Sw → Bool} {low : Net → Prop}
    {lowRow : Nat → Prop} (hlow : ∀ n, low n → (R.at n).Low ps closed lowRow) {n : Net}
    (h : PulledLow ls closed low n) : (R.at n).Low ps closed lowRow := by
  induction h with
  | driven h => exact hlow _ h
  | @through a b l hl hp _ ih =>
    have hk := List.all_eq_true.mp hls l hl
    cases l with
    | switch s x y =>
      obtain ⟨hs, ⟨rfl, rfl⟩ | ⟨rfl, rfl⟩⟩ := hp
      · exact (switch_sound hk hs).mpr ih
      · exact (switch_sound hk hs).mp ih
    | diode x y =>
      obtain ⟨rfl, rfl⟩ := hp
      exact flow_sound hk ih
    | wire x y =>
      simp only [linkOk, Bool.and_eq_true] at hk
      obtain ⟨rfl, rfl⟩ | ⟨rfl, rfl⟩ := hp
      · exact flow_sound hk.1 ih
      · exact flow_sound hk.2 ih

/-- Equality tests that are quick to compute. -/
def sameNet : Net → Net → Bool
  | .kb a, .kb b => Nat.beq a b
  | .io a, .io b => Nat.beq a b
  | _, _ => false

def sameSw : Sw → Sw → Bool
  | .key a, .key b => Nat.beq a b
  | .dip a, .dip b => Nat.beq a b
  | _, _ => false

theorem sameNet_eq {a b : Net} (h : sameNet a b = true) : a = b := by
  cases a <;> cases b <;> first | exact congrArg _ (Nat.eq_of_beq_eq_true h) | cases h

theorem sameSw_eq {a b : Sw} (h : sameSw a b = true) : a = b := by
  cases a <;> cases b <;> first | exact congrArg _ (Nat.eq_of_beq_eq_true h) | cases h

theorem passes_mono {f g : Sw → Bool} (h : ∀ s, f s = true → g s = true) {l : Link} {a b : Net}
    (hp : Passes f l a b) : Passes g l a b := by
  cases l with
  | switch s x y => exact ⟨h s hp.1, hp.2⟩
  | diode x y => exact hp
  | wire x y => exact hp

/-- Only one switch is closed. -/
def only (s : Sw) : Sw → Bool := fun t => t = s

/-- Current can flow through a link when switch `s` is closed. -/
def passOk (s : Sw) (a b : Net) : Link → Bool
  | .switch t x y => (sameNet a x && sameNet b y || sameNet a y && sameNet b x) && sameSw t s
  | .diode x y => sameNet a x && sameNet b y
  | .wire x y => sameNet a x && sameNet b y || sameNet a y && sameNet b x

theorem pass_sound {s : Sw} {a b : Net} {l : Link} (h : passOk s a b l = true) :
    Passes (only s) l a b := by
  cases l with
  | switch t x y =>
    simp only [passOk, Bool.and_eq_true, Bool.or_eq_true] at h
    refine ⟨decide_eq_true (sameSw_eq h.2), ?_⟩
    rcases h.1 with h | h
    · exact .inl ⟨sameNet_eq h.1, sameNet_eq h.2⟩
    · exact .inr ⟨sameNet_eq h.1, sameNet_eq h.2⟩
  | diode x y =>
    simp only [passOk, Bool.and_eq_true] at h
    exact ⟨sameNet_eq h.1, sameNet_eq h.2⟩
  | wire x y =>
    simp only [passOk, Bool.and_eq_true, Bool.or_eq_true] at h
    rcases h with h | h
    · exact .inl ⟨sameNet_eq h.1, sameNet_eq h.2⟩
    · exact .inr ⟨sameNet_eq h.1, sameNet_eq h.2⟩

/-- Current can flow along a list of nets when switch `s` is closed. -/
def wayOk (ls : List Link) (s : Sw) : List Net → Bool
  | a :: b :: w => ls.any (passOk s a b) && wayOk ls s (b :: w)
  | _ => true

theorem way_sound {ls : List Link} {s : Sw} {closed : Sw → Bool} {low : Net → Prop}
    (hs : closed s = true) {w : List Net} (h : wayOk ls s w = true) {n m : Net}
    (hn : w.head? = some n) (hm : w.getLast? = some m) (hlow : PulledLow ls closed low m) :
    PulledLow ls closed low n := by
  induction w generalizing n with
  | nil => cases hn
  | cons a w ih =>
    cases w with
    | nil =>
      cases hn
      cases hm
      exact hlow
    | cons b w =>
      simp only [wayOk, Bool.and_eq_true] at h
      rw [List.getLast?_cons_cons] at hm
      obtain ⟨l, hl, hp⟩ := List.any_eq_true.mp h.1
      injection hn with hn
      subst hn
      refine .through hl (passes_mono (fun t ht => ?_) (pass_sound hp)) (ih h.2 rfl hm)
      have : t = s := of_decide_eq_true ht
      rw [this, hs]

/-! ## The matrix of a board -/

/-- For every place a way from its column line to the driver of its row line. -/
def waysOk (ls : List Link) (col drv : Nat → Option Net) : List Place → List (List Net) → Bool
  | p :: ps, w :: ws => wayOk ls p.sw w && w.head? = col p.col && (col p.col).isSome &&
      w.getLast? = drv p.row && (drv p.row).isSome && p.row < 16 && p.col < 8 && waysOk ls col drv ps ws
  | [], [] => true
  | _, _ => false

theorem ways_sound {ls : List Link} {col drv : Nat → Option Net} {ps : List Place} {ws : List (List Net)}
    (h : waysOk ls col drv ps ws = true) {p : Place} (hp : p ∈ ps) :
    p.row < 16 ∧ p.col < 8 ∧ ∃ w n m, wayOk ls p.sw w = true ∧ w.head? = some n ∧ col p.col = some n ∧
      w.getLast? = some m ∧ drv p.row = some m := by
  induction ps generalizing ws with
  | nil => cases hp
  | cons q ps ih =>
    cases ws with
    | nil => cases h
    | cons w ws =>
      simp only [waysOk, Bool.and_eq_true, decide_eq_true_eq, Option.isSome_iff_exists] at h
      obtain ⟨⟨⟨⟨⟨⟨⟨h1, h2⟩, n, h3⟩, h4⟩, m, h5⟩, h6⟩, h7⟩, h8⟩ := h
      rcases List.mem_cons.mp hp with rfl | hp
      · exact ⟨h6, h7, w, n, m, h1, h2.trans h3, h3, h4.trans h5, h5⟩
      · exact ih h8 hp

/-- The lines of a matrix have their roles. -/
def linesOk (R : Roles) (col drv : Nat → Option Net) : Bool :=
  ((List.range 8).all fun c => (col c).any fun n => R.at n = .col c) &&
    (List.range 16).all fun k => (drv k).any fun n => R.at n = .row k

/-- The whole check of a matrix. -/
def matrixOk (ls : List Link) (R : Roles) (ps : List Place) (ws : List (List Net))
    (col drv : Nat → Option Net) : Bool :=
  ls.all (linkOk ps R) && linesOk R col drv && waysOk ls col drv ps ws

theorem matrix_lines {ls : List Link} {R : Roles} {ps : List Place} {ws : List (List Net)}
    {col drv : Nat → Option Net} (h : matrixOk ls R ps ws col drv = true) :
    (∀ c, c < 8 → ∃ n, col c = some n ∧ R.at n = .col c) ∧
      ∀ k, k < 16 → ∃ n, drv k = some n ∧ R.at n = .row k := by
  simp only [matrixOk, linesOk, Bool.and_eq_true, List.all_eq_true, List.mem_range, Option.any_eq_true,
    decide_eq_true_eq] at h
  exact h.1.2

/-- What a column line and a row line of a checked matrix read. -/
theorem matrix_sound {ls : List Link} {R : Roles} {ps : List Place} {ws : List (List Net)}
    {col drv : Nat → Option Net} (h : matrixOk ls R ps ws col drv = true) {closed : Sw → Bool}
    {low : Net → Prop} {lowRow : Nat → Prop}
    (hlow : ∀ n, low n → (R.at n).Low ps closed lowRow)
    (hdrv : ∀ k n, k < 16 → drv k = some n → lowRow k → low n) :
    (∀ c n, c < 8 → col c = some n → (PulledLow ls closed low n ↔ colLow ps closed lowRow c)) ∧
      ∀ k n, k < 16 → drv k = some n → (PulledLow ls closed low n ↔ lowRow k) := by
  obtain ⟨h1, h2⟩ := matrix_lines h
  simp only [matrixOk, Bool.and_eq_true] at h
  constructor
  · intro c n hc hn
    constructor
    · intro hp
      have := roles_sound h.1.1 hlow hp
      obtain ⟨n', hn', hr⟩ := h1 c hc
      rw [hn] at hn'
      cases hn'
      rw [hr] at this
      exact this
    · rintro ⟨p, hp, rfl, hs, hr⟩
      obtain ⟨hrow, _, w, a, m, hw, ha, hca, hm, hdm⟩ := ways_sound h.2 hp
      rw [hn] at hca
      cases hca
      exact way_sound hs hw ha hm (.driven (hdrv _ _ hrow hdm hr))
  · intro k n hk hn
    constructor
    · intro hp
      have := roles_sound h.1.1 hlow hp
      obtain ⟨n', hn', hr⟩ := h2 k hk
      rw [hn] at hn'
      cases hn'
      rw [hr] at this
      exact this
    · intro hr
      exact .driven (hdrv k n hk hn hr)

/-! ## The plugs to the outside -/

/-- No plug but the one to the keyboard has a matrix line. -/
def plugsOk (A : Assembly) (R : Roles) : Bool :=
  A.io.all fun p => p.kind ≠ .connector || p.num = A.ioPlug || p.pads.all fun x => R.at (.io x.2) = .free

theorem findPart_mem {ps : List Part} {k : Kind} {num : Nat} {p : Part} (h : findPart ps k num = some p) :
    p ∈ ps ∧ p.kind = k ∧ p.num = num := by
  unfold findPart at h
  have h1 := List.mem_of_find?_eq_some h
  have h2 := List.find?_some h
  simp only [Bool.and_eq_true, decide_eq_true_eq] at h2
  exact ⟨h1, h2.1, h2.2⟩

theorem part_net_mem {p : Part} {pad n : Nat} (h : p.net pad = some n) : (pad, n) ∈ p.pads := by
  unfold Part.net at h
  rw [Option.map_eq_some_iff] at h
  obtain ⟨x, hx, rfl⟩ := h
  have h2 := List.find?_some hx
  simp only [decide_eq_true_eq] at h2
  subst h2
  exact List.mem_of_find?_eq_some hx

theorem plugs_sound {A : Assembly} {R : Roles} (h : plugsOk A R = true) {n : Net} (hn : Outside A n) :
    R.at n = .free := by
  obtain ⟨k, pin, hk, hn⟩ := hn
  unfold Assembly.plug at hn
  rw [Option.bind_eq_some_iff] at hn
  obtain ⟨p, hp, hn⟩ := hn
  rw [Option.map_eq_some_iff] at hn
  obtain ⟨m, hm, rfl⟩ := hn
  obtain ⟨hp1, hp2, hp3⟩ := findPart_mem hp
  have := List.all_eq_true.mp h p hp1
  simp only [hp2, hp3, ne_eq, not_true_eq_false, decide_false, Bool.false_or,
    decide_eq_true_eq, hk, List.all_eq_true] at this
  exact this _ (part_net_mem hm)

/-! ## The boards with the ATmega2560 -/

/-- The net of the pin that drives a row. -/
def driver2560 (A : Assembly) (k : Nat) : Option Net :=
  ((pins2560.find? fun x => x.1 = (rowLine2560 k).port && x.2.1 = (rowLine2560 k).bit).bind
    fun x => A.chip 1 x.2.2)

/-- The check of what the controller drives. -/
def sourcesOk2560 (A : Assembly) (R : Roles) : Bool :=
  R.at (.io A.gnd) = .free && pins2560.all fun x => (A.chip 1 x.2.2).all fun n =>
    match R.at n with
    | .free => true
    | .row k => rowLine2560 k = ⟨x.1, x.2.1⟩
    | .col _ => x.1 = .C && x.2.1 < 8
    | _ => false

theorem mem_pinsAt {A : Assembly} {pins : List (Port × Nat × Nat)} {n : Net} {p : Pin} :
    p ∈ pinsAt A pins n ↔ ∃ x ∈ pins, A.chip 1 x.2.2 = some n ∧ p = ⟨x.1, x.2.1⟩ := by
  unfold pinsAt
  rw [List.mem_filterMap]
  constructor
  · rintro ⟨⟨a, b, c⟩, hx, h⟩
    dsimp only at h
    by_cases hc : A.chip 1 c = some n
    · rw [if_pos hc] at h
      exact ⟨_, hx, hc, (Option.some.inj h).symm⟩
    · rw [if_neg hc] at h
      cases h
  · rintro ⟨x, hx, h, rfl⟩
    exact ⟨x, hx, if_pos h⟩

theorem sources2560 {A : Assembly} {R : Roles} (h : sourcesOk2560 A R = true) {r : Regs}
    (hr : rowReady2560 r) {n : Net} (hn : Low2560 A r n) (ps : List Place) (closed : Sw → Bool) :
    (R.at n).Low ps closed fun k => drive r (rowLine2560 k) = .low := by
  simp only [sourcesOk2560, Bool.and_eq_true, decide_eq_true_eq, List.all_eq_true] at h
  rcases hn with rfl | ⟨p, hp, hd⟩
  · rw [h.1]
    trivial
  · obtain ⟨x, hx, hc, rfl⟩ := mem_pinsAt.mp hp
    have := h.2 x hx
    rw [hc, Option.all_some] at this
    split at this
    · rename_i e
      rw [e]
      trivial
    · rename_i k e
      rw [e]
      have e2 := of_decide_eq_true this
      show drive r (rowLine2560 k) = .low
      rw [e2]
      exact hd
    · simp only [Bool.and_eq_true, decide_eq_true_eq] at this
      have hi := hr.2 _ this.2
      rw [← this.1] at hi
      unfold drive at hd
      rw [hi.1, hi.2] at hd
      cases hd
    · cases this

theorem drives2560 {A : Assembly} {r : Regs} {k : Nat} {n : Net} (hn : driver2560 A k = some n)
    (hd : drive r (rowLine2560 k) = .low) : Low2560 A r n := by
  unfold driver2560 at hn
  rw [Option.bind_eq_some_iff] at hn
  obtain ⟨x, hx, hn⟩ := hn
  have h2 := List.find?_some hx
  simp only [Bool.and_eq_true, decide_eq_true_eq] at h2
  refine .inr ⟨rowLine2560 k, mem_pinsAt.mpr ⟨x, List.mem_of_find?_eq_some hx, hn, ?_⟩, hd⟩
  rw [h2.1, h2.2]

/-- The check of a board with the ATmega2560. -/
def boardOk2560 (A : Assembly) (R : Roles) (ps : List Place) (ws : List (List Net)) : Bool :=
  matrixOk A.links R ps ws (column2560 A) (driver2560 A) && sourcesOk2560 A R && plugsOk A R

/-- What the column lines read on a checked board with the ATmega2560. -/
theorem board2560 {A : Assembly} {R : Roles} {ps : List Place} {ws : List (List Net)}
    (h : boardOk2560 A R ps ws = true) {r : Regs} (hr : rowReady2560 r) (closed : Sw → Bool)
    {ext : Net → Prop} (hext : ∀ n, ext n → Outside A n) :
    (∀ c n, c < 8 → column2560 A c = some n →
      (PulledLow A.links closed (fun n => Low2560 A r n ∨ ext n) n ↔
        colLow ps closed (fun k => drive r (rowLine2560 k) = .low) c)) ∧
    ∀ k n, k < 16 → driver2560 A k = some n →
      (PulledLow A.links closed (fun n => Low2560 A r n ∨ ext n) n ↔ drive r (rowLine2560 k) = .low) := by
  simp only [boardOk2560, Bool.and_eq_true] at h
  refine matrix_sound h.1.1 (fun n hn => ?_) fun k n _ hn hd => .inl (drives2560 hn hd)
  rcases hn with hn | hn
  · exact sources2560 h.1.2 hr hn ps closed
  · rw [plugs_sound h.2 (hext n hn)]
    trivial

/-! ## The board with the ATmega328P -/

/-- The net of the decoder output that drives a row. -/
def driver328 (A : Assembly) (k : Nat) : Option Net :=
  if k < 8 then A.chip 3 (outPin138 k) else A.chip 4 (outPin138 (k - 8))

/-- A chip input is connected to one controller pin and to no supply. -/
def inputOk (A : Assembly) (u pad : Nat) (p : Pin) : Bool :=
  (A.chip u pad).any fun m => m ≠ .io A.vcc && m ≠ .io A.gnd && pinsAt A pins328 m = [p]

/-- The check of the row decoders. -/
def decodersOk (A : Assembly) : Bool :=
  ([3, 4].all fun u => [0, 1, 2].all fun j => inputOk A u (j + 1) ⟨.C, j⟩) &&
    inputOk A 3 5 ⟨.C, 3⟩ && inputOk A 4 6 ⟨.C, 3⟩ && A.chip 3 6 = some (.io A.vcc) &&
    A.chip 3 4 = some (.io A.gnd) && A.chip 4 4 = some (.io A.gnd) && A.chip 4 5 = some (.io A.gnd)

/-- The check of the other sources. -/
def sourcesOk328 (A : Assembly) (R : Roles) : Bool :=
  R.at (.io A.gnd) = .free && (pins328.all fun x => (A.chip 1 x.2.2).all fun n => R.at n = .free) &&
    (inverters04.all fun x => (A.chip 5 x.2).all fun n => R.at n = .free) &&
    (A.chip 2 13).all fun n => R.at n = .free

def boardOk328 (A : Assembly) (R : Roles) (ps : List Place) (ws : List (List Net)) : Bool :=
  matrixOk A.links R ps ws (column328 A) (driver328 A) && sourcesOk328 A R && plugsOk A R &&
    decodersOk A

theorem input_levels {A : Assembly} {u pad : Nat} {p : Pin} (h : inputOk A u pad p = true) (r : Regs) :
    ∃ m, A.chip u pad = some m ∧ (HighAt A pins328 r m ↔ drive r p = .high) ∧
      (LowAt A pins328 r m ↔ drive r p = .low) := by
  unfold inputOk at h
  rw [Option.any_eq_true] at h
  obtain ⟨m, hm, h⟩ := h
  simp only [Bool.and_eq_true, decide_eq_true_eq, ne_eq] at h
  refine ⟨m, hm, ?_, ?_⟩
  · unfold HighAt
    rw [h.2]
    simp [h.1.1]
  · unfold LowAt
    rw [h.2]
    simp [h.1.2]

theorem drive_out {r : Regs} {p : Pin} (h : isOutput r p = true) (b : Bool) :
    (if b = true then drive r p = .high else drive r p = .low) ↔ level r p = b := by
  unfold drive
  rw [h]
  cases level r p <;> cases b <;> decide

theorem rowNumber (x : UInt8) : ∀ k < 8,
    (((∀ j < 3, bitOf x j = k.testBit j) ∧ bitOf x 3 = false) ↔ (x &&& 0x0f).toNat = k) ∧
    (((∀ j < 3, bitOf x j = k.testBit j) ∧ bitOf x 3 = true) ↔ (x &&& 0x0f).toNat = k + 8) := by
  revert x
  refine M328.forall_byte ?_
  decide +kernel

theorem selects {A : Assembly} {u : Nat} (h : ∀ j < 3, inputOk A u (j + 1) ⟨.C, j⟩ = true) {r : Regs}
   
    (hr : ∀ p ∈ rowPins328, isOutput r p = true) (k : Nat) :
    (∀ j, j < 3 → ∃ m, A.chip u (j + 1) = some m ∧
      if k.testBit j then HighAt A pins328 r m else LowAt A pins328 r m) ↔
    ∀ j < 3, bitOf (r.port .C) j = k.testBit j := by
  have ho : ∀ j < 3, isOutput r ⟨.C, j⟩ = true := by
    intro j hj
    apply hr
    rcases j with _ | _ | _ | j
    · decide
    · decide
    · decide
    · omega
  constructor
  · intro hh j hj
    obtain ⟨m, hm, hl⟩ := hh j hj
    obtain ⟨m', hm', h1, h2⟩ := input_levels (h j hj) r
    rw [hm] at hm'
    cases hm'
    rw [h1, h2] at hl
    exact (drive_out (ho j hj) _).mp hl
  · intro hh j hj
    obtain ⟨m', hm', h1, h2⟩ := input_levels (h j hj) r
    refine ⟨m', hm', ?_⟩
    rw [h1, h2]
    exact (drive_out (ho j hj) _).mpr (hh j hj)

theorem enable {A : Assembly} {u pad : Nat} {p : Pin} (h : inputOk A u pad p = true) {r : Regs}
    (ho : isOutput r p = true) :
    ((∃ m, A.chip u pad = some m ∧ HighAt A pins328 r m) ↔ level r p = true) ∧
      ((∃ m, A.chip u pad = some m ∧ LowAt A pins328 r m) ↔ level r p = false) := by
  obtain ⟨m, hm, h1, h2⟩ := input_levels h r
  have d1 := drive_out ho true
  have d2 := drive_out ho false
  rw [if_pos rfl] at d1
  rw [if_neg (by decide)] at d2
  constructor
  · rw [← d1, ← h1]
    constructor
    · rintro ⟨m', hm', hh⟩
      rw [hm] at hm'
      cases hm'
      exact hh
    · exact fun hh => ⟨m, hm, hh⟩
  · rw [← d2, ← h2]
    constructor
    · rintro ⟨m', hm', hh⟩
      rw [hm] at hm'
      cases hm'
      exact hh
    · exact fun hh => ⟨m, hm, hh⟩

theorem decodersOk_iff {A : Assembly} (h : decodersOk A = true) :
    (∀ j < 3, inputOk A 3 (j + 1) ⟨.C, j⟩ = true) ∧ (∀ j < 3, inputOk A 4 (j + 1) ⟨.C, j⟩ = true) ∧
      inputOk A 3 5 ⟨.C, 3⟩ = true ∧ inputOk A 4 6 ⟨.C, 3⟩ = true ∧ A.chip 3 6 = some (.io A.vcc) ∧
      A.chip 3 4 = some (.io A.gnd) ∧ A.chip 4 4 = some (.io A.gnd) ∧ A.chip 4 5 = some (.io A.gnd) := by
  simp only [decodersOk, Bool.and_eq_true, decide_eq_true_eq, List.all_eq_true] at h
  obtain ⟨⟨⟨⟨⟨⟨h1, h2⟩, h3⟩, h4⟩, h5⟩, h6⟩, h7⟩ := h
  have mem : ∀ j < 3, j ∈ [0, 1, 2] := by decide
  exact ⟨fun j hj => h1 3 (by decide) j (mem j hj), fun j hj => h1 4 (by decide) j (mem j hj),
    h2, h3, h4, h5, h6, h7⟩

theorem decoder3 {A : Assembly} (h : decodersOk A = true) {r : Regs}
    (hr : ∀ p ∈ rowPins328, isOutput r p = true) (n : Net) :
    DecoderLow A pins328 r 3 n ↔ ∃ k, k < 8 ∧ A.chip 3 (outPin138 k) = some n ∧ M328.rowLines r = k := by
  obtain ⟨h1, _, h3, _, h5, h6, _⟩ := decodersOk_iff h
  have he := (enable h3 (hr ⟨.C, 3⟩ (by decide))).2
  unfold DecoderLow
  constructor
  · rintro ⟨k, hk, hn, hs, _, _, hb⟩
    exact ⟨k, hk, hn, ((rowNumber _ k hk).1).mp ⟨(selects h1 hr k).mp hs, he.mp hb⟩⟩
  · rintro ⟨k, hk, hn, hl⟩
    obtain ⟨hs, hb⟩ := ((rowNumber _ k hk).1).mpr hl
    exact ⟨k, hk, hn, (selects h1 hr k).mpr hs, ⟨_, h5, .inl rfl⟩, ⟨_, h6, .inl rfl⟩, he.mpr hb⟩

theorem decoder4 {A : Assembly} (h : decodersOk A = true) {r : Regs}
    (hr : ∀ p ∈ rowPins328, isOutput r p = true) (n : Net) :
    DecoderLow A pins328 r 4 n ↔
      ∃ k, k < 8 ∧ A.chip 4 (outPin138 k) = some n ∧ M328.rowLines r = k + 8 := by
  obtain ⟨_, h1, _, h3, _, _, h5, h6⟩ := decodersOk_iff h
  have he := (enable h3 (hr ⟨.C, 3⟩ (by decide))).1
  unfold DecoderLow
  constructor
  · rintro ⟨k, hk, hn, hs, hb, _, _⟩
    exact ⟨k, hk, hn, ((rowNumber _ k hk).2).mp ⟨(selects h1 hr k).mp hs, he.mp hb⟩⟩
  · rintro ⟨k, hk, hn, hl⟩
    obtain ⟨hs, hb⟩ := ((rowNumber _ k hk).2).mpr hl
    exact ⟨k, hk, hn, (selects h1 hr k).mpr hs, he.mpr hb, ⟨_, h5, .inl rfl⟩, ⟨_, h6, .inl rfl⟩⟩

/-- What the column lines read on a checked board with the ATmega328P. -/
theorem board328 {A : Assembly} {R : Roles} {ps : List Place} {ws : List (List Net)}
    (h : boardOk328 A R ps ws = true) {r : Regs}
    (hr : ∀ p ∈ rowPins328, isOutput r p = true) (q : Bool) (closed : Sw → Bool)
    {ext : Net → Prop} (hext : ∀ n, ext n → Outside A n) :
    (∀ c n, c < 8 → column328 A c = some n →
      (PulledLow A.links closed (fun n => Low328 A r q n ∨ ext n) n ↔
        colLow ps closed (fun k => M328.rowLines r = k) c)) ∧
    ∀ k n, k < 16 → driver328 A k = some n →
      (PulledLow A.links closed (fun n => Low328 A r q n ∨ ext n) n ↔ M328.rowLines r = k) := by
  simp only [boardOk328, Bool.and_eq_true] at h
  obtain ⟨⟨⟨hm, hs⟩, hp⟩, hd⟩ := h
  obtain ⟨_, hl⟩ := matrix_lines hm
  simp only [sourcesOk328, Bool.and_eq_true, decide_eq_true_eq, List.all_eq_true] at hs
  obtain ⟨⟨⟨hg, hpins⟩, hinv⟩, hq⟩ := hs
  have free : ∀ {n : Net}, R.at n = .free → (R.at n).Low ps closed fun k => M328.rowLines r = k :=
    fun e => by rw [e]; trivial
  refine matrix_sound hm (fun n hn => ?_) fun k n hk hn hd' => ?_
  · rcases hn with (hn | hn | hn | hn | hn) | hn
    · rcases hn with rfl | ⟨p, hpn, _⟩
      · exact free hg
      · obtain ⟨x, hx, hc, rfl⟩ := mem_pinsAt.mp hpn
        have := hpins x hx
        rw [hc, Option.all_some, decide_eq_true_eq] at this
        exact free this
    · obtain ⟨k, hk, hc, hr'⟩ := (decoder3 hd hr n).mp hn
      obtain ⟨m, hm', e⟩ := hl k (by omega)
      unfold driver328 at hm'
      rw [if_pos hk, hc] at hm'
      cases hm'
      rw [e]
      exact hr'
    · obtain ⟨k, hk, hc, hr'⟩ := (decoder4 hd hr n).mp hn
      obtain ⟨m, hm', e⟩ := hl (k + 8) (by omega)
      unfold driver328 at hm'
      rw [if_neg (by omega), Nat.add_sub_cancel, hc] at hm'
      cases hm'
      rw [e]
      exact hr'
    · obtain ⟨x, hx, hc, _⟩ := hn
      have := hinv x hx
      rw [hc, Option.all_some, decide_eq_true_eq] at this
      exact free this
    · rw [hn.2, Option.all_some, decide_eq_true_eq] at hq
      exact free hq
    · exact free (plugs_sound hp (hext n hn))
  · unfold driver328 at hn
    by_cases h8 : k < 8
    · rw [if_pos h8] at hn
      exact .inl (.inr (.inl ((decoder3 hd hr n).mpr ⟨k, h8, hn, hd'⟩)))
    · rw [if_neg h8] at hn
      exact .inl (.inr (.inr (.inl ((decoder4 hd hr n).mpr ⟨k - 8, by omega, hn, by omega⟩))))

end Asdf
