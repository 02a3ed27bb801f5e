import Verif.Spec.Ghosts
import Verif.Lemmas.BoardRoles

/-! # Lemmas for C119: a keyboard without diodes -/

namespace Asdf.Ghosts

open Pcb Spec Avr

/-- The role of a net on a board with a bare keyboard: the driver of a row behind its diode, or as in
`Role`. -/
inductive BRole where
  | drv (k : Nat)
  | of (r : Role)
  deriving DecidableEq

/-- The roles, from those of the board with diodes: `ds` are the nets of the drivers; the nets between a key
and its diode are now the row. -/
def bareAt (R : Roles) (ds : List Nat) (g : Sw → Bool) (n : Net) : BRole :=
  match R.at n with
  | .row r =>
    match n with
    | .io m => if ds.any (Nat.beq m) then .drv r else .of (.row r)
    | .kb _ => .of (.row r)
  | .mid r c s => if g s then .of (.mid r c s) else .of (.row r)
  | x => .of x

/-- When a net with a role can be low. -/
def BRole.Low (ps : List Place) (g closed : Sw → Bool) (sel : Nat → Prop) : BRole → Prop
  | .drv k => sel k
  | .of (.row r) => Reaches ps g closed sel (.row r)
  | .of (.col c) => Reaches ps g closed sel (.col c)
  | .of (.mid r c s) => Reaches ps g closed sel (.row r) ∨ (closed s = true ∧ Reaches ps g closed sel (.col c))
  | .of (.dmid r _ s) => Reaches ps g closed sel (.row r) ∧ closed s = true
  | .of (.stub r) => Reaches ps g closed sel (.row r)
  | .of .free => True

def flowOk (ps : List Place) : BRole → BRole → Bool
  | .of .free, _ => true
  | .of (.row r), .drv k => r = k
  | .of (.mid r _ _), .of (.row r') => r = r'
  | .of (.stub r), .of (.row r') => r = r'
  | .of (.col c), .of (.dmid r c' s) => c = c' && placedAt ps r c s
  | a, b => a = b

def switchOk (ps : List Place) (g : Sw → Bool) (s : Sw) : BRole → BRole → Bool
  | .of (.col c), .of (.row r) => !g s && placedAt ps r c s
  | .of (.row r), .of (.col c) => !g s && placedAt ps r c s
  | .of (.col c), .of (.mid r c' s') => c = c' && s = s' && placedAt ps r c s
  | .of (.mid r c' s'), .of (.col c) => c = c' && s = s' && placedAt ps r c s
  | .of (.row r), .of (.dmid r' c s') => r = r' && s = s' && placedAt ps r c s
  | .of (.dmid r' c s'), .of (.row r) => r = r' && s = s' && placedAt ps r c s
  | _, _ => false

def linkOk (ps : List Place) (g : Sw → Bool) (f : Net → BRole) : Link → Bool
  | .switch s a b => switchOk ps g s (f a) (f b)
  | .diode a b => flowOk ps (f a) (f b)
  | .wire a b => flowOk ps (f a) (f b) && flowOk ps (f b) (f a)

variable {ps : List Place} {g closed : Sw → Bool} {sel : Nat → Prop}

theorem toColumn_of {r c : Nat} {s : Sw} (h : placedAt ps r c s = true) (hs : closed s = true)
    (hr : Reaches ps g closed sel (.row r)) : Reaches ps g closed sel (.col c) := by
  obtain ⟨p, hp, rfl, rfl, rfl⟩ := placedAt_iff h
  exact .toColumn hp hs hr

theorem toRow_of {r c : Nat} {s : Sw} (h : placedAt ps r c s = true) (hs : closed s = true) (hg : g s = false)
    (hr : Reaches ps g closed sel (.col c)) : Reaches ps g closed sel (.row r) := by
  obtain ⟨p, hp, rfl, rfl, rfl⟩ := placedAt_iff h
  exact .toRow hp hs hg hr

theorem flow_sound {a b : BRole} (h : flowOk ps a b = true) (hb : b.Low ps g closed sel) :
    a.Low ps g closed sel := by
  unfold flowOk at h
  split at h
  · trivial
  · simp only [decide_eq_true_eq] at h
    subst h
    exact .selected hb
  · simp only [decide_eq_true_eq] at h
    subst h
    exact .inl hb
  · simp only [decide_eq_true_eq] at h
    subst h
    exact hb
  · simp only [Bool.and_eq_true, decide_eq_true_eq] at h
    obtain ⟨rfl, h⟩ := h
    exact toColumn_of h hb.2 hb.1
  · simp only [decide_eq_true_eq] at h
    subst h
    exact hb

theorem switch_sound {s : Sw} {a b : BRole} (h : switchOk ps g s a b = true) (hs : closed s = true) :
    a.Low ps g closed sel ↔ b.Low ps g closed sel := by
  unfold switchOk at h
  split at h
  · simp only [Bool.and_eq_true, Bool.not_eq_true'] at h
    exact ⟨toRow_of h.2 hs h.1, toColumn_of h.2 hs⟩
  · simp only [Bool.and_eq_true, Bool.not_eq_true'] at h
    exact ⟨toColumn_of h.2 hs, toRow_of h.2 hs h.1⟩
  · simp only [Bool.and_eq_true, decide_eq_true_eq] at h; obtain ⟨⟨rfl, rfl⟩, h⟩ := h
    exact ⟨fun k => .inr ⟨hs, k⟩, fun k => k.elim (toColumn_of h hs) And.right⟩
  · simp only [Bool.and_eq_true, decide_eq_true_eq] at h; obtain ⟨⟨rfl, rfl⟩, h⟩ := h
    exact ⟨fun k => k.elim (toColumn_of h hs) And.right, fun k => .inr ⟨hs, k⟩⟩
  · simp only [Bool.and_eq_true, decide_eq_true_eq] at h; obtain ⟨⟨rfl, rfl⟩, h⟩ := h
    exact ⟨fun k => ⟨k, hs⟩, And.left⟩
  · simp only [Bool.and_eq_true, decide_eq_true_eq] at h; obtain ⟨⟨rfl, rfl⟩, h⟩ := h
    exact ⟨And.left, fun k => ⟨k, hs⟩⟩
  · cases h

/-- No net is pulled low but as its role says. -/
theorem roles_sound {ls : List Link} {f : Net → BRole} (hls : ls.all (linkOk ps g f) = true) {low : Net → Prop}
    (hlow : ∀ n, low n → (f n).Low ps g closed sel) {n : Net} (h : PulledLow ls closed low n) :
    (f n).Low ps g closed sel := by
  induction h with
  | driven h => exact hlow _ h
  | @through a b l hl hp _ ih =>
    have hk := List.all_eq_true.mp hls l hl
    cases l with
    | switch s x y =>
      obtain ⟨hs, ⟨rfl, rfl⟩ | ⟨rfl, rfl⟩⟩ := hp
      · exact (switch_sound hk hs).mpr ih
      · exact (switch_sound hk hs).mp ih
    | diode x y =>
      obtain ⟨rfl, rfl⟩ := hp
      exact flow_sound hk ih
    | wire x y =>
      simp only [linkOk, Bool.and_eq_true] at hk
      obtain ⟨rfl, rfl⟩ | ⟨rfl, rfl⟩ := hp
      · exact flow_sound hk.1 ih
      · exact flow_sound hk.2 ih

/-! ## Ways -/

/-- For every switch a way from its column to its row, and back if it has no diode. -/
def waysOk (ls : List Link) (g : Sw → Bool) (col row : Nat → Option Net) : List Place → List (List Net) → Bool
  | p :: ps, w :: ws => wayOk ls p.sw w.dropLast && w.dropLast.head? = col p.col && (col p.col).isSome &&
      w.dropLast.getLast? = row p.row && (row p.row).isSome && p.row < 16 && p.col < 8 &&
      (g p.sw || wayOk ls p.sw w.dropLast.reverse) && waysOk ls g col row ps ws
  | [], [] => true
  | _, _ => false

theorem ways_sound {ls : List Link} {col row : Nat → Option Net} {ws : List (List Net)}
    (h : waysOk ls g col row ps ws = true) {p : Place} (hp : p ∈ ps) :
    p.row < 16 ∧ p.col < 8 ∧ ∃ n m, col p.col = some n ∧ row p.row = some m ∧
      ∀ low, closed p.sw = true → (PulledLow ls closed low m → PulledLow ls closed low n) ∧
        (g p.sw = false → PulledLow ls closed low n → PulledLow ls closed low m) := by
  induction ps generalizing ws with
  | nil => cases hp
  | cons q ps ih =>
    cases ws with
    | nil => cases h
    | cons w ws =>
      simp only [waysOk, Bool.and_eq_true, decide_eq_true_eq, Option.isSome_iff_exists, Bool.or_eq_true] at h
      obtain ⟨⟨⟨⟨⟨⟨⟨⟨h1, h2⟩, n, h3⟩, h4⟩, m, h5⟩, h6⟩, h7⟩, h8⟩, h9⟩ := h
      rcases List.mem_cons.mp hp with rfl | hp
      · refine ⟨h6, h7, n, m, h3, h5, fun low hs => ⟨way_sound hs h1 (h2.trans h3) (h4.trans h5), fun hg => ?_⟩⟩
        have h8 : wayOk ls p.sw w.dropLast.reverse = true := h8.resolve_left (by rw [hg]; decide)
        refine way_sound hs h8 ?_ ?_
        · rw [List.head?_reverse]; exact h4.trans h5
        · rw [List.getLast?_reverse]; exact h2.trans h3
      · exact ih h9 hp

/-- The lines have their roles, and a row reaches its driver. -/
def linesOk (ls : List Link) (f : Net → BRole) (col row drv : Nat → Option Net) : Bool :=
  ((List.range 8).all fun c => (col c).any fun n => f n = .of (.col c)) &&
    (List.range 16).all fun k => (drv k).any fun n => f n = .drv k &&
      (row k).any fun m => ls.any (passOk (.dip 0) m n)

/-- The whole check of a matrix. -/
def matrixOk (ls : List Link) (f : Net → BRole) (g : Sw → Bool) (ps : List Place) (ws : List (List Net))
    (col row drv : Nat → Option Net) : Bool :=
  ls.all (linkOk ps g f) && linesOk ls f col row drv && waysOk ls g col row ps ws

theorem matrix_lines {ls : List Link} {f : Net → BRole} {ws : List (List Net)} {col row drv : Nat → Option Net}
    (h : matrixOk ls f g ps ws col row drv = true) :
    (∀ c, c < 8 → ∃ n, col c = some n ∧ f n = .of (.col c)) ∧
      ∀ k, k < 16 → ∃ n m, drv k = some n ∧ f n = .drv k ∧ row k = some m ∧ ls.any (passOk (.dip 0) m n) = true := by
  simp only [matrixOk, linesOk, Bool.and_eq_true, List.all_eq_true, List.mem_range, Option.any_eq_true,
    decide_eq_true_eq] at h
  refine ⟨h.1.2.1, fun k hk => ?_⟩
  obtain ⟨n, h1, h2, m, h3, h4⟩ := h.1.2.2 k hk
  exact ⟨n, m, h1, h2, h3, h4⟩

theorem dip0_passes {m n : Net} {l : Link} (h0 : ∀ a b, l ≠ .switch (.dip 0) a b) (h : passOk (.dip 0) m n l = true) :
    Passes closed l m n := by
  have := pass_sound h
  cases l with
  | switch t x y =>
    have ht : t = .dip 0 := of_decide_eq_true this.1
    exact absurd (by rw [ht]) (h0 x y)
  | diode x y => exact this
  | wire x y => exact this

/-- What a column line and a driver of a checked matrix show. -/
theorem matrix_sound {ls : List Link} {f : Net → BRole} {ws : List (List Net)} {col row drv : Nat → Option Net}
    (h : matrixOk ls f g ps ws col row drv = true) (h0 : ∀ l ∈ ls, ∀ a b, l ≠ .switch (.dip 0) a b)
    {low : Net → Prop} (hlow : ∀ n, low n → (f n).Low ps g closed sel)
    (hdrv : ∀ k n, k < 16 → drv k = some n → sel k → low n) :
    (∀ c n, c < 8 → col c = some n → (PulledLow ls closed low n ↔ Reaches ps g closed sel (.col c))) ∧
      ∀ k n, k < 16 → drv k = some n → (PulledLow ls closed low n ↔ sel k) := by
  obtain ⟨h1, h2⟩ := matrix_lines h
  simp only [matrixOk, Bool.and_eq_true] at h
  have joined : ∀ L, Reaches ps g closed sel L →
      match L with
      | .row r => r < 16 → ∀ m, row r = some m → PulledLow ls closed low m
      | .col c => ∀ n, col c = some n → PulledLow ls closed low n := by
    intro L hL
    induction hL with
    | @selected r hs =>
      intro hr m hm
      obtain ⟨n, m', e1, _, e3, e4⟩ := h2 r hr
      rw [hm] at e3
      cases e3
      obtain ⟨l, hl, hp⟩ := List.any_eq_true.mp e4
      exact .through hl (dip0_passes (h0 l hl) hp) (.driven (hdrv r n hr e1 hs))
    | @toColumn p hp hc _ ih =>
      intro n hn
      obtain ⟨hr, _, n', m, e1, e2, e3⟩ := ways_sound (closed := closed) h.2 hp
      rw [hn] at e1
      cases e1
      exact (e3 low hc).1 (ih hr m e2)
    | @toRow p hp hc hg _ ih =>
      intro _ m hm
      obtain ⟨_, _, n, m', e1, e2, e3⟩ := ways_sound (closed := closed) h.2 hp
      rw [hm] at e2
      cases e2
      exact (e3 low hc).2 hg (ih n e1)
  constructor
  · intro c n hc hn
    refine ⟨fun hp => ?_, fun hj => joined _ hj n hn⟩
    have := roles_sound h.1.1 hlow hp
    obtain ⟨n', hn', hr⟩ := h1 c hc
    rw [hn] at hn'
    cases hn'
    rw [hr] at this
    exact this
  · intro k n hk hn
    refine ⟨fun hp => ?_, fun hs => .driven (hdrv k n hk hn hs)⟩
    have := roles_sound h.1.1 hlow hp
    obtain ⟨n', _, hn', hr, _⟩ := h2 k hk
    rw [hn] at hn'
    cases hn'
    rw [hr] at this
    exact this

/-! ## The boards -/

/-- There is no DIP switch 0. -/
def noDip0 : Link → Bool
  | .switch (.dip 0) _ _ => false
  | _ => true

theorem noDip0_sound {ls : List Link} (h : ls.all noDip0 = true) : ∀ l ∈ ls, ∀ a b, l ≠ .switch (.dip 0) a b := by
  intro l hl a b e
  subst e
  exact Bool.noConfusion (show false = true from List.all_eq_true.mp h _ hl)

def sourcesOk2560 (A : Assembly) (f : Net → BRole) : Bool :=
  f (.io A.gnd) = .of .free && pins2560.all fun x => (A.chip 1 x.2.2).all fun n =>
    match f n with
    | .of .free => true
    | .drv k => rowLine2560 k = ⟨x.1, x.2.1⟩
    | .of (.col _) => x.1 = .C && x.2.1 < 8
    | _ => false

theorem sources2560 {A : Assembly} {f : Net → BRole} (h : sourcesOk2560 A f = true) {r : Regs}
    (hr : rowReady2560 r) {n : Net} (hn : Low2560 A r n) :
    (f n).Low ps g closed fun k => drive r (rowLine2560 k) = .low := by
  simp only [sourcesOk2560, Bool.and_eq_true, decide_eq_true_eq, List.all_eq_true] at h
  rcases hn with rfl | ⟨p, hp, hd⟩
  · rw [h.1]
    trivial
  · obtain ⟨x, hx, hc, rfl⟩ := mem_pinsAt.mp hp
    have := h.2 x hx
    rw [hc, Option.all_some] at this
    split at this
    · rename_i e
      rw [e]
      trivial
    · rename_i k e
      rw [e]
      have e2 := of_decide_eq_true this
      show drive r (rowLine2560 k) = .low
      rw [e2]
      exact hd
    · simp only [Bool.and_eq_true, decide_eq_true_eq] at this
      have hi := hr.2 _ this.2
      rw [← this.1] at hi
      unfold drive at hd
      rw [hi.1, hi.2] at hd
      cases hd
    · cases this

theorem bareAt_free {R : Roles} {ds : List Nat} {n : Net} (h : R.at n = .free) : bareAt R ds g n = .of .free := by
  unfold bareAt
  rw [h]

def boardOk2560 (A : Assembly) (R : Roles) (ds : List Nat) (g : Sw → Bool) (ps : List Place) (ws : List (List Net))
    (row : Nat → Option Net) : Bool :=
  matrixOk (bare A) (bareAt R ds g) g ps ws (column2560 A) row (driver2560 A) &&
    sourcesOk2560 A (bareAt R ds g) && plugsOk A R && (bare A).all noDip0

theorem board2560 {A : Assembly} {R : Roles} {ds : List Nat} {ws : List (List Net)} {row : Nat → Option Net}
    (h : boardOk2560 A R ds g ps ws row = true) {r : Regs} (hr : rowReady2560 r) (closed : Sw → Bool)
    {ext : Net → Prop} (hext : ∀ n, ext n → Outside A n) :
    (∀ c n, c < 8 → column2560 A c = some n →
      (PulledLow (bare A) closed (fun n => Low2560 A r n ∨ ext n) n ↔
        Reaches ps g closed (fun k => drive r (rowLine2560 k) = .low) (.col c))) ∧
    ∀ k n, k < 16 → driver2560 A k = some n →
      (PulledLow (bare A) closed (fun n => Low2560 A r n ∨ ext n) n ↔ drive r (rowLine2560 k) = .low) := by
  simp only [boardOk2560, Bool.and_eq_true] at h
  refine matrix_sound h.1.1.1 (noDip0_sound h.2) (fun n hn => ?_) fun k n _ hn hd => .inl (drives2560 hn hd)
  rcases hn with hn | hn
  · exact sources2560 h.1.1.2 hr hn
  · rw [bareAt_free (plugs_sound h.1.2 (hext n hn))]
    trivial

def boardOk328 (A : Assembly) (R : Roles) (ds : List Nat) (g : Sw → Bool) (ps : List Place) (ws : List (List Net))
    (row : Nat → Option Net) : Bool :=
  matrixOk (bare A) (bareAt R ds g) g ps ws (column328 A) row (driver328 A) && sourcesOk328 A R && plugsOk A R &&
    decodersOk A && (bare A).all noDip0

theorem board328 {A : Assembly} {R : Roles} {ds : List Nat} {ws : List (List Net)} {row : Nat → Option Net}
    (h : boardOk328 A R ds g ps ws row = true) {r : Regs}
    (hr : ∀ p ∈ rowPins328, isOutput r p = true) (q : Bool) (closed : Sw → Bool)
    {ext : Net → Prop} (hext : ∀ n, ext n → Outside A n) :
    (∀ c n, c < 8 → column328 A c = some n →
      (PulledLow (bare A) closed (fun n => Low328 A r q n ∨ ext n) n ↔
        Reaches ps g closed (fun k => M328.rowLines r = k) (.col c))) ∧
    ∀ k n, k < 16 → driver328 A k = some n →
      (PulledLow (bare A) closed (fun n => Low328 A r q n ∨ ext n) n ↔ M328.rowLines r = k) := by
  simp only [boardOk328, Bool.and_eq_true] at h
  obtain ⟨⟨⟨⟨hm, hs⟩, hp⟩, hd⟩, h0⟩ := h
  obtain ⟨_, hl⟩ := matrix_lines hm
  simp only [sourcesOk328, Bool.and_eq_true, decide_eq_true_eq, List.all_eq_true] at hs
  obtain ⟨⟨⟨hg, hpins⟩, hinv⟩, hq⟩ := hs
  have free : ∀ {n : Net}, R.at n = .free → (bareAt R ds g n).Low ps g closed fun k => M328.rowLines r = k :=
    fun e => by rw [bareAt_free e]; trivial
  refine matrix_sound hm (noDip0_sound h0) (fun n hn => ?_) fun k n hk hn hd' => ?_
  · rcases hn with (hn | hn | hn | hn | hn) | hn
    · rcases hn with rfl | ⟨p, hpn, _⟩
      · exact free hg
      · obtain ⟨x, hx, hc, rfl⟩ := mem_pinsAt.mp hpn
        have := hpins x hx
        rw [hc, Option.all_some, decide_eq_true_eq] at this
        exact free this
    · obtain ⟨k, hk, hc, hr'⟩ := (decoder3 hd hr n).mp hn
      obtain ⟨m, _, hm', e, _⟩ := hl k (by omega)
      unfold driver328 at hm'
      rw [if_pos hk, hc] at hm'
      cases hm'
      rw [e]
      exact hr'
    · obtain ⟨k, hk, hc, hr'⟩ := (decoder4 hd hr n).mp hn
      obtain ⟨m, _, hm', e, _⟩ := hl (k + 8) (by omega)
      unfold driver328 at hm'
      rw [if_neg (by omega), Nat.add_sub_cancel, hc] at hm'
      cases hm'
      rw [e]
      exact hr'
    · obtain ⟨x, hx, hc, _⟩ := hn
      have := hinv x hx
      rw [hc, Option.all_some, decide_eq_true_eq] at this
      exact free this
    · rw [hn.2, Option.all_some, decide_eq_true_eq] at hq
      exact free hq
    · exact free (plugs_sound hp (hext n hn))
  · unfold driver328 at hn
    by_cases h8 : k < 8
    · rw [if_pos h8] at hn
      exact .inl (.inr (.inl ((decoder3 hd hr n).mpr ⟨k, h8, hn, hd'⟩)))
    · rw [if_neg h8] at hn
      exact .inl (.inr (.inr (.inl ((decoder4 hd hr n).mpr ⟨k - 8, by omega, hn, by omega⟩))))

/-! ## Without the diodes of the rows -/

/-- The same links, some diodes being wires. -/
def Looser (ls ls' : List Link) : Prop := ∀ l ∈ ls, l ∈ ls' ∨ wired l ∈ ls'

theorem wired_passes {l : Link} {a b : Net} (h : Passes closed l a b) : Passes closed (wired l) a b := by
  cases l with
  | switch s x y => exact h
  | diode x y => exact .inl h
  | wire x y => exact h

theorem Looser.pulled {ls ls' : List Link} (h : Looser ls ls') {low : Net → Prop} {n : Net}
    (hn : PulledLow ls closed low n) : PulledLow ls' closed low n := by
  induction hn with
  | driven h => exact .driven h
  | through hl hp _ ih =>
    rcases h _ hl with hl | hl
    · exact .through hl hp ih
    · exact .through hl (wired_passes hp) ih

theorem part_looser (f : Nat → Net) (p : Part) : Looser (p.links f true) (p.links f false) := by
  intro l hl
  unfold Part.links at hl ⊢
  generalize p.kind = k at hl ⊢
  cases k
  case bypassed =>
    refine .inr ?_
    replace hl : l ∈ p.link f .diode 2 1 := hl
    show wired l ∈ p.link f .wire 2 1
    unfold Part.link at hl ⊢
    cases h2 : p.net 2 with
    | none => rw [h2] at hl; cases hl
    | some a =>
      cases h1 : p.net 1 with
      | none => rw [h2, h1] at hl; cases hl
      | some b =>
        rw [h2, h1] at hl
        rw [List.mem_singleton.mp hl]
        exact List.mem_cons_self
  all_goals exact .inl hl

theorem wired_wired (l : Link) : wired (wired l) = wired l := by cases l <;> rfl

theorem bareLinks_looser (p : Part) : Looser (bareLinks true p) (bareLinks false p) := by
  intro l hl
  unfold bareLinks at hl ⊢
  by_cases hk : p.kind = .led
  · rw [if_pos hk] at hl ⊢
    exact part_looser _ p l hl
  · rw [if_neg hk] at hl ⊢
    obtain ⟨l', hl', rfl⟩ := List.mem_map.mp hl
    refine .inl (List.mem_map.mpr ?_)
    rcases part_looser _ p l' hl' with h | h
    · exact ⟨l', h, rfl⟩
    · exact ⟨_, h, wired_wired l'⟩

/-- An assembly with the bridges under the row diodes uncut. -/
theorem bare_looser (A : Assembly) : Looser (bare { A with cut := true }) (bare { A with cut := false }) := by
  intro l hl
  unfold bare at hl ⊢
  simp only [List.mem_append, List.mem_flatMap] at hl ⊢
  rcases hl with (⟨p, hp, hl⟩ | ⟨p, hp, hl⟩) | hl
  · rcases bareLinks_looser p l hl with h | h
    · exact .inl (.inl (.inl ⟨p, hp, h⟩))
    · exact .inr (.inl (.inl ⟨p, hp, h⟩))
  · rcases part_looser _ p l hl with h | h
    · exact .inl (.inl (.inr ⟨p, hp, h⟩))
    · exact .inr (.inl (.inr ⟨p, hp, h⟩))
  · exact .inl (.inr hl)

/-- Links of which none is a diode of a row: current flows from a driver to its row. -/
def driversOk (ls : List Link) (row drv : Nat → Option Net) : Bool :=
  (List.range 16).all fun k => (drv k).any fun n => (row k).any fun m => ls.any (passOk (.dip 0) n m)

/-- Two closed switches of a column connect the drivers of their rows. -/
theorem fight {ls ls' : List Link} (hls : Looser ls ls') {f : Net → BRole} {ws : List (List Net)}
    {col row drv : Nat → Option Net} (h : matrixOk ls f g ps ws col row drv = true)
    (h0 : ∀ l ∈ ls', ∀ a b, l ≠ .switch (.dip 0) a b) (hd : driversOk ls' row drv = true) {low : Net → Prop}
    {p q : Place} (hp : p ∈ ps) (hq : q ∈ ps) (hc : p.col = q.col) (h1 : closed p.sw = true)
    (h2 : closed q.sw = true) (hg : g q.sw = false) :
    ∃ n m, drv p.row = some n ∧ drv q.row = some m ∧ (low n → PulledLow ls' closed low m) := by
  obtain ⟨_, hl⟩ := matrix_lines h
  have hw := h
  simp only [matrixOk, Bool.and_eq_true] at hw
  obtain ⟨hpr, _, a, b, e1, e2, e3⟩ := ways_sound (closed := closed) hw.2 hp
  obtain ⟨hqr, _, a', b', f1, f2, f3⟩ := ways_sound (closed := closed) hw.2 hq
  rw [hc, f1] at e1
  cases e1
  obtain ⟨n, m, k1, _, k3, k4⟩ := hl p.row hpr
  obtain ⟨n', m', j1, _, j3, _⟩ := hl q.row hqr
  rw [e2] at k3
  cases k3
  rw [f2] at j3
  cases j3
  simp only [driversOk, List.all_eq_true, List.mem_range] at hd
  have j4 := hd q.row hqr
  rw [j1, Option.any_some, f2, Option.any_some] at j4
  refine ⟨n, n', k1, j1, fun hlow => ?_⟩
  have dip : ∀ l ∈ ls, ∀ x y, l ≠ .switch (.dip 0) x y := fun l hl' x y e => by
    subst e
    rcases hls _ hl' with h | h
    · exact h0 _ h x y rfl
    · exact h0 _ h x y rfl
  obtain ⟨l, hl1, hl2⟩ := List.any_eq_true.mp k4
  obtain ⟨l', hl1', hl2'⟩ := List.any_eq_true.mp j4
  have s1 : PulledLow ls closed low b := .through hl1 (dip0_passes (dip l hl1) hl2) (.driven hlow)
  exact .through hl1' (dip0_passes (h0 l' hl1') hl2') (hls.pulled ((f3 low h2).2 hg ((e3 low h1).1 s1)))

end Asdf.Ghosts
