import Verif.Spec.Sockets
import Verif.Lemmas.Circuit

/-! # Nets with a single driver -/

namespace Asdf

open Pcb Spec Avr

/-! ## Sets of nets that current does not leave -/

def inSet (S : List Net) (a : Net) : Bool := S.any (sameNet a)

theorem sameNet_refl (a : Net) : sameNet a a = true := by
  cases a <;> exact Nat.beq_refl _

theorem inSet_iff {S : List Net} {a : Net} : inSet S a = true ↔ a ∈ S := by
  unfold inSet
  rw [List.any_eq_true]
  constructor
  · rintro ⟨b, hb, h⟩
    rw [sameNet_eq h]
    exact hb
  · intro h
    exact ⟨a, h, sameNet_refl a⟩

/-- Current can flow from the set only to the set. -/
def closedSet (ls : List Link) (S : List Net) : Bool :=
  ls.all fun l => match l with
    | .switch _ a b => inSet S a == inSet S b
    | .diode a b => !inSet S a || inSet S b
    | .wire a b => inSet S a == inSet S b

theorem closed_passes {ls : List Link} {S : List Net} (h : closedSet ls S = true) {closed : Sw → Bool}
    {l : Link} (hl : l ∈ ls) {a b : Net} (hp : Passes closed l a b) (ha : a ∈ S) : b ∈ S := by
  have hk := List.all_eq_true.mp h l hl
  rw [← inSet_iff] at ha ⊢
  cases l with
  | switch s x y =>
    have hk : inSet S x = inSet S y := by simpa using hk
    rcases hp.2 with ⟨rfl, rfl⟩ | ⟨rfl, rfl⟩
    · rw [← hk]; exact ha
    · rw [hk]; exact ha
  | diode x y =>
    obtain ⟨rfl, rfl⟩ := hp
    simp only [ha, Bool.not_true, Bool.false_or] at hk
    exact hk
  | wire x y =>
    have hk : inSet S x = inSet S y := by simpa using hk
    rcases hp with ⟨rfl, rfl⟩ | ⟨rfl, rfl⟩
    · rw [← hk]; exact ha
    · rw [hk]; exact ha

/-- A net of the set is pulled low only if one of the set is driven low. -/
theorem closed_low {ls : List Link} {S : List Net} (h : closedSet ls S = true) {closed : Sw → Bool}
    {low : Net → Prop} {n : Net} (hp : PulledLow ls closed low n) : n ∈ S → ∃ m ∈ S, low m := by
  induction hp with
  | driven h => exact fun hn => ⟨_, hn, h⟩
  | through hl hp _ ih => exact fun ha => ih (closed_passes h hl hp ha)

/-- The set with the nets that a wire joins to it. -/
def growSet (ls : List Link) (S : List Net) : List Net :=
  ls.foldl (fun S l => match l with
    | .wire a b =>
      if inSet S a && !inSet S b then b :: S else if inSet S b && !inSet S a then a :: S else S
    | _ => S) S

/-- The nets within `k` rounds of a net. -/
def wireSet (ls : List Link) (n : Net) : Nat → List Net
  | 0 => [n]
  | k + 1 => growSet ls (wireSet ls n k)

theorem joined_snoc {ls : List Link} {a b c : Net} (h : Joined ls a b)
    (hw : .wire b c ∈ ls ∨ .wire c b ∈ ls) : Joined ls a c := by
  induction h with
  | refl => exact .step hw .refl
  | step h _ ih => exact .step h (ih hw)

theorem growSet_joined {ls : List Link} {n : Net} : ∀ (l : List Link) (S : List Net), (∀ x ∈ l, x ∈ ls) →
    (∀ m ∈ S, Joined ls n m) → ∀ m ∈ growSet l S, Joined ls n m := by
  intro l
  induction l with
  | nil => exact fun S _ h => h
  | cons x l ih =>
    intro S hl hS
    unfold growSet
    rw [List.foldl_cons]
    refine ih _ (fun y hy => hl y (List.mem_cons_of_mem _ hy)) ?_
    have hx := hl x List.mem_cons_self
    cases x with
    | switch s a b => exact hS
    | diode a b => exact hS
    | wire a b =>
      intro m hm
      by_cases h1 : (inSet S a && !inSet S b) = true
      · simp only [h1, if_true] at hm
        rw [Bool.and_eq_true, inSet_iff] at h1
        rcases List.mem_cons.mp hm with rfl | hm
        · exact joined_snoc (hS a h1.1) (.inl hx)
        · exact hS m hm
      · simp only [if_neg h1] at hm
        by_cases h2 : (inSet S b && !inSet S a) = true
        · simp only [h2, if_true] at hm
          rw [Bool.and_eq_true, inSet_iff] at h2
          rcases List.mem_cons.mp hm with rfl | hm
          · exact joined_snoc (hS b h2.1) (.inr hx)
          · exact hS m hm
        · simp only [if_neg h2] at hm
          exact hS m hm

theorem wireSet_joined {ls : List Link} {n : Net} : ∀ (k : Nat), ∀ m ∈ wireSet ls n k, Joined ls n m := by
  intro k
  induction k with
  | zero =>
    intro m hm
    rw [List.mem_singleton.mp hm]
    exact .refl
  | succ k ih => exact growSet_joined ls _ (fun _ h => h) ih

theorem joined_low {ls : List Link} {closed : Sw → Bool} {low : Net → Prop} {a b : Net}
    (h : Joined ls a b) (hb : low b) : PulledLow ls closed low a := by
  induction h with
  | refl => exact .driven hb
  | step h _ ih =>
    rcases h with h | h
    · exact .through h (.inl ⟨rfl, rfl⟩) (ih hb)
    · exact .through h (.inr ⟨rfl, rfl⟩) (ih hb)

/-! ## What drives a net -/

def isAt (o : Option Net) (n : Net) : Bool := match o with
  | some m => sameNet m n
  | none => false

theorem isAt_iff {o : Option Net} {n : Net} : isAt o n = true ↔ o = some n := by
  cases o with
  | none => exact ⟨fun h => (by cases h), fun h => (by cases h)⟩
  | some m =>
    refine ⟨fun h => congrArg some (sameNet_eq h), fun h => ?_⟩
    cases h
    exact sameNet_refl _

/-- The controller drives the net with exactly these pins, and it is not a supply net. -/
def onlyPinsAt (A : Assembly) (pins : List (Port × Nat × Nat)) (n : Net) (l : List Pin) : Bool :=
  !sameNet n (.io A.gnd) && !sameNet n (.io A.vcc) && decide (pinsAt A pins n = l)

theorem ne_of_sameNet {a b : Net} (h : (!sameNet a b) = true) : a ≠ b := by
  rintro rfl
  rw [sameNet_refl] at h
  cases h

theorem onlyPinsAt_low {A : Assembly} {pins : List (Port × Nat × Nat)} {n : Net} {l : List Pin}
    (h : onlyPinsAt A pins n l = true) (r : Regs) : LowAt A pins r n ↔ ∃ p ∈ l, drive r p = .low := by
  simp only [onlyPinsAt, Bool.and_eq_true, decide_eq_true_eq] at h
  unfold LowAt
  rw [h.2, or_iff_right (ne_of_sameNet h.1.1)]

theorem onlyPinsAt_high {A : Assembly} {pins : List (Port × Nat × Nat)} {n : Net} {l : List Pin}
    (h : onlyPinsAt A pins n l = true) (r : Regs) : HighAt A pins r n ↔ ∃ p ∈ l, drive r p = .high := by
  simp only [onlyPinsAt, Bool.and_eq_true, decide_eq_true_eq] at h
  unfold HighAt
  rw [h.2, or_iff_right (ne_of_sameNet h.1.2)]

/-- No decoder and no shift register drives the net. -/
def noLogic (A : Assembly) (n : Net) : Bool :=
  (List.range 8).all (fun k => !isAt (A.chip 3 (outPin138 k)) n && !isAt (A.chip 4 (outPin138 k)) n) &&
    !isAt (A.chip 2 13) n

/-- No inverter drives the net. -/
def noInverter (A : Assembly) (n : Net) : Bool := inverters04.all fun x => !isAt (A.chip 5 x.2) n

theorem noLogic_low {A : Assembly} {n : Net} (h : noLogic A n = true) (r : Regs) (q : Bool) :
    Low328 A r q n ↔ LowAt A pins328 r n ∨ InverterLow A pins328 r 5 n := by
  simp only [noLogic, Bool.and_eq_true, List.all_eq_true, List.mem_range] at h
  unfold Low328
  constructor
  · rintro (h1 | ⟨k, hk, h1, _⟩ | ⟨k, hk, h1, _⟩ | h1 | ⟨_, h1⟩)
    · exact .inl h1
    · have := (h.1 k hk).1
      rw [isAt_iff.mpr h1] at this
      cases this
    · have := (h.1 k hk).2
      rw [isAt_iff.mpr h1] at this
      cases this
    · exact .inr h1
    · have := h.2
      rw [isAt_iff.mpr h1] at this
      cases this
  · rintro (h1 | h1)
    · exact .inl h1
    · exact .inr (.inr (.inr (.inl h1)))

theorem noInverter_low {A : Assembly} {n : Net} (h : noInverter A n = true) (r : Regs) :
    ¬ InverterLow A pins328 r 5 n ∧ ¬ InverterHigh A pins328 r 5 n := by
  have key : ∀ x ∈ inverters04, A.chip 5 x.2 ≠ some n := by
    intro x hx hn
    have := List.all_eq_true.mp h x hx
    rw [isAt_iff.mpr hn] at this
    cases this
  exact ⟨fun ⟨x, hx, hn, _⟩ => key x hx hn, fun ⟨x, hx, hn, _⟩ => key x hx hn⟩

/-- The net is driven by the pins of the list alone. -/
def pins328Ok (A : Assembly) (l : List Pin) (n : Net) : Bool :=
  onlyPinsAt A pins328 n l && noLogic A n && noInverter A n

theorem pins328_low {A : Assembly} {n : Net} {l : List Pin} (h : pins328Ok A l n = true) (r : Regs) (q : Bool) :
    Low328 A r q n ↔ ∃ p ∈ l, drive r p = .low := by
  simp only [pins328Ok, Bool.and_eq_true] at h
  rw [noLogic_low h.1.2, onlyPinsAt_low h.1.1, or_iff_left (noInverter_low h.2 r).1]

theorem pins328_high {A : Assembly} {n : Net} {l : List Pin} (h : pins328Ok A l n = true) (r : Regs) :
    High328 A r n ↔ ∃ p ∈ l, drive r p = .high := by
  simp only [pins328Ok, Bool.and_eq_true] at h
  unfold High328
  rw [onlyPinsAt_high h.1.1, or_iff_left (noInverter_low h.2 r).2]

/-- The net is driven by one inverter, and its input by the pin alone. -/
def inverted328Ok (A : Assembly) (p : Pin) (n : Net) : Bool :=
  onlyPinsAt A pins328 n [] && noLogic A n &&
    inverters04.any (fun x => isAt (A.chip 5 x.2) n) &&
    inverters04.all (fun x => !isAt (A.chip 5 x.2) n || match A.chip 5 x.1 with
      | some m => onlyPinsAt A pins328 m [p]
      | none => false)

theorem inverted328 {A : Assembly} {n : Net} {p : Pin} (h : inverted328Ok A p n = true) (r : Regs) :
    (∀ q, Low328 A r q n ↔ drive r p = .high) ∧ (High328 A r n ↔ drive r p = .low) := by
  simp only [inverted328Ok, Bool.and_eq_true, List.any_eq_true, List.all_eq_true] at h
  obtain ⟨⟨⟨h1, h2⟩, x, hx, hxn⟩, h4⟩ := h
  have hin : ∀ y ∈ inverters04, A.chip 5 y.2 = some n → ∃ m, A.chip 5 y.1 = some m ∧
      onlyPinsAt A pins328 m [p] = true := by
    intro y hy hn
    have := h4 y hy
    rw [isAt_iff.mpr hn, Bool.not_true, Bool.false_or] at this
    cases hm : A.chip 5 y.1 with
    | none => rw [hm] at this; cases this
    | some m => rw [hm] at this; exact ⟨m, rfl, this⟩
  have hpin : ∀ {P : Pin → Prop}, (∃ z ∈ [p], P z) ↔ P p := by
    intro P
    simp
  constructor
  · intro q
    rw [noLogic_low h2, onlyPinsAt_low h1]
    constructor
    · rintro (⟨_, hz, _⟩ | ⟨y, hy, hn, m, hm, hh⟩)
      · cases hz
      · obtain ⟨m', hm', ho⟩ := hin y hy hn
        rw [hm] at hm'
        cases hm'
        exact hpin.mp ((onlyPinsAt_high ho r).mp hh)
    · intro hd
      obtain ⟨m, hm, ho⟩ := hin x hx (isAt_iff.mp hxn)
      exact .inr ⟨x, hx, isAt_iff.mp hxn, m, hm, (onlyPinsAt_high ho r).mpr (hpin.mpr hd)⟩
  · unfold High328
    rw [onlyPinsAt_high h1]
    constructor
    · rintro (⟨_, hz, _⟩ | ⟨y, hy, hn, m, hm, hh⟩)
      · cases hz
      · obtain ⟨m', hm', ho⟩ := hin y hy hn
        rw [hm] at hm'
        cases hm'
        exact hpin.mp ((onlyPinsAt_low ho r).mp hh)
    · intro hd
      obtain ⟨m, hm, ho⟩ := hin x hx (isAt_iff.mp hxn)
      exact .inr ⟨x, hx, isAt_iff.mp hxn, m, hm, (onlyPinsAt_low ho r).mpr (hpin.mpr hd)⟩

/-! ## Sockets -/

/-- The net at a socket's line has the signal's driver alone, and nothing is connected to
it. -/
def lineOk328 (A : Assembly) (σ : Signal) (n : Net) : Bool :=
  match signalPin m328 σ with
  | some (p, false) => closedSet A.links [n] && pins328Ok A [p] n
  | some (p, true) => closedSet A.links [n] && inverted328Ok A p n
  | none => match σ with
    | .plus5 => sameNet n (.io A.vcc)
    | _ => sameNet n (.io A.gnd)

def lineOk2560 (A : Assembly) (σ : Signal) (n : Net) : Bool :=
  match signalPin m2560 σ with
  | some (p, false) => closedSet A.links [n] && onlyPinsAt A pins2560 n [p]
  | some (_, true) => false
  | none => match σ with
    | .plus5 => sameNet n (.io A.vcc)
    | _ => sameNet n (.io A.gnd)

def socketOk (A : Assembly) (lineOk : Assembly → Signal → Net → Bool) (x : Nat × List (Nat × Signal)) : Bool :=
  x.2.all fun y => match A.plug x.1 y.1 with
    | some n => lineOk A y.2 n
    | none => false

/-- A net with nothing connected is pulled low only by its own driver. -/
theorem single_low {ls : List Link} {n : Net} (h : closedSet ls [n] = true) (closed : Sw → Bool)
    (low ext : Net → Prop) (he : ¬ ext n) : PulledLow ls closed (fun m => low m ∨ ext m) n ↔ low n := by
  constructor
  · intro hp
    obtain ⟨m, hm, hl⟩ := closed_low h hp (List.mem_singleton.mpr rfl)
    rw [List.mem_singleton.mp hm] at hl
    exact hl.resolve_right he
  · intro hl
    exact .driven (.inl hl)

/-! ## Lamps -/

/-- The lamp is connected to the supply and to nets with the given driver alone. -/
def lampOk (A : Assembly) (drv idle : Net → Bool) (x : Option (Net × Net)) : Bool :=
  match x with
  | some (a, k) =>
    let ls := A.links ++ resistorLinks A
    let S := wireSet ls k 3
    inSet (wireSet ls a 3) (.io A.vcc) && closedSet ls S && S.any drv && S.all fun n => drv n || idle n
  | none => false

theorem lamp_lit {A : Assembly} {drv idle : Net → Bool} {x : Option (Net × Net)} (h : lampOk A drv idle x = true)
    {low : Net → Prop} {P : Prop} (hd : ∀ n, drv n = true → (low n ↔ P)) (hi : ∀ n, idle n = true → ¬ low n)
    (closed : Sw → Bool) : ∃ a k, x = some (a, k) ∧ (Lit A closed low a k ↔ P) := by
  cases x with
  | none => cases h
  | some x =>
    obtain ⟨a, k⟩ := x
    simp only [lampOk, Bool.and_eq_true, List.any_eq_true, List.all_eq_true, Bool.or_eq_true, inSet_iff] at h
    obtain ⟨⟨⟨h1, h2⟩, m, hm, hmd⟩, h4⟩ := h
    refine ⟨a, k, rfl, ?_, ?_⟩
    · rintro ⟨_, hp⟩
      have hk : k ∈ wireSet (A.links ++ resistorLinks A) k 3 := by
        have up : ∀ (l : List Link) (S : List Net) (n : Net), n ∈ S → n ∈ growSet l S := by
          intro l
          induction l with
          | nil => exact fun S n h => h
          | cons x l ih =>
            intro S n hn
            unfold growSet
            rw [List.foldl_cons]
            refine ih _ n ?_
            cases x with
            | switch => exact hn
            | diode => exact hn
            | wire a b =>
              dsimp only
              split
              · exact List.mem_cons_of_mem _ hn
              · split
                · exact List.mem_cons_of_mem _ hn
                · exact hn
        exact up _ _ _ (up _ _ _ (up _ _ _ (List.mem_singleton.mpr rfl)))
      obtain ⟨n, hn, hl⟩ := closed_low h2 hp hk
      rcases h4 n hn with h | h
      · exact (hd n h).mp hl
      · exact absurd hl (hi n h)
    · intro hP
      exact ⟨wireSet_joined 3 _ h1, joined_low (wireSet_joined 3 _ hm) ((hd m hmd).mpr hP)⟩

end Asdf
