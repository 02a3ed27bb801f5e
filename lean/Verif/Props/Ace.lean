import Verif.Lemmas.Sockets
import Verif.Spec.Ace

/-! # Property C84: the keys of the Franklin ACE 1000 keyboard -/

namespace Asdf.Props

open Avr Pcb Spec

/-- The claim of C84: for every key of the Franklin ACE 1000 keyboard there are lines that
the interface can drive low so that closing the key, and nothing else, makes another line
of the interface low. -/
def C84Statement : Prop :=
  ∀ A ∈ aceBoards, ∀ k ∈ boardKeys A, ∃ (low : Net → Prop) (n : Net), (∀ m, low m → IoNet m) ∧ IoNet n ∧
    PulledLow A.links (fun s => decide (s = .key k)) low n ∧ ¬ PulledLow A.links (fun _ => false) low n

/-- What a net of the keyboard amounts to: `none` for the row lines, from which current only
leaves; for the nets between a key and its diode the column line at the other contact of the
key; other nets as they are. -/
def aceRep (A : Assembly) : Net → Option Net
  | .io n => some (.io n)
  | .kb n =>
    if (n = 10 || n = 124 || (115 ≤ n && n ≤ 122 : Bool)) = true then none
    else match A.keyboard.find? (fun p => p.kind = .key && p.net 2 = some n) with
      | some p => (p.net 1).map .kb
      | none => some (.kb n)

def sameOpt (a b : Option Net) : Bool := match a, b with
  | some x, some y => sameNet x y
  | none, none => true
  | _, _ => false

theorem sameOpt_eq {a b : Option Net} (h : sameOpt a b = true) : a = b := by
  cases a <;> cases b
  · rfl
  · cases h
  · cases h
  · exact congrArg some (sameNet_eq h)

/-- A link respects `aceRep` in the direction from `a` to `b`. -/
def aceWay (A : Assembly) (a b : Net) : Bool :=
  sameOpt (aceRep A a) none || sameOpt (aceRep A a) (some a) && sameOpt (aceRep A b) (some b)

def aceLink (A : Assembly) : Link → Bool
  | .switch (.key _) a b => sameOpt (aceRep A a) (aceRep A b) && !sameOpt (aceRep A a) none
  | .switch (.dip _) a b => aceWay A a b && aceWay A b a
  | .diode a b => aceWay A a b
  | .wire a b => aceWay A a b && aceWay A b a

theorem ace_links : ∀ A ∈ aceBoards, A.links.all (aceLink A) = true := by decide +kernel

theorem ace_way {A : Assembly} {a b n : Net} (h : aceWay A a b = true) (hn : aceRep A a = some n) :
    n = a ∧ aceRep A b = some b := by
  simp only [aceWay, Bool.or_eq_true, Bool.and_eq_true] at h
  rcases h with h | ⟨h1, h2⟩
  · rw [sameOpt_eq h] at hn
    cases hn
  · rw [sameOpt_eq h1] at hn
    exact ⟨(Option.some.inj hn).symm, sameOpt_eq h2⟩

theorem ace_low {A : Assembly} (hA : A.links.all (aceLink A) = true) {closed : Sw → Bool} {low : Net → Prop}
    (hlow : ∀ m, low m → IoNet m) {n : Net} (h : PulledLow A.links closed low n) :
    ∀ m, aceRep A n = some m → PulledLow A.links (keysOpen closed) low m := by
  induction h with
  | @driven n h =>
    intro m hm
    have := hlow n h
    cases n with
    | io n => cases hm; exact .driven h
    | kb n => exact this.elim
  | @through a b l hl hp _ ih =>
    intro m hm
    have ho := List.all_eq_true.mp hA l hl
    cases l with
    | switch s x y =>
      cases s with
      | key k =>
        have ho := (Bool.and_eq_true _ _ ▸ ho : _ ∧ _)
        have heq := sameOpt_eq ho.1
        rcases hp.2 with ⟨rfl, rfl⟩ | ⟨rfl, rfl⟩
        · exact ih m (heq ▸ hm)
        · exact ih m (heq ▸ hm)
      | dip k =>
        have ho := (Bool.and_eq_true _ _ ▸ ho : _ ∧ _)
        rcases hp with ⟨hc, ⟨rfl, rfl⟩ | ⟨rfl, rfl⟩⟩
        · obtain ⟨rfl, h2⟩ := ace_way ho.1 hm
          exact .through hl ⟨hc, .inl ⟨rfl, rfl⟩⟩ (ih _ h2)
        · obtain ⟨rfl, h2⟩ := ace_way ho.2 hm
          exact .through hl ⟨hc, .inr ⟨rfl, rfl⟩⟩ (ih _ h2)
    | diode x y =>
      obtain ⟨rfl, rfl⟩ := hp
      obtain ⟨rfl, h2⟩ := ace_way ho hm
      exact .through hl ⟨rfl, rfl⟩ (ih _ h2)
    | wire x y =>
      have ho := (Bool.and_eq_true _ _ ▸ ho : _ ∧ _)
      rcases hp with ⟨rfl, rfl⟩ | ⟨rfl, rfl⟩
      · obtain ⟨rfl, h2⟩ := ace_way ho.1 hm
        exact .through hl (.inl ⟨rfl, rfl⟩) (ih _ h2)
      · obtain ⟨rfl, h2⟩ := ace_way ho.2 hm
        exact .through hl (.inr ⟨rfl, rfl⟩) (ih _ h2)

/-- Closing more switches makes no line high. -/
theorem pulled_more {ls : List Link} {closed closed' : Sw → Bool} {low : Net → Prop} {n : Net}
    (h : PulledLow ls closed low n) (hc : ∀ s, closed s = true → closed' s = true) :
    PulledLow ls closed' low n := by
  induction h with
  | driven h => exact .driven h
  | @through a b l hl hp _ ih =>
    refine .through hl ?_ ih
    cases l with
    | switch s x y => exact ⟨hc s hp.1, hp.2⟩
    | diode x y => exact hp
    | wire x y => exact hp

/-- **C84, exactly.**  On the Franklin ACE 1000 keyboard as drawn, with either interface,
whatever lines the interface drives low and whatever switches are closed: every line of the
interface has the level it would have with all the keys open.  (The diode of each key and the
diode of its row have their anodes together.) -/
theorem C84_keys_have_no_effect (A : Assembly) (hA : A ∈ aceBoards) (low : Net → Prop)
    (hlow : ∀ m, low m → IoNet m) (closed : Sw → Bool) (n : Nat) :
    PulledLow A.links closed low (.io n) ↔ PulledLow A.links (keysOpen closed) low (.io n) := by
  constructor
  · exact fun h => ace_low (ace_links A hA) hlow h (.io n) rfl
  · intro h
    refine pulled_more h ?_
    intro s hs
    cases s with
    | key k => cases hs
    | dip k => exact hs

/-- The ESC key. -/
theorem ace_has_keys : ∀ A ∈ aceBoards, 1 ∈ boardKeys A ∧ (boardKeys A).length = 74 := by decide +kernel

/-- **C84 is false**: no key is ever seen. -/
theorem C84_false : ¬ C84Statement := by
  intro h
  obtain ⟨low, n, h1, h2, h3, h4⟩ := h (ace328 false) (.head _) 1 (ace_has_keys _ (.head _)).1
  cases n with
  | kb n => exact h2
  | io n =>
    refine h4 ?_
    have := (C84_keys_have_no_effect _ (.head _) low h1 _ n).mp h3
    refine pulled_more this ?_
    intro s hs
    cases s with
    | key k => cases hs
    | dip k =>
      have hs : (Sw.dip k) = .key 1 := of_decide_eq_true hs
      cases hs

/-! ## With the diodes of the keys turned round -/

/-- Where current can go from a net by one diode or wire. -/
def nextNets (ls : List Link) (n : Net) : List Net :=
  ls.filterMap fun l => match l with
    | .switch _ _ _ => none
    | .diode a b => if sameNet a n then some b else none
    | .wire a b => if sameNet a n then some b else if sameNet b n then some a else none

/-- With all the switches open, current does not leave the set. -/
def openSet (ls : List Link) (S : List Net) : Bool :=
  ls.all fun l => match l with
    | .switch _ _ _ => true
    | .diode a b => !inSet S a || inSet S b
    | .wire a b => inSet S a == inSet S b

theorem open_low {ls : List Link} {S : List Net} (h : openSet ls S = true) {low : Net → Prop} {n : Net}
    (hp : PulledLow ls (fun _ => false) low n) : n ∈ S → ∃ m ∈ S, low m := by
  induction hp with
  | driven h => exact fun hn => ⟨_, hn, h⟩
  | @through a b l hl hp _ ih =>
    intro ha
    refine ih ?_
    have hk := List.all_eq_true.mp h l hl
    rw [← inSet_iff] at ha ⊢
    cases l with
    | switch s x y => cases hp.1
    | diode x y =>
      obtain ⟨rfl, rfl⟩ := hp
      simp only [ha, Bool.not_true, Bool.false_or] at hk
      exact hk
    | wire x y =>
      have hk : inSet S x = inSet S y := by simpa using hk
      rcases hp with ⟨rfl, rfl⟩ | ⟨rfl, rfl⟩
      · rw [← hk]; exact ha
      · rw [hk]; exact ha

def isIo : Net → Bool
  | .io _ => true
  | .kb _ => false

theorem isIo_iff {n : Net} : isIo n = true ↔ IoNet n := by
  cases n
  · exact ⟨nofun, nofun⟩
  · exact ⟨fun _ => trivial, fun _ => rfl⟩

/-- A way from the interface along a column line, through the key and its two diodes, and
back to the interface. -/
def keyWay (A : Assembly) (k : Nat) : List Net :=
  match findPart A.keyboard .key k with
  | some p => match p.net 1, p.net 2 with
    | some c, some d =>
      match (nextNets A.links (.kb c)).find? isIo, nextNets A.links (.kb d) with
      | some n, r :: _ => match nextNets A.links r with
        | q :: _ => match (nextNets A.links q).find? isIo with
          | some m => [n, .kb c, .kb d, r, q, m]
          | none => []
        | [] => []
      | _, _ => []
    | _, _ => []
  | none => []

def seenWay (A : Assembly) (k : Nat) : List Net → Bool
  | [n, c, d, r, q, m] => isIo n && isIo m && !inSet (n :: nextNets A.links n) m &&
      openSet A.links (n :: nextNets A.links n) &&
      wayOk A.links (.key k) [n, c, d, r, q, m]
  | _ => false

theorem seen_of_way {A : Assembly} {k : Nat} {w : List Net} (h : seenWay A k w = true) :
    ∃ (low : Net → Prop) (n : Net),
    (∀ m, low m → IoNet m) ∧ IoNet n ∧ PulledLow A.links (fun s => decide (s = .key k)) low n ∧
    ¬ PulledLow A.links (fun _ => false) low n := by
  unfold seenWay at h
  split at h
  · next n c d r q m =>
    simp only [Bool.and_eq_true] at h
    obtain ⟨⟨⟨⟨h1, h2⟩, h3⟩, h4⟩, h5⟩ := h
    refine ⟨(· = m), n, fun x hx => hx ▸ isIo_iff.mp h2, isIo_iff.mp h1, ?_, fun hp => ?_⟩
    · exact way_sound (decide_eq_true rfl) h5 rfl rfl (.driven rfl)
    · obtain ⟨x, hx, rfl⟩ := open_low h4 hp List.mem_cons_self
      rw [inSet_iff.mpr hx] at h3
      cases h3
  · cases h

theorem turned_ok : ∀ A ∈ turnedBoards, ∀ k, k < 73 → 1 ≤ k → seenWay A k (keyWay A k) = true := by decide +kernel

/-- **C84** (partial: with the diodes of the keys put in the other way round than drawn, and
without keys 73 and 74).  For every other key there are lines that the interface can drive
low so that closing the key, and nothing else, makes another line of the interface low. -/
theorem C84_turned_partial (A : Assembly) (hA : A ∈ turnedBoards) (k : Nat) (hk : k ∈ boardKeys A) (h : k < 73) :
    ∃ (low : Net → Prop) (n : Net), (∀ m, low m → IoNet m) ∧ IoNet n ∧
    PulledLow A.links (fun s => decide (s = .key k)) low n ∧ ¬ PulledLow A.links (fun _ => false) low n := by
  have h1 : ∀ A ∈ turnedBoards, ∀ k ∈ boardKeys A, 1 ≤ k := by decide +kernel
  exact seen_of_way (turned_ok A hA k h (h1 A hA k hk))

/-- There are such boards and keys. -/
example : ∃ A ∈ turnedBoards, (boardKeys A).length = 74 ∧ 17 ∈ boardKeys A := ⟨_, .head _, by decide +kernel⟩

end Asdf.Props
