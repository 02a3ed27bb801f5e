import Verif.Lemmas.Movers
import Verif.Spec.Keystrokes

/-! # The keys of a text in any keymap -/

namespace Asdf

open Spec

namespace Movers

variable {i : UInt8}

/-! ## Deciding the conditions -/

/-- `IsModKey`, decided. -/
def modKeyB (i : UInt8) (z : Nat × Nat) : Bool :=
  isModCode (ModKeys.none.code fourMaps openLayout i z.1 z.2) &&
    [false, true].all fun s => [false, true].all fun c => [false, true].all fun t =>
      codeUnder fourMaps i 8 z.1 z.2 s c t == ModKeys.none.code fourMaps openLayout i z.1 z.2

theorem modKeyB_iff {z : Nat × Nat} : modKeyB i z = true ↔ IsModKey fourMaps openLayout i z.1 z.2 := by
  unfold modKeyB
  rw [Bool.and_eq_true]
  constructor
  · rintro ⟨h1, h2⟩
    refine ⟨_, h1, fun m => ?_⟩
    simp only [List.all_eq_true, beq_iff_eq] at h2
    have hb : ∀ b : Bool, b ∈ [false, true] := by decide
    exact h2 (m.held || m.locked) (hb _) m.caps (hb _) m.ctrl (hb _)
  · rintro ⟨x, h1, h2⟩
    refine ⟨by rw [h2]; exact h1, ?_⟩
    simp only [List.all_eq_true, beq_iff_eq]
    intro s _ c _ t _
    rw [h2]
    have := h2 ⟨s, false, c, t⟩
    unfold ModKeys.code at this
    rw [Bool.or_false] at this
    exact this

instance (r c : Nat) : Decidable (IsModKey fourMaps openLayout i r c) := decidable_of_iff _ (modKeyB_iff (z := (r, c)))

instance {α : Type} {P : α → Prop} [DecidablePred P] (o : Option α) : Decidable (∀ y ∈ o, P y) :=
  match o with
  | none => isTrue fun _ h => by cases h
  | some y => if h : P y then isTrue fun _ e => by cases e; exact h else isFalse fun h' => h (h' y rfl)

theorem tidy_iff (h : Hand) (b a : Bool) (x : Nat × Nat) : h.Tidy fourMaps openLayout i b a x ↔
    (b = false → a = true → IsModKey fourMaps openLayout i x.1 x.2 ∨
      (h.mods.code fourMaps openLayout i x.1 x.2).toNat < 0xA0 ∧
        ∀ y ∈ h.last, y.2 ≠ h.mods.code fourMaps openLayout i x.1 x.2) ∧
    (b = true → a = false → IsModKey fourMaps openLayout i x.1 x.2 ∨
      (h.mods.code fourMaps openLayout i x.1 x.2).toNat ≤ 0xA0) ∧
    (b = true → a = true → (∀ y ∈ h.last, y.2 = h.mods.code fourMaps openLayout i x.1 x.2 → y.1 = x) ∧
      (h.last = none → h.mods.code fourMaps openLayout i x.1 x.2 ≠ 0xA0)) :=
  ⟨fun t => ⟨t.press, t.release, t.hold⟩, fun t => ⟨t.1, t.2.1, t.2.2⟩⟩

instance decTidy (h : Hand) (b a : Bool) (x : Nat × Nat) : Decidable (h.Tidy fourMaps openLayout i b a x) :=
  have d1 : Decidable (b = false → a = true → IsModKey fourMaps openLayout i x.1 x.2 ∨
      (h.mods.code fourMaps openLayout i x.1 x.2).toNat < 0xA0 ∧
        ∀ y ∈ h.last, y.2 ≠ h.mods.code fourMaps openLayout i x.1 x.2) := inferInstance
  have d2 : Decidable (b = true → a = false → IsModKey fourMaps openLayout i x.1 x.2 ∨
      (h.mods.code fourMaps openLayout i x.1 x.2).toNat ≤ 0xA0) := inferInstance
  have d3 : Decidable (b = true → a = true →
      (∀ y ∈ h.last, y.2 = h.mods.code fourMaps openLayout i x.1 x.2 → y.1 = x) ∧
        (h.last = none → h.mods.code fourMaps openLayout i x.1 x.2 ≠ 0xA0)) := inferInstance
  @decidable_of_iff _ _ (tidy_iff h b a x).symm (@instDecidableAnd _ _ d1 (@instDecidableAnd _ _ d2 d3))

instance (s : Session) (z : Nat × Nat) : Decidable (MayToggle i s z) := by
  unfold MayToggle
  exact instDecidableAnd

instance decSound (dips : List (Nat × Nat)) : (s : Session) → (zs : List (Nat × Nat)) → Decidable (Sound i dips s zs)
  | s, [] => inferInstanceAs (Decidable (s.down = dips))
  | s, z :: zs =>
    have := decSound dips (s.move i z) zs
    inferInstanceAs (Decidable (MayToggle i s z ∧ Sound i dips (s.move i z) zs))

/-! ## Texts -/

/-- A key that is not a modifier key moves twice in a row. -/
def twice (i : UInt8) : List (Nat × Nat) → Bool
  | [] => true
  | z :: zs =>
    if modKeyB i z then twice i zs
    else match zs with
      | [] => false
      | z' :: zs => z == z' && twice i zs

theorem twice_append : ∀ {a b : List (Nat × Nat)}, twice i a = true → twice i b = true → twice i (a ++ b) = true
  | [], _, _, hb => hb
  | k :: a, b, ha, hb => by
    unfold twice at ha
    rw [List.cons_append]
    unfold twice
    by_cases hk : modKeyB i k = true
    · rw [if_pos hk] at ha ⊢
      exact twice_append ha hb
    · rw [if_neg hk] at ha ⊢
      cases a with
      | nil => cases ha
      | cons k' a =>
        simp only [Bool.and_eq_true, List.cons_append] at ha ⊢
        exact ⟨ha.1, twice_append ha.2 hb⟩
  termination_by a => a.length

theorem sound_append {dips zs zs' : List (Nat × Nat)} {s0 : Session} : ∀ {s : Session}, Sound i dips s zs →
    s.moves i zs = s0 → Sound i dips s0 zs' →
    Sound i dips s (zs ++ zs') ∧ sessionText i s (zs ++ zs') = sessionText i s zs ++ sessionText i s0 zs' := by
  induction zs with
  | nil =>
    intro s _ h h'
    have h : s = s0 := h
    subst h
    exact ⟨h', rfl⟩
  | cons z zs ih =>
    intro s h e h'
    obtain ⟨i1, i2⟩ := ih h.2 e h'
    refine ⟨⟨h.1, i1⟩, ?_⟩
    show s.text i z ++ sessionText i (s.move i z) (zs ++ zs') =
      (s.text i z ++ sessionText i (s.move i z) zs) ++ sessionText i s0 zs'
    rw [i2, List.append_assoc]

/-- Each character by itself. -/
theorem strokes_ok : ∀ i < 4, ∀ n < 128, n ∉ missing (UInt8.ofNat i) →
    (Sound (UInt8.ofNat i) [] (Session.idle (UInt8.ofNat i)) (strokesFor (UInt8.ofNat i) (UInt8.ofNat n)) ∧
      (Session.idle (UInt8.ofNat i)).moves (UInt8.ofNat i) (strokesFor (UInt8.ofNat i) (UInt8.ofNat n)) =
        Session.idle (UInt8.ofNat i)) ∧
    sessionText (UInt8.ofNat i) (Session.idle (UInt8.ofNat i)) (strokesFor (UInt8.ofNat i) (UInt8.ofNat n)) =
      [UInt8.ofNat n] ∧
    twice (UInt8.ofNat i) (strokesFor (UInt8.ofNat i) (UInt8.ofNat n)) = true := by
  decide +kernel

theorem spots_ok (hi : i.toNat < 4) (text : List Code) (h : OnKeymap i text) :
    Sound i [] (Session.idle i) (spotsFor i text) ∧ sessionText i (Session.idle i) (spotsFor i text) = text ∧
      twice i (spotsFor i text) = true := by
  induction text with
  | nil => exact ⟨rfl, rfl, rfl⟩
  | cons x text ih =>
    obtain ⟨i1, i2, i3⟩ := ih fun y hy => h y (List.mem_cons_of_mem _ hy)
    obtain ⟨x1, x2⟩ := h x List.mem_cons_self
    have h1 := strokes_ok i.toNat hi x.toNat x1
    rw [UInt8.ofNat_toNat, UInt8.ofNat_toNat] at h1
    obtain ⟨⟨h1, h2⟩, h3, h4⟩ := h1 x2
    obtain ⟨a1, a2⟩ := sound_append h1 h2 i1
    have e : spotsFor i (x :: text) = strokesFor i x ++ spotsFor i text := rfl
    rw [e]
    refine ⟨a1, ?_, twice_append h4 i3⟩
    rw [a2, h3, i2]
    rfl

/-! ## The DIP switches -/

theorem toggled_append {l dips : List (Nat × Nat)} {z : Nat × Nat} (hz : z ∉ dips) :
    toggled (l ++ dips) z = toggled l z ++ dips := by
  unfold toggled
  by_cases h : z ∈ l
  · rw [if_pos h, if_pos (List.mem_append_left _ h), List.erase_append_left _ h]
  · rw [if_neg h, if_neg fun e => (List.mem_append.mp e).elim h hz]
    rfl

theorem mem_dips {l dips : List (Nat × Nat)} {z : Nat × Nat} (hz : z ∉ dips) : z ∈ l ++ dips ↔ z ∈ l :=
  ⟨fun e => (List.mem_append.mp e).elim id fun e => absurd e hz, List.mem_append_left _⟩

/-- What holds of the DIP switches. -/
def DipCodes (i : UInt8) (dips : List (Nat × Nat)) : Prop :=
  ∀ p ∈ dips, p.1 = 8 ∧ ∀ m : ModKeys, 0xA0 < (m.code fourMaps openLayout i p.1 p.2).toNat

theorem move_dips {dips : List (Nat × Nat)} (hd : DipCodes i dips) {l : List (Nat × Nat)} {h : Hand} {z : Nat × Nat}
    (hz : z.1 < 8) : Session.move i ⟨l ++ dips, h⟩ z =
      ⟨(Session.move i ⟨l, h⟩ z).down ++ dips, (Session.move i ⟨l, h⟩ z).hand⟩ ∧
    Session.text i ⟨l ++ dips, h⟩ z = Session.text i ⟨l, h⟩ z := by
  have hn : z ∉ dips := fun e => by
    have := (hd z e).1
    omega
  unfold Session.move Session.text Session.code
  simp only [mem_dips hn, toggled_append hn, and_self]

theorem hold_dip {dips : List (Nat × Nat)} (hd : DipCodes i dips) {h : Hand} (hl : ∀ y ∈ h.last, y.2.toNat < 0xA0)
    {p : Nat × Nat} (hp : p ∈ dips) : h.Tidy fourMaps openLayout i true true p := by
  have hc := (hd p hp).2 h.mods
  refine ⟨fun e => (by cases e), fun _ e => (by cases e), fun _ _ => ⟨fun y hy e => ?_, fun _ e => ?_⟩⟩
  · have := hl y hy
    rw [e] at this
    omega
  · rw [e] at hc
    exact absurd hc (by decide)

theorem last_small {s : Session} {z : Nat × Nat} (hM : MayToggle i s z) (hl : ∀ y ∈ s.hand.last, y.2.toNat < 0xA0) :
    ∀ y ∈ (s.move i z).hand.last, y.2.toNat < 0xA0 := by
  obtain ⟨_, _, ht, _⟩ := hM
  unfold Session.move Hand.key
  dsimp only
  by_cases hz : z ∈ s.down
  · simp only [hz, not_true_eq_false, decide_true, decide_false, Bool.true_eq_false, if_false, Bool.false_eq_true]
    split
    · exact hl
    · intro y hy
      rw [Option.mem_def, Option.filter_eq_some_iff] at hy
      exact hl y hy.1
  · simp only [hz, not_false_eq_true, decide_true, decide_false, Bool.false_eq_true, if_false, if_true]
    split
    · exact hl
    · rename_i hm
      intro y hy
      cases hy
      rcases ht.press (decide_eq_false hz) (decide_eq_true hz) with ⟨x, e1, e2⟩ | h
      · rw [e2, e1] at hm
        exact absurd rfl hm
      · exact h.1

/-- The DIP switches make no difference. -/
theorem sound_dips {dips : List (Nat × Nat)} (hd : DipCodes i dips) {zs : List (Nat × Nat)} :
    ∀ {s : Session}, Sound i [] s zs → (∀ y ∈ s.hand.last, y.2.toNat < 0xA0) →
      Sound i dips ⟨s.down ++ dips, s.hand⟩ zs ∧
        sessionText i ⟨s.down ++ dips, s.hand⟩ zs = sessionText i s zs := by
  induction zs with
  | nil =>
    intro s h _
    have h : s.down = [] := h
    refine ⟨?_, rfl⟩
    show s.down ++ dips = dips
    rw [h]
    rfl
  | cons z zs ih =>
    intro s h hl
    obtain ⟨hM, h⟩ := h
    have hl' := last_small hM hl
    obtain ⟨e1, e2⟩ := move_dips hd (l := s.down) (h := s.hand) hM.1
    obtain ⟨i1, i2⟩ := ih h hl'
    have hn : z ∉ dips := fun e => by
      have := (hd z e).1
      have := hM.1
      omega
    refine ⟨⟨⟨hM.1, hM.2.1, ?_, ?_⟩, ?_⟩, ?_⟩
    · simp only [mem_dips hn]
      exact hM.2.2.1
    · rw [e1]
      intro p hp
      rcases List.mem_append.mp hp with hp | hp
      · exact hM.2.2.2 p hp
      · exact hold_dip hd hl' hp
    · rw [e1]
      exact i1
    · show Session.text i _ z ++ sessionText i (Session.move i _ z) zs = _
      rw [e1, e2, i2]
      rfl

/-! ## How long keys are held -/

theorem twice_held {k : Nat} (hk : k ≤ 525) {z : Nat × Nat} (hz : ¬ IsModKey fourMaps openLayout i z.1 z.2) :
    ∀ {zs : List (Nat × Nat)}, twice i zs = true → HeldFor 525 z none (zs.map fun y => ⟨y, [], k⟩)
  | [], _ => trivial
  | y :: ys, h => by
    unfold twice at h
    rw [List.map_cons]
    unfold HeldFor
    dsimp only
    by_cases hm : modKeyB i y = true
    · rw [if_pos hm] at h
      rw [if_neg fun e => hz (by rw [← e]; exact modKeyB_iff.mp hm)]
      exact twice_held hk hz h
    · rw [if_neg hm] at h
      cases ys with
      | nil => cases h
      | cons y' ys =>
        simp only [Bool.and_eq_true, beq_iff_eq] at h
        obtain ⟨rfl, h⟩ := h
        have ih := twice_held hk hz h
        rw [List.map_cons]
        by_cases e : y = z
        · rw [if_pos e]
          unfold HeldFor
          rw [if_pos e]
          refine ⟨?_, ih⟩
          show 0 + k + 0 ≤ 525
          omega
        · rw [if_neg e]
          unfold HeldFor
          rw [if_neg e]
          exact ih
  termination_by zs => zs.length

end Movers

end Asdf
