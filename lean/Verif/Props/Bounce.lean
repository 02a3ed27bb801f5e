import Verif.Lemmas.Bounce
import Verif.Props.Loose
import Verif.Props.Strokes

/-! # Property C99: text typed on contacts that bounce -/

namespace Asdf.Props

open Spec Avr Pcb Typist Loose

/-! ## The keys of the classic keyboard -/

theorem place_pos : ∀ p ∈ classicPlaces, ∀ q ∈ classicPlaces, (p.row, p.col) = (q.row, q.col) → p = q := by
  decide +kernel

theorem one_ctrl : ∀ p ∈ classicPlaces, ∀ q ∈ classicPlaces, p.isCtrl = true → q.isCtrl = true → p = q := by
  decide +kernel

/-- SHIFT, CTRL and CAPS LOCK. -/
def isMod (p : Place) : Bool := p.isShift || p.isCtrl || p.isCaps

theorem mod_kind : ∀ p ∈ classicPlaces, (p.isShift = true → p.isCtrl = false ∧ p.isCaps = false) ∧
    (p.isCtrl = true → p.isCaps = false) ∧ (isMod p = true → legendOf p = none ∧ p.row ≠ 8) := by decide +kernel

theorem char_kind : ∀ p ∈ classicPlaces, (legendOf p).isSome = true → p.row ≠ 8 := by decide +kernel

theorem char_meaning : ∀ p ∈ classicPlaces, ∀ l ∈ legendOf p, ∀ s c t : Bool, (t = true → l.takesCtrl = true) →
      codeUnder fourMaps 0 8 p.row p.col s c t =
        (if t then l.plain &&& 0x1F else if s || (c && l.isLetter) then l.shifted else l.plain) ∧
      (codeUnder fourMaps 0 8 p.row p.col s c t).toNat < 0xA0 := by decide +kernel

/-- The modifiers in this state. -/
def modsOf (s : Fingers) : ModKeys := ⟨s.down.any Place.isShift, false, s.caps, s.down.any Place.isCtrl⟩

/-- The modifiers and the character typed last. -/
def handOf (s : Fingers) : Hand := ⟨modsOf s, s.last.map fun y => ((y.1.row, y.1.col), y.2)⟩

/-- A key with a character that can be typed. -/
def CharKey (s : Fingers) (p : Place) : Prop :=
  ∃ l, legendOf p = some l ∧ (s.down.any Place.isCtrl = true → l.takesCtrl = true)

theorem charKey_code {s : Fingers} {p : Place} (hp : p ∈ classicPlaces) (h : CharKey s p) :
    s.char p = some ((modsOf s).code fourMaps openLayout 0 p.row p.col) ∧
      ((modsOf s).code fourMaps openLayout 0 p.row p.col).toNat < 0xA0 := by
  obtain ⟨l, hl, hr⟩ := h
  obtain ⟨h1, h2⟩ := char_meaning p hp l hl (s.down.any Place.isShift) s.caps (s.down.any Place.isCtrl) hr
  have e : (modsOf s).code fourMaps openLayout 0 p.row p.col =
      codeUnder fourMaps 0 8 p.row p.col (s.down.any Place.isShift) s.caps (s.down.any Place.isCtrl) := by
    show codeUnder fourMaps 0 8 p.row p.col (s.down.any Place.isShift || false) s.caps (s.down.any Place.isCtrl) = _
    rw [Bool.or_false]
  rw [e]
  refine ⟨?_, h2⟩
  rw [h1, Fingers.char, hl]
  rfl

/-- The meaning of a modifier key. -/
def modCode (p : Place) : Code := if p.isShift then 0xA1 else if p.isCtrl then 0xA5 else 0xA4

theorem mod_meaning : ∀ p ∈ classicPlaces, isMod p = true →
    ∀ s c t, codeUnder fourMaps 0 8 p.row p.col s c t = modCode p := by decide +kernel

theorem modKey_code {p : Place} (hp : p ∈ classicPlaces) (h : isMod p = true) (m : ModKeys) :
    m.code fourMaps openLayout 0 p.row p.col = modCode p :=
  mod_meaning p hp h _ _ _

theorem modCode_is (p : Place) : isModCode (modCode p) = true := by
  unfold modCode
  cases p.isShift <;> cases p.isCtrl <;> rfl

theorem modCode_range (p : Place) : 0xA0 < (modCode p).toNat := by
  unfold modCode
  cases p.isShift <;> cases p.isCtrl <;> decide

theorem modKey_is {p : Place} (hp : p ∈ classicPlaces) (h : isMod p = true) :
    IsModKey fourMaps openLayout 0 p.row p.col :=
  ⟨_, modCode_is p, modKey_code hp h⟩

/-! ## The keys that are down -/

theorem placesDown_true {l : List Place} {r c : Nat} :
    placesDown l r c = true ↔ ∃ p ∈ l, (p.row, p.col) = (r, c) := by
  simp only [placesDown, List.any_eq_true, Bool.and_eq_true, beq_iff_eq, Prod.mk.injEq]
  constructor
  · rintro ⟨p, hp, rfl, rfl⟩
    exact ⟨p, hp, rfl, rfl⟩
  · rintro ⟨p, hp, rfl, rfl⟩
    exact ⟨p, hp, rfl, rfl⟩

theorem placesDown_at {l : List Place} (hl : ∀ p ∈ l, p ∈ classicPlaces) {z : Place} (hz : z ∈ classicPlaces) :
    placesDown l z.row z.col = decide (z ∈ l) := by
  rw [Bool.eq_iff_iff, placesDown_true, decide_eq_true_eq]
  constructor
  · rintro ⟨p, hp, e⟩
    rw [← place_pos p (hl p hp) z hz e]
    exact hp
  · exact fun h => ⟨z, h, rfl⟩

/-- Two sets of keys that differ in one key at most. -/
theorem placesDown_off {l l' : List Place} {z : Place} (h : ∀ p, p ≠ z → (p ∈ l ↔ p ∈ l')) {r c : Nat}
    (hz : (r, c) ≠ (z.row, z.col)) : placesDown l r c = placesDown l' r c := by
  have key : ∀ k k' : List Place, (∀ p, p ≠ z → (p ∈ k → p ∈ k')) → placesDown k r c = true → placesDown k' r c = true := by
    intro k k' hk e
    obtain ⟨p, hp, e⟩ := placesDown_true.mp e
    exact placesDown_true.mpr ⟨p, hk p (fun e' => hz (by rw [← e', e])) hp, e⟩
  rw [Bool.eq_iff_iff]
  exact ⟨key l l' fun p hp => (h p hp).mp, key l' l fun p hp => (h p hp).mpr⟩

theorem mem_moved {down : List Place} (hn : down.Nodup) {z p : Place} :
    p ∈ moved down z ↔ (p ≠ z ∧ p ∈ down) ∨ (p = z ∧ z ∉ down) := by
  unfold moved
  by_cases h : z ∈ down
  · rw [if_pos h, hn.mem_erase_iff]
    simp [h]
  · rw [if_neg h, List.mem_cons]
    constructor
    · rintro (rfl | hp)
      · exact .inr ⟨rfl, h⟩
      · exact .inl ⟨fun e => h (e ▸ hp), hp⟩
    · rintro (⟨_, hp⟩ | ⟨rfl, _⟩)
      · exact .inr hp
      · exact .inl rfl

/-- What holds of the state during careful typing. -/
structure DownOk (s : Fingers) : Prop where
  places : ∀ p ∈ s.down, p ∈ classicPlaces
  nodup : s.down.Nodup
  kinds : ∀ p ∈ s.down, isMod p = true ∨ CharKey s p
  shifts : ∀ p ∈ s.down, ∀ q ∈ s.down, p.isShift = true → q.isShift = true → p = q
  small : ∀ y ∈ s.last, y.2.toNat < 0xA0
  chars : ∀ p ∈ s.down, ∀ y ∈ s.last, s.char p = some y.2 → p = y.1

theorem downOk_rest : DownOk .rest :=
  ⟨fun _ h => (List.not_mem_nil h).elim, List.nodup_nil, fun _ h => (List.not_mem_nil h).elim,
    fun _ h => (List.not_mem_nil h).elim, fun _ h => (by cases h), fun _ h => (List.not_mem_nil h).elim⟩

theorem moved_nodup {down : List Place} (h : down.Nodup) (z : Place) : (moved down z).Nodup := by
  unfold moved
  split
  · exact h.erase z
  · exact List.nodup_cons.mpr ⟨by assumption, h⟩

/-- A key that is neither a SHIFT nor a CTRL key does not change the modifiers. -/
theorem any_moved {down : List Place} (hn : down.Nodup) {z : Place} (f : Place → Bool) (hz : f z = false) :
    (moved down z).any f = down.any f := by
  rw [Bool.eq_iff_iff, List.any_eq_true, List.any_eq_true]
  constructor
  · rintro ⟨p, hp, e⟩
    rcases (mem_moved hn).mp hp with ⟨_, hp⟩ | ⟨rfl, _⟩
    · exact ⟨p, hp, e⟩
    · rw [hz] at e; cases e
  · rintro ⟨p, hp, e⟩
    refine ⟨p, (mem_moved hn).mpr (.inl ⟨?_, hp⟩), e⟩
    rintro rfl
    rw [hz] at e
    cases e

/-- The only key of its kind. -/
theorem any_moved_one {down : List Place} (hn : down.Nodup) {z : Place} (f : Place → Bool) (hz : f z = true)
    (h1 : ∀ p ∈ down, p ≠ z → f p = false) : (moved down z).any f = decide (z ∉ down) := by
  rw [Bool.eq_iff_iff, List.any_eq_true, decide_eq_true_eq]
  constructor
  · rintro ⟨p, hp, e⟩
    rcases (mem_moved hn).mp hp with ⟨hne, hp⟩ | ⟨rfl, h⟩
    · rw [h1 p hp hne] at e; cases e
    · exact h
  · exact fun h => ⟨z, (mem_moved hn).mpr (.inr ⟨rfl, h⟩), hz⟩

theorem mods_of_not {z : Place} (h : ¬ isMod z = true) : z.isShift = false ∧ z.isCtrl = false ∧ z.isCaps = false := by
  rw [Bool.not_eq_true, isMod, Bool.or_eq_false_iff, Bool.or_eq_false_iff] at h
  exact ⟨h.1.1, h.1.2, h.2⟩

/-- A key that is not a modifier key and may move has a character. -/
theorem mayMove_char {s : Fingers} {z : Place} (h : MayMove s z) (hm : ¬ isMod z = true) :
    CharKey s z ∧ (z ∉ s.down → ∀ y ∈ s.last, s.char z ≠ some y.2) := by
  obtain ⟨m1, m2, m3⟩ := mods_of_not hm
  obtain ⟨_, h, _⟩ := h
  rw [m1, m2, m3] at h
  obtain ⟨l, hl, hr, hd⟩ := h
  exact ⟨⟨l, hl, hr⟩, hd⟩

theorem char_none {s : Fingers} {z : Place} (hz : z ∈ classicPlaces) (hm : isMod z = true) : s.char z = none := by
  rw [Fingers.char, ((mod_kind z hz).2.2 hm).1]
  rfl

theorem DownOk.next {s : Fingers} (h : DownOk s) {z : Place} (hz : MayMove s z) : DownOk (s.move z) := by
  have hchar := mayMove_char hz
  obtain ⟨hzp, hrule, hlast⟩ := hz
  refine ⟨?_, moved_nodup h.nodup z, ?_, ?_, ?_, hlast⟩
  · intro p hp
    rcases (mem_moved h.nodup).mp hp with ⟨_, hp⟩ | ⟨rfl, _⟩
    · exact h.places p hp
    · exact hzp
  · intro p hp
    by_cases hc : z.isCtrl = true
    · have hs : z.isShift = false := by
        cases e : z.isShift
        · rfl
        · rw [((mod_kind z hzp).1 e).1] at hc; cases hc
      rw [hs, hc] at hrule
      rcases (mem_moved h.nodup).mp hp with ⟨_, hp⟩ | ⟨rfl, _⟩
      · rcases h.kinds p hp with e | ⟨l, hl, _⟩
        · exact .inl e
        · exact .inr ⟨l, hl, fun _ => hrule p hp l hl⟩
      · refine .inl ?_
        unfold isMod
        rw [hc, Bool.or_true, Bool.true_or]
    · have a2 : (s.move z).down.any Place.isCtrl = s.down.any Place.isCtrl :=
        any_moved h.nodup Place.isCtrl (Bool.eq_false_iff.mpr hc)
      unfold CharKey
      rw [a2]
      rcases (mem_moved h.nodup).mp hp with ⟨_, hp⟩ | ⟨rfl, _⟩
      · exact h.kinds p hp
      · by_cases hm : isMod p = true
        · exact .inl hm
        · exact .inr (hchar hm).1
  · intro p hp q hq e1 e2
    by_cases hs : z.isShift = true
    · rw [if_pos hs] at hrule
      rcases (mem_moved h.nodup).mp hp with ⟨n1, hp'⟩ | ⟨n1, _⟩ <;>
        rcases (mem_moved h.nodup).mp hq with ⟨n2, hq'⟩ | ⟨n2, _⟩
      · exact h.shifts p hp' q hq' e1 e2
      · rw [hrule p hp' n1] at e1; cases e1
      · rw [hrule q hq' n2] at e2; cases e2
      · rw [n1, n2]
    · rcases (mem_moved h.nodup).mp hp with ⟨n1, hp⟩ | ⟨rfl, _⟩
      · rcases (mem_moved h.nodup).mp hq with ⟨n2, hq⟩ | ⟨rfl, _⟩
        · exact h.shifts p hp q hq e1 e2
        · exact absurd e2 hs
      · exact absurd e1 hs
  · intro y hy
    by_cases hm : isMod z = true
    · have e : (s.move z).last = s.last := by
        unfold Fingers.move
        dsimp only
        rw [char_none hzp hm]
      rw [e] at hy
      exact h.small y hy
    · obtain ⟨c1, c2⟩ := charKey_code hzp (hchar hm).1
      unfold Fingers.move at hy
      dsimp only at hy
      rw [c1] at hy
      dsimp only at hy
      split at hy
      · rw [Option.mem_def, Option.filter_eq_some_iff] at hy
        exact h.small y hy.1
      · cases hy
        exact c2

/-- The hand after the movement of a key. -/
theorem hand_moved {s : Fingers} (h : DownOk s) {z : Place} (hz : MayMove s z) :
    (handOf s).key fourMaps openLayout 0 (decide (z ∈ s.down)) (decide (z ∉ s.down)) (z.row, z.col) =
      handOf (s.move z) := by
  have hchar := mayMove_char hz
  obtain ⟨hzp, hrule, _⟩ := hz
  have hne : decide (z ∈ s.down) ≠ decide (z ∉ s.down) := by by_cases e : z ∈ s.down <;> simp [e]
  unfold Hand.key
  dsimp only
  rw [if_neg hne]
  by_cases hm : isMod z = true
  · have hcode : (handOf s).mods.code fourMaps openLayout 0 z.row z.col = modCode z := modKey_code hzp hm _
    rw [hcode, if_pos (modCode_is z)]
    have el : (s.move z).last = s.last := by
      unfold Fingers.move
      dsimp only
      rw [char_none hzp hm]
    unfold handOf
    rw [el]
    refine congrArg (fun m => (⟨m, _⟩ : Hand)) ?_
    obtain ⟨k1, k2, _⟩ := mod_kind z hzp
    unfold modsOf modCode ModKeys.event
    cases hs : z.isShift
    · have a1 : (s.move z).down.any Place.isShift = s.down.any Place.isShift := any_moved h.nodup Place.isShift hs
      rw [a1]
      cases hc : z.isCtrl
      · have a2 : (s.move z).down.any Place.isCtrl = s.down.any Place.isCtrl := any_moved h.nodup Place.isCtrl hc
        have hcaps : z.isCaps = true := by
          unfold isMod at hm
          rwa [hs, hc, Bool.false_or, Bool.false_or] at hm
        have e : (s.move z).caps = (s.caps ^^ decide (z ∉ s.down)) := by
          unfold Fingers.move
          dsimp only
          rw [hcaps, Bool.true_and]
        rw [a2, e]
        rfl
      · have a2 : (s.move z).down.any Place.isCtrl = decide (z ∉ s.down) :=
          any_moved_one h.nodup Place.isCtrl hc fun p hp hne => by
            cases e : p.isCtrl
            · rfl
            · exact absurd (one_ctrl p (h.places p hp) z hzp e hc) hne
        have e : (s.move z).caps = s.caps := by
          unfold Fingers.move
          dsimp only
          rw [k2 hc, Bool.false_and, Bool.xor_false]
        rw [a2, e]
        rfl
    · rw [if_pos hs] at hrule
      have a1 : (s.move z).down.any Place.isShift = decide (z ∉ s.down) :=
        any_moved_one h.nodup Place.isShift hs hrule
      have a2 : (s.move z).down.any Place.isCtrl = s.down.any Place.isCtrl :=
        any_moved h.nodup Place.isCtrl (k1 hs).1
      have e : (s.move z).caps = s.caps := by
        unfold Fingers.move
        dsimp only
        rw [(k1 hs).2, Bool.false_and, Bool.xor_false]
      rw [a1, a2, e]
      rfl
  · obtain ⟨m1, m2, m3⟩ := mods_of_not hm
    obtain ⟨c1, c2⟩ := charKey_code hzp (hchar hm).1
    have hnot : isModCode ((handOf s).mods.code fourMaps openLayout 0 z.row z.col) = false := char_not_mod c2
    have hmods : modsOf (s.move z) = modsOf s := by
      have a1 : (s.move z).down.any Place.isShift = s.down.any Place.isShift := any_moved h.nodup Place.isShift m1
      have a2 : (s.move z).down.any Place.isCtrl = s.down.any Place.isCtrl := any_moved h.nodup Place.isCtrl m2
      have e : (s.move z).caps = s.caps := by
        unfold Fingers.move
        dsimp only
        rw [m3, Bool.false_and, Bool.xor_false]
      unfold modsOf
      rw [a1, a2, e]
    rw [hnot]
    unfold handOf
    rw [hmods]
    unfold Fingers.move
    dsimp only
    rw [c1]
    dsimp only
    by_cases e : z ∈ s.down
    · simp only [e, not_true_eq_false, decide_false, if_true, Bool.false_eq_true, if_false]
      refine congrArg (fun l => (⟨_, l⟩ : Hand)) ?_
      cases s.last with
      | none => rfl
      | some y =>
        simp only [Option.map_some, Option.filter_some]
        split <;> rfl
    · simp only [e, not_false_eq_true, decide_true, if_true, Bool.false_eq_true, if_false]
      rfl

/-- The keys that are down may be held. -/
theorem DownOk.holds {s : Fingers} (h : DownOk s) {p : Place} (hp : p ∈ s.down) :
    Holds fourMaps openLayout 0 (handOf s) (p.row, p.col) := by
  have hpp := h.places p hp
  rcases h.kinds p hp with hm | hc
  · have hcode : (handOf s).mods.code fourMaps openLayout 0 p.row p.col = modCode p := modKey_code hpp hm _
    have hr := modCode_range p
    refine ⟨fun y hy e => ?_, fun _ e => ?_⟩
    · rw [hcode] at e
      obtain ⟨w, hw, rfl⟩ := Option.map_eq_some_iff.mp hy
      have := h.small w hw
      dsimp only at e
      rw [e] at this
      omega
    · rw [hcode] at e
      rw [e] at hr
      exact absurd hr (by decide)
  · obtain ⟨c1, c2⟩ := charKey_code hpp hc
    refine ⟨fun y hy e => ?_, fun _ e => ?_⟩
    · obtain ⟨w, hw, rfl⟩ := Option.map_eq_some_iff.mp hy
      have e : w.2 = (modsOf s).code fourMaps openLayout 0 p.row p.col := e
      rw [h.chars p hp w hw (by rw [c1, e])]
    · have e : (modsOf s).code fourMaps openLayout 0 p.row p.col = 0xA0 := e
      rw [e] at c2
      exact absurd c2 (by decide)

theorem DownOk.held {s : Fingers} (h : DownOk s) : ∀ x ∈ keysOf openLayout, placesDown s.down x.1 x.2 = true →
    Holds fourMaps openLayout 0 (handOf s) x := by
  intro x _ e
  obtain ⟨p, hp, e⟩ := placesDown_true.mp e
  have := h.holds hp
  rwa [e] at this

/-! ## One movement -/

theorem one_moves {down : List Place} (hpl : ∀ p ∈ down, p ∈ classicPlaces) (hnd : down.Nodup) {v : Movement}
    (hz : v.key ∈ classicPlaces) (hb : v.bounce.length ≤ 9) (hs : 10 ≤ v.steady) :
    OneMoves openLayout (placesDown down) (placesDown (moved down v.key)) (v.key.row, v.key.col) v.bounce v.steady
      (v.readings down) := by
  obtain ⟨z, bs, n⟩ := v
  dsimp only at hz hb hs ⊢
  have hmov : ∀ p ∈ moved down z, p ∈ classicPlaces := by
    intro p hp
    rcases (mem_moved hnd).mp hp with ⟨_, hp⟩ | ⟨rfl, _⟩
    · exact hpl p hp
    · exact hz
  have hset : ∀ b : Bool, ∀ p, p ∈ (if b then z :: down.erase z else down.erase z) ↔ (p ≠ z ∧ p ∈ down) ∨ (p = z ∧ b = true) := by
    intro b p
    cases b
    · rw [if_neg (by decide), hnd.mem_erase_iff]
      simp
    · rw [if_pos rfl, List.mem_cons, hnd.mem_erase_iff]
      simp [or_comm]
  have hin : ∀ b : Bool, ∀ p ∈ (if b then z :: down.erase z else down.erase z), p ∈ classicPlaces := by
    intro b p hp
    rcases (hset b p).mp hp with ⟨_, hp⟩ | ⟨rfl, _⟩
    · exact hpl p hp
    · exact hz
  have hoff : ∀ p, p ≠ z → (p ∈ moved down z ↔ p ∈ down) := by
    intro p hp
    rw [mem_moved hnd]
    simp [hp]
  have hboff : ∀ b : Bool, ∀ p, p ≠ z → (p ∈ (if b then z :: down.erase z else down.erase z) ↔ p ∈ down) := by
    intro b p hp
    rw [hset]
    simp [hp]
  have hpos := (mem_keysOf openLayout).mp (place_in hz)
  have hzc := hpos.2
  refine ⟨hb, hs, ?_, hpos.1, hpos.2, ?_, ?_, ?_, ?_⟩
  · simp [Movement.readings]
  · show placesDown _ z.row z.col = !placesDown _ z.row z.col
    rw [placesDown_at hmov hz, placesDown_at hpl hz]
    by_cases e : z ∈ down <;> simp [mem_moved hnd, e]
  · exact fun r c e => placesDown_off hoff e
  · show samplesOf (List.map _ bs ++ List.replicate n (keysClosed (moved down z))) z.row z.col = _
    rw [samples_append, samples_replicate, reads_keys hmov z.row z.col hpos.1 hpos.2]
    congr 1
    show List.map _ (List.map _ bs) = _
    rw [List.map_map]
    refine Eq.trans (List.map_congr_left fun b _ => ?_) (List.map_id bs)
    show sample (keysClosed (if b then z :: down.erase z else down.erase z)) z.row z.col = b
    have hb := hset b z
    rw [reads_keys (hin b) z.row z.col hpos.1 hpos.2, placesDown_at (hin b) hz, Bool.eq_iff_iff, decide_eq_true_eq, hb]
    simp
  · intro r c hr hc e
    rw [List.eq_replicate_iff]
    refine ⟨by rw [samplesOf, List.length_map], ?_⟩
    intro y hy
    obtain ⟨inp, hi, rfl⟩ := List.mem_map.mp hy
    rcases List.mem_append.mp hi with hi | hi
    · obtain ⟨b, _, rfl⟩ := List.mem_map.mp hi
      refine (reads_keys (hin b) r c hr hc).trans ?_
      exact placesDown_off (hboff b) e
    · rw [(List.mem_replicate.mp hi).2]
      refine (reads_keys hmov r c hr hc).trans ?_
      exact placesDown_off hoff e

/-- One movement of a key. -/
theorem one_movement {s : Fingers} (h : DownOk s) {v : Movement} (hM : MayMove s v.key)
    (hb : v.bounce.length ≤ 9) (hs : 10 ≤ v.steady) {pre : List Input}
    (hpre : Settled openLayout pre (placesDown s.down)) :
    (∃ j k, typist fourMaps openLayout 0 (modsOf s) pre (v.readings s.down) =
      List.replicate j [] ++ ([if v.key ∈ s.down then [] else (s.char v.key).toList] ++ List.replicate k [])) ∧
    handAt fourMaps openLayout 0 (handOf s) pre (v.readings s.down) = handOf (s.move v.key) ∧
    Tidy fourMaps openLayout 0 (handOf s) pre (v.readings s.down) := by
  have hn := h.next hM
  have M := one_moves h.places h.nodup hM.1 hb hs
  have hzp := hM.1
  have hk := hand_moved h hM
  have hchar := mayMove_char hM
  generalize hzz : v.key = z at *
  have hj : acceptAt (placesDown s.down z.row z.col) v.bounce < (v.readings s.down).length := by
    have := (accept_bounds (placesDown s.down z.row z.col) hb).2
    rw [M.size]
    omega
  have hdur := fun k hk r c hr hc => M.during hpre (k := k) hk (r := r) (c := c) hr hc
  have hch : ∀ x ∈ keysOf openLayout, x ≠ (z.row, z.col) →
      placesDown s.down x.1 x.2 = placesDown (s.move z).down x.1 x.2 := fun x _ e => (M.same x.1 x.2 e).symm
  have hb0 : placesDown s.down z.row z.col = decide (z ∈ s.down) := placesDown_at h.places hzp
  have ha0 : placesDown (s.move z).down z.row z.col = decide (z ∉ s.down) := by
    rw [placesDown_at hn.places hzp]
    show decide (z ∈ moved s.down z) = _
    by_cases e : z ∈ s.down <;> simp [mem_moved h.nodup, e]
  have hne : placesDown s.down z.row z.col ≠ placesDown (s.move z).down z.row z.col := by
    rw [hb0, ha0]
    by_cases e : z ∈ s.down <;> simp [e]
  have ht : (handOf s).Tidy fourMaps openLayout 0 (placesDown s.down z.row z.col)
      (placesDown (s.move z).down z.row z.col) (z.row, z.col) := by
    by_cases hm : isMod z = true
    · exact ⟨fun _ _ => .inl (modKey_is hzp hm), fun _ _ => .inl (modKey_is hzp hm), fun e1 e2 =>
        absurd (e1.trans e2.symm) hne⟩
    · obtain ⟨k1, k2⟩ := hchar hm
      obtain ⟨c1, c2⟩ := charKey_code hzp k1
      refine ⟨fun e1 _ => .inr ⟨c2, fun y hy e => ?_⟩, fun _ _ => .inr (Nat.le_of_lt c2), fun e1 e2 =>
        absurd (e1.trans e2.symm) hne⟩
      obtain ⟨w, hw, rfl⟩ := Option.map_eq_some_iff.mp hy
      rw [hb0, decide_eq_false_iff_not] at e1
      exact k2 e1 w hw (c1.trans (congrArg some (show _ = w.2 from e.symm)))
  obtain ⟨t1, t2⟩ := tidy_one (cfg := fourMaps) (L := openLayout) (i := 0) (b := placesDown s.down)
    (a := placesDown (s.move z).down) (h := handOf s) (h' := handOf (s.move z)) (keysOf openLayout)
    (keysOf_nodup openLayout) (place_in hzp) hch (fun x hx _ => h.held x hx) (fun x hx _ => hn.held x hx) ht
    (by rw [hb0, ha0]; exact hk)
  have hone := typeKeys_one (cfg := fourMaps) (L := openLayout) (i := 0) (b := placesDown s.down)
    (a := placesDown (s.move z).down) _ (keysOf_nodup openLayout) (place_in hzp) hch hne (modsOf s)
  dsimp only at hone
  have hu : (typeKeys fourMaps openLayout 0 (placesDown s.down) (placesDown (s.move z).down) (keysOf openLayout)
      (handOf s).mods).1 = if z ∈ s.down then [] else (s.char z).toList := by
    show (typeKeys fourMaps openLayout 0 _ _ _ (modsOf s)).1 = _
    by_cases hm : isMod z = true
    · have hcode : isModCode ((modsOf s).code fourMaps openLayout 0 z.row z.col) = true := by
        rw [modKey_code hzp hm]
        exact modCode_is z
      rw [hone, if_pos hcode, char_none hzp hm]
      simp
    · obtain ⟨c1, c2⟩ := charKey_code hzp (hchar hm).1
      rw [hone, char_not_mod c2, ha0, c1]
      by_cases e : z ∈ s.down <;> simp [e]
  obtain ⟨a1, a2, a3⟩ := phase_list h.held hn.held t1 t2 hj hdur hu
  exact ⟨⟨_, _, a1⟩, a2, a3⟩

/-! ## All movements -/

theorem careful_cons {s : Fingers} {v : Movement} {vs : List Movement} (h : Careful s (v :: vs)) :
    MayMove s v.key ∧ v.bounce.length ≤ 9 ∧ 10 ≤ v.steady ∧ Careful (s.move v.key) vs :=
  ⟨h.1.1, (h.2 v List.mem_cons_self).1, (h.2 v List.mem_cons_self).2, h.1.2,
    fun w hw => h.2 w (List.mem_cons_of_mem _ hw)⟩

theorem movement_entries {j k : Nat} {w : List Code} (hw : w.length ≤ 1) :
    (∀ u ∈ List.replicate j [] ++ ([w] ++ List.replicate k []), u.length ≤ 1) ∧
    (List.replicate j [] ++ ([w] ++ List.replicate k [])).flatten = w := by
  constructor
  · intro u hu
    simp only [List.mem_append, List.mem_replicate, List.mem_singleton] at hu
    rcases hu with hu | hu | hu
    · rw [hu.2]; exact Nat.zero_le _
    · rw [hu]; exact hw
    · rw [hu.2]; exact Nat.zero_le _
  · simp

theorem typist_length (m : ModKeys) (pre more : List Input) :
    (typist fourMaps openLayout 0 m pre more).length = more.length := by
  induction more generalizing m pre with
  | nil => rfl
  | cons x more ih => exact congrArg (· + 1) (ih _ _)

theorem moves_typed {s : Fingers} {vs : List Movement} (h : DownOk s) (hc : Careful s vs)
    {pre : List Input} (hpre : Settled openLayout pre (placesDown s.down)) :
    Tidy fourMaps openLayout 0 (handOf s) pre (movesRead s.down vs) ∧
    (∀ u ∈ typist fourMaps openLayout 0 (modsOf s) pre (movesRead s.down vs), u.length ≤ 1) ∧
    (typist fourMaps openLayout 0 (modsOf s) pre (movesRead s.down vs)).flatten = movesText s vs ∧
    (typist fourMaps openLayout 0 (modsOf s) pre (movesRead s.down vs)).getLast?.getD [] = [] := by
  induction vs generalizing s pre with
  | nil =>
    exact ⟨trivial, fun u hu => (List.not_mem_nil hu).elim, rfl, rfl⟩
  | cons v vs ih =>
    obtain ⟨hM, hb, hs, hc⟩ := careful_cons hc
    obtain ⟨⟨j, k, a1⟩, a2, a3⟩ := one_movement h hM hb hs hpre
    have M := one_moves h.places h.nodup hM.1 hb hs
    obtain ⟨b1, b4, b5, b6⟩ := ih (h.next hM) hc (M.settled hpre)
    have hw : (if v.key ∈ s.down then [] else (s.char v.key).toList).length ≤ 1 := by
      split
      · exact Nat.zero_le _
      · cases s.char v.key <;> simp
    obtain ⟨c1, c2⟩ := movement_entries (j := j) (k := k) hw
    have et : typist fourMaps openLayout 0 (modsOf s) pre (movesRead s.down (v :: vs)) =
        typist fourMaps openLayout 0 (modsOf s) pre (v.readings s.down) ++
          typist fourMaps openLayout 0 (modsOf (s.move v.key)) (pre ++ v.readings s.down)
            (movesRead (s.move v.key).down vs) := by
      have em : modsOf (s.move v.key) = modsAt fourMaps openLayout 0 (modsOf s) pre (v.readings s.down) := by
        show (handOf (s.move v.key)).mods = modsAt fourMaps openLayout 0 (handOf s).mods pre (v.readings s.down)
        rw [← handAt_mods, a2]
      rw [em]
      exact typist_append _ _ _ _
    refine ⟨?_, ?_, ?_, ?_⟩
    · refine (tidy_append _ _ _ _).mpr ⟨a3, ?_⟩
      rw [a2]
      exact b1
    · rw [et, a1]
      intro u hu
      rcases List.mem_append.mp hu with hu | hu
      · exact c1 u hu
      · exact b4 u hu
    · rw [et, List.flatten_append, b5, a1, c2]
      rfl
    · rw [et, List.getLast?_append]
      cases vs with
      | nil =>
        have hd : moved s.down v.key = [] := hc.1
        have hk : v.key ∈ s.down := Decidable.byContradiction fun e => by
          rw [moved, if_neg e] at hd
          cases hd
        rw [a1, if_pos hk]
        show (Option.or none _).getD [] = []
        rw [Option.none_or]
        have : List.replicate j [] ++ ([[]] ++ List.replicate k []) = List.replicate (j + (1 + k)) ([] : List Code) := by
          rw [show [[]] = List.replicate 1 ([] : List Code) from rfl, List.replicate_append_replicate,
            List.replicate_append_replicate]
        rw [this, List.getLast?_replicate]
        split <;> rfl
      | cons v' vs' =>
        have hlen : (typist fourMaps openLayout 0 (modsOf (s.move v.key)) (pre ++ v.readings s.down)
            (movesRead (s.move v.key).down (v' :: vs'))).length ≠ 0 := by
          rw [typist_length]
          have := (careful_cons hc).2.2.1
          simp only [movesRead, Movement.readings, List.length_append, List.length_replicate]
          omega
        generalize typist fourMaps openLayout 0 (modsOf (s.move v.key)) (pre ++ v.readings s.down)
            (movesRead (s.move v.key).down (v' :: vs')) = T at b6 hlen ⊢
        cases e : T.getLast? with
        | none =>
          rw [List.getLast?_eq_none_iff] at e
          rw [e] at hlen
          exact absurd rfl hlen
        | some u =>
          rw [e] at b6
          exact b6

/-! ## How long keys are held -/

/-- As `HeldAtMost`, for the key at a position of the matrix. -/
def HeldPos (d : Nat) (z : Nat × Nat) : Option Nat → List Movement → Prop
  | none, [] => True
  | some a, [] => a ≤ d
  | none, v :: vs => HeldPos d z (if (v.key.row, v.key.col) = z then some v.scans else none) vs
  | some a, v :: vs =>
    if (v.key.row, v.key.col) = z then a + v.bounce.length ≤ d ∧ HeldPos d z none vs
    else HeldPos d z (some (a + v.scans)) vs

theorem heldPos_le {d a : Nat} {z : Nat × Nat} {vs : List Movement} (h : HeldPos d z (some a) vs) : a ≤ d := by
  induction vs generalizing a with
  | nil => exact h
  | cons v vs ih =>
    unfold HeldPos at h
    split at h
    · omega
    · have := ih h
      omega

theorem heldPos_of {d : Nat} {z : Place} (hz : z ∈ classicPlaces) {vs : List Movement}
    (hv : ∀ v ∈ vs, v.key ∈ classicPlaces) (o : Option Nat) (h : HeldAtMost d z o vs) :
    HeldPos d (z.row, z.col) o vs := by
  induction vs generalizing o with
  | nil => cases o <;> exact h
  | cons v vs ih =>
    have ih := ih fun w hw => hv w (List.mem_cons_of_mem _ hw)
    have e : ((v.key.row, v.key.col) = (z.row, z.col)) ↔ v.key = z :=
      ⟨place_pos _ (hv v List.mem_cons_self) _ hz, fun e => by rw [e]⟩
    cases o with
    | none =>
      unfold HeldAtMost at h
      unfold HeldPos
      by_cases hk : v.key = z
      · rw [if_pos hk] at h
        rw [if_pos (e.mpr hk)]
        exact ih _ h
      · rw [if_neg hk] at h
        rw [if_neg fun e' => hk (e.mp e')]
        exact ih _ h
    | some a =>
      unfold HeldAtMost at h
      unfold HeldPos
      by_cases hk : v.key = z
      · rw [if_pos hk] at h
        rw [if_pos (e.mpr hk)]
        exact ⟨h.1, ih _ h.2⟩
      · rw [if_neg hk] at h
        rw [if_neg fun e' => hk (e.mp e')]
        exact ih _ h

theorem heldPos_never {d : Nat} {z : Nat × Nat} {vs : List Movement}
    (h : ∀ v ∈ vs, (v.key.row, v.key.col) ≠ z) : HeldPos d z none vs := by
  induction vs with
  | nil => trivial
  | cons v vs ih =>
    unfold HeldPos
    rw [if_neg (h v List.mem_cons_self)]
    exact ih fun w hw => h w (List.mem_cons_of_mem _ hw)

theorem mayMove_kind {s : Fingers} {z : Place} (h : MayMove s z) :
    z ∈ classicPlaces ∧ (isMod z = true ∨ (legendOf z).isSome = true) := by
  refine ⟨h.1, ?_⟩
  by_cases hm : isMod z = true
  · exact .inl hm
  · obtain ⟨⟨l, hl, _⟩, _⟩ := mayMove_char h hm
    exact .inr (by rw [hl]; rfl)

theorem mayMove_row {s : Fingers} {z : Place} (h : MayMove s z) : z.row ≠ 8 := by
  obtain ⟨h1, h2⟩ := mayMove_kind h
  rcases h2 with h2 | h2
  · exact ((mod_kind z h1).2.2 h2).2
  · exact char_kind z h1 h2

theorem careful_keys {s : Fingers} {vs : List Movement} (hc : Careful s vs) :
    ∀ v ∈ vs, v.key ∈ classicPlaces ∧ (isMod v.key = true ∨ (legendOf v.key).isSome = true) := by
  induction vs generalizing s with
  | nil => exact fun v hv => (List.not_mem_nil hv).elim
  | cons w vs ih =>
    intro v hv
    obtain ⟨hM, _, _, hc⟩ := careful_cons hc
    rcases List.mem_cons.mp hv with rfl | hv
    · exact mayMove_kind hM
    · exact ih hc v hv

theorem runs_moves {d : Nat} {s : Fingers} {vs : List Movement} (h : DownOk s) (hc : Careful s vs)
    {pre : List Input} (hpre : Settled openLayout pre (placesDown s.down)) {r c : Nat} (hr : r < openLayout.rows)
    (hcc : c < openLayout.cols) :
    (placesDown s.down r c = false → HeldPos d (r, c) none vs → RunsOk d 0 (downs r c pre (movesRead s.down vs))) ∧
    (∀ a A, placesDown s.down r c = true → a + 9 ≤ A → HeldPos d (r, c) (some A) vs →
      RunsOk d a (downs r c pre (movesRead s.down vs))) := by
  induction vs generalizing s pre with
  | nil => exact ⟨fun _ _ => trivial, fun _ _ _ _ _ => trivial⟩
  | cons v vs ih =>
    obtain ⟨hM, hb, hs, hc⟩ := careful_cons hc
    have M := one_moves h.places h.nodup hM.1 hb hs
    obtain ⟨i1, i2⟩ := ih (h.next hM) hc (M.settled hpre)
    have ed : downs r c pre (movesRead s.down (v :: vs)) = downs r c pre (v.readings s.down) ++
        downs r c (pre ++ v.readings s.down) (movesRead (moved s.down v.key) vs) := downs_append _ _ _ _ _
    have hD := M.downs hpre hr hcc
    have hlen : (v.readings s.down).length = v.scans := M.size
    obtain ⟨k1, k2⟩ := accept_bounds (placesDown s.down v.key.row v.key.col) hb
    generalize acceptAt (placesDown s.down v.key.row v.key.col) v.bounce = j at hD k1 k2
    have hD' : downs r c pre (v.readings s.down) = List.replicate j (placesDown s.down r c) ++
      List.replicate (v.scans - j) (placesDown (moved s.down v.key) r c) := by rw [hD, hlen]
    have hsc : v.scans = v.bounce.length + v.steady := rfl
    rw [ed, hD']
    have hturn : (v.key.row, v.key.col) = (r, c) → placesDown (moved s.down v.key) r c = !placesDown s.down r c := by
      intro e
      injection e with e1 e2
      subst e1 e2
      exact M.turn
    have hsame : (v.key.row, v.key.col) ≠ (r, c) → placesDown (moved s.down v.key) r c = placesDown s.down r c :=
      fun e => M.same r c e.symm
    constructor
    · intro h0 hh
      unfold HeldPos at hh
      rw [runsOk_append, runsOk_append, lastRun_append, h0, lastRun_zero]
      by_cases e : (v.key.row, v.key.col) = (r, c)
      · rw [if_pos e] at hh
        have hn : placesDown (moved s.down v.key) r c = true := by rw [hturn e, h0]; rfl
        have hle := heldPos_le hh
        rw [hn, lastRun_true]
        exact ⟨⟨runsOk_false _ _ _, runsOk_true (by omega)⟩, i2 _ _ hn (by omega) hh⟩
      · rw [if_neg e] at hh
        have hn : placesDown (moved s.down v.key) r c = false := by rw [hsame e, h0]
        rw [hn, lastRun_zero]
        exact ⟨⟨runsOk_false _ _ _, runsOk_false _ _ _⟩, i1 hn hh⟩
    · intro a A h1 hA hh
      unfold HeldPos at hh
      rw [runsOk_append, runsOk_append, lastRun_append, h1, lastRun_true]
      by_cases e : (v.key.row, v.key.col) = (r, c)
      · rw [if_pos e] at hh
        have hn : placesDown (moved s.down v.key) r c = false := by rw [hturn e, h1]; rfl
        rw [hn, lastRun_false, if_neg (by omega)]
        exact ⟨⟨runsOk_true (by omega), runsOk_false _ _ _⟩, i1 hn hh.2⟩
      · rw [if_neg e] at hh
        have hn : placesDown (moved s.down v.key) r c = true := by rw [hsame e, h1]
        have hle := heldPos_le hh
        rw [hn, lastRun_true]
        exact ⟨⟨runsOk_true (by omega), runsOk_true (by omega)⟩, i2 _ _ hn (by omega) hh⟩

/-- No key is held long enough to be repeated. -/
theorem moves_brief {vs : List Movement} (hc : Careful .rest vs) (hh : AllHeldAtMost 525 vs) {pre : List Input}
    (hpre : Settled openLayout pre (placesDown [])) :
    Brief fourMaps openLayout 0 525 pre (movesRead [] vs) := by
  intro r c hr hcc hf hd
  have h0 : downAfter pre r c = false := Settled.down hpre hr hcc
  have hk := careful_keys hc
  refine brief_of_runs h0 ((runs_moves downOk_rest hc hpre hr hcc).1 rfl ?_) hd
  by_cases he : ∃ v ∈ vs, (v.key.row, v.key.col) = (r, c)
  · obtain ⟨v, hv, e⟩ := he
    obtain ⟨hp, hkind⟩ := hk v hv
    rcases hkind with hm | hl
    · injection e with e1 e2
      rw [← e1, ← e2] at hf
      exact absurd (modKey_functional (modKey_is hp hm)) hf
    · rw [← e]
      exact heldPos_of hp (fun w hw => (hk w hw).1) none (hh v.key hp hl)
  · exact heldPos_never fun v hv e => he ⟨v, hv, e⟩

theorem Rested.moves {pre : List Input} (h : Rested pre) {vs : List Movement} (hc : Careful .rest vs)
    (hh : AllHeldAtMost 525 vs) :
    ((Kb.after fourMaps openLayout (pre ++ movesRead [] vs)).keys = [] ∧
      (Kb.after fourMaps openLayout (pre ++ movesRead [] vs)).msgs = []) ∧
    received (pre ++ movesRead [] vs) = received pre ++ (movesText .rest vs).map (false, ·) := by
  have hpre : Settled openLayout pre (placesDown []) := h.settled
  obtain ⟨b1, b4, b5, b6⟩ := moves_typed (s := .rest) downOk_rest hc hpre
  have e : handOf .rest = ⟨ModKeys.none, none⟩ := rfl
  have e' : modsOf .rest = ModKeys.none := rfl
  rw [e] at b1
  rw [e'] at b4 b5 b6
  have hb := moves_brief hc hh hpre
  obtain ⟨q1, q2, q3⟩ := loose_text (more := movesRead [] vs) rfl h.last (by rw [h.map, h.mods]; exact b1)
    (by rw [h.map, h.delay]; exact hb) ⟨h.keys, h.msgs⟩ (by rw [h.map, h.mods]; exact b4)
  rw [h.map, h.mods] at q2 q3
  have hon := after_onLine fourMaps openLayout (pre ++ movesRead [] vs)
  have q2 := q2.trans b6
  refine ⟨⟨by rw [hon.keys]; exact q2, by rw [hon.msgs]; exact q1⟩, ?_⟩
  rw [q2, List.map_nil, List.append_nil] at q3
  exact q3.trans (congrArg (fun l => (channel (typed fourMaps openLayout pre) (said fourMaps openLayout pre)).host ++
    List.map (false, ·) l) b5)

/-- No DIP switch is read as closed. -/
theorem moves_dips {down : List Place} {vs : List Movement} (hd : ∀ p ∈ down, p ∈ classicPlaces ∧ p.row ≠ 8)
    (hv : ∀ v ∈ vs, v.key ∈ classicPlaces ∧ v.key.row ≠ 8) :
    ∀ inp ∈ movesRead down vs, ∀ n, n < 8 → sample inp 8 n = false := by
  induction vs generalizing down with
  | nil => exact fun inp hi => (List.not_mem_nil hi).elim
  | cons v vs ih =>
    have hk := hv v List.mem_cons_self
    have he : ∀ p ∈ down.erase v.key, p ∈ classicPlaces ∧ p.row ≠ 8 := fun p hp => hd p (List.mem_of_mem_erase hp)
    have hcons : ∀ l : List Place, (∀ p ∈ l, p ∈ classicPlaces ∧ p.row ≠ 8) →
        ∀ p ∈ v.key :: l, p ∈ classicPlaces ∧ p.row ≠ 8 := by
      intro l hl p hp
      rcases List.mem_cons.mp hp with rfl | hp
      · exact hk
      · exact hl p hp
    have hm : ∀ p ∈ moved down v.key, p ∈ classicPlaces ∧ p.row ≠ 8 := by
      unfold moved
      split
      · exact he
      · exact hcons _ hd
    intro inp hi n hn
    rcases List.mem_append.mp hi with hi | hi
    · rcases List.mem_append.mp hi with hi | hi
      · obtain ⟨b, _, rfl⟩ := List.mem_map.mp hi
        cases b
        · exact keys_not_dip he hn
        · exact keys_not_dip (hcons _ he) hn
      · rw [(List.mem_replicate.mp hi).2]
        exact keys_not_dip hm hn
    · exact ih hm (fun w hw => hv w (List.mem_cons_of_mem _ hw)) inp hi n hn

theorem careful_rows {s : Fingers} {vs : List Movement} (hc : Careful s vs) :
    ∀ v ∈ vs, v.key ∈ classicPlaces ∧ v.key.row ≠ 8 := by
  intro v hv
  obtain ⟨h1, h2⟩ := careful_keys hc v hv
  rcases h2 with h2 | h2
  · exact ⟨h1, ((mod_kind v.key h1).2.2 h2).2⟩
  · exact ⟨h1, char_kind v.key h1 h2⟩

theorem moves_received {start : Nat} {vs : List Movement} (hc : Careful .rest vs) (hh : AllHeldAtMost 525 vs) :
    let inps := List.replicate start (keysClosed []) ++ movesRead [] vs
    ((Kb.after fourMaps openLayout inps).keys = [] ∧ (Kb.after fourMaps openLayout inps).msgs = []) ∧
      received inps = (movesText .rest vs).map (false, ·) ∧
      ∀ inp ∈ inps, ∀ n, n < 8 → sample inp 8 n = false := by
  obtain ⟨h1, h2⟩ := rested_nil.idle start
  obtain ⟨h3, h4⟩ := h1.moves hc hh
  rw [List.nil_append] at h2 h3 h4
  refine ⟨h3, h4.trans (by rw [h2]; rfl), ?_⟩
  intro inp hi
  rcases List.mem_append.mp hi with hi | hi
  · rw [(List.mem_replicate.mp hi).2]
    exact fun n hn => keys_not_dip (fun p hp => (List.not_mem_nil hp).elim) hn
  · exact moves_dips (fun p hp => (List.not_mem_nil hp).elim) (careful_rows hc) inp hi

/-- **C99, scan by scan.**  The classic keyboard after power-up, DIP switches open: whatever keys
are pressed and released, overlapping as they like, SHIFT, CTRL and CAPS LOCK at any time, with
contacts that bounce for up to 9 scans at each press and release, the host receives exactly the text that was typed, all of it as keystrokes,
and nothing is left waiting. -/
theorem C99_bounce (start : Nat) (vs : List Movement) (hc : Careful .rest vs) (hh : AllHeldAtMost 525 vs) :
    ∃ s, powerUp shipped (List.replicate start (keysClosed []) ++ movesRead [] vs) = .ok s ∧
      sends s.dev.trace = movesText .rest vs ∧ hostSees s.dev.trace = (movesText .rest vs).map (false, ·) ∧
      keystrokes s = [] ∧ messages s = [] := by
  obtain ⟨h1, h2, h3⟩ := moves_received (start := start) hc hh
  obtain ⟨s, e1, e2, e3, e4⟩ := C77_shipped _ (never_of_open fun inp hi => h3 inp hi 2 (by omega))
  have hon := after_onLine fourMaps openLayout (List.replicate start (keysClosed []) ++ movesRead [] vs)
  refine ⟨s, e1, ?_, e2.trans h2, by rw [e3, ← hon.keys]; exact h1.1, by rw [e4, ← hon.msgs]; exact h1.2⟩
  rw [sends_hostSees, e2, show (channel _ _).host = _ from h2, List.map_map]
  exact List.map_id _

/-! ## Non-vacuity -/

instance {α : Type} {P : α → Prop} [DecidablePred P] (o : Option α) : Decidable (∃ l, o = some l ∧ P l) :=
  match o with
  | none => isFalse fun ⟨_, h, _⟩ => by cases h
  | some l => if h : P l then isTrue ⟨l, rfl, h⟩ else isFalse fun ⟨_, h1, h2⟩ => by cases h1; exact h h2

instance {α : Type} {P : α → Prop} [DecidablePred P] (o : Option α) : Decidable (∀ y ∈ o, P y) :=
  match o with
  | none => isTrue fun _ h => by cases h
  | some y => if h : P y then isTrue fun _ e => by cases e; exact h else isFalse fun h' => h (h' y rfl)

instance (s : Fingers) (z : Place) : Decidable (MayMove s z) := by
  unfold MayMove
  exact instDecidableAnd

instance decOrderly : (s : Fingers) → (zs : List Place) → Decidable (Orderly s zs)
  | s, [] => inferInstanceAs (Decidable (s.down = []))
  | s, z :: zs =>
    have := decOrderly (s.move z) zs
    inferInstanceAs (Decidable (MayMove s z ∧ Orderly (s.move z) zs))

instance decHeld (d : Nat) (z : Place) : (o : Option Nat) → (vs : List Movement) → Decidable (HeldAtMost d z o vs)
  | none, [] => inferInstanceAs (Decidable True)
  | some a, [] => inferInstanceAs (Decidable (a ≤ d))
  | none, v :: vs => decHeld d z (if v.key = z then some v.scans else none) vs
  | some a, v :: vs =>
    have := decHeld d z none vs
    have := decHeld d z (some (a + v.scans)) vs
    inferInstanceAs (Decidable (if v.key = z then a + v.bounce.length ≤ d ∧ HeldAtMost d z none vs
      else HeldAtMost d z (some (a + v.scans)) vs))

/-- The keys of the example. -/
def keyH : Place := ⟨.key 45, "H", 3, 3⟩
def keyI : Place := ⟨.key 4, "I", 4, 1⟩
def keyShift : Place := ⟨.key 39, "L_Shift", 0, 2⟩
def keyCaps : Place := ⟨.key 9, "Caps_Lock", 5, 2⟩

/-- `H` with SHIFT, which is released before `H`, then `i`, and `I` and `h` with CAPS LOCK switched on and
off, on contacts that bounce. -/
def hiih : List Movement :=
  [⟨keyShift, [true, false, true], 20⟩, ⟨keyH, [true, false, false, true, false], 40⟩,
   ⟨keyShift, [false, false, true, true, false, true, true, true, false], 15⟩, ⟨keyI, [true, false], 60⟩,
   ⟨keyH, [false, true], 10⟩, ⟨keyI, [false, true, false, true], 25⟩, ⟨keyCaps, [], 30⟩, ⟨keyI, [true], 11⟩,
   ⟨keyCaps, [true, true], 12⟩, ⟨keyI, [], 10⟩, ⟨keyCaps, [false], 10⟩, ⟨keyH, [false, true], 20⟩,
   ⟨keyCaps, [], 10⟩, ⟨keyH, [true, false, true], 10⟩]

theorem hiih_careful : Careful .rest hiih ∧ AllHeldAtMost 525 hiih ∧
    movesText .rest hiih = [ch 'H', ch 'i', ch 'I', ch 'h'] := by
  refine ⟨⟨?_, ?_⟩, ?_, ?_⟩
  · decide +kernel
  · decide +kernel
  · unfold AllHeldAtMost
    decide +kernel
  · decide +kernel

end Asdf.Props
