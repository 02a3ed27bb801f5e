import Verif.Spec.Typist
import Verif.Lemmas.Noise

/-! # Typing text: the abstract keyboard does what the typist expects -/

namespace Asdf

open Spec

namespace Typist

/-- A key has been down in the last `n + 1` states since `p`. -/
def Aged (p done : List Input) (r c n : Nat) : Prop :=
  ∃ u v, done = u ++ v ∧ v.length = n ∧ ∀ v1 v2, v = v1 ++ v2 → downAfter (p ++ u ++ v1) r c = true

theorem Aged.down {p done : List Input} {r c n : Nat} (h : Aged p done r c n) :
    downAfter (p ++ done) r c = true := by
  obtain ⟨u, v, rfl, _, h⟩ := h
  rw [← List.append_assoc]
  exact h v [] (List.append_nil v).symm

theorem Aged.fresh {p done : List Input} {r c : Nat} (h : downAfter (p ++ done) r c = true) :
    Aged p done r c 0 := by
  refine ⟨done, [], (List.append_nil _).symm, rfl, fun v1 v2 e => ?_⟩
  have : v1 = [] := (List.append_eq_nil_iff.mp e.symm).1
  rw [this, List.append_nil]
  exact h

theorem Aged.next {p done : List Input} {r c n : Nat} {inp : Input} (h : Aged p done r c n)
    (ha : downAfter (p ++ (done ++ [inp])) r c = true) : Aged p (done ++ [inp]) r c (n + 1) := by
  obtain ⟨u, v, rfl, hl, h⟩ := h
  refine ⟨u, v ++ [inp], List.append_assoc _ _ _, by simp [hl], fun v1 v2 e => ?_⟩
  rcases List.append_eq_append_iff.mp e with ⟨w, e1, e2⟩ | ⟨w, e1, e2⟩
  · cases w with
    | nil =>
      rw [List.append_nil] at e1
      rw [e1]
      exact h v [] (List.append_nil v).symm
    | cons x w =>
      rw [List.cons_append] at e2
      injection e2 with e3 e4
      have hw : w = [] := (List.append_eq_nil_iff.mp e4.symm).1
      rw [e1, ← e3, hw, List.append_assoc, ← List.append_assoc u]
      exact ha
  · exact h v1 w e1

/-- A bound for the ages. -/
theorem Aged.lt {cfg : Config} {L : Layout} {i : UInt8} {d : Nat} {p done rest : List Input} {r c n : Nat}
    (hb : Brief cfg L i d p (done ++ rest)) (hr : r < L.rows) (hc : c < L.cols)
    (hf : ¬ Functional cfg L i r c) (hd : d ≠ 0) (h : Aged p done r c n) : n < d := by
  obtain ⟨u, v, rfl, hl, h⟩ := h
  by_cases hn : n < d
  · exact hn
  · obtain ⟨v1, v2, e1, e2⟩ := hb r c hr hc hf hd u (v.take d) (v.drop d ++ rest)
      (by rw [← List.append_assoc, List.append_assoc u (v.take d), List.take_append_drop])
      (by rw [List.length_take]; omega)
    rw [h v1 (v2 ++ v.drop d) (by rw [← List.append_assoc, ← e1, List.take_append_drop])] at e2
    cases e2

/-- The repeating code, if any, is that of a key that has been down, for a time that together
with what is left of the delay makes up the delay. -/
def Holder (cfg : Config) (L : Layout) (i : UInt8) (m : ModKeys) (d : Nat) (age : Nat → Nat → Nat → Prop)
    (k : Kb) : Prop :=
  k.last = 0xA0 ∨ ∃ r c n, r < L.rows ∧ c < L.cols ∧ m.code cfg L i r c = k.last ∧
    k.last.toNat < 0xA0 ∧ age r c n ∧ d ≤ k.rpt.left + n ∧ (d = 0 → k.rpt.left = 0)

variable {cfg : Config} {L : Layout} {i : UInt8} {d : Nat}

theorem code_eq {k : Kb} (h : k.map = i) (r c : Nat) : k.code cfg L r c = k.mods.code cfg L i r c := by
  rw [← h]; rfl

/-- A modifier key. -/
theorem press_mod (k : Kb) {x : Code} (hx : isModCode x = true) :
    (k.press cfg x).map = k.map ∧ (k.press cfg x).rpt = k.rpt ∧ (k.press cfg x).last = k.last ∧
      (k.press cfg x).mods = k.mods.event x true := by
  have h : x = 0xA1 ∨ x = 0xA2 ∨ x = 0xA3 ∨ x = 0xA4 ∨ x = 0xA5 := by
    have := (by decide +kernel : ∀ n, n < 256 → isModCode (UInt8.ofNat n) = true →
      UInt8.ofNat n = 0xA1 ∨ UInt8.ofNat n = 0xA2 ∨ UInt8.ofNat n = 0xA3 ∨ UInt8.ofNat n = 0xA4 ∨
        UInt8.ofNat n = 0xA5) x.toNat x.toNat_lt
    rw [UInt8.ofNat_toNat] at this
    exact this hx
  rcases h with rfl | rfl | rfl | rfl | rfl
  · exact ⟨rfl, rfl, rfl, rfl⟩
  · exact ⟨rfl, rfl, rfl, rfl⟩
  · refine ⟨rfl, rfl, rfl, ?_⟩
    show ModKeys.mk _ _ _ _ = ModKeys.mk _ _ _ _
    simp [Kb.mods]
    exact ⟨rfl, rfl, rfl, rfl⟩
  · refine ⟨rfl, rfl, rfl, ?_⟩
    show ModKeys.mk _ _ _ _ = ModKeys.mk _ _ _ _
    simp [Kb.mods]
    exact ⟨rfl, rfl, rfl, rfl⟩
  · exact ⟨rfl, rfl, rfl, rfl⟩

theorem release_mod (k : Kb) {x : Code} (hx : isModCode x = true) :
    (k.release cfg x).map = k.map ∧ (k.release cfg x).rpt = k.rpt ∧ (k.release cfg x).last = k.last ∧
      (k.release cfg x).mods = k.mods.event x false := by
  have h : x = 0xA1 ∨ x = 0xA2 ∨ x = 0xA3 ∨ x = 0xA4 ∨ x = 0xA5 := by
    have := (by decide +kernel : ∀ n, n < 256 → isModCode (UInt8.ofNat n) = true →
      UInt8.ofNat n = 0xA1 ∨ UInt8.ofNat n = 0xA2 ∨ UInt8.ofNat n = 0xA3 ∨ UInt8.ofNat n = 0xA4 ∨
        UInt8.ofNat n = 0xA5) x.toNat x.toNat_lt
    rw [UInt8.ofNat_toNat] at this
    exact this hx
  rcases h with rfl | rfl | rfl | rfl | rfl
  · exact ⟨rfl, rfl, rfl, rfl⟩
  · exact ⟨rfl, rfl, rfl, rfl⟩
  · refine ⟨rfl, rfl, rfl, ?_⟩
    show _ = ModKeys.mk _ _ _ _
    simp [Kb.mods]
    exact ⟨rfl, rfl, rfl, rfl⟩
  · refine ⟨rfl, rfl, rfl, ?_⟩
    show _ = ModKeys.mk _ _ _ _
    simp [Kb.mods]
    exact ⟨rfl, rfl, rfl, rfl⟩
  · exact ⟨rfl, rfl, rfl, rfl⟩

/-- One scan under way: `xs` are the keys still to be looked at. -/
structure Mid (cfg : Config) (L : Layout) (i : UInt8) (d : Nat) (p done : List Input) (inp : Input) (m : ModKeys)
    (D : Nat → Nat → Deb) (xs : List (Nat × Nat)) (k : Kb) (m' : ModKeys) : Prop where
  map : k.map = i
  delay : k.rpt.delay = d
  mods : k.mods = m'
  deb : ∀ x ∈ xs, k.deb x.1 x.2 = D x.1 x.2
  same : m' = m ∨ ∃ r c, r < L.rows ∧ c < L.cols ∧
    downAfter (p ++ done) r c ≠ downAfter (p ++ (done ++ [inp])) r c ∧ IsModKey cfg L i r c
  hold : Holder cfg L i m' d (fun r c n => if (r, c) ∈ xs then Aged p done r c n
    else Aged p (done ++ [inp]) r c n) k

theorem modKey_functional {r c : Nat} (h : IsModKey cfg L i r c) : Functional cfg L i r c := by
  obtain ⟨x, hx, h⟩ := h
  intro m
  rw [h m]
  simp only [isModCode, Bool.and_eq_true, decide_eq_true_eq] at hx
  omega

section scan

variable {p done rest : List Input} {inp : Input} {m : ModKeys} {D : Nat → Nat → Deb}

/-- A key that is down before or after the scan has a function or a character. -/
theorem meaning {m' : ModKeys}
    (NS : NeatScan cfg L i m (downAfter (p ++ done)) (downAfter (p ++ (done ++ [inp]))))
    (OK : ∀ r c, r < L.rows → c < L.cols → downAfter (p ++ done) r c = true →
      Functional cfg L i r c ∨ (m.code cfg L i r c).toNat < 0xA0)
    (hs : m' = m ∨ ∃ r c, r < L.rows ∧ c < L.cols ∧
      downAfter (p ++ done) r c ≠ downAfter (p ++ (done ++ [inp])) r c ∧ IsModKey cfg L i r c)
    {r c : Nat} (hr : r < L.rows) (hc : c < L.cols)
    (hd : (downAfter (p ++ done) r c || downAfter (p ++ (done ++ [inp])) r c) = true) :
    Functional cfg L i r c ∨ (m' = m ∧ (m.code cfg L i r c).toNat < 0xA0) := by
  rcases hs with rfl | ⟨r', c', hr', hc', h1, h2⟩
  · by_cases hb : downAfter (p ++ done) r c = true
    · rcases OK r c hr hc hb with h | h
      · exact .inl h
      · exact .inr ⟨rfl, h⟩
    · have hne : downAfter (p ++ done) r c ≠ downAfter (p ++ (done ++ [inp])) r c := by
        intro e
        rw [← e, Bool.or_self] at hd
        exact hb hd
      rcases NS.known r c hr hc hne with h | h
      · exact .inl (modKey_functional h)
      · exact .inr ⟨rfl, h⟩
  · exact .inl (NS.apart r' c' hr' hc' h1 h2 r c hr hc hd)

/-- Nothing relevant happens to the key `x`. -/
theorem Mid.idle {x : Nat × Nat} {xs : List (Nat × Nat)} {k k' : Kb} {m' : ModKeys} (hx : x ∉ xs)
    (h : Mid cfg L i d p done inp m D (x :: xs) k m') (hm : k'.map = k.map) (hr : k'.rpt = k.rpt)
    (hl : k'.last = k.last) (hmods : k'.mods = k.mods)
    (hdeb : ∀ y ∈ xs, k'.deb y.1 y.2 = k.deb y.1 y.2)
    (he : downAfter (p ++ done) x.1 x.2 = downAfter (p ++ (done ++ [inp])) x.1 x.2) :
    Mid cfg L i d p done inp m D xs k' m' := by
  refine ⟨hm.trans h.map, by rw [hr]; exact h.delay, hmods.trans h.mods, fun y hy => ?_, h.same, ?_⟩
  · rw [hdeb y hy]; exact h.deb y (List.mem_cons_of_mem _ hy)
  · rcases h.hold with h0 | ⟨r, c, n, h1, h2, h3, h4, h5, h6, h7⟩
    · exact .inl (hl.trans h0)
    · by_cases hxe : (r, c) = x
      · refine .inr ⟨r, c, n + 1, h1, h2, by rw [hl]; exact h3, by rw [hl]; exact h4, ?_, by rw [hr]; omega,
          by rw [hr]; exact h7⟩
        have h5 : Aged p done r c n := by
          simpa only [hxe, List.mem_cons_self, if_true] using h5
        show if (r, c) ∈ xs then _ else _
        rw [if_neg (by rw [hxe]; exact hx)]
        refine h5.next ?_
        have e := h5.down
        rw [← hxe] at he
        rw [← he]
        exact e
      · refine .inr ⟨r, c, n, h1, h2, by rw [hl]; exact h3, by rw [hl]; exact h4, ?_, by rw [hr]; exact h6,
          by rw [hr]; exact h7⟩
        have e : ((r, c) ∈ x :: xs) = ((r, c) ∈ xs) := by
          rw [List.mem_cons]
          simp only [hxe, false_or]
        simpa only [e] using h5

/-- One key. -/
theorem Mid.key
    (NS : NeatScan cfg L i m (downAfter (p ++ done)) (downAfter (p ++ (done ++ [inp]))))
    (OK : ∀ r c, r < L.rows → c < L.cols → downAfter (p ++ done) r c = true →
      Functional cfg L i r c ∨ (m.code cfg L i r c).toNat < 0xA0)
    (hb : Brief cfg L i d p (done ++ [inp] ++ rest))
    {r c : Nat} (hr : r < L.rows) (hc : c < L.cols)
    (hD1 : (D r c).on = downAfter (p ++ done) r c)
    (hD2 : ((D r c).step (sample inp r c)).on = downAfter (p ++ (done ++ [inp])) r c)
    {xs : List (Nat × Nat)} (hx : (r, c) ∉ xs) {k : Kb} {m' : ModKeys}
    (h : Mid cfg L i d p done inp m D ((r, c) :: xs) k m') :
    let b := downAfter (p ++ done) r c
    let a := downAfter (p ++ (done ++ [inp])) r c
    let x := m'.code cfg L i r c
    Kb.saidBy cfg L (sample inp r c) k r c = [] ∧
    (b = a → Kb.typedBy cfg L (sample inp r c) k r c = [] ∧
      Mid cfg L i d p done inp m D xs (k.key cfg L (sample inp r c) r c) m') ∧
    (b ≠ a → isModCode x = true → Kb.typedBy cfg L (sample inp r c) k r c = [] ∧
      Mid cfg L i d p done inp m D xs (k.key cfg L (sample inp r c) r c) (m'.event x a)) ∧
    (b ≠ a → isModCode x = false →
      Kb.typedBy cfg L (sample inp r c) k r c = (if a then [x] else []) ∧
      Mid cfg L i d p done inp m D xs (k.key cfg L (sample inp r c) r c) m') := by
  intro b a x
  have hdeb : k.deb r c = D r c := h.deb (r, c) List.mem_cons_self
  have hcode : k.code cfg L r c = x := by rw [code_eq h.map, h.mods]
  have hother : ∀ y ∈ xs, (k.key cfg L (sample inp r c) r c).deb y.1 y.2 = k.deb y.1 y.2 := by
    intro y hy
    rw [key_deb, if_neg]
    rintro ⟨e1, e2⟩
    exact hx (by rw [← e1, ← e2]; exact hy)
  by_cases hp : sample inp r c ≠ (D r c).on
  · by_cases hl : (D r c).left ≤ 1
    · -- the change is accepted
      have ha : a = sample inp r c := by
        show downAfter _ _ _ = _
        rw [← hD2]
        unfold Deb.step
        rw [if_neg hp, if_pos hl]
      have hba : b ≠ a := by
        rw [ha]
        show downAfter _ _ _ ≠ _
        rw [← hD1]
        exact fun e => hp e.symm
      have hkey : k.key cfg L (sample inp r c) r c = if sample inp r c then
          (stepDeb k (sample inp r c) r c).press cfg x else (stepDeb k (sample inp r c) r c).release cfg x := by
        unfold Kb.key
        rw [hdeb, if_pos hp, if_pos hl, hcode, ← hdeb]
        rfl
      have hdown : (b || a) = true := by
        revert hba
        cases b <;> cases a <;> simp
      have hmean := meaning NS OK h.same hr hc hdown
      have hknown := NS.known r c hr hc hba
      have hxmod : isModCode x = true → 0xA0 < x.toNat ∧ x.toNat < 0xA7 := by
        intro e
        simp only [isModCode, Bool.and_eq_true, decide_eq_true_eq] at e
        omega
      -- a key that is not a modifier key
      have hchar : isModCode x = false → m' = m ∧ x.toNat < 0xA0 ∧ ¬ Functional cfg L i r c := by
        intro hx0
        have hc0 : (m.code cfg L i r c).toNat < 0xA0 := by
          rcases hknown with ⟨y, hy, e⟩ | e
          · have : x = y := e m'
            rw [this, hy] at hx0
            cases hx0
          · exact e
        rcases hmean with e | ⟨e, _⟩
        · have := e m
          omega
        · refine ⟨e, ?_, fun e => ?_⟩
          · show (ModKeys.code cfg L i m' r c).toNat < 0xA0
            rw [e]; exact hc0
          · have := e m
            omega
      refine ⟨?_, fun e => absurd e hba, fun _ hxm => ⟨?_, ?_⟩, fun _ hx0 => ⟨?_, ?_⟩⟩
      · -- no text is printed
        unfold Kb.saidBy
        rw [hcode]
        split
        · have : x.toNat < 0xA7 := by
            cases e : isModCode x
            · have := (hchar e).2.1
              omega
            · exact (hxmod e).2
          rw [if_neg (by omega), if_neg (by omega)]
        · rfl
      · have := (hxmod hxm).1
        unfold Kb.typedBy
        rw [hdeb, hcode, if_pos hp, if_neg (by omega)]
      · -- a modifier key
        have hmk : IsModKey cfg L i r c := by
          rcases hknown with e | e
          · exact e
          · rcases hmean with e' | ⟨e', _⟩
            · have := e' m
              omega
            · have h1 := (hxmod hxm).1
              have h2 : x = ModKeys.code cfg L i m r c := by
                show ModKeys.code cfg L i m' r c = _
                rw [e']
              rw [h2] at h1
              omega
        have hlast : k.last = 0xA0 := by
          rcases h.hold with e | ⟨r1, c1, n, h1, h2, h3, h4, h5, _⟩
          · exact e
          · have hd : (downAfter (p ++ done) r1 c1 || downAfter (p ++ (done ++ [inp])) r1 c1) = true := by
              rw [Bool.or_eq_true]
              split at h5
              · exact .inl h5.down
              · exact .inr h5.down
            have := NS.apart r c hr hc hba hmk r1 c1 h1 h2 hd m'
            rw [h3] at this
            omega
        have hmid : ∀ k' : Kb, k'.map = k.map → k'.rpt = k.rpt → k'.last = k.last →
            k'.mods = k.mods.event x a → k' = k.key cfg L (sample inp r c) r c →
            Mid cfg L i d p done inp m D xs (k.key cfg L (sample inp r c) r c) (m'.event x a) := by
          intro k' e1 e2 e3 e4 e5
          rw [← e5] at hother ⊢
          refine ⟨e1.trans h.map, by rw [e2]; exact h.delay, by rw [e4, h.mods], fun y hy => ?_,
            .inr ⟨r, c, hr, hc, hba, hmk⟩, .inl (e3.trans hlast)⟩
          rw [hother y hy]
          exact h.deb y (List.mem_cons_of_mem _ hy)
        cases hs : sample inp r c
        · have e := release_mod (cfg := cfg) (stepDeb k (sample inp r c) r c) hxm
          rw [hs] at e
          rw [ha, hs] at hmid
          rw [ha, hs]
          refine hmid _ e.1 e.2.1 e.2.2.1 e.2.2.2 ?_
          rw [hs] at hkey
          exact hkey.symm
        · have e := press_mod (cfg := cfg) (stepDeb k (sample inp r c) r c) hxm
          rw [hs] at e
          rw [ha, hs] at hmid
          rw [ha, hs]
          refine hmid _ e.1 e.2.1 e.2.2.1 e.2.2.2 ?_
          rw [hs] at hkey
          exact hkey.symm
      · obtain ⟨_, hlt, _⟩ := hchar hx0
        unfold Kb.typedBy
        rw [hdeb, hcode, if_pos hp, ha]
        cases sample inp r c
        · simp
        · rw [if_pos ⟨rfl, hl, by omega⟩]
          rfl
      · -- a key with a character
        obtain ⟨hm, hlt, hnf⟩ := hchar hx0
        subst hm
        -- another key with this character cannot be the one that repeats
        have hnot : k.last ≠ 0xA0 → k.last = x → ∃ n, Aged p done r c n := by
          intro h0 hlx
          rcases h.hold with e | ⟨r1, c1, n, h1, h2, h3, h4, h5, _⟩
          · exact absurd e h0
          · have hd : (downAfter (p ++ done) r1 c1 || downAfter (p ++ (done ++ [inp])) r1 c1) = true := by
              rw [Bool.or_eq_true]
              split at h5
              · exact .inl h5.down
              · exact .inr h5.down
            obtain ⟨rfl, rfl⟩ := NS.distinct r1 c1 r c h1 h2 hr hc hd hdown (by rw [h3]; exact h4)
              (by rw [h3]; exact hlx)
            rw [if_pos List.mem_cons_self] at h5
            exact ⟨n, h5⟩
        have hdeb' : ∀ y ∈ xs, (k.key cfg L (sample inp r c) r c).deb y.1 y.2 = D y.1 y.2 := by
          intro y hy
          rw [hother y hy]
          exact h.deb y (List.mem_cons_of_mem _ hy)
        cases hs : sample inp r c
        · -- released
          rw [hs] at hkey hdeb'
          have hkey : k.key cfg L false r c = { stepDeb k false r c with
              last := if k.last = x then 0xA0 else k.last } :=
            hkey.trans (release_code cfg _ x (by omega))
          rw [hkey] at hdeb' ⊢
          refine ⟨h.map, h.delay, h.mods, hdeb', h.same, ?_⟩
          by_cases hlx : k.last = x
          · exact .inl (if_pos hlx)
          · rcases h.hold with e | ⟨r1, c1, n, h1, h2, h3, h4, h5, h6, h7⟩
            · refine .inl ?_
              show (if k.last = x then 0xA0 else k.last) = _
              rw [if_neg hlx]; exact e
            · have hne : (r1, c1) ≠ (r, c) := by
                intro e
                injection e with e1 e2
                subst e1 e2
                exact hlx h3.symm
              refine .inr ⟨r1, c1, n, h1, h2, ?_, ?_, ?_, h6, h7⟩
              · show _ = (if k.last = x then 0xA0 else k.last)
                rw [if_neg hlx]; exact h3
              · show (if k.last = x then 0xA0 else k.last : Code).toNat < _
                rw [if_neg hlx]; exact h4
              · have e : ((r1, c1) ∈ (r, c) :: xs) = ((r1, c1) ∈ xs) := by
                  rw [List.mem_cons]
                  simp only [hne, false_or]
                simpa only [e] using h5
        · -- pressed
          rw [hs] at hkey hdeb'
          have hkey : k.key cfg L true r c = (stepDeb k true r c).type x :=
            hkey.trans (press_code cfg _ x (by omega))
          rw [hkey] at hdeb' ⊢
          have hat : a = true := by rw [ha, hs]
          have hlx : k.last ≠ x := by
            intro e
            obtain ⟨n, hn⟩ := hnot (by
              intro e0
              rw [e0] at e
              rw [← e] at hlt
              exact absurd hlt (by decide)) e
            have hb' : b = true := hn.down
            exact hba (hb'.trans hat.symm)
          have hrpt : ((stepDeb k true r c).type x).rpt = k.rpt.restart := by
            show (if k.last = x then k.rpt else k.rpt.restart) = _
            rw [if_neg hlx]
          refine ⟨h.map, by rw [hrpt]; exact h.delay, h.mods, hdeb', h.same, .inr
            ⟨r, c, 0, hr, hc, rfl, hlt, ?_, ?_, ?_⟩⟩
          · show if (r, c) ∈ xs then _ else _
            rw [if_neg hx]
            exact Aged.fresh hat
          · rw [hrpt]
            show d ≤ k.rpt.delay + 0
            rw [h.delay]; exact Nat.le_refl _
          · intro hd0
            rw [hrpt]
            show k.rpt.delay = 0
            rw [h.delay, hd0]
    · -- the change is not accepted yet
      have hba : b = a := by
        show downAfter _ _ _ = downAfter _ _ _
        rw [← hD1, ← hD2]
        unfold Deb.step
        rw [if_neg hp, if_neg hl]
      refine ⟨?_, fun _ => ⟨?_, ?_⟩, fun e => absurd hba e, fun e => absurd hba e⟩
      · unfold Kb.saidBy
        rw [hdeb, if_neg (fun e => hl e.2.2)]
      · unfold Kb.typedBy
        rw [hdeb, if_pos hp, if_neg (fun e => hl e.2.1)]
      · have hkey : k.key cfg L (sample inp r c) r c = stepDeb k (sample inp r c) r c := by
          unfold Kb.key
          rw [hdeb, if_pos hp, if_neg hl, ← hdeb]
          rfl
        refine Mid.idle hx h ?_ ?_ ?_ ?_ hother hba <;> rw [hkey] <;> rfl
  · have hp : sample inp r c = (D r c).on := Decidable.of_not_not hp
    have hba : b = a := by
      show downAfter _ _ _ = downAfter _ _ _
      rw [← hD1, ← hD2]
      unfold Deb.step
      rw [if_pos hp]
    refine ⟨?_, fun _ => ?_, fun e => absurd hba e, fun e => absurd hba e⟩
    · unfold Kb.saidBy
      rw [hdeb, if_neg]
      rintro ⟨e1, e2, _⟩
      rw [hp, e2] at e1
      cases e1
    · by_cases ht : sample inp r c = true ∧ x = k.last
      · -- the held key that may repeat
        obtain ⟨hs, hxl⟩ := ht
        have hbt : b = true := by
          show downAfter _ _ _ = true
          rw [← hD1, ← hp, hs]
        have hdown : (b || a) = true := by rw [hbt]; rfl
        have hmean := meaning NS OK h.same hr hc hdown
        have hle : k.last.toNat ≤ 0xA0 := by
          rcases h.hold with e | ⟨_, _, _, _, _, _, h4, _⟩
          · rw [e]; decide
          · omega
        rcases hmean with e | ⟨hm, hlt⟩
        · have := e m'
          have hx' : ModKeys.code cfg L i m' r c = k.last := hxl
          rw [hx'] at this
          omega
        subst hm
        have hlt' : k.last.toNat < 0xA0 := by rw [← hxl]; exact hlt
        have hnf : ¬ Functional cfg L i r c := fun e => by
          have := e m'
          omega
        rcases h.hold with e | ⟨r1, c1, n, h1, h2, h3, h4, h5, h6, h7⟩
        · rw [e] at hlt'
          exact absurd hlt' (by decide)
        have hd : (downAfter (p ++ done) r1 c1 || downAfter (p ++ (done ++ [inp])) r1 c1) = true := by
          rw [Bool.or_eq_true]
          split at h5
          · exact .inl h5.down
          · exact .inr h5.down
        obtain ⟨rfl, rfl⟩ := NS.distinct r1 c1 r c h1 h2 hr hc hd hdown (by rw [h3]; exact h4)
          (by rw [h3]; exact hxl.symm)
        rw [if_pos List.mem_cons_self] at h5
        have hage : Aged p (done ++ [inp]) r1 c1 (n + 1) := h5.next (by rw [← hbt, hba])
        have hleft : k.rpt.left ≠ 1 := by
          intro e
          by_cases hd0 : d = 0
          · have := h7 hd0
            omega
          · have := hage.lt hb hr hc hnf hd0
            omega
        constructor
        · unfold Kb.typedBy
          rw [hdeb, if_neg (not_not_intro hp), hcode, if_neg (fun e => hleft e.2.2)]
        · have hkey : k.key cfg L (sample inp r1 c1) r1 c1 =
              { stepDeb k (sample inp r1 c1) r1 c1 with rpt := k.rpt.tick } := by
            unfold Kb.key
            rw [hdeb, if_neg (not_not_intro hp), hcode, if_pos ⟨hs, hxl⟩, if_neg hleft, ← hdeb]
            rfl
          have hdeb' : ∀ y ∈ xs, (k.key cfg L (sample inp r1 c1) r1 c1).deb y.1 y.2 = D y.1 y.2 := by
            intro y hy
            rw [hother y hy]
            exact h.deb y (List.mem_cons_of_mem _ hy)
          rw [hkey] at hdeb' ⊢
          have htick : k.rpt.tick.left = if k.rpt.left = 0 then 0 else k.rpt.left - 1 := by
            show (if k.rpt.left = 0 then 0 else if k.rpt.left = 1 then 66 else k.rpt.left - 1) = _
            rw [if_neg hleft]
          refine ⟨h.map, h.delay, h.mods, hdeb', h.same, .inr ⟨r1, c1, n + 1, hr, hc, h3, h4, ?_, ?_, ?_⟩⟩
          · show if (r1, c1) ∈ xs then _ else _
            rw [if_neg hx]
            exact hage
          · show d ≤ k.rpt.tick.left + (n + 1)
            rw [htick]
            split <;> omega
          · intro hd0
            show k.rpt.tick.left = 0
            rw [htick, if_pos (h7 hd0)]
      · constructor
        · unfold Kb.typedBy
          rw [hdeb, if_neg (not_not_intro hp), hcode, if_neg (fun e => ht ⟨e.1, e.2.1⟩)]
        · have hkey : k.key cfg L (sample inp r c) r c = stepDeb k (sample inp r c) r c := by
            unfold Kb.key
            rw [hdeb, if_neg (not_not_intro hp), hcode, if_neg ht, ← hdeb]
            rfl
          refine Mid.idle hx h ?_ ?_ ?_ ?_ hother hba <;> rw [hkey] <;> rfl

/-- All keys of a scan. -/
theorem Mid.keys
    (NS : NeatScan cfg L i m (downAfter (p ++ done)) (downAfter (p ++ (done ++ [inp]))))
    (OK : ∀ r c, r < L.rows → c < L.cols → downAfter (p ++ done) r c = true →
      Functional cfg L i r c ∨ (m.code cfg L i r c).toNat < 0xA0)
    (hb : Brief cfg L i d p (done ++ [inp] ++ rest))
    (hD : ∀ r c, r < L.rows → c < L.cols → (D r c).on = downAfter (p ++ done) r c ∧
      ((D r c).step (sample inp r c)).on = downAfter (p ++ (done ++ [inp])) r c)
    (xs : List (Nat × Nat)) (hxs : xs.Nodup) (hin : ∀ x ∈ xs, x.1 < L.rows ∧ x.2 < L.cols) {k : Kb}
    {m' : ModKeys} (h : Mid cfg L i d p done inp m D xs k m') :
    let s := typeKeys cfg L i (downAfter (p ++ done)) (downAfter (p ++ (done ++ [inp]))) xs m'
    Kb.logKeys cfg L Kb.typedBy inp xs k = s.1 ∧ Kb.logKeys cfg L Kb.saidBy inp xs k = [] ∧
      Mid cfg L i d p done inp m D [] (xs.foldl (fun k x => k.key cfg L (sample inp x.1 x.2) x.1 x.2) k) s.2 := by
  induction xs generalizing k m' with
  | nil => exact ⟨rfl, rfl, h⟩
  | cons x xs ih =>
    obtain ⟨r, c⟩ := x
    obtain ⟨hx, hnd⟩ := List.nodup_cons.mp hxs
    obtain ⟨hr, hc⟩ := hin (r, c) List.mem_cons_self
    obtain ⟨h0, h1, h2, h3⟩ := Mid.key NS OK hb hr hc (hD r c hr hc).1 (hD r c hr hc).2 hx h
    have ih := fun {k : Kb} {m' : ModKeys} => ih hnd (fun y hy => hin y (List.mem_cons_of_mem _ hy))
      (k := k) (m' := m')
    show Kb.typedBy cfg L (sample inp r c) k r c ++ _ = _ ∧ Kb.saidBy cfg L (sample inp r c) k r c ++ _ = _ ∧ _
    rw [h0]
    unfold typeKeys
    dsimp only
    by_cases hba : downAfter (p ++ done) r c = downAfter (p ++ (done ++ [inp])) r c
    · obtain ⟨e1, e2⟩ := h1 hba
      obtain ⟨f1, f2, f3⟩ := ih e2
      rw [if_pos hba, e1]
      exact ⟨f1, f2, f3⟩
    · rw [if_neg hba]
      cases hm : isModCode (ModKeys.code cfg L i m' r c)
      · obtain ⟨e1, e2⟩ := h3 hba hm
        obtain ⟨f1, f2, f3⟩ := ih e2
        rw [e1]
        simp only [Bool.false_eq_true, if_false]
        refine ⟨?_, f2, f3⟩
        dsimp only at f1
        rw [f1]
        split <;> rfl
      · obtain ⟨e1, e2⟩ := h2 hba hm
        obtain ⟨f1, f2, f3⟩ := ih e2
        rw [e1, if_pos rfl]
        exact ⟨f1, f2, f3⟩

end scan

/-- Between two scans. -/
structure Ready (cfg : Config) (L : Layout) (i : UInt8) (d : Nat) (p done : List Input) (m : ModKeys) : Prop where
  map : (Kb.after cfg L (p ++ done)).map = i
  delay : (Kb.after cfg L (p ++ done)).rpt.delay = d
  mods : (Kb.after cfg L (p ++ done)).mods = m
  ok : ∀ r c, r < L.rows → c < L.cols → downAfter (p ++ done) r c = true →
    Functional cfg L i r c ∨ (m.code cfg L i r c).toNat < 0xA0
  hold : Holder cfg L i m d (Aged p done) (Kb.after cfg L (p ++ done))

theorem output_fields (k : Kb) : k.output.map = k.map ∧ k.output.rpt = k.rpt ∧ k.output.last = k.last ∧
    k.output.mods = k.mods := by
  unfold Kb.output
  split
  · exact ⟨rfl, rfl, rfl, rfl⟩
  · split <;> exact ⟨rfl, rfl, rfl, rfl⟩

/-- One scan. -/
theorem Ready.scan {p done rest : List Input} {inp : Input} {m : ModKeys}
    (h : Ready cfg L i d p done m)
    (NS : NeatScan cfg L i m (downAfter (p ++ done)) (downAfter (p ++ (done ++ [inp]))))
    (hb : Brief cfg L i d p (done ++ [inp] ++ rest)) :
    let s := typeKeys cfg L i (downAfter (p ++ done)) (downAfter (p ++ (done ++ [inp]))) (keysOf L) m
    (Kb.after cfg L (p ++ done)).logPass cfg L Kb.typedBy inp = s.1 ∧
      (Kb.after cfg L (p ++ done)).logPass cfg L Kb.saidBy inp = [] ∧
      Ready cfg L i d p (done ++ [inp]) s.2 := by
  intro s
  have hD : ∀ r c, r < L.rows → c < L.cols →
      ((Kb.after cfg L (p ++ done)).deb r c).on = downAfter (p ++ done) r c ∧
      (((Kb.after cfg L (p ++ done)).deb r c).step (sample inp r c)).on =
        downAfter (p ++ (done ++ [inp])) r c := by
    intro r c hr hc
    rw [after_deb cfg L _ hr hc]
    refine ⟨rfl, ?_⟩
    show _ = debounced _
    unfold debounced samplesOf
    rw [← List.append_assoc, List.map_append (l₁ := p ++ done), List.foldl_append]
    rfl
  obtain ⟨o1, o2, o3, o4⟩ := output_fields (Kb.after cfg L (p ++ done))
  have hmid : Mid cfg L i d p done inp m (Kb.after cfg L (p ++ done)).deb (keysOf L)
      (Kb.after cfg L (p ++ done)).output m := by
    refine ⟨o1.trans h.map, by rw [o2]; exact h.delay, o4.trans h.mods, fun x _ => by rw [output_deb],
      .inl rfl, ?_⟩
    rcases h.hold with e | ⟨r, c, n, h1, h2, h3, h4, h5, h6, h7⟩
    · exact .inl (o3.trans e)
    · refine .inr ⟨r, c, n, h1, h2, by rw [o3]; exact h3, by rw [o3]; exact h4, ?_, by rw [o2]; exact h6,
        by rw [o2]; exact h7⟩
      show if (r, c) ∈ keysOf L then _ else _
      rw [if_pos ((mem_keysOf L).mpr ⟨h1, h2⟩)]
      exact h5
  obtain ⟨f1, f2, f3⟩ := Mid.keys NS h.ok hb hD (keysOf L) (keysOf_nodup L)
    (fun x hx => (mem_keysOf L).mp hx) hmid
  have hafter : Kb.after cfg L (p ++ (done ++ [inp])) =
      (keysOf L).foldl (fun k x => k.key cfg L (sample inp x.1 x.2) x.1 x.2) (Kb.after cfg L (p ++ done)).output := by
    rw [← List.append_assoc, after_snoc]
    rfl
  rw [← hafter] at f3
  refine ⟨f1, f2, f3.map, f3.delay, f3.mods, fun r c hr hc ha => ?_, ?_⟩
  · rcases meaning NS h.ok f3.same hr hc (by rw [ha, Bool.or_true]) with e | ⟨e, e'⟩
    · exact .inl e
    · refine .inr ?_
      show (ModKeys.code cfg L i s.2 r c).toNat < 0xA0
      rw [show s.2 = m from e]
      exact e'
  · simpa using f3.hold

/-- The typist's text is what the abstract keyboard types; it prints nothing. -/
theorem Ready.text {p done more : List Input} {m : ModKeys} (h : Ready cfg L i d p done m)
    (hn : Neat cfg L i m (p ++ done) more) (hb : Brief cfg L i d p (done ++ more)) :
    (Kb.after cfg L (p ++ done)).log cfg L Kb.typedBy more = typist cfg L i m (p ++ done) more ∧
      (Kb.after cfg L (p ++ done)).log cfg L Kb.saidBy more = List.replicate more.length [] := by
  induction more generalizing done m with
  | nil => exact ⟨rfl, rfl⟩
  | cons inp more ih =>
    have ea : p ++ done ++ [inp] = p ++ (done ++ [inp]) := List.append_assoc _ _ _
    obtain ⟨n1, n2⟩ := hn
    rw [ea] at n1 n2
    have hb' : Brief cfg L i d p (done ++ [inp] ++ more) := by
      rw [List.append_assoc]; exact hb
    obtain ⟨s1, s2, s3⟩ := h.scan n1 hb'
    obtain ⟨t1, t2⟩ := ih s3 n2 hb'
    have hpass : (Kb.after cfg L (p ++ done)).pass cfg L inp = Kb.after cfg L (p ++ (done ++ [inp])) := by
      rw [← ea, after_snoc]
    show _ :: _ = _ :: _ ∧ _ :: _ = _ :: _
    rw [hpass, s1, s2, t1, t2, ea]
    exact ⟨rfl, rfl⟩

/-- The characters of one scan. -/
theorem typeKeys_lt {m : ModKeys} {b a : Down} (NS : NeatScan cfg L i m b a) (xs : List (Nat × Nat))
    (hin : ∀ x ∈ xs, x.1 < L.rows ∧ x.2 < L.cols) {m' : ModKeys}
    (hs : m' = m ∨ ∃ r c, r < L.rows ∧ c < L.cols ∧ b r c ≠ a r c ∧ IsModKey cfg L i r c) :
    ∀ y ∈ (typeKeys cfg L i b a xs m').1, y.toNat < 0xA0 := by
  induction xs generalizing m' with
  | nil => intro y hy; cases hy
  | cons x xs ih =>
    obtain ⟨hr, hc⟩ := hin x List.mem_cons_self
    have ih := fun {m' : ModKeys} => ih (fun y hy => hin y (List.mem_cons_of_mem _ hy)) (m' := m')
    intro y hy
    unfold typeKeys at hy
    dsimp only at hy
    by_cases hba : b x.1 x.2 = a x.1 x.2
    · rw [if_pos hba] at hy
      exact ih hs y hy
    · rw [if_neg hba] at hy
      have hd : (b x.1 x.2 || a x.1 x.2) = true := by
        revert hba
        cases b x.1 x.2 <;> cases a x.1 x.2 <;> simp
      rcases NS.known x.1 x.2 hr hc hba with e | e
      · obtain ⟨z, hz, e'⟩ := e
        rw [e' m', hz, if_pos rfl] at hy
        exact ih (.inr ⟨x.1, x.2, hr, hc, hba, ⟨z, hz, e'⟩⟩) y hy
      · have hm : m' = m := by
          rcases hs with h | ⟨r, c, h1, h2, h3, h4⟩
          · exact h
          · have := NS.apart r c h1 h2 h3 h4 x.1 x.2 hr hc hd m
            omega
        subst hm
        have hno : isModCode (ModKeys.code cfg L i m' x.1 x.2) = false := by
          simp only [isModCode, Bool.and_eq_false_iff, decide_eq_false_iff_not]
          omega
        rw [hno] at hy
        simp only [Bool.false_eq_true, if_false] at hy
        split at hy
        · rcases List.mem_cons.mp hy with rfl | hy
          · exact e
          · exact ih hs y hy
        · exact ih hs y hy

theorem typist_lt {m : ModKeys} {pre more : List Input} (h : Neat cfg L i m pre more) :
    ∀ u ∈ typist cfg L i m pre more, ∀ y ∈ u, y.toNat < 0xA0 := by
  induction more generalizing m pre with
  | nil => intro u hu; cases hu
  | cons inp more ih =>
    obtain ⟨h1, h2⟩ := h
    intro u hu
    rcases List.mem_cons.mp hu with rfl | hu
    · exact typeKeys_lt h1 _ (fun x hx => (mem_keysOf L).mp hx) (.inl rfl)
    · exact ih h2 u hu

theorem typist_length (m : ModKeys) (pre more : List Input) :
    (typist cfg L i m pre more).length = more.length := by
  induction more generalizing m pre with
  | nil => rfl
  | cons inp more ih => exact congrArg (· + 1) (ih _ _)

end Typist

end Asdf
