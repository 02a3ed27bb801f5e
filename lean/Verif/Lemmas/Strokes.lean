import Verif.Lemmas.Typist
import Verif.Spec.Strokes

/-! # Key strokes: phases in which the reading of the matrix does not change -/

namespace Asdf

open Spec

namespace Typist

variable {cfg : Config} {L : Layout} {i : UInt8} {d : Nat}

/-! ## The debouncer -/

theorem deb_short (s b : Bool) (n : Nat) (hn : n < 10) :
    (List.replicate n b).foldl Deb.step ⟨s, 10⟩ = if b = s then ⟨s, 10⟩ else ⟨s, 10 - n⟩ := by
  induction n with
  | zero => simp
  | succ n ih =>
    rw [List.replicate_succ', List.foldl_append, ih (by omega)]
    by_cases h : b = s
    · rw [if_pos h, if_pos h]
      simp [Deb.step, h]
    · rw [if_neg h, if_neg h]
      show Deb.step _ b = _
      unfold Deb.step
      rw [if_neg h, if_neg (by show ¬ (10 - n ≤ 1); omega)]
      show Deb.mk s (10 - n - 1) = _
      congr 1

theorem deb_same (b : Bool) (l n : Nat) : (List.replicate n b).foldl Deb.step ⟨b, l⟩ = ⟨b, l⟩ := by
  induction n with
  | zero => rfl
  | succ n ih =>
    rw [List.replicate_succ, List.foldl_cons]
    have : Deb.step ⟨b, l⟩ b = ⟨b, l⟩ := by simp [Deb.step]
    rw [this, ih]

theorem deb_long (s b : Bool) (n : Nat) (hn : 10 ≤ n) :
    (List.replicate n b).foldl Deb.step ⟨s, 10⟩ = ⟨b, 10⟩ := by
  by_cases h : b = s
  · rw [h, deb_same]
  · have e : n = 9 + (1 + (n - 10)) := by omega
    rw [e, ← List.replicate_append_replicate, List.foldl_append, deb_short s b 9 (by omega), if_neg h,
      ← List.replicate_append_replicate, List.foldl_append]
    have : (List.replicate 1 b).foldl Deb.step ⟨s, 10 - 9⟩ = ⟨b, 10⟩ := by
      show Deb.step _ b = _
      unfold Deb.step
      rw [if_neg h, if_pos (Nat.le_refl 1)]
    rw [this, deb_same]

/-- A key that is closed once. -/
theorem deb_pulse (A B C j : Nat) (hj : j ≤ A + B + C)
    (h : (((List.replicate A false ++ List.replicate B true ++ List.replicate C false).take j).foldl
      Deb.step ⟨false, 10⟩).on = true) : A + 10 ≤ j ∧ j < A + B + 10 := by
  rw [List.take_append, List.take_append, List.foldl_append, List.foldl_append] at h
  simp only [List.take_replicate, List.length_append, List.length_replicate, deb_same] at h
  by_cases h1 : min (j - A) B < 10
  · exfalso
    rw [deb_short _ _ _ h1, if_neg (by decide), deb_same] at h
    cases h
  · rw [deb_long _ _ _ (by omega)] at h
    by_cases h2 : min (j - (A + B)) C < 10
    · omega
    · rw [deb_long _ _ _ (by omega)] at h
      cases h

/-- The debounced state of the keys, none of which is about to change. -/
def Settled (L : Layout) (pre : List Input) (S : Down) : Prop :=
  ∀ r c, r < L.rows → c < L.cols → (samplesOf pre r c).foldl Deb.step Deb.init = ⟨S r c, 10⟩

/-- An input with these keys closed. -/
def Reads (L : Layout) (R : Input) (S : Down) : Prop := ∀ r c, r < L.rows → c < L.cols → sample R r c = S r c

theorem samples_append (u v : List Input) (r c : Nat) :
    samplesOf (u ++ v) r c = samplesOf u r c ++ samplesOf v r c := List.map_append

theorem samples_replicate (n : Nat) (R : Input) (r c : Nat) :
    samplesOf (List.replicate n R) r c = List.replicate n (sample R r c) := List.map_replicate

theorem Settled.during {pre : List Input} {S S' : Down} {R : Input} (h : Settled L pre S) (hR : Reads L R S')
    (n : Nat) {r c : Nat} (hr : r < L.rows) (hc : c < L.cols) :
    downAfter (pre ++ List.replicate n R) r c = if n < 10 then S r c else S' r c := by
  unfold downAfter debounced
  rw [samples_append, List.foldl_append, h r c hr hc, samples_replicate, hR r c hr hc]
  by_cases hn : n < 10
  · rw [if_pos hn, deb_short _ _ _ hn]
    split <;> rfl
  · rw [if_neg hn, deb_long _ _ _ (by omega)]

theorem Settled.next {pre : List Input} {S S' : Down} {R : Input} (h : Settled L pre S) (hR : Reads L R S')
    {n : Nat} (hn : 10 ≤ n) : Settled L (pre ++ List.replicate n R) S' := by
  intro r c hr hc
  rw [samples_append, List.foldl_append, h r c hr hc, samples_replicate, hR r c hr hc, deb_long _ _ _ hn]

theorem Settled.stay {pre : List Input} {S : Down} {R : Input} (h : Settled L pre S) (hR : Reads L R S)
    (n : Nat) : Settled L (pre ++ List.replicate n R) S := by
  intro r c hr hc
  rw [samples_append, List.foldl_append, h r c hr hc, samples_replicate, hR r c hr hc, deb_same]

/-! ## The typist, phase by phase -/

/-- The modifiers at the end. -/
def modsAt (cfg : Config) (L : Layout) (i : UInt8) : ModKeys → List Input → List Input → ModKeys
  | m, _, [] => m
  | m, pre, inp :: more =>
    modsAt cfg L i (typeKeys cfg L i (downAfter pre) (downAfter (pre ++ [inp])) (keysOf L) m).2 (pre ++ [inp]) more

theorem typist_append (m : ModKeys) (pre u v : List Input) :
    typist cfg L i m pre (u ++ v) = typist cfg L i m pre u ++ typist cfg L i (modsAt cfg L i m pre u) (pre ++ u) v := by
  induction u generalizing m pre with
  | nil => rw [List.append_nil]; rfl
  | cons x u ih =>
    have e := ih (typeKeys cfg L i (downAfter pre) (downAfter (pre ++ [x])) (keysOf L) m).2 (pre ++ [x])
    rw [List.append_assoc pre] at e
    exact congrArg (List.cons _) e

theorem modsAt_append (m : ModKeys) (pre u v : List Input) :
    modsAt cfg L i m pre (u ++ v) = modsAt cfg L i (modsAt cfg L i m pre u) (pre ++ u) v := by
  induction u generalizing m pre with
  | nil => rw [List.append_nil]; rfl
  | cons x u ih =>
    show modsAt cfg L i _ _ (u ++ v) = _
    rw [ih, List.append_assoc pre]
    rfl

theorem neat_append (m : ModKeys) (pre u v : List Input) :
    Neat cfg L i m pre (u ++ v) ↔ Neat cfg L i m pre u ∧ Neat cfg L i (modsAt cfg L i m pre u) (pre ++ u) v := by
  induction u generalizing m pre with
  | nil => rw [List.append_nil]; exact ⟨fun h => ⟨trivial, h⟩, fun h => h.2⟩
  | cons x u ih =>
    have e := ih (typeKeys cfg L i (downAfter pre) (downAfter (pre ++ [x])) (keysOf L) m).2 (pre ++ [x])
    rw [List.append_assoc pre] at e
    exact (and_congr_right' e).trans and_assoc.symm

theorem typeKeys_congr {b b' a a' : Down} (xs : List (Nat × Nat))
    (h : ∀ x ∈ xs, b x.1 x.2 = b' x.1 x.2 ∧ a x.1 x.2 = a' x.1 x.2) (m : ModKeys) :
    typeKeys cfg L i b a xs m = typeKeys cfg L i b' a' xs m := by
  induction xs generalizing m with
  | nil => rfl
  | cons x xs ih =>
    have ih := ih fun y hy => h y (List.mem_cons_of_mem _ hy)
    obtain ⟨h1, h2⟩ := h x List.mem_cons_self
    unfold typeKeys
    dsimp only
    rw [h1, h2, ih, ih]

theorem typeKeys_same {b a : Down} (xs : List (Nat × Nat)) (h : ∀ x ∈ xs, b x.1 x.2 = a x.1 x.2) (m : ModKeys) :
    typeKeys cfg L i b a xs m = ([], m) := by
  induction xs with
  | nil => rfl
  | cons x xs ih =>
    unfold typeKeys
    dsimp only
    rw [if_pos (h x List.mem_cons_self), ih fun y hy => h y (List.mem_cons_of_mem _ hy)]

/-- One key changes. -/
theorem typeKeys_one {b a : Down} {z : Nat × Nat} (xs : List (Nat × Nat)) (hxs : xs.Nodup) (hz : z ∈ xs)
    (h : ∀ x ∈ xs, x ≠ z → b x.1 x.2 = a x.1 x.2) (hne : b z.1 z.2 ≠ a z.1 z.2) (m : ModKeys) :
    typeKeys cfg L i b a xs m =
      if isModCode (m.code cfg L i z.1 z.2) then ([], m.event (m.code cfg L i z.1 z.2) (a z.1 z.2))
      else (if a z.1 z.2 then [m.code cfg L i z.1 z.2] else [], m) := by
  induction xs with
  | nil => cases hz
  | cons x xs ih =>
    obtain ⟨hx, hnd⟩ := List.nodup_cons.mp hxs
    have ih := ih hnd
    unfold typeKeys
    dsimp only
    by_cases hxz : x = z
    · subst hxz
      have hs : ∀ m', typeKeys cfg L i b a xs m' = ([], m') := typeKeys_same xs fun y hy =>
        h y (List.mem_cons_of_mem _ hy) (fun e => hx (e ▸ hy))
      rw [if_neg hne, hs, hs]
    · rw [if_pos (h x List.mem_cons_self hxz)]
      refine ih ?_ fun y hy => h y (List.mem_cons_of_mem _ hy)
      rcases List.mem_cons.mp hz with e | e
      · exact absurd e.symm hxz
      · exact e

theorem neatScan_congr {m : ModKeys} {b b' a a' : Down}
    (h : ∀ r c, r < L.rows → c < L.cols → b r c = b' r c ∧ a r c = a' r c)
    (N : NeatScan cfg L i m b' a') : NeatScan cfg L i m b a := by
  constructor
  · intro r c hr hc hne
    rw [(h r c hr hc).1, (h r c hr hc).2] at hne
    exact N.known r c hr hc hne
  · intro r c hr hc hne hm r' c' hr' hc' hd
    rw [(h r c hr hc).1, (h r c hr hc).2] at hne
    rw [(h r' c' hr' hc').1, (h r' c' hr' hc').2] at hd
    exact N.apart r c hr hc hne hm r' c' hr' hc' hd
  · intro r c r' c' hr hc hr' hc' hd hd'
    rw [(h r c hr hc).1, (h r c hr hc).2] at hd
    rw [(h r' c' hr' hc').1, (h r' c' hr' hc').2] at hd'
    exact N.distinct r c r' c' hr hc hr' hc' hd hd'

/-- At most one key with a character is down. -/
def Single (cfg : Config) (L : Layout) (i : UInt8) (z : Nat × Nat) (S : Down) : Prop :=
  ∀ r c, r < L.rows → c < L.cols → S r c = true → (r, c) = z ∨ Functional cfg L i r c

theorem Single.distinct {z : Nat × Nat} {S : Down} (h : Single cfg L i z S) (m : ModKeys) {r c r' c' : Nat}
    (hr : r < L.rows) (hc : c < L.cols) (hr' : r' < L.rows) (hc' : c' < L.cols) (h1 : S r c = true)
    (h2 : S r' c' = true) (hlt : (m.code cfg L i r c).toNat < 0xA0)
    (he : m.code cfg L i r c = m.code cfg L i r' c') : r = r' ∧ c = c' := by
  rcases h r c hr hc h1 with e | e
  · rcases h r' c' hr' hc' h2 with e' | e'
    · rw [← e'] at e
      injection e with e1 e2
      exact ⟨e1, e2⟩
    · have := e' m
      rw [← he] at this
      omega
  · have := e m
    omega

theorem neat_still {z : Nat × Nat} {S : Down} (h : Single cfg L i z S) (m : ModKeys) :
    NeatScan cfg L i m S S := by
  refine ⟨fun r c _ _ hne => absurd rfl hne, fun r c _ _ hne => absurd rfl hne, ?_⟩
  intro r c r' c' hr hc hr' hc' h1 h2
  rw [Bool.or_self] at h1 h2
  exact h.distinct m hr hc hr' hc' h1 h2

/-- A key with a character is pressed or released. -/
theorem neat_char {z : Nat × Nat} {b a : Down} {m : ModKeys} (hz : (m.code cfg L i z.1 z.2).toNat < 0xA0)
    (h : ∀ r c, r < L.rows → c < L.cols → b r c ≠ a r c → (r, c) = z)
    (hs : Single cfg L i z (fun r c => b r c || a r c)) : NeatScan cfg L i m b a := by
  refine ⟨fun r c hr hc hne => ?_, fun r c hr hc hne hm => ?_, ?_⟩
  · have := h r c hr hc hne
    subst this
    exact .inr hz
  · have := h r c hr hc hne
    subst this
    have hf := modKey_functional hm m
    dsimp only at hz
    omega
  · intro r c r' c' hr hc hr' hc' h1 h2
    exact hs.distinct m hr hc hr' hc' h1 h2

/-- A modifier key is pressed or released. -/
theorem neat_mod {z : Nat × Nat} {b a : Down} {m : ModKeys} (hz : IsModKey cfg L i z.1 z.2)
    (h : ∀ r c, r < L.rows → c < L.cols → b r c ≠ a r c → (r, c) = z)
    (hf : ∀ r c, r < L.rows → c < L.cols → (b r c || a r c) = true → Functional cfg L i r c) :
    NeatScan cfg L i m b a := by
  refine ⟨fun r c hr hc hne => ?_, fun r c hr hc hne hm r' c' hr' hc' hd => hf r' c' hr' hc' hd, ?_⟩
  · have := h r c hr hc hne
    subst this
    exact .inl hz
  · intro r c r' c' hr hc hr' hc' h1 _ hlt
    have := hf r c hr hc h1 m
    omega

/-- Nothing changes. -/
theorem still {S : Down} {m : ModKeys} (hS : NeatScan cfg L i m S S) (R : Input) (n : Nat) (pre : List Input) (h : ∀ j, j ≤ n → ∀ r c, r < L.rows → c < L.cols →
      downAfter (pre ++ List.replicate j R) r c = S r c) :
    typist cfg L i m pre (List.replicate n R) = List.replicate n [] ∧
      modsAt cfg L i m pre (List.replicate n R) = m ∧ Neat cfg L i m pre (List.replicate n R) := by
  induction n generalizing pre with
  | zero => exact ⟨rfl, rfl, trivial⟩
  | succ n ih =>
    have h0 : ∀ r c, r < L.rows → c < L.cols → downAfter pre r c = S r c := by
      intro r c hr hc
      have := h 0 (by omega) r c hr hc
      rwa [List.replicate_zero, List.append_nil] at this
    have h1 : ∀ r c, r < L.rows → c < L.cols → downAfter (pre ++ [R]) r c = S r c := h 1 (by omega)
    have ht : typeKeys cfg L i (downAfter pre) (downAfter (pre ++ [R])) (keysOf L) m = ([], m) := by
      refine typeKeys_same _ (fun x hx => ?_) m
      obtain ⟨hr, hc⟩ := (mem_keysOf L).mp hx
      rw [h0 _ _ hr hc, h1 _ _ hr hc]
    obtain ⟨i1, i2, i3⟩ := ih (pre ++ [R]) (fun j hj r c hr hc => by
      have := h (j + 1) (by omega) r c hr hc
      rwa [List.replicate_succ, ← List.singleton_append, ← List.append_assoc] at this)
    rw [List.replicate_succ, List.replicate_succ]
    unfold typist modsAt Neat
    dsimp only
    rw [ht]
    exact ⟨by rw [i1], i2, neatScan_congr (fun r c hr hc => ⟨h0 r c hr hc, h1 r c hr hc⟩) hS, i3⟩

/-- One phase of ten readings or more. -/
theorem phase {S S' : Down} {m : ModKeys} {t : List Code × ModKeys} (hS : NeatScan cfg L i m S S)
    (hS' : NeatScan cfg L i t.2 S' S') {R : Input} {pre : List Input} (h : Settled L pre S) (hR : Reads L R S')
    (hN : NeatScan cfg L i m S S') {n : Nat} (hn : 10 ≤ n) (ht : typeKeys cfg L i S S' (keysOf L) m = t) :
    typist cfg L i m pre (List.replicate n R) =
      List.replicate 9 [] ++ [t.1] ++ List.replicate (n - 10) [] ∧
    modsAt cfg L i m pre (List.replicate n R) = t.2 ∧ Neat cfg L i m pre (List.replicate n R) := by
  have e : List.replicate n R = List.replicate 9 R ++ ([R] ++ List.replicate (n - 10) R) := by
    rw [show [R] = List.replicate 1 R from rfl, List.replicate_append_replicate,
      List.replicate_append_replicate]
    congr 1
    omega
  obtain ⟨a1, a2, a3⟩ := still hS R 9 pre (fun j hj r c hr hc => by
    rw [h.during hR j hr hc, if_pos (by omega)])
  have e9 : pre ++ List.replicate 9 R ++ [R] = pre ++ List.replicate 10 R := by
    rw [show [R] = List.replicate 1 R from rfl, List.append_assoc, List.replicate_append_replicate]
  obtain ⟨b1, b2, b3⟩ := still hS' R (n - 10) (pre ++ List.replicate 10 R) (fun j hj r c hr hc => by
    rw [List.append_assoc, List.replicate_append_replicate, h.during hR _ hr hc, if_neg (by omega)])
  have hd : ∀ r c, r < L.rows → c < L.cols → downAfter (pre ++ List.replicate 9 R) r c = S r c ∧
      downAfter (pre ++ List.replicate 9 R ++ [R]) r c = S' r c := by
    intro r c hr hc
    rw [e9, h.during hR _ hr hc, h.during hR _ hr hc]
    exact ⟨rfl, rfl⟩
  have ht' : typeKeys cfg L i (downAfter (pre ++ List.replicate 9 R)) (downAfter (pre ++ List.replicate 9 R ++ [R]))
      (keysOf L) m = t := by
    rw [← ht]
    refine typeKeys_congr _ (fun x hx => ?_) m
    obtain ⟨hr, hc⟩ := (mem_keysOf L).mp hx
    exact hd _ _ hr hc
  rw [e, typist_append, modsAt_append, neat_append, typist_append, modsAt_append, neat_append, a1, a2]
  have t1 : typist cfg L i m (pre ++ List.replicate 9 R) [R] = [t.1] := by
    unfold typist
    dsimp only
    rw [ht']
    rfl
  have t2 : modsAt cfg L i m (pre ++ List.replicate 9 R) [R] = t.2 := by
    unfold modsAt
    rw [ht']
    rfl
  rw [t1, t2, e9, b1, b2, List.append_assoc]
  refine ⟨rfl, rfl, a3, ?_, b3⟩
  exact ⟨neatScan_congr hd hN, trivial⟩

/-! ## Keys that are held briefly, and the end of a text -/

theorem brief_of_pulse {pre more : List Input} {S : Down} (h : Settled L pre S)
    (hp : ∀ r c, r < L.rows → c < L.cols → ¬ Functional cfg L i r c → S r c = false ∧
      ∃ A B C, B ≤ d ∧ samplesOf more r c =
        List.replicate A false ++ List.replicate B true ++ List.replicate C false) :
    Brief cfg L i d pre more := by
  intro r c hr hc hf hd u v w e hl
  obtain ⟨h0, A, B, C, hB, hs⟩ := hp r c hr hc hf
  have key : ∀ x y, more = x ++ y → downAfter (pre ++ x) r c = true → A + 10 ≤ x.length ∧ x.length < A + B + 10 := by
    intro x y exy hdn
    have hx : samplesOf x r c = (samplesOf more r c).take x.length := by
      rw [exy, samples_append, List.take_left' (by rw [samplesOf, List.length_map])]
    have hlen : (samplesOf more r c).length = A + B + C := by rw [hs]; simp [Nat.add_assoc]
    rw [samplesOf, List.length_map, exy, List.length_append] at hlen
    refine deb_pulse A B C x.length (by omega) ?_
    unfold downAfter debounced at hdn
    rw [samples_append, List.foldl_append, h r c hr hc, h0, hx, hs] at hdn
    exact hdn
  cases h1 : downAfter (pre ++ u ++ []) r c
  · exact ⟨[], v, rfl, h1⟩
  · cases h2 : downAfter (pre ++ u ++ v) r c
    · exact ⟨v, [], (List.append_nil v).symm, h2⟩
    · exfalso
      have k1 := key u (v ++ w) (by rw [e, List.append_assoc]) (by rw [List.append_nil] at h1; exact h1)
      have k2 := key (u ++ v) w e (by rw [← List.append_assoc]; exact h2)
      rw [List.length_append] at k2
      omega

theorem Ready.ends {p done more : List Input} {m : ModKeys} (h : Ready cfg L i d p done m)
    (hn : Neat cfg L i m (p ++ done) more) (hb : Brief cfg L i d p (done ++ more)) :
    Ready cfg L i d p (done ++ more) (modsAt cfg L i m (p ++ done) more) := by
  induction more generalizing done m with
  | nil => rw [List.append_nil]; exact h
  | cons inp more ih =>
    have ea : p ++ done ++ [inp] = p ++ (done ++ [inp]) := List.append_assoc _ _ _
    obtain ⟨n1, n2⟩ := hn
    rw [ea] at n1 n2
    have eb : done ++ inp :: more = done ++ [inp] ++ more := by
      rw [List.append_assoc]; rfl
    rw [eb] at hb ⊢
    obtain ⟨_, _, s3⟩ := h.scan n1 hb
    have := ih s3 n2 hb
    unfold modsAt
    rw [ea]
    exact this

/-- When no key with a character is down, no code is due for repetition. -/
theorem Ready.last {p done : List Input} {m : ModKeys} (h : Ready cfg L i d p done m)
    (hf : ∀ r c, r < L.rows → c < L.cols → downAfter (p ++ done) r c = true → Functional cfg L i r c) :
    (Kb.after cfg L (p ++ done)).last = 0xA0 := by
  rcases h.hold with e | ⟨r, c, n, h1, h2, h3, h4, h5, _⟩
  · exact e
  · have := hf r c h1 h2 h5.down m
    rw [h3] at this
    omega

end Typist

end Asdf
