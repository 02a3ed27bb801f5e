import Verif.Lemmas.Holds
import Verif.Lemmas.Movers
import Verif.Spec.Repeats

/-! # One key is held and repeats: the abstract keyboard -/

namespace Asdf

open Spec

namespace Repeats

open Typist Loose Movers Holds

variable {cfg : Config} {L : Layout}

/-! ## The delay -/

theorem key_delay {k : Kb} {s : Bool} {r c : Nat} (h : ((k.deb r c).step s).on = (k.deb r c).on) :
    (k.key cfg L s r c).rpt.delay = k.rpt.delay := by
  unfold Kb.key
  by_cases hp : s ≠ (k.deb r c).on
  · have hl : ¬ (k.deb r c).left ≤ 1 := by
      intro hl
      unfold Deb.step at h
      rw [if_neg hp, if_pos hl] at h
      exact hp h
    rw [if_pos hp, if_neg hl]
  · rw [if_neg hp]
    split
    · split
      · show (if k.last = k.last then k.rpt.tick else k.rpt.tick.restart).delay = _
        rw [if_pos rfl]
        rfl
      · rfl
    · rfl

theorem keys_delay {inp : Input} (xs : List (Nat × Nat)) (hn : xs.Nodup) {k : Kb}
    (h : ∀ y ∈ xs, ((k.deb y.1 y.2).step (sample inp y.1 y.2)).on = (k.deb y.1 y.2).on) :
    (xs.foldl (fun k y => k.key cfg L (sample inp y.1 y.2) y.1 y.2) k).rpt.delay = k.rpt.delay := by
  induction xs generalizing k with
  | nil => rfl
  | cons y xs ih =>
    obtain ⟨n1, n2⟩ := List.nodup_cons.mp hn
    rw [List.foldl_cons, ih n2 fun z hz => ?_]
    · exact key_delay (h y List.mem_cons_self)
    · rw [key_deb, if_neg]
      · exact h z (List.mem_cons_of_mem _ hz)
      · rintro ⟨e1, e2⟩
        exact n1 (by rw [← Prod.ext e1 e2]; exact hz)

/-! ## Parts of a scan -/

theorem logKeys_append (f : Config → Layout → Bool → Kb → Nat → Nat → List Code) (inp : Input) (xs ys : List (Nat × Nat)) (k : Kb) :
    Kb.logKeys cfg L f inp (xs ++ ys) k = Kb.logKeys cfg L f inp xs k ++
      Kb.logKeys cfg L f inp ys (xs.foldl (fun k y => k.key cfg L (sample inp y.1 y.2) y.1 y.2) k) := by
  induction xs generalizing k with
  | nil => rfl
  | cons x xs ih =>
    show _ ++ Kb.logKeys cfg L f inp (xs ++ ys) _ = (_ ++ _) ++ _
    rw [ih, List.append_assoc]
    rfl

theorem keys_deb {inp : Input} (xs : List (Nat × Nat)) {k : Kb} {z : Nat × Nat} (hz : z ∉ xs) :
    (xs.foldl (fun k y => k.key cfg L (sample inp y.1 y.2) y.1 y.2) k).deb z.1 z.2 = k.deb z.1 z.2 := by
  induction xs generalizing k with
  | nil => rfl
  | cons y xs ih =>
    rw [List.foldl_cons, ih fun h => hz (List.mem_cons_of_mem _ h), key_deb, if_neg]
    rintro ⟨e1, e2⟩
    exact hz (by rw [show z = y from Prod.ext e1 e2]; exact List.mem_cons_self)

/-- Keys that neither move nor have the code that repeats. -/
theorem keys_quiet {inp : Input} (xs : List (Nat × Nat)) (hn : xs.Nodup) {k : Kb}
    (h : ∀ y ∈ xs, ((k.deb y.1 y.2).step (sample inp y.1 y.2)).on = (k.deb y.1 y.2).on)
    (hq : ∀ y ∈ xs, (k.deb y.1 y.2).on = true → k.code cfg L y.1 y.2 ≠ k.last) :
    let k' := xs.foldl (fun k y => k.key cfg L (sample inp y.1 y.2) y.1 y.2) k
    Same k k' ∧ k'.rpt.left = k.rpt.left ∧ k'.rpt.delay = k.rpt.delay ∧
      Kb.logKeys cfg L Kb.typedBy inp xs k = [] ∧ Kb.logKeys cfg L Kb.saidBy inp xs k = [] := by
  intro k'
  obtain ⟨h1, h2, h3⟩ := keys_hold (cfg := cfg) (L := L) (inp := inp) (fun r c => (k.deb r c).on)
    (fun r c => k.code cfg L r c) k.last xs hn rfl (fun _ _ => rfl) (fun _ _ => rfl) h
  have h0 : xs.countP (fun y => (k.deb y.1 y.2).on && sample inp y.1 y.2 && decide (k.code cfg L y.1 y.2 = k.last)) = 0 := by
    rw [List.countP_eq_zero]
    intro y hy e
    simp only [Bool.and_eq_true, decide_eq_true_eq] at e
    exact hq y hy e.1.1 e.2
  rw [h0, leftAfter_zero] at h2
  rw [h0, repsIn_zero] at h3
  exact ⟨h1, h2, keys_delay xs hn h, h3, keys_silent xs hn h⟩

/-! ## A scan in which one key is pressed or released -/

/-- In this scan the key `z` is pressed or released, and nothing else. -/
structure OneScan (L : Layout) (pre : List Input) (inp : Input) (z : Nat × Nat) : Prop where
  here : z ∈ keysOf L
  turn : downAfter (pre ++ [inp]) z.1 z.2 = !downAfter pre z.1 z.2
  same : ∀ y ∈ keysOf L, y ≠ z → downAfter (pre ++ [inp]) y.1 y.2 = downAfter pre y.1 y.2

theorem step_eq (pre : List Input) (inp : Input) {y : Nat × Nat} (hy : y ∈ keysOf L) :
    ((Kb.after cfg L pre).output.deb y.1 y.2).on = downAfter pre y.1 y.2 ∧
    (((Kb.after cfg L pre).output.deb y.1 y.2).step (sample inp y.1 y.2)).on = downAfter (pre ++ [inp]) y.1 y.2 := by
  obtain ⟨hr, hc⟩ := (mem_keysOf L).mp hy
  rw [output_deb]
  refine ⟨down_eq pre hr hc, ?_⟩
  rw [after_deb cfg L _ hr hc]
  unfold downAfter debounced samplesOf
  rw [List.map_append, List.foldl_append]
  rfl

theorem key_turn {k : Kb} {s : Bool} {r c : Nat} (h : ((k.deb r c).step s).on = !(k.deb r c).on) :
    s = (!(k.deb r c).on) ∧ (k.deb r c).left ≤ 1 := by
  unfold Deb.step at h
  by_cases hp : s = (k.deb r c).on
  · rw [if_pos hp] at h
    cases e : (k.deb r c).on <;> rw [e] at h <;> cases h
  · rw [if_neg hp] at h
    split at h
    · exact ⟨h, by assumption⟩
    · cases e : (k.deb r c).on <;> rw [e] at h <;> cases h

/-- A key with a character is pressed while nothing repeats. -/
theorem press_scan {pre : List Input} {inp : Input} {z : Nat × Nat} (h : OneScan L pre inp z)
    (hup : downAfter pre z.1 z.2 = false) {x : Code} (hx : (Kb.after cfg L pre).code cfg L z.1 z.2 = x)
    (hlt : x.toNat < 0xA0) (hl : (Kb.after cfg L pre).last = 0xA0)
    (hq : ∀ y ∈ keysOf L, downAfter pre y.1 y.2 = true → (Kb.after cfg L pre).code cfg L y.1 y.2 ≠ 0xA0)
    (hq' : ∀ y ∈ keysOf L, downAfter pre y.1 y.2 = true → (Kb.after cfg L pre).code cfg L y.1 y.2 ≠ x) :
    let k := Kb.after cfg L pre
    let k' := Kb.after cfg L (pre ++ [inp])
    k'.map = k.map ∧ k'.mods = k.mods ∧ k'.last = x ∧ k'.rpt.left = k.rpt.delay ∧ k'.rpt.delay = k.rpt.delay ∧
      k.logPass cfg L Kb.typedBy inp = [x] ∧ k.logPass cfg L Kb.saidBy inp = [] := by
  intro k k'
  obtain ⟨o1, o2⟩ := output_same k
  obtain ⟨A, B, hAB⟩ := List.append_of_mem h.here
  have hnd := keysOf_nodup L
  rw [hAB] at hnd
  obtain ⟨nA, nzB, hdis⟩ := List.nodup_append.mp hnd
  obtain ⟨nz, nB⟩ := List.nodup_cons.mp nzB
  have hzA : z ∉ A := fun e => hdis z e z List.mem_cons_self rfl
  have inA : ∀ y ∈ A, y ∈ keysOf L ∧ y ≠ z := fun y hy =>
    ⟨by rw [hAB]; exact List.mem_append_left _ hy, fun e => hzA (e ▸ hy)⟩
  have inB : ∀ y ∈ B, y ∈ keysOf L ∧ y ≠ z ∧ y ∉ A := fun y hy =>
    ⟨by rw [hAB]; exact List.mem_append_right _ (List.mem_cons_of_mem _ hy), fun e => nz (e ▸ hy),
      fun e => hdis y e y (List.mem_cons_of_mem _ hy) rfl⟩
  have hcode : ∀ r c, k.output.code cfg L r c = k.code cfg L r c := fun r c => o1.code r c
  have hstill : ∀ y ∈ keysOf L, y ≠ z →
      ((k.output.deb y.1 y.2).step (sample inp y.1 y.2)).on = (k.output.deb y.1 y.2).on := by
    intro y hy e
    obtain ⟨s1, s2⟩ := step_eq (cfg := cfg) pre inp hy
    rw [s2, s1, h.same y hy e]
  -- the keys before
  obtain ⟨a1, a2, a3, a4, a5⟩ := keys_quiet (cfg := cfg) (L := L) (inp := inp) A nA (k := k.output)
    (fun y hy => hstill y (inA y hy).1 (inA y hy).2) (fun y hy hd => by
      rw [hcode, o1.last, hl]
      rw [(step_eq (cfg := cfg) pre inp (inA y hy).1).1] at hd
      exact hq y (inA y hy).1 hd)
  have a1' := o1.trans a1
  have hdA : ∀ y, y ∉ A → (A.foldl (fun k y => k.key cfg L (sample inp y.1 y.2) y.1 y.2) k.output).deb y.1 y.2 =
    k.output.deb y.1 y.2 := fun y hy => keys_deb A hy
  generalize hkA : A.foldl (fun k y => k.key cfg L (sample inp y.1 y.2) y.1 y.2) k.output = kA at *
  -- the key
  obtain ⟨z1, z2⟩ := step_eq (cfg := cfg) pre inp h.here
  have hzd := hdA z hzA
  have hon : (kA.deb z.1 z.2).on = false := by rw [hzd, z1, hup]
  obtain ⟨t1, t2⟩ := key_turn (k := kA) (s := sample inp z.1 z.2) (r := z.1) (c := z.2)
    (by rw [hzd, z2, z1, h.turn])
  rw [hon] at t1
  have t1 : sample inp z.1 z.2 = true := t1
  have hcz : kA.code cfg L z.1 z.2 = x := (a1'.code z.1 z.2).trans hx
  have hlA : kA.last = 0xA0 := a1'.last.trans hl
  have hkz : kA.key cfg L (sample inp z.1 z.2) z.1 z.2 = (stepDeb kA true z.1 z.2).type x := by
    unfold Kb.key
    rw [t1, hon, if_pos (by decide), if_pos t2, if_pos rfl, hcz]
    exact press_code cfg _ x (Nat.le_of_lt hlt)
  have hne : kA.last ≠ x := by
    rw [hlA]
    intro e
    rw [← e] at hlt
    exact absurd hlt (by decide)
  have hty : kA.typedBy cfg L (sample inp z.1 z.2) z.1 z.2 = [x] := by
    unfold Kb.typedBy
    rw [t1, hon, if_pos (by decide), hcz, if_pos ⟨rfl, t2, Nat.le_of_lt hlt⟩]
  have hsa : kA.saidBy cfg L (sample inp z.1 z.2) z.1 z.2 = [] := by
    unfold Kb.saidBy
    rw [t1, hon, hcz]
    rw [if_pos ⟨rfl, rfl, t2⟩, if_neg (by omega), if_neg (by omega)]
  have hkd : ∀ y, y ≠ z → (kA.key cfg L (sample inp z.1 z.2) z.1 z.2).deb y.1 y.2 = kA.deb y.1 y.2 := by
    intro y hy
    rw [key_deb, if_neg]
    rintro ⟨e1, e2⟩
    exact hy (Prod.ext e1 e2)
  -- the keys after
  have hz1 : (kA.key cfg L (sample inp z.1 z.2) z.1 z.2).map = k.map := by rw [hkz]; exact a1'.map
  have hz2 : (kA.key cfg L (sample inp z.1 z.2) z.1 z.2).mods = k.mods := by rw [hkz]; exact a1'.mods
  have hz3 : (kA.key cfg L (sample inp z.1 z.2) z.1 z.2).last = x := by rw [hkz]; rfl
  have hz4 : (kA.key cfg L (sample inp z.1 z.2) z.1 z.2).rpt = kA.rpt.restart := by
    rw [hkz]
    show (if kA.last = x then kA.rpt else kA.rpt.restart) = _
    rw [if_neg hne]
  generalize hkZ : kA.key cfg L (sample inp z.1 z.2) z.1 z.2 = kZ at *
  have hcZ : ∀ r c, kZ.code cfg L r c = k.code cfg L r c := fun r c => by
    rw [code_eq hz1, hz2, code_eq rfl]
  have hdB : ∀ y ∈ B, kZ.deb y.1 y.2 = k.output.deb y.1 y.2 := fun y hy => by
    rw [hkd y (inB y hy).2.1, hdA y (inB y hy).2.2]
  obtain ⟨b1, b2, b3, b4, b5⟩ := keys_quiet (cfg := cfg) (L := L) (inp := inp) B nB (k := kZ)
    (fun y hy => by rw [hdB y hy]; exact hstill y (inB y hy).1 (inB y hy).2.1) (fun y hy hd => by
      rw [hcZ, hz3]
      rw [hdB y hy, (step_eq (cfg := cfg) pre inp (inB y hy).1).1] at hd
      exact hq' y (inB y hy).1 hd)
  have hk' : k' = B.foldl (fun k y => k.key cfg L (sample inp y.1 y.2) y.1 y.2) kZ := by
    show Kb.after cfg L (pre ++ [inp]) = _
    rw [after_snoc]
    unfold Kb.pass
    rw [hAB, List.foldl_append, List.foldl_cons, hkA, hkZ]
  rw [hk']
  refine ⟨b1.map.trans hz1, b1.mods.trans hz2, b1.last.trans hz3, ?_, ?_, ?_, ?_⟩
  · rw [b2, hz4]
    show kA.rpt.delay = _
    rw [a3, o2]
  · rw [b3, hz4]
    show kA.rpt.delay = _
    rw [a3, o2]
  · show Kb.logKeys _ _ _ _ _ _ = _
    rw [hAB, logKeys_append, a4, hkA]
    show [] ++ (_ ++ _) = _
    rw [hty, hkZ, b4]
    rfl
  · show Kb.logKeys _ _ _ _ _ _ = _
    rw [hAB, logKeys_append, a5, hkA]
    show [] ++ (_ ++ _) = _
    rw [hsa, hkZ, b5]
    rfl

/-- The key that repeats is released. -/
theorem release_scan {pre : List Input} {inp : Input} {z : Nat × Nat} (h : OneScan L pre inp z)
    (hdown : downAfter pre z.1 z.2 = true) {x : Code} (hx : (Kb.after cfg L pre).code cfg L z.1 z.2 = x)
    (hlt : x.toNat < 0xA0) (hl : (Kb.after cfg L pre).last = x)
    (hq : ∀ y ∈ keysOf L, y ≠ z → downAfter pre y.1 y.2 = true → (Kb.after cfg L pre).code cfg L y.1 y.2 ≠ 0xA0)
    (hq' : ∀ y ∈ keysOf L, y ≠ z → downAfter pre y.1 y.2 = true → (Kb.after cfg L pre).code cfg L y.1 y.2 ≠ x) :
    let k := Kb.after cfg L pre
    let k' := Kb.after cfg L (pre ++ [inp])
    k'.map = k.map ∧ k'.mods = k.mods ∧ k'.last = 0xA0 ∧ k'.rpt.delay = k.rpt.delay ∧
      k.logPass cfg L Kb.typedBy inp = [] ∧ k.logPass cfg L Kb.saidBy inp = [] := by
  intro k k'
  obtain ⟨o1, o2⟩ := output_same k
  obtain ⟨A, B, hAB⟩ := List.append_of_mem h.here
  have hnd := keysOf_nodup L
  rw [hAB] at hnd
  obtain ⟨nA, nzB, hdis⟩ := List.nodup_append.mp hnd
  obtain ⟨nz, nB⟩ := List.nodup_cons.mp nzB
  have hzA : z ∉ A := fun e => hdis z e z List.mem_cons_self rfl
  have inA : ∀ y ∈ A, y ∈ keysOf L ∧ y ≠ z := fun y hy =>
    ⟨by rw [hAB]; exact List.mem_append_left _ hy, fun e => hzA (e ▸ hy)⟩
  have inB : ∀ y ∈ B, y ∈ keysOf L ∧ y ≠ z ∧ y ∉ A := fun y hy =>
    ⟨by rw [hAB]; exact List.mem_append_right _ (List.mem_cons_of_mem _ hy), fun e => nz (e ▸ hy),
      fun e => hdis y e y (List.mem_cons_of_mem _ hy) rfl⟩
  have hcode : ∀ r c, k.output.code cfg L r c = k.code cfg L r c := fun r c => o1.code r c
  have hstill : ∀ y ∈ keysOf L, y ≠ z →
      ((k.output.deb y.1 y.2).step (sample inp y.1 y.2)).on = (k.output.deb y.1 y.2).on := by
    intro y hy e
    obtain ⟨s1, s2⟩ := step_eq (cfg := cfg) pre inp hy
    rw [s2, s1, h.same y hy e]
  obtain ⟨a1, a2, a3, a4, a5⟩ := keys_quiet (cfg := cfg) (L := L) (inp := inp) A nA (k := k.output)
    (fun y hy => hstill y (inA y hy).1 (inA y hy).2) (fun y hy hd => by
      rw [hcode, o1.last, hl]
      rw [(step_eq (cfg := cfg) pre inp (inA y hy).1).1] at hd
      exact hq' y (inA y hy).1 (inA y hy).2 hd)
  have a1' := o1.trans a1
  have hdA : ∀ y, y ∉ A → (A.foldl (fun k y => k.key cfg L (sample inp y.1 y.2) y.1 y.2) k.output).deb y.1 y.2 =
    k.output.deb y.1 y.2 := fun y hy => keys_deb A hy
  generalize hkA : A.foldl (fun k y => k.key cfg L (sample inp y.1 y.2) y.1 y.2) k.output = kA at *
  obtain ⟨z1, z2⟩ := step_eq (cfg := cfg) pre inp h.here
  have hzd := hdA z hzA
  have hon : (kA.deb z.1 z.2).on = true := by rw [hzd, z1, hdown]
  obtain ⟨t1, t2⟩ := key_turn (k := kA) (s := sample inp z.1 z.2) (r := z.1) (c := z.2)
    (by rw [hzd, z2, z1, h.turn])
  rw [hon] at t1
  have t1 : sample inp z.1 z.2 = false := t1
  have hcz : kA.code cfg L z.1 z.2 = x := (a1'.code z.1 z.2).trans hx
  have hlA : kA.last = x := a1'.last.trans hl
  have hkz : kA.key cfg L (sample inp z.1 z.2) z.1 z.2 = { stepDeb kA false z.1 z.2 with last := 0xA0 } := by
    unfold Kb.key
    rw [t1, hon, if_pos (by decide), if_pos t2, if_neg (by decide), hcz]
    refine (release_code cfg _ x (Nat.le_of_lt hlt)).trans ?_
    show Kb.mk _ _ _ _ _ _ (if kA.last = x then 0xA0 else kA.last) _ _ _ _ _ _ = _
    rw [if_pos hlA]
    rfl
  have hty : kA.typedBy cfg L (sample inp z.1 z.2) z.1 z.2 = [] := by
    unfold Kb.typedBy
    rw [t1, hon, if_pos (by decide), if_neg (fun e => by cases e.1)]
  have hsa : kA.saidBy cfg L (sample inp z.1 z.2) z.1 z.2 = [] := by
    unfold Kb.saidBy
    rw [t1, if_neg (fun e => by cases e.1)]
  have hkd : ∀ y, y ≠ z → (kA.key cfg L (sample inp z.1 z.2) z.1 z.2).deb y.1 y.2 = kA.deb y.1 y.2 := by
    intro y hy
    rw [key_deb, if_neg]
    rintro ⟨e1, e2⟩
    exact hy (Prod.ext e1 e2)
  have hz1 : (kA.key cfg L (sample inp z.1 z.2) z.1 z.2).map = k.map := by rw [hkz]; exact a1'.map
  have hz2 : (kA.key cfg L (sample inp z.1 z.2) z.1 z.2).mods = k.mods := by rw [hkz]; exact a1'.mods
  have hz3 : (kA.key cfg L (sample inp z.1 z.2) z.1 z.2).last = 0xA0 := by rw [hkz]
  have hz4 : (kA.key cfg L (sample inp z.1 z.2) z.1 z.2).rpt = kA.rpt := by rw [hkz]; rfl
  generalize hkZ : kA.key cfg L (sample inp z.1 z.2) z.1 z.2 = kZ at *
  have hcZ : ∀ r c, kZ.code cfg L r c = k.code cfg L r c := fun r c => by
    rw [code_eq hz1, hz2, code_eq rfl]
  have hdB : ∀ y ∈ B, kZ.deb y.1 y.2 = k.output.deb y.1 y.2 := fun y hy => by
    rw [hkd y (inB y hy).2.1, hdA y (inB y hy).2.2]
  obtain ⟨b1, b2, b3, b4, b5⟩ := keys_quiet (cfg := cfg) (L := L) (inp := inp) B nB (k := kZ)
    (fun y hy => by rw [hdB y hy]; exact hstill y (inB y hy).1 (inB y hy).2.1) (fun y hy hd => by
      rw [hcZ, hz3]
      rw [hdB y hy, (step_eq (cfg := cfg) pre inp (inB y hy).1).1] at hd
      exact hq y (inB y hy).1 (inB y hy).2.1 hd)
  have hk' : k' = B.foldl (fun k y => k.key cfg L (sample inp y.1 y.2) y.1 y.2) kZ := by
    show Kb.after cfg L (pre ++ [inp]) = _
    rw [after_snoc]
    unfold Kb.pass
    rw [hAB, List.foldl_append, List.foldl_cons, hkA, hkZ]
  rw [hk']
  refine ⟨b1.map.trans hz1, b1.mods.trans hz2, b1.last.trans hz3, ?_, ?_, ?_⟩
  · rw [b3, hz4, a3, o2]
  · show Kb.logKeys _ _ _ _ _ _ = _
    rw [hAB, logKeys_append, a4, hkA]
    show [] ++ (_ ++ _) = _
    rw [hty, hkZ, b4]
    rfl
  · show Kb.logKeys _ _ _ _ _ _ = _
    rw [hAB, logKeys_append, a5, hkA]
    show [] ++ (_ ++ _) = _
    rw [hsa, hkZ, b5]
    rfl

/-! ## Several scans -/

/-- What is typed in these scans, and nothing is printed. -/
structure Out (cfg : Config) (L : Layout) (pre more : List Input) (us : List (List Code)) : Prop where
  typed : (Kb.after cfg L pre).log cfg L Kb.typedBy more = us
  said : (Kb.after cfg L pre).log cfg L Kb.saidBy more = List.replicate more.length []

theorem after_append (pre more : List Input) :
    Kb.after cfg L (pre ++ more) = more.foldl (Kb.pass cfg L) (Kb.after cfg L pre) := by
  unfold Kb.after
  rw [List.foldl_append]

theorem Out.nil (pre : List Input) : Out cfg L pre [] [] := ⟨rfl, rfl⟩

theorem Out.append {pre a b : List Input} {us vs : List (List Code)} (h : Out cfg L pre a us)
    (h' : Out cfg L (pre ++ a) b vs) : Out cfg L pre (a ++ b) (us ++ vs) := by
  constructor
  · rw [log_append, h.typed, ← after_append, h'.typed]
  · rw [log_append, h.said, ← after_append, h'.said, List.length_append, List.replicate_append_replicate]

theorem Out.one {pre : List Input} {inp : Input} {u : List Code}
    (h1 : (Kb.after cfg L pre).logPass cfg L Kb.typedBy inp = u)
    (h2 : (Kb.after cfg L pre).logPass cfg L Kb.saidBy inp = []) : Out cfg L pre [inp] [u] :=
  ⟨by show [_] = _; rw [h1], by show [_] = _; rw [h2]; rfl⟩

theorem Out.length {pre more : List Input} {us : List (List Code)} (h : Out cfg L pre more us) : us.length = more.length := by
  rw [← h.typed]
  clear h
  generalize Kb.after cfg L pre = k
  induction more generalizing k with
  | nil => rfl
  | cons inp more ih =>
    show (_ :: _).length = _
    rw [List.length_cons, ih, List.length_cons]

/-- The keys that are down do not change. -/
def Stays (L : Layout) (D : Down) (pre more : List Input) : Prop :=
  ∀ k, k ≤ more.length → ∀ y ∈ keysOf L, downAfter (pre ++ more.take k) y.1 y.2 = D y.1 y.2

theorem Stays.here {D : Down} {pre more : List Input} (h : Stays L D pre more) :
    ∀ y ∈ keysOf L, downAfter pre y.1 y.2 = D y.1 y.2 := by
  intro y hy
  have := h 0 (Nat.zero_le _) y hy
  rwa [List.take_zero, List.append_nil] at this

theorem Stays.tail {D : Down} {pre more : List Input} {inp : Input} (h : Stays L D pre (inp :: more)) :
    Stays L D (pre ++ [inp]) more := by
  intro k hk y hy
  have := h (k + 1) (by rw [List.length_cons]; omega) y hy
  rwa [List.take_succ_cons, show pre ++ inp :: more.take k = pre ++ [inp] ++ more.take k by simp] at this

theorem Stays.unmoved {D : Down} {pre more : List Input} {inp : Input} (h : Stays L D pre (inp :: more)) :
    Unmoved L pre [inp] := by
  intro u v e r c hr hc
  have hy : (r, c) ∈ keysOf L := (mem_keysOf L).mpr ⟨hr, hc⟩
  have h0 := h.here (r, c) hy
  have h1 := h.tail.here (r, c) hy
  cases u with
  | nil => rw [List.append_nil]
  | cons a u =>
    cases u with
    | nil =>
      injection e with e _
      subst e
      exact h1.trans h0.symm
    | cons b u =>
      injection e with _ e
      cases e

theorem scan_delay {pre : List Input} {inp : Input} (h : Unmoved L pre [inp]) :
    (Kb.after cfg L (pre ++ [inp])).rpt.delay = (Kb.after cfg L pre).rpt.delay := by
  rw [after_snoc]
  unfold Kb.pass
  rw [keys_delay (keysOf L) (keysOf_nodup L), (output_same _).2]
  intro y hy
  obtain ⟨hr, hc⟩ := (mem_keysOf L).mp hy
  obtain ⟨s1, s2⟩ := step_eq (cfg := cfg) pre inp hy
  rw [s1, s2]
  exact h [inp] [] rfl y.1 y.2 hr hc

/-- No key that is held has the code that repeats. -/
theorem quiet_part {D : Down} (more pre : List Input) (h : Stays L D pre more)
    (hq : ∀ y ∈ keysOf L, D y.1 y.2 = true → (Kb.after cfg L pre).code cfg L y.1 y.2 ≠ (Kb.after cfg L pre).last) :
    Out cfg L pre more (List.replicate more.length []) ∧ Same (Kb.after cfg L pre) (Kb.after cfg L (pre ++ more)) ∧
      (Kb.after cfg L (pre ++ more)).rpt.delay = (Kb.after cfg L pre).rpt.delay := by
  induction more generalizing pre with
  | nil =>
    rw [List.append_nil]
    exact ⟨Out.nil pre, Same.refl _, rfl⟩
  | cons inp more ih =>
    have hu := h.unmoved
    have h0 : ticksIn L (downAfter pre) (fun r c => (Kb.after cfg L pre).code cfg L r c) (Kb.after cfg L pre).last inp = 0 := by
      unfold ticksIn
      rw [List.countP_eq_zero]
      intro y hy e
      simp only [Bool.and_eq_true, decide_eq_true_eq] at e
      exact hq y hy (by rw [← h.here y hy]; exact e.1.1) e.2
    obtain ⟨a1, _, _⟩ := hold (cfg := cfg) pre [inp] hu
    have a2 := hold_pass (cfg := cfg) pre inp hu
    dsimp only at a2
    rw [h0, repsIn_zero] at a2
    obtain ⟨b1, b2, b3⟩ := ih (pre ++ [inp]) h.tail (fun y hy hd => by
      rw [a1.code, a1.last]
      exact hq y hy hd)
    have e : pre ++ inp :: more = pre ++ [inp] ++ more := by simp
    rw [e]
    exact ⟨(Out.one a2 (silent_pass (cfg := cfg) pre inp hu)).append b1, a1.trans b2, b3.trans (scan_delay hu)⟩

/-- One key that is held has the code that repeats. -/
theorem repeat_part {D : Down} {z : Nat × Nat} (hz : z ∈ keysOf L) (hzd : D z.1 z.2 = true) (more pre : List Input)
    (h : Stays L D pre more) (hc : (Kb.after cfg L pre).code cfg L z.1 z.2 = (Kb.after cfg L pre).last)
    (hq : ∀ y ∈ keysOf L, y ≠ z → D y.1 y.2 = true →
      (Kb.after cfg L pre).code cfg L y.1 y.2 ≠ (Kb.after cfg L pre).last) :
    let k := Kb.after cfg L pre
    let k' := Kb.after cfg L (pre ++ more)
    let t := (samplesOf more z.1 z.2).count true
    ∃ us, Out cfg L pre more us ∧ (∀ u ∈ us, u.length ≤ 1) ∧ us.flatten = List.replicate (repsIn k.rpt.left t) k.last ∧
      Same k k' ∧ k'.rpt.left = leftAfter k.rpt.left t ∧ k'.rpt.delay = k.rpt.delay := by
  induction more generalizing pre with
  | nil =>
    rw [List.append_nil]
    refine ⟨[], Out.nil pre, fun u hu => (List.not_mem_nil hu).elim, ?_, Same.refl _, (leftAfter_zero _).symm, rfl⟩
    rw [show (samplesOf [] z.1 z.2).count true = 0 from rfl, repsIn_zero]
    rfl
  | cons inp more ih =>
    have hu := h.unmoved
    have h0 : ticksIn L (downAfter pre) (fun r c => (Kb.after cfg L pre).code cfg L r c) (Kb.after cfg L pre).last inp =
        (sample inp z.1 z.2).toNat := by
      have e : (keysOf L).countP (fun y => downAfter pre y.1 y.2 && sample inp y.1 y.2 &&
          decide ((Kb.after cfg L pre).code cfg L y.1 y.2 = (Kb.after cfg L pre).last)) =
          (keysOf L).countP (fun y => y == z && sample inp z.1 z.2) := by
        refine List.countP_congr fun y hy => ?_
        by_cases e : y = z
        · subst e
          simp [h.here y hy, hzd, hc]
        · simp only [Bool.and_eq_true, decide_eq_true_eq, beq_iff_eq, e, false_and, iff_false]
          rintro ⟨⟨h1, _⟩, h2⟩
          exact hq y hy e (by rw [← h.here y hy]; exact h1) h2
      refine Eq.trans e ?_
      cases sample inp z.1 z.2
      · simp
      · simp only [Bool.and_true]
        exact (keysOf_nodup L).count.trans (if_pos hz)
    obtain ⟨a1, a3, _⟩ := hold (cfg := cfg) pre [inp] hu
    have a2 := hold_pass (cfg := cfg) pre inp hu
    dsimp only at a2
    have et : ticks L (downAfter pre) (fun r c => (Kb.after cfg L pre).code cfg L r c) (Kb.after cfg L pre).last [inp] =
        (sample inp z.1 z.2).toNat := (Nat.add_zero _).trans h0
    rw [h0] at a2
    rw [et] at a3
    obtain ⟨us, b1, b2, b3, b4, b5, b6⟩ := ih (pre ++ [inp]) h.tail (by rw [a1.code, a1.last]; exact hc) (fun y hy hn hd => by
      rw [a1.code, a1.last]
      exact hq y hy hn hd)
    have e : pre ++ inp :: more = pre ++ [inp] ++ more := by simp
    have ec : (samplesOf (inp :: more) z.1 z.2).count true =
        (sample inp z.1 z.2).toNat + (samplesOf more z.1 z.2).count true := by
      show List.count true (sample inp z.1 z.2 :: samplesOf more z.1 z.2) = _
      rw [List.count_cons]
      cases sample inp z.1 z.2 <;> simp [Nat.add_comm]
    intro k k' t
    have et' : t = (sample inp z.1 z.2).toNat + (samplesOf more z.1 z.2).count true := ec
    have hle : (sample inp z.1 z.2).toNat ≤ 66 := by cases sample inp z.1 z.2 <;> decide
    refine ⟨List.replicate (repsIn k.rpt.left (sample inp z.1 z.2).toNat) k.last :: us, ?_, ?_, ?_, ?_, ?_, ?_⟩
    · exact (Out.one a2 (silent_pass (cfg := cfg) pre inp hu)).append b1
    · intro u hu
      rcases List.mem_cons.mp hu with rfl | hu
      · rw [List.length_replicate]
        exact reps_le_one hle
      · exact b2 u hu
    · rw [List.flatten_cons, b3, a3, a1.last, et', reps_add, List.replicate_append_replicate]
    · show Same k (Kb.after cfg L (pre ++ inp :: more))
      rw [e]
      exact a1.trans b4
    · show (Kb.after cfg L (pre ++ inp :: more)).rpt.left = _
      rw [e, b5, a3, et', left_add]
    · show (Kb.after cfg L (pre ++ inp :: more)).rpt.delay = _
      rw [e, b6, scan_delay hu]

/-! ## One stroke -/

theorem Stays.take {S S' : Down} {z : Nat × Nat} {bs : List Bool} {n : Nat} {rs pre : List Input}
    (M : OneMoves L S S' z bs n rs) (h : Settled L pre S) :
    Stays L S pre (rs.take (acceptAt (S z.1 z.2) bs)) := by
  intro k hk y hy
  obtain ⟨hr, hc⟩ := (mem_keysOf L).mp hy
  rw [List.length_take] at hk
  rw [List.take_take, Nat.min_eq_left (by omega), M.during h (by omega) hr hc, if_pos (by omega)]

theorem Stays.drop {S S' : Down} {z : Nat × Nat} {bs : List Bool} {n : Nat} {rs pre : List Input}
    (M : OneMoves L S S' z bs n rs) (h : Settled L pre S) :
    Stays L S' (pre ++ rs.take (acceptAt (S z.1 z.2) bs + 1)) (rs.drop (acceptAt (S z.1 z.2) bs + 1)) := by
  intro k hk y hy
  obtain ⟨hr, hc⟩ := (mem_keysOf L).mp hy
  rw [List.length_drop] at hk
  have hb := (accept_bounds (S z.1 z.2) M.len).2
  have hsz := M.size
  have hst := M.steady
  have e : rs.take (acceptAt (S z.1 z.2) bs + 1) ++ (rs.drop (acceptAt (S z.1 z.2) bs + 1)).take k =
      rs.take (acceptAt (S z.1 z.2) bs + 1 + k) := List.take_add.symm
  rw [List.append_assoc, e, M.during h (by omega) hr hc, if_neg (by omega)]

/-- The scan in which a movement is accepted. -/
theorem accepted {S S' : Down} {z : Nat × Nat} {bs : List Bool} {n : Nat} {rs pre : List Input}
    (M : OneMoves L S S' z bs n rs) (h : Settled L pre S) :
    ∃ inp, rs = rs.take (acceptAt (S z.1 z.2) bs) ++ ([inp] ++ rs.drop (acceptAt (S z.1 z.2) bs + 1)) ∧
      rs.take (acceptAt (S z.1 z.2) bs + 1) = rs.take (acceptAt (S z.1 z.2) bs) ++ [inp] ∧
      OneScan L (pre ++ rs.take (acceptAt (S z.1 z.2) bs)) inp z ∧
      downAfter (pre ++ rs.take (acceptAt (S z.1 z.2) bs)) z.1 z.2 = S z.1 z.2 := by
  have hb := (accept_bounds (S z.1 z.2) M.len).2
  have hsz := M.size
  have hst := M.steady
  have hdur := fun k (hk : k ≤ rs.length) (y : Nat × Nat) (hy : y ∈ keysOf L) =>
    M.during h hk ((mem_keysOf L).mp hy).1 ((mem_keysOf L).mp hy).2
  have hz : z ∈ keysOf L := (mem_keysOf L).mpr ⟨M.row, M.col⟩
  generalize acceptAt (S z.1 z.2) bs = j at *
  have hj : j < rs.length := by omega
  have e1 : rs.take (j + 1) = rs.take j ++ [rs[j]] := List.take_succ_eq_append_getElem hj
  have e0 : rs = rs.take j ++ ([rs[j]] ++ rs.drop (j + 1)) := by
    rw [← List.append_assoc, ← e1, List.take_append_drop]
  have hS : ∀ y ∈ keysOf L, downAfter (pre ++ rs.take j) y.1 y.2 = S y.1 y.2 := by
    intro y hy
    rw [hdur j (by omega) y hy, if_pos (Nat.le_refl _)]
  have hS' : ∀ y ∈ keysOf L, downAfter (pre ++ rs.take j ++ [rs[j]]) y.1 y.2 = S' y.1 y.2 := by
    intro y hy
    rw [List.append_assoc, ← e1, hdur (j + 1) (by omega) y hy, if_neg (by omega)]
  refine ⟨rs[j], e0, e1, ⟨hz, ?_, ?_⟩, hS z hz⟩
  · rw [hS' z hz, hS z hz, M.turn]
  · intro y hy e
    rw [hS' y hy, hS y hy, M.same y.1 y.2 e]

/-- The closed readings before and after. -/
theorem samples_take {S S' : Down} {z : Nat × Nat} {bs : List Bool} {n : Nat} {rs : List Input}
    (M : OneMoves L S S' z bs n rs) :
    (S z.1 z.2 = true → (samplesOf (rs.take (acceptAt (S z.1 z.2) bs)) z.1 z.2).count true = bs.count true) ∧
    (S z.1 z.2 = false → (samplesOf (rs.drop (acceptAt (S z.1 z.2) bs + 1)) z.1 z.2).count true =
      bs.count true + n - 10) := by
  have hm := M.moves
  rw [M.turn] at hm
  have hb := accept_bounds (S z.1 z.2) M.len
  have hlen := M.len
  have hst := M.steady
  have hcl := List.count_le_length (a := true) (l := bs)
  constructor
  · intro h
    rw [h] at hm hb ⊢
    show ((rs.take _).map _).count true = _
    rw [List.map_take, show rs.map _ = samplesOf rs z.1 z.2 from rfl, hm, List.take_append,
      List.take_of_length_le (by omega), List.take_replicate, List.count_append, List.count_replicate]
    simp
  · intro h
    rw [h] at hm hb ⊢
    show ((rs.drop _).map _).count true = _
    rw [List.map_drop, show rs.map _ = samplesOf rs z.1 z.2 from rfl, hm, List.drop_append,
      List.drop_of_length_le (by omega), List.nil_append, List.drop_replicate, List.count_replicate]
    have : acceptAt false bs = bs.length + 9 - bs.count true := rfl
    rw [this, if_pos (by decide)]
    omega

/-- Between two deeds. -/
structure Calm (i : UInt8) (d : Nat) (m : ModKeys) (pre : List Input) : Prop where
  map : (Kb.after fourMaps openLayout pre).map = i
  mods : (Kb.after fourMaps openLayout pre).mods = m
  last : (Kb.after fourMaps openLayout pre).last = 0xA0
  delay : (Kb.after fourMaps openLayout pre).rpt.delay = d

theorem Calm.code {i : UInt8} {d : Nat} {m : ModKeys} {pre : List Input} (h : Calm i d m pre) (r c : Nat) :
    (Kb.after fourMaps openLayout pre).code fourMaps openLayout r c = m.code fourMaps openLayout i r c := by
  rw [code_eq h.map, h.mods]

theorem Calm.same {i : UInt8} {d : Nat} {m : ModKeys} {pre pre' : List Input} (h : Calm i d m pre)
    (h1 : Same (Kb.after fourMaps openLayout pre) (Kb.after fourMaps openLayout pre'))
    (h2 : (Kb.after fourMaps openLayout pre').rpt.delay = (Kb.after fourMaps openLayout pre).rpt.delay) : Calm i d m pre' :=
  ⟨h1.map.trans h.map, h1.mods.trans h.mods, h1.last.trans h.last, h2.trans h.delay⟩

/-- The session after a stroke. -/
theorem stroke_session {i : UInt8} {s : Session} (hl : s.hand.last = none) {z : Nat × Nat} (hz : z ∉ s.down)
    (hx : isModCode (s.code i z) = false) :
    (s.move i z).down = z :: s.down ∧ (s.move i z).hand = ⟨s.hand.mods, some (z, s.code i z)⟩ ∧
      (s.move i z).move i z = s := by
  have e1 : (s.move i z).down = z :: s.down := by
    show toggled s.down z = _
    unfold toggled
    rw [if_neg hz]
  have e2 : (s.move i z).hand = ⟨s.hand.mods, some (z, s.code i z)⟩ := by
    show s.hand.key fourMaps openLayout i (decide (z ∈ s.down)) (decide (z ∉ s.down)) z = _
    unfold Hand.key
    rw [decide_eq_false hz, decide_eq_true hz, if_neg (by decide),
      if_neg (by rw [show s.hand.mods.code fourMaps openLayout i z.1 z.2 = s.code i z from rfl, hx]; decide), if_pos rfl]
    rfl
  refine ⟨e1, e2, ?_⟩
  have hin : z ∈ (s.move i z).down := by rw [e1]; exact List.mem_cons_self
  have hcode : (s.move i z).code i z = s.code i z := by
    unfold Session.code
    rw [e2]
  have e3 : ((s.move i z).move i z).down = s.down := by
    show toggled (s.move i z).down z = _
    unfold toggled
    rw [if_pos hin, e1, List.erase_cons_head]
  have e4 : ((s.move i z).move i z).hand = s.hand := by
    show (s.move i z).hand.key fourMaps openLayout i (decide (z ∈ (s.move i z).down)) (decide (z ∉ (s.move i z).down)) z = _
    have hnn : decide (z ∉ (s.move i z).down) = false := decide_eq_false (not_not_intro hin)
    unfold Hand.key
    rw [decide_eq_true hin, hnn, if_neg (by decide),
      if_neg (by rw [show (s.move i z).hand.mods.code fourMaps openLayout i z.1 z.2 = (s.move i z).code i z from rfl, hcode, hx]; decide),
      if_neg (by decide), show (s.move i z).hand.mods.code fourMaps openLayout i z.1 z.2 = (s.move i z).code i z from rfl, hcode, e2]
    cases hh : s.hand with
    | mk m l =>
      rw [hh] at hl
      have hl : l = none := hl
      subst hl
      simp
  cases hs : (s.move i z).move i z with
  | mk a b =>
    rw [hs] at e3 e4
    cases s
    dsimp only at e3 e4
    rw [e3, e4]

/-- One key with a character is pressed, held and released. -/
theorem stroke_part {i : UInt8} {s : Session} (hf : Fine i s) (hl : s.hand.last = none) {p : KeyStroke}
    (hmod : ¬ IsModKey fourMaps openLayout i p.key.1 p.key.2) (hz : p.key ∉ s.down) (hM : MayToggle i s p.key)
    (hM' : MayToggle i (s.move i p.key) p.key) (hb : p.pressBounce.length ≤ 9) (hs : 10 ≤ p.held)
    (hb' : p.releaseBounce.length ≤ 9) (hs' : 10 ≤ p.rest) {d : Nat} {pre : List Input}
    (hpre : Settled openLayout pre (posDown s.down)) (hc : Calm i d s.hand.mods pre) :
    let rs := p.press.readings s.down ++ p.release.readings (toggled s.down p.key)
    (∃ us, Out fourMaps openLayout pre rs us ∧ (∀ u ∈ us, u.length ≤ 1) ∧
      us.flatten = List.replicate (1 + repsIn d (p.closed - 10)) (s.code i p.key) ∧ us.getLast?.getD [] = []) ∧
    (s.code i p.key).toNat < 0xA0 ∧ (s.move i p.key).move i p.key = s ∧
    Calm i d s.hand.mods (pre ++ rs) ∧ Settled openLayout (pre ++ rs) (posDown s.down) := by
  intro rs
  have hf1 := hf.next hM
  have hlt : (s.code i p.key).toNat < 0xA0 := by
    rcases hM.2.2.1.press (decide_eq_false hz) (decide_eq_true hz) with e | e
    · exact absurd e hmod
    · exact e.1
  have hx : isModCode (s.code i p.key) = false := by
    cases e : isModCode (s.code i p.key)
    · rfl
    · simp only [isModCode, Bool.and_eq_true, decide_eq_true_eq] at e
      omega
  obtain ⟨q1, q2, q3⟩ := stroke_session hl hz hx
  have M1 := one_moves hf (v := p.press) hM hb hs
  have M2 := one_moves hf1 (v := p.release) hM' hb' hs'
  have hset1 := M1.settled hpre
  have hset2 := M2.settled hset1
  rw [show toggled (s.move i p.key).down p.release.key = ((s.move i p.key).move i p.key).down from rfl, q3] at hset2
  have hS0 : posDown s.down p.key.1 p.key.2 = false := decide_eq_false hz
  have hS1 : posDown (toggled s.down p.key) p.key.1 p.key.2 = true :=
    decide_eq_true (by rw [show toggled s.down p.key = p.key :: s.down from q1]; exact List.mem_cons_self)
  have hq0 : ∀ y ∈ keysOf openLayout, posDown s.down y.1 y.2 = true →
      s.hand.mods.code fourMaps openLayout i y.1 y.2 ≠ 0xA0 := fun y hy hd => (hf.held y hy hd).2 hl
  have hqx : ∀ y ∈ keysOf openLayout, posDown s.down y.1 y.2 = true →
      s.hand.mods.code fourMaps openLayout i y.1 y.2 ≠ s.code i p.key := by
    intro y hy hd e
    have hyd : y ∈ s.down := of_decide_eq_true hd
    have h1 := (hf1.holds y (by rw [q1]; exact List.mem_cons_of_mem _ hyd)).1
    rw [q2] at h1
    have h2 : p.key = y := h1 (p.key, s.code i p.key) rfl e.symm
    exact hz (h2 ▸ hyd)
  have hdown1 : ∀ y : Nat × Nat, y ≠ p.key → posDown (toggled s.down p.key) y.1 y.2 = posDown s.down y.1 y.2 :=
    fun y e => M1.same y.1 y.2 e
  have hzin : p.key ∈ keysOf openLayout := pos_in hM.1 hM.2.1
  -- until the press is accepted
  have A1 := Stays.take M1 hpre
  obtain ⟨inp1, e1, e2, A3, A4⟩ := accepted M1 hpre
  have D1 := Stays.drop M1 hpre
  obtain ⟨_, c1⟩ := samples_take M1
  have c1 := c1 hS0
  have E1 := Stays.take M2 hset1
  obtain ⟨inp2, e3, e4, E3, E4⟩ := accepted M2 hset1
  have F1 := Stays.drop M2 hset1
  obtain ⟨c2, _⟩ := samples_take M2
  have c2 := c2 hS1
  generalize hR1 : p.press.readings s.down = R1 at *
  generalize hR2 : p.release.readings (s.move i p.key).down = R2 at *
  have hrs : rs = R1 ++ R2 := by
    show _ ++ p.release.readings (s.move i p.key).down = _
    rw [hR1, hR2]
  generalize acceptAt (posDown s.down p.press.key.1 p.press.key.2) p.press.bounce = j1 at *
  generalize acceptAt (posDown (s.move i p.key).down p.release.key.1 p.release.key.2) p.release.bounce = j2 at *
  obtain ⟨a1, a2, a3⟩ := quiet_part (cfg := fourMaps) _ _ A1 (fun y hy hd => by
    rw [hc.code, hc.last]
    exact hq0 y hy hd)
  have ha := hc.same a2 a3
  -- the press
  have hAd : ∀ y ∈ keysOf openLayout, downAfter (pre ++ R1.take j1) y.1 y.2 = posDown s.down y.1 y.2 := by
    intro y hy
    have := A1 (R1.take j1).length (Nat.le_refl _) y hy
    rwa [List.take_length] at this
  obtain ⟨b1, b2, b3, b4, b5, b6, b7⟩ := press_scan (cfg := fourMaps) A3 (A4.trans hS0) (x := s.code i p.key) (ha.code _ _) hlt
    ha.last (fun y hy hd => by
      rw [ha.code]
      rw [hAd y hy] at hd
      exact hq0 y hy hd) (fun y hy hd => by
      rw [ha.code]
      rw [hAd y hy] at hd
      exact hqx y hy hd)
  have hpress := Out.one b6 b7
  rw [ha.map] at b1
  rw [ha.mods] at b2
  rw [ha.delay] at b4 b5
  rw [List.append_assoc, ← e2] at b1 b2 b3 b4 b5
  have hcode1 : ∀ r c, (Kb.after fourMaps openLayout (pre ++ R1.take (j1 + 1))).code fourMaps openLayout r c =
      s.hand.mods.code fourMaps openLayout i r c := fun r c => by rw [code_eq b1, b2]
  -- until the end of the first movement
  have hqr : ∀ y ∈ keysOf openLayout, y ≠ p.key → posDown (toggled s.down p.key) y.1 y.2 = true →
      s.hand.mods.code fourMaps openLayout i y.1 y.2 ≠ s.code i p.key := by
    intro y hy e hd
    rw [hdown1 y e] at hd
    exact hqx y hy hd
  obtain ⟨us1, d1, d2, d3, d4, d5, d6⟩ := repeat_part (cfg := fourMaps) hzin hS1 _ _ D1 (by rw [hcode1, b3]; rfl)
    (fun y hy e hd => by
      rw [hcode1, b3]
      exact hqr y hy e hd)
  rw [List.append_assoc, List.take_append_drop] at d4 d5 d6
  have hmap2 := d4.map.trans b1
  have hmods2 := d4.mods.trans b2
  have hlast2 := d4.last.trans b3
  have hcode2 : ∀ r c, (Kb.after fourMaps openLayout (pre ++ R1)).code fourMaps openLayout r c =
      s.hand.mods.code fourMaps openLayout i r c := fun r c => by rw [code_eq hmap2, hmods2]
  -- until the release is accepted
  obtain ⟨us2, f1, f2, f3, f4, f5, f6⟩ := repeat_part (cfg := fourMaps) hzin hS1 _ _ E1 (by rw [hcode2, hlast2]; rfl)
    (fun y hy e hd => by
      rw [hcode2, hlast2]
      exact hqr y hy e hd)
  have hmap3 := f4.map.trans hmap2
  have hmods3 := f4.mods.trans hmods2
  have hlast3 := f4.last.trans hlast2
  have hcode3 : ∀ r c, (Kb.after fourMaps openLayout (pre ++ R1 ++ R2.take j2)).code fourMaps openLayout r c =
      s.hand.mods.code fourMaps openLayout i r c := fun r c => by rw [code_eq hmap3, hmods3]
  have hEd : ∀ y ∈ keysOf openLayout, y ≠ p.key → downAfter (pre ++ R1 ++ R2.take j2) y.1 y.2 = posDown s.down y.1 y.2 := by
    intro y hy e
    have := E1 (R2.take j2).length (Nat.le_refl _) y hy
    rw [List.take_length] at this
    rw [this]
    exact hdown1 y e
  obtain ⟨g1, g2, g3, g4, g5, g6⟩ := release_scan (cfg := fourMaps) E3 (E4.trans hS1) (x := s.code i p.key) (hcode3 _ _) hlt
    hlast3 (fun y hy e hd => by
      rw [hcode3]
      rw [hEd y hy e] at hd
      exact hq0 y hy hd) (fun y hy e hd => by
      rw [hcode3]
      rw [hEd y hy e] at hd
      exact hqx y hy hd)
  have hrel := Out.one g5 g6
  have hc4 : Calm i d s.hand.mods (pre ++ R1 ++ R2.take (j2 + 1)) := by
    rw [e4, ← List.append_assoc]
    exact ⟨g1.trans hmap3, g2.trans hmods3, g3, by rw [g4, f6, d6, b5]⟩
  -- the rest
  rw [show toggled (s.move i p.key).down p.release.key = ((s.move i p.key).move i p.key).down from rfl, q3] at F1
  obtain ⟨h1, h2, h3⟩ := quiet_part (cfg := fourMaps) _ _ F1 (fun y hy hd => by
    rw [hc4.code, hc4.last]
    exact hq0 y hy hd)
  have hc5 := hc4.same h2 h3
  rw [List.append_assoc (pre ++ R1), List.take_append_drop] at hc5
  have hout1 : Out fourMaps openLayout pre R1 (List.replicate (R1.take j1).length [] ++ ([[s.code i p.key]] ++ us1)) := by
    have d1' : Out fourMaps openLayout (pre ++ R1.take j1 ++ [inp1]) (R1.drop (j1 + 1)) us1 := by
      rw [List.append_assoc, ← e2]
      exact d1
    have := Out.append a1 (hpress.append d1')
    rwa [← e1] at this
  have hout2 : Out fourMaps openLayout (pre ++ R1) R2 (us2 ++ ([[]] ++ List.replicate (R2.drop (j2 + 1)).length [])) := by
    have h1' : Out fourMaps openLayout (pre ++ R1 ++ R2.take j2 ++ [inp2]) (R2.drop (j2 + 1)) (List.replicate (R2.drop (j2 + 1)).length []) := by
      rw [List.append_assoc (pre ++ R1), ← e4]
      exact h1
    have := Out.append f1 (hrel.append h1')
    rwa [← e3] at this
  refine ⟨⟨_, by rw [hrs]; exact hout1.append hout2, ?_, ?_, ?_⟩, hlt, q3, by rw [hrs, ← List.append_assoc]; exact hc5, ?_⟩
  · intro u hu
    simp only [List.mem_append, List.mem_replicate, List.mem_singleton] at hu
    rcases hu with (hu | hu | hu) | hu | hu | hu
    · rw [hu.2]; exact Nat.zero_le _
    · rw [hu]; exact Nat.le_refl _
    · exact d2 u hu
    · exact f2 u hu
    · rw [hu]; exact Nat.zero_le _
    · rw [hu.2]; exact Nat.zero_le _
  · have hk : p.closed - 10 = (p.pressBounce.count true + p.held - 10) + p.releaseBounce.count true := by
      unfold KeyStroke.closed
      omega
    have hk1 : (samplesOf (R1.drop (j1 + 1)) p.key.1 p.key.2).count true = p.pressBounce.count true + p.held - 10 := c1
    have hk2 : (samplesOf (R2.take j2) p.key.1 p.key.2).count true = p.releaseBounce.count true := c2
    rw [hk1, b3, b4] at d3
    rw [hk1, b4] at d5
    rw [hk2, hlast2, d5] at f3
    simp only [List.flatten_append, List.flatten_replicate_nil, List.nil_append, List.append_nil, d3, f3, List.flatten_cons,
      List.flatten_nil]
    rw [hk, reps_add, ← List.replicate_append_replicate, ← List.replicate_append_replicate, List.append_assoc]
    rfl
  · rw [← List.append_assoc, ← List.append_assoc, show [[]] = List.replicate 1 ([] : List Code) from rfl, List.append_assoc,
      List.replicate_append_replicate, List.getLast?_append, List.getLast?_replicate, if_neg (by omega)]
    rfl
  · rw [hrs, ← List.append_assoc]
    exact hset2

/-! ## A modifier moves -/

theorem ready_run {i : UInt8} {d : Nat} {p done more : List Input} {h : Hand} (R : Ready cfg L i d p done h)
    (hn : Tidy cfg L i h (p ++ done) more) (hb : Brief cfg L i d p (done ++ more)) :
    Ready cfg L i d p (done ++ more) (handAt cfg L i h (p ++ done) more) := by
  induction more generalizing done h with
  | nil => rwa [List.append_nil]
  | cons inp more ih =>
    have ea : p ++ done ++ [inp] = p ++ (done ++ [inp]) := List.append_assoc _ _ _
    obtain ⟨n1, n2⟩ := hn
    rw [ea] at n1 n2
    have hb' : Brief cfg L i d p (done ++ [inp] ++ more) := by
      rw [List.append_assoc]; exact hb
    obtain ⟨_, _, _, s4⟩ := R.scan n1 hb'
    have := ih s4 n2 hb'
    rw [List.append_assoc] at this
    show Ready cfg L i d p (done ++ inp :: more) (handAt cfg L i (handAfter cfg L i (downAfter (p ++ done))
      (downAfter (p ++ done ++ [inp])) (keysOf L) h) (p ++ done ++ [inp]) more)
    rw [ea]
    exact this

theorem mod_move {i : UInt8} {s : Session} {z : Nat × Nat} (hmod : IsModKey fourMaps openLayout i z.1 z.2) :
    s.text i z = [] ∧ (s.move i z).hand.last = s.hand.last := by
  obtain ⟨x, h1, h2⟩ := hmod
  have hcode : s.code i z = x := h2 _
  constructor
  · unfold Session.text
    rw [hcode, h1]
    split <;> rfl
  · show (s.hand.key fourMaps openLayout i (decide (z ∈ s.down)) (decide (z ∉ s.down)) z).last = _
    unfold Hand.key
    dsimp only
    split
    · rfl
    · rw [if_pos (by rw [show s.hand.mods.code fourMaps openLayout i z.1 z.2 = x from h2 _]; exact h1)]

theorem modifier_part {i : UInt8} {s : Session} (hf : Fine i s) (hl : s.hand.last = none) {v : KeyMove}
    (hmod : IsModKey fourMaps openLayout i v.key.1 v.key.2) (hM : MayToggle i s v.key)
    (hdown : ∀ p ∈ s.down, Functional fourMaps openLayout i p.1 p.2)
    (hb : v.bounce.length ≤ 9) (hs : 10 ≤ v.steady) {d : Nat} {pre : List Input}
    (hpre : Settled openLayout pre (posDown s.down)) (hc : Calm i d s.hand.mods pre) :
    Out fourMaps openLayout pre (v.readings s.down) (List.replicate (v.readings s.down).length []) ∧
    Calm i d (s.move i v.key).hand.mods (pre ++ v.readings s.down) ∧
    Settled openLayout (pre ++ v.readings s.down) (posDown (s.move i v.key).down) := by
  obtain ⟨⟨j, k, a1⟩, a2, a3⟩ := one_movement hf hM hb hs hpre
  have M := one_moves hf hM hb hs
  obtain ⟨t1, t2⟩ := mod_move (s := s) hmod
  have hbr : Brief fourMaps openLayout i d pre (v.readings s.down) := by
    have := moves_brief (dips := (s.move i v.key).down) (d := d) (vs := [v]) hf ⟨hM, rfl⟩
      (fun w hw => by rw [List.mem_singleton.mp hw]; exact ⟨hb, hs⟩) hdown (fun z hz => ?_) hpre
    · rw [show keysRead s.down [v] = v.readings s.down ++ [] from rfl, List.append_nil] at this
      exact this
    · show HeldFor d z (if v.key = z then some v.scans else none) []
      rw [if_neg (by intro e; subst e; exact hz hmod)]
      trivial
  have R : Ready fourMaps openLayout i d pre [] s.hand := by
    constructor
    · rw [List.append_nil]; exact hc.map
    · rw [List.append_nil]; exact hc.delay
    · rw [List.append_nil]; exact hc.mods
    · rw [List.append_nil, hl]; exact hc.last
  obtain ⟨r1, r2⟩ := R.text (more := v.readings s.down) (by rw [List.append_nil]; exact a3) hbr
  have r3 := ready_run R (more := v.readings s.down) (by rw [List.append_nil]; exact a3) hbr
  rw [List.append_nil] at r1 r2 r3
  rw [a2, List.nil_append] at r3
  have hn := r3.owner
  rw [t2, hl] at hn
  refine ⟨⟨?_, r2⟩, ⟨r3.map, r3.mods, hn, r3.delay⟩, M.settled hpre⟩
  have hlen := congrArg List.length a1
  rw [typist_length, t1] at hlen
  rw [r1, a1, t1, show [[]] = List.replicate 1 ([] : List Code) from rfl, List.replicate_append_replicate,
    List.replicate_append_replicate, hlen]
  simp [Nat.add_comm]

/-! ## All deeds -/

/-- Only modifier keys and DIP switches are closed. -/
structure Free (i : UInt8) (s : Session) : Prop where
  fine : Fine i s
  last : s.hand.last = none
  down : ∀ p ∈ s.down, Functional fourMaps openLayout i p.1 p.2 ∧ (p.1 < 8 → IsModKey fourMaps openLayout i p.1 p.2)

theorem Free.modifier {i : UInt8} {s : Session} (hF : Free i s) {z : Nat × Nat}
    (hmod : IsModKey fourMaps openLayout i z.1 z.2) (hM : MayToggle i s z) : Free i (s.move i z) := by
  refine ⟨hF.fine.next hM, (mod_move hmod).2.trans hF.last, fun p hp => ?_⟩
  rcases (mem_toggled hF.fine.nodup).mp hp with ⟨_, hp⟩ | ⟨rfl, _⟩
  · exact hF.down p hp
  · exact ⟨modKey_functional hmod, fun _ => hmod⟩

theorem Free.stroke {i : UInt8} {s : Session} (hF : Free i s) {z : Nat × Nat}
    (hmod : ¬ IsModKey fourMaps openLayout i z.1 z.2) (hM : MayToggle i s z) :
    z ∉ s.down ∧ (s.move i z).move i z = s := by
  have hz : z ∉ s.down := fun e => hmod ((hF.down _ e).2 hM.1)
  have hlt : (s.code i z).toNat < 0xA0 := by
    rcases hM.2.2.1.press (decide_eq_false hz) (decide_eq_true hz) with e | e
    · exact absurd e hmod
    · exact e.1
  have hx : isModCode (s.code i z) = false := by
    cases e : isModCode (s.code i z)
    · rfl
    · simp only [isModCode, Bool.and_eq_true, decide_eq_true_eq] at e
      omega
  exact ⟨hz, (stroke_session hF.last hz hx).2.2⟩

theorem deeds_out {i : UInt8} {dips : List (Nat × Nat)} {ds : List Deed} {s : Session} (hF : Free i s)
    (hr : ∀ a ∈ ds, a.Right i) (hS : Sound i dips s ((allMoves ds).map (·.key))) (hst : Steady (allMoves ds))
    {pre : List Input} (hpre : Settled openLayout pre (posDown s.down)) (hc : Calm i 525 s.hand.mods pre) :
    ∃ us, Out fourMaps openLayout pre (keysRead s.down (allMoves ds)) us ∧ (∀ u ∈ us, u.length ≤ 1) ∧
      (∀ u ∈ us, ∀ c ∈ u, c.toNat < 0xA0) ∧
      us.flatten = deedText i s ds ∧ us.getLast?.getD [] = [] := by
  induction ds generalizing s pre with
  | nil =>
    exact ⟨[], Out.nil _, fun u hu => (List.not_mem_nil hu).elim, fun u hu => (List.not_mem_nil hu).elim, rfl, rfl⟩
  | cons a ds ih =>
    have hra := hr a List.mem_cons_self
    have hr' : ∀ b ∈ ds, b.Right i := fun b hb => hr b (List.mem_cons_of_mem _ hb)
    have hlast : ∀ (us vs : List (List Code)), us.getLast?.getD [] = [] → vs.getLast?.getD [] = [] →
        (us ++ vs).getLast?.getD [] = [] := by
      intro us vs h1 h2
      rw [List.getLast?_append]
      cases e : vs.getLast? with
      | none => exact h1
      | some u => rw [e] at h2; exact h2
    cases a with
    | modifier v =>
      have hm : allMoves (.modifier v :: ds) = v :: allMoves ds := rfl
      rw [hm] at hS hst ⊢
      obtain ⟨hM, hb, hs, hS, hst⟩ := sound_cons hS hst
      obtain ⟨o1, o2, o3⟩ := modifier_part hF.fine hF.last hra hM (fun p hp => (hF.down p hp).1) hb hs hpre hc
      obtain ⟨us, i1, i2, i3, i4, i5⟩ := ih (hF.modifier hra hM) hr' hS hst o3 o2
      refine ⟨_, o1.append i1, ?_, ?_, ?_, hlast _ _ ?_ i5⟩
      · intro u hu
        rcases List.mem_append.mp hu with hu | hu
        · rw [(List.mem_replicate.mp hu).2]; exact Nat.zero_le _
        · exact i2 u hu
      · intro u hu
        rcases List.mem_append.mp hu with hu | hu
        · rw [(List.mem_replicate.mp hu).2]; exact fun c hc => (List.not_mem_nil hc).elim
        · exact i3 u hu
      · rw [List.flatten_append, List.flatten_replicate_nil, i4]
        rfl
      · rw [List.getLast?_replicate]
        split <;> rfl
    | stroke p =>
      have hm : allMoves (.stroke p :: ds) = p.press :: p.release :: allMoves ds := rfl
      rw [hm] at hS hst ⊢
      obtain ⟨hM, hb, hs, hS, hst⟩ := sound_cons hS hst
      obtain ⟨hM', hb', hs', hS, hst⟩ := sound_cons hS hst
      have hz : p.key ∉ s.down := fun e => hra ((hF.down _ e).2 hM.1)
      obtain ⟨⟨us1, o1, o2, o3, o4⟩, o5, o6, o7, o8⟩ := stroke_part hF.fine hF.last hra hz hM hM' hb hs hb' hs' hpre hc
      have hback : (s.move i p.press.key).move i p.release.key = s := o6
      rw [hback] at hS
      obtain ⟨us, i1, i2, i3, i4, i5⟩ := ih hF hr' hS hst o8 o7
      have hkr : keysRead s.down (p.press :: p.release :: allMoves ds) =
          p.press.readings s.down ++ p.release.readings (toggled s.down p.key) ++ keysRead s.down (allMoves ds) := by
        have hd : toggled (toggled s.down p.key) p.key = s.down := congrArg Session.down o6
        show _ ++ (_ ++ keysRead (toggled (toggled s.down p.key) p.key) _) = _
        rw [hd, List.append_assoc]
        rfl
      rw [hkr]
      refine ⟨_, o1.append i1, ?_, ?_, ?_, hlast _ _ o4 i5⟩
      · intro u hu
        rcases List.mem_append.mp hu with hu | hu
        · exact o2 u hu
        · exact i2 u hu
      · intro u hu c hc
        rcases List.mem_append.mp hu with hu | hu
        · have : c ∈ us1.flatten := List.mem_flatten.mpr ⟨u, hu, hc⟩
          rw [o3] at this
          rw [(List.mem_replicate.mp this).2]
          exact o5
        · exact i3 u hu c hc
      · rw [List.flatten_append, o3, i4]
        show _ = List.replicate _ _ ++ deedText i ((s.move i p.key).move i p.key) ds
        rw [o6]
        rfl

end Repeats

end Asdf
