import Verif.Lemmas.Repeats
import Verif.Spec.Calls

/-! # A function key is pressed and released: the abstract keyboard -/

namespace Asdf

open Spec

namespace Calls

open Typist Loose Movers Holds Repeats

variable {cfg : Config} {L : Layout}

/-! ## The key -/

theorem call_codes {x : Code} (hx : CallCode x) : 0xA0 < x.toNat ∧ isModCode x = false := by
  unfold CallCode at hx
  refine ⟨by omega, ?_⟩
  cases e : isModCode x
  · rfl
  · simp only [isModCode, Bool.and_eq_true, decide_eq_true_eq] at e
    omega

theorem function_same (cfg : Config) (k : Kb) (n : Nat) :
    Same k (k.function cfg n) ∧ (k.function cfg n).rpt = k.rpt ∧ (k.function cfg n).deb = k.deb := by
  unfold Kb.function
  split
  · exact ⟨⟨rfl, rfl, rfl⟩, rfl, rfl⟩
  · exact ⟨⟨rfl, rfl, rfl⟩, rfl, rfl⟩

theorem press_call (k : Kb) {x : Code} (hx : CallCode x) :
    Same k (k.press cfg x) ∧ (k.press cfg x).rpt = k.rpt ∧ (k.press cfg x).deb = k.deb := by
  obtain ⟨h1, _⟩ := call_codes hx
  unfold CallCode at hx
  unfold Kb.press
  split <;> first
    | omega
    | exact function_same cfg k _
    | exact ⟨⟨rfl, rfl, rfl⟩, rfl, rfl⟩
    | (rw [if_neg (by omega)]; exact ⟨⟨rfl, rfl, rfl⟩, rfl, rfl⟩)

theorem release_call (k : Kb) {x : Code} (hx : CallCode x) : k.release cfg x = k := by
  obtain ⟨h1, _⟩ := call_codes hx
  unfold CallCode at hx
  unfold Kb.release
  split <;> first
    | omega
    | rw [if_neg (by omega)]

/-- What a key prints, on any keymap. -/
def messageIn (cfg : Config) (k : Kb) (x : Code) : List Code :=
  if x.toNat = 0xA7 then k.text cfg 1
  else if 0xB7 ≤ x.toNat ∧ x.toNat ≤ 0xC0 then k.text cfg (x.toNat - 0xB6)
  else []

theorem text_same {k k' : Kb} (h : k'.map = k.map) (n : Nat) : k'.text cfg n = k.text cfg n := by
  unfold Kb.text
  rw [h]

theorem messageIn_same {k k' : Kb} (h : k'.map = k.map) (x : Code) : messageIn cfg k' x = messageIn cfg k x := by
  unfold messageIn
  rw [text_same h, text_same h]

theorem messageIn_eq {k : Kb} {i : UInt8} (h : k.map = i) (x : Code) : messageIn fourMaps k x = messageOf i x := by
  subst h
  rfl

/-! ## A scan in which a function key is pressed or released -/

theorem call_scan {pre : List Input} {inp : Input} {z : Nat × Nat} (h : OneScan L pre inp z)
    {x : Code} (hx : (Kb.after cfg L pre).code cfg L z.1 z.2 = x)
    (hcall : CallCode x) (hl : (Kb.after cfg L pre).last = 0xA0)
    (hq : ∀ y ∈ keysOf L, y ≠ z → downAfter pre y.1 y.2 = true → (Kb.after cfg L pre).code cfg L y.1 y.2 ≠ 0xA0) :
    let k := Kb.after cfg L pre
    let k' := Kb.after cfg L (pre ++ [inp])
    Same k k' ∧ k'.rpt.delay = k.rpt.delay ∧ k.logPass cfg L Kb.typedBy inp = [] ∧
      k.logPass cfg L Kb.saidBy inp = if downAfter pre z.1 z.2 then [] else messageIn cfg k x := by
  intro k k'
  obtain ⟨o1, o2⟩ := output_same k
  obtain ⟨A, B, hAB⟩ := List.append_of_mem h.here
  have hnd := keysOf_nodup L
  rw [hAB] at hnd
  obtain ⟨nA, nzB, hdis⟩ := List.nodup_append.mp hnd
  obtain ⟨nz, nB⟩ := List.nodup_cons.mp nzB
  have hzA : z ∉ A := fun e => hdis z e z List.mem_cons_self rfl
  have inA : ∀ y ∈ A, y ∈ keysOf L ∧ y ≠ z := fun y hy =>
    ⟨by rw [hAB]; exact List.mem_append_left _ hy, fun e => hzA (e ▸ hy)⟩
  have inB : ∀ y ∈ B, y ∈ keysOf L ∧ y ≠ z ∧ y ∉ A := fun y hy =>
    ⟨by rw [hAB]; exact List.mem_append_right _ (List.mem_cons_of_mem _ hy), fun e => nz (e ▸ hy),
      fun e => hdis y e y (List.mem_cons_of_mem _ hy) rfl⟩
  have hcode : ∀ r c, k.output.code cfg L r c = k.code cfg L r c := fun r c => o1.code r c
  have hstill : ∀ y ∈ keysOf L, y ≠ z →
      ((k.output.deb y.1 y.2).step (sample inp y.1 y.2)).on = (k.output.deb y.1 y.2).on := by
    intro y hy e
    obtain ⟨s1, s2⟩ := step_eq (cfg := cfg) pre inp hy
    rw [s2, s1, h.same y hy e]
  -- the keys before
  obtain ⟨a1, a2, a3, a4, a5⟩ := keys_quiet (cfg := cfg) (L := L) (inp := inp) A nA (k := k.output)
    (fun y hy => hstill y (inA y hy).1 (inA y hy).2) (fun y hy hd => by
      rw [hcode, o1.last, hl]
      rw [(step_eq (cfg := cfg) pre inp (inA y hy).1).1] at hd
      exact hq y (inA y hy).1 (inA y hy).2 hd)
  have a1' := o1.trans a1
  have hdA : ∀ y, y ∉ A → (A.foldl (fun k y => k.key cfg L (sample inp y.1 y.2) y.1 y.2) k.output).deb y.1 y.2 =
    k.output.deb y.1 y.2 := fun y hy => keys_deb A hy
  generalize hkA : A.foldl (fun k y => k.key cfg L (sample inp y.1 y.2) y.1 y.2) k.output = kA at *
  -- the key
  obtain ⟨z1, z2⟩ := step_eq (cfg := cfg) pre inp h.here
  have hzd := hdA z hzA
  have hon : (kA.deb z.1 z.2).on = downAfter pre z.1 z.2 := by rw [hzd, z1]
  obtain ⟨t1, t2⟩ := key_turn (k := kA) (s := sample inp z.1 z.2) (r := z.1) (c := z.2)
    (by rw [hzd, z2, z1, h.turn])
  rw [hon] at t1
  have hcz : kA.code cfg L z.1 z.2 = x := (a1'.code z.1 z.2).trans hx
  have hgt := (call_codes hcall).1
  have hkz : Same kA (kA.key cfg L (sample inp z.1 z.2) z.1 z.2) ∧
      (kA.key cfg L (sample inp z.1 z.2) z.1 z.2).rpt = kA.rpt := by
    have hs : Same kA (stepDeb kA (sample inp z.1 z.2) z.1 z.2) := ⟨rfl, rfl, rfl⟩
    cases hd : downAfter pre z.1 z.2
    · rw [hd] at t1 hon
      have e : kA.key cfg L (sample inp z.1 z.2) z.1 z.2 = (stepDeb kA (sample inp z.1 z.2) z.1 z.2).press cfg x := by
        unfold Kb.key
        rw [t1, hon, if_pos (by decide), if_pos t2, if_pos (by decide), hcz]
        rfl
      obtain ⟨p1, p2, _⟩ := press_call (cfg := cfg) (stepDeb kA (sample inp z.1 z.2) z.1 z.2) hcall
      rw [e]
      exact ⟨hs.trans p1, p2⟩
    · rw [hd] at t1 hon
      have e : kA.key cfg L (sample inp z.1 z.2) z.1 z.2 = stepDeb kA (sample inp z.1 z.2) z.1 z.2 := by
        unfold Kb.key
        rw [t1, hon, if_pos (by decide), if_pos t2, if_neg (by decide), hcz]
        exact release_call _ hcall
      rw [e]
      exact ⟨hs, rfl⟩
  have hty : kA.typedBy cfg L (sample inp z.1 z.2) z.1 z.2 = [] := by
    unfold Kb.typedBy
    rw [if_pos (by rw [t1, hon]; cases downAfter pre z.1 z.2 <;> decide), hcz, if_neg (by omega)]
  have hsa : kA.saidBy cfg L (sample inp z.1 z.2) z.1 z.2 = if downAfter pre z.1 z.2 then [] else messageIn cfg k x := by
    unfold Kb.saidBy
    rw [hon, t1, hcz]
    cases hd : downAfter pre z.1 z.2
    · rw [if_pos ⟨by decide, rfl, t2⟩]
      exact messageIn_same a1'.map x
    · rw [if_neg (fun e => by cases e.1), if_pos rfl]
  have hkd : ∀ y, y ≠ z → (kA.key cfg L (sample inp z.1 z.2) z.1 z.2).deb y.1 y.2 = kA.deb y.1 y.2 := by
    intro y hy
    rw [key_deb, if_neg]
    rintro ⟨e1, e2⟩
    exact hy (Prod.ext e1 e2)
  obtain ⟨k1, k2⟩ := hkz
  have hz1 := a1'.trans k1
  generalize hkZ : kA.key cfg L (sample inp z.1 z.2) z.1 z.2 = kZ at *
  -- the keys after
  have hdB : ∀ y ∈ B, kZ.deb y.1 y.2 = k.output.deb y.1 y.2 := fun y hy => by
    rw [hkd y (inB y hy).2.1, hdA y (inB y hy).2.2]
  obtain ⟨b1, b2, b3, b4, b5⟩ := keys_quiet (cfg := cfg) (L := L) (inp := inp) B nB (k := kZ)
    (fun y hy => by rw [hdB y hy]; exact hstill y (inB y hy).1 (inB y hy).2.1) (fun y hy hd => by
      rw [hz1.code, hz1.last, hl]
      rw [hdB y hy, (step_eq (cfg := cfg) pre inp (inB y hy).1).1] at hd
      exact hq y (inB y hy).1 (inB y hy).2.1 hd)
  have hk' : k' = B.foldl (fun k y => k.key cfg L (sample inp y.1 y.2) y.1 y.2) kZ := by
    show Kb.after cfg L (pre ++ [inp]) = _
    rw [after_snoc]
    unfold Kb.pass
    rw [hAB, List.foldl_append, List.foldl_cons, hkA, hkZ]
  rw [hk']
  refine ⟨hz1.trans b1, by rw [b3, k2, a3, o2], ?_, ?_⟩
  · show Kb.logKeys _ _ _ _ _ _ = _
    rw [hAB, logKeys_append, a4, hkA]
    show [] ++ (_ ++ _) = _
    rw [hty, hkZ, b4]
    rfl
  · show Kb.logKeys _ _ _ _ _ _ = _
    rw [hAB, logKeys_append, a5, hkA]
    show [] ++ (_ ++ _) = _
    rw [hsa, hkZ, b5, List.nil_append, List.append_nil]

/-! ## Several scans -/

/-- What is typed and printed in these scans. -/
structure Logs (cfg : Config) (L : Layout) (pre more : List Input) (us ms : List (List Code)) : Prop where
  typed : (Kb.after cfg L pre).log cfg L Kb.typedBy more = us
  said : (Kb.after cfg L pre).log cfg L Kb.saidBy more = ms

theorem Logs.append {pre a b : List Input} {us vs ms ns : List (List Code)} (h : Logs cfg L pre a us ms)
    (h' : Logs cfg L (pre ++ a) b vs ns) : Logs cfg L pre (a ++ b) (us ++ vs) (ms ++ ns) := by
  constructor
  · rw [log_append, h.typed, ← after_append, h'.typed]
  · rw [log_append, h.said, ← after_append, h'.said]

theorem Logs.of {pre more : List Input} {us : List (List Code)} (h : Out cfg L pre more us) :
    Logs cfg L pre more us (List.replicate us.length []) := ⟨h.typed, by rw [h.length]; exact h.said⟩

theorem Logs.one {pre : List Input} {inp : Input} {u m : List Code}
    (h1 : (Kb.after cfg L pre).logPass cfg L Kb.typedBy inp = u)
    (h2 : (Kb.after cfg L pre).logPass cfg L Kb.saidBy inp = m) : Logs cfg L pre [inp] [u] [m] :=
  ⟨by show [_] = _; rw [h1], by show [_] = _; rw [h2]⟩

/-- A function key is pressed, held and released. -/
theorem call_part {i : UInt8} {s : Session} (hf : Fine i s) (hl : s.hand.last = none) {p : KeyStroke}
    (h1 : p.key.1 < 8) (h2 : p.key.2 < 8) (hz : p.key ∉ s.down) (hcall : CallCode (s.code i p.key))
    (hb : p.pressBounce.length ≤ 9) (hs : 10 ≤ p.held)
    (hb' : p.releaseBounce.length ≤ 9) (hs' : 10 ≤ p.rest) {d : Nat} {pre : List Input}
    (hpre : Settled openLayout pre (posDown s.down)) (hc : Calm i d s.hand.mods pre) :
    let rs := p.press.readings s.down ++ p.release.readings (toggled s.down p.key)
    (∃ a b, p.held + p.releaseBounce.length + p.rest ≤ b + 10 ∧
      Logs fourMaps openLayout pre rs (List.replicate (a + 1 + b) [])
        (List.replicate a [] ++ ([messageOf i (s.code i p.key)] ++ List.replicate b []))) ∧
    toggled (toggled s.down p.key) p.key = s.down ∧
    Calm i d s.hand.mods (pre ++ rs) ∧ Settled openLayout (pre ++ rs) (posDown s.down) := by
  intro rs
  have hpl := fun q hq => (hf.inside q hq).2
  have q1 : toggled s.down p.key = p.key :: s.down := by
    unfold toggled
    rw [if_neg hz]
  have q3 : toggled (toggled s.down p.key) p.key = s.down := by
    rw [q1]
    unfold toggled
    rw [if_pos List.mem_cons_self, List.erase_cons_head]
  have M1 := moves_one hpl hf.nodup (v := p.press) h1 h2 hb hs
  have M2 := moves_one (toggled_cols hf.nodup hpl h2) (toggled_nodup hf.nodup p.key) (v := p.release) h1 h2 hb' hs'
  have hset1 : Settled openLayout (pre ++ p.press.readings s.down) (posDown (toggled s.down p.key)) := M1.settled hpre
  have hset2 := M2.settled hset1
  rw [show toggled (toggled s.down p.key) p.release.key = s.down from q3] at hset2
  have hS0 : posDown s.down p.key.1 p.key.2 = false := decide_eq_false hz
  have hS1 : posDown (toggled s.down p.key) p.key.1 p.key.2 = true :=
    decide_eq_true (by rw [q1]; exact List.mem_cons_self)
  have hq0 : ∀ y ∈ keysOf openLayout, posDown s.down y.1 y.2 = true →
      s.hand.mods.code fourMaps openLayout i y.1 y.2 ≠ 0xA0 := fun y hy hd => (hf.held y hy hd).2 hl
  have hdown1 : ∀ y : Nat × Nat, y ≠ p.key → posDown (toggled s.down p.key) y.1 y.2 = posDown s.down y.1 y.2 :=
    fun y e => M1.same y.1 y.2 e
  have hne : s.code i p.key ≠ 0xA0 := by
    intro e
    have := (call_codes hcall).1
    rw [e] at this
    exact absurd this (by decide)
  have hq1 : ∀ y ∈ keysOf openLayout, posDown (toggled s.down p.key) y.1 y.2 = true →
      s.hand.mods.code fourMaps openLayout i y.1 y.2 ≠ 0xA0 := by
    intro y hy hd
    by_cases e : y = p.key
    · subst e
      exact hne
    · rw [hdown1 y e] at hd
      exact hq0 y hy hd
  have A1 := Stays.take M1 hpre
  obtain ⟨inp1, e1, e2, A3, A4⟩ := accepted M1 hpre
  have D1 := Stays.drop M1 hpre
  have E1 := Stays.take M2 hset1
  obtain ⟨inp2, e3, e4, E3, E4⟩ := accepted M2 hset1
  have F1 := Stays.drop M2 hset1
  have hj1 := (accept_bounds (posDown s.down p.press.key.1 p.press.key.2) M1.len).2
  have hsz1 := M1.size
  have hsz2 := M2.size
  generalize hR1 : p.press.readings s.down = R1 at *
  generalize hR2 : p.release.readings (toggled s.down p.key) = R2 at *
  have hrs : rs = R1 ++ R2 := by
    show _ ++ p.release.readings (toggled s.down p.key) = _
    rw [hR1, hR2]
  generalize acceptAt (posDown s.down p.press.key.1 p.press.key.2) p.press.bounce = j1 at *
  generalize acceptAt (posDown (toggled s.down p.key) p.release.key.1 p.release.key.2) p.release.bounce = j2 at *
  -- until the press is accepted
  obtain ⟨a1, a2, a3⟩ := quiet_part (cfg := fourMaps) _ _ A1 (fun y hy hd => by
    rw [hc.code, hc.last]
    exact hq0 y hy hd)
  have ha := hc.same a2 a3
  have hAd : ∀ y ∈ keysOf openLayout, downAfter (pre ++ R1.take j1) y.1 y.2 = posDown s.down y.1 y.2 := by
    intro y hy
    have := A1 (R1.take j1).length (Nat.le_refl _) y hy
    rwa [List.take_length] at this
  -- the press
  obtain ⟨b1, b2, b3, b4⟩ := call_scan (cfg := fourMaps) A3 (x := s.code i p.key) (ha.code _ _) hcall ha.last
    (fun y hy e hd => by
      rw [ha.code]
      rw [hAd y hy] at hd
      exact hq0 y hy hd)
  rw [A4, show posDown s.down p.press.key.1 p.press.key.2 = false from hS0, if_neg (by decide), messageIn_eq ha.map] at b4
  have hpress := Logs.one b3 b4
  have hb1 := ha.same b1 b2
  rw [List.append_assoc, ← e2] at hb1
  -- until the end of the first movement
  obtain ⟨d1, d2, d3⟩ := quiet_part (cfg := fourMaps) _ _ D1 (fun y hy hd => by
    rw [hb1.code, hb1.last]
    exact hq1 y hy hd)
  have hd1 := hb1.same d2 d3
  rw [List.append_assoc, List.take_append_drop] at hd1
  -- until the release is accepted
  obtain ⟨f1, f2, f3⟩ := quiet_part (cfg := fourMaps) _ _ E1 (fun y hy hd => by
    rw [hd1.code, hd1.last]
    exact hq1 y hy hd)
  have hf1 := hd1.same f2 f3
  have hEd : ∀ y ∈ keysOf openLayout, y ≠ p.key → downAfter (pre ++ R1 ++ R2.take j2) y.1 y.2 = posDown s.down y.1 y.2 := by
    intro y hy e
    have := E1 (R2.take j2).length (Nat.le_refl _) y hy
    rw [List.take_length] at this
    rw [this]
    exact hdown1 y e
  -- the release
  obtain ⟨g1, g2, g3, g4⟩ := call_scan (cfg := fourMaps) E3 (x := s.code i p.key) (hf1.code _ _) hcall hf1.last
    (fun y hy e hd => by
      rw [hf1.code]
      rw [hEd y hy e] at hd
      exact hq0 y hy hd)
  rw [E4, show posDown (toggled s.down p.key) p.release.key.1 p.release.key.2 = true from hS1, if_pos rfl] at g4
  have hrel := Logs.one g3 g4
  have hg1 := hf1.same g1 g2
  rw [List.append_assoc (pre ++ R1), ← e4] at hg1
  -- the rest
  rw [show toggled (toggled s.down p.key) p.release.key = s.down from q3] at F1
  obtain ⟨k1, k2, k3⟩ := quiet_part (cfg := fourMaps) _ _ F1 (fun y hy hd => by
    rw [hg1.code, hg1.last]
    exact hq0 y hy hd)
  have hk1 := hg1.same k2 k3
  rw [List.append_assoc (pre ++ R1), List.take_append_drop] at hk1
  have d1' : Out fourMaps openLayout (pre ++ R1.take j1 ++ [inp1]) (R1.drop (j1 + 1))
      (List.replicate (R1.drop (j1 + 1)).length []) := by
    rw [List.append_assoc, ← e2]
    exact d1
  have k1' : Out fourMaps openLayout (pre ++ R1 ++ R2.take j2 ++ [inp2]) (R2.drop (j2 + 1))
      (List.replicate (R2.drop (j2 + 1)).length []) := by
    rw [List.append_assoc (pre ++ R1), ← e4]
    exact k1
  have hout1 := (Logs.of a1).append (hpress.append (Logs.of d1'))
  have hout2 := (Logs.of f1).append (hrel.append (Logs.of k1'))
  rw [← e1] at hout1
  rw [← e3] at hout2
  have hout := hout1.append hout2
  rw [← hrs] at hout
  have hl2 := congrArg List.length e3
  simp only [List.length_append, List.length_singleton, List.length_take, List.length_drop] at hl2
  refine ⟨⟨(R1.take j1).length, (R1.drop (j1 + 1)).length + R2.length, ?_, ?_⟩, q3, by rw [hrs, ← List.append_assoc]; exact hk1,
    by rw [hrs, ← List.append_assoc]; exact hset2⟩
  · have e5 : p.press.bounce.length = p.pressBounce.length := rfl
    have e6 : p.press.steady = p.held := rfl
    have e7 : p.release.bounce.length = p.releaseBounce.length := rfl
    have e8 : p.release.steady = p.rest := rfl
    rw [List.length_drop]
    omega
  · have r1 : ∀ n m : Nat, List.replicate n ([] : List Code) ++ List.replicate m [] = List.replicate (n + m) [] :=
      fun n m => List.replicate_append_replicate
    have r2 : ∀ n : Nat, [] :: List.replicate n ([] : List Code) = List.replicate (n + 1) [] := fun n => rfl
    have r3 : [[]] = List.replicate 1 ([] : List Code) := rfl
    simp only [List.length_replicate, r3, r1, List.append_assoc] at hout
    refine Eq.mp (congr (congrArg (Logs fourMaps openLayout pre rs) ?_) ?_) hout
    · congr 1
      simp only [List.length_take, List.length_drop]
      omega
    · congr 1
      congr 1
      congr 1
      simp only [List.length_take, List.length_drop]
      omega

end Calls

end Asdf
