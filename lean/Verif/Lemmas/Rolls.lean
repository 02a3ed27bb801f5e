import Verif.Lemmas.Repeats
import Verif.Spec.Rolls
import Verif.Spec.Channel

/-! # Keys overlap and repeat: the abstract keyboard -/

namespace Asdf

open Spec

namespace Rolls

open Typist Loose Movers Holds Repeats

variable {cfg : Config} {L : Layout}

theorem left_eq (d n : Nat) : leftAt d n = leftAfter d n := rfl

/-! ## The delay when REPEAT is up -/

theorem key_rest {k : Kb} {s : Bool} {r c : Nat} (h : ((k.deb r c).step s).on = (k.deb r c).on) :
    (k.key cfg L s r c).rpt.rest = k.rpt.rest := by
  unfold Kb.key
  by_cases hp : s ≠ (k.deb r c).on
  · have hl : ¬ (k.deb r c).left ≤ 1 := by
      intro hl
      unfold Deb.step at h
      rw [if_neg hp, if_pos hl] at h
      exact hp h
    rw [if_pos hp, if_neg hl]
  · rw [if_neg hp]
    split
    · split
      · show (if k.last = k.last then k.rpt.tick else k.rpt.tick.restart).rest = _
        rw [if_pos rfl]
        rfl
      · rfl
    · rfl

theorem keys_rest {inp : Input} (xs : List (Nat × Nat)) (hn : xs.Nodup) {k : Kb}
    (h : ∀ y ∈ xs, ((k.deb y.1 y.2).step (sample inp y.1 y.2)).on = (k.deb y.1 y.2).on) :
    (xs.foldl (fun k y => k.key cfg L (sample inp y.1 y.2) y.1 y.2) k).rpt.rest = k.rpt.rest := by
  induction xs generalizing k with
  | nil => rfl
  | cons y xs ih =>
    obtain ⟨n1, n2⟩ := List.nodup_cons.mp hn
    rw [List.foldl_cons, ih n2 fun z hz => ?_]
    · exact key_rest (h y List.mem_cons_self)
    · rw [key_deb, if_neg]
      · exact h z (List.mem_cons_of_mem _ hz)
      · rintro ⟨e1, e2⟩
        exact n1 (by rw [← Prod.ext e1 e2]; exact hz)

theorem still_rest {D : Down} (more pre : List Input) (h : Stays L D pre more) :
    (Kb.after cfg L (pre ++ more)).rpt.rest = (Kb.after cfg L pre).rpt.rest := by
  induction more generalizing pre with
  | nil => rw [List.append_nil]
  | cons inp more ih =>
    have e : pre ++ inp :: more = pre ++ [inp] ++ more := by rw [List.append_assoc]; rfl
    rw [e, ih _ h.tail, after_snoc]
    unfold Kb.pass
    rw [keys_rest (keysOf L) (keysOf_nodup L), (output_same _).2]
    intro y hy
    obtain ⟨hr, hc⟩ := (mem_keysOf L).mp hy
    obtain ⟨s1, s2⟩ := step_eq (cfg := cfg) pre inp hy
    rw [s1, s2]
    exact h.unmoved [inp] [] rfl y.1 y.2 hr hc

/-! ## One scan in which one key moves -/

/-- The scan around the key that moves. -/
theorem turn_scan {pre : List Input} {inp : Input} {z : Nat × Nat} (h : OneScan L pre inp z) :
    let k := Kb.after cfg L pre
    let k' := Kb.after cfg L (pre ++ [inp])
    ∃ A B kA, keysOf L = A ++ z :: B ∧ Same k kA ∧
      kA.rpt.left = leftAfter k.rpt.left (A.countP fun y =>
        downAfter pre y.1 y.2 && sample inp y.1 y.2 && decide (k.code cfg L y.1 y.2 = k.last)) ∧
      kA.rpt.delay = k.rpt.delay ∧ kA.rpt.rest = k.rpt.rest ∧ (kA.deb z.1 z.2).on = downAfter pre z.1 z.2 ∧
      sample inp z.1 z.2 = (!downAfter pre z.1 z.2) ∧ (kA.deb z.1 z.2).left ≤ 1 ∧
      ∀ kZ, kZ = kA.key cfg L (sample inp z.1 z.2) z.1 z.2 →
        let tB := B.countP fun y =>
          downAfter pre y.1 y.2 && sample inp y.1 y.2 && decide (kZ.code cfg L y.1 y.2 = kZ.last)
        Same kZ k' ∧ k'.rpt.left = leftAfter kZ.rpt.left tB ∧ k'.rpt.delay = kZ.rpt.delay ∧
        k'.rpt.rest = kZ.rpt.rest ∧
        k.logPass cfg L Kb.typedBy inp = List.replicate (repsIn k.rpt.left (A.countP fun y =>
            downAfter pre y.1 y.2 && sample inp y.1 y.2 && decide (k.code cfg L y.1 y.2 = k.last))) k.last ++
          (kA.typedBy cfg L (sample inp z.1 z.2) z.1 z.2 ++ List.replicate (repsIn kZ.rpt.left tB) kZ.last) ∧
        k.logPass cfg L Kb.saidBy inp = kA.saidBy cfg L (sample inp z.1 z.2) z.1 z.2 := by
  intro k k'
  obtain ⟨o1, o2⟩ := output_same k
  obtain ⟨A, B, hAB⟩ := List.append_of_mem h.here
  have hnd := keysOf_nodup L
  rw [hAB] at hnd
  obtain ⟨nA, nzB, hdis⟩ := List.nodup_append.mp hnd
  obtain ⟨nz, nB⟩ := List.nodup_cons.mp nzB
  have hzA : z ∉ A := fun e => hdis z e z List.mem_cons_self rfl
  have inA : ∀ y ∈ A, y ∈ keysOf L ∧ y ≠ z := fun y hy =>
    ⟨by rw [hAB]; exact List.mem_append_left _ hy, fun e => hzA (e ▸ hy)⟩
  have inB : ∀ y ∈ B, y ∈ keysOf L ∧ y ≠ z ∧ y ∉ A := fun y hy =>
    ⟨by rw [hAB]; exact List.mem_append_right _ (List.mem_cons_of_mem _ hy), fun e => nz (e ▸ hy),
      fun e => hdis y e y (List.mem_cons_of_mem _ hy) rfl⟩
  have hstill : ∀ y ∈ keysOf L, y ≠ z →
      ((k.output.deb y.1 y.2).step (sample inp y.1 y.2)).on = (k.output.deb y.1 y.2).on := by
    intro y hy e
    obtain ⟨s1, s2⟩ := step_eq (cfg := cfg) pre inp hy
    rw [s2, s1, h.same y hy e]
  obtain ⟨a1, a2, a3⟩ := keys_hold (cfg := cfg) (L := L) (inp := inp) (downAfter pre) (fun r c => k.code cfg L r c)
    k.last A nA (k := k.output) o1.last (fun y _ => o1.code y.1 y.2)
    (fun y hy => (step_eq (cfg := cfg) pre inp (inA y hy).1).1) (fun y hy => hstill y (inA y hy).1 (inA y hy).2)
  have a4 := keys_delay (cfg := cfg) (L := L) (inp := inp) A nA (k := k.output)
    (fun y hy => hstill y (inA y hy).1 (inA y hy).2)
  have a4' := keys_rest (cfg := cfg) (L := L) (inp := inp) A nA (k := k.output)
    (fun y hy => hstill y (inA y hy).1 (inA y hy).2)
  have a5 := keys_silent (cfg := cfg) (L := L) (inp := inp) A nA (k := k.output)
    (fun y hy => hstill y (inA y hy).1 (inA y hy).2)
  have hdA : ∀ y, y ∉ A → (A.foldl (fun k y => k.key cfg L (sample inp y.1 y.2) y.1 y.2) k.output).deb y.1 y.2 =
    k.output.deb y.1 y.2 := fun y hy => keys_deb A hy
  rw [o2] at a2 a3 a4 a4'
  generalize hkA : A.foldl (fun k y => k.key cfg L (sample inp y.1 y.2) y.1 y.2) k.output = kA at *
  obtain ⟨z1, z2⟩ := step_eq (cfg := cfg) pre inp h.here
  have hzd := hdA z hzA
  have hon : (kA.deb z.1 z.2).on = downAfter pre z.1 z.2 := by rw [hzd, z1]
  obtain ⟨t1, t2⟩ := key_turn (k := kA) (s := sample inp z.1 z.2) (r := z.1) (c := z.2)
    (by rw [hzd, z2, z1, h.turn])
  rw [hon] at t1
  refine ⟨A, B, kA, hAB, o1.trans a1, a2, a4, a4', hon, t1, t2, ?_⟩
  intro kZ hkZ tB
  have hkd : ∀ y, y ≠ z → kZ.deb y.1 y.2 = kA.deb y.1 y.2 := by
    intro y hy
    rw [hkZ, key_deb, if_neg]
    rintro ⟨e1, e2⟩
    exact hy (Prod.ext e1 e2)
  have hdB : ∀ y ∈ B, kZ.deb y.1 y.2 = k.output.deb y.1 y.2 := fun y hy => by
    rw [hkd y (inB y hy).2.1, hdA y (inB y hy).2.2]
  obtain ⟨b1, b2, b3⟩ := keys_hold (cfg := cfg) (L := L) (inp := inp) (downAfter pre) (fun r c => kZ.code cfg L r c)
    kZ.last B nB (k := kZ) rfl (fun y _ => rfl)
    (fun y hy => by rw [hdB y hy]; exact (step_eq (cfg := cfg) pre inp (inB y hy).1).1)
    (fun y hy => by rw [hdB y hy]; exact hstill y (inB y hy).1 (inB y hy).2.1)
  have b4 := keys_delay (cfg := cfg) (L := L) (inp := inp) B nB (k := kZ)
    (fun y hy => by rw [hdB y hy]; exact hstill y (inB y hy).1 (inB y hy).2.1)
  have b4' := keys_rest (cfg := cfg) (L := L) (inp := inp) B nB (k := kZ)
    (fun y hy => by rw [hdB y hy]; exact hstill y (inB y hy).1 (inB y hy).2.1)
  have b5 := keys_silent (cfg := cfg) (L := L) (inp := inp) B nB (k := kZ)
    (fun y hy => by rw [hdB y hy]; exact hstill y (inB y hy).1 (inB y hy).2.1)
  have hk' : k' = B.foldl (fun k y => k.key cfg L (sample inp y.1 y.2) y.1 y.2) kZ := by
    show Kb.after cfg L (pre ++ [inp]) = _
    rw [after_snoc]
    unfold Kb.pass
    rw [hAB, List.foldl_append, List.foldl_cons, hkA, hkZ]
  rw [hk']
  refine ⟨b1, b2, b4, b4', ?_, ?_⟩
  · show Kb.logKeys _ _ _ _ _ _ = _
    rw [hAB, logKeys_append, a3, hkA]
    show _ ++ (_ ++ _) = _
    rw [← hkZ, b3]
  · show Kb.logKeys _ _ _ _ _ _ = _
    rw [hAB, logKeys_append, a5, hkA]
    show [] ++ (_ ++ _) = _
    rw [← hkZ, b5, List.append_nil]
    rfl

/-! ## The order of the keys -/

theorem keys_sorted : (keysOf openLayout).Pairwise fun a b => readFirst a b = true := by decide +kernel

theorem readFirst_asymm {y z : Nat × Nat} (h : readFirst y z = true) : readFirst z y = false := by
  have h := of_decide_eq_true h
  refine decide_eq_false fun e => ?_
  omega

theorem readFirst_self (z : Nat × Nat) : readFirst z z = false := decide_eq_false (by omega)

theorem sides {A B : List (Nat × Nat)} {z : Nat × Nat} (h : keysOf openLayout = A ++ z :: B) {y : Nat × Nat}
    (hy : y ∈ keysOf openLayout) : (y ∈ A ↔ readFirst y z = true) ∧ (y ∈ B ↔ readFirst z y = true) := by
  have hs := keys_sorted
  rw [h] at hs hy
  obtain ⟨_, s2, s3⟩ := List.pairwise_append.mp hs
  obtain ⟨s4, _⟩ := List.pairwise_cons.mp s2
  have hA : y ∈ A → readFirst y z = true := fun e => s3 y e z List.mem_cons_self
  have hB : y ∈ B → readFirst z y = true := s4 y
  refine ⟨⟨hA, fun e => ?_⟩, ⟨hB, fun e => ?_⟩⟩
  · rcases List.mem_append.mp hy with hy | hy
    · exact hy
    · rcases List.mem_cons.mp hy with rfl | hy
      · rw [readFirst_self] at e; cases e
      · rw [readFirst_asymm (hB hy)] at e; cases e
  · rcases List.mem_append.mp hy with hy | hy
    · rw [readFirst_asymm (hA hy)] at e; cases e
    · rcases List.mem_cons.mp hy with rfl | hy
      · rw [readFirst_self] at e; cases e
      · exact hy

/-- At most one key counts. -/
theorem count_only {A : List (Nat × Nat)} (hn : A.Nodup) {P : Nat × Nat → Bool} {w : Nat × Nat}
    (h : ∀ y ∈ A, P y = true → y = w) : A.countP P = (decide (w ∈ A) && P w).toNat := by
  induction A with
  | nil => simp
  | cons a A ih =>
    obtain ⟨n1, n2⟩ := List.nodup_cons.mp hn
    rw [List.countP_cons, ih n2 fun y hy => h y (List.mem_cons_of_mem _ hy)]
    by_cases e : P a = true
    · have := h a List.mem_cons_self e
      subst this
      simp [e, n1]
    · by_cases e' : w = a
      · subst e'
        simp [e]
      · simp [e, e']

theorem count_none {A : List (Nat × Nat)} {P : Nat × Nat → Bool} (h : ∀ y ∈ A, P y = false) : A.countP P = 0 :=
  List.countP_eq_zero.mpr fun y hy => by rw [h y hy]; decide

theorem sum_zero {f : Input → Nat} (h : ∀ x, f x = 0) {l : List Input} : (l.map f).sum = 0 := by
  induction l with
  | nil => rfl
  | cons x l ih => rw [List.map_cons, List.sum_cons, h, ih]

/-! ## The state -/

/-- What the keyboard knows of the session. -/
structure Beat (i : UInt8) (s : Session) (t : Rpt) (pre : List Input) : Prop where
  map : (Kb.after fourMaps openLayout pre).map = i
  mods : (Kb.after fourMaps openLayout pre).mods = s.hand.mods
  last : (Kb.after fourMaps openLayout pre).last = s.lastCode
  rpt : (Kb.after fourMaps openLayout pre).rpt = t
  lt : ∀ y ∈ s.hand.last, y.2.toNat < 0xA0

variable {i : UInt8} {s : Session} {t : Rpt} {pre : List Input}

theorem rpt_ext {a b : Rpt} (h1 : a.delay = b.delay) (h2 : a.rest = b.rest) (h3 : a.left = b.left) : a = b := by
  cases a
  cases b
  cases h1
  cases h2
  cases h3
  rfl

theorem Beat.code (h : Beat i s t pre) (y c : Nat) :
    (Kb.after fourMaps openLayout pre).code fourMaps openLayout y c = s.hand.mods.code fourMaps openLayout i y c := by
  rw [code_eq h.map, h.mods]

theorem lastCode_none (h : s.hand.last = none) : s.lastCode = 0xA0 := by
  unfold Session.lastCode
  rw [h]
  rfl

theorem lastCode_some {z : Nat × Nat} {c : Code} (h : s.hand.last = some (z, c)) : s.lastCode = c := by
  unfold Session.lastCode
  rw [h]
  rfl

/-- A key that is held and has the last code is the one that repeats. -/
theorem repeating_of (hf : Fine i s) {y : Nat × Nat} (hy : y ∈ s.down) (hc : s.code i y = s.lastCode) :
    s.repeating i = some y := by
  obtain ⟨h1, h2⟩ := hf.holds y hy
  cases e : s.hand.last with
  | none =>
    rw [lastCode_none e] at hc
    exact absurd hc (h2 e)
  | some w =>
    obtain ⟨z, c⟩ := w
    rw [lastCode_some e] at hc
    have hz : z = y := h1 (z, c) (by rw [e]; rfl) hc.symm
    subst hz
    unfold Session.repeating
    rw [e]
    exact if_pos ⟨hy, hc⟩

theorem repeating_some {z : Nat × Nat} (h : s.repeating i = some z) :
    s.hand.last = some (z, s.lastCode) ∧ z ∈ s.down ∧ s.code i z = s.lastCode := by
  unfold Session.repeating at h
  cases e : s.hand.last with
  | none => rw [e] at h; cases h
  | some w =>
    obtain ⟨y, c⟩ := w
    rw [e] at h
    have h : (if y ∈ s.down ∧ s.code i y = c then some y else none) = some z := h
    split at h
    · rename_i hh
      cases h
      rw [lastCode_some e]
      exact ⟨rfl, hh⟩
    · cases h

theorem mem_down (hf : Fine i s) {z : Nat × Nat} (hz : z ∈ s.down) : z ∈ keysOf openLayout :=
  (mem_keysOf openLayout).mpr (hf.inside z hz)

/-- The closed readings of the key that repeats. -/
def closedIn (w : Option (Nat × Nat)) (more : List Input) : Nat :=
  match w with
  | none => 0
  | some z => (samplesOf more z.1 z.2).count true

/-- Scans in which no movement takes effect. -/
theorem still_part (hf : Fine i s) (hB : Beat i s t pre) {more : List Input}
    (hst : Stays openLayout (posDown s.down) pre more) :
    let n := closedIn (s.repeating i) more
    ∃ us, Out fourMaps openLayout pre more us ∧ (∀ u ∈ us, u.length ≤ 1) ∧
      us.flatten = List.replicate (repsIn t.left n) s.lastCode ∧ Beat i s (t.ticks n) (pre ++ more) := by
  intro n
  have hrest := still_rest (cfg := fourMaps) more pre hst
  cases e : s.repeating i with
  | none =>
    have hn : n = 0 := by show closedIn (s.repeating i) more = 0; rw [e]; rfl
    have hq : ∀ y ∈ keysOf openLayout, posDown s.down y.1 y.2 = true →
        (Kb.after fourMaps openLayout pre).code fourMaps openLayout y.1 y.2 ≠ (Kb.after fourMaps openLayout pre).last := by
      intro y _ hd hc
      rw [hB.code, hB.last] at hc
      have := repeating_of hf (of_decide_eq_true hd) hc
      rw [e] at this
      cases this
    obtain ⟨o1, o2, o3⟩ := quiet_part more pre hst hq
    have hun : Unmoved openLayout pre more := by
      intro u v huv r c hr hc
      have h1 := hst u.length (by rw [huv, List.length_append]; omega) (r, c) ((mem_keysOf openLayout).mpr ⟨hr, hc⟩)
      rw [huv, List.take_left] at h1
      exact h1.trans (hst.here (r, c) ((mem_keysOf openLayout).mpr ⟨hr, hc⟩)).symm
    have hleft := (hold (cfg := fourMaps) pre more hun).2.1
    have h0 : ticks openLayout (downAfter pre) (fun r c => (Kb.after fourMaps openLayout pre).code fourMaps openLayout r c)
        (Kb.after fourMaps openLayout pre).last more = 0 := by
      refine sum_zero fun inp => count_none fun y hy => ?_
      cases hd : downAfter pre y.1 y.2
      · rfl
      · rw [decide_eq_false (hq y hy ((hst.here y hy).symm.trans hd)), Bool.and_false]
    rw [h0, leftAfter_zero] at hleft
    refine ⟨_, o1, fun u hu => by rw [(List.mem_replicate.mp hu).2]; exact Nat.zero_le _, ?_,
      o2.map.trans hB.map, o2.mods.trans hB.mods, o2.last.trans hB.last, ?_, hB.lt⟩
    · rw [hn, repsIn_zero]
      simp
    · rw [← hB.rpt]
      refine rpt_ext o3 hrest ?_
      rw [hn]
      show _ = leftAt _ 0
      rw [left_eq, leftAfter_zero, hleft]
  | some z =>
    have hn : n = (samplesOf more z.1 z.2).count true := by
      show closedIn (s.repeating i) more = _
      rw [e]
      rfl
    obtain ⟨r1, r2, r3⟩ := repeating_some e
    obtain ⟨us, o1, o2, o3, o4, o5, o6⟩ := repeat_part (cfg := fourMaps) (mem_down hf r2) (decide_eq_true r2) more pre hst
      (by rw [hB.code, hB.last]; exact r3) (fun y _ hyz hd hc => by
        rw [hB.code, hB.last] at hc
        have := repeating_of hf (of_decide_eq_true hd) hc
        rw [e] at this
        cases this
        exact hyz rfl)
    rw [hB.rpt, ← hn, hB.last] at o3
    rw [← hn] at o5
    exact ⟨us, o1, o2, o3, o4.map.trans hB.map, o4.mods.trans hB.mods, o4.last.trans hB.last, by
      rw [← hB.rpt]; exact rpt_ext o6 hrest o5, hB.lt⟩

/-! ## The scan in which a movement takes effect -/

theorem move_hand (s : Session) (z : Nat × Nat) : (s.move i z).hand =
    if isModCode (s.code i z) then { s.hand with mods := s.hand.mods.event (s.code i z) (decide (z ∉ s.down)) }
    else if z ∉ s.down then { s.hand with last := some (z, s.code i z) }
    else { s.hand with last := s.hand.last.filter fun y => y.2 != s.code i z } := by
  show s.hand.key fourMaps openLayout i (decide (z ∈ s.down)) (decide (z ∉ s.down)) z = _
  unfold Hand.key
  by_cases h : z ∈ s.down
  · rw [decide_eq_true h, decide_eq_false (not_not_intro h), if_neg (by decide), if_neg (not_not_intro h)]
    rfl
  · rw [decide_eq_false h, decide_eq_true h, if_neg (by decide), if_pos h]
    rfl

/-- The readings of the key that repeats in the scan in which `z` moves: before and after `z`. -/
def scanBefore (w : Option (Nat × Nat)) (z : Nat × Nat) : Nat :=
  match w with
  | none => 0
  | some y => (readFirst y z).toNat

def scanBehind (w : Option (Nat × Nat)) (z : Nat × Nat) : Nat :=
  match w with
  | none => 0
  | some y => (readFirst z y).toNat

/-- The key itself. -/
theorem event_key (hM : MayToggle i s z) (hB : Beat i s t pre) {kA : Kb}
    (hS : Same (Kb.after fourMaps openLayout pre) kA) {t' : Rpt} (hd : kA.rpt = t') {b : Bool} (hb : b = decide (z ∉ s.down))
    (hon : (kA.deb z.1 z.2).on = !b) (hlow : (kA.deb z.1 z.2).left ≤ 1) :
    let kZ := kA.key fourMaps openLayout b z.1 z.2
    kZ.map = i ∧ kZ.mods = (s.move i z).hand.mods ∧ kZ.last = (s.move i z).lastCode ∧
      kZ.rpt = (if s.text i z = [] then t' else t'.restart) ∧
      (∀ y ∈ (s.move i z).hand.last, y.2.toNat < 0xA0) ∧
      kA.typedBy fourMaps openLayout b z.1 z.2 = s.text i z ∧ kA.saidBy fourMaps openLayout b z.1 z.2 = [] := by
  intro kZ
  have hmap := hS.map.trans hB.map
  have hmods := hS.mods.trans hB.mods
  have hlast := hS.last.trans hB.last
  have hcz : kA.code fourMaps openLayout z.1 z.2 = s.code i z := by
    rw [code_eq hmap, hmods]
    rfl
  have hh := move_hand (i := i) s z
  have htidy := hM.2.2.1
  have hbne : b ≠ (kA.deb z.1 z.2).on := by rw [hon]; cases b <;> decide
  have hkz : kZ = if b then (stepDeb kA b z.1 z.2).press fourMaps (s.code i z)
      else (stepDeb kA b z.1 z.2).release fourMaps (s.code i z) := by
    show kA.key fourMaps openLayout b z.1 z.2 = _
    unfold Kb.key
    rw [if_pos hbne, if_pos hlow, hcz]
    rfl
  have hty : kA.typedBy fourMaps openLayout b z.1 z.2 =
      if b = true ∧ (s.code i z).toNat ≤ 0xA0 then [s.code i z] else [] := by
    unfold Kb.typedBy
    rw [if_pos hbne, hcz]
    by_cases e : b = true ∧ (s.code i z).toNat ≤ 0xA0
    · rw [if_pos e, if_pos ⟨e.1, hlow, e.2⟩]
    · rw [if_neg e, if_neg (fun h => e ⟨h.1, h.2.2⟩)]
  have hsa : (s.code i z).toNat ≤ 0xA5 → kA.saidBy fourMaps openLayout b z.1 z.2 = [] := by
    intro hx
    unfold Kb.saidBy
    rw [hcz]
    split
    · dsimp only
      rw [if_neg (by omega), if_neg (by omega)]
    · rfl
  by_cases hm : isModCode (s.code i z) = true
  · -- a modifier
    rw [if_pos hm] at hh
    have hx : 0xA1 ≤ (s.code i z).toNat ∧ (s.code i z).toNat ≤ 0xA5 := by
      unfold isModCode at hm
      rw [Bool.and_eq_true, decide_eq_true_eq, decide_eq_true_eq] at hm
      exact hm
    have htext : s.text i z = [] := by
      unfold Session.text
      rw [hm]
      split <;> rfl
    have hk : kZ.map = kA.map ∧ kZ.rpt = kA.rpt ∧ kZ.last = kA.last ∧ kZ.mods = kA.mods.event (s.code i z) b := by
      rw [hkz]
      cases b
      · exact release_mod (cfg := fourMaps) (stepDeb kA false z.1 z.2) hm
      · exact press_mod (cfg := fourMaps) (stepDeb kA true z.1 z.2) hm
    obtain ⟨k1, k2, k3, k4⟩ := hk
    have hl' : (s.move i z).hand.last = s.hand.last := by rw [hh]
    refine ⟨k1.trans hmap, ?_, ?_, ?_, ?_, ?_, hsa hx.2⟩
    · rw [k4, hmods, hh, hb]
    · rw [k3, hlast]
      unfold Session.lastCode
      rw [hl']
    · rw [htext, if_pos rfl, k2, hd]
    · rw [hl']
      exact hB.lt
    · rw [hty, htext, if_neg (by omega)]
  · rw [if_neg hm] at hh
    have hnot : ¬ IsModKey fourMaps openLayout i z.1 z.2 := by
      rintro ⟨x, h1, h2⟩
      exact hm (by rw [show s.code i z = x from h2 _]; exact h1)
    by_cases hz : z ∈ s.down
    · -- a release
      rw [if_neg (not_not_intro hz)] at hh
      have hb0 : b = false := hb.trans (decide_eq_false (not_not_intro hz))
      have hle : (s.code i z).toNat ≤ 0xA0 := by
        rcases htidy.release (decide_eq_true hz) (decide_eq_false (not_not_intro hz)) with e | e
        · exact absurd e hnot
        · exact e
      have htext : s.text i z = [] := by
        unfold Session.text
        rw [if_pos hz]
      have hk : kZ = { stepDeb kA b z.1 z.2 with last := if kA.last = s.code i z then 0xA0 else kA.last } := by
        rw [hkz, hb0, if_neg (by decide)]
        exact release_code fourMaps _ _ hle
      have hl' : (s.move i z).hand.last = s.hand.last.filter fun y => y.2 != s.code i z := by rw [hh]
      refine ⟨by rw [hk]; exact hmap, ?_, ?_, ?_, ?_, ?_, hsa (by omega)⟩
      · rw [hk, hh]
        exact hmods
      · rw [hk]
        show (if kA.last = s.code i z then 0xA0 else kA.last) = _
        rw [hlast]
        cases e : s.hand.last with
        | none =>
          rw [lastCode_none e, lastCode_none (s := s.move i z) (by rw [hl', e]; rfl)]
          split <;> rfl
        | some y =>
          obtain ⟨y, c⟩ := y
          rw [lastCode_some e]
          by_cases ec : c = s.code i z
          · rw [if_pos ec, lastCode_none (s := s.move i z)]
            rw [hl', e, ec]
            simp
          · rw [if_neg ec, lastCode_some (s := s.move i z) (z := y) (c := c)]
            rw [hl', e]
            simp [ec]
      · rw [htext, if_pos rfl, hk]
        exact hd
      · rw [hl']
        intro y hy
        refine hB.lt y ?_
        cases e : s.hand.last with
        | none => rw [e] at hy; cases hy
        | some w =>
          rw [e] at hy
          exact (Option.mem_filter_iff.mp hy).1
      · rw [hty, htext, if_neg (by rw [hb0]; exact fun e => by cases e.1)]
    · -- a press
      rw [if_pos hz] at hh
      have hb1 : b = true := hb.trans (decide_eq_true hz)
      obtain ⟨hlt, hnew⟩ : (s.code i z).toNat < 0xA0 ∧ ∀ y ∈ s.hand.last, y.2 ≠ s.code i z := by
        rcases htidy.press (decide_eq_false hz) (decide_eq_true hz) with e | e
        · exact absurd e hnot
        · exact e
      have htext : s.text i z = [s.code i z] := by
        unfold Session.text
        rw [if_neg hz, if_neg hm]
      have hk : kZ = (stepDeb kA b z.1 z.2).type (s.code i z) := by
        rw [hkz, hb1, if_pos rfl]
        exact press_code fourMaps _ _ (Nat.le_of_lt hlt)
      have hl' : (s.move i z).hand.last = some (z, s.code i z) := by rw [hh]
      have hne : kA.last ≠ s.code i z := by
        rw [hlast]
        cases e : s.hand.last with
        | none =>
          rw [lastCode_none e]
          intro e
          rw [← e] at hlt
          exact absurd hlt (by decide)
        | some w =>
          obtain ⟨y, c⟩ := w
          rw [lastCode_some e]
          exact hnew (y, c) (by rw [e]; rfl)
      have hr : kZ.rpt = kA.rpt.restart := by
        rw [hk]
        show (if kA.last = _ then kA.rpt else kA.rpt.restart) = _
        rw [if_neg hne]
      refine ⟨by rw [hk]; exact hmap, ?_, ?_, ?_, ?_, ?_, hsa (by omega)⟩
      · rw [hk, hh]
        exact hmods
      · rw [hk, lastCode_some hl']
        rfl
      · rw [htext, if_neg (by simp), hr, hd]
      · rw [hl']
        intro y hy
        cases hy
        exact hlt
      · rw [hty, htext, if_pos ⟨hb1, Nat.le_of_lt hlt⟩]

theorem control_code {c : Code} (h : isControl c = true) : c = 0xA6 ∨ c = 0xAC := by
  unfold isControl at h
  rw [Bool.or_eq_true, beq_iff_eq, beq_iff_eq] at h
  exact h

/-- REPEAT or the autorepeat switch. -/
theorem event_control {z : Nat × Nat} (hc : isControl (s.code i z) = true) (hB : Beat i s t pre) {kA : Kb}
    (hS : Same (Kb.after fourMaps openLayout pre) kA) {t' : Rpt} (hd : kA.rpt = t') {b : Bool}
    (hon : (kA.deb z.1 z.2).on = !b) (hlow : (kA.deb z.1 z.2).left ≤ 1) :
    let kZ := kA.key fourMaps openLayout b z.1 z.2
    kZ.map = i ∧ kZ.mods = s.hand.mods ∧ kZ.last = s.lastCode ∧ kZ.rpt = t'.control (s.code i z) b ∧
      kA.typedBy fourMaps openLayout b z.1 z.2 = [] ∧ kA.saidBy fourMaps openLayout b z.1 z.2 = [] := by
  intro kZ
  have hmap := hS.map.trans hB.map
  have hmods := hS.mods.trans hB.mods
  have hlast := hS.last.trans hB.last
  have hcz : kA.code fourMaps openLayout z.1 z.2 = s.code i z := by
    rw [code_eq hmap, hmods]
    rfl
  have hbne : b ≠ (kA.deb z.1 z.2).on := by rw [hon]; cases b <;> decide
  have hkz : kZ = if b then (stepDeb kA b z.1 z.2).press fourMaps (s.code i z)
      else (stepDeb kA b z.1 z.2).release fourMaps (s.code i z) := by
    show kA.key fourMaps openLayout b z.1 z.2 = _
    unfold Kb.key
    rw [if_pos hbne, if_pos hlow, hcz]
    rfl
  have hk : kZ = { stepDeb kA b z.1 z.2 with rpt := kA.rpt.control (s.code i z) b } := by
    rw [hkz]
    rcases control_code hc with e | e <;> rw [e] <;> cases b <;> rfl
  refine ⟨by rw [hk]; exact hmap, by rw [hk]; exact hmods, by rw [hk]; exact hlast, by rw [hk, ← hd], ?_, ?_⟩
  · unfold Kb.typedBy
    rw [if_pos hbne, hcz]
    rcases control_code hc with e | e <;> rw [e, if_neg (fun h => absurd h.2.2 (by decide))]
  · unfold Kb.saidBy
    rw [hcz]
    rcases control_code hc with e | e <;> rw [e] <;> split <;> rfl

theorem step_control {z : Nat × Nat} (hc : isControl (s.code i z) = true) :
    s.step i z = { s with down := toggled s.down z } := by
  unfold Session.step
  rw [if_pos hc]

theorem step_plain {z : Nat × Nat} (hc : ¬ isControl (s.code i z) = true) : s.step i z = s.move i z := by
  unfold Session.step
  rw [if_neg hc]

/-- Any key. -/
theorem event_step {z : Nat × Nat} (hM : MayStep i s z) (hB : Beat i s t pre) {kA : Kb}
    (hS : Same (Kb.after fourMaps openLayout pre) kA) {t' : Rpt} (hd : kA.rpt = t') {b : Bool}
    (hb : b = decide (z ∉ s.down)) (hon : (kA.deb z.1 z.2).on = !b) (hlow : (kA.deb z.1 z.2).left ≤ 1) :
    let kZ := kA.key fourMaps openLayout b z.1 z.2
    kZ.map = i ∧ kZ.mods = (s.step i z).hand.mods ∧ kZ.last = (s.step i z).lastCode ∧ kZ.rpt = s.timer i t' z ∧
      (∀ y ∈ (s.step i z).hand.last, y.2.toNat < 0xA0) ∧
      kA.typedBy fourMaps openLayout b z.1 z.2 = s.types i z ∧ kA.saidBy fourMaps openLayout b z.1 z.2 = [] := by
  intro kZ
  unfold MayStep at hM
  unfold Session.types Session.timer
  by_cases hc : isControl (s.code i z) = true
  · rw [step_control hc, if_pos hc, if_pos hc, ← hb]
    obtain ⟨e1, e2, e3, e4, e5, e6⟩ := event_control hc hB hS hd hon hlow
    exact ⟨e1, e2, e3, e4, hB.lt, e5, e6⟩
  · rw [if_neg hc] at hM
    rw [step_plain hc, if_neg hc, if_neg hc]
    exact event_key hM hB hS hd hb hon hlow

theorem step_down (z : Nat × Nat) : (s.step i z).down = toggled s.down z := by
  unfold Session.step
  split <;> rfl

theorem step_inside {z : Nat × Nat} (hM : MayStep i s z) : z.2 < 8 ∧ (z.1 < 8 ∨ z = (8, 7)) := by
  unfold MayStep at hM
  split at hM
  · exact ⟨hM.1, hM.2.1⟩
  · exact ⟨hM.2.1, .inl hM.1⟩

theorem step_rows {z : Nat × Nat} (hM : MayStep i s z) : z.1 < 9 ∧ z.2 < 8 := by
  obtain ⟨h1, h2 | h2⟩ := step_inside hM
  · exact ⟨Nat.lt_succ_of_lt h2, h1⟩
  · rw [h2]
    decide

theorem fine_step (hf : Fine i s) {z : Nat × Nat} (hM : MayStep i s z) : Fine i (s.step i z) := by
  have hrows := step_rows hM
  by_cases hc : isControl (s.code i z) = true
  · unfold MayStep at hM
    rw [if_pos hc] at hM
    rw [step_control hc]
    refine ⟨fun p hp => ?_, toggled_nodup hf.nodup z, fun p hp => (hM.2.2 p hp).hold rfl rfl⟩
    rcases (mem_toggled hf.nodup).mp hp with ⟨_, hp⟩ | ⟨rfl, _⟩
    · exact hf.inside p hp
    · exact hrows
  · unfold MayStep at hM
    rw [if_neg hc] at hM
    rw [step_plain hc]
    exact hf.next hM

/-- The scan in which a movement takes effect. -/
theorem turn_part (hf : Fine i s) (hB : Beat i s t pre) {z : Nat × Nat} (hM : MayStep i s z) {inp : Input}
    (h : OneScan openLayout pre inp z) (hdown : ∀ y ∈ keysOf openLayout, downAfter pre y.1 y.2 = posDown s.down y.1 y.2)
    (hrest : ∀ y ∈ keysOf openLayout, y ≠ z → sample inp y.1 y.2 = posDown s.down y.1 y.2) :
    let n := scanBefore (s.repeating i) z
    let t' := s.timer i (t.ticks n) z
    let m := scanBehind ((s.step i z).repeating i) z
    Out fourMaps openLayout pre [inp] [List.replicate (repsIn t.left n) s.lastCode ++ (s.types i z ++
        List.replicate (repsIn t'.left m) (s.step i z).lastCode)] ∧
      Beat i (s.step i z) (t'.ticks m) (pre ++ [inp]) := by
  intro n t' m
  obtain ⟨A, B, kA, hAB, c1, c2, c3, c3', c4, c5, c6, c7⟩ := turn_scan (cfg := fourMaps) h
  have hnd := keysOf_nodup openLayout
  rw [hAB] at hnd
  obtain ⟨nA, nzB, hdis⟩ := List.nodup_append.mp hnd
  obtain ⟨nz, nB⟩ := List.nodup_cons.mp nzB
  have inA : ∀ y ∈ A, y ∈ keysOf openLayout ∧ y ≠ z := fun y hy =>
    ⟨by rw [hAB]; exact List.mem_append_left _ hy, fun e => hdis y hy z List.mem_cons_self e⟩
  have inB : ∀ y ∈ B, y ∈ keysOf openLayout ∧ y ≠ z := fun y hy =>
    ⟨by rw [hAB]; exact List.mem_append_right _ (List.mem_cons_of_mem _ hy), fun e => nz (e ▸ hy)⟩
  have hf' := fine_step hf hM
  have hzk : downAfter pre z.1 z.2 = decide (z ∈ s.down) := hdown z h.here
  -- the keys before
  have htA : (A.countP fun y => downAfter pre y.1 y.2 && sample inp y.1 y.2 &&
      decide ((Kb.after fourMaps openLayout pre).code fourMaps openLayout y.1 y.2 =
        (Kb.after fourMaps openLayout pre).last)) = n := by
    have himp : ∀ y ∈ A, (downAfter pre y.1 y.2 && sample inp y.1 y.2 &&
        decide ((Kb.after fourMaps openLayout pre).code fourMaps openLayout y.1 y.2 =
          (Kb.after fourMaps openLayout pre).last)) = true → s.repeating i = some y := by
      intro y hy hP
      rw [Bool.and_eq_true, Bool.and_eq_true, decide_eq_true_eq, hdown y (inA y hy).1, hB.code, hB.last] at hP
      exact repeating_of hf (of_decide_eq_true hP.1.1) hP.2
    cases e : s.repeating i with
    | none =>
      show _ = scanBefore (s.repeating i) z
      rw [e]
      refine count_none fun y hy => Bool.eq_false_iff.mpr fun hP => ?_
      have := himp y hy hP
      rw [e] at this
      cases this
    | some w =>
      obtain ⟨_, r2, r3⟩ := repeating_some e
      show _ = scanBefore (s.repeating i) z
      rw [e, count_only nA (w := w) fun y hy hP => by
        have := himp y hy hP
        rw [e] at this
        cases this
        rfl]
      show _ = (readFirst w z).toNat
      congr 1
      by_cases hw : w ∈ A
      · rw [((sides hAB (mem_down hf r2)).1.mp hw), decide_eq_true hw, hdown w (inA w hw).1,
          hrest w (inA w hw).1 (inA w hw).2, hB.code, hB.last]
        have e1 : posDown s.down w.1 w.2 = true := decide_eq_true r2
        rw [e1, decide_eq_true (show s.hand.mods.code fourMaps openLayout i w.1 w.2 = s.lastCode from r3)]
        rfl
      · rw [decide_eq_false hw, Bool.false_and]
        refine (Bool.eq_false_iff.mpr fun hh => hw ?_).symm
        exact (sides hAB (mem_down hf r2)).1.mpr hh
  rw [htA] at c2 c7
  -- the key
  have hbz : sample inp z.1 z.2 = decide (z ∉ s.down) := by rw [c5, hzk, decide_not]
  obtain ⟨d1, d2, d3, d4, d6, d7, d8⟩ := event_step (z := z) hM hB c1 (t' := t.ticks n)
    (by rw [← hB.rpt]; exact rpt_ext c3 c3' c2) hbz (by rw [c4, hbz, hzk, decide_not, Bool.not_not]) c6
  obtain ⟨b1, b2, b3, b3', b4, b5⟩ := c7 _ rfl
  generalize kA.key fourMaps openLayout (sample inp z.1 z.2) z.1 z.2 = kZ at *
  have hcZ : ∀ r c, kZ.code fourMaps openLayout r c = (s.step i z).hand.mods.code fourMaps openLayout i r c := fun r c => by
    rw [code_eq d1, d2]
  -- the keys after
  have htB : (B.countP fun y => downAfter pre y.1 y.2 && sample inp y.1 y.2 &&
      decide (kZ.code fourMaps openLayout y.1 y.2 = kZ.last)) = m := by
    have hdn : ∀ y ∈ B, (posDown s.down y.1 y.2 = true ↔ y ∈ (s.step i z).down) := by
      intro y hy
      have : y ∈ (s.step i z).down ↔ y ∈ s.down := by
        rw [step_down, mem_toggled hf.nodup]
        exact ⟨fun e => e.elim (·.2) fun e => absurd e.1 (inB y hy).2, fun e => .inl ⟨(inB y hy).2, e⟩⟩
      rw [this]
      exact decide_eq_true_iff
    have himp : ∀ y ∈ B, (downAfter pre y.1 y.2 && sample inp y.1 y.2 &&
        decide (kZ.code fourMaps openLayout y.1 y.2 = kZ.last)) = true → (s.step i z).repeating i = some y := by
      intro y hy hP
      rw [Bool.and_eq_true, Bool.and_eq_true, decide_eq_true_eq, hdown y (inB y hy).1, hcZ, d3] at hP
      exact repeating_of hf' ((hdn y hy).mp hP.1.1) hP.2
    cases e : (s.step i z).repeating i with
    | none =>
      show _ = scanBehind ((s.step i z).repeating i) z
      rw [e]
      refine count_none fun y hy => Bool.eq_false_iff.mpr fun hP => ?_
      have := himp y hy hP
      rw [e] at this
      cases this
    | some w =>
      obtain ⟨_, r2, r3⟩ := repeating_some e
      show _ = scanBehind ((s.step i z).repeating i) z
      rw [e, count_only nB (w := w) fun y hy hP => by
        have := himp y hy hP
        rw [e] at this
        cases this
        rfl]
      show _ = (readFirst z w).toNat
      congr 1
      by_cases hw : w ∈ B
      · rw [((sides hAB (mem_down hf' r2)).2.mp hw), decide_eq_true hw, hdown w (inB w hw).1,
          hrest w (inB w hw).1 (inB w hw).2, hcZ, d3, (hdn w hw).mpr r2,
          decide_eq_true (show (s.step i z).hand.mods.code fourMaps openLayout i w.1 w.2 = (s.step i z).lastCode from r3)]
        rfl
      · rw [decide_eq_false hw, Bool.false_and]
        refine (Bool.eq_false_iff.mpr fun hh => hw ?_).symm
        exact (sides hAB (mem_down hf' r2)).2.mpr hh
  rw [htB] at b2 b4
  rw [hB.rpt, hB.last, d4, d3, d7] at b4
  refine ⟨Out.one b4 (b5.trans d8), b1.map.trans d1, b1.mods.trans d2, b1.last.trans d3, ?_, d6⟩
  refine rpt_ext ?_ ?_ ?_
  · rw [b3, d4]
    rfl
  · rw [b3', d4]
    rfl
  · rw [b2, d4]
    rfl

/-! ## One movement -/

theorem count_true_replicate (n : Nat) (b : Bool) : (List.replicate n b).count true = if b then n else 0 := by
  cases b <;> simp [List.count_replicate]

theorem all_empty {us : List (List Code)} (h : us.flatten = []) : ∀ u ∈ us, u = [] :=
  fun u hu => List.flatten_eq_nil_iff.mp h u hu

theorem long_flatten {us : List (List Code)} (h : [] ∉ us) : us.length ≤ us.flatten.length := by
  induction us with
  | nil => exact Nat.le_refl _
  | cons u us ih =>
    have hu : u ≠ [] := fun e => h (e ▸ List.mem_cons_self)
    have := List.length_pos_iff.mpr hu
    have := ih fun e => h (List.mem_cons_of_mem _ e)
    rw [List.flatten_cons, List.length_append, List.length_cons]
    omega

theorem reps_few {d n j : Nat} (h : n ≤ j) (hj : 2 ≤ j) : repsIn d n < j := by
  unfold repsIn
  split
  · omega
  · rename_i e
    have : 1 + (n - d) / 66 < j := by omega
    exact this

/-- What is typed at one movement: three parts. -/
structure Rolled (i : UInt8) (s : Session) (t : Rpt) (v : KeyMove) (us : List (List Code)) (w : List Code)
    (us' : List (List Code)) : Prop where
  text : (us ++ ([w] ++ us')).flatten = v.rolled i s t
  ones : (∀ u ∈ us, u.length ≤ 1) ∧ ∀ u ∈ us', u.length ≤ 1
  gap : [] ∈ us
  two : w.length ≤ 2
  quiet : (s.step i v.key).hand.last = none → w = [] ∧ ∀ u ∈ us', u = []
  codes : ∀ u ∈ us ++ ([w] ++ us'), ∀ c ∈ u, c.toNat < 0xA0

theorem lastCode_lt (h : ∀ y ∈ s.hand.last, y.2.toNat < 0xA0) {z : Nat × Nat} (hz : s.repeating i = some z) :
    s.lastCode.toNat < 0xA0 := h _ (by rw [(repeating_some hz).1]; rfl)

theorem rolled_codes (hlt : ∀ y ∈ s.hand.last, y.2.toNat < 0xA0) {v : KeyMove}
    (hlt' : ∀ y ∈ (s.step i v.key).hand.last, y.2.toNat < 0xA0) (hM : MayStep i s v.key) :
    ∀ c ∈ v.rolled i s t, c.toNat < 0xA0 := by
  intro c hc
  unfold KeyMove.rolled at hc
  rcases List.mem_append.mp hc with hc | hc
  · rcases List.mem_append.mp hc with hc | hc
    · obtain ⟨h0, rfl⟩ := List.mem_replicate.mp hc
      cases e : s.repeating i with
      | none =>
        unfold KeyMove.before at h0
        rw [e, repsIn_zero] at h0
        exact absurd rfl h0
      | some z => exact lastCode_lt hlt e
    · unfold Session.types at hc
      unfold MayStep at hM
      split at hc
      · cases hc
      rename_i hctl
      rw [if_neg hctl] at hM
      unfold Session.text at hc
      split at hc
      · cases hc
      · rename_i hz
        split at hc
        · cases hc
        · rename_i hm
          rw [List.mem_singleton.mp hc]
          rcases hM.2.2.1.press (decide_eq_false hz) (decide_eq_true hz) with ⟨x, h1, h2⟩ | e
          · exact absurd (by rw [show s.code i v.key = x from h2 _]; exact h1) hm
          · exact e.1
  · obtain ⟨h0, rfl⟩ := List.mem_replicate.mp hc
    cases e : (s.step i v.key).repeating i with
    | none =>
      unfold KeyMove.behind at h0
      rw [e, repsIn_zero] at h0
      exact absurd rfl h0
    | some z => exact lastCode_lt hlt' e

/-- A repetition is never due at the next reading. -/
def Timed (t : Rpt) : Prop := t.delay ≠ 1 ∧ t.rest ≠ 1

theorem auto_timed (ht : Timed t) (b : Bool) (hd : (if b then 525 else 0) ≠ 1) : Timed (t.auto b) := by
  show Timed (if t.delay = 66 then _ else _)
  by_cases h : t.delay = 66
  · rw [if_pos h]
    exact ⟨ht.1, hd⟩
  · rw [if_neg h]
    exact ⟨hd, hd⟩

theorem timer_timed (ht : Timed t) (z : Nat × Nat) : Timed (s.timer i t z) := by
  unfold Session.timer Rpt.control
  split
  · split
    · split
      · unfold Rpt.press
        split
        · exact ⟨show 66 ≠ 1 by decide, ht.2⟩
        · exact ht
      · exact ⟨ht.2, ht.2⟩
    · have hd : ∀ b : Bool, (if b then 525 else 0) ≠ 1 := by decide
      exact auto_timed ht _ (hd _)
  · split
    · exact ht
    · exact ht

theorem ticks_add (t : Rpt) (a b : Nat) : (t.ticks a).ticks b = t.ticks (a + b) :=
  rpt_ext rfl rfl (by
    show leftAt (leftAt t.left a) b = leftAt t.left (a + b)
    rw [left_eq, left_eq, left_eq, left_add])

theorem types_one (z : Nat × Nat) : (s.types i z).length ≤ 1 := by
  unfold Session.types
  split
  · exact Nat.zero_le _
  · exact text_one s z

theorem movement (hf : Fine i s) (hB : Beat i s t pre) (ht : Timed t) {v : KeyMove} (hM : MayStep i s v.key)
    (hb : v.bounce.length ≤ 9) (hs : 10 ≤ v.steady) (hpre : Settled openLayout pre (posDown s.down)) :
    let rs := v.readings s.down
    (∃ us w us', Out fourMaps openLayout pre rs (us ++ ([w] ++ us')) ∧ Rolled i s t v us w us') ∧
    Beat i (s.step i v.key) ((v.timer i s t).ticks (v.behind i s)) (pre ++ rs) ∧
    Settled openLayout (pre ++ rs) (posDown (s.step i v.key).down) := by
  intro rs
  obtain ⟨hrow, hcol⟩ := step_rows hM
  have M := moves_any (fun p hp => (hf.inside p hp).2) hf.nodup hrow hcol hb hs
  have hS : posDown s.down v.key.1 v.key.2 = decide (v.key ∈ s.down) := rfl
  have hS' : posDown (s.step i v.key).down = posDown (toggled s.down v.key) := by rw [step_down]
  rw [← hS'] at M
  have hf' := fine_step hf hM
  have hacc : acceptAt (posDown s.down v.key.1 v.key.2) v.bounce = v.effectAt s.down := by
    unfold acceptAt KeyMove.effectAt
    rw [hS, decide_not]
  have hbd := accept_bounds (posDown s.down v.key.1 v.key.2) hb
  have hsize : rs.length = v.scans := M.size
  obtain ⟨q1, q2⟩ := samples_take M
  obtain ⟨inp, e0, e1, hone, _⟩ := accepted M hpre
  have st1 := Stays.take M hpre
  have st2 := Stays.drop M hpre
  rw [hacc] at q1 q2 e0 e1 hone st1 st2 hbd
  rw [show v.readings s.down = rs from rfl] at q1 q2 e0 e1 hone st1 st2
  have hj : v.effectAt s.down < rs.length := by rw [hsize]; unfold KeyMove.scans; omega
  generalize hjj : v.effectAt s.down = j at *
  -- before
  obtain ⟨us, a1, a2, a3, a4⟩ := still_part hf hB st1
  generalize hn1 : closedIn (s.repeating i) (rs.take j) = n1 at a3 a4
  -- the scan
  have hd1 : ∀ y ∈ keysOf openLayout, downAfter (pre ++ rs.take j) y.1 y.2 = posDown s.down y.1 y.2 := by
    intro y hy
    have := st1 (rs.take j).length (Nat.le_refl _) y hy
    rwa [List.take_length] at this
  have hsam : ∀ y ∈ keysOf openLayout, y ≠ v.key → sample inp y.1 y.2 = posDown s.down y.1 y.2 := by
    intro y hy hne
    obtain ⟨hr, hc⟩ := (mem_keysOf openLayout).mp hy
    have hmem : inp ∈ rs := by
      rw [e0]
      exact List.mem_append_right _ (List.mem_append_left _ List.mem_cons_self)
    have h1 := M.rest y.1 y.2 hr hc hne
    have h2 : sample inp y.1 y.2 ∈ samplesOf rs y.1 y.2 := List.mem_map_of_mem hmem
    rw [show samplesOf rs y.1 y.2 = List.replicate rs.length (posDown s.down y.1 y.2) from h1] at h2
    exact (List.mem_replicate.mp h2).2
  obtain ⟨b1, b2⟩ := turn_part hf a4 hM hone hd1 hsam
  generalize hn : scanBefore (s.repeating i) v.key = n at b1 b2
  generalize hm : scanBehind ((s.step i v.key).repeating i) v.key = m at b1 b2
  -- after
  have e2 : pre ++ rs.take j ++ [inp] = pre ++ rs.take (j + 1) := by rw [e1, List.append_assoc]
  have b2' := b2
  rw [e2] at b2'
  obtain ⟨us', c1, c2, c3, c4⟩ := still_part hf' b2' st2
  generalize hn2 : closedIn ((s.step i v.key).repeating i) (rs.drop (j + 1)) = n2 at c3 c4
  -- the numbers
  have hbef : v.before i s = n1 + n := by
    unfold KeyMove.before
    cases e : s.repeating i with
    | none =>
      rw [e] at hn1 hn
      rw [← hn1, ← hn]
      rfl
    | some z =>
      rw [e] at hn1 hn
      obtain ⟨_, r2, _⟩ := repeating_some e
      have hn1 : (samplesOf (rs.take j) z.1 z.2).count true = n1 := hn1
      have hn : (readFirst z v.key).toNat = n := hn
      show (if z = v.key then v.bounce.count true else v.effectAt s.down + (readFirst z v.key).toNat) = _
      by_cases ez : z = v.key
      · subst ez
        rw [if_pos rfl, ← hn1, ← hn, readFirst_self, q1 (decide_eq_true r2)]
        rfl
      · rw [if_neg ez, ← hn1, ← hn, hjj]
        obtain ⟨hr, hc⟩ := hf.inside z r2
        have h1 : samplesOf rs z.1 z.2 = List.replicate rs.length (posDown s.down z.1 z.2) :=
          M.rest z.1 z.2 hr hc ez
        have h2 : samplesOf (rs.take j) z.1 z.2 = (samplesOf rs z.1 z.2).take j := List.map_take
        rw [h2, h1, List.take_replicate, count_true_replicate, show posDown s.down z.1 z.2 = true from decide_eq_true r2,
          if_pos rfl, Nat.min_eq_left (by omega)]
  have hbeh : v.behind i s = m + n2 := by
    unfold KeyMove.behind
    cases e : (s.step i v.key).repeating i with
    | none =>
      rw [e] at hn2 hm
      rw [← hn2, ← hm]
      rfl
    | some z =>
      rw [e] at hn2 hm
      obtain ⟨_, r2, _⟩ := repeating_some e
      have hn2 : (samplesOf (rs.drop (j + 1)) z.1 z.2).count true = n2 := hn2
      have hm : (readFirst v.key z).toNat = m := hm
      show (readFirst v.key z).toNat + (v.scans - (v.effectAt s.down + 1)) = _
      rw [hm, hjj, ← hn2, ← hsize]
      congr 1
      rcases (mem_toggled hf.nodup).mp (show z ∈ toggled s.down v.key by rw [step_down] at r2; exact r2) with ⟨ez, r2⟩ | ⟨ez, hnot⟩
      · obtain ⟨hr, hc⟩ := hf.inside z r2
        have h1 : samplesOf rs z.1 z.2 = List.replicate rs.length (posDown s.down z.1 z.2) :=
          M.rest z.1 z.2 hr hc ez
        have h2 : samplesOf (rs.drop (j + 1)) z.1 z.2 = (samplesOf rs z.1 z.2).drop (j + 1) := List.map_drop
        rw [h2, h1, List.drop_replicate, count_true_replicate, show posDown s.down z.1 z.2 = true from decide_eq_true r2,
          if_pos rfl]
      · rw [ez, q2 (decide_eq_false hnot), ← hjj, hsize]
        unfold KeyMove.effectAt KeyMove.scans
        rw [decide_eq_true hnot]
        have := List.count_le_length (a := true) (l := v.bounce)
        omega
  have hthen : v.timer i s t = s.timer i ((t.ticks n1).ticks n) v.key := by
    unfold KeyMove.timer
    rw [hbef, ticks_add]
  rw [← hthen] at b1 b2 c3 c4
  have hfin : ((v.timer i s t).ticks m).ticks n2 = (v.timer i s t).ticks (v.behind i s) := by
    rw [hbeh, ticks_add]
  rw [hfin] at c4
  have hout : Out fourMaps openLayout pre rs (us ++ ([List.replicate (repsIn (leftAt t.left n1) n) s.lastCode ++ (s.types i v.key ++
      List.replicate (repsIn (v.timer i s t).left m) (s.step i v.key).lastCode)] ++ us')) := by
    have := a1.append (b1.append (by rw [e2]; exact c1))
    rwa [← e0] at this
  have htext : (us ++ ([List.replicate (repsIn (leftAt t.left n1) n) s.lastCode ++ (s.types i v.key ++
      List.replicate (repsIn (v.timer i s t).left m) (s.step i v.key).lastCode)] ++ us')).flatten = v.rolled i s t := by
    rw [List.flatten_append, List.flatten_append, a3, c3]
    unfold KeyMove.rolled
    rw [hbef, hbeh, reps_add t.left, reps_add (v.timer i s t).left, ← left_eq, ← left_eq, ← List.replicate_append_replicate,
      ← List.replicate_append_replicate]
    simp only [List.flatten_cons, List.flatten_nil, List.append_nil, List.append_assoc]
    rfl
  have hBeat : Beat i (s.step i v.key) ((v.timer i s t).ticks (v.behind i s)) (pre ++ rs) := by
    have e3 : pre ++ rs.take (j + 1) ++ rs.drop (j + 1) = pre ++ rs := by
      rw [List.append_assoc, List.take_append_drop]
    rw [e3] at c4
    exact c4
  refine ⟨⟨us, _, us', hout, htext, ⟨a2, c2⟩, ?_, ?_, ?_, ?_⟩, hBeat, M.settled hpre⟩
  · -- a scan without a code
    refine Decidable.byContradiction fun hno => ?_
    have h1 := long_flatten hno
    rw [a1.length, a3, List.length_replicate, List.length_take, Nat.min_eq_left (by omega)] at h1
    have h2 : n1 ≤ j := by
      rw [← hn1]
      unfold closedIn
      split
      · omega
      · refine Nat.le_trans List.count_le_length ?_
        unfold samplesOf
        rw [List.length_map, List.length_take]
        exact Nat.min_le_left _ _
    have := reps_few (d := t.left) h2 (by omega)
    omega
  · -- at most two codes
    have hn1' : n ≤ 1 := by
      rw [← hn]
      unfold scanBefore
      split
      · omega
      · exact Bool.toNat_le _
    have hm1 : m ≤ 1 := by
      rw [← hm]
      unfold scanBehind
      split
      · omega
      · exact Bool.toNat_le _
    have r1 : repsIn (leftAt t.left n1) n ≤ 1 := reps_le_one (by omega)
    have r2 : repsIn (v.timer i s t).left m ≤ 1 := reps_le_one (by omega)
    have r3 := types_one (i := i) (s := s) v.key
    rw [List.length_append, List.length_append, List.length_replicate, List.length_replicate]
    by_cases ht0 : s.types i v.key = []
    · rw [ht0]
      simp only [List.length_nil]
      omega
    · have r4 : repsIn (v.timer i s t).left m = 0 := by
        have hd : (v.timer i s t).left = t.delay := by
          unfold KeyMove.timer Session.timer
          unfold Session.types at ht0
          by_cases hc : isControl (s.code i v.key) = true
          · rw [if_pos hc] at ht0
            exact absurd rfl ht0
          · rw [if_neg hc] at ht0
            rw [if_neg hc, if_neg ht0]
            rfl
        have := ht.1
        rw [hd]
        unfold repsIn
        rw [if_pos (by omega)]
      omega
  · -- no key repeats afterwards
    intro hnone
    have hrep : (s.step i v.key).repeating i = none := by
      unfold Session.repeating
      rw [hnone]
      rfl
    have hm0 : m = 0 := by rw [← hm, hrep]; rfl
    have hn20 : n2 = 0 := by rw [← hn2, hrep]; rfl
    have hzero : s.types i v.key = [] ∧ n = 0 := by
      by_cases hctl : isControl (s.code i v.key) = true
      · rw [step_control hctl] at hnone
        have hr0 : s.repeating i = none := by
          unfold Session.repeating
          rw [show s.hand.last = none from hnone]
          rfl
        refine ⟨?_, by rw [← hn, hr0]; rfl⟩
        unfold Session.types
        rw [if_pos hctl]
      rw [step_plain hctl] at hnone
      have hh := move_hand (i := i) s v.key
      have hmod : isModCode (s.code i v.key) = true → s.hand.last = none := by
        intro e
        rw [if_pos e] at hh
        rw [hh] at hnone
        exact hnone
      have hdownz : ¬ isModCode (s.code i v.key) = true → v.key ∈ s.down := by
        intro e
        refine Decidable.byContradiction fun hno => ?_
        rw [if_neg e, if_pos hno] at hh
        rw [hh] at hnone
        cases hnone
      have ht : s.types i v.key = [] := by
        unfold Session.types
        rw [if_neg hctl]
        unfold Session.text
        by_cases e : isModCode (s.code i v.key) = true
        · rw [if_pos e]
          split <;> rfl
        · rw [if_pos (hdownz e)]
      have hn0 : n = 0 := by
        rw [← hn]
        cases e : s.repeating i with
        | none => rfl
        | some w =>
          obtain ⟨r1, r2, r3⟩ := repeating_some e
          have hme : ¬ isModCode (s.code i v.key) = true := by
            intro h
            rw [hmod h] at r1
            cases r1
          rw [if_neg hme, if_neg (not_not_intro (hdownz hme))] at hh
          rw [hh] at hnone
          have hnone : s.hand.last.filter (fun y => y.2 != s.code i v.key) = none := hnone
          rw [r1] at hnone
          have hcode : s.lastCode = s.code i v.key := by
            refine Decidable.byContradiction fun hne => ?_
            rw [Option.filter_some, if_pos (by rw [bne_iff_ne]; exact hne)] at hnone
            cases hnone
          have := repeating_of hf (hdownz hme) hcode.symm
          rw [e] at this
          cases this
          show (readFirst v.key v.key).toNat = 0
          rw [readFirst_self]
          rfl
      exact ⟨ht, hn0⟩
    obtain ⟨ht, hn0⟩ := hzero
    refine ⟨?_, all_empty ?_⟩
    · rw [hn0, hm0, ht, repsIn_zero, repsIn_zero]
      rfl
    · rw [c3, hn20, repsIn_zero]
      rfl
  · intro u hu c hc
    exact rolled_codes hB.lt hBeat.lt hM c (by rw [← htext]; exact List.mem_flatten.mpr ⟨u, hu, hc⟩)

/-! ## The way to the host -/

/-- At most `b` codes are waiting, and no message. -/
structure Easy (b : Nat) (q : Line) : Prop where
  msgs : q.msgs = []
  keys : q.keys.length ≤ b
  codes : ∀ c ∈ q.keys, c.toNat < 0xA0

/-- What the host has received and what is waiting. -/
def flow (q : Line) : List (Bool × Code) := q.host ++ q.keys.map (false, ·)

def run (q : Line) (us : List (List Code)) : Line := us.foldl (fun q u => q.send.add u []) q

theorem Easy.more {a b : Nat} {q : Line} (h : Easy a q) (hab : a ≤ b) : Easy b q :=
  ⟨h.msgs, Nat.le_trans h.keys hab, h.codes⟩

theorem send_easy {b : Nat} {q : Line} (h : Easy b q) : Easy (b - 1) q.send ∧ flow q.send = flow q := by
  obtain ⟨h1, h2, h3⟩ := h
  cases q with
  | mk keys msgs host lk lm =>
    dsimp only at h1 h2 h3
    subst h1
    cases keys with
    | nil => exact ⟨⟨rfl, Nat.zero_le _, h3⟩, rfl⟩
    | cons c cs =>
      have hc := h3 c List.mem_cons_self
      rw [List.length_cons] at h2
      refine ⟨⟨rfl, ?_, fun x hx => h3 x (List.mem_cons_of_mem _ hx)⟩, ?_⟩
      · show cs.length ≤ _
        omega
      · show (host ++ if c.toNat < 0xA0 then [(false, c)] else []) ++ cs.map (false, ·) = host ++ (c :: cs).map (false, ·)
        rw [if_pos hc, List.append_assoc]
        rfl

theorem add_easy {b : Nat} {q : Line} (h : Easy b q) {u : List Code} (hb : b + u.length ≤ 16)
    (hu : ∀ c ∈ u, c.toNat < 0xA0) : Easy (b + u.length) (q.add u []) ∧ flow (q.add u []) = flow q ++ u.map (false, ·) := by
  obtain ⟨h1, h2, h3⟩ := h
  have ht : u.take (16 - q.keys.length) = u := List.take_of_length_le (by omega)
  refine ⟨⟨?_, ?_, ?_⟩, ?_⟩
  · show q.msgs ++ List.take _ [] = []
    rw [h1, List.take_nil]
    rfl
  · show (q.keys ++ u.take _).length ≤ _
    rw [ht, List.length_append]
    omega
  · show ∀ c ∈ q.keys ++ u.take _, _
    rw [ht]
    intro c hc
    rcases List.mem_append.mp hc with hc | hc
    · exact h3 c hc
    · exact hu c hc
  · show q.host ++ (q.keys ++ u.take _).map (false, ·) = (q.host ++ q.keys.map (false, ·)) ++ u.map (false, ·)
    rw [ht, List.map_append, List.append_assoc]

theorem pass_easy {b : Nat} {q : Line} (h : Easy b q) {u : List Code} (hb : b - 1 + u.length ≤ 16)
    (hu : ∀ c ∈ u, c.toNat < 0xA0) :
    Easy (b - 1 + u.length) (q.send.add u []) ∧ flow (q.send.add u []) = flow q ++ u.map (false, ·) := by
  obtain ⟨s1, s2⟩ := send_easy h
  obtain ⟨a1, a2⟩ := add_easy s1 hb hu
  exact ⟨a1, by rw [a2, s2]⟩

/-- At most one code in each scan. -/
theorem run_ones {b : Nat} (hb : 1 ≤ b ∧ b ≤ 2) {us : List (List Code)} (h1 : ∀ u ∈ us, u.length ≤ 1)
    (hu : ∀ u ∈ us, ∀ c ∈ u, c.toNat < 0xA0) {q : Line} (h : Easy b q) :
    Easy b (run q us) ∧ flow (run q us) = flow q ++ us.flatten.map (false, ·) := by
  induction us generalizing q with
  | nil => exact ⟨h, by rw [List.flatten_nil, List.map_nil, List.append_nil]; rfl⟩
  | cons u us ih =>
    have hu1 := h1 u List.mem_cons_self
    obtain ⟨p1, p2⟩ := pass_easy h (u := u) (by omega) (hu u List.mem_cons_self)
    obtain ⟨i1, i2⟩ := ih (fun w hw => h1 w (List.mem_cons_of_mem _ hw)) (fun w hw => hu w (List.mem_cons_of_mem _ hw))
      (p1.more (show _ ≤ b by omega))
    refine ⟨i1, ?_⟩
    show flow (run (q.send.add u []) us) = _
    rw [i2, p2, List.flatten_cons, List.map_append, List.append_assoc]

/-- With a scan without a code. -/
theorem run_gap {us : List (List Code)} (h1 : ∀ u ∈ us, u.length ≤ 1) (hu : ∀ u ∈ us, ∀ c ∈ u, c.toNat < 0xA0)
    (hg : [] ∈ us) {q : Line} (h : Easy 2 q) :
    Easy 1 (run q us) ∧ flow (run q us) = flow q ++ us.flatten.map (false, ·) := by
  obtain ⟨a, b, rfl⟩ := List.append_of_mem hg
  obtain ⟨i1, i2⟩ := run_ones (b := 2) ⟨by decide, by decide⟩ (us := a)
    (fun w hw => h1 w (List.mem_append_left _ hw)) (fun w hw => hu w (List.mem_append_left _ hw)) h
  obtain ⟨p1, p2⟩ := pass_easy i1 (u := []) (by decide) (fun c hc => (List.not_mem_nil hc).elim)
  obtain ⟨j1, j2⟩ := run_ones (b := 1) ⟨by decide, by decide⟩ (us := b)
    (fun w hw => h1 w (List.mem_append_right _ (List.mem_cons_of_mem _ hw)))
    (fun w hw => hu w (List.mem_append_right _ (List.mem_cons_of_mem _ hw))) p1
  have e : run q (a ++ [] :: b) = run ((run q a).send.add [] []) b := by
    unfold run
    rw [List.foldl_append, List.foldl_cons]
  rw [e]
  refine ⟨j1, ?_⟩
  rw [j2, p2, i2, List.flatten_append, List.flatten_cons, List.map_append, List.map_nil, List.append_nil,
    List.nil_append, List.append_assoc]

/-- Without any code. -/
theorem run_quiet {us : List (List Code)} (h0 : ∀ u ∈ us, u = []) {q : Line} (h : Easy 0 q) : Easy 0 (run q us) := by
  induction us generalizing q with
  | nil => exact h
  | cons u us ih =>
    have := h0 u List.mem_cons_self
    subst this
    exact ih (fun w hw => h0 w (List.mem_cons_of_mem _ hw))
      (pass_easy h (u := []) (by decide) (fun c hc => (List.not_mem_nil hc).elim)).1

/-- How much may be waiting. -/
def room (s : Session) : Nat := if s.hand.last = none then 0 else 2

theorem run_movement {v : KeyMove} {us us' : List (List Code)} {w : List Code} (hr : Rolled i s t v us w us') {q : Line}
    (h : Easy 2 q) :
    Easy (room (s.step i v.key)) (run q (us ++ ([w] ++ us'))) ∧
      flow (run q (us ++ ([w] ++ us'))) = flow q ++ (v.rolled i s t).map (false, ·) := by
  have hc1 := fun u hu => hr.codes u (List.mem_append_left _ hu)
  have hc2 := hr.codes w (List.mem_append_right _ (List.mem_append_left _ List.mem_cons_self))
  have hc3 := fun u hu => hr.codes u (List.mem_append_right _ (List.mem_append_right _ hu))
  obtain ⟨i1, i2⟩ := run_gap hr.ones.1 hc1 hr.gap h
  have hw := hr.two
  obtain ⟨p1, p2⟩ := pass_easy i1 (u := w) (by omega) hc2
  obtain ⟨j1, j2⟩ := run_ones (b := 2) ⟨by decide, by decide⟩ hr.ones.2 hc3 (p1.more (show _ ≤ 2 by omega))
  have e : run q (us ++ ([w] ++ us')) = run ((run q us).send.add w []) us' := by
    unfold run
    rw [List.foldl_append, List.foldl_append]
    rfl
  rw [e]
  constructor
  · unfold room
    split
    · rename_i hn
      obtain ⟨q1, q2⟩ := hr.quiet hn
      subst q1
      exact run_quiet q2 p1
    · exact j1
  · rw [j2, p2, i2, ← hr.text, List.flatten_append, List.flatten_append, List.map_append, List.map_append,
      List.append_assoc, List.append_assoc, List.flatten_singleton]

/-! ## Several movements -/

/-- The session after the movements. -/
def after (i : UInt8) (s : Session) (vs : List KeyMove) : Session := s.steps i (vs.map (·.key))

theorem room_le (s : Session) : room s ≤ 2 := by
  unfold room
  split <;> omega

theorem rolls_out {vs : List KeyMove} (hf : Fine i s) (hB : Beat i s t pre) (ht : Timed t) (hA : MovesAllowed i s (vs.map (·.key)))
    (hst : Steady vs) (hpre : Settled openLayout pre (posDown s.down)) :
    ∃ us, Out fourMaps openLayout pre (keysRead s.down vs) us ∧
      ∀ q, Easy (room s) q → Easy (room (after i s vs)) (run q us) ∧
        flow (run q us) = flow q ++ (rollText i s t vs).map (false, ·) := by
  induction vs generalizing s t pre with
  | nil =>
    refine ⟨[], Out.nil pre, fun q hq => ⟨hq, ?_⟩⟩
    show flow q = flow q ++ []
    rw [List.append_nil]
  | cons v vs ih =>
    obtain ⟨hM, hA⟩ := hA
    obtain ⟨hb, hs⟩ := hst v List.mem_cons_self
    obtain ⟨⟨us, w, us', o1, o2⟩, o3, o4⟩ := movement hf hB ht hM hb hs hpre
    have ed : (s.step i v.key).down = toggled s.down v.key := step_down v.key
    obtain ⟨vss, p1, p2⟩ := ih (fine_step hf hM) o3 (timer_timed (t := t.ticks (v.before i s)) ht v.key) hA (fun x hx => hst x (List.mem_cons_of_mem _ hx)) o4
    rw [ed] at p1
    refine ⟨_, o1.append p1, fun q hq => ?_⟩
    obtain ⟨m1, m2⟩ := run_movement o2 (hq.more (room_le s))
    obtain ⟨n1, n2⟩ := p2 _ m1
    have e : run q (us ++ ([w] ++ us') ++ vss) = run (run q (us ++ ([w] ++ us'))) vss := by
      unfold run
      rw [List.foldl_append]
    rw [e]
    refine ⟨n1, ?_⟩
    rw [n2, m2, List.append_assoc, ← List.map_append]
    rfl

/-- The channel after some scans without messages. -/
theorem channel_run {ts ms us : List (List Code)} (h : ts.length = ms.length) :
    channel (ts ++ us) (ms ++ List.replicate us.length []) = run (channel ts ms) us := by
  unfold channel
  rw [List.zip_append h, List.foldl_append]
  generalize (ts.zip ms).foldl _ _ = q
  induction us generalizing q with
  | nil => rfl
  | cons u us ih => exact ih _

end Rolls

end Asdf
