import Verif.Spec.Holds
import Verif.Lemmas.Typist

/-! # Holding keys -/

namespace Asdf.Holds

open Spec

/-- What is left of the delay after `n` ticks. -/
def leftAfter (d n : Nat) : Nat := if d = 0 then 0 else if n < d then d - n else 66 - (n - d) % 66

theorem repsIn_zero (d : Nat) : repsIn d 0 = 0 := by
  unfold repsIn
  rw [if_pos]
  omega

theorem leftAfter_zero (d : Nat) : leftAfter d 0 = d := by
  unfold leftAfter
  split
  · omega
  · rw [if_pos (by omega)]; omega

theorem leftAfter_ne {d : Nat} (h : d ≠ 0) (n : Nat) : leftAfter d n ≠ 0 := by
  unfold leftAfter
  rw [if_neg h]
  split <;> omega

theorem reps_add (d m n : Nat) : repsIn d (m + n) = repsIn d m + repsIn (leftAfter d m) n := by
  by_cases h0 : d = 0
  · subst h0; rfl
  have h1 := leftAfter_ne h0 m
  unfold repsIn
  by_cases h2 : m < d
  · have e : leftAfter d m = d - m := by unfold leftAfter; rw [if_neg h0, if_pos h2]
    rw [e, if_pos (Or.inr h2)]
    by_cases h3 : m + n < d
    · rw [if_pos (Or.inr h3), if_pos (Or.inr (by omega))]
    · rw [if_neg (by omega), if_neg (by omega), show m + n - d = n - (d - m) by omega]
      omega
  · have e : leftAfter d m = 66 - (m - d) % 66 := by unfold leftAfter; rw [if_neg h0, if_neg h2]
    rw [e, if_neg (by omega), if_neg (by omega)]
    split <;> omega

theorem left_add (d m n : Nat) : leftAfter d (m + n) = leftAfter (leftAfter d m) n := by
  by_cases h0 : d = 0
  · subst h0; rfl
  have h1 := leftAfter_ne h0 m
  by_cases h2 : m < d
  · have e : leftAfter d m = d - m := by unfold leftAfter; rw [if_neg h0, if_pos h2]
    rw [e]
    unfold leftAfter
    rw [if_neg h0, if_neg (show ¬ d - m = 0 by omega)]
    by_cases h3 : m + n < d
    · rw [if_pos h3, if_pos (by omega)]; omega
    · rw [if_neg h3, if_neg (by omega), show m + n - d = n - (d - m) by omega]
  · have e : leftAfter d m = 66 - (m - d) % 66 := by unfold leftAfter; rw [if_neg h0, if_neg h2]
    rw [e]
    unfold leftAfter
    rw [if_neg h0, if_neg (show ¬ m + n < d by omega), if_neg (show ¬ 66 - (m - d) % 66 = 0 by omega)]
    split <;> omega

variable {cfg : Config} {L : Layout}

/-- What stays while keys are only held. -/
structure Same (k k' : Kb) : Prop where
  map : k'.map = k.map
  mods : k'.mods = k.mods
  last : k'.last = k.last

theorem Same.refl (k : Kb) : Same k k := ⟨rfl, rfl, rfl⟩

theorem Same.trans {a b c : Kb} (h : Same a b) (h' : Same b c) : Same a c :=
  ⟨h'.map.trans h.map, h'.mods.trans h.mods, h'.last.trans h.last⟩

theorem Same.code {k k' : Kb} (h : Same k k') (r c : Nat) : k'.code cfg L r c = k.code cfg L r c := by
  rw [Typist.code_eq h.map, h.mods, Typist.code_eq rfl]

/-- One key that is not pressed or released: `t` tells whether it makes the timer tick. -/
theorem key_hold {k : Kb} {s : Bool} {r c : Nat} (h : ((k.deb r c).step s).on = (k.deb r c).on) :
    let t := ((k.deb r c).on && s && decide (k.code cfg L r c = k.last)).toNat
    Same k (k.key cfg L s r c) ∧
    (k.key cfg L s r c).rpt.left = leftAfter k.rpt.left t ∧
    k.typedBy cfg L s r c = List.replicate (repsIn k.rpt.left t) k.last := by
  intro t
  by_cases hp : s ≠ (k.deb r c).on
  · have hl : ¬ (k.deb r c).left ≤ 1 := by
      intro hl
      unfold Deb.step at h
      rw [if_neg hp, if_pos hl] at h
      exact hp h
    have ht : t = 0 := by
      show Bool.toNat _ = 0
      revert hp
      cases s <;> cases (k.deb r c).on <;> simp
    have e : k.key cfg L s r c = stepDeb k s r c := by
      unfold Kb.key
      rw [if_pos hp, if_neg hl]
      rfl
    rw [e, ht, leftAfter_zero, repsIn_zero]
    refine ⟨⟨rfl, rfl, rfl⟩, rfl, ?_⟩
    unfold Kb.typedBy
    rw [if_pos hp, if_neg (fun h => hl h.2.1)]
    rfl
  · have hs : s = (k.deb r c).on := Classical.not_not.mp hp
    by_cases hc : s = true ∧ k.code cfg L r c = k.last
    · have ht : t = 1 := by
        show Bool.toNat _ = 1
        rw [← hs, hc.1, hc.2]
        simp
      have htick : k.rpt.tick.left = leftAfter k.rpt.left 1 := by
        unfold Rpt.tick leftAfter
        show (if k.rpt.left = 0 then 0 else if k.rpt.left = 1 then 66 else k.rpt.left - 1) = _
        by_cases h0 : k.rpt.left = 0
        · rw [if_pos h0, if_pos h0]
        · rw [if_neg h0, if_neg h0]
          by_cases h1 : k.rpt.left = 1
          · rw [if_pos h1, h1]; rfl
          · rw [if_neg h1, if_pos (by omega)]
      rw [ht]
      have hty : k.typedBy cfg L s r c = if k.rpt.left = 1 then [k.last] else [] := by
        unfold Kb.typedBy
        rw [if_neg hp]
        by_cases h1 : k.rpt.left = 1
        · rw [if_pos ⟨hc.1, hc.2, h1⟩, if_pos h1]
        · rw [if_neg (fun h => h1 h.2.2), if_neg h1]
      have hreps : repsIn k.rpt.left 1 = if k.rpt.left = 1 then 1 else 0 := by
        unfold repsIn
        by_cases h1 : k.rpt.left = 1
        · rw [h1]; rfl
        · rw [if_neg h1, if_pos (by omega)]
      by_cases h1 : k.rpt.left = 1
      · have e : k.key cfg L s r c = Kb.type { stepDeb k s r c with rpt := k.rpt.tick } k.last := by
          unfold Kb.key
          rw [if_neg hp, if_pos hc, if_pos h1]
          rfl
        rw [e, hty, hreps, if_pos h1, if_pos h1]
        refine ⟨⟨rfl, rfl, rfl⟩, ?_, rfl⟩
        show (if k.last = k.last then k.rpt.tick else k.rpt.tick.restart).left = _
        rw [if_pos rfl, htick]
      · have e : k.key cfg L s r c = { stepDeb k s r c with rpt := k.rpt.tick } := by
          unfold Kb.key
          rw [if_neg hp, if_pos hc, if_neg h1]
          rfl
        rw [e, hty, hreps, if_neg h1, if_neg h1]
        exact ⟨⟨rfl, rfl, rfl⟩, htick, rfl⟩
    · have ht : t = 0 := by
        show Bool.toNat _ = 0
        rw [← hs]
        cases s
        · rfl
        · have : ¬ k.code cfg L r c = k.last := fun e => hc ⟨rfl, e⟩
          simp [this]
      have e : k.key cfg L s r c = stepDeb k s r c := by
        unfold Kb.key
        rw [if_neg hp, if_neg hc]
        rfl
      rw [e, ht, leftAfter_zero, repsIn_zero]
      refine ⟨⟨rfl, rfl, rfl⟩, rfl, ?_⟩
      unfold Kb.typedBy
      rw [if_neg hp, if_neg (fun h => hc ⟨h.1, h.2.1⟩)]
      rfl

/-- One scan. -/
theorem keys_hold {inp : Input} (down : Down) (code : Nat → Nat → Code) (x : Code) (xs : List (Nat × Nat))
    (hn : xs.Nodup) {k : Kb} (hx : k.last = x) (hcode : ∀ y ∈ xs, k.code cfg L y.1 y.2 = code y.1 y.2)
    (hd : ∀ y ∈ xs, (k.deb y.1 y.2).on = down y.1 y.2)
    (h : ∀ y ∈ xs, ((k.deb y.1 y.2).step (sample inp y.1 y.2)).on = (k.deb y.1 y.2).on) :
    let t := xs.countP fun y => down y.1 y.2 && sample inp y.1 y.2 && decide (code y.1 y.2 = x)
    let k' := xs.foldl (fun k y => k.key cfg L (sample inp y.1 y.2) y.1 y.2) k
    Same k k' ∧ k'.rpt.left = leftAfter k.rpt.left t ∧
      Kb.logKeys cfg L Kb.typedBy inp xs k = List.replicate (repsIn k.rpt.left t) x := by
  induction xs generalizing k with
  | nil => exact ⟨Same.refl _, (leftAfter_zero _).symm, by show [] = _; rw [List.countP_nil, repsIn_zero]; rfl⟩
  | cons y xs ih =>
    obtain ⟨n1, n2⟩ := List.nodup_cons.mp hn
    obtain ⟨a1, a2, a3⟩ := key_hold (cfg := cfg) (L := L) (h y List.mem_cons_self)
    have hother : ∀ z ∈ xs, (k.key cfg L (sample inp y.1 y.2) y.1 y.2).deb z.1 z.2 = k.deb z.1 z.2 := by
      intro z hz
      rw [key_deb, if_neg]
      rintro ⟨e1, e2⟩
      exact n1 (by rw [← Prod.ext e1 e2]; exact hz)
    obtain ⟨b1, b2, b3⟩ := ih n2 (a1.last.trans hx)
      (fun z hz => (a1.code z.1 z.2).trans (hcode z (List.mem_cons_of_mem _ hz)))
      (fun z hz => by rw [hother z hz]; exact hd z (List.mem_cons_of_mem _ hz))
      (fun z hz => by rw [hother z hz]; exact h z (List.mem_cons_of_mem _ hz))
    rw [hd y List.mem_cons_self, hcode y List.mem_cons_self, hx] at a2 a3
    have ht : ∀ b : Bool, b.toNat = if b then 1 else 0 := by decide
    rw [ht] at a2 a3
    rw [List.foldl_cons, List.countP_cons]
    refine ⟨a1.trans b1, ?_, ?_⟩
    · rw [b2, a2, ← left_add, Nat.add_comm]
    · show _ ++ _ = _
      rw [b3, a3, a2, Nat.add_comm (List.countP _ _), reps_add, ← List.replicate_append_replicate]

theorem output_same (k : Kb) : Same k k.output ∧ k.output.rpt = k.rpt := by
  unfold Kb.output
  split
  · exact ⟨⟨rfl, rfl, rfl⟩, rfl⟩
  · split <;> exact ⟨⟨rfl, rfl, rfl⟩, rfl⟩

theorem down_eq (pre : List Input) {r c : Nat} (hr : r < L.rows) (hc : c < L.cols) :
    ((Kb.after cfg L pre).deb r c).on = downAfter pre r c := by
  rw [after_deb cfg L pre hr hc]
  rfl

/-- Several scans. -/
theorem hold (pre more : List Input) (h : Unmoved L pre more) :
    let k := Kb.after cfg L pre
    let k' := Kb.after cfg L (pre ++ more)
    let t := ticks L (downAfter pre) (fun r c => k.code cfg L r c) k.last more
    Same k k' ∧ k'.rpt.left = leftAfter k.rpt.left t ∧
      (Kb.log cfg L Kb.typedBy more k).flatten = List.replicate (repsIn k.rpt.left t) k.last := by
  induction more using snoc_induction with
  | h0 =>
    rw [List.append_nil]
    exact ⟨Same.refl _, (leftAfter_zero _).symm, by show [] = _; rw [show ticks _ _ _ _ [] = 0 from rfl, repsIn_zero]; rfl⟩
  | h1 more inp ih =>
    obtain ⟨a1, a2, a3⟩ := ih (fun u v e => h u (v ++ [inp]) (by rw [e, List.append_assoc]))
    intro k k' t
    have hm : (Kb.after cfg L (pre ++ more)) = more.foldl (Kb.pass cfg L) k := by
      unfold k Kb.after
      rw [List.foldl_append]
    obtain ⟨o1, o2⟩ := output_same (Kb.after cfg L (pre ++ more))
    have hu := h more [inp] rfl
    have hu2 := h (more ++ [inp]) [] (List.append_nil _).symm
    have hdn : ∀ y ∈ keysOf L, ((Kb.after cfg L (pre ++ more)).output.deb y.1 y.2).on = downAfter pre y.1 y.2 := by
      rintro ⟨r, c⟩ hy
      obtain ⟨hr, hc⟩ := (mem_keysOf L).mp hy
      rw [output_deb, down_eq _ hr hc]
      exact hu r c hr hc
    obtain ⟨b1, b2, b3⟩ := keys_hold (cfg := cfg) (L := L) (inp := inp) (downAfter pre)
      (fun r c => k.code cfg L r c) k.last (keysOf L) (keysOf_nodup L)
      (k := (Kb.after cfg L (pre ++ more)).output) (o1.last.trans a1.last)
      (fun y _ => (a1.trans o1).code y.1 y.2) hdn
      (by
        rintro ⟨r, c⟩ hy
        obtain ⟨hr, hc⟩ := (mem_keysOf L).mp hy
        rw [hdn (r, c) hy, output_deb, after_deb cfg L _ hr hc]
        rw [← hu2 r c hr hc]
        show _ = debounced (samplesOf _ r c)
        unfold debounced samplesOf
        rw [← List.append_assoc, List.map_append (l₂ := [inp]), List.foldl_append]
        rfl)
    have ht : t = ticks L (downAfter pre) (fun r c => k.code cfg L r c) k.last more +
        ticksIn L (downAfter pre) (fun r c => k.code cfg L r c) k.last inp := by
      show ticks _ _ _ _ (more ++ [inp]) = _
      unfold ticks
      rw [List.map_append, List.sum_append]
      simp
    have hk' : k' = (Kb.after cfg L (pre ++ more)).pass cfg L inp := by
      show Kb.after cfg L (pre ++ (more ++ [inp])) = _
      rw [← List.append_assoc, after_snoc]
    rw [hk', ht]
    refine ⟨(a1.trans o1).trans b1, ?_, ?_⟩
    · exact b2.trans (by rw [o2, a2, ← left_add]; rfl)
    · rw [log_append, List.flatten_append, a3, reps_add, ← List.replicate_append_replicate]
      congr 1
      show [Kb.logPass _ _ _ _ _].flatten = _
      rw [← hm]
      simp only [List.flatten_cons, List.flatten_nil, List.append_nil]
      show Kb.logKeys _ _ _ _ _ _ = _
      rw [b3, o2, a2]
      rfl

/-- The text of one scan. -/
theorem hold_pass (pre : List Input) (inp : Input) (h : Unmoved L pre [inp]) :
    let k := Kb.after cfg L pre
    k.logPass cfg L Kb.typedBy inp = List.replicate (repsIn k.rpt.left
      (ticksIn L (downAfter pre) (fun r c => k.code cfg L r c) k.last inp)) k.last := by
  have := (hold (cfg := cfg) pre [inp] h).2.2
  rw [show ticks L (downAfter pre) (fun r c => (Kb.after cfg L pre).code cfg L r c) (Kb.after cfg L pre).last [inp] =
    ticksIn L (downAfter pre) (fun r c => (Kb.after cfg L pre).code cfg L r c) (Kb.after cfg L pre).last inp from
    Nat.add_zero _] at this
  intro k
  rw [← this]
  exact (List.append_nil _).symm

/-- No message starts while keys are only held. -/
theorem keys_silent {inp : Input} (xs : List (Nat × Nat)) (hn : xs.Nodup) {k : Kb}
    (h : ∀ y ∈ xs, ((k.deb y.1 y.2).step (sample inp y.1 y.2)).on = (k.deb y.1 y.2).on) :
    Kb.logKeys cfg L Kb.saidBy inp xs k = [] := by
  induction xs generalizing k with
  | nil => rfl
  | cons y xs ih =>
    obtain ⟨n1, n2⟩ := List.nodup_cons.mp hn
    have hy := h y List.mem_cons_self
    have h1 : k.saidBy cfg L (sample inp y.1 y.2) y.1 y.2 = [] := by
      unfold Kb.saidBy
      rw [if_neg]
      rintro ⟨a, b, c⟩
      unfold Deb.step at hy
      rw [a, b, if_neg (by decide), if_pos c] at hy
      cases hy
    show _ ++ _ = _
    rw [h1, List.nil_append]
    refine ih n2 (fun z hz => ?_)
    rw [key_deb, if_neg]
    · exact h z (List.mem_cons_of_mem _ hz)
    · rintro ⟨e1, e2⟩
      exact n1 (by rw [← Prod.ext e1 e2]; exact hz)

theorem silent_pass (pre : List Input) (inp : Input) (h : Unmoved L pre [inp]) :
    (Kb.after cfg L pre).logPass cfg L Kb.saidBy inp = [] := by
  refine keys_silent (keysOf L) (keysOf_nodup L) ?_
  rintro ⟨r, c⟩ hy
  obtain ⟨hr, hc⟩ := (mem_keysOf L).mp hy
  rw [output_deb, down_eq pre hr hc, ← h [inp] [] rfl r c hr hc, after_deb cfg L _ hr hc]
  unfold downAfter debounced samplesOf
  rw [List.map_append, List.foldl_append]
  rfl

theorem reps_le_one {d n : Nat} (h : n ≤ 66) : repsIn d n ≤ 1 := by
  unfold repsIn
  split <;> omega

/-- What is sent and waiting grows by the repetitions. -/
theorem hold_flow (pre more : List Input) (h : Unmoved L pre more)
    (hk : (Kb.after cfg L pre).keys = []) (hm : (Kb.after cfg L pre).msgs = [])
    (hf : ∀ inp ∈ more, ticksIn L (downAfter pre) (fun r c => (Kb.after cfg L pre).code cfg L r c)
      (Kb.after cfg L pre).last inp ≤ 66) :
    (Kb.after cfg L (pre ++ more)).keys.length ≤ 1 ∧ (Kb.after cfg L (pre ++ more)).msgs = [] ∧
    keyFlow (Kb.after cfg L (pre ++ more)) = keyFlow (Kb.after cfg L pre) ++
      sendable (Kb.log cfg L Kb.typedBy more (Kb.after cfg L pre)).flatten ∧
    msgFlow (Kb.after cfg L (pre ++ more)) = msgFlow (Kb.after cfg L pre) := by
  induction more using snoc_induction with
  | h0 =>
    rw [List.append_nil, hk]
    exact ⟨Nat.zero_le _, hm, (List.append_nil _).symm, rfl⟩
  | h1 more inp ih =>
    have hu : Unmoved L pre more := fun u v e => h u (v ++ [inp]) (by rw [e, List.append_assoc])
    have hu' : Unmoved L (pre ++ more) [inp] := by
      intro u v e r c hr hc
      rw [List.append_assoc, h (more ++ u) v (by rw [e, List.append_assoc]) r c hr hc,
        h more [inp] rfl r c hr hc]
    obtain ⟨i1, i2, i3, i4⟩ := ih hu (fun i hi => hf i (List.mem_append_left _ hi))
    obtain ⟨a1, a2, a3⟩ := hold (cfg := cfg) pre more hu
    have hp := hold_pass (cfg := cfg) (pre ++ more) inp hu'
    have hs := silent_pass (cfg := cfg) (pre ++ more) inp hu'
    have ht : ticksIn L (downAfter (pre ++ more)) (fun r c => (Kb.after cfg L (pre ++ more)).code cfg L r c)
        (Kb.after cfg L (pre ++ more)).last inp = ticksIn L (downAfter pre)
          (fun r c => (Kb.after cfg L pre).code cfg L r c) (Kb.after cfg L pre).last inp := by
      refine List.countP_congr ?_
      rintro ⟨r, c⟩ hy
      obtain ⟨hr, hc⟩ := (mem_keysOf L).mp hy
      have e : (Kb.after cfg L (pre ++ more)).code cfg L r c = (Kb.after cfg L pre).code cfg L r c := a1.code r c
      dsimp only
      have el : (Kb.after cfg L (pre ++ more)).last = (Kb.after cfg L pre).last := a1.last
      simp only [h more [inp] rfl r c hr hc, e, el]
    have hlen : ((Kb.after cfg L (pre ++ more)).logPass cfg L Kb.typedBy inp).length ≤ 1 := by
      rw [hp, List.length_replicate]
      exact reps_le_one (by rw [ht]; exact hf inp (List.mem_append_right _ List.mem_cons_self))
    obtain ⟨g1, g2⟩ := after_good cfg L (pre ++ more)
    obtain ⟨_, _, p1, p2, _, _⟩ := pass_flow cfg L g1 g2 inp
    have ok : (Kb.after cfg L (pre ++ more)).output.keys = [] ∧
        (Kb.after cfg L (pre ++ more)).output.msgs = [] := by
      unfold Kb.output
      rw [i2]
      cases hk : (Kb.after cfg L (pre ++ more)).keys with
      | nil => exact ⟨hk, i2⟩
      | cons c cs =>
        rw [hk] at i1
        refine ⟨?_, rfl⟩
        have : cs.length = 0 := by simp at i1; simpa using i1
        exact List.eq_nil_of_length_eq_zero this
    have hm' : (Kb.after cfg L pre).log cfg L Kb.typedBy (more ++ [inp]) =
        (Kb.after cfg L pre).log cfg L Kb.typedBy more ++
          [(Kb.after cfg L (pre ++ more)).logPass cfg L Kb.typedBy inp] := by
      rw [log_append]
      unfold Kb.after
      rw [List.foldl_append]
      rfl
    rw [← List.append_assoc, after_snoc, p1, p2, ok.1, ok.2, hs, hm']
    refine ⟨?_, rfl, ?_, ?_⟩
    · rw [List.nil_append, List.length_take]
      omega
    · rw [pass_keys_exact cfg L g1 g2 inp (by rw [ok.1, List.length_nil]; omega), i3, List.flatten_append,
        List.flatten_singleton, sendable_append, List.append_assoc]
    · rw [pass_msgs_exact cfg L g1 g2 inp (by rw [ok.2, hs]; exact Nat.zero_le _), i4, hs, List.append_nil]

end Asdf.Holds
