import Verif.Lemmas.Typed

/-! # Lemmas for C63: how long codes wait -/

namespace Asdf

open Spec

theorem take_keep {α} {a t : List α} {n j : Nat} (hj : j ≤ a.length) (ha : a.length ≤ n) :
    ((a ++ t).take n).take j = a.take j := by
  rw [List.take_take, Nat.min_eq_left (by omega), List.take_append_of_le_length hj]

theorem logs_cons {cfg : Config} {L : Layout} {x : Input} {l : List Input} {k : Kb}
    (h : ∀ m ∈ k.log cfg L Kb.saidBy (x :: l), m = []) :
    k.logPass cfg L Kb.saidBy x = [] ∧
      ∀ m ∈ (k.pass cfg L x).log cfg L Kb.saidBy l, m = [] :=
  ⟨h _ List.mem_cons_self, fun m hm => h m (List.mem_cons_of_mem _ hm)⟩

/-- The output part of a pass, on the queues. -/
theorem output_msg {k : Kb} (he : EndsWell k.trace) {m : Code} {ms : List Code} (hm : k.msgs = m :: ms) :
    k.output.keys = k.keys ∧ k.output.msgs = ms ∧
      keySends k.output.trace = keySends k.trace ∧
      msgSends k.output.trace = msgSends k.trace ++ [m] := by
  have ho : k.output = Kb.emit { k with msgs := ms } [.delayMs k.pause, .send m] := by
    unfold Kb.output; simp only [hm]
  rw [ho]
  refine ⟨rfl, rfl, ?_, ?_⟩
  · show keySends (k.trace ++ _) = _
    rw [keySends_append _ _ he]
    exact List.append_nil _
  · exact msgSends_append _ _ he

theorem output_key {k : Kb} (he : EndsWell k.trace) (hm : k.msgs = []) :
    k.output.keys = k.keys.tail ∧ k.output.msgs = [] ∧
      keySends k.output.trace = keySends k.trace ++ sendable (k.keys.take 1) ∧
      msgSends k.output.trace = msgSends k.trace := by
  cases hk : k.keys with
  | nil =>
    have ho : k.output = k := by unfold Kb.output; simp only [hm, hk]
    rw [ho]
    exact ⟨hk, hm, (List.append_nil _).symm, rfl⟩
  | cons c cs =>
    have ho : k.output = Kb.emit { k with keys := cs }
        (if c.toNat < 0xA0 then [.send c] else []) := by
      unfold Kb.output; simp only [hm, hk]
    rw [ho]
    refine ⟨rfl, hm, ?_, ?_⟩
    · show keySends (k.trace ++ _) = keySends k.trace ++ sendable [c]
      rw [keySends_append _ _ he]
      unfold sendable
      by_cases hc : c.toNat < 0xA0
      · rw [if_pos hc, List.filter_cons_of_pos (by simpa using hc)]; rfl
      · rw [if_neg hc, List.filter_cons_of_neg (by simpa using hc)]; rfl
    · show msgSends (k.trace ++ _) = _
      rw [msgSends_append _ _ he]
      by_cases hc : c.toNat < 0xA0
      · rw [if_pos hc]; exact List.append_nil _
      · rw [if_neg hc]; exact List.append_nil _

/-- While no message is printed, each pass sends the next of the items waiting. -/
theorem drain_exact (cfg : Config) (L : Layout) (more : List Input) {k : Kb} (he : EndsWell k.trace)
    (hf : QueueFits k) (hs : ∀ m ∈ k.log cfg L Kb.saidBy more, m = [])
    (hn : more.length ≤ k.msgs.length + k.keys.length) :
    msgSends (more.foldl (Kb.pass cfg L) k).trace = msgSends k.trace ++ k.msgs.take more.length ∧
    keySends (more.foldl (Kb.pass cfg L) k).trace =
      keySends k.trace ++ sendable (k.keys.take (more.length - k.msgs.length)) := by
  induction more generalizing k with
  | nil =>
    refine ⟨(List.append_nil _).symm, ?_⟩
    rw [List.length_nil, Nat.zero_sub]
    exact (List.append_nil _).symm
  | cons x more ih =>
    obtain ⟨s1, s2⟩ := logs_cons hs
    obtain ⟨p1, p2, p3, p4, p5, p6⟩ := pass_flow cfg L he hf x
    rw [List.length_cons] at hn ⊢
    rw [s1, List.append_nil] at p4
    cases hm : k.msgs with
    | cons m ms =>
      obtain ⟨o1, o2, o3, o4⟩ := output_msg he hm
      have hf1 := hf.1
      have hf2 := hf.2
      rw [hm, List.length_cons] at hf2 hn
      rw [o1] at p3
      rw [o2, List.take_of_length_le (by omega)] at p4
      have hkl : k.keys.length ≤ ((k.keys ++ k.logPass cfg L Kb.typedBy x).take 16).length := by
        rw [List.length_take, List.length_append]; omega
      obtain ⟨i1, i2⟩ := ih p2 p1 s2 (by rw [p3, p4]; omega)
      refine ⟨?_, ?_⟩
      · show msgSends (more.foldl (Kb.pass cfg L) (k.pass cfg L x)).trace = _
        rw [i1, p6, o4, p4, List.take_succ_cons, List.append_assoc]
        rfl
      · show keySends (more.foldl (Kb.pass cfg L) (k.pass cfg L x)).trace = _
        rw [i2, p5, o3, p3, p4, take_keep (by omega) hf1, List.length_cons, Nat.add_sub_add_right]
    | nil =>
      obtain ⟨o1, o2, o3, o4⟩ := output_key he hm
      have hf1 := hf.1
      rw [hm, List.length_nil] at hn
      rw [o1] at p3
      rw [o2] at p4
      have ht : k.keys.tail.length = k.keys.length - 1 := List.length_tail
      have hkl : k.keys.tail.length ≤ ((k.keys.tail ++ k.logPass cfg L Kb.typedBy x).take 16).length := by
        rw [List.length_take, List.length_append]; omega
      obtain ⟨i1, i2⟩ := ih p2 p1 s2 (by rw [p3, p4]; simp only [List.take_nil, List.length_nil]; omega)
      refine ⟨?_, ?_⟩
      · show msgSends (more.foldl (Kb.pass cfg L) (k.pass cfg L x)).trace = _
        rw [i1, p6, o4, p4, List.take_nil, List.take_nil, List.take_nil]
      · show keySends (more.foldl (Kb.pass cfg L) (k.pass cfg L x)).trace = _
        rw [i2, p5, o3, p3, p4]
        simp only [List.take_nil, List.length_nil, Nat.sub_zero]
        rw [take_keep (by omega) (by omega), List.append_assoc, ← sendable_append]
        cases hk : k.keys with
        | nil => rw [hk] at hn; simp at hn
        | cons c cs => rfl

/-- What was sent stays sent. -/
theorem sends_grow (cfg : Config) (L : Layout) (more : List Input) {k : Kb} (he : EndsWell k.trace)
    (hf : QueueFits k) :
    msgSends k.trace <+: msgSends (more.foldl (Kb.pass cfg L) k).trace ∧
      keySends k.trace <+: keySends (more.foldl (Kb.pass cfg L) k).trace := by
  induction more generalizing k with
  | nil => exact ⟨List.prefix_rfl, List.prefix_rfl⟩
  | cons x more ih =>
    obtain ⟨p1, p2, p3, p4, p5, p6⟩ := pass_flow cfg L he hf x
    obtain ⟨i1, i2⟩ := ih p2 p1
    rw [p6] at i1
    rw [p5] at i2
    cases hm : k.msgs with
    | cons m ms =>
      obtain ⟨_, _, o3, o4⟩ := output_msg he hm
      rw [o4] at i1
      rw [o3] at i2
      exact ⟨(List.prefix_append _ _).trans i1, i2⟩
    | nil =>
      obtain ⟨_, _, o3, o4⟩ := output_key he hm
      rw [o4] at i1
      rw [o3] at i2
      exact ⟨i1, (List.prefix_append _ _).trans i2⟩

/-- Messages do not wait for anything. -/
theorem drain_msgs (cfg : Config) (L : Layout) (more : List Input) {k : Kb} (he : EndsWell k.trace)
    (hf : QueueFits k) {old new : List Code} (hk : k.msgs = old ++ new) (hn : more.length = old.length) :
    msgSends (more.foldl (Kb.pass cfg L) k).trace = msgSends k.trace ++ old := by
  induction more generalizing k old new with
  | nil =>
    rw [List.eq_nil_of_length_eq_zero (l := old) hn.symm]
    exact (List.append_nil _).symm
  | cons x more ih =>
    obtain ⟨p1, p2, p3, p4, p5, p6⟩ := pass_flow cfg L he hf x
    cases old with
    | nil => cases hn
    | cons m ms =>
      obtain ⟨o1, o2, o3, o4⟩ := output_msg he (ms := ms ++ new) hk
      have hf2 := hf.2
      rw [hk] at hf2
      simp only [List.cons_append, List.length_cons, List.length_append] at hf2
      rw [o2, List.append_assoc, List.take_append, List.take_of_length_le (by omega)] at p4
      have := ih p2 p1 p4 (Nat.succ.inj hn)
      show msgSends (more.foldl (Kb.pass cfg L) (k.pass cfg L x)).trace = _
      rw [this, p6, o4, List.append_assoc]
      rfl

/-- While nothing is typed or printed, the queues run empty. -/
theorem drain_quiet (cfg : Config) (L : Layout) (more : List Input) {k : Kb} (he : EndsWell k.trace)
    (hf : QueueFits k) (hs : ∀ m ∈ k.log cfg L Kb.saidBy more, m = [])
    (ht : ∀ m ∈ k.log cfg L Kb.typedBy more, m = []) :
    (more.foldl (Kb.pass cfg L) k).keys = k.keys.drop (more.length - k.msgs.length) ∧
      (more.foldl (Kb.pass cfg L) k).msgs = k.msgs.drop more.length := by
  induction more generalizing k with
  | nil =>
    rw [List.length_nil, Nat.zero_sub]
    exact ⟨rfl, rfl⟩
  | cons x more ih =>
    obtain ⟨s1, s2⟩ := logs_cons hs
    have t1 := ht _ List.mem_cons_self
    obtain ⟨p1, p2, p3, p4, _, _⟩ := pass_flow cfg L he hf x
    obtain ⟨i1, i2⟩ := ih p2 p1 s2 (fun m hm => ht m (List.mem_cons_of_mem _ hm))
    have hf1 := hf.1
    have hf2 := hf.2
    rw [t1, List.append_nil] at p3
    rw [s1, List.append_nil] at p4
    rw [List.foldl_cons, i1, i2, p3, p4]
    cases hm : k.msgs with
    | cons m ms =>
      obtain ⟨o1, o2, _, _⟩ := output_msg he hm
      rw [hm, List.length_cons] at hf2
      rw [o1, o2, List.take_of_length_le hf1, List.take_of_length_le (l := ms) (by omega),
        List.length_cons, List.length_cons, Nat.add_sub_add_right]
      exact ⟨rfl, rfl⟩
    | nil =>
      obtain ⟨o1, o2, _, _⟩ := output_key he hm
      rw [o1, o2, List.take_nil, List.drop_nil, List.drop_nil, List.length_nil, Nat.sub_zero,
        Nat.sub_zero, List.take_of_length_le (by rw [List.length_tail]; omega), List.length_cons,
        List.drop_tail]
      exact ⟨rfl, rfl⟩

theorem log_length (cfg : Config) (L : Layout)
    (f : Config → Layout → Bool → Kb → Nat → Nat → List Code) (a : List Input) (k : Kb) :
    (k.log cfg L f a).length = a.length := by
  induction a generalizing k with
  | nil => rfl
  | cons x a ih => exact congrArg (· + 1) (ih _)

theorem after_append (cfg : Config) (L : Layout) (a b : List Input) :
    Kb.after cfg L (a ++ b) = b.foldl (Kb.pass cfg L) (Kb.after cfg L a) := List.foldl_append

theorem said_append (cfg : Config) (L : Layout) (a b : List Input) :
    said cfg L (a ++ b) = said cfg L a ++ (Kb.after cfg L a).log cfg L Kb.saidBy b :=
  log_append cfg L Kb.saidBy a b _

theorem typed_append (cfg : Config) (L : Layout) (a b : List Input) :
    typed cfg L (a ++ b) = typed cfg L a ++ (Kb.after cfg L a).log cfg L Kb.typedBy b :=
  log_append cfg L Kb.typedBy a b _

/-- What is printed in the second part of a run. -/
theorem said_drop (cfg : Config) (L : Layout) (a b : List Input) :
    (said cfg L (a ++ b)).drop a.length = (Kb.after cfg L a).log cfg L Kb.saidBy b := by
  rw [said_append]
  exact List.drop_left' (log_length ..)

theorem typed_drop (cfg : Config) (L : Layout) (a b : List Input) :
    (typed cfg L (a ++ b)).drop a.length = (Kb.after cfg L a).log cfg L Kb.typedBy b := by
  rw [typed_append]
  exact List.drop_left' (log_length ..)

/-- A pass in which no key is closed types and prints nothing. -/
theorem open_logs (cfg : Config) (L : Layout) (inp : Input)
    (h : ∀ r c, r < L.rows → c < L.cols → sample inp r c = false) (k : Kb) :
    k.logPass cfg L Kb.typedBy inp = [] ∧ k.logPass cfg L Kb.saidBy inp = [] := by
  have key : ∀ (xs : List (Nat × Nat)), (∀ x ∈ xs, sample inp x.1 x.2 = false) → ∀ k : Kb,
      k.logKeys cfg L Kb.typedBy inp xs = [] ∧ k.logKeys cfg L Kb.saidBy inp xs = [] := by
    intro xs
    induction xs with
    | nil => exact fun _ _ => ⟨rfl, rfl⟩
    | cons x xs ih =>
      intro hx k
      obtain ⟨i1, i2⟩ := ih (fun y hy => hx y (List.mem_cons_of_mem _ hy))
        (k.key cfg L (sample inp x.1 x.2) x.1 x.2)
      have hp := hx x List.mem_cons_self
      unfold Kb.logKeys
      rw [i1, i2, hp]
      refine ⟨?_, ?_⟩
      · unfold Kb.typedBy
        split
        · rw [if_neg (fun h => by cases h.1)]; rfl
        · rw [if_neg (fun h => by cases h.1)]; rfl
      · unfold Kb.saidBy
        rw [if_neg (fun h => by cases h.1)]
        rfl
  refine key _ ?_ _
  rintro ⟨r, c⟩ hx
  rw [keysOf_allKeys] at hx
  unfold allKeys at hx
  rw [mem_keyOrder] at hx
  exact h r c (by omega) (by omega)

theorem open_log (cfg : Config) (L : Layout) (more : List Input)
    (h : ∀ inp ∈ more, ∀ r c, r < L.rows → c < L.cols → sample inp r c = false) (k : Kb) :
    (∀ t ∈ k.log cfg L Kb.typedBy more, t = []) ∧ ∀ m ∈ k.log cfg L Kb.saidBy more, m = [] := by
  induction more generalizing k with
  | nil => exact ⟨(fun _ h => by cases h), fun _ h => by cases h⟩
  | cons x more ih =>
    obtain ⟨i1, i2⟩ := ih (fun y hy => h y (List.mem_cons_of_mem _ hy)) (k.pass cfg L x)
    obtain ⟨o1, o2⟩ := open_logs cfg L x (h x List.mem_cons_self) k
    refine ⟨fun t ht => ?_, fun t ht => ?_⟩
    · rcases List.mem_cons.mp ht with rfl | ht
      · exact o1
      · exact i1 t ht
    · rcases List.mem_cons.mp ht with rfl | ht
      · exact o2
      · exact i2 t ht

end Asdf
