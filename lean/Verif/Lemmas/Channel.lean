import Verif.Lemmas.Typed
import Verif.Spec.Channel

/-! # Lemmas for C77: the way to the host -/

namespace Asdf

open Spec

theorem hostSees_append (t u : List Event) (h : EndsWell t) :
    hostSees (t ++ u) = hostSees t ++ hostSees u := by
  fun_induction hostSees t with
  | case1 => rfl
  | case2 m c es ih =>
    show _ :: hostSees (es ++ u) = _
    rw [ih h.tail'.tail']
    rfl
  | case3 c es ih =>
    show _ :: hostSees (es ++ u) = _
    rw [ih h.tail']
    rfl
  | case4 e es h1 h2 ih =>
    rw [← ih h.tail', List.cons_append]
    cases e with
    | send c => exact absurd rfl (h2 c)
    | delayMs m =>
      cases es with
      | nil => exact absurd rfl (h m)
      | cons a as =>
        cases a with
        | send c => exact absurd rfl (h1 m c as rfl)
        | _ => rfl
    | _ => rfl

theorem hostSees_quiet {es : List Event} (h : Quiet es) : hostSees es = [] := by
  induction es with
  | nil => rfl
  | cons e es ih =>
    have := ih h.tail
    have he := h e List.mem_cons_self
    cases e with
    | send c => exact absurd rfl (he.1 c)
    | delayMs m => exact absurd rfl (he.2 m)
    | _ => exact this

/-- The two streams of the host's view. -/
theorem hostSees_split (t : List Event) :
    keySends t = (hostSees t).filterMap (fun x => if x.1 then none else some x.2) ∧
    msgSends t = (hostSees t).filterMap (fun x => if x.1 then some x.2 else none) := by
  fun_induction hostSees t with
  | case1 => exact ⟨rfl, rfl⟩
  | case2 m c es ih => exact ⟨ih.1, congrArg (c :: ·) ih.2⟩
  | case3 c es ih => exact ⟨congrArg (c :: ·) ih.1, ih.2⟩
  | case4 e es h1 h2 ih =>
    rw [← ih.1, ← ih.2]
    cases e with
    | send c => exact absurd rfl (h2 c)
    | delayMs m =>
      cases es with
      | nil => exact ⟨rfl, rfl⟩
      | cons a as =>
        cases a with
        | send c => exact absurd rfl (h1 m c as rfl)
        | _ => exact ⟨rfl, rfl⟩
    | _ => exact ⟨rfl, rfl⟩

/-- The keyboard `k` is in the situation `q`. -/
structure OnLine (k : Kb) (q : Line) : Prop where
  keys : k.keys = q.keys
  msgs : k.msgs = q.msgs
  host : hostSees k.trace = q.host

theorem OnLine.output {k : Kb} {q : Line} (h : OnLine k q) (he : EndsWell k.trace) :
    OnLine k.output q.send := by
  obtain ⟨h1, h2, h3⟩ := h
  unfold Kb.output Line.send
  rw [h2, h1]
  cases hm : q.msgs with
  | cons m ms =>
    refine ⟨rfl, rfl, ?_⟩
    show hostSees (k.trace ++ _) = _
    rw [hostSees_append _ _ he, h3]
    rfl
  | nil =>
    cases hk : q.keys with
    | cons c cs =>
      refine ⟨rfl, rfl, ?_⟩
      show hostSees (k.trace ++ _) = q.host ++ ite _ _ _
      rw [hostSees_append _ _ he, h3]
      by_cases hc : c.toNat < 0xA0
      · rw [if_pos hc, if_pos hc]; rfl
      · rw [if_neg hc, if_neg hc]; rfl
    | nil => exact ⟨h1, h2, h3⟩

theorem take_room {l t : List Code} {n : Nat} (h : l.length ≤ n) :
    (l ++ t).take n = l ++ t.take (n - l.length) := by
  rw [List.take_append, List.take_of_length_le h]

theorem OnLine.pass (cfg : Config) (L : Layout) {k : Kb} {q : Line} (h : OnLine k q)
    (he : EndsWell k.trace) (hf : QueueFits k) (inp : Input) :
    OnLine (k.pass cfg L inp)
      (q.send.add (k.logPass cfg L Kb.typedBy inp) (k.logPass cfg L Kb.saidBy inp)) := by
  obtain ⟨_, _, h3, h4⟩ := output_flow he hf
  obtain ⟨o1, o2, o3⟩ := h.output he
  have hk := typing_keys cfg L inp (keysOf L) h4
  obtain ⟨es, qu, e⟩ := hk.trace
  have e : (k.pass cfg L inp).trace = k.output.trace ++ es := e
  refine ⟨?_, ?_, ?_⟩
  · refine (hk.keys).trans ?_
    rw [take_room h4.1, o1]
    rfl
  · refine (hk.msgs).trans ?_
    rw [take_room h4.2, o2]
    rfl
  · rw [e, hostSees_append _ _ h3, hostSees_quiet qu, List.append_nil]
    exact o3

theorem typed_length (cfg : Config) (L : Layout) (inps : List Input) :
    (typed cfg L inps).length = inps.length ∧ (said cfg L inps).length = inps.length := by
  have : ∀ f (l : List Input) (k : Kb), (Kb.log cfg L f l k).length = l.length := by
    intro f l
    induction l with
    | nil => intro k; rfl
    | cons x l ih => intro k; exact congrArg (· + 1) (ih _)
  exact ⟨this _ _ _, this _ _ _⟩

theorem channel_snoc (ts ms : List (List Code)) (t m : List Code) (h : ts.length = ms.length) :
    channel (ts ++ [t]) (ms ++ [m]) = (channel ts ms).send.add t m := by
  unfold channel
  rw [List.zip_append h, List.foldl_append]
  rfl

theorem after_onLine (cfg : Config) (L : Layout) (inps : List Input) :
    OnLine (Kb.after cfg L inps) (channel (typed cfg L inps) (said cfg L inps)) := by
  refine snoc_induction (P := fun l => OnLine (Kb.after cfg L l)
    (channel (typed cfg L l) (said cfg L l))) ?_ ?_ inps
  · obtain ⟨_, _, h1, h2, _, _⟩ := start_flow cfg
    refine ⟨h1, h2, ?_⟩
    have h := typing_install cfg (k := blankKb) ⟨Nat.zero_le _, Nat.zero_le _⟩ 0
    obtain ⟨es, q, e⟩ := h.trace
    have e : (Kb.start cfg).trace = [] ++ es := e
    show hostSees (Kb.start cfg).trace = []
    rw [e, List.nil_append]
    exact hostSees_quiet q
  · intro l x ih
    obtain ⟨g1, g2⟩ := after_good cfg L l
    have hl := typed_length cfg L l
    rw [after_snoc, typed_snoc, said_snoc, channel_snoc _ _ _ _ (hl.1.trans hl.2.symm)]
    exact ih.pass cfg L g1 g2 x

/-! ## Counting -/

theorem channel_induction {P : List (List Code) → List (List Code) → Line → Prop}
    (h0 : P [] [] {})
    (h1 : ∀ ts ms q t m, ts.length = ms.length → P ts ms q →
      P (ts ++ [t]) (ms ++ [m]) (q.send.add t m)) :
    ∀ ts ms, ts.length = ms.length → P ts ms (channel ts ms) := by
  intro ts
  refine snoc_induction (P := fun ts => ∀ ms, ts.length = ms.length → P ts ms (channel ts ms))
    ?_ ?_ ts
  · intro ms h
    cases ms with
    | nil => exact h0
    | cons m ms => simp at h
  · intro ts t ih ms h
    rcases List.eq_nil_or_concat ms with rfl | ⟨ms', m, rfl⟩
    · simp at h
    · rw [List.concat_eq_append] at h ⊢
      have hl : ts.length = ms'.length := by simpa using h
      rw [channel_snoc _ _ _ _ hl]
      exact h1 _ _ _ _ _ hl (ih _ hl)

/-- The keystrokes of the host's view. -/
def keysIn (l : List (Bool × Code)) : List Code := l.filterMap fun x => if x.1 then none else some x.2

/-- The message characters of the host's view. -/
def msgsIn (l : List (Bool × Code)) : List Code := l.filterMap fun x => if x.1 then some x.2 else none

theorem send_counts (q : Line) :
    keysIn q.send.host ++ sendable q.send.keys = keysIn q.host ++ sendable q.keys ∧
    msgsIn q.send.host ++ q.send.msgs = msgsIn q.host ++ q.msgs ∧
    q.send.lostKeys = q.lostKeys ∧ q.send.lostMsgs = q.lostMsgs ∧
    q.send.keys.length ≤ q.keys.length ∧ q.send.msgs.length ≤ q.msgs.length := by
  unfold Line.send
  cases hm : q.msgs with
  | cons m ms =>
    refine ⟨?_, ?_, rfl, rfl, Nat.le_refl _, Nat.le_succ _⟩
    · show keysIn (q.host ++ _) ++ _ = _
      unfold keysIn
      rw [List.filterMap_append]
      show _ ++ [] ++ _ = _
      rw [List.append_nil]
    · show msgsIn (q.host ++ _) ++ _ = _
      unfold msgsIn
      rw [List.filterMap_append, List.append_assoc]
      rfl
  | nil =>
    cases hk : q.keys with
    | nil => exact ⟨by rw [hk], by rw [hm], rfl, rfl, by rw [hk]; exact Nat.le_refl _, by
        rw [hm]; exact Nat.le_refl _⟩
    | cons c cs =>
      refine ⟨?_, ?_, rfl, rfl, Nat.le_succ _, Nat.le_refl _⟩
      · show keysIn (q.host ++ _) ++ _ = _
        unfold keysIn sendable
        rw [List.filterMap_append]
        by_cases hc : c.toNat < 0xA0
        · rw [if_pos hc, List.append_assoc, List.filter_cons_of_pos (by simpa using hc)]
          rfl
        · rw [if_neg hc, List.filter_cons_of_neg (by simpa using hc)]
          show _ ++ [] ++ _ = _
          rw [List.append_nil]
      · show msgsIn (q.host ++ _) ++ [] = _
        unfold msgsIn
        rw [List.filterMap_append]
        by_cases hc : c.toNat < 0xA0
        · rw [if_pos hc]; show _ ++ [] ++ _ = _; rw [List.append_nil]
        · rw [if_neg hc]; show _ ++ [] ++ _ = _; rw [List.append_nil]

/-- Everything typed is received, waiting or lost, and the same number of times. -/
theorem channel_perm (ts ms : List (List Code)) (h : ts.length = ms.length) :
    (keysIn (channel ts ms).host ++ sendable (channel ts ms).keys ++
      sendable (channel ts ms).lostKeys).Perm (sendable ts.flatten) ∧
    (msgsIn (channel ts ms).host ++ (channel ts ms).msgs ++ (channel ts ms).lostMsgs).Perm
      ms.flatten := by
  refine channel_induction (P := fun ts ms q =>
    (keysIn q.host ++ sendable q.keys ++ sendable q.lostKeys).Perm (sendable ts.flatten) ∧
    (msgsIn q.host ++ q.msgs ++ q.lostMsgs).Perm ms.flatten)
    ⟨List.Perm.refl _, List.Perm.refl _⟩ ?_ ts ms h
  intro ts ms q t m _ ⟨i1, i2⟩
  obtain ⟨s1, s2, s3, s4, _, _⟩ := send_counts q
  rw [← s1, ← s3] at i1
  rw [← s2, ← s4] at i2
  have key : ∀ A B X Y Z W : List Code, (A ++ B).Perm Z → X ++ Y = W →
      (A ++ X ++ (B ++ Y)).Perm (Z ++ W) := by
    intro A B X Y Z W h e
    subst e
    refine List.Perm.trans ?_ (h.append_right _)
    rw [List.append_assoc, List.append_assoc]
    refine List.Perm.append_left A ?_
    rw [← List.append_assoc, ← List.append_assoc]
    exact (List.perm_append_comm).append_right Y
  constructor
  · show (keysIn q.send.host ++ sendable (q.send.keys ++ _) ++ sendable (q.send.lostKeys ++ _)).Perm _
    rw [List.flatten_append, List.flatten_singleton, sendable_append, sendable_append,
      sendable_append, ← List.append_assoc (keysIn _)]
    refine key _ _ _ _ _ _ i1 ?_
    rw [← sendable_append, List.take_append_drop]
  · show (msgsIn q.send.host ++ (q.send.msgs ++ _) ++ (q.send.lostMsgs ++ _)).Perm _
    rw [List.flatten_append, List.flatten_singleton, ← List.append_assoc (msgsIn _)]
    exact key _ _ _ _ _ _ i2 (List.take_append_drop _ _)

end Asdf
