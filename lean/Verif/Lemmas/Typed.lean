import Verif.Lemmas.Machine
import Verif.Spec.Typed

/-! # Lemmas for C58: the streams of the abstract keyboard -/

namespace Asdf

open Spec

/-! ## Traces -/

/-- Events that are neither codes sent nor pauses before a message character. -/
def Quiet (es : List Event) : Prop := ∀ e ∈ es, (∀ c, e ≠ .send c) ∧ (∀ m, e ≠ .delayMs m)

theorem Quiet.nil : Quiet [] := fun _ h => by cases h

theorem Quiet.append {a b : List Event} (ha : Quiet a) (hb : Quiet b) : Quiet (a ++ b) := by
  intro e he
  rcases List.mem_append.mp he with h | h
  · exact ha e h
  · exact hb e h

theorem Quiet.tail {e : Event} {es : List Event} (h : Quiet (e :: es)) : Quiet es :=
  fun x hx => h x (List.mem_cons_of_mem _ hx)

/-- The last event is not a pause. -/
def EndsWell (t : List Event) : Prop := ∀ m, t.getLast? ≠ some (.delayMs m)

theorem EndsWell.tail {e : Event} {es : List Event} (h : EndsWell (e :: es)) (hne : es ≠ []) :
    EndsWell es := by
  intro m hm
  cases es with
  | nil => exact hne rfl
  | cons a as =>
    apply h m
    rw [List.getLast?_cons_cons]
    exact hm

theorem EndsWell.tail' {e : Event} {es : List Event} (h : EndsWell (e :: es)) : EndsWell es := by
  cases es with
  | nil => intro m hm; cases hm
  | cons a as => exact h.tail (fun hh => by cases hh)

theorem keySends_append (t u : List Event) (h : EndsWell t) :
    keySends (t ++ u) = keySends t ++ keySends u := by
  fun_induction keySends t with
  | case1 => rfl
  | case2 m c es ih =>
    show keySends (es ++ u) = _
    exact ih h.tail'.tail'
  | case3 c es ih =>
    show c :: keySends (es ++ u) = _
    rw [ih h.tail']
    rfl
  | case4 e es h1 h2 ih =>
    rw [← ih h.tail', List.cons_append]
    cases e with
    | send c => exact absurd rfl (h2 c)
    | delayMs m =>
      cases es with
      | nil => exact absurd rfl (h m)
      | cons a as =>
        cases a with
        | send c => exact absurd rfl (h1 m c as rfl)
        | _ => rfl
    | _ => rfl

theorem msgSends_append (t u : List Event) (h : EndsWell t) :
    msgSends (t ++ u) = msgSends t ++ msgSends u := by
  fun_induction msgSends t with
  | case1 => rfl
  | case2 m c es ih =>
    show c :: msgSends (es ++ u) = _
    rw [ih h.tail'.tail']
    rfl
  | case3 e es h1 ih =>
    rw [← ih h.tail', List.cons_append]
    cases e with
    | delayMs m =>
      cases es with
      | nil => exact absurd rfl (h m)
      | cons a as =>
        cases a with
        | send c => exact absurd rfl (h1 m c as rfl)
        | _ => rfl
    | _ => rfl

theorem keySends_quiet {es : List Event} (h : Quiet es) : keySends es = [] := by
  induction es with
  | nil => rfl
  | cons e es ih =>
    have := ih h.tail
    have he := h e List.mem_cons_self
    cases e with
    | send c => exact absurd rfl (he.1 c)
    | delayMs m => exact absurd rfl (he.2 m)
    | _ => exact this

theorem msgSends_quiet {es : List Event} (h : Quiet es) : msgSends es = [] := by
  induction es with
  | nil => rfl
  | cons e es ih =>
    have := ih h.tail
    have he := h e List.mem_cons_self
    cases e with
    | delayMs m => exact absurd rfl (he.2 m)
    | _ => exact this

theorem Quiet.endsWell {es : List Event} (h : Quiet es) : EndsWell es := by
  intro m hm
  exact (h _ (List.mem_of_getLast? hm)).2 m rfl

theorem EndsWell.append {t u : List Event} (ht : EndsWell t) (hu : EndsWell u) :
    EndsWell (t ++ u) := by
  intro m hm
  rw [List.getLast?_append] at hm
  cases hl : u.getLast? with
  | none => rw [hl] at hm; exact ht m hm
  | some e => rw [hl] at hm; exact hu m (hl.trans hm)

/-! ## One step of the abstract keyboard -/

/-- `k'` comes from `k` by typing `t` and printing `m`. -/
structure Typing (k k' : Kb) (t m : List Code) : Prop where
  keys : k'.keys = (k.keys ++ t).take 16
  msgs : k'.msgs = (k.msgs ++ m).take 128
  trace : ∃ es, Quiet es ∧ k'.trace = k.trace ++ es

/-- The queues are within their capacity. -/
def QueueFits (k : Kb) : Prop := k.keys.length ≤ 16 ∧ k.msgs.length ≤ 128

theorem Typing.fits {k k' t m} (h : Typing k k' t m) : QueueFits k' := by
  constructor
  · rw [h.keys, List.length_take]; omega
  · rw [h.msgs, List.length_take]; omega

theorem take_take_append {α} (n : Nat) (a b : List α) :
    ((a.take n) ++ b).take n = (a ++ b).take n := by
  rw [List.take_append, List.take_append, List.take_take, Nat.min_self, List.length_take]
  by_cases h : a.length ≤ n
  · rw [Nat.min_eq_right h]
  · rw [Nat.min_eq_left (by omega), Nat.sub_self, show n - a.length = 0 by omega]

theorem Typing.trans {k k' k'' t m t' m'} (h : Typing k k' t m) (h' : Typing k' k'' t' m') :
    Typing k k'' (t ++ t') (m ++ m') := by
  obtain ⟨es, q, e⟩ := h.trace
  obtain ⟨es', q', e'⟩ := h'.trace
  refine ⟨?_, ?_, es ++ es', q.append q', by rw [e', e, List.append_assoc]⟩
  · rw [h'.keys, h.keys, take_take_append, List.append_assoc]
  · rw [h'.msgs, h.msgs, take_take_append, List.append_assoc]

/-- A step that leaves both queues alone. -/
theorem Typing.idle {k k' : Kb} (hf : QueueFits k) (h1 : k'.keys = k.keys) (h2 : k'.msgs = k.msgs)
    (h3 : ∃ es, Quiet es ∧ k'.trace = k.trace ++ es) : Typing k k' [] [] := by
  refine ⟨?_, ?_, h3⟩
  · rw [h1, List.append_nil, List.take_of_length_le hf.1]
  · rw [h2, List.append_nil, List.take_of_length_le hf.2]

theorem Typing.same {k k' : Kb} (hf : QueueFits k) (h1 : k'.keys = k.keys) (h2 : k'.msgs = k.msgs)
    (h3 : k'.trace = k.trace) : Typing k k' [] [] :=
  .idle hf h1 h2 ⟨[], .nil, by rw [h3, List.append_nil]⟩

theorem drive_quiet (a : Outputs) (v : Nat) (g : UInt8 → UInt8) : Quiet (a.drive v g).2 := by
  intro e he
  obtain ⟨p, _, rfl⟩ := List.mem_map.mp he
  exact ⟨(fun _ h => by cases h), (fun _ h => by cases h)⟩

theorem act_quiet (a : Outputs) (v : Nat) (fn : VFun) : Quiet (a.act v fn).2 := by
  have one : ∀ e : Event, e = .delayShort ∨ e = .delayLong → Quiet [e] := by
    intro e he x hx
    rw [List.mem_singleton.mp hx]
    rcases he with rfl | rfl <;> exact ⟨(fun _ h => by cases h), (fun _ h => by cases h)⟩
  have hp : ∀ d : Event, d = .delayShort ∨ d = .delayLong → Quiet (a.pulse v d).2 := by
    intro d hd
    unfold Outputs.pulse
    exact ((drive_quiet _ _ _).append (one d hd)).append (drive_quiet _ _ _)
  cases fn with
  | nofunc => exact .nil
  | setHi => exact drive_quiet _ _ _
  | setLo => exact drive_quiet _ _ _
  | toggle => exact drive_quiet _ _ _
  | pulseShort => exact hp _ (.inl rfl)
  | pulseLong => exact hp _ (.inr rfl)

theorem typing_apply {k : Kb} (hf : QueueFits k) (v : Nat) (fn : VFun) : Typing k (k.apply v fn) [] [] :=
  .idle hf rfl rfl ⟨_, act_quiet _ _ _, rfl⟩

theorem typing_setShift {k : Kb} (hf : QueueFits k) (h l : Bool) : Typing k (k.setShift h l) [] [] :=
  .idle hf rfl rfl ⟨_, act_quiet _ _ _, rfl⟩

theorem typing_flipCaps {k : Kb} (hf : QueueFits k) : Typing k k.flipCaps [] [] :=
  .idle hf rfl rfl ⟨_, act_quiet _ _ _, rfl⟩

theorem quiet_one {e : Event} (h1 : ∀ c, e ≠ .send c) (h2 : ∀ m, e ≠ .delayMs m) : Quiet [e] := by
  intro x hx
  rw [List.mem_singleton.mp hx]
  exact ⟨h1, h2⟩

theorem typing_setup1 {k : Kb} (hf : QueueFits k) (c : SetupCmd) : Typing k (k.setup1 c) [] [] := by
  cases c with
  | capsActivate => exact typing_flipCaps hf
  | negStrobe =>
    exact .idle hf rfl rfl ⟨_, quiet_one (fun _ h => by cases h) (fun _ h => by cases h), rfl⟩
  | printDelay _ => exact .same hf rfl rfl rfl
  | vassign _ _ _ _ => exact .same hf rfl rfl rfl
  | addMap _ _ _ _ => exact .same hf rfl rfl rfl
  | hook _ _ => exact .same hf rfl rfl rfl

theorem typing_setup (cmds : List SetupCmd) {k : Kb} (hf : QueueFits k) :
    Typing k (cmds.foldl Kb.setup1 k) [] [] := by
  induction cmds generalizing k with
  | nil => exact .same hf rfl rfl rfl
  | cons c cmds ih =>
    have h1 := typing_setup1 hf c
    exact h1.trans (ih h1.fits)

theorem typing_install (cfg : Config) {k : Kb} (hf : QueueFits k) (i : UInt8) :
    Typing k (k.install cfg i) [] [] := by
  have h1 : Typing k (Kb.emit { k with map := i, outs := Outputs.initial } [.archInit]) [] [] :=
    .idle hf rfl rfl ⟨_, quiet_one (fun _ h => by cases h) (fun _ h => by cases h), rfl⟩
  exact h1.trans (typing_setup _ h1.fits)

theorem typing_select (cfg : Config) {k : Kb} (hf : QueueFits k) (i : UInt8) :
    Typing k (k.select cfg i) [] [] := by
  unfold Kb.select
  split
  · exact typing_install cfg hf i
  · exact .same hf rfl rfl rfl

theorem typing_function (cfg : Config) {k : Kb} (hf : QueueFits k) (n : Nat) :
    Typing k (k.function cfg n) [] (k.text cfg n) := by
  unfold Kb.function Kb.text
  cases hh : (hooksOf (cfg.setup k.map))[4 + n]? with
  | none => exact .same hf rfl rfl rfl
  | some f =>
    cases f with
    | print text =>
      refine ⟨?_, ?_, [], .nil, (List.append_nil _).symm⟩
      · rw [List.append_nil, List.take_of_length_le hf.1]; rfl
      · show k.msgs ++ _ = _
        rw [List.take_append, List.take_of_length_le hf.2]
    | _ => exact .same hf rfl rfl rfl

theorem typing_type {k : Kb} (hf : QueueFits k) (c : Code) : Typing k (k.type c) [c] [] := by
  refine ⟨?_, ?_, [], .nil, (List.append_nil _).symm⟩
  · show (if k.keys.length < 16 then k.keys ++ [c] else k.keys) = _
    by_cases h : k.keys.length < 16
    · rw [if_pos h, List.take_of_length_le]
      rw [List.length_append]; simp; omega
    · have := hf.1
      rw [if_neg h, List.take_append_of_le_length (by omega), List.take_of_length_le (by omega)]
  · rw [List.append_nil, List.take_of_length_le hf.2]; rfl

/-- The text printed by a press of code `x`. -/
def textFor (cfg : Config) (k : Kb) (x : Nat) : List Code :=
  if x = 0xA7 then k.text cfg 1
  else if 0xB7 ≤ x ∧ x ≤ 0xC0 then k.text cfg (x - 0xB6)
  else []

theorem typing_press (cfg : Config) {k : Kb} (hf : QueueFits k) (code : Code) :
    Typing k (k.press cfg code) (if code.toNat ≤ 0xA0 then [code] else [])
      (textFor cfg k code.toNat) := by
  have strobe : ∀ e : Event, (∀ c, e ≠ .send c) → (∀ m, e ≠ .delayMs m) →
      Typing k (k.emit [e]) [] [] :=
    fun e h1 h2 => .idle hf rfl rfl ⟨_, quiet_one h1 h2, rfl⟩
  unfold Kb.press
  split <;> rename_i hn
  all_goals try rw [hn]
  all_goals first
    | exact typing_setShift hf _ _
    | exact typing_flipCaps hf
    | exact typing_apply hf _ _
    | exact typing_select cfg hf _
    | exact typing_function cfg hf _
    | exact .same hf rfl rfl rfl
    | exact strobe _ (fun _ h => by cases h) (fun _ h => by cases h)
    | skip
  by_cases h : code.toNat ≤ 0xA0
  · rw [if_pos h, if_pos h]
    unfold textFor
    rw [if_neg (by omega), if_neg (by omega)]
    exact typing_type hf code
  · rw [if_neg h, if_neg h]
    have : textFor cfg k code.toNat = [] := by
      unfold textFor
      rw [if_neg (by assumption), if_neg (fun hh => by
        have hx : code.toNat = 183 ∨ code.toNat = 184 ∨ code.toNat = 185 ∨ code.toNat = 186 ∨
          code.toNat = 187 ∨ code.toNat = 188 ∨ code.toNat = 189 ∨ code.toNat = 190 ∨
          code.toNat = 191 ∨ code.toNat = 192 := by omega
        rcases hx with hx | hx | hx | hx | hx | hx | hx | hx | hx | hx <;>
          exact absurd hx (by assumption))]
    rw [this]
    exact .same hf rfl rfl rfl

theorem typing_release (cfg : Config) {k : Kb} (hf : QueueFits k) (code : Code) :
    Typing k (k.release cfg code) [] [] := by
  unfold Kb.release
  split
  all_goals first
    | exact typing_setShift hf _ _
    | exact typing_select cfg hf _
    | exact .same hf rfl rfl rfl
    | exact .idle hf rfl rfl ⟨_, quiet_one (fun _ h => by cases h) (fun _ h => by cases h), rfl⟩
    | skip
  split <;> exact .same hf rfl rfl rfl

theorem typing_key (cfg : Config) (L : Layout) {k : Kb} (hf : QueueFits k) (p : Bool) (r c : Nat) :
    Typing k (k.key cfg L p r c) (k.typedBy cfg L p r c) (k.saidBy cfg L p r c) := by
  have hf' : QueueFits (stepDeb k p r c) := hf
  have h0 : Typing k (stepDeb k p r c) [] [] := .same hf rfl rfl rfl
  unfold Kb.key
  by_cases hne : p ≠ (k.deb r c).on
  · rw [if_pos hne]
    by_cases h1 : (k.deb r c).left ≤ 1
    · rw [if_pos h1]
      cases p with
      | true =>
        have hon : (k.deb r c).on = false := by
          cases h : (k.deb r c).on with
          | false => rfl
          | true => exact absurd h.symm hne
        have ht : k.typedBy cfg L true r c =
            if (k.code cfg L r c).toNat ≤ 0xA0 then [k.code cfg L r c] else [] := by
          unfold Kb.typedBy
          rw [if_pos hne]
          by_cases hx : (k.code cfg L r c).toNat ≤ 0xA0
          · rw [if_pos hx, if_pos ⟨rfl, h1, hx⟩]
          · rw [if_neg hx, if_neg (fun h => hx h.2.2)]
        have hs : k.saidBy cfg L true r c = textFor cfg k (k.code cfg L r c).toNat := by
          unfold Kb.saidBy
          rw [if_pos ⟨rfl, hon, h1⟩]
          rfl
        rw [if_pos rfl, ht, hs]
        have := h0.trans (typing_press cfg hf' (k.code cfg L r c))
        simp only [List.nil_append] at this
        exact this
      | false =>
        have ht : k.typedBy cfg L false r c = [] := by
          unfold Kb.typedBy
          rw [if_pos hne, if_neg (fun h => by cases h.1)]
        have hs : k.saidBy cfg L false r c = [] := if_neg (fun h => by cases h.1)
        rw [if_neg (by decide), ht, hs]
        exact h0.trans (typing_release cfg hf' _)
    · have ht : k.typedBy cfg L p r c = [] := by
        unfold Kb.typedBy
        rw [if_pos hne, if_neg (fun h => h1 h.2.1)]
      have hs : k.saidBy cfg L p r c = [] := if_neg (fun h => h1 h.2.2)
      rw [if_neg h1, ht, hs]
      exact h0
  · have he : p = (k.deb r c).on := by simpa using hne
    have hs : k.saidBy cfg L p r c = [] :=
      if_neg (fun h => by have h1 := h.1; have h2 := h.2.1; rw [he, h2] at h1; cases h1)
    rw [if_neg hne, hs]
    by_cases h1 : p = true ∧ k.code cfg L r c = k.last
    · rw [if_pos h1]
      by_cases h2 : k.rpt.left = 1
      · have ht : k.typedBy cfg L p r c = [k.last] := by
          unfold Kb.typedBy
          rw [if_neg hne, if_pos ⟨h1.1, h1.2, h2⟩]
        rw [if_pos h2, ht]
        exact (Typing.same (k' := { stepDeb k p r c with rpt := k.rpt.tick }) hf rfl rfl rfl).trans
          (typing_type (k := { stepDeb k p r c with rpt := k.rpt.tick }) hf _)
      · have ht : k.typedBy cfg L p r c = [] := by
          unfold Kb.typedBy
          rw [if_neg hne, if_neg (fun h => h2 h.2.2)]
        rw [if_neg h2, ht]
        exact .same hf rfl rfl rfl
    · have ht : k.typedBy cfg L p r c = [] := by
        unfold Kb.typedBy
        rw [if_neg hne, if_neg (fun h => h1 ⟨h.1, h.2.1⟩)]
      rw [if_neg h1, ht]
      exact h0

theorem typing_keys (cfg : Config) (L : Layout) (inp : Input) (xs : List (Nat × Nat)) {k : Kb}
    (hf : QueueFits k) :
    Typing k (xs.foldl (fun k x => k.key cfg L (sample inp x.1 x.2) x.1 x.2) k)
      (k.logKeys cfg L Kb.typedBy inp xs) (k.logKeys cfg L Kb.saidBy inp xs) := by
  induction xs generalizing k with
  | nil => exact .same hf rfl rfl rfl
  | cons x xs ih =>
    have h1 := typing_key cfg L hf (sample inp x.1 x.2) x.1 x.2
    exact h1.trans (ih h1.fits)

/-! ## Passes and runs -/

/-- Keystrokes sent and waiting. -/
def keyFlow (k : Kb) : List Code := keySends k.trace ++ sendable k.keys

/-- Message characters sent and waiting. -/
def msgFlow (k : Kb) : List Code := msgSends k.trace ++ k.msgs

theorem sendable_append (a b : List Code) : sendable (a ++ b) = sendable a ++ sendable b :=
  List.filter_append ..

theorem output_flow {k : Kb} (he : EndsWell k.trace) (hf : QueueFits k) :
    keyFlow k.output = keyFlow k ∧ msgFlow k.output = msgFlow k ∧ EndsWell k.output.trace ∧
      QueueFits k.output := by
  unfold keyFlow msgFlow QueueFits at *
  cases hm : k.msgs with
  | cons m ms =>
    have ho : k.output = Kb.emit { k with msgs := ms } [.delayMs k.pause, .send m] := by
      unfold Kb.output; simp only [hm]
    rw [ho]
    refine ⟨?_, ?_, ?_, hf.1, ?_⟩
    · show keySends (k.trace ++ _) ++ sendable k.keys = _
      rw [keySends_append _ _ he]
      show keySends k.trace ++ [] ++ _ = _
      rw [List.append_nil]
    · show msgSends (k.trace ++ _) ++ ms = _
      rw [msgSends_append _ _ he]
      show msgSends k.trace ++ [m] ++ _ = _
      rw [List.append_assoc]
      rfl
    · exact he.append (fun x h => by cases h)
    · have := hf.2
      rw [hm] at this
      exact Nat.le_of_succ_le this
  | nil =>
    cases hk : k.keys with
    | cons c cs =>
      have ho : k.output = Kb.emit { k with keys := cs }
          (if c.toNat < 0xA0 then [.send c] else []) := by
        unfold Kb.output; simp only [hm, hk]
      have h16 : cs.length ≤ 16 := by
        have := hf.1
        rw [hk] at this
        exact Nat.le_of_succ_le this
      rw [ho]
      by_cases hc : c.toNat < 0xA0
      · rw [if_pos hc]
        refine ⟨?_, ?_, ?_, h16, hf.2⟩
        · show keySends (k.trace ++ _) ++ sendable cs = _
          rw [keySends_append _ _ he]
          show keySends k.trace ++ [c] ++ _ = _
          unfold sendable
          rw [List.append_assoc, List.filter_cons_of_pos (by simpa using hc)]
          rfl
        · show msgSends (k.trace ++ _) ++ k.msgs = _
          rw [msgSends_append _ _ he, hm]
          show msgSends k.trace ++ [] ++ _ = _
          rw [List.append_nil]
        · exact he.append (fun x h => by cases h)
      · rw [if_neg hc]
        refine ⟨?_, ?_, ?_, h16, hf.2⟩
        · show keySends (k.trace ++ []) ++ sendable cs = _
          unfold sendable
          rw [List.append_nil, List.filter_cons_of_neg (by simpa using hc)]
        · show msgSends (k.trace ++ []) ++ k.msgs = _
          rw [List.append_nil, hm]
        · show EndsWell (k.trace ++ [])
          rw [List.append_nil]; exact he
    | nil =>
      have ho : k.output = k := by
        unfold Kb.output; simp only [hm, hk]
      rw [ho]
      exact ⟨by rw [hk], by rw [hm], he, hf⟩

theorem pass_flow (cfg : Config) (L : Layout) {k : Kb} (he : EndsWell k.trace) (hf : QueueFits k)
    (inp : Input) :
    QueueFits (k.pass cfg L inp) ∧ EndsWell (k.pass cfg L inp).trace ∧
    (k.pass cfg L inp).keys = (k.output.keys ++ k.logPass cfg L Kb.typedBy inp).take 16 ∧
    (k.pass cfg L inp).msgs = (k.output.msgs ++ k.logPass cfg L Kb.saidBy inp).take 128 ∧
    keySends (k.pass cfg L inp).trace = keySends k.output.trace ∧
    msgSends (k.pass cfg L inp).trace = msgSends k.output.trace := by
  obtain ⟨_, _, h3, h4⟩ := output_flow he hf
  have h := typing_keys cfg L inp (keysOf L) h4
  obtain ⟨es, q, e⟩ := h.trace
  have e : (k.pass cfg L inp).trace = k.output.trace ++ es := e
  refine ⟨h.fits, ?_, h.keys, h.msgs, ?_, ?_⟩
  · rw [e]; exact h3.append q.endsWell
  · rw [e, keySends_append _ _ h3, keySends_quiet q, List.append_nil]
  · rw [e, msgSends_append _ _ h3, msgSends_quiet q, List.append_nil]

/-- One pass: nothing is invented, doubled or reordered. -/
theorem pass_sublist (cfg : Config) (L : Layout) {k : Kb} (he : EndsWell k.trace) (hf : QueueFits k)
    (inp : Input) :
    (keyFlow (k.pass cfg L inp)).Sublist
      (keyFlow k ++ sendable (k.logPass cfg L Kb.typedBy inp)) ∧
    (msgFlow (k.pass cfg L inp)).Sublist (msgFlow k ++ k.logPass cfg L Kb.saidBy inp) := by
  obtain ⟨o1, o2, _, _⟩ := output_flow he hf
  obtain ⟨_, _, p1, p2, p3, p4⟩ := pass_flow cfg L he hf inp
  constructor
  · rw [← o1]
    unfold keyFlow
    rw [p3, p1, List.append_assoc, ← sendable_append]
    exact (List.Sublist.refl _).append ((List.take_sublist _ _).filter _)
  · rw [← o2]
    unfold msgFlow
    rw [p4, p2, List.append_assoc]
    exact (List.Sublist.refl _).append (List.take_sublist _ _)

theorem pass_keys_exact (cfg : Config) (L : Layout) {k : Kb} (he : EndsWell k.trace) (hf : QueueFits k)
    (inp : Input) (h : k.output.keys.length + (k.logPass cfg L Kb.typedBy inp).length ≤ 16) :
    keyFlow (k.pass cfg L inp) = keyFlow k ++ sendable (k.logPass cfg L Kb.typedBy inp) := by
  obtain ⟨o1, _, _, _⟩ := output_flow he hf
  obtain ⟨_, _, p1, _, p3, _⟩ := pass_flow cfg L he hf inp
  rw [← o1]
  unfold keyFlow
  rw [p3, p1, List.append_assoc, ← sendable_append, List.take_of_length_le]
  rw [List.length_append]
  exact h

theorem pass_msgs_exact (cfg : Config) (L : Layout) {k : Kb} (he : EndsWell k.trace) (hf : QueueFits k)
    (inp : Input) (h : k.output.msgs.length + (k.logPass cfg L Kb.saidBy inp).length ≤ 128) :
    msgFlow (k.pass cfg L inp) = msgFlow k ++ k.logPass cfg L Kb.saidBy inp := by
  obtain ⟨_, o2, _, _⟩ := output_flow he hf
  obtain ⟨_, _, _, p2, _, p4⟩ := pass_flow cfg L he hf inp
  rw [← o2]
  unfold msgFlow
  rw [p4, p2, List.append_assoc, List.take_of_length_le]
  rw [List.length_append]
  exact h

theorem log_append (cfg : Config) (L : Layout)
    (f : Config → Layout → Bool → Kb → Nat → Nat → List Code) (a b : List Input) (k : Kb) :
    k.log cfg L f (a ++ b) = k.log cfg L f a ++ (a.foldl (Kb.pass cfg L) k).log cfg L f b := by
  induction a generalizing k with
  | nil => rfl
  | cons x a ih =>
    show _ :: _ = _ :: _ ++ _
    rw [List.cons_append]
    congr 1
    exact ih _

/-- The start: nothing sent, nothing waiting. -/
theorem start_flow (cfg : Config) : EndsWell (Kb.start cfg).trace ∧ QueueFits (Kb.start cfg) ∧
    (Kb.start cfg).keys = [] ∧ (Kb.start cfg).msgs = [] ∧ keyFlow (Kb.start cfg) = [] ∧
    msgFlow (Kb.start cfg) = [] := by
  have h := typing_install cfg (k := blankKb) ⟨Nat.zero_le _, Nat.zero_le _⟩ 0
  obtain ⟨es, q, e⟩ := h.trace
  have e : (Kb.start cfg).trace = [] ++ es := e
  have hk : (Kb.start cfg).keys = [] := h.keys
  have hm : (Kb.start cfg).msgs = [] := h.msgs
  rw [List.nil_append] at e
  refine ⟨?_, h.fits, hk, hm, ?_, ?_⟩
  · rw [e]; exact q.endsWell
  · unfold keyFlow; rw [e, keySends_quiet q, hk]; rfl
  · unfold msgFlow; rw [e, msgSends_quiet q, hm]; rfl

/-- A property of the abstract keyboard that every pass preserves holds after every
run; `inps` is split at its last pass. -/
theorem after_snoc (cfg : Config) (L : Layout) (a : List Input) (x : Input) :
    Kb.after cfg L (a ++ [x]) = (Kb.after cfg L a).pass cfg L x := by
  unfold Kb.after
  rw [List.foldl_append]
  rfl

theorem typed_snoc (cfg : Config) (L : Layout) (a : List Input) (x : Input) :
    typed cfg L (a ++ [x]) = typed cfg L a ++ [(Kb.after cfg L a).logPass cfg L Kb.typedBy x] := by
  unfold typed
  rw [log_append]
  rfl

theorem said_snoc (cfg : Config) (L : Layout) (a : List Input) (x : Input) :
    said cfg L (a ++ [x]) = said cfg L a ++ [(Kb.after cfg L a).logPass cfg L Kb.saidBy x] := by
  unfold said
  rw [log_append]
  rfl

theorem after_good (cfg : Config) (L : Layout) (inps : List Input) :
    EndsWell (Kb.after cfg L inps).trace ∧ QueueFits (Kb.after cfg L inps) := by
  refine snoc_induction (P := fun l => EndsWell (Kb.after cfg L l).trace ∧ QueueFits (Kb.after cfg L l))
    ⟨(start_flow cfg).1, (start_flow cfg).2.1⟩ ?_ inps
  intro a x ih
  rw [after_snoc]
  obtain ⟨h1, h2, _⟩ := pass_flow cfg L ih.1 ih.2 x
  exact ⟨h2, h1⟩

theorem after_sublist (cfg : Config) (L : Layout) (inps : List Input) :
    (keyFlow (Kb.after cfg L inps)).Sublist (sendable (typed cfg L inps).flatten) ∧
    (msgFlow (Kb.after cfg L inps)).Sublist (said cfg L inps).flatten := by
  refine snoc_induction (P := fun l => (keyFlow (Kb.after cfg L l)).Sublist
      (sendable (typed cfg L l).flatten) ∧
      (msgFlow (Kb.after cfg L l)).Sublist (said cfg L l).flatten) ?_ ?_ inps
  · obtain ⟨_, _, _, _, h1, h2⟩ := start_flow cfg
    constructor
    · show (keyFlow (Kb.start cfg)).Sublist _
      rw [h1]; exact List.nil_sublist _
    · show (msgFlow (Kb.start cfg)).Sublist _
      rw [h2]; exact List.nil_sublist _
  · intro a x ih
    obtain ⟨g1, g2⟩ := after_good cfg L a
    obtain ⟨h1, h2⟩ := pass_sublist cfg L g1 g2 x
    rw [after_snoc, typed_snoc, said_snoc, List.flatten_append, List.flatten_append,
      sendable_append]
    refine ⟨h1.trans ?_, h2.trans ?_⟩
    · rw [List.flatten_singleton]
      exact ih.1.append (List.Sublist.refl _)
    · rw [List.flatten_singleton]
      exact ih.2.append (List.Sublist.refl _)

theorem after_keys_exact (cfg : Config) (L : Layout) (inps : List Input)
    (h : ∀ a x b, inps = a ++ x :: b → (Kb.after cfg L a).output.keys.length +
      ((Kb.after cfg L a).logPass cfg L Kb.typedBy x).length ≤ 16) :
    keyFlow (Kb.after cfg L inps) = sendable (typed cfg L inps).flatten := by
  revert h
  refine snoc_induction (P := fun l => (∀ a x b, l = a ++ x :: b →
      (Kb.after cfg L a).output.keys.length +
      ((Kb.after cfg L a).logPass cfg L Kb.typedBy x).length ≤ 16) →
      keyFlow (Kb.after cfg L l) = sendable (typed cfg L l).flatten) ?_ ?_ inps
  · intro _
    exact (start_flow cfg).2.2.2.2.1
  · intro l x ih h
    obtain ⟨g1, g2⟩ := after_good cfg L l
    rw [after_snoc, typed_snoc, List.flatten_append, List.flatten_singleton, sendable_append,
      pass_keys_exact cfg L g1 g2 x (h l x [] rfl), ih (fun a y b e => h a y (b ++ [x]) (by
        rw [e, List.append_assoc]; rfl))]

theorem after_msgs_exact (cfg : Config) (L : Layout) (inps : List Input)
    (h : ∀ a x b, inps = a ++ x :: b → (Kb.after cfg L a).output.msgs.length +
      ((Kb.after cfg L a).logPass cfg L Kb.saidBy x).length ≤ 128) :
    msgFlow (Kb.after cfg L inps) = (said cfg L inps).flatten := by
  revert h
  refine snoc_induction (P := fun l => (∀ a x b, l = a ++ x :: b →
      (Kb.after cfg L a).output.msgs.length +
      ((Kb.after cfg L a).logPass cfg L Kb.saidBy x).length ≤ 128) →
      msgFlow (Kb.after cfg L l) = (said cfg L l).flatten) ?_ ?_ inps
  · intro _
    exact (start_flow cfg).2.2.2.2.2
  · intro l x ih h
    obtain ⟨g1, g2⟩ := after_good cfg L l
    rw [after_snoc, said_snoc, List.flatten_append, List.flatten_singleton,
      pass_msgs_exact cfg L g1 g2 x (h l x [] rfl), ih (fun a y b e => h a y (b ++ [x]) (by
        rw [e, List.append_assoc]; rfl))]

theorem output_keys_le (k : Kb) : k.output.keys.length ≤ k.keys.length := by
  unfold Kb.output
  split
  · exact Nat.le_refl _
  · split
    · rename_i h; rw [h]; exact Nat.le_succ _
    · exact Nat.le_refl _

/-- With no messages and at most one code per pass, at most one code ever waits. -/
theorem after_one (cfg : Config) (L : Layout) (inps : List Input)
    (h1 : ∀ t ∈ typed cfg L inps, t.length ≤ 1) (h2 : ∀ m ∈ said cfg L inps, m = []) :
    (Kb.after cfg L inps).keys.length ≤ 1 ∧ (Kb.after cfg L inps).msgs = [] := by
  revert h1 h2
  refine snoc_induction (P := fun l => (∀ t ∈ typed cfg L l, t.length ≤ 1) →
    (∀ m ∈ said cfg L l, m = []) →
    (Kb.after cfg L l).keys.length ≤ 1 ∧ (Kb.after cfg L l).msgs = []) ?_ ?_ inps
  · intro _ _
    obtain ⟨_, _, h1, h2, _⟩ := start_flow cfg
    refine ⟨?_, h2⟩
    show (Kb.start cfg).keys.length ≤ 1
    rw [h1]; exact Nat.zero_le _
  · intro l x ih h1 h2
    rw [typed_snoc] at h1
    rw [said_snoc] at h2
    obtain ⟨i1, i2⟩ := ih (fun t ht => h1 t (List.mem_append_left _ ht))
      (fun t ht => h2 t (List.mem_append_left _ ht))
    have n1 := h1 _ (List.mem_append_right _ (List.mem_singleton.mpr rfl))
    have n2 := h2 _ (List.mem_append_right _ (List.mem_singleton.mpr rfl))
    obtain ⟨g1, g2⟩ := after_good cfg L l
    obtain ⟨_, _, p1, p2, _, _⟩ := pass_flow cfg L g1 g2 x
    have ok : (Kb.after cfg L l).output.keys = [] ∧ (Kb.after cfg L l).output.msgs = [] := by
      unfold Kb.output
      rw [i2]
      cases hk : (Kb.after cfg L l).keys with
      | nil => exact ⟨hk, i2⟩
      | cons c cs =>
        rw [hk] at i1
        refine ⟨?_, rfl⟩
        have : cs.length = 0 := by simp at i1; simpa using i1
        exact List.eq_nil_of_length_eq_zero this
    rw [after_snoc, p1, p2, ok.1, ok.2, n2]
    refine ⟨?_, rfl⟩
    rw [List.nil_append, List.length_take]
    omega

end Asdf
