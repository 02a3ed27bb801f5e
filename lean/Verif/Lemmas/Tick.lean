import Verif.Spec.Tick
import Verif.Lemmas.Basic

/-! # Lemmas about the interleavings -/

namespace Asdf

open Spec

theorem sys_exec_cons {cfg : Config} {s s' : Sys} {x : Step} {l : List Step}
    (h : s.exec cfg (x :: l) = .ok s') : ∃ s1, s.step cfg x = .ok s1 ∧ s1.exec cfg l = .ok s' := by
  unfold Sys.exec at h
  rw [List.foldlM_cons] at h
  exact bind_eq_ok.mp h

/-- A property that every step keeps holds after every interleaving. -/
theorem exec_inv {cfg : Config} {P : Sys → Prop}
    (hP : ∀ s x s', P s → s.step cfg x = .ok s' → P s') {s s' : Sys} {l : List Step}
    (h : s.exec cfg l = .ok s') (h0 : P s) : P s' := by
  induction l generalizing s with
  | nil => cases h; exact h0
  | cons x l ih =>
    obtain ⟨s1, h1, h2⟩ := sys_exec_cons h
    exact ih h2 (hP _ _ _ h0 h1)

/-- The five kinds of main loop step. -/
theorem mainStep_cases {cfg : Config} {s s' : Sys} {inp : Input} (h : s.mainStep cfg inp = .ok s') :
    (s.pc = .poll ∧ s' = { s with pc := .clear s.flag }) ∨
    (s.pc = .clear true ∧ s' = { s with flag := false, pc := .test true, hist := s.hist ++ [.taken] }) ∨
    (s.pc = .clear false ∧ s' = { s with flag := false, pc := .test false }) ∨
    (s.pc = .test true ∧ s' = { s with pc := .body, hist := s.hist ++ [.scan] }) ∨
    (s.pc = .test false ∧ s' = { s with pc := .poll }) ∨
    (s.pc = .body ∧ ∃ fw, tick cfg s.fw inp = .ok fw ∧
      s' = { s with fw := fw, flag := s.flag && !reinits s.fw fw, pc := .rest }) ∨
    (s.pc = .rest ∧ s' = { s with pc := .poll }) := by
  obtain ⟨flag, pc, fw, hist⟩ := s
  cases pc with
  | poll => cases h; exact .inl ⟨rfl, rfl⟩
  | clear v =>
    cases v with
    | true => cases h; exact .inr (.inl ⟨rfl, rfl⟩)
    | false =>
      have h : (Except.ok ⟨false, .test false, fw, hist ++ []⟩ : Res Sys) = .ok s' := h
      rw [List.append_nil] at h
      cases h
      exact .inr (.inr (.inl ⟨rfl, rfl⟩))
  | test v =>
    cases v with
    | true => cases h; exact .inr (.inr (.inr (.inl ⟨rfl, rfl⟩)))
    | false => cases h; exact .inr (.inr (.inr (.inr (.inl ⟨rfl, rfl⟩))))
  | body =>
    obtain ⟨fw', h1, h2⟩ := bind_eq_ok.mp h
    cases h2
    exact .inr (.inr (.inr (.inr (.inr (.inl ⟨rfl, fw', h1, rfl⟩)))))
  | rest => cases h; exact .inr (.inr (.inr (.inr (.inr (.inr ⟨rfl, rfl⟩)))))

/-- Counting ticks, takes and scans. -/
def CountInv (s : Sys) : Prop :=
  (s.hist.count .taken + (if s.flag = true ∨ s.pc = .clear true then 1 else 0) ≤ s.hist.count .tick) ∧
  (s.hist.count .taken = s.hist.count .scan + if s.pc = .test true then 1 else 0)

theorem countInv_start (fw : State) (flag : Bool) : CountInv (Sys.start fw flag) := by
  cases flag <;> simp [CountInv, Sys.start]

theorem countInv_step (cfg : Config) (s : Sys) (x : Step) (s' : Sys) (h : CountInv s)
    (hs : s.step cfg x = .ok s') : CountInv s' := by
  obtain ⟨flag, pc, fw, hist⟩ := s
  obtain ⟨h1, h2⟩ := h
  simp only at h1 h2
  cases x with
  | isr =>
    cases hs
    unfold CountInv Sys.isr
    simp only [List.count_append, List.count_singleton]
    refine ⟨?_, ?_⟩
    · rw [if_pos (Or.inl trivial)]
      have : (if (Obs.tick == Obs.taken) = true then 1 else 0) = 0 := rfl
      rw [this]
      have : (if (Obs.tick == Obs.tick) = true then 1 else 0) = 1 := rfl
      rw [this]
      split at h1 <;> omega
    · exact h2
  | main inp =>
    rcases mainStep_cases hs with ⟨e, rfl⟩ | ⟨e, rfl⟩ | ⟨e, rfl⟩ | ⟨e, rfl⟩ | ⟨e, rfl⟩ | ⟨e, fw', _, rfl⟩ | ⟨e, rfl⟩ <;>
      simp only at e <;> subst e <;> unfold CountInv <;>
      simp only [List.count_append, List.count_singleton, reduceCtorEq, Pc.clear.injEq, Pc.test.injEq,
        or_false, or_true, if_true, if_false, beq_iff_eq, Bool.and_eq_true] at h1 h2 ⊢ <;>
      refine ⟨?_, ?_⟩ <;> (repeat' split at h1) <;> (repeat' split) <;> simp_all <;> omega

/-- The flag stands for a tick that came since the flag was last taken. -/
def FreshInv (s : Sys) : Prop :=
  ((s.flag = true ∨ s.pc = .clear true) → .tick ∈ s.hist ∧
    ∀ a b, s.hist = a ++ .taken :: b → .tick ∈ b) ∧
  (∀ a b, s.hist = a ++ .taken :: b → .tick ∈ a) ∧
  ∀ a b c, s.hist = a ++ .taken :: (b ++ .taken :: c) → .tick ∈ b

theorem append_split {α : Type} {h : List α} {x t : α} {a b : List α} (e : h ++ [x] = a ++ t :: b) :
    (b = [] ∧ x = t ∧ h = a) ∨ ∃ b', b = b' ++ [x] ∧ h = a ++ t :: b' := by
  rcases List.eq_nil_or_concat b with rfl | ⟨b', y, rfl⟩
  · have := List.append_inj_right' e rfl
    have h2 := List.append_inj_left' e rfl
    cases this
    exact .inl ⟨rfl, rfl, h2⟩
  · rw [List.concat_eq_append] at e ⊢
    have e2 : h ++ [x] = (a ++ t :: b') ++ [y] := by rw [e, List.append_assoc]; rfl
    have h1 := List.append_inj_right' e2 rfl
    have h2 := List.append_inj_left' e2 rfl
    cases h1
    exact .inr ⟨b', rfl, h2⟩

/-- Adding an observation that is not a take. -/
theorem fresh_append {hist : List Obs} {x : Obs} (hx : x ≠ .taken)
    (h2 : ∀ a b, hist = a ++ .taken :: b → .tick ∈ a)
    (h3 : ∀ a b c, hist = a ++ .taken :: (b ++ .taken :: c) → .tick ∈ b) :
    (∀ a b, hist ++ [x] = a ++ .taken :: b → .tick ∈ a) ∧
    ∀ a b c, hist ++ [x] = a ++ .taken :: (b ++ .taken :: c) → .tick ∈ b := by
  refine ⟨fun a b e => ?_, fun a b c e => ?_⟩
  · rcases append_split e with ⟨_, hc, _⟩ | ⟨b', _, e'⟩
    · exact absurd hc hx
    · exact h2 _ _ e'
  · have e2 : hist ++ [x] = (a ++ .taken :: b) ++ .taken :: c := by rw [e, List.append_assoc]; rfl
    rcases append_split e2 with ⟨_, hc, _⟩ | ⟨c', _, e'⟩
    · exact absurd hc hx
    · rw [List.append_assoc] at e'
      exact h3 _ _ _ e'

theorem freshInv_step (cfg : Config) (s : Sys) (x : Step) (s' : Sys) (h : FreshInv s)
    (hs : s.step cfg x = .ok s') : FreshInv s' := by
  obtain ⟨flag, pc, fw, hist⟩ := s
  obtain ⟨h1, h2, h3⟩ := h
  simp only at h1 h2 h3
  cases x with
  | isr =>
    cases hs
    refine ⟨fun _ => ⟨List.mem_append_right _ List.mem_cons_self, fun a b e => ?_⟩,
      fresh_append (by decide) h2 h3⟩
    rcases append_split e with ⟨_, hc, _⟩ | ⟨b', rfl, _⟩
    · cases hc
    · exact List.mem_append_right _ List.mem_cons_self
  | main inp =>
    rcases mainStep_cases hs with ⟨e, rfl⟩ | ⟨e, rfl⟩ | ⟨e, rfl⟩ | ⟨e, rfl⟩ | ⟨e, rfl⟩ | ⟨e, fw', _, rfl⟩ | ⟨e, rfl⟩ <;>
      simp only at e <;> subst e
    · refine ⟨fun h => h1 ?_, h2, h3⟩
      rcases h with h | h
      · exact .inl h
      · exact .inl (Pc.clear.inj h)
    · obtain ⟨k1, k2⟩ := h1 (.inr rfl)
      refine ⟨fun h => ?_, fun a b e => ?_, fun a b c e => ?_⟩
      · rcases h with h | h <;> cases h
      · rcases append_split e with ⟨_, _, e'⟩ | ⟨b', _, e'⟩
        · rw [← e']; exact k1
        · exact h2 _ _ e'
      · have e2 : hist ++ [.taken] = (a ++ .taken :: b) ++ .taken :: c := by
          rw [show hist ++ [Obs.taken] = _ from e, List.append_assoc]; rfl
        rcases append_split e2 with ⟨_, _, e'⟩ | ⟨c', _, e'⟩
        · exact k2 _ _ e'
        · rw [List.append_assoc] at e'
          exact h3 _ _ _ e'
    · exact ⟨(fun h => by rcases h with h | h <;> cases h), h2, h3⟩
    · refine ⟨fun h => ?_, fresh_append (by decide) h2 h3⟩
      rcases h with h | h
      · obtain ⟨k1, k2⟩ := h1 (.inl h)
        refine ⟨List.mem_append_left _ k1, fun a b e => ?_⟩
        rcases append_split e with ⟨_, hc, _⟩ | ⟨b', rfl, e'⟩
        · cases hc
        · exact List.mem_append_left _ (k2 _ _ e')
      · cases h
    · exact ⟨fun h => h1 (h.imp_right fun h => by cases h), h2, h3⟩
    · refine ⟨fun h => h1 (.inl ?_), h2, h3⟩
      rcases h with h | h
      · exact (Bool.and_eq_true _ _ ▸ h : _ ∧ _).1
      · cases h
    · exact ⟨fun h => h1 (h.imp_right fun h => by cases h), h2, h3⟩

/-! ## Answering a tick -/

/-- A scan starts after at most `n` main loop steps. -/
def Due (cfg : Config) (s : Sys) (n : Nat) : Prop :=
  (s.pc = .test true ∧ 1 ≤ n) ∨ (s.pc = .clear true ∧ 2 ≤ n) ∨ (s.flag = true ∧
    ((s.pc = .poll ∧ 3 ≤ n) ∨ (s.pc = .rest ∧ 4 ≤ n) ∨ (s.pc = .test false ∧ 4 ≤ n) ∨
      (s.pc = .body ∧ noSwitch cfg s.fw ∧ 5 ≤ n)))

theorem due_isr {cfg : Config} {s : Sys} {n : Nat} (h : Due cfg s n) : Due cfg s.isr n := by
  rcases h with h | h | ⟨_, h⟩
  · exact .inl h
  · exact .inr (.inl h)
  · exact .inr (.inr ⟨rfl, h⟩)

theorem due_main {cfg : Config} {s s' : Sys} {n : Nat} {inp : Input} (h : Due cfg s (n + 1))
    (hs : s.mainStep cfg inp = .ok s') :
    s'.hist.count .scan = s.hist.count .scan + 1 ∨
      (s'.hist.count .scan = s.hist.count .scan ∧ Due cfg s' n) := by
  obtain ⟨flag, pc, fw, hist⟩ := s
  rcases mainStep_cases hs with ⟨e, rfl⟩ | ⟨e, rfl⟩ | ⟨e, rfl⟩ | ⟨e, rfl⟩ | ⟨e, rfl⟩ | ⟨e, fw', ht, rfl⟩ | ⟨e, rfl⟩ <;>
      simp only at e <;> subst e
  · refine .inr ⟨rfl, ?_⟩
    rcases h with ⟨h, _⟩ | ⟨h, _⟩ | ⟨hf, ⟨_, hn⟩ | ⟨h, _⟩ | ⟨h, _⟩ | ⟨h, _⟩⟩
    · cases h
    · cases h
    · simp only at hf; subst hf
      exact .inr (.inl ⟨rfl, by omega⟩)
    · cases h
    · cases h
    · cases h
  · refine .inr ⟨by simp [List.count_append], ?_⟩
    rcases h with ⟨h, _⟩ | ⟨_, hn⟩ | ⟨hf, ⟨h, hn⟩ | ⟨h, _⟩ | ⟨h, _⟩ | ⟨h, _⟩⟩
    · cases h
    · exact .inl ⟨rfl, by omega⟩
    all_goals cases h
  · rcases h with ⟨h, _⟩ | ⟨h, hn⟩ | ⟨hf, ⟨h, hn⟩ | ⟨h, _⟩ | ⟨h, _⟩ | ⟨h, _⟩⟩ <;> cases h
  · exact .inl (by simp [List.count_append])
  · refine .inr ⟨rfl, ?_⟩
    rcases h with ⟨h, _⟩ | ⟨h, _⟩ | ⟨hf, ⟨h, _⟩ | ⟨h, _⟩ | ⟨_, hn⟩ | ⟨h, _⟩⟩
    · cases h
    · cases h
    · cases h
    · cases h
    · exact .inr (.inr ⟨hf, .inl ⟨rfl, by omega⟩⟩)
    · cases h
  · refine .inr ⟨rfl, ?_⟩
    rcases h with ⟨h, _⟩ | ⟨h, _⟩ | ⟨hf, ⟨h, _⟩ | ⟨h, _⟩ | ⟨h, _⟩ | ⟨_, hk, hn⟩⟩
    · cases h
    · cases h
    · cases h
    · cases h
    · cases h
    · refine .inr (.inr ⟨?_, .inr (.inl ⟨rfl, by omega⟩)⟩)
      simp only at hf hk ⊢
      rw [hf, hk inp fw' ht]; rfl
  · refine .inr ⟨rfl, ?_⟩
    rcases h with ⟨h, _⟩ | ⟨h, _⟩ | ⟨hf, ⟨h, _⟩ | ⟨_, hn⟩ | ⟨h, _⟩ | ⟨h, _⟩⟩
    · cases h
    · cases h
    · cases h
    · exact .inr (.inr ⟨hf, .inl ⟨rfl, by omega⟩⟩)
    · cases h
    · cases h

theorem scans_mono {cfg : Config} {s s' : Sys} {x : Step} (h : s.step cfg x = .ok s') :
    s.hist.count .scan ≤ s'.hist.count .scan := by
  cases x with
  | isr => cases h; unfold Sys.isr; simp only [List.count_append]; omega
  | main inp =>
    rcases mainStep_cases h with ⟨e, rfl⟩ | ⟨e, rfl⟩ | ⟨e, rfl⟩ | ⟨e, rfl⟩ | ⟨e, rfl⟩ | ⟨e, fw', ht, rfl⟩ | ⟨e, rfl⟩ <;>
      simp only [List.count_append] <;> omega

theorem scans_mono_exec {cfg : Config} {s s' : Sys} {l : List Step} (h : s.exec cfg l = .ok s') :
    s.hist.count .scan ≤ s'.hist.count .scan := by
  induction l generalizing s with
  | nil => cases h; exact Nat.le_refl _
  | cons x l ih =>
    obtain ⟨s1, h1, h2⟩ := sys_exec_cons h
    exact Nat.le_trans (scans_mono h1) (ih h2)

theorem due_exec {cfg : Config} {n : Nat} {s s' : Sys} {l : List Step} (hd : Due cfg s n)
    (hn : n ≤ mainSteps l) (h : s.exec cfg l = .ok s') :
    s.hist.count .scan < s'.hist.count .scan := by
  induction l generalizing s n with
  | nil =>
    have : n = 0 := Nat.le_zero.mp hn
    subst this
    rcases hd with ⟨_, h⟩ | ⟨_, h⟩ | ⟨_, ⟨_, h⟩ | ⟨_, h⟩ | ⟨_, h⟩ | ⟨_, _, h⟩⟩ <;> omega
  | cons x l ih =>
    obtain ⟨s1, h1, h2⟩ := sys_exec_cons h
    cases x with
    | isr =>
      cases h1
      have := ih (due_isr hd) (by simpa [mainSteps] using hn) h2
      have e : s.isr.hist.count .scan = s.hist.count .scan := by
        simp [Sys.isr, List.count_append]
      rwa [e] at this
    | main inp =>
      have hn' : n ≤ mainSteps l + 1 := by simpa [mainSteps] using hn
      cases n with
      | zero => rcases hd with ⟨_, h⟩ | ⟨_, h⟩ | ⟨_, ⟨_, h⟩ | ⟨_, h⟩ | ⟨_, h⟩ | ⟨_, _, h⟩⟩ <;> omega
      | succ n =>
        rcases due_main hd h1 with h3 | ⟨h3, hd'⟩
        · have := scans_mono_exec h2
          omega
        · have := ih hd' (by omega) h2
          omega

/-! ## The portable part -/

theorem run_snoc {cfg : Config} {s0 s s' : State} {inps : List Input} {inp : Input}
    (h1 : run cfg s0 inps = .ok s) (h2 : tick cfg s inp = .ok s') :
    run cfg s0 (inps ++ [inp]) = .ok s' := by
  unfold run at h1 ⊢
  rw [List.foldlM_append, h1]
  show (tick cfg s inp >>= pure) = _
  rw [h2]; rfl

/-- The state of the portable part is that of the passes completed. -/
def FwInv (cfg : Config) (s0 : State) (s : Sys) : Prop :=
  ∃ inps, run cfg s0 inps = .ok s.fw ∧
    s.hist.count .scan = inps.length + if s.pc = .body then 1 else 0

theorem fwInv_step (cfg : Config) (s0 : State) (s : Sys) (x : Step) (s' : Sys) (h : FwInv cfg s0 s)
    (hs : s.step cfg x = .ok s') : FwInv cfg s0 s' := by
  obtain ⟨flag, pc, fw, hist⟩ := s
  obtain ⟨inps, h1, h2⟩ := h
  simp only at h1 h2
  cases x with
  | isr =>
    cases hs
    refine ⟨inps, h1, Eq.trans ?_ h2⟩
    simp [Sys.isr, List.count_append]
  | main inp =>
    rcases mainStep_cases hs with ⟨e, rfl⟩ | ⟨e, rfl⟩ | ⟨e, rfl⟩ | ⟨e, rfl⟩ | ⟨e, rfl⟩ | ⟨e, fw', ht, rfl⟩ | ⟨e, rfl⟩ <;>
      simp only at e <;> subst e
    · exact ⟨inps, h1, by simpa using h2⟩
    · exact ⟨inps, h1, by simpa [List.count_append, List.count_singleton] using h2⟩
    · exact ⟨inps, h1, by simpa using h2⟩
    · exact ⟨inps, h1, by simpa [List.count_append, List.count_singleton] using h2⟩
    · exact ⟨inps, h1, by simpa using h2⟩
    · exact ⟨inps ++ [inp], run_snoc h1 ht, by simpa using h2⟩
    · exact ⟨inps, h1, by simpa using h2⟩

/-! ## Timely interleavings -/

def ExactInv (cfg : Config) (s : Sys) : Prop :=
  s.hist.count .tick = s.hist.count .scan + (if tickPending s = true then 1 else 0) ∧
  (s.flag = true → s.pc = .body → noSwitch cfg s.fw) ∧
  (s.flag = true → s.pc ≠ .clear false ∧ s.pc ≠ .test true) 

theorem exactInv_exec {cfg : Config} {s s' : Sys} {l : List Step} (hl : timely cfg s l)
    (h : s.exec cfg l = .ok s') (h0 : ExactInv cfg s) : ExactInv cfg s' := by
  induction l generalizing s with
  | nil => cases h; exact h0
  | cons x l ih =>
    obtain ⟨s1, h1, h2⟩ := sys_exec_cons h
    obtain ⟨hx, hl⟩ := hl
    refine ih (hl s1 h1) h2 ?_
    obtain ⟨flag, pc, fw, hist⟩ := s
    obtain ⟨i1, i2, i3⟩ := h0
    simp only at i1 i2 i3
    cases x with
    | isr =>
      cases h1
      obtain ⟨hp, hw⟩ := hx rfl
      rw [hp] at i1
      unfold tickPending at hp
      simp only [Bool.or_eq_false_iff, decide_eq_false_iff_not] at hp
      refine ⟨?_, fun _ hb => ?_, fun _ => ⟨fun hc => hw (.inl hc), hp.2⟩⟩
      · simpa [Sys.isr, tickPending, List.count_append, List.count_singleton] using i1
      · exact Classical.byContradiction fun hc => hw (.inr ⟨hb, hc⟩)
    | main inp =>
      rcases mainStep_cases h1 with ⟨e, rfl⟩ | ⟨e, rfl⟩ | ⟨e, rfl⟩ | ⟨e, rfl⟩ | ⟨e, rfl⟩ | ⟨e, fw', ht, rfl⟩ | ⟨e, rfl⟩ <;>
        simp only at e <;> subst e
      · refine ⟨?_, (fun _ h => by cases h), fun hf => ?_⟩
        · rw [i1]; cases flag <;> simp [tickPending]
        · simp only at hf; subst hf; exact ⟨by simp, by simp⟩
      · refine ⟨?_, (fun h => by cases h), (fun h => by cases h)⟩
        simpa [tickPending, List.count_append, List.count_singleton] using i1
      · refine ⟨?_, (fun h => by cases h), (fun h => by cases h)⟩
        cases flag
        · simpa [tickPending] using i1
        · exact absurd rfl (i3 rfl).1
      · cases flag
        · refine ⟨?_, (fun h => by cases h), (fun h => by cases h)⟩
          simpa [tickPending, List.count_append, List.count_singleton] using i1
        · exact absurd rfl (i3 rfl).2
      · refine ⟨?_, (fun _ h => by cases h), fun _ => ⟨by simp, by simp⟩⟩
        simpa [tickPending] using i1
      · refine ⟨?_, (fun _ h => by cases h), fun _ => ⟨by simp, by simp⟩⟩
        cases flag
        · simpa [tickPending] using i1
        · have := i2 rfl rfl inp fw' ht
          simpa [tickPending, this] using i1
      · refine ⟨?_, (fun _ h => by cases h), fun _ => ⟨by simp, by simp⟩⟩
        simpa [tickPending] using i1

/-! ## Nothing happens without a tick -/

def Idle (s : Sys) : Prop :=
  s.flag = false ∧ (s.pc = .poll ∨ s.pc = .clear false ∨ s.pc = .test false)

theorem idle_main {cfg : Config} {s : Sys} (h : Idle s) (inp : Input) :
    ∃ s', s.mainStep cfg inp = .ok s' ∧ Idle s' ∧ s'.hist = s.hist := by
  obtain ⟨flag, pc, fw, hist⟩ := s
  obtain ⟨hf, hp⟩ := h
  simp only at hf hp
  subst hf
  rcases hp with rfl | rfl | rfl
  · exact ⟨_, rfl, ⟨rfl, .inr (.inl rfl)⟩, rfl⟩
  · exact ⟨_, rfl, ⟨rfl, .inr (.inr rfl)⟩, List.append_nil _⟩
  · exact ⟨_, rfl, ⟨rfl, .inl rfl⟩, rfl⟩

theorem idle_mains {cfg : Config} (n : Nat) {s : Sys} (h : Idle s) (inp : Input) :
    ∃ s', s.exec cfg (List.replicate n (.main inp)) = .ok s' ∧ s'.hist = s.hist := by
  induction n generalizing s with
  | zero => exact ⟨s, rfl, rfl⟩
  | succ n ih =>
    obtain ⟨s1, h1, h2, h3⟩ := idle_main (cfg := cfg) h inp
    obtain ⟨s2, h4, h5⟩ := ih h2
    refine ⟨s2, ?_, by rw [h5, h3]⟩
    unfold Sys.exec
    rw [List.replicate_succ, List.foldlM_cons]
    exact bind_eq_ok.mpr ⟨s1, h1, h4⟩

end Asdf
