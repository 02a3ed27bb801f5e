import Verif.Lemmas.Tick
import Verif.Spec.Examples

/-! # Property C45: ticks and scans under every interrupt timing -/

namespace Asdf.Props

open Spec

/-- **C45, not too often.**  Under every interleaving, at every moment, at most as many
scans were started as ticks occurred. -/
theorem C45_not_more_scans_than_ticks (cfg : Config) (s : Sys) (h : Running cfg s) :
    howOften .scan s ≤ howOften .tick s := by
  obtain ⟨s0, flag, l, _, h⟩ := h
  have := exec_inv (countInv_step cfg) h (countInv_start s0 flag)
  obtain ⟨h1, h2⟩ := this
  unfold howOften
  omega

/-- **C45, no tick answered twice.**  Under every interleaving, a tick precedes every
take of the flag, and there is a new tick between two takes; every take leads to
exactly one scan, which comes before the next take. -/
theorem C45_no_tick_answered_twice (cfg : Config) (s : Sys) (h : Running cfg s) :
    (∀ a b, s.hist = a ++ .taken :: b → .tick ∈ a) ∧
    (∀ a b c, s.hist = a ++ .taken :: (b ++ .taken :: c) → .tick ∈ b) ∧
    howOften .taken s = howOften .scan s + if s.pc = .test true then 1 else 0 := by
  obtain ⟨s0, flag, l, _, h⟩ := h
  have hc := exec_inv (countInv_step cfg) h (countInv_start s0 flag)
  have hf : FreshInv s := by
    refine exec_inv (freshInv_step cfg) h ?_
    have hno : ∀ (o : List Obs), .taken ∉ o → (∀ a b, o = a ++ .taken :: b → False) := by
      intro o ho a b e
      exact ho (by rw [e]; exact List.mem_append_right _ List.mem_cons_self)
    have ho : Obs.taken ∉ (Sys.start s0 flag).hist := by cases flag <;> simp [Sys.start]
    refine ⟨fun hh => ⟨?_, fun a b e => (hno _ ho _ _ e).elim⟩, fun a b e => (hno _ ho _ _ e).elim,
      fun a b c e => (hno _ ho _ _ e).elim⟩
    cases flag with
    | true => exact List.mem_cons_self
    | false => rcases hh with hh | hh <;> cases hh
  exact ⟨hf.2.1, hf.2.2, hc.2⟩

/-- **C45, the interrupt changes nothing else.**  Under every interleaving the state of
the keyboard is the one after the completed passes of the main loop, one per scan:
the theorems about `run` hold under every interrupt timing. -/
theorem C45_refines_run (cfg : Config) (s0 : State) (flag : Bool) (l : List Step) (s : Sys)
    (h : (Sys.start s0 flag).exec cfg l = .ok s) :
    ∃ inps, run cfg s0 inps = .ok s.fw ∧
      howOften .scan s = inps.length + if s.pc = .body then 1 else 0 :=
  exec_inv (fwInv_step cfg s0) h ⟨[], rfl, by cases flag <;> rfl⟩

/-- The third part of C45: there is a number of main loop steps after which every tick
was followed by the start of a scan. -/
def C45Statement : Prop :=
  ∃ n, ∀ s, Running shipped s → ∀ l s', s.isr.exec shipped l = .ok s' → n ≤ mainSteps l →
    howOften .scan s < howOften .scan s'

/-- **C45 is false in its third part**: a tick between reading the flag as 0 and clearing
it is lost; the main loop goes on polling for any number of steps. -/
theorem C45_false : ¬ C45Statement := by
  rintro ⟨n, h⟩
  obtain ⟨s0, hb⟩ : ∃ s0, boot shipped = .ok s0 := by
    cases hb : boot shipped with
    | ok s0 => exact ⟨s0, rfl⟩
    | error e =>
      have : (match boot shipped with | .ok _ => true | .error _ => false) = true := by decide +kernel
      rw [hb] at this; cases this
  have hr : Running shipped ⟨false, .clear false, s0, []⟩ :=
    ⟨s0, false, [.main noKeys], hb, rfl⟩
  obtain ⟨s', h1, h2⟩ := idle_mains (cfg := shipped) n (s := ⟨false, .test false, s0, [.tick] ++ []⟩)
    ⟨rfl, .inr (.inr rfl)⟩ noKeys
  have := h _ hr (.main noKeys :: List.replicate n (.main noKeys)) s' (by
      unfold Sys.exec at h1 ⊢
      rw [List.foldlM_cons]
      exact h1) (by
      have : ∀ k, mainSteps (List.replicate k (Step.main noKeys)) = k := by
        intro k
        induction k with
        | zero => rfl
        | succ k ih => rw [List.replicate_succ]; simpa [mainSteps] using ih
      have h3 := this (n + 1)
      rw [List.replicate_succ] at h3
      omega)
  unfold howOften at this
  rw [h2] at this
  have e : List.count Obs.scan ([.tick] ++ []) = 0 := rfl
  have this : List.count Obs.scan [] < List.count Obs.scan ([.tick] ++ []) := this
  rw [e] at this
  omega

/-- One tick, then one full pass of the main loop that sees the keys `inp`. -/
def oneRound (inp : Input) : List Step := .isr :: List.replicate 5 (.main inp)

/-- The other loss: a tick in a pass that switches the keymap is wiped out by the
hardware initialisation; here the last tick comes in the tenth pass with DIP switch 0
closed, and is not answered in 20 further steps. -/
theorem C45_lost_at_switch :
    ((Sys.start (after []) false).exec shipped
      ((List.replicate 9 (oneRound (closing 8 0))).flatten ++
        [.isr, .main (closing 8 0), .main (closing 8 0), .main (closing 8 0), .isr] ++
        List.replicate 20 (.main (closing 8 0)))).toOption.map (fun s => s.hist.drop 27) =
      some [.tick, .taken, .scan, .tick] := by decide +kernel

/-- **C45, every tick answered** (partial: except for ticks in the two loss windows).
A tick at any other moment of any interleaving is followed by the start of a scan
within five steps of the main loop. -/
theorem C45_answered_partial (cfg : Config) (s : Sys) (hw : ¬ lossWindow cfg s) (l : List Step)
    (s' : Sys) (h : s.isr.exec cfg l = .ok s') (hl : 5 ≤ mainSteps l) :
    howOften .scan s < howOften .scan s' := by
  have hd : Due cfg s.isr 5 := by
    cases hp : s.pc with
    | poll => exact .inr (.inr ⟨rfl, .inl ⟨hp, by omega⟩⟩)
    | clear v =>
      cases v with
      | true => exact .inr (.inl ⟨hp, by omega⟩)
      | false => exact absurd (.inl hp) hw
    | test v =>
      cases v with
      | true => exact .inl ⟨hp, by omega⟩
      | false => exact .inr (.inr ⟨rfl, .inr (.inr (.inl ⟨hp, by omega⟩))⟩)
    | body =>
      refine .inr (.inr ⟨rfl, .inr (.inr (.inr ⟨hp, ?_, by omega⟩))⟩)
      exact Classical.byContradiction fun hc => hw (.inr ⟨hp, hc⟩)
    | rest => exact .inr (.inr ⟨rfl, .inr (.inl ⟨hp, by omega⟩)⟩)
  have := due_exec hd hl h
  have e : s.isr.hist.count .scan = s.hist.count .scan := by simp [Sys.isr, List.count_append]
  rw [e] at this
  exact this

/-- **C45, exactly one scan per tick** (partial: for interleavings in which ticks come
outside the loss windows and not before the previous one was taken).  Then every tick
was answered by its own scan, but for at most one that is still waiting. -/
theorem C45_exactly_one_scan_per_tick_partial (cfg : Config) (s0 : State) (flag : Bool) (l : List Step)
    (s : Sys) (ht : timely cfg (Sys.start s0 flag) l) (h : (Sys.start s0 flag).exec cfg l = .ok s) :
    howOften .tick s = howOften .scan s + if tickPending s = true then 1 else 0 := by
  refine (exactInv_exec ht h ?_).1
  cases flag with
  | true => exact ⟨rfl, (fun _ h => by cases h), fun _ => ⟨by simp [Sys.start], by simp [Sys.start]⟩⟩
  | false => exact ⟨rfl, (fun h => by cases h), fun h => by cases h⟩

/-- Scans may start without a tick between their starts: a tick that comes after the
flag was taken for the first scan is answered by the second. -/
theorem C45_scans_back_to_back :
    ((Sys.start (after []) true).exec shipped
      [.main noKeys, .main noKeys, .isr, .main noKeys, .main noKeys, .main noKeys, .main noKeys,
        .main noKeys, .main noKeys]).toOption.map (·.hist) =
      some [.tick, .taken, .tick, .scan, .taken, .scan] := by decide +kernel

/-- Non-vacuity: an interleaving with three ticks, three scans and keys typed. -/

example : ((Sys.start (after []) false).exec shipped
    ([.isr] ++ List.replicate 5 (.main (closing 1 6)) ++ [.isr] ++ List.replicate 5 (.main (closing 1 6)) ++
      [.isr] ++ List.replicate 5 (.main noKeys))).toOption.map (·.hist) =
    some [.tick, .taken, .scan, .tick, .taken, .scan, .tick, .taken, .scan] := by decide +kernel

/-- Non-vacuity: a timely interleaving. -/
example : timely shipped (Sys.start (after []) false) [.isr, .main noKeys, .main noKeys] := by
  refine ⟨fun _ => ⟨rfl, fun h => ?_⟩, fun s1 h1 => ⟨(fun h => by cases h), fun s2 _ => ⟨(fun h => by cases h), fun _ _ => trivial⟩⟩⟩
  rcases h with h | h
  · cases h
  · cases h.1

/-- Non-vacuity: a moment outside the loss windows. -/
example : ¬ lossWindow shipped (Sys.start (after []) false) := by
  rintro (h | h)
  · cases h
  · cases h.1

end Asdf.Props
