import Verif.Props.Machine
import Verif.Props.Tick

/-! # Property C65: the whole program under every interrupt timing -/

namespace Asdf.Props

open Spec

theorem program_aux (cfg : Config) (L : Layout) (hc : cfgOk cfg L = true) (l : List Step)
    (hin : ∀ inp, .main inp ∈ l → Allowed L inp) (s : Sys) (before : List Input)
    (hb : ∀ inp ∈ before, Allowed L inp)
    (h : (boot cfg >>= fun s0 => run cfg s0 before) = .ok s.fw) :
    ∃ s', s.exec cfg l = .ok s' ∧ (∀ inp ∈ scanned cfg s l, Allowed L inp) ∧
      (boot cfg >>= fun s0 => run cfg s0 (before ++ scanned cfg s l)) = .ok s'.fw := by
  induction l generalizing s before with
  | nil =>
    exact ⟨s, rfl, (fun _ h => by cases h), by rw [show scanned cfg s [] = [] from rfl, List.append_nil]; exact h⟩
  | cons x l ih =>
    have go : ∀ s1 now, s.step cfg x = .ok s1 → scanned cfg s (x :: l) = now ++ scanned cfg s1 l →
        (∀ inp ∈ now, Allowed L inp) →
        (boot cfg >>= fun s0 => run cfg s0 (before ++ now)) = .ok s1.fw →
        ∃ s', s.exec cfg (x :: l) = .ok s' ∧ (∀ inp ∈ scanned cfg s (x :: l), Allowed L inp) ∧
          (boot cfg >>= fun s0 => run cfg s0 (before ++ scanned cfg s (x :: l))) = .ok s'.fw := by
      intro s1 now e1 e2 ha e3
      obtain ⟨s', i1, i2, i3⟩ := ih (fun inp hi => hin inp (List.mem_cons_of_mem _ hi)) s1
        (before ++ now) (by
          intro inp hi
          rcases List.mem_append.mp hi with hi | hi
          · exact hb inp hi
          · exact ha inp hi) e3
      refine ⟨s', ?_, ?_, ?_⟩
      · unfold Sys.exec at i1 ⊢
        rw [List.foldlM_cons, e1, ok_bind, i1]
      · rw [e2]
        intro inp hi
        rcases List.mem_append.mp hi with hi | hi
        · exact ha inp hi
        · exact i2 inp hi
      · rw [e2, ← List.append_assoc]; exact i3
    have still : ∀ s1, s.step cfg x = .ok s1 → s1.fw = s.fw →
        readNow s x = [] →
        ∃ s', s.exec cfg (x :: l) = .ok s' ∧ (∀ inp ∈ scanned cfg s (x :: l), Allowed L inp) ∧
          (boot cfg >>= fun s0 => run cfg s0 (before ++ scanned cfg s (x :: l))) = .ok s'.fw := by
      intro s1 e1 e2 e3
      refine go s1 [] e1 ?_ (fun _ h => by cases h) (by rw [List.append_nil, e2]; exact h)
      show readNow s x ++ _ = _
      rw [e3, e1]
    cases x with
    | isr => exact still s.isr rfl rfl rfl
    | main inp =>
      cases hp : s.pc with
      | poll =>
        exact still { s with pc := .clear s.flag } (by simp [Sys.step, Sys.mainStep, hp]) rfl
          (by unfold readNow; rw [hp])
      | clear v =>
        refine still { s with flag := false, pc := .test v, hist := s.hist ++ if v then [.taken] else [] } ?_ rfl
          (by unfold readNow; rw [hp])
        simp [Sys.step, Sys.mainStep, hp]
      | test v =>
        cases v with
        | true =>
          exact still { s with pc := .body, hist := s.hist ++ [.scan] }
            (by simp [Sys.step, Sys.mainStep, hp]) rfl (by unfold readNow; rw [hp])
        | false =>
          exact still { s with pc := .poll } (by simp [Sys.step, Sys.mainStep, hp]) rfl (by unfold readNow; rw [hp])
      | rest =>
        exact still { s with pc := .poll } (by simp [Sys.step, Sys.mainStep, hp]) rfl (by unfold readNow; rw [hp])
      | body =>
        have hi := hin inp List.mem_cons_self
        obtain ⟨t, f1, _⟩ := C55_whole_keyboard cfg L hc (before ++ [inp]) (by
          intro i hm
          rcases List.mem_append.mp hm with hm | hm
          · exact hb i hm
          · rw [List.mem_singleton.mp hm]; exact hi)
        have ft : tick cfg s.fw inp = .ok t := by
          cases hbt : boot cfg with
          | error e => rw [hbt] at h; cases h
          | ok s0 =>
            rw [hbt, ok_bind] at h f1
            unfold run at h f1
            rw [List.foldlM_append, h, ok_bind, List.foldlM_cons] at f1
            cases ht : tick cfg s.fw inp with
            | error e => rw [ht] at f1; cases f1
            | ok u => rw [ht] at f1; exact f1
        have es : s.step cfg (.main inp) =
            .ok { s with fw := t, flag := s.flag && !reinits s.fw t, pc := .rest } := by
          simp only [Sys.step, Sys.mainStep, hp, ft, ok_bind]
        refine go _ [inp] es ?_ (fun i hm => by rw [List.mem_singleton.mp hm]; exact hi) f1
        show readNow s (.main inp) ++ _ = _
        rw [es]
        unfold readNow
        rw [hp]

/-- **C65.** Under every interleaving of the timer interrupt with the main loop the
program never fails, and what it has done to its hardware and what it holds back is what
the abstract keyboard of `Spec/Machine.lean` does with the readings taken in the passes
that were made, one reading per pass. -/
theorem C65_program (cfg : Config) (L : Layout) (hc : cfgOk cfg L = true) (flag : Bool)
    (l : List Step) (hin : ∀ inp, .main inp ∈ l → Allowed L inp) :
    ∃ s0 s, boot cfg = .ok s0 ∧ (Sys.start s0 flag).exec cfg l = .ok s ∧
      s.fw.dev.trace = (Kb.after cfg L (scanned cfg (Sys.start s0 flag) l)).trace ∧
      keystrokes s.fw = (Kb.after cfg L (scanned cfg (Sys.start s0 flag) l)).keys ∧
      messages s.fw = (Kb.after cfg L (scanned cfg (Sys.start s0 flag) l)).msgs ∧
      (scanned cfg (Sys.start s0 flag) l).length + (if s.pc = .body then 1 else 0) =
        howOften .scan s := by
  obtain ⟨s0, e1, _⟩ := C55_whole_keyboard cfg L hc [] (fun _ h => by cases h)
  have hb : boot cfg = .ok s0 := by
    cases hb : boot cfg with
    | error e => rw [hb] at e1; cases e1
    | ok t => rw [hb] at e1; exact e1
  obtain ⟨s, i1, i2, i3⟩ := program_aux cfg L hc l hin (Sys.start s0 flag) [] (fun _ h => by cases h) e1
  rw [List.nil_append] at i3
  obtain ⟨t, g1, g2, g3, g4, _⟩ := C55_whole_keyboard cfg L hc _ i2
  rw [i3] at g1
  cases g1
  refine ⟨s0, s, hb, i1, g2, g3, g4, ?_⟩
  have count : ∀ (l : List Step) (s s' : Sys), s.exec cfg l = .ok s' →
      (scanned cfg s l).length + (if s'.pc = .body then 1 else 0) + howOften .scan s =
        howOften .scan s' + (if s.pc = .body then 1 else 0) := by
    intro l
    induction l with
    | nil =>
      intro s s' h
      cases h
      show 0 + _ + _ = _
      omega
    | cons x l ih =>
      intro s s' h
      unfold Sys.exec at h
      rw [List.foldlM_cons] at h
      obtain ⟨s1, h1, h2⟩ := bind_eq_ok.mp h
      have := ih s1 s' h2
      have e : scanned cfg s (x :: l) =
          readNow s x ++ scanned cfg s1 l := by
        show _ ++ (match s.step cfg x with | .ok s' => scanned cfg s' l | .error _ => []) = _
        rw [h1]
      rw [e, List.length_append]
      have hstep : (readNow s x).length
          + (if s1.pc = .body then 1 else 0) + howOften .scan s =
          howOften .scan s1 + (if s.pc = .body then 1 else 0) := by
        unfold howOften readNow
        cases x with
        | isr =>
          cases h1
          have e2 : (s.hist ++ [Obs.tick]).count Obs.scan = s.hist.count .scan := by
            simp [List.count_append]
          show 0 + (if s.pc = .body then 1 else 0) + s.hist.count .scan =
            (s.hist ++ [Obs.tick]).count Obs.scan + _
          rw [e2]
          omega
        | main inp =>
          cases hp : s.pc with
          | poll => simp [Sys.step, Sys.mainStep, hp] at h1; subst h1; simp
          | clear v =>
            simp [Sys.step, Sys.mainStep, hp] at h1; subst h1
            cases v <;> simp [List.count_append]
          | test v =>
            cases v with
            | true =>
              simp [Sys.step, Sys.mainStep, hp] at h1; subst h1
              simp [List.count_append]; omega
            | false => simp [Sys.step, Sys.mainStep, hp] at h1; subst h1; simp
          | rest => simp [Sys.step, Sys.mainStep, hp] at h1; subst h1; simp
          | body =>
            simp only [Sys.step, Sys.mainStep, hp] at h1
            obtain ⟨fw, _, h1⟩ := bind_eq_ok.mp h1
            cases h1
            simp; omega
      omega
  have := count l _ s i1
  have z : howOften .scan (Sys.start s0 flag) = 0 := by cases flag <;> rfl
  rw [z] at this
  simpa [Sys.start] using this

/-- Non-vacuity: ten ticks with the key A closed, with an additional tick during a pass;
eleven passes are made, and A has been sent in the last one. -/
def busyA : List Step :=
  (List.replicate 10 (oneRound (closing 1 6))).flatten ++
    [.isr, .main noKeys, .main noKeys, .main noKeys, .isr, .main noKeys, .main noKeys]

example : (∀ inp, .main inp ∈ busyA → Allowed shippedLayout inp) ∧
    (scanned shipped (Sys.start (after []) false) busyA).length = 11 ∧
    (((Sys.start (after []) false).exec shipped busyA).toOption.map fun s => sends s.fw.dev.trace) =
      some [0x61] := by
  refine ⟨?_, by decide +kernel, by decide +kernel⟩
  intro inp hi
  simp only [busyA, oneRound, List.mem_append, List.mem_flatten, List.mem_cons, List.not_mem_nil,
    or_false, reduceCtorEq, false_or] at hi
  have hA : Allowed shippedLayout (closing 1 6) := allowed_of_row8 rfl
  have hN : Allowed shippedLayout noKeys := allowed_of_row8 rfl
  rcases hi with ⟨l, hl, hi⟩ | hi
  · rw [(List.mem_replicate.mp hl).2] at hi
    rcases List.mem_cons.mp hi with hi | hi
    · cases hi
    · have := (List.mem_replicate.mp hi).2
      cases this
      exact hA
  · rcases hi with hi | hi | hi | hi | hi <;> (cases hi; exact hN)

end Asdf.Props
