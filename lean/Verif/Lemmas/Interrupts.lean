import Verif.Spec.Interrupts
import Verif.Lemmas.AgreeBoard

/-! # Lemmas about the machine with its interrupt -/

namespace Asdf

open Spec Machine

/-- Under every interleaving the board is the one after the passes made, as long as these
do not fail. -/
theorem machine_aux {T : Whole.Target} {cfg : Config} {r0 : Avr.Regs}
    {P : List (Nat → Whole.Contacts) → Prop} (hP : ∀ a b, P (a ++ b) → P a)
    (hok : ∀ mxs, P mxs → ∃ w, Whole.life T cfg r0 mxs = .ok w) (l : List Machine.Step) :
    ∀ (m : Machine) (before : List (Nat → Whole.Contacts)),
      Whole.life T cfg r0 before = .ok m.board → P (before ++ seenFrom T cfg m l) →
      ∃ m', exec T cfg m l = .ok m' ∧
        Whole.life T cfg r0 (before ++ seenFrom T cfg m l) = .ok m'.board ∧
        (seenFrom T cfg m l).length + (if m'.pc = .body then 1 else 0) + m.hist.count .scan =
          m'.hist.count .scan + (if m.pc = .body then 1 else 0) := by
  induction l with
  | nil =>
    intro m before h _
    refine ⟨m, rfl, ?_, ?_⟩
    · rw [show seenFrom T cfg m [] = [] from rfl, List.append_nil]; exact h
    · show 0 + _ + _ = _
      omega
  | cons x l ih =>
    intro m before h hp
    have go : ∀ m1 now, step T cfg m x = .ok m1 →
        seenFrom T cfg m (x :: l) = now ++ seenFrom T cfg m1 l →
        Whole.life T cfg r0 (before ++ now) = .ok m1.board →
        now.length + (if m1.pc = .body then 1 else 0) + m.hist.count .scan =
          m1.hist.count .scan + (if m.pc = .body then 1 else 0) →
        ∃ m', exec T cfg m (x :: l) = .ok m' ∧
          Whole.life T cfg r0 (before ++ seenFrom T cfg m (x :: l)) = .ok m'.board ∧
          (seenFrom T cfg m (x :: l)).length + (if m'.pc = .body then 1 else 0) +
            m.hist.count .scan = m'.hist.count .scan + (if m.pc = .body then 1 else 0) := by
      intro m1 now e1 e2 e3 e4
      rw [e2, ← List.append_assoc] at hp
      obtain ⟨m', i1, i2, i3⟩ := ih m1 (before ++ now) e3 hp
      refine ⟨m', ?_, ?_, ?_⟩
      · unfold exec at i1 ⊢
        rw [List.foldlM_cons, e1, ok_bind, i1]
      · rw [e2, ← List.append_assoc]; exact i2
      · rw [e2, List.length_append]
        omega
    cases x with
    | isr =>
      refine go { m with flag := true, hist := m.hist ++ [.tick] } [] rfl rfl
        (by rw [List.append_nil]; exact h) ?_
      show 0 + (if m.pc = .body then 1 else 0) + m.hist.count .scan =
        (m.hist ++ [Obs.tick]).count .scan + _
      have : (m.hist ++ [Obs.tick]).count Obs.scan = m.hist.count .scan := by
        simp [List.count_append]
      omega
    | main mx =>
      have still : ∀ m1, step T cfg m (.main mx) = .ok m1 → m1.board = m.board → m.pc ≠ .body →
          (if m1.pc = .body then 1 else 0) + m.hist.count .scan = m1.hist.count .scan →
          ∃ m', exec T cfg m (.main mx :: l) = .ok m' ∧
            Whole.life T cfg r0 (before ++ seenFrom T cfg m (.main mx :: l)) = .ok m'.board ∧
            (seenFrom T cfg m (.main mx :: l)).length + (if m'.pc = .body then 1 else 0) +
              m.hist.count .scan = m'.hist.count .scan + (if m.pc = .body then 1 else 0) := by
        intro m1 e1 e2 e3 e4
        refine go m1 [] e1 ?_ (by rw [List.append_nil, e2]; exact h) ?_
        · rw [seenFrom, e1]
          have : seenNow m (.main mx) = [] := by
            unfold seenNow
            cases hpc : m.pc with
            | body => exact absurd hpc e3
            | _ => rfl
          rw [this]
        · rw [if_neg e3]
          simpa using e4
      cases hpc : m.pc with
      | poll =>
        rw [← hpc]
        exact still { m with pc := .clear m.flag } (by simp [Machine.step, mainStep, hpc]) rfl
          (by rw [hpc]; exact Pc.noConfusion) (by simp)
      | clear v =>
        rw [← hpc]
        refine still { m with flag := false, pc := .test v, hist := m.hist ++ if v then [.taken] else [] }
          (by simp [Machine.step, mainStep, hpc]) rfl
          (by rw [hpc]; exact Pc.noConfusion) ?_
        cases v <;> simp [List.count_append]
      | test v =>
        rw [← hpc]
        cases v with
        | true =>
          refine still { m with pc := .body, hist := m.hist ++ [.scan] }
            (by simp [Machine.step, mainStep, hpc]) rfl (by rw [hpc]; exact Pc.noConfusion) ?_
          simp [List.count_append]; omega
        | false =>
          exact still { m with pc := .poll } (by simp [Machine.step, mainStep, hpc]) rfl
            (by rw [hpc]; exact Pc.noConfusion) (by simp)
      | rest =>
        rw [← hpc]
        exact still { m with pc := .poll } (by simp [Machine.step, mainStep, hpc]) rfl
          (by rw [hpc]; exact Pc.noConfusion) (by simp)
      | body =>
        have hnow : seenNow m (.main mx) = [mx] := by
          unfold seenNow
          rw [hpc]
        rw [seenFrom, hnow, ← List.append_assoc] at hp
        obtain ⟨w, hw⟩ := hok _ (hP _ _ hp)
        have hw' := hw
        rw [life_snoc, h, ok_bind] at hw'
        have es : Machine.step T cfg m (.main mx) =
            .ok { m with board := w, flag := m.flag && !reinits m.board.fw w.fw, pc := .rest } := by
          simp only [Machine.step, mainStep, hpc, hw', ok_bind]
        have hgo := go _ [mx] es (by rw [seenFrom, hnow, es]) hw (by rw [hpc]; simp; omega)
        rw [hpc] at hgo
        exact hgo

end Asdf
