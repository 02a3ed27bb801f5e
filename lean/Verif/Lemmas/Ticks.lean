import Verif.Spec.Ticks
import Verif.Lemmas.Core

/-! # Lemmas for C79: accounting for ticks -/

namespace Asdf.Ticks

open Spec Machine

/-- While the flag is being taken it is set. -/
def Held (m : Machine) : Prop := m.pc = .clear true → m.flag = true

theorem step_account {T : Whole.Target} {cfg : Config} {m m' : Machine} {x : Machine.Step}
    (hm : Held m) (h : Machine.step T cfg m x = .ok m') :
    Held m' ∧ m'.hist.count .tick + m.hist.count .scan + waitingTicks m =
      m.hist.count .tick + m'.hist.count .scan + lostNow T cfg m x + waitingTicks m' := by
  obtain ⟨flag, pc, board, hist⟩ := m
  cases x with
  | isr =>
    have e := Except.ok.inj h
    subst e
    refine ⟨fun _ => rfl, ?_⟩
    cases flag <;> simp [lostNow, waitingTicks, List.count_append] <;> omega
  | main mx =>
    cases pc with
    | poll =>
      have e := Except.ok.inj h
      subst e
      refine ⟨?_, ?_⟩
      · intro hp
        have hp : Pc.clear flag = .clear true := hp
        cases flag with
        | true => rfl
        | false => cases hp
      · cases flag <;> simp [lostNow, waitingTicks]
    | clear v =>
      have e := Except.ok.inj h
      subst e
      refine ⟨(fun hp => by cases hp), ?_⟩
      cases v with
      | true =>
        have hf : flag = true := hm rfl
        subst hf
        simp [lostNow, waitingTicks, List.count_append]
      | false => cases flag <;> simp [lostNow, waitingTicks]
    | test v =>
      cases v with
      | true =>
        have e := Except.ok.inj h
        subst e
        refine ⟨(fun hp => by cases hp), ?_⟩
        cases flag <;> simp [lostNow, waitingTicks, List.count_append] <;> omega
      | false =>
        have e := Except.ok.inj h
        subst e
        refine ⟨(fun hp => by cases hp), ?_⟩
        cases flag <;> simp [lostNow, waitingTicks]
    | rest =>
      have e := Except.ok.inj h
      subst e
      refine ⟨(fun hp => by cases hp), ?_⟩
      cases flag <;> simp [lostNow, waitingTicks]
    | body =>
      obtain ⟨w, hw, h2⟩ := bind_eq_ok.mp h
      have e := Except.ok.inj h2
      subst e
      have hw : Whole.pass T cfg board mx = .ok w := hw
      refine ⟨(fun hp => by cases hp), ?_⟩
      cases flag with
      | false => simp [lostNow, waitingTicks]
      | true => cases hr : reinits board.fw w.fw <;> simp [lostNow, waitingTicks, hw, hr]

theorem exec_account {T : Whole.Target} {cfg : Config} (l : List Machine.Step) :
    ∀ {m m' : Machine}, Held m → exec T cfg m l = .ok m' →
      m'.hist.count .tick + m.hist.count .scan + waitingTicks m =
        m.hist.count .tick + m'.hist.count .scan + lostFrom T cfg m l + waitingTicks m' := by
  induction l with
  | nil =>
    intro m m' _ h
    have e : m = m' := Except.ok.inj h
    subst e
    show _ = _ + _ + 0 + _
    omega
  | cons x l ih =>
    intro m m' hm h
    unfold exec at h
    rw [List.foldlM_cons] at h
    obtain ⟨m1, h1, h2⟩ := bind_eq_ok.mp h
    obtain ⟨i1, i2⟩ := step_account hm h1
    have i3 := ih i1 h2
    rw [lostFrom, h1]
    show _ = _ + _ + (_ + lostFrom T cfg m1 l) + _
    omega

end Asdf.Ticks
