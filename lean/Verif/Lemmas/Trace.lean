import Verif.Spec.Scan
import Verif.Lemmas.Basic

/-! # Scanning never sends: for every state and every outcome

These lemmas need no invariant: whatever the state, if a function of the scanner
returns, it has appended to the trace events none of which is a `send`. -/

namespace Asdf

open Spec

/-- `t'` extends `t` by events without a `send`. -/
def NoSend (t t' : List Event) : Prop := ∃ evs, t' = t ++ evs ∧ sends evs = []

theorem NoSend.refl (t : List Event) : NoSend t t := ⟨[], by simp, rfl⟩

theorem NoSend.trans {t1 t2 t3 : List Event} (h1 : NoSend t1 t2) (h2 : NoSend t2 t3) :
    NoSend t1 t3 := by
  obtain ⟨e1, rfl, g1⟩ := h1
  obtain ⟨e2, rfl, g2⟩ := h2
  exact ⟨e1 ++ e2, by simp, by unfold sends at *; rw [List.filterMap_append, g1, g2]; rfl⟩

theorem NoSend.of_eq {t t' : List Event} (h : t' = t) : NoSend t t' := h ▸ NoSend.refl t

theorem NoSend.one (t : List Event) {e : Event} (h : sends [e] = []) : NoSend t (t ++ [e]) :=
  ⟨[e], rfl, h⟩

/-! ## Devices -/

theorem physSet_ns {d d' : Dev} {p v} (h : physSet d p v = .ok d') : NoSend d.trace d'.trace := by
  unfold physSet at h
  obtain ⟨e, _, h⟩ := bind_eq_ok.mp h
  obtain ⟨t, _, h⟩ := bind_eq_ok.mp h
  cases h
  exact NoSend.one _ rfl

theorem physToggle_ns {d d' : Dev} {p} (h : physToggle d p = .ok d') :
    NoSend d.trace d'.trace := by
  unfold physToggle at h
  obtain ⟨e, _, h⟩ := bind_eq_ok.mp h
  exact physSet_ns h

theorem mapDevices_ns {f : Dev → Nat → Res Dev}
    (hf : ∀ d d' p, f d p = .ok d' → NoSend d.trace d'.trace) (fuel : Nat) :
    ∀ {d d' : Dev} {p : Nat}, mapDevices f fuel d p = .ok d' → NoSend d.trace d'.trace := by
  induction fuel with
  | zero => intro d d' p h; cases h
  | succ n ih =>
    intro d d' p h
    unfold mapDevices at h
    split at h
    · cases h; exact NoSend.refl _
    · obtain ⟨d1, h1, h⟩ := bind_eq_ok.mp h
      obtain ⟨nx, _, h⟩ := bind_eq_ok.mp h
      exact (hf _ _ _ h1).trans (ih h)

theorem virtAction_ns {d d' : Dev} {v fn} (h : virtAction d v fn = .ok d') :
    NoSend d.trace d'.trace := by
  have ht := fun d d' p (h : physToggle d p = .ok d') => physToggle_ns h
  unfold virtAction at h
  obtain ⟨e, _, h⟩ := bind_eq_ok.mp h
  cases fn with
  | nofunc => cases h; exact NoSend.refl _
  | setHi => exact mapDevices_ns (fun d d' p h => physSet_ns h) _ h
  | setLo => exact mapDevices_ns (fun d d' p h => physSet_ns h) _ h
  | toggle => exact mapDevices_ns ht _ h
  | pulseShort =>
    obtain ⟨d1, h1, h⟩ := bind_eq_ok.mp h
    exact ((mapDevices_ns ht _ h1).trans (NoSend.one _ rfl)).trans (mapDevices_ns ht _ h)
  | pulseLong =>
    obtain ⟨d1, h1, h⟩ := bind_eq_ok.mp h
    exact ((mapDevices_ns ht _ h1).trans (NoSend.one _ rfl)).trans (mapDevices_ns ht _ h)

theorem virtActivate_ns {d d' : Dev} {v} (h : virtActivate d v = .ok d') :
    NoSend d.trace d'.trace := by
  unfold virtActivate at h
  obtain ⟨e, _, h⟩ := bind_eq_ok.mp h
  exact virtAction_ns h

theorem physAllocate_trace {d d' : Dev} {p tail i ok} (h : physAllocate d p tail i = .ok (ok, d')) :
    d'.trace = d.trace := by
  unfold physAllocate at h
  obtain ⟨_, _, h⟩ := bind_eq_ok.mp h
  split at h
  · obtain ⟨_, _, h⟩ := bind_eq_ok.mp h
    obtain ⟨_, _, h⟩ := bind_eq_ok.mp h
    obtain ⟨_, _, h⟩ := bind_eq_ok.mp h
    obtain ⟨_, _, h⟩ := bind_eq_ok.mp h
    obtain ⟨_, _, h⟩ := bind_eq_ok.mp h
    obtain ⟨_, _, h⟩ := bind_eq_ok.mp h
    obtain ⟨_, _, h⟩ := bind_eq_ok.mp h
    cases h; rfl
  · cases h; rfl

theorem virtAssign_trace {d d' : Dev} {v p fn i} (h : virtAssign d v p fn i = .ok d') :
    d'.trace = d.trace := by
  unfold virtAssign at h
  split at h
  · obtain ⟨_, _, h⟩ := bind_eq_ok.mp h
    obtain ⟨⟨ok, d1⟩, h1, h⟩ := bind_eq_ok.mp h
    have := physAllocate_trace h1
    have h : (if ok = true then (wr d1.virt v { phys := p, fn := fn } >>= fun t =>
      .ok { d1 with virt := t }) else .ok d1 : Res Dev) = .ok d' := h
    split at h
    · obtain ⟨_, _, h⟩ := bind_eq_ok.mp h
      cases h; exact this
    · cases h; exact this
  · cases h; rfl

/-! ## Modifiers and keymaps -/

/-- The scanner's relation between two states: nothing sent, buffer handles kept. -/
def NS (s s' : State) : Prop := NoSend s.dev.trace s'.dev.trace

theorem setShiftState_ns {s s' : State} {n} (h : setShiftState s n = .ok s') : NS s s' := by
  unfold setShiftState at h
  obtain ⟨d, h1, h⟩ := bind_eq_ok.mp h
  cases h
  exact virtAction_ns h1

theorem setCapsState_ns {s s' : State} {n} (h : setCapsState s n = .ok s') : NS s s' := by
  unfold setCapsState at h
  obtain ⟨d, h1, h⟩ := bind_eq_ok.mp h
  cases h
  exact virtAction_ns h1

theorem addMap_dev {s s' : State} {m i r c} (h : addMap s m i r c = .ok s') : s'.dev = s.dev := by
  unfold addMap at h
  split at h
  · obtain ⟨_, _, h⟩ := bind_eq_ok.mp h
    cases h; rfl
  · cases h; rfl

theorem foldlM_ns {α : Type} {f : State → α → Res State}
    (hf : ∀ s s' a, f s a = .ok s' → NS s s') (l : List α) {s s' : State}
    (h : l.foldlM f s = .ok s') : NS s s' := by
  induction l generalizing s with
  | nil => cases h; exact NoSend.refl _
  | cons a l ih =>
    rw [List.foldlM_cons] at h
    obtain ⟨s1, h1, h⟩ := bind_eq_ok.mp h
    exact (hf _ _ _ h1).trans (ih h)

theorem keymapsReset_ns {s s' : State} (h : keymapsReset s = .ok s') : NS s s' := by
  unfold keymapsReset at h
  obtain ⟨s1, h1, h⟩ := bind_eq_ok.mp h
  cases h
  have : NS s s1 := foldlM_ns (f := fun s i => addMap s none i 0 0)
    (fun s s' i h => NoSend.of_eq (by rw [addMap_dev h])) _ h1
  exact this

theorem runCmd_ns {s s' : State} {c : SetupCmd} (h : runCmd s c = .ok s') : NS s s' := by
  cases c with
  | printDelay ms => cases h; exact NoSend.refl _
  | addMap m i r c => exact NoSend.of_eq (by rw [addMap_dev h])
  | hook id f =>
    obtain ⟨_, _, h⟩ := bind_eq_ok.mp h
    cases h; exact NoSend.refl _
  | vassign v p fn i =>
    obtain ⟨d, h1, h⟩ := bind_eq_ok.mp h
    cases h
    exact NoSend.of_eq (virtAssign_trace h1)
  | capsActivate => exact setCapsState_ns h
  | negStrobe => cases h; exact NoSend.one _ rfl

theorem keymapsSwitch_ns {cfg : Config} {s s' : State} {i} (h : keymapsSwitch cfg s i = .ok s') :
    NS s s' := by
  unfold keymapsSwitch at h
  split at h
  · obtain ⟨s1, h1, h⟩ := bind_eq_ok.mp h
    have e1 := keymapsReset_ns h1
    have e2 : NS s1 s' := foldlM_ns (fun s s' c h => runCmd_ns h) _ h
    exact ((NoSend.one s.dev.trace (e := .archInit) rfl).trans e1).trans e2
  · cases h; exact NoSend.refl _

theorem keymapsSelect_ns {cfg : Config} {s s' : State} {i} (h : keymapsSelect cfg s i = .ok s') :
    NS s s' := by
  unfold keymapsSelect at h
  split at h
  · exact keymapsSwitch_ns h
  · cases h; exact NoSend.refl _

/-! ## Keys -/

theorem putMsg_dev {s s' : State} {c} (h : putMsg s c = .ok s') : s'.dev = s.dev := by
  unfold putMsg at h
  obtain ⟨_, _, h⟩ := bind_eq_ok.mp h
  cases h; rfl

theorem putCode_dev {s s' : State} {c} (h : putCode s c = .ok s') : s'.dev = s.dev := by
  unfold putCode at h
  obtain ⟨_, _, h⟩ := bind_eq_ok.mp h
  cases h; rfl

theorem putc_dev {s s' : State} {c} (h : putc s c = .ok s') : s'.dev = s.dev := by
  unfold putc at h
  by_cases hc : c = 0x0A
  · rw [if_pos hc] at h
    obtain ⟨s1, h1, h⟩ := bind_eq_ok.mp h
    rw [putMsg_dev h, putMsg_dev h1]
  · rw [if_neg hc] at h
    exact putMsg_dev h

theorem hookExecute_ns {s s' : State} {i} (h : hookExecute s i = .ok s') : NS s s' := by
  unfold hookExecute at h
  split at h
  · obtain ⟨f, _, h⟩ := bind_eq_ok.mp h
    cases f with
    | null => cases h; exact NoSend.refl _
    | print text => exact foldlM_ns (fun s s' c h => NoSend.of_eq (by rw [putc_dev h])) _ h
    | nullPtr => cases h
    | archReadRow => cases h
    | archSendCode => cases h
    | keyscan => cases h
  · cases h; exact NoSend.refl _

theorem activateAction_ns {cfg : Config} {s s' : State} {a : Action}
    (h : activateAction cfg s a = .ok s') : NS s s' := by
  cases a with
  | shift => exact setShiftState_ns h
  | shiftlockOn => exact setShiftState_ns h
  | shiftlockToggle => exact setShiftState_ns h
  | caps => exact setCapsState_ns h
  | ctrl => cases h; exact NoSend.refl _
  | «repeat» => cases h; exact NoSend.refl _
  | autorepeatSelect => cases h; exact NoSend.refl _
  | strobeSelect => cases h; exact NoSend.one _ rfl
  | mapsel b => exact keymapsSelect_ns h
  | virt v =>
    obtain ⟨d, h1, h⟩ := bind_eq_ok.mp h
    cases h; exact virtActivate_ns h1
  | nothing => exact hookExecute_ns h
  | hereIs => exact hookExecute_ns h
  | fn n =>
    have h : (if 1 ≤ n ∧ n ≤ 10 then hookExecute s (HOOK_USER_1 + (n - 1)) else .ok s) = .ok s' := h
    split at h
    · exact hookExecute_ns h
    · cases h; exact NoSend.refl _
  | other => cases h; exact NoSend.refl _

theorem deactivateAction_ns {cfg : Config} {s s' : State} {a : Action}
    (h : deactivateAction cfg s a = .ok s') : NS s s' := by
  cases a with
  | shift => exact setShiftState_ns h
  | mapsel b => exact keymapsSelect_ns h
  | strobeSelect => cases h; exact NoSend.one _ rfl
  | ctrl => cases h; exact NoSend.refl _
  | «repeat» => cases h; exact NoSend.refl _
  | autorepeatSelect => cases h; exact NoSend.refl _
  | nothing => cases h; exact NoSend.refl _
  | shiftlockOn => cases h; exact NoSend.refl _
  | shiftlockToggle => cases h; exact NoSend.refl _
  | caps => cases h; exact NoSend.refl _
  | hereIs => cases h; exact NoSend.refl _
  | virt _ => cases h; exact NoSend.refl _
  | fn _ => cases h; exact NoSend.refl _
  | other => cases h; exact NoSend.refl _

theorem activateKey_ns {cfg : Config} {s s' : State} {c} (h : activateKey cfg s c = .ok s') :
    NS s s' := by
  unfold activateKey at h
  split at h
  · exact activateAction_ns h
  · obtain ⟨s1, h1, h⟩ := bind_eq_ok.mp h
    have := putCode_dev h1
    split at h <;> cases h <;> exact NoSend.of_eq (by rw [← this])

theorem deactivateKey_ns {cfg : Config} {s s' : State} {c} (h : deactivateKey cfg s c = .ok s') :
    NS s s' := by
  unfold deactivateKey at h
  split at h
  · exact deactivateAction_ns h
  · split at h <;> cases h <;> exact NoSend.refl _

theorem pressOrRelease_ns {cfg : Config} {s s' : State} {r c p}
    (h : pressOrRelease cfg s r c p = .ok s') : NS s s' := by
  unfold pressOrRelease at h
  obtain ⟨_, _, h⟩ := bind_eq_ok.mp h
  obtain ⟨_, _, h⟩ := bind_eq_ok.mp h
  dsimp only at h
  split at h
  · obtain ⟨_, _, h⟩ := bind_eq_ok.mp h
    obtain ⟨_, _, h⟩ := bind_eq_ok.mp h
    obtain ⟨_, _, h⟩ := bind_eq_ok.mp h
    split at h
    · obtain ⟨_, _, h⟩ := bind_eq_ok.mp h
      obtain ⟨_, _, h⟩ := bind_eq_ok.mp h
      have := activateKey_ns h
      exact this
    · obtain ⟨_, _, h⟩ := bind_eq_ok.mp h
      obtain ⟨_, _, h⟩ := bind_eq_ok.mp h
      have := deactivateKey_ns h
      exact this
  · obtain ⟨_, _, h⟩ := bind_eq_ok.mp h
    obtain ⟨_, _, h⟩ := bind_eq_ok.mp h
    cases h; exact NoSend.refl _

theorem heldPressed_ns {cfg : Config} {s s' : State} {r c}
    (h : heldPressed cfg s r c = .ok s') : NS s s' := by
  unfold heldPressed at h
  obtain ⟨_, _, h⟩ := bind_eq_ok.mp h
  split at h
  · dsimp only at h
    split at h
    · have := activateKey_ns h
      exact this
    · cases h; exact NoSend.refl _
  · cases h; exact NoSend.refl _

theorem scanCols_ns {cfg : Config} {row : Nat} (fuel : Nat) :
    ∀ {col ch keys} {s s' : State}, scanCols cfg row fuel col ch keys s = .ok s' → NS s s' := by
  induction fuel with
  | zero => intro col ch keys s s' h; cases h
  | succ n ih =>
    intro col ch keys s s' h
    unfold scanCols at h
    obtain ⟨m, _, h⟩ := bind_eq_ok.mp h
    by_cases hc : col < m.toNat
    · rw [if_pos hc] at h
      dsimp only at h
      split at h
      · obtain ⟨s1, h1, h⟩ := bind_eq_ok.mp h
        exact (pressOrRelease_ns h1).trans (ih h)
      · split at h
        · obtain ⟨s1, h1, h⟩ := bind_eq_ok.mp h
          exact (heldPressed_ns h1).trans (ih h)
        · exact ih h
    · rw [if_neg hc] at h
      cases h; exact NoSend.refl _

theorem scanRows_ns {cfg : Config} {rdr : HookFn} {inp : Input} (fuel : Nat) :
    ∀ {row} {s s' : State}, scanRows cfg rdr inp fuel row s = .ok s' → NS s s' := by
  induction fuel with
  | zero => intro row s s' h; cases h
  | succ n ih =>
    intro row s s' h
    unfold scanRows at h
    obtain ⟨m, _, h⟩ := bind_eq_ok.mp h
    split at h
    · obtain ⟨_, _, h⟩ := bind_eq_ok.mp h
      obtain ⟨_, _, h⟩ := bind_eq_ok.mp h
      obtain ⟨s1, h1, h⟩ := bind_eq_ok.mp h
      exact (scanCols_ns _ h1).trans (ih h)
    · cases h; exact NoSend.refl _

/-- A scan, from any state, sends nothing. -/
theorem keyscan_ns {cfg : Config} {inp : Input} {s s' : State} (h : keyscan cfg inp s = .ok s') :
    NS s s' := by
  unfold keyscan at h
  obtain ⟨_, _, h⟩ := bind_eq_ok.mp h
  obtain ⟨s1, h1, h⟩ := bind_eq_ok.mp h
  exact (hookExecute_ns h1).trans (scanRows_ns _ h)

end Asdf
