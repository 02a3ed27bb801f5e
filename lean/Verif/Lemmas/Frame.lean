import Verif.Lemmas.Trace
import Verif.Model.Main

/-! # Properties that every step of the firmware keeps

`Stable cfg P` collects what has to be checked for the steps that change devices,
modifiers or the keymap; then `P` holds after every run. -/

namespace Asdf

structure Stable (cfg : Config) (P : State → Prop) : Prop where
  frame : ∀ s s' : State, s'.dev = s.dev → s'.mods = s.mods → s'.curIdx = s.curIdx →
    s'.maps = s.maps → s'.hooks = s.hooks → P s → P s'
  shift : ∀ s s' n, setShiftState s n = .ok s' → P s → P s'
  caps : ∀ s s' n, setCapsState s n = .ok s' → P s → P s'
  ctrl : ∀ s x, P s → P { s with mods := { s.mods with ctrl := x } }
  virt : ∀ s d code v, decodeAction code = .virt v → virtActivate s.dev v = .ok d → P s →
    P { s with dev := d }
  emit : ∀ s e, (∀ p x, e ≠ .out p x) → e ≠ .archInit → P s → P (s.emit e)
  switch : ∀ s s' i, keymapsSwitch cfg s i = .ok s' → P s → P s'

namespace Stable

variable {cfg : Config} {P : State → Prop}

theorem same (hP : Stable cfg P) {s s' : State} (hs : P s) (h1 : s'.dev = s.dev)
    (h2 : s'.mods = s.mods) (h3 : s'.curIdx = s.curIdx) (h4 : s'.maps = s.maps)
    (h5 : s'.hooks = s.hooks) : P s' := hP.frame s s' h1 h2 h3 h4 h5 hs

theorem putMsg (hP : Stable cfg P) {s s' : State} {c} (h : putMsg s c = .ok s') (hs : P s) : P s' := by
  unfold Asdf.putMsg at h
  obtain ⟨x, _, h2⟩ := bind_eq_ok.mp h
  cases h2
  exact hP.same hs rfl rfl rfl rfl rfl

theorem putCode (hP : Stable cfg P) {s s' : State} {c} (h : putCode s c = .ok s') (hs : P s) :
    P s' := by
  unfold Asdf.putCode at h
  obtain ⟨x, _, h2⟩ := bind_eq_ok.mp h
  cases h2
  exact hP.same hs rfl rfl rfl rfl rfl

theorem putc (hP : Stable cfg P) {s s' : State} {c} (h : putc s c = .ok s') (hs : P s) : P s' := by
  unfold Asdf.putc at h
  dsimp only at h
  split at h
  · obtain ⟨s1, h1, h2⟩ := bind_eq_ok.mp h
    exact hP.putMsg h2 (hP.putMsg h1 hs)
  · exact hP.putMsg h hs

theorem foldlM {α : Type} {f : State → α → Res State} (hf : ∀ s s' x, f s x = .ok s' → P s → P s')
    (l : List α) {s s' : State} (h : l.foldlM f s = .ok s') (hs : P s) : P s' := by
  induction l generalizing s with
  | nil => cases h; exact hs
  | cons x l ih =>
    rw [List.foldlM_cons] at h
    obtain ⟨s1, h1, h2⟩ := bind_eq_ok.mp h
    exact ih h2 (hf _ _ _ h1 hs)

theorem hookExecute (hP : Stable cfg P) {s s' : State} {i} (h : hookExecute s i = .ok s')
    (hs : P s) : P s' := by
  unfold Asdf.hookExecute at h
  split at h
  · obtain ⟨f, _, h2⟩ := bind_eq_ok.mp h
    cases f with
    | null => cases h2; exact hs
    | print text => exact foldlM (fun _ _ _ h hs => hP.putc h hs) text h2 hs
    | nullPtr => cases h2
    | archReadRow => cases h2
    | archSendCode => cases h2
    | keyscan => cases h2
  · cases h; exact hs

theorem select (hP : Stable cfg P) {s s' : State} {i} (h : keymapsSelect cfg s i = .ok s')
    (hs : P s) : P s' := by
  unfold keymapsSelect at h
  split at h
  · exact hP.switch _ _ _ h hs
  · cases h; exact hs

theorem activate (hP : Stable cfg P) {s s' : State} {code : Code}
    (h : activateAction cfg s (decodeAction code) = .ok s') (hs : P s) : P s' := by
  generalize hd : decodeAction code = act at h
  cases act with
  | shift => exact hP.shift _ _ _ h hs
  | shiftlockOn => exact hP.shift _ _ _ h hs
  | shiftlockToggle => exact hP.shift _ _ _ h hs
  | caps => exact hP.caps _ _ _ h hs
  | ctrl => cases h; exact hP.ctrl _ _ hs
  | «repeat» => cases h; exact hP.same hs rfl rfl rfl rfl rfl
  | autorepeatSelect => cases h; exact hP.same hs rfl rfl rfl rfl rfl
  | strobeSelect => cases h; exact hP.emit _ _ (by intro p x hc; cases hc) (by decide) hs
  | mapsel b => exact hP.select h hs
  | virt v =>
    obtain ⟨d, h1, h2⟩ := bind_eq_ok.mp (show (virtActivate s.dev v >>= fun d =>
      (.ok { s with dev := d } : Res State)) = .ok s' from h)
    cases h2
    exact hP.virt _ _ _ _ hd h1 hs
  | nothing => exact hP.hookExecute h hs
  | hereIs => exact hP.hookExecute h hs
  | fn n =>
    have h : (if 1 ≤ n ∧ n ≤ 10 then Asdf.hookExecute s (HOOK_USER_1 + (n - 1)) else .ok s) = .ok s' := h
    split at h
    · exact hP.hookExecute h hs
    · cases h; exact hs
  | other => cases h; exact hs

theorem deactivate (hP : Stable cfg P) {s s' : State} {act : Action}
    (h : deactivateAction cfg s act = .ok s') (hs : P s) : P s' := by
  cases act with
  | shift => exact hP.shift _ _ _ h hs
  | ctrl => cases h; exact hP.ctrl _ _ hs
  | «repeat» => cases h; exact hP.same hs rfl rfl rfl rfl rfl
  | autorepeatSelect => cases h; exact hP.same hs rfl rfl rfl rfl rfl
  | strobeSelect => cases h; exact hP.emit _ _ (by intro p x hc; cases hc) (by decide) hs
  | mapsel b => exact hP.select h hs
  | _ => cases h; exact hs

theorem activateKey (hP : Stable cfg P) {s s' : State} {c} (h : activateKey cfg s c = .ok s')
    (hs : P s) : P s' := by
  unfold Asdf.activateKey at h
  split at h
  · exact hP.activate h hs
  · obtain ⟨s1, h1, h2⟩ := bind_eq_ok.mp h
    have := hP.putCode h1 hs
    split at h2 <;> cases h2
    · exact hP.same this rfl rfl rfl rfl rfl
    · exact this

theorem deactivateKey (hP : Stable cfg P) {s s' : State} {c} (h : deactivateKey cfg s c = .ok s')
    (hs : P s) : P s' := by
  unfold Asdf.deactivateKey at h
  split at h
  · exact hP.deactivate h hs
  · split at h <;> cases h
    · exact hP.same hs rfl rfl rfl rfl rfl
    · exact hs

theorem pressOrRelease (hP : Stable cfg P) {s s' : State} {r c p}
    (h : pressOrRelease cfg s r c p = .ok s') (hs : P s) : P s' := by
  unfold Asdf.pressOrRelease at h
  obtain ⟨rc, _, h⟩ := bind_eq_ok.mp h
  obtain ⟨x, _, h⟩ := bind_eq_ok.mp h
  dsimp only at h
  split at h
  · obtain ⟨rc', _, h⟩ := bind_eq_ok.mp h
    obtain ⟨cs, _, h⟩ := bind_eq_ok.mp h
    obtain ⟨st, _, h⟩ := bind_eq_ok.mp h
    split at h
    · obtain ⟨sb, _, h⟩ := bind_eq_ok.mp h
      obtain ⟨code, _, h⟩ := bind_eq_ok.mp h
      exact hP.activateKey h (hP.same hs rfl rfl rfl rfl rfl)
    · obtain ⟨sb, _, h⟩ := bind_eq_ok.mp h
      obtain ⟨code, _, h⟩ := bind_eq_ok.mp h
      exact hP.deactivateKey h (hP.same hs rfl rfl rfl rfl rfl)
  · obtain ⟨rc', _, h⟩ := bind_eq_ok.mp h
    obtain ⟨cs, _, h⟩ := bind_eq_ok.mp h
    cases h
    exact hP.same hs rfl rfl rfl rfl rfl

theorem heldPressed (hP : Stable cfg P) {s s' : State} {r c}
    (h : heldPressed cfg s r c = .ok s') (hs : P s) : P s' := by
  unfold Asdf.heldPressed at h
  obtain ⟨code, _, h⟩ := bind_eq_ok.mp h
  split at h
  · dsimp only at h
    split at h
    · exact hP.activateKey h (hP.same hs rfl rfl rfl rfl rfl)
    · cases h; exact hP.same hs rfl rfl rfl rfl rfl
  · cases h; exact hs

theorem scanCols (hP : Stable cfg P) {row : Nat} (fuel : Nat) :
    ∀ {col changed keys} {s s' : State}, scanCols cfg row fuel col changed keys s = .ok s' →
      P s → P s' := by
  induction fuel with
  | zero => intro _ _ _ _ _ h; cases h
  | succ fuel ih =>
    intro col changed keys s s' h hs
    unfold Asdf.scanCols at h
    obtain ⟨n, _, h⟩ := bind_eq_ok.mp h
    split at h
    · dsimp only at h
      split at h
      · obtain ⟨s1, h1, h2⟩ := bind_eq_ok.mp h
        exact ih h2 (hP.pressOrRelease h1 hs)
      · split at h
        · obtain ⟨s1, h1, h2⟩ := bind_eq_ok.mp h
          exact ih h2 (hP.heldPressed h1 hs)
        · exact ih h hs
    · cases h; exact hs

theorem scanRows (hP : Stable cfg P) {rdr : HookFn} {inp : Input} (fuel : Nat) :
    ∀ {row} {s s' : State}, scanRows cfg rdr inp fuel row s = .ok s' → P s → P s' := by
  induction fuel with
  | zero => intro _ _ _ h; cases h
  | succ fuel ih =>
    intro row s s' h hs
    unfold Asdf.scanRows at h
    obtain ⟨n, _, h⟩ := bind_eq_ok.mp h
    split at h
    · obtain ⟨keys, _, h⟩ := bind_eq_ok.mp h
      obtain ⟨st, _, h⟩ := bind_eq_ok.mp h
      obtain ⟨s1, h1, h2⟩ := bind_eq_ok.mp h
      exact ih h2 (hP.scanCols 256 h1 hs)
    · cases h; exact hs

theorem keyscan (hP : Stable cfg P) {inp : Input} {s s' : State} (h : keyscan cfg inp s = .ok s')
    (hs : P s) : P s' := by
  unfold Asdf.keyscan at h
  obtain ⟨r, _, h⟩ := bind_eq_ok.mp h
  obtain ⟨s1, h1, h2⟩ := bind_eq_ok.mp h
  exact hP.scanRows 256 h2 (hP.hookExecute h1 hs)

theorem nextCode (hP : Stable cfg P) {s s' : State} {c : Code} (h : nextCode s = .ok (c, s'))
    (hs : P s) : P s' := by
  unfold Asdf.nextCode at h
  obtain ⟨x, _, h⟩ := bind_eq_ok.mp h
  dsimp only at h
  split at h
  · obtain ⟨y, _, h⟩ := bind_eq_ok.mp h
    cases h
    exact hP.same hs rfl rfl rfl rfl rfl
  · cases h
    exact hP.emit _ _ (by intro p x hc; cases hc) (by intro hc; cases hc)
      (hP.same hs rfl rfl rfl rfl rfl)

theorem outputPhase (hP : Stable cfg P) {s s' : State} (h : outputPhase s = .ok s') (hs : P s) :
    P s' := by
  unfold Asdf.outputPhase at h
  obtain ⟨⟨c, s1⟩, h1, h⟩ := bind_eq_ok.mp h
  have hs1 := hP.nextCode h1 hs
  dsimp only at h
  split at h
  · unfold callOutput at h
    obtain ⟨f, _, h⟩ := bind_eq_ok.mp h
    split at h
    · cases h
      exact hP.emit _ _ (by intro p x hc; cases hc) (by intro hc; cases hc) hs1
    · cases h
  · cases h; exact hs1

theorem tick (hP : Stable cfg P) {inp : Input} {s s' : State} (h : tick cfg s inp = .ok s')
    (hs : P s) : P s' := by
  unfold Asdf.tick at h
  obtain ⟨s1, h1, h2⟩ := bind_eq_ok.mp h
  exact hP.keyscan h2 (hP.outputPhase h1 hs)

theorem run (hP : Stable cfg P) {inps : List Input} {s s' : State} (h : run cfg s inps = .ok s')
    (hs : P s) : P s' :=
  foldlM (fun _ _ _ h hs => hP.tick h hs) inps h hs

/-- Power-up ends after the first keymap was selected. -/
theorem boot (hP : Stable cfg P) {s : State} (h : boot cfg = .ok s)
    (h0 : ∀ s1 s2 : State, s1.dev = Dev.zero → s1.mods = State.zero.mods → s1.curIdx = 0 →
      s1.maps = State.zero.maps → s1.hooks = State.zero.hooks →
      keymapsSwitch cfg s1 0 = .ok s2 → P s2) : P s := by
  unfold Asdf.boot asdfInit at h
  obtain ⟨s1, h1, h⟩ := bind_eq_ok.mp h
  have hs1 : P s1 := by
    unfold keymapsInit at h1
    refine h0 _ s1 ?_ ?_ ?_ ?_ ?_ h1 <;> rfl
  obtain ⟨x, _, h⟩ := bind_eq_ok.mp h
  dsimp only at h
  obtain ⟨y, _, h⟩ := bind_eq_ok.mp h
  cases h
  exact hP.same hs1 rfl rfl rfl rfl rfl

end Stable

end Asdf
