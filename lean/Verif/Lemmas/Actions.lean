import Verif.Lemmas.Typing
import Verif.Spec.Tables

/-! # What one key does to the modifiers, the keymap number and the repeat mode -/

namespace Asdf

open Spec

/-! ## Setup statements and keymap selection -/

theorem setShiftState_parts {s s' : State} {n : UInt8} (h : setShiftState s n = .ok s') :
    s'.mods = { s.mods with shift := n } ∧ s'.curIdx = s.curIdx ∧ s'.rep = s.rep := by
  unfold setShiftState at h
  obtain ⟨d, _, h2⟩ := bind_eq_ok.mp h
  cases h2
  exact ⟨rfl, rfl, rfl⟩

theorem setCapsState_parts {s s' : State} {n : UInt8} (h : setCapsState s n = .ok s') :
    s'.mods = { s.mods with caps := n } ∧ s'.curIdx = s.curIdx ∧ s'.rep = s.rep := by
  unfold setCapsState at h
  obtain ⟨d, _, h2⟩ := bind_eq_ok.mp h
  cases h2
  exact ⟨rfl, rfl, rfl⟩

theorem select_parts {cfg : Config} {s s' : State} {i : UInt8} (hm : s.maps.length = 4)
    (h : keymapsSelect cfg s i = .ok s') :
    s'.mods.shift = s.mods.shift ∧ s'.mods.ctrl = s.mods.ctrl ∧ s'.rep = s.rep ∧
      s'.curIdx = if cfg.valid i = true then i else s.curIdx := by
  unfold keymapsSelect at h
  by_cases he : i ≠ s.curIdx
  · rw [if_pos he] at h
    by_cases hv : cfg.valid i = true
    · obtain ⟨d', f', h1, _⟩ := keymapsSwitch_ok (cfg := cfg) (s := s) hv hm
      rw [h1] at h
      cases h
      exact ⟨rfl, rfl, rfl, (if_pos hv).symm⟩
    · rw [keymapsSwitch_invalid hv] at h
      cases h
      exact ⟨rfl, rfl, rfl, (if_neg hv).symm⟩
  · rw [if_neg he] at h
    cases h
    have : i = s.curIdx := by simpa using he
    refine ⟨rfl, rfl, rfl, ?_⟩
    split
    · exact this.symm
    · rfl

theorem putMsg_parts {s s' : State} {c} (h : putMsg s c = .ok s') :
    s'.mods = s.mods ∧ s'.curIdx = s.curIdx ∧ s'.rep = s.rep := by
  unfold putMsg at h
  obtain ⟨x, _, h2⟩ := bind_eq_ok.mp h
  cases h2
  exact ⟨rfl, rfl, rfl⟩

theorem putc_parts {s s' : State} {c} (h : putc s c = .ok s') :
    s'.mods = s.mods ∧ s'.curIdx = s.curIdx ∧ s'.rep = s.rep := by
  unfold putc at h
  dsimp only at h
  split at h
  · obtain ⟨s1, h1, h2⟩ := bind_eq_ok.mp h
    obtain ⟨a1, a2, a3⟩ := putMsg_parts h1
    obtain ⟨b1, b2, b3⟩ := putMsg_parts h2
    exact ⟨b1.trans a1, b2.trans a2, b3.trans a3⟩
  · exact putMsg_parts h

theorem print_parts (text : List Code) {s s' : State} (h : print s text = .ok s') :
    s'.mods = s.mods ∧ s'.curIdx = s.curIdx ∧ s'.rep = s.rep := by
  unfold print at h
  induction text generalizing s with
  | nil => cases h; exact ⟨rfl, rfl, rfl⟩
  | cons c text ih =>
    rw [List.foldlM_cons] at h
    obtain ⟨s1, h1, h2⟩ := bind_eq_ok.mp h
    obtain ⟨a1, a2, a3⟩ := putc_parts h1
    obtain ⟨b1, b2, b3⟩ := ih h2
    exact ⟨b1.trans a1, b2.trans a2, b3.trans a3⟩

theorem hookExecute_parts {s s' : State} {i} (h : hookExecute s i = .ok s') :
    s'.mods = s.mods ∧ s'.curIdx = s.curIdx ∧ s'.rep = s.rep := by
  unfold hookExecute at h
  split at h
  · obtain ⟨f, _, h2⟩ := bind_eq_ok.mp h
    cases f with
    | null => cases h2; exact ⟨rfl, rfl, rfl⟩
    | print text => exact print_parts text h2
    | nullPtr => cases h2
    | archReadRow => cases h2
    | archSendCode => cases h2
    | keyscan => cases h2
  · cases h; exact ⟨rfl, rfl, rfl⟩

/-! ## Actions -/

/-- The CTRL state after an action key was pressed. -/
def ctrlPress (x : UInt8) : Action → UInt8
  | .ctrl => 1
  | _ => x

/-- The shift state after an action key was pressed. -/
def shiftPress (x : UInt8) : Action → UInt8
  | .shift => 1
  | .shiftlockOn => x ||| 2
  | .shiftlockToggle => x ^^^ 2
  | _ => x

/-- The repeat timer after an action key was pressed. -/
def repPress (x : RepState) : Action → RepState
  | .repeat => repActivate x
  | .autorepeatSelect => repAutoOn x
  | _ => x

/-- The keymap number after an action key was pressed. -/
def idxPress (cfg : Config) (i : UInt8) : Action → UInt8
  | .mapsel b => if cfg.valid (i ||| b) = true then i ||| b else i
  | _ => i

theorem activateAction_parts {cfg : Config} {s s' : State} {act : Action} (hm : s.maps.length = 4)
    (h : activateAction cfg s act = .ok s') :
    s'.mods.ctrl = ctrlPress s.mods.ctrl act ∧ s'.mods.shift = shiftPress s.mods.shift act ∧
      s'.rep = repPress s.rep act ∧ s'.curIdx = idxPress cfg s.curIdx act := by
  cases act with
  | shift =>
    obtain ⟨h1, h2, h3⟩ := setShiftState_parts (show setShiftState s 1 = .ok s' from h)
    rw [h1]; exact ⟨rfl, rfl, h3, h2⟩
  | shiftlockOn =>
    obtain ⟨h1, h2, h3⟩ := setShiftState_parts (show setShiftState s (s.mods.shift ||| 2) = .ok s' from h)
    rw [h1]; exact ⟨rfl, rfl, h3, h2⟩
  | shiftlockToggle =>
    obtain ⟨h1, h2, h3⟩ := setShiftState_parts (show setShiftState s (s.mods.shift ^^^ 2) = .ok s' from h)
    rw [h1]; exact ⟨rfl, rfl, h3, h2⟩
  | caps =>
    obtain ⟨h1, h2, h3⟩ := setCapsState_parts (show setCapsState s (s.mods.caps ^^^ 1) = .ok s' from h)
    rw [h1]; exact ⟨rfl, rfl, h3, h2⟩
  | ctrl => cases h; exact ⟨rfl, rfl, rfl, rfl⟩
  | «repeat» => cases h; exact ⟨rfl, rfl, rfl, rfl⟩
  | autorepeatSelect => cases h; exact ⟨rfl, rfl, rfl, rfl⟩
  | strobeSelect => cases h; exact ⟨rfl, rfl, rfl, rfl⟩
  | mapsel b =>
    obtain ⟨h1, h2, h3, h4⟩ := select_parts hm (show keymapsSelect cfg s (s.curIdx ||| b) = .ok s' from h)
    exact ⟨h2, h1, h3, h4⟩
  | virt v =>
    obtain ⟨d, _, h2⟩ := bind_eq_ok.mp (show (virtActivate s.dev v >>= fun d =>
      (.ok { s with dev := d } : Res State)) = .ok s' from h)
    cases h2; exact ⟨rfl, rfl, rfl, rfl⟩
  | nothing =>
    obtain ⟨h1, h2, h3⟩ := hookExecute_parts h
    rw [h1]; exact ⟨rfl, rfl, h3, h2⟩
  | hereIs =>
    obtain ⟨h1, h2, h3⟩ := hookExecute_parts h
    rw [h1]; exact ⟨rfl, rfl, h3, h2⟩
  | fn n =>
    have h : (if 1 ≤ n ∧ n ≤ 10 then hookExecute s (HOOK_USER_1 + (n - 1)) else .ok s) = .ok s' := h
    split at h
    · obtain ⟨h1, h2, h3⟩ := hookExecute_parts h
      rw [h1]; exact ⟨rfl, rfl, h3, h2⟩
    · cases h; exact ⟨rfl, rfl, rfl, rfl⟩
  | other => cases h; exact ⟨rfl, rfl, rfl, rfl⟩

/-- The CTRL state after an action key was released. -/
def ctrlRelease (x : UInt8) : Action → UInt8
  | .ctrl => 0
  | _ => x

/-- The shift state after an action key was released. -/
def shiftRelease (x : UInt8) : Action → UInt8
  | .shift => 0
  | _ => x

/-- The repeat timer after an action key was released. -/
def repRelease (x : RepState) : Action → RepState
  | .repeat => repDeactivate x
  | .autorepeatSelect => repAutoOff x
  | _ => x

/-- The keymap number after an action key was released. -/
def idxRelease (cfg : Config) (i : UInt8) : Action → UInt8
  | .mapsel b => if cfg.valid (i &&& ~~~b) = true then i &&& ~~~b else i
  | _ => i

theorem deactivateAction_parts {cfg : Config} {s s' : State} {act : Action} (hm : s.maps.length = 4)
    (h : deactivateAction cfg s act = .ok s') :
    s'.mods.ctrl = ctrlRelease s.mods.ctrl act ∧ s'.mods.shift = shiftRelease s.mods.shift act ∧
      s'.rep = repRelease s.rep act ∧ s'.curIdx = idxRelease cfg s.curIdx act := by
  cases act with
  | shift =>
    obtain ⟨h1, h2, h3⟩ := setShiftState_parts (show setShiftState s 0 = .ok s' from h)
    rw [h1]; exact ⟨rfl, rfl, h3, h2⟩
  | mapsel b =>
    obtain ⟨h1, h2, h3, h4⟩ :=
      select_parts hm (show keymapsSelect cfg s (s.curIdx &&& ~~~b) = .ok s' from h)
    exact ⟨h2, h1, h3, h4⟩
  | _ => cases h; exact ⟨rfl, rfl, rfl, rfl⟩

/-! ## One key -/

/-- What one sample of a key does, apart from the streams and the debounce
counts. -/
inductive KeyCase (cfg : Config) (L : Layout) (p : Bool) (s : State) (r c : Nat) (s' : State) : Prop
  /-- no event, or an event of a code key -/
  | plain (mods : s'.mods = s.mods) (idx : s'.curIdx = s.curIdx) (dev : s'.dev = s.dev)
      (rep : s'.rep.state = s.rep.state ∧ s'.rep.base = s.rep.base)
      (acc : (∀ r' c', c' < 8 → accepted s' r' c' = accepted s r' c') ∨
        (codeOf s L.cols r c).toNat ≤ 0xA0)
  /-- an accepted press of an action key -/
  | press (hp : p = true) (hacc : accepted s r c = false) (gt : 0xA0 < (codeOf s L.cols r c).toNat)
      (act : activateAction cfg (flipCell s r c true) (decodeAction (codeOf s L.cols r c)) = .ok s')
  /-- an accepted release of an action key -/
  | release (hp : p = false) (hacc : accepted s r c = true)
      (gt : 0xA0 < (codeOf s L.cols r c).toNat)
      (act : deactivateAction cfg (flipCell s r c false) (decodeAction (codeOf s L.cols r c)) = .ok s')

theorem repTick_keeps (x : RepState) : (repTick x).2.state = x.state ∧ (repTick x).2.base = x.base := by
  have h := (repTick_spec x).2.1
  rw [h]
  exact ⟨rfl, rfl⟩

theorem keyStep_cases {cfg : Config} {L : Layout} (hcf : CfgFacts cfg L) {s s' : State}
    {ks ms : List Code} {a : Outputs} {free : List Nat} (h : WF cfg L s ks ms a free) {r c : Nat}
    (hr : r < L.rows) (hc : c < L.cols) {p : Bool} (hp : p = true → L.blocked r c = false)
    (hk : keyStep cfg p s r c = .ok s') : KeyCase cfg L p s r c s' := by
  have hr16 : r < 16 := Nat.lt_of_lt_of_le hr hcf.rows16
  have hc8 : c < 8 := Nat.lt_of_lt_of_le hc hcf.cols8
  unfold keyStep at hk
  by_cases hne : p ≠ accepted s r c
  · rw [if_pos hne] at hk
    by_cases h1 : counter s r c = 1
    · have hfl := h.flip hcf hr hc hp
      obtain ⟨hlook, _⟩ := lookup_ok hcf hfl.idx hfl.maps hr hc
      rw [pressOrRelease_accept h hr16 hc8 p h1, hlook, ok_bind, codeOf_flip] at hk
      by_cases hx : (codeOf s L.cols r c).toNat ≤ 0xA0
      · cases p with
        | true =>
          obtain ⟨b', e1, _⟩ := activateKey_code (cfg := cfg) hfl hx
          rw [if_pos rfl, e1] at hk
          cases hk
          refine .plain rfl rfl rfl ?_ (.inr hx)
          dsimp only
          split <;> exact ⟨rfl, rfl⟩
        | false =>
          rw [if_neg (by decide), deactivateKey_code hx] at hk
          cases hk
          exact .plain rfl rfl rfl ⟨rfl, rfl⟩ (.inr hx)
      · have hgt : codeOf s L.cols r c > INVALID_CODE := by rw [gt_invalid]; omega
        cases p with
        | true =>
          rw [if_pos rfl] at hk
          unfold activateKey at hk
          rw [if_pos hgt] at hk
          exact .press rfl (by cases hq : accepted s r c with
            | true => rw [hq] at hne; exact absurd rfl hne
            | false => rfl) (by omega) hk
        | false =>
          rw [if_neg (by decide)] at hk
          unfold deactivateKey at hk
          rw [if_pos hgt] at hk
          exact .release rfl (by cases hq : accepted s r c with
            | false => rw [hq] at hne; exact absurd rfl hne
            | true => rfl) (by omega) hk
    · obtain ⟨y, _, _, _, e⟩ := pressOrRelease_count (cfg := cfg) h hr16 hc8 p h1
      rw [e] at hk
      cases hk
      exact .plain rfl rfl rfl ⟨rfl, rfl⟩ (.inl fun _ _ _ => rfl)
  · rw [if_neg hne] at hk
    cases p with
    | false => cases hk; exact .plain rfl rfl rfl ⟨rfl, rfl⟩ (.inl fun _ _ _ => rfl)
    | true =>
      rw [if_pos rfl] at hk
      by_cases hl : codeOf s L.cols r c = s.lastKey
      · by_cases hf : (repTick s.rep).1 = true
        · obtain ⟨b', e1, _⟩ := heldPressed_fire hcf h hr hc hl hf
          rw [e1] at hk
          cases hk
          exact .plain rfl rfl rfl (repTick_keeps _) (.inl fun _ _ _ => rfl)
        · rw [heldPressed_wait hcf h hr hc hl (by simpa using hf)] at hk
          cases hk
          exact .plain rfl rfl rfl (repTick_keeps _) (.inl fun _ _ _ => rfl)
      · rw [heldPressed_other hcf h hr hc hl] at hk
        cases hk
        exact .plain rfl rfl rfl ⟨rfl, rfl⟩ (.inl fun _ _ _ => rfl)

/-- The output part of a pass changes only the buffers and the trace. -/
theorem outputPhase_parts {cfg : Config} {L : Layout} (hcf : CfgFacts cfg L) {s s' : State}
    {ks ms : List Code} {a : Outputs} {free : List Nat} (h : WF cfg L s ks ms a free)
    (ho : outputPhase s = .ok s') :
    s'.mods = s.mods ∧ s'.curIdx = s.curIdx ∧ s'.rep = s.rep ∧
      ∀ r c, accepted s' r c = accepted s r c := by
  obtain ⟨b', e1, _⟩ := outputPhase_ok hcf h
  rw [e1] at ho
  cases ho
  exact ⟨rfl, rfl, rfl, fun _ _ => rfl⟩

/-- Accepted states after one key. -/
theorem keyStep_accepted {cfg : Config} {L : Layout} (hcf : CfgFacts cfg L) {s s' : State}
    {ks ms : List Code} {a : Outputs} {free : List Nat} (h : WF cfg L s ks ms a free) {r c : Nat}
    (hr : r < L.rows) (hc : c < L.cols) {p : Bool} (hp : p = true → L.blocked r c = false)
    (hk : keyStep cfg p s r c = .ok s') (r' c' : Nat) (hc' : c' < 8) (hn : ¬ (r' = r ∧ c' = c)) :
    accepted s' r' c' = accepted s r' c' := by
  obtain ⟨s2, _, _, _, e1, _, _, e4⟩ := keyStep_ok hcf h hr hc hp
  rw [hk] at e1
  cases e1
  have := e4 r' c' hc'
  rw [if_neg hn] at this
  exact congrArg Deb.on this

theorem activateAction_kept {cfg : Config} {L : Layout} (hcf : CfgFacts cfg L) {s s' : State}
    {ks ms a free} (h : WF cfg L s ks ms a free) {act : Action} (ha : actionOk cfg L act)
    (hk : activateAction cfg s act = .ok s') : Kept s s' := by
  obtain ⟨s2, _, _, _, e1, _, e3, _⟩ := activateAction_ok hcf h ha
  rw [hk] at e1
  cases e1
  exact e3

/-! ## Where actions are placed -/

theorem codeOf_mem {cfg : Config} {L : Layout} (hcf : CfgFacts cfg L) {s : State}
    {ks ms : List Code} {a : Outputs} {free : List Nat} (h : WF cfg L s ks ms a free) (r c : Nat) :
    ∃ t ∈ tablesOf cfg s.curIdx, codeOf s L.cols r c = entryAt t L.cols r c := by
  obtain ⟨e, h1, h2⟩ := maps_entry hcf h.idx h.maps (tableFor_lt (s.mods.shift != 0)
    (s.mods.caps != 0) (s.mods.ctrl != 0))
  refine ⟨e.matrix.getD [], ?_, ?_⟩
  · unfold tablesOf
    rw [← h.maps]
    exact List.mem_map.mpr ⟨e, List.mem_of_getElem? h1, rfl⟩
  · unfold codeOf activeTable
    rw [h1]

theorem placed_iff {cfg : Config} {L : Layout} {act : Action} {P : List (Nat × Nat)}
    (hP : placed cfg L act P = true) (hcf : CfgFacts cfg L) {s : State}
    {ks ms : List Code} {a : Outputs} {free : List Nat} (h : WF cfg L s ks ms a free) {r c : Nat}
    (hr : r < L.rows) (hc : c < L.cols) :
    decodeAction (codeOf s L.cols r c) = act ↔ (r, c) ∈ P := by
  obtain ⟨t, h1, h2⟩ := codeOf_mem hcf h r c
  rw [h2]
  simp only [placed, List.all_eq_true, List.mem_range, beq_iff_eq] at hP
  have := hP s.curIdx h.idx t h1 r hr c hc
  rw [← List.contains_iff_mem, ← this, decide_eq_true_eq]

theorem decode_le {c : Code} (h : c.toNat ≤ 0xA0) :
    decodeAction c = .nothing ∨ decodeAction c = .other := by
  have : ∀ n, n ≤ 0xA0 → decodeAction (UInt8.ofNat n) = .nothing ∨
      decodeAction (UInt8.ofNat n) = .other := by
    intro n hn
    have : ∀ n, n < 0xA1 → decodeAction (UInt8.ofNat n) = .nothing ∨
      decodeAction (UInt8.ofNat n) = .other := by decide +kernel
    exact this n (by omega)
  have := this c.toNat h
  rwa [UInt8.ofNat_toNat] at this

/-- After an accepted press or release of an action key, the accepted states are
as the flip says. -/
theorem press_accepted {cfg : Config} {L : Layout} (hcf : CfgFacts cfg L) {s s' : State}
    {ks ms : List Code} {a : Outputs} {free : List Nat} (h : WF cfg L s ks ms a free) {r c : Nat}
    (hr : r < L.rows) (hc : c < L.cols) (hp : L.blocked r c = false)
    (hk : activateAction cfg (flipCell s r c true) (decodeAction (codeOf s L.cols r c)) = .ok s') :
    accepted s' r c = true := by
  have hfl := h.flip hcf hr hc (p := true) (fun _ => hp)
  have hms : mapselOk cfg L (codeOf s L.cols r c) = true := by
    rcases (lookup_ok hcf h.idx h.maps hr hc).2 with hb | hb
    · rw [hp] at hb; cases hb
    · exact hb
  rw [(activateAction_kept hcf hfl (actionOk_of hms) hk).acc r c,
    accepted_flip (by rw [h.stableLen]; exact Nat.lt_of_lt_of_le hr hcf.rows16)
      (Nat.lt_of_lt_of_le hc hcf.cols8) true r c (Nat.lt_of_lt_of_le hc hcf.cols8),
    if_pos ⟨rfl, rfl⟩]

theorem release_accepted {cfg : Config} {L : Layout} (hcf : CfgFacts cfg L) {s s' : State}
    {ks ms : List Code} {a : Outputs} {free : List Nat} (h : WF cfg L s ks ms a free) {r c : Nat}
    (hr : r < L.rows) (hc : c < L.cols) (hacc : accepted s r c = true)
    (hk : deactivateAction cfg (flipCell s r c false) (decodeAction (codeOf s L.cols r c)) = .ok s') :
    accepted s' r c = false := by
  have hfl := h.flip hcf hr hc (p := false) (by intro hx; cases hx)
  have hms : mapselOk cfg L (codeOf s L.cols r c) = true := by
    rcases (lookup_ok hcf h.idx h.maps hr hc).2 with hb | hb
    · rw [h.blocked r c hr hc hb] at hacc; cases hacc
    · exact hb
  obtain ⟨s2, _, _, e1, _, e3, _⟩ := deactivateAction_ok hcf hfl (actionOk_of hms)
  rw [hk] at e1
  cases e1
  rw [e3.acc r c,
    accepted_flip (by rw [h.stableLen]; exact Nat.lt_of_lt_of_le hr hcf.rows16)
      (Nat.lt_of_lt_of_le hc hcf.cols8) false r c (Nat.lt_of_lt_of_le hc hcf.cols8),
    if_pos ⟨rfl, rfl⟩]

/-- An effect `on` that only the action `act` can start, and that every release of
`act` ends, is only on while a key with that action is held, if these keys are
at the same positions in all tables. -/
theorem Spec.History.effect {cfg : Config} {L : Layout} (hcf : CfgFacts cfg L) {act : Action}
    (hact : act ≠ .nothing ∧ act ≠ .other) {P : List (Nat × Nat)}
    (hP : placed cfg L act P = true) (on : State → Prop)
    (hboot : ∀ s, Asdf.boot cfg = .ok s → ¬ on s)
    (hframe : ∀ s s', s'.mods = s.mods → s'.rep.state = s.rep.state → on s' → on s)
    (hpress : ∀ s s' a, s.maps.length = 4 → RepInv s.rep → a ≠ act →
      activateAction cfg s a = .ok s' → on s' → on s)
    (hrel : ∀ s s' a, s.maps.length = 4 → RepInv s.rep → a ≠ act →
      deactivateAction cfg s a = .ok s' → on s' → on s)
    (hend : ∀ s s', s.maps.length = 4 → RepInv s.rep →
      deactivateAction cfg s act = .ok s' → ¬ on s')
    {s : State} {log : List KeyEv} (h : History cfg L s log) (hon : on s) :
    ∃ k ∈ P, k.1 < L.rows ∧ k.2 < L.cols ∧ accepted s k.1 k.2 = true := by
  induction h with
  | boot hb => exact absurd hon (hboot _ hb)
  | output hs ho ih =>
    obtain ⟨⟨ks, ms, a, free, hw⟩, _⟩ := hs.inv hcf
    obtain ⟨h1, _, h3, h4⟩ := outputPhase_parts hcf hw ho
    obtain ⟨k, k1, k2, k3, k4⟩ := ih (hframe _ _ h1 (by rw [h3]) hon)
    exact ⟨k, k1, k2, k3, by rw [h4]; exact k4⟩
  | @key s s' log hs r c p hr hc hp hk ih =>
    obtain ⟨⟨ks, ms, a, free, hw⟩, _⟩ := hs.inv hcf
    have hml : s.maps.length = 4 := by rw [hw.maps]; exact mapsOf_length _
    have hother : ∀ k ∈ P, k.1 < L.rows ∧ k.2 < L.cols ∧ accepted s k.1 k.2 = true →
        ¬ (k.1 = r ∧ k.2 = c) → accepted s' k.1 k.2 = true := by
      intro k _ hkk hn
      rw [keyStep_accepted hcf hw hr hc hp hk k.1 k.2 (Nat.lt_of_lt_of_le hkk.2.1 hcf.cols8) hn]
      exact hkk.2.2
    have hout : decodeAction (codeOf s L.cols r c) ≠ act → on s →
        ∃ k ∈ P, k.1 < L.rows ∧ k.2 < L.cols ∧ accepted s' k.1 k.2 = true := by
      intro hd hson
      obtain ⟨k, k1, k2⟩ := ih hson
      refine ⟨k, k1, k2.1, k2.2.1, hother k k1 k2 ?_⟩
      rintro ⟨e1, e2⟩
      apply hd
      rw [placed_iff hP hcf hw hr hc, ← e1, ← e2]
      exact k1
    rcases keyStep_cases hcf hw hr hc hp hk with ⟨m, _, _, rp, acc⟩ | ⟨hpt, _, _, ha⟩ | ⟨_, _, _, ha⟩
    · have hson := hframe _ _ m rp.1 hon
      rcases acc with acc | acc
      · obtain ⟨k, k1, k2, k3, k4⟩ := ih hson
        exact ⟨k, k1, k2, k3, by rw [acc k.1 k.2 (Nat.lt_of_lt_of_le k3 hcf.cols8)]; exact k4⟩
      · refine hout ?_ hson
        intro hc'
        rcases decode_le acc with e | e <;> rw [e] at hc'
        · exact hact.1 hc'.symm
        · exact hact.2 hc'.symm
    · by_cases hd : decodeAction (codeOf s L.cols r c) = act
      · exact ⟨(r, c), (placed_iff hP hcf hw hr hc).mp hd, hr, hc,
          press_accepted hcf hw hr hc (hp hpt) ha⟩
      · exact hout hd (hframe s (flipCell s r c true) rfl rfl
          (hpress (flipCell s r c true) s' _ hml hw.rep hd ha hon))
    · by_cases hd : decodeAction (codeOf s L.cols r c) = act
      · rw [hd] at ha
        exact absurd hon (hend (flipCell s r c false) s' hml hw.rep ha)
      · exact hout hd (hframe s (flipCell s r c false) rfl rfl
          (hrel (flipCell s r c false) s' _ hml hw.rep hd ha hon))

/-- An effect that pressing `act` starts, and that nothing but a release of `act`
ends, is on while the only key with that action is held. -/
theorem Spec.History.effect_on {cfg : Config} {L : Layout} (hcf : CfgFacts cfg L) {act : Action}
    {k : Nat × Nat} (hk8 : k.1 < 16 ∧ k.2 < 8) (hP : placed cfg L act [k] = true)
    (on : State → Prop)
    (hframe : ∀ s s', s'.mods = s.mods → s'.rep.state = s.rep.state → on s → on s')
    (hpress : ∀ s s' a, s.maps.length = 4 → a ≠ act →
      activateAction cfg s a = .ok s' → on s → on s')
    (hrel : ∀ s s' a, s.maps.length = 4 → a ≠ act →
      deactivateAction cfg s a = .ok s' → on s → on s')
    (hstart : ∀ s s', s.maps.length = 4 → activateAction cfg s act = .ok s' → on s')
    (hnc : act ≠ .nothing ∧ act ≠ .other)
    {s : State} {log : List KeyEv} (h : History cfg L s log) (hacc : accepted s k.1 k.2 = true) :
    on s := by
  induction h with
  | boot hb =>
    obtain ⟨s0, _, _, e1, _, e3⟩ := boot_inv hcf
    rw [e1] at hb
    cases hb
    have : accepted _ k.1 k.2 = false := congrArg Deb.on (e3 k.1 k.2 hk8.1 hk8.2)
    rw [hacc] at this
    cases this
  | output hs ho ih =>
    obtain ⟨⟨ks, ms, a, free, hw⟩, _⟩ := hs.inv hcf
    obtain ⟨h1, _, h3, h4⟩ := outputPhase_parts hcf hw ho
    exact hframe _ _ h1 (by rw [h3]) (ih (by rw [← h4]; exact hacc))
  | @key s s' log hs r c p hr hc hp hk ih =>
    obtain ⟨⟨ks, ms, a, free, hw⟩, _⟩ := hs.inv hcf
    have hml : s.maps.length = 4 := by rw [hw.maps]; exact mapsOf_length _
    have hsame : decodeAction (codeOf s L.cols r c) ≠ act → accepted s k.1 k.2 = true := by
      intro hd
      rw [← keyStep_accepted hcf hw hr hc hp hk k.1 k.2 hk8.2]
      · exact hacc
      · rintro ⟨e1, e2⟩
        apply hd
        rw [placed_iff hP hcf hw hr hc, List.mem_singleton, ← e1, ← e2]
    rcases keyStep_cases hcf hw hr hc hp hk with ⟨m, _, _, rp, acc⟩ | ⟨hpt, _, _, ha⟩ | ⟨hpf, hac, hgt, ha⟩
    · refine hframe _ _ m rp.1 (ih ?_)
      rcases acc with acc | acc
      · rw [← acc k.1 k.2 hk8.2]; exact hacc
      · refine hsame ?_
        intro hc'
        rcases decode_le acc with e | e <;> rw [e] at hc'
        · exact hnc.1 hc'.symm
        · exact hnc.2 hc'.symm
    · by_cases hd : decodeAction (codeOf s L.cols r c) = act
      · rw [hd] at ha
        exact hstart (flipCell s r c true) s' hml ha
      · exact hpress (flipCell s r c true) s' _ hml hd ha (hframe s _ rfl rfl (ih (hsame hd)))
    · by_cases hd : decodeAction (codeOf s L.cols r c) = act
      · have hin := (placed_iff hP hcf hw hr hc).mp hd
        rw [List.mem_singleton] at hin
        have hff := release_accepted hcf hw hr hc hac ha
        rw [← hin] at hacc
        rw [hff] at hacc
        cases hacc
      · exact hrel (flipCell s r c false) s' _ hml hd ha (hframe s _ rfl rfl (ih (hsame hd)))

end Asdf
