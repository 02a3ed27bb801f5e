import Verif.Lemmas.Boards
import Verif.Lemmas.Actions

/-! # The strobe and autorepeat switches -/

namespace Asdf

open Spec

/-! ## What leaves the selected idle level alone -/

theorem idleLevel_snoc (t : List Event) (e : Event) :
    idleLevel (t ++ [e]) = idleStep (idleLevel t) e := by
  unfold idleLevel
  rw [List.foldl_append]
  rfl

theorem physSet_idle {d d' : Dev} {p v} (h : physSet d p v = .ok d') :
    idleLevel d'.trace = idleLevel d.trace := by
  unfold physSet at h
  obtain ⟨e, _, h⟩ := bind_eq_ok.mp h
  obtain ⟨t, _, h⟩ := bind_eq_ok.mp h
  cases h
  exact idleLevel_snoc _ _

theorem physToggle_idle {d d' : Dev} {p} (h : physToggle d p = .ok d') :
    idleLevel d'.trace = idleLevel d.trace := by
  unfold physToggle at h
  obtain ⟨e, _, h⟩ := bind_eq_ok.mp h
  exact physSet_idle h

theorem mapDevices_idle {f : Dev → Nat → Res Dev}
    (hf : ∀ d d' p, f d p = .ok d' → idleLevel d'.trace = idleLevel d.trace) (fuel : Nat) :
    ∀ {d d' : Dev} {p : Nat}, mapDevices f fuel d p = .ok d' →
      idleLevel d'.trace = idleLevel d.trace := by
  induction fuel with
  | zero => intro d d' p h; cases h
  | succ n ih =>
    intro d d' p h
    unfold mapDevices at h
    split at h
    · cases h; rfl
    · obtain ⟨d1, h1, h⟩ := bind_eq_ok.mp h
      obtain ⟨nx, _, h⟩ := bind_eq_ok.mp h
      exact (ih h).trans (hf _ _ _ h1)

theorem virtAction_idle {d d' : Dev} {v fn} (h : virtAction d v fn = .ok d') :
    idleLevel d'.trace = idleLevel d.trace := by
  have ht := fun d d' p (h : physToggle d p = .ok d') => physToggle_idle h
  unfold virtAction at h
  obtain ⟨e, _, h⟩ := bind_eq_ok.mp h
  cases fn with
  | nofunc => cases h; rfl
  | setHi => exact mapDevices_idle (fun d d' p h => physSet_idle h) _ h
  | setLo => exact mapDevices_idle (fun d d' p h => physSet_idle h) _ h
  | toggle => exact mapDevices_idle ht _ h
  | pulseShort =>
    obtain ⟨d1, h1, h⟩ := bind_eq_ok.mp h
    exact ((mapDevices_idle ht _ h).trans (idleLevel_snoc _ _)).trans (mapDevices_idle ht _ h1)
  | pulseLong =>
    obtain ⟨d1, h1, h⟩ := bind_eq_ok.mp h
    exact ((mapDevices_idle ht _ h).trans (idleLevel_snoc _ _)).trans (mapDevices_idle ht _ h1)

theorem virtActivate_idle {d d' : Dev} {v} (h : virtActivate d v = .ok d') :
    idleLevel d'.trace = idleLevel d.trace := by
  unfold virtActivate at h
  obtain ⟨e, _, h⟩ := bind_eq_ok.mp h
  exact virtAction_idle h

theorem setShiftState_idle {s s' : State} {n} (h : setShiftState s n = .ok s') :
    idleLevel s'.dev.trace = idleLevel s.dev.trace := by
  unfold setShiftState at h
  obtain ⟨d, h1, h⟩ := bind_eq_ok.mp h
  cases h
  exact virtAction_idle h1

theorem setCapsState_idle {s s' : State} {n} (h : setCapsState s n = .ok s') :
    idleLevel s'.dev.trace = idleLevel s.dev.trace := by
  unfold setCapsState at h
  obtain ⟨d, h1, h⟩ := bind_eq_ok.mp h
  cases h
  exact virtAction_idle h1

theorem runCmd_idle {s s' : State} {c : SetupCmd} (hc : c ≠ .negStrobe)
    (h : runCmd s c = .ok s') : idleLevel s'.dev.trace = idleLevel s.dev.trace := by
  cases c with
  | printDelay ms => cases h; rfl
  | addMap m i r c => rw [addMap_dev h]
  | hook id f =>
    obtain ⟨x, _, h⟩ := bind_eq_ok.mp (show (hookAssign s.hooks id f >>= fun x =>
      (.ok { s with hooks := x } : Res State)) = .ok s' from h)
    cases h; rfl
  | vassign v p fn i =>
    obtain ⟨d, h1, h⟩ := bind_eq_ok.mp (show (virtAssign s.dev v p fn i >>= fun d =>
      (.ok { s with dev := d } : Res State)) = .ok s' from h)
    cases h
    exact congrArg idleLevel (virtAssign_trace h1)
  | capsActivate => exact setCapsState_idle h
  | negStrobe => exact absurd rfl hc

theorem foldlM_idle {α : Type} {f : State → α → Res State} (l : List α)
    (hf : ∀ s s', ∀ a ∈ l, f s a = .ok s' → idleLevel s'.dev.trace = idleLevel s.dev.trace)
    {s s' : State} (h : l.foldlM f s = .ok s') : idleLevel s'.dev.trace = idleLevel s.dev.trace := by
  induction l generalizing s with
  | nil => cases h; rfl
  | cons a l ih =>
    rw [List.foldlM_cons] at h
    obtain ⟨s1, h1, h⟩ := bind_eq_ok.mp h
    exact (ih (fun s s' x hx => hf s s' x (List.mem_cons_of_mem _ hx)) h).trans
      (hf _ _ a List.mem_cons_self h1)

/-- Selecting an existing keymap whose setup does not select a polarity leaves the
strobe with positive polarity. -/
theorem keymapsSwitch_idle {cfg : Config} {s s' : State} {i : UInt8} (hv : cfg.valid i = true)
    (hn : .negStrobe ∉ cfg.setup i) (h : keymapsSwitch cfg s i = .ok s') :
    idleLevel s'.dev.trace = some false := by
  unfold keymapsSwitch at h
  rw [if_pos hv] at h
  obtain ⟨s3, h1, h2⟩ := bind_eq_ok.mp h
  unfold keymapsReset at h1
  obtain ⟨s4, h3, h4⟩ := bind_eq_ok.mp h1
  have e4 : idleLevel s4.dev.trace = some false := by
    rw [foldlM_idle _ (fun s s' a _ h => by rw [addMap_dev h]) h3]
    exact idleLevel_snoc _ _
  cases h4
  unfold keymapSetup at h2
  rw [foldlM_idle _ (fun s s' c hc h => runCmd_idle (fun he => hn (he ▸ hc)) h) h2]
  exact e4

theorem foldlM_putc_dev (text : List Code) {s s' : State} (h : text.foldlM putc s = .ok s') :
    s'.dev = s.dev := by
  induction text generalizing s with
  | nil => cases h; rfl
  | cons c text ih =>
    rw [List.foldlM_cons] at h
    obtain ⟨s1, h1, h3⟩ := bind_eq_ok.mp h
    exact (ih h3).trans (putc_dev h1)

theorem hookExecute_dev {s s' : State} {i} (h : hookExecute s i = .ok s') : s'.dev = s.dev := by
  unfold hookExecute at h
  split at h
  · obtain ⟨f, _, h2⟩ := bind_eq_ok.mp h
    cases f with
    | null => cases h2; rfl
    | print text => exact foldlM_putc_dev text h2
    | nullPtr => cases h2
    | archReadRow => cases h2
    | archSendCode => cases h2
    | keyscan => cases h2
  · cases h; rfl

theorem activateAction_idle {cfg : Config} {s s' : State} {act : Action}
    (hs : act ≠ .strobeSelect) (hm : ∀ b, act ≠ .mapsel b)
    (h : activateAction cfg s act = .ok s') : idleLevel s'.dev.trace = idleLevel s.dev.trace := by
  cases act with
  | shift => exact setShiftState_idle h
  | shiftlockOn => exact setShiftState_idle h
  | shiftlockToggle => exact setShiftState_idle h
  | caps => exact setCapsState_idle h
  | ctrl => cases h; rfl
  | «repeat» => cases h; rfl
  | autorepeatSelect => cases h; rfl
  | strobeSelect => exact absurd rfl hs
  | mapsel b => exact absurd rfl (hm b)
  | virt v =>
    obtain ⟨d, h1, h2⟩ := bind_eq_ok.mp (show (virtActivate s.dev v >>= fun d =>
      (.ok { s with dev := d } : Res State)) = .ok s' from h)
    cases h2
    exact virtActivate_idle h1
  | nothing => rw [hookExecute_dev h]
  | hereIs => rw [hookExecute_dev h]
  | fn n =>
    have h : (if 1 ≤ n ∧ n ≤ 10 then hookExecute s (HOOK_USER_1 + (n - 1)) else .ok s) = .ok s' := h
    split at h
    · rw [hookExecute_dev h]
    · cases h; rfl
  | other => cases h; rfl

theorem deactivateAction_idle {cfg : Config} {s s' : State} {act : Action}
    (hs : act ≠ .strobeSelect) (hm : ∀ b, act ≠ .mapsel b)
    (h : deactivateAction cfg s act = .ok s') :
    idleLevel s'.dev.trace = idleLevel s.dev.trace := by
  cases act with
  | shift => exact setShiftState_idle h
  | strobeSelect => exact absurd rfl hs
  | mapsel b => exact absurd rfl (hm b)
  | _ => cases h; rfl

theorem outputPhase_idle {s s' : State} (h : outputPhase s = .ok s') :
    idleLevel s'.dev.trace = idleLevel s.dev.trace := by
  unfold outputPhase at h
  obtain ⟨⟨c, s1⟩, h1, h⟩ := bind_eq_ok.mp h
  have e1 : idleLevel s1.dev.trace = idleLevel s.dev.trace := by
    unfold nextCode at h1
    obtain ⟨x, _, h1⟩ := bind_eq_ok.mp h1
    dsimp only at h1
    split at h1
    · obtain ⟨y, _, h1⟩ := bind_eq_ok.mp h1
      cases h1
      rfl
    · cases h1
      exact idleLevel_snoc _ _
  dsimp only at h
  split at h
  · unfold callOutput at h
    obtain ⟨f, _, h⟩ := bind_eq_ok.mp h
    split at h
    · cases h
      exact (idleLevel_snoc _ _).trans e1
    · cases h
  · cases h; exact e1

/-! ## Following one switch through a history -/

/-- A release of a key is recorded exactly when its accepted state changes from
closed to open. -/
theorem release_event {cfg : Config} {L : Layout} (hcf : CfgFacts cfg L) {s s' : State}
    {ks ms : List Code} {a : Outputs} {free : List Nat} (h : WF cfg L s ks ms a free) {r c : Nat}
    (hr : r < L.rows) (hc : c < L.cols) {p : Bool} (hp : p = true → L.blocked r c = false)
    (hk : keyStep cfg p s r c = .ok s') :
    (eventOf L.cols s r c p).toList.any (KeyEv.releasesAt r c) =
      (accepted s r c && !accepted s' r c) := by
  obtain ⟨s2, _, _, _, e1, _, _, e4⟩ := keyStep_ok hcf h hr hc hp
  rw [hk] at e1
  cases e1
  have hr16 : r < 16 := Nat.lt_of_lt_of_le hr hcf.rows16
  have hc8 : c < 8 := Nat.lt_of_lt_of_le hc hcf.cols8
  obtain ⟨x, _, hxc, hx1, _⟩ := h.cell hr16 hc8
  have e := e4 r c hc8
  rw [if_pos ⟨rfl, rfl⟩] at e
  have hon : accepted s' r c = ((debOf s r c).step p).on := congrArg Deb.on e
  rw [hon]
  unfold eventOf Deb.step debOf
  dsimp only
  have h1 : 1 ≤ counter s r c := by omega
  generalize accepted s r c = q at *
  generalize counter s r c = n at *
  by_cases hpq : p = q
  · subst hpq
    rw [if_neg (by simp), if_pos rfl]
    split
    · simp [KeyEv.releasesAt]
    · simp
  · rw [if_pos hpq, if_neg hpq]
    by_cases hn : n = 1
    · rw [if_pos hn, if_pos (show n ≤ 1 by omega)]
      cases p <;> cases q <;> first | exact absurd rfl hpq | simp [KeyEv.releasesAt]
    · rw [if_neg hn, if_neg (by intro hx; omega)]
      simp

theorem releasesAt_other {cols : Nat} {s : State} {r c r' c' : Nat} {p : Bool}
    (h : ¬ (r' = r ∧ c' = c)) :
    (eventOf cols s r c p).toList.any (KeyEv.releasesAt r' c') = false := by
  unfold eventOf
  have h' : ¬ (r = r' ∧ c = c') := fun hx => h ⟨hx.1.symm, hx.2.symm⟩
  split
  · split
    · cases p
      · simp [KeyEv.releasesAt]; omega
      · simp [KeyEv.releasesAt]
    · rfl
  · split
    · simp [KeyEv.releasesAt]
    · rfl

/-- A relation `Q` between the state, the accepted state of the only key with action
`act`, and whether that key was ever released, is kept along every history if each
step keeps it. -/
theorem Spec.History.follow {cfg : Config} {L : Layout} (hcf : CfgFacts cfg L) {act : Action}
    {k : Nat × Nat} (hk8 : k.1 < 16 ∧ k.2 < 8) (hP : placed cfg L act [k] = true)
    (hnc : act ≠ .nothing ∧ act ≠ .other) (Q : State → Bool → Bool → Prop)
    (hboot : ∀ s, Asdf.boot cfg = .ok s → Q s false false)
    (hout : ∀ s s' x w, outputPhase s = .ok s' → s'.rep = s.rep → Q s x w → Q s' x w)
    (hplain : ∀ s s' x w, s'.dev = s.dev → s'.rep.state = s.rep.state → s'.rep.base = s.rep.base →
      Q s x w → Q s' x w)
    (hpress : ∀ s s' a x w, s.maps.length = 4 → s.curIdx ∈ L.maps → actionOk cfg L a → a ≠ act →
      activateAction cfg s a = .ok s' → Q s x w → Q s' x w)
    (hrel : ∀ s s' a x w, s.maps.length = 4 → s.curIdx ∈ L.maps → actionOk cfg L a → a ≠ act →
      deactivateAction cfg s a = .ok s' → Q s x w → Q s' x w)
    (hon : ∀ s s' x w, s.maps.length = 4 → RepInv s.rep → activateAction cfg s act = .ok s' →
      Q s x w → Q s' true w)
    (hoff : ∀ s s' x w, s.maps.length = 4 → RepInv s.rep → deactivateAction cfg s act = .ok s' →
      Q s x w → Q s' false true)
    {s : State} {log : List KeyEv} (h : History cfg L s log) :
    Q s (accepted s k.1 k.2) (log.any (KeyEv.releasesAt k.1 k.2)) := by
  induction h with
  | boot hb =>
    obtain ⟨s0, _, _, e1, _, e3⟩ := boot_inv hcf
    have hb' := hb
    rw [e1] at hb
    cases hb
    have : accepted _ k.1 k.2 = false := congrArg Deb.on (e3 k.1 k.2 hk8.1 hk8.2)
    rw [this]
    exact hboot _ hb'
  | output hs ho ih =>
    obtain ⟨⟨ks, ms, a, free, hw⟩, _⟩ := hs.inv hcf
    obtain ⟨_, _, h3, h4⟩ := outputPhase_parts hcf hw ho
    rw [h4]
    exact hout _ _ _ _ ho h3 ih
  | @key s s' log hs r c p hr hc hp hk ih =>
    obtain ⟨⟨ks, ms, a, free, hw⟩, _⟩ := hs.inv hcf
    have hml : s.maps.length = 4 := by rw [hw.maps]; exact mapsOf_length _
    have hev := release_event hcf hw hr hc hp hk
    rw [List.any_append]
    have elsewhere : ¬ (k.1 = r ∧ k.2 = c) →
        accepted s' k.1 k.2 = accepted s k.1 k.2 ∧
        (eventOf L.cols s r c p).toList.any (KeyEv.releasesAt k.1 k.2) = false := fun hn =>
      ⟨keyStep_accepted hcf hw hr hc hp hk k.1 k.2 hk8.2 hn, releasesAt_other hn⟩
    have away : decodeAction (codeOf s L.cols r c) ≠ act → ¬ (k.1 = r ∧ k.2 = c) := by
      intro hd ⟨e1, e2⟩
      apply hd
      rw [placed_iff hP hcf hw hr hc, List.mem_singleton, ← e1, ← e2]
    have here : decodeAction (codeOf s L.cols r c) = act → k.1 = r ∧ k.2 = c := by
      intro hd
      have := (placed_iff hP hcf hw hr hc).mp hd
      rw [List.mem_singleton] at this
      rw [← this]
      exact ⟨rfl, rfl⟩
    rcases keyStep_cases hcf hw hr hc hp hk with ⟨_, _, dv, rp, acc⟩ | ⟨hpt, hacc, _, ha⟩ |
      ⟨_, hacc, _, ha⟩
    · have same : accepted s' k.1 k.2 = accepted s k.1 k.2 ∧
          (eventOf L.cols s r c p).toList.any (KeyEv.releasesAt k.1 k.2) = false := by
        by_cases hkk : k.1 = r ∧ k.2 = c
        · rcases acc with acc | acc
          · have := acc k.1 k.2 hk8.2
            refine ⟨this, ?_⟩
            rw [hkk.1, hkk.2] at this ⊢
            rw [hev, this]
            cases accepted s r c <;> rfl
          · refine absurd hkk (away ?_)
            intro hd
            rcases decode_le acc with e | e <;> rw [e] at hd
            · exact hnc.1 hd.symm
            · exact hnc.2 hd.symm
        · exact elsewhere hkk
      rw [same.1, same.2, Bool.or_false]
      exact hplain _ _ _ _ dv rp.1 rp.2 ih
    · have hms : mapselOk cfg L (codeOf s L.cols r c) = true := by
        rcases (lookup_ok hcf hw.idx hw.maps hr hc).2 with hb | hb
        · rw [hp hpt] at hb; cases hb
        · exact hb
      have ih' : Q (flipCell s r c true) (accepted s k.1 k.2)
          (log.any (KeyEv.releasesAt k.1 k.2)) := hplain s _ _ _ rfl rfl rfl ih
      by_cases hd : decodeAction (codeOf s L.cols r c) = act
      · obtain ⟨e1, e2⟩ := here hd
        have hpa := press_accepted hcf hw hr hc (hp hpt) ha
        rw [e1, e2] at ih' ⊢
        rw [hev, hpa, hacc, Bool.false_and, Bool.or_false]
        rw [hd] at ha
        exact hon (flipCell s r c true) s' _ _ hml hw.rep ha ih'
      · rw [(elsewhere (away hd)).1, (elsewhere (away hd)).2, Bool.or_false]
        exact hpress (flipCell s r c true) s' _ _ _ hml hw.idx (actionOk_of hms) hd ha ih'
    · have hms : mapselOk cfg L (codeOf s L.cols r c) = true := by
        rcases (lookup_ok hcf hw.idx hw.maps hr hc).2 with hb | hb
        · rw [hw.blocked r c hr hc hb] at hacc; cases hacc
        · exact hb
      have ih' : Q (flipCell s r c false) (accepted s k.1 k.2)
          (log.any (KeyEv.releasesAt k.1 k.2)) := hplain s _ _ _ rfl rfl rfl ih
      by_cases hd : decodeAction (codeOf s L.cols r c) = act
      · obtain ⟨e1, e2⟩ := here hd
        have hpa := release_accepted hcf hw hr hc hacc ha
        rw [e1, e2] at ih' ⊢
        rw [hev, hpa, hacc]
        rw [hd] at ha
        simp only [Bool.not_false, Bool.and_self, Bool.or_true]
        exact hoff (flipCell s r c false) s' _ _ hml hw.rep ha ih'
      · rw [(elsewhere (away hd)).1, (elsewhere (away hd)).2, Bool.or_false]
        exact hrel (flipCell s r c false) s' _ _ _ hml hw.idx (actionOk_of hms) hd ha ih'

end Asdf
