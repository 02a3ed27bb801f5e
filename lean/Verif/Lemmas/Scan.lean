import Verif.Lemmas.Core
import Verif.Spec.History

/-! # One scan of the matrix is one step of every key, in order -/

namespace Asdf

open Spec

/-- Some abstract queues and outputs describe the state. -/
def Inv (cfg : Config) (L : Layout) (s : State) : Prop :=
  ∃ ks ms a free, WF cfg L s ks ms a free

/-! ## Debounce cells -/

/-- The row of debounce counters. -/
def cntRowOf (s : State) (r : Nat) : List UInt8 := (s.counters[r]?).getD []

/-- State with the counter of one key replaced. -/
def withCount (s : State) (r c : Nat) (x : UInt8) : State :=
  { s with counters := s.counters.set r ((cntRowOf s r).set c x) }

/-- State with the accepted state of one key replaced and its counter restarted. -/
def flipCell (s : State) (r c : Nat) (p : Bool) : State :=
  { s with
    counters := s.counters.set r ((cntRowOf s r).set c DEBOUNCE_TIME)
    stable := s.stable.set r
      (if p then (s.stable[r]?).getD 0 ||| colBit c else (s.stable[r]?).getD 0 &&& ~~~(colBit c)) }

theorem counter_withCount {s : State} {r c : Nat} (hr : r < s.counters.length)
    (hc : c < (cntRowOf s r).length) (x : UInt8) (r' c' : Nat) :
    counter (withCount s r c x) r' c' = if r' = r ∧ c' = c then x.toNat else counter s r' c' := by
  unfold counter withCount
  simp only [List.getElem?_set]
  by_cases h : r = r'
  · subst h
    simp only [hr, if_true, Option.getD_some, List.getElem?_set]
    by_cases h2 : c = c'
    · subst h2; simp [hc]
    · have h2' : ¬ c' = c := fun h => h2 h.symm
      simp only [if_neg h2, h2', and_false, if_false, cntRowOf]
  · have h' : ¬ r' = r := fun h2 => h h2.symm
    simp [h, h']

theorem accepted_flip {s : State} {r c : Nat} (hr : r < s.stable.length) (hc : c < 8) (p : Bool)
    (r' c' : Nat) (hc' : c' < 8) :
    accepted (flipCell s r c p) r' c' = if r' = r ∧ c' = c then p else accepted s r' c' := by
  unfold accepted flipCell
  simp only [List.getElem?_set]
  by_cases h : r = r'
  · subst h
    simp only [hr, if_true, Option.getD_some, true_and]
    cases p
    · simp only [Bool.false_eq_true, if_false, bitOf_clear _ _ _ hc hc']
    · simp only [if_true, bitOf_set _ _ _ hc hc']
  · have h' : ¬ r' = r := fun h2 => h h2.symm
    simp [h, h']

theorem counter_flip {s : State} {r c : Nat} (hr : r < s.counters.length)
    (hc : c < (cntRowOf s r).length) (p : Bool) (r' c' : Nat) :
    counter (flipCell s r c p) r' c' = if r' = r ∧ c' = c then 10 else counter s r' c' :=
  counter_withCount hr hc DEBOUNCE_TIME r' c'

section cells

variable {cfg : Config} {L : Layout} {s : State} {ks ms : List Code} {a : Outputs}
  {free : List Nat}

theorem WF.cntRow' (h : WF cfg L s ks ms a free) {r : Nat} (hr : r < 16) :
    s.counters[r]? = some (cntRowOf s r) ∧ (cntRowOf s r).length = 8 := by
  have hl : r < s.counters.length := by rw [h.cntLen]; exact hr
  have h1 : s.counters[r]? = some (cntRowOf s r) := by
    unfold cntRowOf; rw [List.getElem?_eq_getElem hl]; rfl
  exact ⟨h1, h.cntRow r _ h1⟩

theorem WF.cell (h : WF cfg L s ks ms a free) {r c : Nat} (hr : r < 16) (hc : c < 8) :
    ∃ x : UInt8, (cntRowOf s r)[c]? = some x ∧ x.toNat = counter s r c ∧
      1 ≤ x.toNat ∧ x.toNat ≤ 10 := by
  obtain ⟨h1, h2⟩ := h.cntRow' hr
  have hl : c < (cntRowOf s r).length := by omega
  refine ⟨(cntRowOf s r)[c], List.getElem?_eq_getElem hl, ?_, ?_⟩
  · unfold counter; rw [h1]; simp [hl]
  · exact h.cntVal r _ c _ h1 (List.getElem?_eq_getElem hl)

theorem WF.withCount (h : WF cfg L s ks ms a free) {r c : Nat} (hr : r < 16)
    {x : UInt8} (h1 : 1 ≤ x.toNat) (h2 : x.toNat ≤ 10) :
    WF cfg L (withCount s r c x) ks ms a free := by
  obtain ⟨hrow, hlen⟩ := h.cntRow' hr
  have hrl : r < s.counters.length := by rw [h.cntLen]; exact hr
  refine ⟨h.buf, h.kc, h.mb, h.dev, h.idx, h.maps, h.hooks, h.stableLen, ?_, ?_, ?_, h.rep, h.last,
    h.blocked, h.codes⟩
  · simp [Asdf.withCount, h.cntLen]
  · intro r' row hr'
    simp only [Asdf.withCount, List.getElem?_set] at hr'
    by_cases he : r = r'
    · subst he
      simp only [hrl, if_true, Option.some.injEq] at hr'
      rw [← hr']; simp [hlen]
    · simp only [he, if_false] at hr'
      exact h.cntRow r' row hr'
  · intro r' row c' y hr' hy
    simp only [Asdf.withCount, List.getElem?_set] at hr'
    by_cases he : r = r'
    · subst he
      simp only [hrl, if_true, Option.some.injEq] at hr'
      subst hr'
      rw [List.getElem?_set] at hy
      by_cases hcc : c = c'
      · subst hcc
        by_cases hl : c < (cntRowOf s r).length
        · simp only [hl, if_true, Option.some.injEq] at hy
          rw [← hy]; exact ⟨h1, h2⟩
        · simp [hl] at hy
      · simp only [hcc, if_false] at hy
        exact h.cntVal r _ c' y hrow hy
    · simp only [he, if_false] at hr'
      exact h.cntVal r' row c' y hr' hy

theorem WF.flip (h : WF cfg L s ks ms a free) (hcf : CfgFacts cfg L) {r c : Nat} (hr : r < L.rows)
    (hc : c < L.cols) {p : Bool} (hp : p = true → L.blocked r c = false) :
    WF cfg L (flipCell s r c p) ks ms a free := by
  have hr16 : r < 16 := Nat.lt_of_lt_of_le hr hcf.rows16
  have hc8 : c < 8 := Nat.lt_of_lt_of_le hc hcf.cols8
  have h' := h.withCount (c := c) hr16 (x := DEBOUNCE_TIME) (by decide) (by decide)
  refine ⟨h'.buf, h'.kc, h'.mb, h'.dev, h'.idx, h'.maps, h'.hooks, ?_, h'.cntLen, h'.cntRow,
    h'.cntVal, h'.rep, h'.last, ?_, h'.codes⟩
  · simp [flipCell, h.stableLen]
  · intro r' c' hr' hc' hb
    rw [accepted_flip (by rw [h.stableLen]; exact hr16) hc8 p r' c'
      (Nat.lt_of_lt_of_le hc' hcf.cols8)]
    by_cases he : r' = r ∧ c' = c
    · rw [if_pos he]
      cases p with
      | false => rfl
      | true =>
        have := hp rfl
        rw [he.1, he.2] at hb
        rw [hb] at this; cases this
    · rw [if_neg he]; exact h.blocked r' c' hr' hc' hb

theorem pressOrRelease_accept (h : WF cfg L s ks ms a free) {r c : Nat} (hr : r < 16)
    (hc : c < 8) (p : Bool) (h1 : counter s r c = 1) :
    pressOrRelease cfg s r c p = (lookupKeycode (flipCell s r c p) r c >>= fun code =>
      if p then activateKey cfg (flipCell s r c p) code
      else deactivateKey cfg (flipCell s r c p) code) := by
  obtain ⟨hrow, hlen⟩ := h.cntRow' hr
  obtain ⟨x, hx, hxc, _, _⟩ := h.cell hr hc
  have hx1 : x - 1 = 0 := by
    have : x = 1 := UInt8.toNat_inj.mp (by rw [hxc, h1]; rfl)
    subst this; rfl
  have hst : r < s.stable.length := by rw [h.stableLen]; exact hr
  have hct : r < s.counters.length := by rw [h.cntLen]; exact hr
  have hst' : s.stable[r] = (s.stable[r]?).getD 0 := by rw [List.getElem?_eq_getElem hst]; rfl
  unfold pressOrRelease
  rw [rd_some hrow, ok_bind, rd_some hx, ok_bind]
  rw [if_pos hx1, wr_ok (by omega), ok_bind, wr_ok hct, ok_bind, rd_ok hst, ok_bind, hst']
  cases p
  · simp only [Bool.false_eq_true, if_false]
    rw [wr_ok hst, ok_bind]
    rfl
  · simp only [if_true]
    rw [wr_ok hst, ok_bind]
    rfl

theorem pressOrRelease_count (h : WF cfg L s ks ms a free) {r c : Nat} (hr : r < 16)
    (hc : c < 8) (p : Bool) (h1 : counter s r c ≠ 1) :
    ∃ x : UInt8, x.toNat + 1 = counter s r c ∧ 1 ≤ x.toNat ∧ x.toNat ≤ 10 ∧
      pressOrRelease cfg s r c p = .ok (Asdf.withCount s r c x) := by
  obtain ⟨hrow, hlen⟩ := h.cntRow' hr
  obtain ⟨x, hx, hxc, hx1, hx2⟩ := h.cell hr hc
  have hs : (x - 1).toNat = x.toNat - 1 := by
    have : (1 : UInt8) ≤ x := by rw [UInt8.le_iff_toNat_le]; simpa using hx1
    rw [UInt8.toNat_sub_of_le _ _ this]; rfl
  have hne : x - 1 ≠ 0 := by
    intro hc; rw [hc] at hs; simp at hs; omega
  have hct : r < s.counters.length := by rw [h.cntLen]; exact hr
  refine ⟨x - 1, by omega, by omega, by omega, ?_⟩
  unfold pressOrRelease
  rw [rd_some hrow, ok_bind, rd_some hx, ok_bind]
  rw [if_neg hne, wr_ok (by omega), ok_bind, wr_ok hct, ok_bind]
  rfl

end cells

/-! ## One key in one scan -/

/-- The keystroke stream after one key was handled. -/
def keysAfter (L : Layout) (p : Bool) (s : State) (r c : Nat) (ks : List Code) : List Code :=
  if p = true ∧ accepted s r c = false ∧ counter s r c = 1 then
    keysAfterPress ks (codeOf s L.cols r c)
  else if p = true ∧ accepted s r c = true ∧ codeOf s L.cols r c = s.lastKey ∧
      (repTick s.rep).1 = true then putL 16 ks s.lastKey
  else ks

theorem codeOf_flip (s : State) (cols r c : Nat) (p : Bool) (r' c' : Nat) :
    codeOf (flipCell s r c p) cols r' c' = codeOf s cols r' c' := rfl

theorem debOf_kept {s s' : State} (h : Kept s s') (r c : Nat) : debOf s' r c = debOf s r c := by
  unfold debOf accepted counter; rw [h.stable, h.counters]

theorem heldPressed_other {cfg : Config} {L : Layout} (hcf : CfgFacts cfg L) {s : State}
    {ks ms : List Code} {a : Outputs} {free : List Nat} (h : WF cfg L s ks ms a free) {r c : Nat}
    (hr : r < L.rows) (hc : c < L.cols) (hl : codeOf s L.cols r c ≠ s.lastKey) :
    heldPressed cfg s r c = .ok s := by
  unfold heldPressed
  rw [(lookup_ok hcf h.idx h.maps hr hc).1, ok_bind, if_neg hl]

theorem heldPressed_wait {cfg : Config} {L : Layout} (hcf : CfgFacts cfg L) {s : State}
    {ks ms : List Code} {a : Outputs} {free : List Nat} (h : WF cfg L s ks ms a free) {r c : Nat}
    (hr : r < L.rows) (hc : c < L.cols) (hl : codeOf s L.cols r c = s.lastKey)
    (hf : (repTick s.rep).1 = false) :
    heldPressed cfg s r c = .ok { s with rep := (repTick s.rep).2 } := by
  unfold heldPressed
  rw [(lookup_ok hcf h.idx h.maps hr hc).1, ok_bind, if_pos hl]
  show (if (repTick s.rep).1 = true then _ else _) = _
  rw [hf]
  rfl

theorem heldPressed_fire {cfg : Config} {L : Layout} (hcf : CfgFacts cfg L) {s : State}
    {ks ms : List Code} {a : Outputs} {free : List Nat} (h : WF cfg L s ks ms a free) {r c : Nat}
    (hr : r < L.rows) (hc : c < L.cols) (hl : codeOf s L.cols r c = s.lastKey)
    (hf : (repTick s.rep).1 = true) :
    ∃ b', heldPressed cfg s r c = .ok { s with rep := (repTick s.rep).2, buf := b' } ∧
      WF cfg L { s with rep := (repTick s.rep).2, buf := b' } (putL 16 ks s.lastKey) ms a free := by
  have hw := h.withRep h.rep.tick
  obtain ⟨b', e1, e2⟩ := activateKey_code (cfg := cfg) hw (code := s.lastKey) h.last
  have he : ({ s with rep := (repTick s.rep).2, buf := b' } : State) =
    { { s with rep := (repTick s.rep).2 } with
        buf := b', lastKey := s.lastKey,
        rep := if s.lastKey ≠ s.lastKey then repResetCount (repTick s.rep).2 else (repTick s.rep).2 }
    := by simp
  refine ⟨b', ?_, ?_⟩
  · unfold heldPressed
    rw [(lookup_ok hcf h.idx h.maps hr hc).1, ok_bind, if_pos hl]
    show (if (repTick s.rep).1 = true then _ else _) = _
    rw [if_pos hf, he]
    exact e1
  · rw [he]; exact e2

theorem keyStep_ok {cfg : Config} {L : Layout} (hcf : CfgFacts cfg L) {s : State}
    {ks ms : List Code} {a : Outputs} {free : List Nat} (h : WF cfg L s ks ms a free) {r c : Nat}
    (hr : r < L.rows) (hc : c < L.cols) {p : Bool} (hp : p = true → L.blocked r c = false) :
    ∃ s' ms' a' free', keyStep cfg p s r c = .ok s' ∧
      WF cfg L s' (keysAfter L p s r c ks) ms' a' free' ∧ ms <+: ms' ∧
      (∀ r' c', c' < 8 → debOf s' r' c' =
        if r' = r ∧ c' = c then (debOf s r c).step p else debOf s r' c') := by
  have hr16 : r < 16 := Nat.lt_of_lt_of_le hr hcf.rows16
  have hc8 : c < 8 := Nat.lt_of_lt_of_le hc hcf.cols8
  obtain ⟨x, hx, hxc, hx1, hx2⟩ := h.cell hr16 hc8
  unfold keyStep
  by_cases hne : p ≠ accepted s r c
  · rw [if_pos hne]
    have hne' : ¬ p = accepted s r c := hne
    by_cases h1 : counter s r c = 1
    · -- accepted
      have hfl := h.flip hcf hr hc hp
      obtain ⟨hlook, hms⟩ := lookup_ok hcf hfl.idx hfl.maps hr hc
      have hmsel : mapselOk cfg L (codeOf (flipCell s r c p) L.cols r c) = true := by
        rcases hms with hb | hb
        · exfalso
          cases p with
          | true => rw [hp rfl] at hb; cases hb
          | false =>
            have := h.blocked r c hr hc hb
            rw [this] at hne; exact hne rfl
        · exact hb
      have hdeb : ∀ r' c', c' < 8 → debOf (flipCell s r c p) r' c' =
          if r' = r ∧ c' = c then (debOf s r c).step p else debOf s r' c' := by
        intro r' c' hc'
        unfold debOf
        rw [accepted_flip (by rw [h.stableLen]; exact hr16) hc8 p r' c' hc',
          counter_flip (by rw [h.cntLen]; exact hr16) (by rw [(h.cntRow' hr16).2]; exact hc8)]
        by_cases he : r' = r ∧ c' = c
        · rw [if_pos he, if_pos he, if_pos he]
          simp [Deb.step, hne', h1]
        · rw [if_neg he, if_neg he, if_neg he]
      rw [pressOrRelease_accept h hr16 hc8 p h1, hlook, ok_bind]
      cases p with
      | true =>
        have hacc : accepted s r c = false := by simpa using hne
        obtain ⟨s', ms', a', f', e1, e2, e3, e4⟩ := activateKey_ok hcf hfl hmsel
        refine ⟨s', ms', a', f', by rw [if_pos rfl, e1], ?_, e4, ?_⟩
        · unfold keysAfter; rw [if_pos ⟨rfl, hacc, h1⟩]; exact e2
        · intro r' c' hc'; rw [debOf_kept e3]; exact hdeb r' c' hc'
      | false =>
        obtain ⟨s', a', f', e1, e2, e3, _⟩ := deactivateKey_ok hcf hfl hmsel
        refine ⟨s', ms, a', f', by rw [if_neg (by decide), e1], ?_, List.prefix_rfl, ?_⟩
        · unfold keysAfter; simp only [Bool.false_eq_true, false_and, if_false]; exact e2
        · intro r' c' hc'; rw [debOf_kept e3]; exact hdeb r' c' hc'
    · -- counted
      obtain ⟨y, hy, hy1, hy2, e⟩ := pressOrRelease_count (cfg := cfg) h hr16 hc8 p h1
      refine ⟨_, ms, a, free, e, ?_, List.prefix_rfl, ?_⟩
      · have : keysAfter L p s r c ks = ks := by
          unfold keysAfter
          rw [if_neg (fun hh => h1 hh.2.2), if_neg]
          intro hh
          apply hne
          rw [hh.1, hh.2.1]
        rw [this]
        exact h.withCount hr16 hy1 hy2
      · intro r' c' hc'
        unfold debOf
        rw [counter_withCount (by rw [h.cntLen]; exact hr16)
          (by rw [(h.cntRow' hr16).2]; exact hc8)]
        have hacc : accepted (withCount s r c y) r' c' = accepted s r' c' := rfl
        rw [hacc]
        by_cases he : r' = r ∧ c' = c
        · rw [if_pos he, if_pos he]
          obtain ⟨rfl, rfl⟩ := he
          have : ¬ counter s r' c' ≤ 1 := by omega
          simp only [Deb.step, hne', if_false, this]
          congr 1
          omega
        · rw [if_neg he, if_neg he]
  · rw [if_neg hne]
    have heq : p = accepted s r c := by simpa using hne
    have hstep : (debOf s r c).step p = debOf s r c := by
      exact if_pos heq
    have hsame : ∀ s', Kept s s' → ∀ r' c', c' < 8 → debOf s' r' c' =
        if r' = r ∧ c' = c then (debOf s r c).step p else debOf s r' c' := by
      intro s' hk r' c' _
      rw [debOf_kept hk, hstep]
      by_cases he : r' = r ∧ c' = c
      · rw [if_pos he, he.1, he.2]
      · rw [if_neg he]
    cases p with
    | false =>
      refine ⟨s, ms, a, free, by rw [if_neg (by decide)], ?_, List.prefix_rfl, hsame s (Kept.rfl' s)⟩
      unfold keysAfter; simp only [Bool.false_eq_true, false_and, if_false]; exact h
    | true =>
      rw [if_pos rfl]
      have hna : ¬ (true = true ∧ accepted s r c = false ∧ counter s r c = 1) := by
        rw [← heq]; simp
      by_cases hl : codeOf s L.cols r c = s.lastKey
      · cases hf : (repTick s.rep).1 with
        | true =>
          obtain ⟨b', e1, e2⟩ := heldPressed_fire hcf h hr hc hl hf
          refine ⟨_, ms, a, free, e1, ?_, List.prefix_rfl, hsame _ ⟨rfl, rfl, rfl, rfl⟩⟩
          unfold keysAfter
          rw [if_neg hna, if_pos ⟨rfl, heq.symm, hl, hf⟩]
          exact e2
        | false =>
          refine ⟨_, ms, a, free, heldPressed_wait hcf h hr hc hl hf, ?_,
            List.prefix_rfl, hsame _ ⟨rfl, rfl, rfl, rfl⟩⟩
          unfold keysAfter
          rw [if_neg hna, if_neg (by rw [hf]; simp)]
          exact h.withRep h.rep.tick
      · refine ⟨s, ms, a, free, heldPressed_other hcf h hr hc hl, ?_, List.prefix_rfl, hsame s (Kept.rfl' s)⟩
        unfold keysAfter
        rw [if_neg hna, if_neg (fun hh => hl hh.2.2.1)]
        exact h

/-! ## The whole scan -/

/-- Handle a list of keys in order. -/
def keySteps (cfg : Config) (inp : Input) (keys : List (Nat × Nat)) (s : State) : Res State :=
  keys.foldlM (fun s k => keyStep cfg (sample inp k.1 k.2) s k.1 k.2) s

theorem keySteps_cons (cfg : Config) (inp : Input) (k : Nat × Nat) (keys : List (Nat × Nat))
    (s : State) : keySteps cfg inp (k :: keys) s =
      (keyStep cfg (sample inp k.1 k.2) s k.1 k.2 >>= keySteps cfg inp keys) := by
  unfold keySteps; rw [List.foldlM_cons]

theorem keySteps_append (cfg : Config) (inp : Input) (k1 k2 : List (Nat × Nat))
    (s : State) : keySteps cfg inp (k1 ++ k2) s =
      (keySteps cfg inp k1 s >>= keySteps cfg inp k2) := by
  unfold keySteps; rw [List.foldlM_append]

theorem keySteps_nil (cfg : Config) (inp : Input) (s : State) : keySteps cfg inp [] s = .ok s := rfl

/-- Handling keys preserves the invariant and steps exactly their debouncers. -/
theorem keySteps_ok {cfg : Config} {L : Layout} (hcf : CfgFacts cfg L) {inp : Input}
    (hin : Allowed L inp) (keys : List (Nat × Nat)) {s : State} (h : Inv cfg L s)
    (hk : ∀ k ∈ keys, k.1 < L.rows ∧ k.2 < L.cols) (hn : keys.Nodup) :
    ∃ s', keySteps cfg inp keys s = .ok s' ∧ Inv cfg L s' ∧
      ∀ r c, c < 8 → debOf s' r c =
        if (r, c) ∈ keys then (debOf s r c).step (sample inp r c) else debOf s r c := by
  induction keys generalizing s with
  | nil => exact ⟨s, rfl, h, fun r c _ => by simp⟩
  | cons k keys ih =>
    obtain ⟨r, c⟩ := k
    obtain ⟨ks, ms, a, free, hw⟩ := h
    have hrc := hk (r, c) (by simp)
    obtain ⟨s1, ms1, a1, f1, e1, e2, _, e3⟩ := keyStep_ok hcf hw hrc.1 hrc.2 (p := sample inp r c)
      (fun hp => by
        cases hb : L.blocked r c with
        | false => rfl
        | true =>
          have := hin r c hrc.1 hrc.2 hb
          rw [this] at hp; cases hp)
    rw [List.nodup_cons] at hn
    obtain ⟨s2, g1, g2, g3⟩ := ih ⟨_, _, _, _, e2⟩ (fun k hkm => hk k (by simp [hkm])) hn.2
    refine ⟨s2, ?_, g2, ?_⟩
    · rw [keySteps_cons, e1, ok_bind, g1]
    · intro r' c' hc'
      rw [g3 r' c' hc', e3 r' c' hc']
      by_cases he : r' = r ∧ c' = c
      · obtain ⟨rfl, rfl⟩ := he
        rw [if_neg hn.1, if_pos ⟨rfl, rfl⟩, if_pos (by simp)]
      · rw [if_neg he]
        have : ((r', c') ∈ (r, c) :: keys) ↔ ((r', c') ∈ keys) := by
          simp only [List.mem_cons, Prod.mk.injEq, or_iff_right he]
        simp only [this]

theorem rowKeys_nodup (r c n : Nat) : ((List.range' c n).map (fun c => (r, c))).Nodup := by
  refine List.Pairwise.map _ ?_ (List.nodup_range' (s := c) (n := n))
  intro a b hab he
  exact hab (Prod.mk.inj he).2

theorem scanCols_succ (cfg : Config) (row fuel col : Nat) (changed keys : UInt8) (s : State) :
    scanCols cfg row (fuel + 1) col changed keys s = (numCols s >>= fun n =>
      if col < n.toNat then
        ((if changed &&& 1 ≠ 0 then pressOrRelease cfg s row col (decide (keys &&& 1 ≠ 0))
          else if keys &&& 1 ≠ 0 then heldPressed cfg s row col else .ok s : Res State) >>=
          scanCols cfg row fuel (col + 1) (changed >>> 1) (keys >>> 1))
      else .ok s) := by
  conv => lhs; unfold scanCols
  cases numCols s with
  | error e => rfl
  | ok n =>
    rw [ok_bind, ok_bind]
    by_cases h1 : col < n.toNat
    · rw [if_pos h1, if_pos h1]
      by_cases h2 : changed &&& 1 ≠ 0
      · rw [if_pos h2]; simp only [if_pos h2]
      · rw [if_neg h2]; simp only [if_neg h2]
        by_cases h3 : keys &&& 1 ≠ 0
        · rw [if_pos h3]; simp only [if_pos h3]
        · rw [if_neg h3]; simp only [if_neg h3]
    · rw [if_neg h1, if_neg h1]

theorem scanCols_fold {cfg : Config} {L : Layout} (hcf : CfgFacts cfg L) {inp : Input}
    (hin : Allowed L inp) {r : Nat} (hr : r < L.rows) (n : Nat) :
    ∀ {fuel col : Nat} {changed keys : UInt8} {s : State}, Inv cfg L s → col + n = L.cols →
      n < fuel →
      (∀ c, col ≤ c → c < L.cols → bitOf keys (c - col) = sample inp r c) →
      (∀ c, col ≤ c → c < L.cols →
        bitOf changed (c - col) = (sample inp r c != accepted s r c)) →
      scanCols cfg r fuel col changed keys s =
        keySteps cfg inp ((List.range' col n).map (fun c => (r, c))) s := by
  induction n with
  | zero =>
    intro fuel col changed keys s h hcol hf _ _
    obtain ⟨fuel, rfl⟩ : ∃ f, fuel = f + 1 := ⟨fuel - 1, by omega⟩
    obtain ⟨ks, ms, a, free, hw⟩ := h
    obtain ⟨m, h1, h2⟩ := numCols_ok hcf hw.idx hw.maps
    unfold scanCols
    rw [h1, ok_bind, if_neg (by omega)]
    rfl
  | succ n ih =>
    intro fuel col changed keys s h hcol hf hk hch
    obtain ⟨fuel, rfl⟩ : ∃ f, fuel = f + 1 := ⟨fuel - 1, by omega⟩
    have hinv := h
    obtain ⟨ks, ms, a, free, hw⟩ := h
    obtain ⟨m, h1, h2⟩ := numCols_ok hcf hw.idx hw.maps
    have hcl : col < L.cols := by omega
    have hk0 : bitOf keys 0 = sample inp r col := by simpa using hk col (Nat.le_refl _) hcl
    have hc0 : bitOf changed 0 = (sample inp r col != accepted s r col) := by
      simpa using hch col (Nat.le_refl _) hcl
    obtain ⟨s1, e1, e2, e3⟩ := keySteps_ok hcf hin [(r, col)] hinv
      (by intro k hk; simp at hk; subst hk; exact ⟨hr, hcl⟩) (by simp)
    have hstep : (if changed &&& 1 ≠ 0 then pressOrRelease cfg s r col (decide (keys &&& 1 ≠ 0))
        else if keys &&& 1 ≠ 0 then heldPressed cfg s r col else .ok s) =
        keyStep cfg (sample inp r col) s r col := by
      unfold keyStep
      have hd : decide (keys &&& 1 ≠ 0) = sample inp r col := by
        rw [← hk0]
        by_cases hb : bitOf keys 0 = true
        · rw [hb]; simpa using (and_one_ne_zero keys).mpr hb
        · have : ¬ (keys &&& 1 ≠ 0) := fun hh => hb ((and_one_ne_zero keys).mp hh)
          rw [decide_eq_false this]; simpa using hb
      rw [hd]
      have hi1 : (changed &&& 1 ≠ 0) ↔ (sample inp r col ≠ accepted s r col) := by
        rw [and_one_ne_zero, hc0]; simp
      have hi2 : (keys &&& 1 ≠ 0) ↔ (sample inp r col = true) := by
        rw [and_one_ne_zero, hk0]
      by_cases hx : sample inp r col ≠ accepted s r col
      · rw [if_pos hx, if_pos (hi1.mpr hx)]
      · rw [if_neg hx, if_neg (fun hh => hx (hi1.mp hh))]
        by_cases hy : sample inp r col = true
        · rw [if_pos hy, if_pos (hi2.mpr hy)]
        · rw [if_neg hy, if_neg (fun hh => hy (hi2.mp hh))]
    have hcol8 : L.cols ≤ 8 := hcf.cols8
    rw [List.range'_succ, List.map_cons, keySteps_cons]
    rw [keySteps_cons] at e1
    rw [scanCols_succ, h1, ok_bind, if_pos (by omega), hstep]
    cases hks : keyStep cfg (sample inp r col) s r col with
    | error e => rw [hks] at e1; cases e1
    | ok s1' =>
      rw [hks] at e1
      simp only [ok_bind, keySteps_nil] at e1 ⊢
      cases e1
      apply ih e2 (by omega) (by omega)
      · intro c hc1 hc2
        rw [bitOf_shiftRight]
        have := hk c (by omega) hc2
        rwa [show c - col = c - (col + 1) + 1 by omega] at this
      · intro c hc1 hc2
        rw [bitOf_shiftRight]
        have := hch c (by omega) hc2
        rw [show c - col = c - (col + 1) + 1 by omega] at this
        rw [this]
        have hd := e3 r c (by omega)
        rw [if_neg (by simp; omega)] at hd
        have : accepted s1 r c = accepted s r c := congrArg Deb.on hd
        rw [this]

/-- The keys in scan order. -/
def keyOrder (cols row n : Nat) : List (Nat × Nat) :=
  (List.range' row n).flatMap fun r => (List.range' 0 cols).map fun c => (r, c)

theorem mem_keyOrder (cols row n : Nat) (k : Nat × Nat) :
    k ∈ keyOrder cols row n ↔ row ≤ k.1 ∧ k.1 < row + n ∧ k.2 < cols := by
  obtain ⟨r, c⟩ := k
  unfold keyOrder
  simp only [List.mem_flatMap, List.mem_range'_1, List.mem_map, Prod.mk.injEq]
  constructor
  · rintro ⟨a, ha, b, hb, rfl, rfl⟩; omega
  · intro h; exact ⟨r, by omega, c, by omega, rfl, rfl⟩

theorem keyOrder_nodup (cols row n : Nat) : (keyOrder cols row n).Nodup := by
  induction n generalizing row with
  | zero => simp [keyOrder]
  | succ n ih =>
    have : keyOrder cols row (n + 1) =
        ((List.range' 0 cols).map fun c => (row, c)) ++ keyOrder cols (row + 1) n := by
      unfold keyOrder; rw [List.range'_succ, List.flatMap_cons]
    rw [this, List.nodup_append]
    refine ⟨rowKeys_nodup _ _ _, ih _, ?_⟩
    intro k hk k' hk' he
    subst he
    rw [mem_keyOrder] at hk'
    simp only [List.mem_map] at hk
    obtain ⟨c, _, rfl⟩ := hk
    simp at hk'
    omega

theorem scanRows_fold {cfg : Config} {L : Layout} (hcf : CfgFacts cfg L) {inp : Input}
    (hin : Allowed L inp) (n : Nat) :
    ∀ {fuel row : Nat} {s : State}, Inv cfg L s → row + n = L.rows → n < fuel →
      scanRows cfg .archReadRow inp fuel row s =
        keySteps cfg inp (keyOrder L.cols row n) s := by
  induction n with
  | zero =>
    intro fuel row s h hrow hf
    obtain ⟨fuel, rfl⟩ : ∃ f, fuel = f + 1 := ⟨fuel - 1, by omega⟩
    obtain ⟨ks, ms, a, free, hw⟩ := h
    obtain ⟨m, h1, h2⟩ := numRows_ok hcf hw.idx hw.maps
    unfold scanRows
    rw [h1, ok_bind, if_neg (by omega)]
    rfl
  | succ n ih =>
    intro fuel row s h hrow hf
    obtain ⟨fuel, rfl⟩ : ∃ f, fuel = f + 1 := ⟨fuel - 1, by omega⟩
    have hinv := h
    obtain ⟨ks, ms, a, free, hw⟩ := h
    obtain ⟨m, h1, h2⟩ := numRows_ok hcf hw.idx hw.maps
    have hst : row < s.stable.length := by
      have := hcf.rows16
      rw [hw.stableLen]; omega
    have hst' : s.stable[row] = (s.stable[row]?).getD 0 := by
      rw [List.getElem?_eq_getElem hst]; rfl
    have hlist : keyOrder L.cols row (n + 1) =
        ((List.range' 0 L.cols).map fun c => (row, c)) ++ keyOrder L.cols (row + 1) n := by
      unfold keyOrder; rw [List.range'_succ, List.flatMap_cons]
    unfold scanRows
    rw [h1, ok_bind, if_pos (by omega), hlist, keySteps_append]
    show (rd s.stable row >>= _) = _
    rw [rd_ok hst, ok_bind]
    rw [scanCols_fold hcf hin (by omega) L.cols hinv (by omega)
      (by have := hcf.cols8; omega)
      (fun c _ _ => by simp [sample])
      (fun c _ _ => by simp [sample, bitOf_xor, accepted, hst'])]
    obtain ⟨s1, e1, e2, _⟩ := keySteps_ok hcf hin ((List.range' 0 L.cols).map fun c => (row, c))
      hinv (by
        intro k hk
        simp only [List.mem_map, List.mem_range'_1] at hk
        obtain ⟨c, hc, rfl⟩ := hk
        exact ⟨by omega, by omega⟩) (rowKeys_nodup _ _ _)
    rw [e1, ok_bind, ok_bind]
    exact ih e2 (by omega) (by omega)

/-- All keys of the layout in scan order. -/
def allKeys (L : Layout) : List (Nat × Nat) := keyOrder L.cols 0 L.rows

/-- A scan is one step of every key. -/
theorem keyscan_fold {cfg : Config} {L : Layout} (hcf : CfgFacts cfg L) {inp : Input}
    (hin : Allowed L inp) {s : State} (h : Inv cfg L s) :
    keyscan cfg inp s = keySteps cfg inp (allKeys L) s := by
  have hinv := h
  obtain ⟨ks, ms, a, free, hw⟩ := h
  obtain ⟨hk2, hk3, hk4, _⟩ := hooksOk_facts (hcf.parts hw.idx).2.2.2
  rw [← hw.hooks] at hk2 hk3 hk4
  have hk2' : s.hooks[HOOK_ROW_SCANNER]? = some .archReadRow := hk2
  have hk4' : s.hooks[HOOK_EACH_SCAN]? = some .null := hk4
  unfold keyscan hookGet hookExecute
  rw [if_pos (hookValid_iff.mpr (by decide)), rd_some hk2', ok_bind]
  rw [if_pos (hookValid_iff.mpr (by decide)), rd_some hk4', ok_bind]
  show (Except.ok s >>= _) = _
  rw [ok_bind]
  exact scanRows_fold hcf hin L.rows hinv (by omega) (by have := hcf.rows16; omega)

/-- A scan never fails, keeps the invariant and steps every debouncer. -/
theorem keyscan_ok {cfg : Config} {L : Layout} (hcf : CfgFacts cfg L) {inp : Input}
    (hin : Allowed L inp) {s : State} (h : Inv cfg L s) :
    ∃ s', keyscan cfg inp s = .ok s' ∧ Inv cfg L s' ∧
      ∀ r c, c < 8 → debOf s' r c =
        if r < L.rows ∧ c < L.cols then (debOf s r c).step (sample inp r c) else debOf s r c := by
  rw [keyscan_fold hcf hin h]
  obtain ⟨s', e1, e2, e3⟩ := keySteps_ok hcf hin (allKeys L) h (by
    intro k hk; unfold allKeys at hk; rw [mem_keyOrder] at hk; omega) (keyOrder_nodup _ _ _)
  refine ⟨s', e1, e2, ?_⟩
  intro r c hc
  rw [e3 r c hc]
  unfold allKeys
  by_cases hh : r < L.rows ∧ c < L.cols
  · rw [if_pos hh, if_pos]; rw [mem_keyOrder]; simp; omega
  · rw [if_neg hh, if_neg]; rw [mem_keyOrder]; simp; omega

end Asdf
