import Verif.Lemmas.Stream

/-! # Scans in which one key is active

While all other keys rest, the firmware behaves like a keyboard with one key. -/

namespace Asdf

open Spec

/-- What matters about one code key: its debouncer, the code due for repetition,
the repeat timer and the two streams. -/
structure One where
  deb : Deb
  last : Code
  rep : RepState
  ks : List Code
  ms : List Code

/-- One sample `p` of the key, which is mapped to `x`. -/
def One.key (x : Code) (p : Bool) (o : One) : One :=
  if p ≠ o.deb.on then
    if o.deb.left ≤ 1 then
      if p then
        { o with
          deb := ⟨true, 10⟩, last := x, ks := putL 16 o.ks x,
          rep := if o.last ≠ x then repResetCount o.rep else o.rep }
      else { o with deb := ⟨false, 10⟩, last := if o.last = x then 0xA0 else o.last }
    else { o with deb := ⟨o.deb.on, o.deb.left - 1⟩ }
  else if p = true ∧ x = o.last then
    { o with
      rep := (repTick o.rep).2
      ks := if (repTick o.rep).1 then putL 16 o.ks x else o.ks }
  else o

/-- The output part of a pass. -/
def One.out (o : One) : One := { o with ks := keysLeft o.ks o.ms, ms := o.ms.tail }

/-- One pass. -/
def One.tick (x : Code) (o : One) (p : Bool) : One := o.out.key x p

/-- Codes sent in the passes with the given samples. -/
def One.sent (x : Code) (o : One) : List Bool → List Code
  | [] => []
  | p :: ps => sentNow o.ks o.ms ++ (o.tick x p).sent x ps

/-- The one-key view of a state. -/
def oneOf (s : State) (r c : Nat) (ks ms : List Code) : One := ⟨debOf s r c, s.lastKey, s.rep, ks, ms⟩

theorem One.key_ms (x : Code) (p : Bool) (o : One) : (o.key x p).ms = o.ms := by
  unfold One.key
  split
  · split
    · split <;> rfl
    · rfl
  · split <;> rfl

/-- The parts of the state that code keys do not touch. -/
structure Rest (s s' : State) : Prop where
  mods : s'.mods = s.mods
  maps : s'.maps = s.maps
  idx : s'.curIdx = s.curIdx
  hooks : s'.hooks = s.hooks
  delay : s'.printDelay = s.printDelay

theorem Rest.refl (s : State) : Rest s s := ⟨rfl, rfl, rfl, rfl, rfl⟩

theorem Rest.trans {a b c : State} (h : Rest a b) (g : Rest b c) : Rest a c :=
  ⟨g.mods.trans h.mods, g.maps.trans h.maps, g.idx.trans h.idx, g.hooks.trans h.hooks,
    g.delay.trans h.delay⟩

theorem Rest.codeOf {s s' : State} (h : Rest s s') (cols r c : Nat) :
    Spec.codeOf s' cols r c = Spec.codeOf s cols r c := by
  unfold Spec.codeOf activeTable; rw [h.mods, h.maps]

section

variable {cfg : Config} {L : Layout}

theorem flip_deb {s : State} {ks ms a free} (h : WF cfg L s ks ms a free) {r c : Nat} (hr : r < 16)
    (hc : c < 8) (p : Bool) (r' c' : Nat) (hc' : c' < 8) :
    debOf (flipCell s r c p) r' c' = if r' = r ∧ c' = c then ⟨p, 10⟩ else debOf s r' c' := by
  unfold debOf
  rw [accepted_flip (by rw [h.stableLen]; exact hr) hc p r' c' hc',
    counter_flip (by rw [h.cntLen]; exact hr) (by rw [(h.cntRow' hr).2]; exact hc)]
  by_cases he : r' = r ∧ c' = c
  · rw [if_pos he, if_pos he, if_pos he]
  · rw [if_neg he, if_neg he, if_neg he]

/-- One code key in one scan. -/
theorem keyStep_one (hcf : CfgFacts cfg L) {s : State} {ks ms a free}
    (h : WF cfg L s ks ms a free) {r c : Nat} (hr : r < L.rows) (hc : c < L.cols) {p : Bool}
    (hp : p = true → L.blocked r c = false) (hx : (codeOf s L.cols r c).toNat ≤ 0xA0) :
    ∃ s', keyStep cfg p s r c = .ok s' ∧
      WF cfg L s' ((oneOf s r c ks ms).key (codeOf s L.cols r c) p).ks ms a free ∧
      oneOf s' r c ((oneOf s r c ks ms).key (codeOf s L.cols r c) p).ks ms =
        (oneOf s r c ks ms).key (codeOf s L.cols r c) p ∧
      Rest s s' ∧ s'.dev = s.dev ∧
      ∀ r' c', c' < 8 → ¬ (r' = r ∧ c' = c) → debOf s' r' c' = debOf s r' c' := by
  have hr16 : r < 16 := Nat.lt_of_lt_of_le hr hcf.rows16
  have hc8 : c < 8 := Nat.lt_of_lt_of_le hc hcf.cols8
  unfold keyStep One.key
  have hon : (oneOf s r c ks ms).deb.on = accepted s r c := rfl
  have hleft : (oneOf s r c ks ms).deb.left = counter s r c := rfl
  have hlast : (oneOf s r c ks ms).last = s.lastKey := rfl
  have hks : (oneOf s r c ks ms).ks = ks := rfl
  have hrep : (oneOf s r c ks ms).rep = s.rep := rfl
  simp only [hon, hleft, hlast, hks, hrep]
  obtain ⟨y0, _, _, hy1, _⟩ := h.cell hr16 hc8
  by_cases hne : p ≠ accepted s r c
  · rw [if_pos hne, if_pos hne]
    by_cases h1 : counter s r c = 1
    · have hfl := h.flip hcf hr hc hp
      obtain ⟨hlook, _⟩ := lookup_ok hcf hfl.idx hfl.maps hr hc
      have hdeb := flip_deb h hr16 hc8 p
      rw [pressOrRelease_accept h hr16 hc8 p h1, hlook, ok_bind, if_pos (show counter s r c ≤ 1 by omega)]
      rw [codeOf_flip]
      cases p with
      | true =>
        obtain ⟨b', e1, e2⟩ := activateKey_code (cfg := cfg) hfl hx
        rw [if_pos rfl, if_pos rfl]
        refine ⟨_, e1, ?_, ?_, ⟨rfl, rfl, rfl, rfl, rfl⟩, rfl, ?_⟩
        · exact e2
        · have := hdeb r c hc8
          rw [if_pos ⟨rfl, rfl⟩] at this
          show One.mk (debOf (flipCell s r c true) r c) _ _ _ _ = _
          rw [this]; rfl
        · intro r' c' hc' hn
          have := hdeb r' c' hc'
          rw [if_neg hn] at this
          exact this
      | false =>
        rw [if_neg (by decide), if_neg (by decide), deactivateKey_code hx]
        refine ⟨_, rfl, hfl.withLast ?_, ?_, ⟨rfl, rfl, rfl, rfl, rfl⟩, rfl, ?_⟩
        · split
          · decide
          · exact h.last
        · have := hdeb r c hc8
          rw [if_pos ⟨rfl, rfl⟩] at this
          show One.mk (debOf (flipCell s r c false) r c) _ _ _ _ = _
          rw [this]; rfl
        · intro r' c' hc' hn
          have := hdeb r' c' hc'
          rw [if_neg hn] at this
          exact this
    · obtain ⟨y, hy, hy1', hy2, e⟩ := pressOrRelease_count (cfg := cfg) h hr16 hc8 p h1
      rw [if_neg (show ¬ counter s r c ≤ 1 by omega)]
      have hcw := counter_withCount (s := s) (r := r) (c := c) (by rw [h.cntLen]; exact hr16)
        (by rw [(h.cntRow' hr16).2]; exact hc8) y
      refine ⟨_, e, h.withCount hr16 hy1' hy2, ?_, ⟨rfl, rfl, rfl, rfl, rfl⟩, rfl, ?_⟩
      · show One.mk (Deb.mk (accepted s r c) (counter (withCount s r c y) r c)) _ _ _ _ = _
        rw [hcw, if_pos ⟨rfl, rfl⟩, show y.toNat = counter s r c - 1 by omega]
        rfl
      · intro r' c' _ hn
        show Deb.mk (accepted s r' c') (counter (withCount s r c y) r' c') = _
        rw [hcw, if_neg hn]; rfl
  · rw [if_neg hne, if_neg hne]
    have heq : p = accepted s r c := by simpa using hne
    cases p with
    | false =>
      rw [if_neg (by decide), if_neg (fun hh => by cases hh.1)]
      exact ⟨s, rfl, h, rfl, Rest.refl s, rfl, fun _ _ _ _ => rfl⟩
    | true =>
      rw [if_pos rfl]
      by_cases hl : codeOf s L.cols r c = s.lastKey
      · rw [if_pos ⟨rfl, hl⟩]
        cases hf : (repTick s.rep).1 with
        | true =>
          obtain ⟨b', e1, e2⟩ := heldPressed_fire hcf h hr hc hl hf
          rw [hl]
          exact ⟨_, e1, e2, rfl, ⟨rfl, rfl, rfl, rfl, rfl⟩, rfl, fun _ _ _ _ => rfl⟩
        | false =>
          exact ⟨_, heldPressed_wait hcf h hr hc hl hf, h.withRep h.rep.tick, rfl,
            ⟨rfl, rfl, rfl, rfl, rfl⟩, rfl, fun _ _ _ _ => rfl⟩
      · rw [if_neg (fun hh => hl hh.2)]
        exact ⟨s, heldPressed_other hcf h hr hc hl, h, rfl, Rest.refl s, rfl, fun _ _ _ _ => rfl⟩

/-- All keys except `(r, c)` rest in this reading. -/
def Silent (L : Layout) (s : State) (inp : Input) (r c : Nat) : Prop :=
  ∀ r' c', r' < L.rows → c' < L.cols → ¬ (r' = r ∧ c' = c) → sample inp r' c' = accepted s r' c' ∧
    (accepted s r' c' = true → codeOf s L.cols r' c' ≠ s.lastKey)

theorem keySteps_silent (hcf : CfgFacts cfg L) {inp : Input} {s : State} {ks ms a free}
    (h : WF cfg L s ks ms a free) {r c : Nat} (hq : Silent L s inp r c)
    (keys : List (Nat × Nat)) (hk : ∀ k ∈ keys, k.1 < L.rows ∧ k.2 < L.cols ∧ k ≠ (r, c)) :
    keySteps cfg inp keys s = .ok s := by
  induction keys with
  | nil => rfl
  | cons k keys ih =>
    obtain ⟨r', c'⟩ := k
    obtain ⟨hr, hc, hne⟩ := hk (r', c') (by simp)
    obtain ⟨h1, h2⟩ := hq r' c' hr hc (fun he => hne (by rw [he.1, he.2]))
    have : keyStep cfg (sample inp r' c') s r' c' = .ok s := by
      unfold keyStep
      rw [if_neg (by simp [h1])]
      cases hs : sample inp r' c' with
      | false => rw [if_neg (by decide)]
      | true =>
        rw [if_pos rfl]
        exact heldPressed_other hcf h hr hc (h2 (by rw [← h1, hs]))
    rw [keySteps_cons, this, ok_bind]
    exact ih (fun k hkm => hk k (by simp [hkm]))

/-- A scan in which only one key is active does only what that key does. -/
theorem keyscan_one (hcf : CfgFacts cfg L) {inp : Input} (hin : Allowed L inp) {s s1 : State}
    {ks ms a free ks1 ms1 a1 free1} (h : WF cfg L s ks ms a free)
    (h1 : WF cfg L s1 ks1 ms1 a1 free1) {r c : Nat} (hr : r < L.rows) (hc : c < L.cols)
    (he : keyStep cfg (sample inp r c) s r c = .ok s1) (hs : Silent L s inp r c)
    (hs1 : Silent L s1 inp r c) : keyscan cfg inp s = .ok s1 := by
  rw [keyscan_fold hcf hin ⟨_, _, _, _, h⟩]
  have hmem : (r, c) ∈ allKeys L := mem_allKeys.mpr ⟨hr, hc⟩
  obtain ⟨pre, post, hsplit⟩ := List.append_of_mem hmem
  have hnd : (allKeys L).Nodup := keyOrder_nodup _ _ _
  have hin' : ∀ k ∈ allKeys L, k.1 < L.rows ∧ k.2 < L.cols := fun k hk => mem_allKeys.mp hk
  rw [hsplit] at hnd hin' ⊢
  rw [List.nodup_append] at hnd
  obtain ⟨_, hnd2, hdis⟩ := hnd
  rw [List.nodup_cons] at hnd2
  rw [keySteps_append, keySteps_silent hcf h hs pre, ok_bind, keySteps_cons]
  · show (keyStep cfg (sample inp r c) s r c >>= _) = _
    rw [he, ok_bind]
    apply keySteps_silent hcf h1 hs1
    intro k hk
    refine ⟨(hin' k (by simp [hk])).1, (hin' k (by simp [hk])).2, ?_⟩
    rintro rfl
    exact hnd2.1 hk
  · intro k hk
    refine ⟨(hin' k (by simp [hk])).1, (hin' k (by simp [hk])).2, ?_⟩
    rintro rfl
    exact hdis _ hk _ (by simp) rfl

end

section

variable {cfg : Config} {L : Layout}

theorem One.key_last (x : Code) (p : Bool) (o : One) :
    (o.key x p).last = o.last ∨ (o.key x p).last = x ∨ (o.key x p).last = 0xA0 := by
  unfold One.key
  split
  · split
    · split
      · exact Or.inr (Or.inl rfl)
      · dsimp only
        split
        · exact Or.inr (Or.inr rfl)
        · exact Or.inl rfl
    · exact Or.inl rfl
  · split
    · exact Or.inl rfl
    · exact Or.inl rfl

theorem Spec.OthersRest.step {s s' : State} {r c : Nat} {inp : Input} (hr : Rest s s')
    (hl : s'.lastKey = s.lastKey ∨ s'.lastKey = codeOf s L.cols r c ∨ s'.lastKey = 0xA0)
    (hd : ∀ r' c', r' < L.rows → c' < L.cols → ¬ (r' = r ∧ c' = c) →
      accepted s' r' c' = accepted s r' c')
    (h : OthersRest L s r c inp) : OthersRest L s' r c inp := by
  intro r' c' h1 h2 h3
  obtain ⟨g1, g2⟩ := h r' c' h1 h2 h3
  rw [hd r' c' h1 h2 h3, hr.codeOf, hr.codeOf]
  refine ⟨g1, fun ha => ?_⟩
  obtain ⟨k1, k2, k3⟩ := g2 ha
  refine ⟨?_, k2, k3⟩
  rcases hl with hl | hl | hl <;> rw [hl] <;> assumption

theorem Spec.OthersRest.silent {s : State} {r c : Nat} {inp : Input} (h : OthersRest L s r c inp) :
    Silent L s inp r c :=
  fun r' c' h1 h2 h3 => ⟨(h r' c' h1 h2 h3).1, fun ha => ((h r' c' h1 h2 h3).2 ha).1⟩

/-- One pass in which the other keys rest. -/
theorem tick_one (hcf : CfgFacts cfg L) {inp : Input} (hin : Allowed L inp) {s : State}
    {ks ms a free} (h : WF cfg L s ks ms a free) {r c : Nat} (hr : r < L.rows) (hc : c < L.cols)
    (hx : (codeOf s L.cols r c).toNat ≤ 0xA0) (ho : OthersRest L s r c inp) :
    ∃ s' evs, tick cfg s inp = .ok s' ∧
      WF cfg L s' ((oneOf s r c ks ms).tick (codeOf s L.cols r c) (sample inp r c)).ks
        ((oneOf s r c ks ms).tick (codeOf s L.cols r c) (sample inp r c)).ms a free ∧
      oneOf s' r c ((oneOf s r c ks ms).tick (codeOf s L.cols r c) (sample inp r c)).ks
        ((oneOf s r c ks ms).tick (codeOf s L.cols r c) (sample inp r c)).ms =
        (oneOf s r c ks ms).tick (codeOf s L.cols r c) (sample inp r c) ∧
      Rest s s' ∧ s'.dev.trace = s.dev.trace ++ evs ∧ sends evs = sentNow ks ms ∧
      (∀ r' c', c' < 8 → ¬ (r' = r ∧ c' = c) → debOf s' r' c' = debOf s r' c') := by
  obtain ⟨b', e1, e2⟩ := outputPhase_ok hcf h
  have hke : (if frontL ms = 0xA0 then ks.tail else ks) = keysLeft ks ms := by
    unfold keysLeft
    by_cases he : ms = []
    · rw [if_pos ((frontL_ne h.codes.2).mpr he), if_pos he]
    · rw [if_neg (fun hh => he ((frontL_ne h.codes.2).mp hh)), if_neg he]
  rw [hke] at e2
  obtain ⟨s', g1, g2, g3, g4, g5, g6⟩ := keyStep_one hcf e2 hr hc (p := sample inp r c)
    (hin.free hr hc) hx
  have hms : ((oneOf s r c ks ms).tick (codeOf s L.cols r c) (sample inp r c)).ms = ms.tail :=
    One.key_ms _ _ _
  have hlast := One.key_last (codeOf s L.cols r c) (sample inp r c) (oneOf s r c ks ms).out
  have hl' : s'.lastKey = ((oneOf s r c ks ms).out.key (codeOf s L.cols r c) (sample inp r c)).last :=
    congrArg One.last g3
  have hos := OthersRest.step (L := L) (s := { s with
        buf := b',
        dev := { s.dev with trace := s.dev.trace ++ outTrace s.printDelay ks ms } })
      g4 (by rw [hl']; exact hlast)
      (fun r' c' _ h2 h3 => congrArg Deb.on (g6 r' c' (Nat.lt_of_lt_of_le h2 hcf.cols8) h3)) ho
  have hsc := keyscan_one hcf hin e2 g2 hr hc g1 (OthersRest.silent ho) hos.silent
  refine ⟨s', outTrace s.printDelay ks ms, ?_, ?_, ?_, ?_, ?_, sends_outTrace _ h.codes, ?_⟩
  · unfold tick; rw [e1, ok_bind, hsc]
  · rw [hms]; exact g2
  · rw [hms]; exact g3
  · exact ⟨g4.mods, g4.maps, g4.idx, g4.hooks, g4.delay⟩
  · rw [g5]
  · exact g6

/-- Many passes in which the other keys rest. -/
theorem run_one (hcf : CfgFacts cfg L) (inps : List Input) (hin : ∀ inp ∈ inps, Allowed L inp)
    {s : State} {ks ms a free} (h : WF cfg L s ks ms a free) {r c : Nat} (hr : r < L.rows)
    (hc : c < L.cols) (x : Code) (hxe : codeOf s L.cols r c = x) (hx : x.toNat ≤ 0xA0)
    (ho : ∀ inp ∈ inps, OthersRest L s r c inp) :
    ∃ s' evs, run cfg s inps = .ok s' ∧
      WF cfg L s' ((samplesOf inps r c).foldl (One.tick x) (oneOf s r c ks ms)).ks
        ((samplesOf inps r c).foldl (One.tick x) (oneOf s r c ks ms)).ms a free ∧
      oneOf s' r c ((samplesOf inps r c).foldl (One.tick x) (oneOf s r c ks ms)).ks
        ((samplesOf inps r c).foldl (One.tick x) (oneOf s r c ks ms)).ms =
        (samplesOf inps r c).foldl (One.tick x) (oneOf s r c ks ms) ∧
      Rest s s' ∧ s'.dev.trace = s.dev.trace ++ evs ∧
      sends evs = (oneOf s r c ks ms).sent x (samplesOf inps r c) ∧
      (∀ r' c', c' < 8 → ¬ (r' = r ∧ c' = c) → debOf s' r' c' = debOf s r' c') := by
  induction inps generalizing s ks ms with
  | nil =>
    exact ⟨s, [], rfl, h, rfl, Rest.refl s, (List.append_nil _).symm, rfl, fun _ _ _ _ => rfl⟩
  | cons inp inps ih =>
    have hin1 := hin inp (by simp)
    have ho1 := ho inp (by simp)
    obtain ⟨s1, ev1, e1, e2, e3, e4, e5, e6, e7⟩ := tick_one hcf hin1 h hr hc
      (by rw [hxe]; exact hx) ho1
    rw [hxe] at e2 e3
    have hl : s1.lastKey = s.lastKey ∨ s1.lastKey = codeOf s L.cols r c ∨ s1.lastKey = 0xA0 := by
      rw [hxe]
      have : s1.lastKey = ((oneOf s r c ks ms).tick x (sample inp r c)).last := congrArg One.last e3
      rw [this]
      exact One.key_last _ _ _
    obtain ⟨s2, ev2, g1, g2, g3, g4, g5, g6, g7⟩ := ih (fun i hi => hin i (by simp [hi])) e2
      (by rw [e4.codeOf, hxe]) (fun i hi => OthersRest.step e4 hl
        (fun r' c' _ h2 h3 => congrArg Deb.on (e7 r' c' (Nat.lt_of_lt_of_le h2 hcf.cols8) h3))
        (ho i (by simp [hi])))
    rw [e3] at g2 g3 g6
    refine ⟨s2, ev1 ++ ev2, ?_, g2, g3, e4.trans g4, ?_, ?_, ?_⟩
    · rw [run_cons, e1, ok_bind, g1]
    · rw [g5, e5, List.append_assoc]
    · rw [sends_append, e6, g6]; rfl
    · intro r' c' h1 h2
      rw [g7 r' c' h1 h2, e7 r' c' h1 h2]

end

end Asdf
