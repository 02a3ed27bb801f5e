import Verif.Lemmas.Trapped

/-! # The shipped firmware is the one without keymaps 4 and 5 until the switch closes -/

namespace Asdf

open Spec

/-- The key handled next closes DIP switch 2 while switch 1 is open. -/
def KTrips (k : Kb) (p : Bool) (x : Nat × Nat) : Prop :=
  x = (8, 2) ∧ p = true ∧ (k.deb 8 2).on = false ∧ (k.deb 8 2).left = 1 ∧ (k.deb 8 1).on = false

/-- No key handled in the list does. -/
def Calm (inp : Input) : List (Nat × Nat) → Kb → Prop
  | [], _ => True
  | x :: xs, k => ¬ KTrips k (sample inp x.1 x.2) x ∧
      Calm inp xs (k.key fourMaps openLayout (sample inp x.1 x.2) x.1 x.2)

/-- The keyboard after the keys of the list. -/
def keysKb (inp : Input) (xs : List (Nat × Nat)) (k : Kb) : Kb :=
  xs.foldl (fun k x => k.key fourMaps openLayout (sample inp x.1 x.2) x.1 x.2) k

theorem calm_append (inp : Input) (xs ys : List (Nat × Nat)) (k : Kb) :
    Calm inp (xs ++ ys) k ↔ Calm inp xs k ∧ Calm inp ys (keysKb inp xs k) := by
  induction xs generalizing k with
  | nil => simp [Calm, keysKb]
  | cons x xs ih =>
    simp only [List.cons_append, Calm, ih, and_assoc]
    rfl

theorem calm_other (inp : Input) (xs : List (Nat × Nat)) (h : (8, 2) ∉ xs) (k : Kb) :
    Calm inp xs k := by
  induction xs generalizing k with
  | nil => trivial
  | cons x xs ih =>
    refine ⟨?_, ih (fun hm => h (List.mem_cons_of_mem _ hm)) _⟩
    rintro ⟨hx, _⟩
    exact h (hx ▸ List.mem_cons_self)

theorem keysKb_deb (inp : Input) (xs : List (Nat × Nat)) (hn : xs.Nodup) (k : Kb) (r c : Nat) :
    (keysKb inp xs k).deb r c =
      if (r, c) ∈ xs then (k.deb r c).step (sample inp r c) else k.deb r c := by
  induction xs generalizing k with
  | nil => rfl
  | cons x xs ih =>
    obtain ⟨hx, hn⟩ := List.nodup_cons.mp hn
    show (keysKb inp xs _).deb r c = _
    rw [ih hn, key_deb]
    by_cases he : (r, c) = x
    · subst he
      rw [if_neg hx, if_pos (And.intro rfl rfl), if_pos List.mem_cons_self]
    · have he' : ¬ (r = x.1 ∧ c = x.2) := fun h => he (Prod.ext h.1 h.2)
      rw [if_neg he']
      by_cases hm : (r, c) ∈ xs
      · rw [if_pos hm, if_pos (List.mem_cons_of_mem _ hm)]
      · rw [if_neg hm, if_neg (fun h => (List.mem_cons.mp h).elim he hm)]

theorem Follows.low {k : Kb} (h : Follows k) :
    (k.map = 0 ∨ k.map = 1) ↔ (k.deb 8 1).on = false := by
  have : ∀ x y : Bool, (twoBits x y = 0 ∨ twoBits x y = 1) ↔ y = false := by decide
  rw [h]
  exact this _ _

theorem tripsAt_iff {s : State} {k : Kb} (h : Shows fourMaps openLayout s k) (hf : Follows k)
    (r c : Nat) (p : Bool) : TripsAt s r c p ↔ KTrips k p (r, c) := by
  have hd : debOf s 8 2 = k.deb 8 2 := h.deb 8 2 (by decide) (by decide)
  have h1 : accepted s 8 2 = (k.deb 8 2).on := congrArg Deb.on hd
  have h2 : counter s 8 2 = (k.deb 8 2).left := congrArg Deb.left hd
  unfold TripsAt KTrips
  constructor
  · rintro ⟨hp, ha, hc, rfl, rfl, hi⟩
    exact ⟨rfl, hp, h1 ▸ ha, h2 ▸ hc, hf.low.mp (h.map ▸ hi)⟩
  · rintro ⟨he, hp, ha, hc, hi⟩
    cases he
    exact ⟨hp, h1.trans ha, h2.trans hc, rfl, rfl, h.map.symm ▸ hf.low.mpr hi⟩

theorem follows_keys (inp : Input) (xs : List (Nat × Nat)) (hx : ∀ x ∈ xs, x.1 < 9 ∧ x.2 < 8)
    {k : Kb} (h : Follows k) : Follows (keysKb inp xs k) := by
  induction xs generalizing k with
  | nil => exact h
  | cons x xs ih =>
    have h1 := hx x List.mem_cons_self
    exact ih (fun y hy => hx y (List.mem_cons_of_mem _ hy)) (h.key h1.1 h1.2 _)

/-- How one row is read. -/
theorem shipped_scanCols {inp : Input} {r : Nat} (hr : r < 9) (n : Nat) :
    ∀ {fuel col : Nat} {changed keys : UInt8} {s : State} {k : Kb},
      Shows fourMaps openLayout s k → Follows k → col + n = 8 → n < fuel →
      (∀ c, col ≤ c → c < 8 → bitOf keys (c - col) = sample inp r c) →
      (∀ c, col ≤ c → c < 8 → bitOf changed (c - col) = (sample inp r c != accepted s r c)) →
      (Calm inp ((List.range' col n).map (fun c => (r, c))) k →
        scanCols shipped r fuel col changed keys s =
          keySteps fourMaps inp ((List.range' col n).map (fun c => (r, c))) s) ∧
      (¬ Calm inp ((List.range' col n).map (fun c => (r, c))) k →
        scanCols shipped r fuel col changed keys s = .error .oob ∨
        ∃ s' m, scanCols shipped r fuel col changed keys s = .ok s' ∧ Trapped m s' ∧ 1 ≤ m ∧
          m ≤ 10) := by
  have hcf := fourMaps_facts
  induction n with
  | zero =>
    intro fuel col changed keys s k h hfo hcol hf _ _
    obtain ⟨fuel, rfl⟩ : ∃ f, fuel = f + 1 := ⟨fuel - 1, by omega⟩
    obtain ⟨free, hw⟩ := h.wf
    obtain ⟨m, h1, h2⟩ := numCols_ok hcf hw.idx hw.maps
    have h2 : m.toNat = 8 := h2
    refine ⟨fun _ => ?_, fun hc => absurd trivial hc⟩
    unfold scanCols
    rw [h1, ok_bind, if_neg (by omega)]
    rfl
  | succ n ih =>
    intro fuel col changed keys s k h hfo hcol hf hk hch
    obtain ⟨fuel, rfl⟩ : ∃ f, fuel = f + 1 := ⟨fuel - 1, by omega⟩
    obtain ⟨free, hw⟩ := h.wf
    obtain ⟨m, h1, h2⟩ := numCols_ok hcf hw.idx hw.maps
    have h2 : m.toNat = 8 := h2
    have hcl : col < 8 := by omega
    have hk0 : bitOf keys 0 = sample inp r col := by simpa using hk col (Nat.le_refl _) hcl
    have hc0 : bitOf changed 0 = (sample inp r col != accepted s r col) := by
      simpa using hch col (Nat.le_refl _) hcl
    have hstep : (if changed &&& 1 ≠ 0 then
          pressOrRelease shipped s r col (decide (keys &&& 1 ≠ 0))
        else if keys &&& 1 ≠ 0 then heldPressed shipped s r col else .ok s) =
        keyStep shipped (sample inp r col) s r col := by
      unfold keyStep
      have hd : decide (keys &&& 1 ≠ 0) = sample inp r col := by
        rw [← hk0]
        by_cases hb : bitOf keys 0 = true
        · rw [hb]; simpa using (and_one_ne_zero keys).mpr hb
        · have : ¬ (keys &&& 1 ≠ 0) := fun hh => hb ((and_one_ne_zero keys).mp hh)
          rw [decide_eq_false this]; simpa using hb
      rw [hd]
      have hi1 : (changed &&& 1 ≠ 0) ↔ (sample inp r col ≠ accepted s r col) := by
        rw [and_one_ne_zero, hc0]; simp
      have hi2 : (keys &&& 1 ≠ 0) ↔ (sample inp r col = true) := by
        rw [and_one_ne_zero, hk0]
      by_cases hx : sample inp r col ≠ accepted s r col
      · rw [if_pos hx, if_pos (hi1.mpr hx)]
      · rw [if_neg hx, if_neg (fun hh => hx (hi1.mp hh))]
        by_cases hy : sample inp r col = true
        · rw [if_pos hy, if_pos (hi2.mpr hy)]
        · rw [if_neg hy, if_neg (fun hh => hy (hi2.mp hh))]
    rw [List.range'_succ, List.map_cons, keySteps_cons, scanCols_succ, h1, ok_bind,
      if_pos (by omega), hstep]
    by_cases ht : KTrips k (sample inp r col) (r, col)
    · refine ⟨fun hc => absurd ht hc.1, fun _ => ?_⟩
      obtain ⟨s1, e1, e2⟩ := keyStep_trips hw ((tripsAt_iff h hfo _ _ _).mpr ht)
      have hcol2 : col = 2 := congrArg Prod.snd ht.1
      rw [e1, ok_bind]
      rcases trap_scanCols (r := r) (by omega) n (fuel := fuel) (col := col + 1)
        (changed := changed >>> 1) (keys := keys >>> 1) e2 (by omega) (by omega) (by omega)
        (fun _ hc => by omega) with e | ⟨s', n', g1, g2, g3, g4, _⟩
      · exact Or.inl e
      · exact Or.inr ⟨s', n', g1, g2, g3, g4⟩
    · have hag := keyStep_agree hw hr hcl (p := sample inp r col)
        (fun hh => ht ((tripsAt_iff h hfo _ _ _).mp hh))
      rw [hag]
      obtain ⟨s1, e1, e2⟩ := h.key hcf (r := r) (c := col) hr hcl (p := sample inp r col)
        (fun _ => rfl)
      rw [e1, ok_bind, ok_bind]
      obtain ⟨g1, g2⟩ := ih (fuel := fuel) (col := col + 1) (changed := changed >>> 1)
        (keys := keys >>> 1) e2 (hfo.key hr hcl _) (by omega) (by omega)
        (by
          intro c hc1 hc2
          rw [bitOf_shiftRight]
          have := hk c (by omega) hc2
          rwa [show c - col = c - (col + 1) + 1 by omega] at this)
        (by
          intro c hc1 hc2
          rw [bitOf_shiftRight]
          have := hch c (by omega) hc2
          rw [show c - col = c - (col + 1) + 1 by omega] at this
          rw [this]
          have hd : debOf s1 r c = debOf s r c := by
            rw [e2.deb r c hr hc2, key_deb, if_neg (by omega), h.deb r c hr hc2]
          have : accepted s1 r c = accepted s r c := congrArg Deb.on hd
          rw [this])
      exact ⟨fun hc => g1 hc.2, fun hc => g2 (fun hh => hc ⟨ht, hh⟩)⟩

/-- How the matrix is read. -/
theorem shipped_scanRows {inp : Input} (n : Nat) :
    ∀ {fuel row : Nat} {s : State} {k : Kb}, Shows fourMaps openLayout s k → Follows k →
      row + n = 9 → 16 < row + fuel →
      (Calm inp (keyOrder 8 row n) k →
        scanRows shipped .archReadRow inp fuel row s =
          keySteps fourMaps inp (keyOrder 8 row n) s) ∧
      (¬ Calm inp (keyOrder 8 row n) k →
        scanRows shipped .archReadRow inp fuel row s = .error .oob ∨
        ∃ s' m, scanRows shipped .archReadRow inp fuel row s = .ok s' ∧ Trapped m s' ∧ 1 ≤ m ∧
          m ≤ 10) := by
  have hcf := fourMaps_facts
  induction n with
  | zero =>
    intro fuel row s k h _ hrow hf
    obtain ⟨fuel, rfl⟩ : ∃ f, fuel = f + 1 := ⟨fuel - 1, by omega⟩
    obtain ⟨free, hw⟩ := h.wf
    obtain ⟨m, h1, h2⟩ := numRows_ok hcf hw.idx hw.maps
    have h2 : m.toNat = 9 := h2
    refine ⟨fun _ => ?_, fun hc => absurd trivial hc⟩
    unfold scanRows
    rw [h1, ok_bind, if_neg (by omega)]
    rfl
  | succ n ih =>
    intro fuel row s k h hfo hrow hf
    obtain ⟨fuel, rfl⟩ : ∃ f, fuel = f + 1 := ⟨fuel - 1, by omega⟩
    obtain ⟨free, hw⟩ := h.wf
    obtain ⟨m, h1, h2⟩ := numRows_ok hcf hw.idx hw.maps
    have h2 : m.toNat = 9 := h2
    have hst : row < s.stable.length := by rw [hw.stableLen]; omega
    have hst' : s.stable[row] = (s.stable[row]?).getD 0 := by
      rw [List.getElem?_eq_getElem hst]; rfl
    have hlist : keyOrder 8 row (n + 1) =
        ((List.range' 0 8).map fun c => (row, c)) ++ keyOrder 8 (row + 1) n := by
      unfold keyOrder; rw [List.range'_succ (n := n), List.flatMap_cons]
    unfold scanRows
    rw [h1, ok_bind, if_pos (by omega), hlist, keySteps_append, calm_append]
    show (_ → (rd s.stable row >>= _) = _) ∧
      (_ → (rd s.stable row >>= _) = _ ∨ ∃ s' n', (rd s.stable row >>= _) = _ ∧ _)
    rw [rd_ok hst, ok_bind]
    obtain ⟨c1, c2⟩ := shipped_scanCols (inp := inp) (r := row) (by omega) 8 (fuel := 256)
      (col := 0) (changed := inp row ^^^ s.stable[row]) (keys := inp row) h hfo (by omega)
      (by omega) (fun c _ _ => by simp [sample])
      (fun c _ _ => by simp [sample, bitOf_xor, accepted, hst'])
    by_cases hc : Calm inp ((List.range' 0 8).map fun c => (row, c)) k
    · have hx : ∀ x ∈ (List.range' 0 8).map fun c => (row, c), x.1 < 9 ∧ x.2 < 8 := by
        intro x hx
        simp only [List.mem_map, List.mem_range'_1] at hx
        obtain ⟨c, hc, rfl⟩ := hx
        exact ⟨by omega, by omega⟩
      obtain ⟨s1, e1, e2⟩ := h.keys hcf (openLayout_allowed inp) _ hx
      obtain ⟨g1, g2⟩ := ih (fuel := fuel) (row := row + 1) e2 (follows_keys inp _ hx hfo)
        (by omega) (by omega)
      have hsc := c1 hc
      rw [hsc, e1, ok_bind, ok_bind]
      exact ⟨fun hh => g1 hh.2, fun hh => g2 (fun h2 => hh ⟨hc, h2⟩)⟩
    · refine ⟨fun hh => absurd hh.1 hc, fun _ => ?_⟩
      rcases c2 hc with e | ⟨s1, m1, e1, e2, e3, e4⟩
      · left
        rw [e]; rfl
      · rw [e1, ok_bind]
        rcases trap_scanRows (inp := inp) fuel (row := row + 1) e2 e3 (by omega) (by omega) with
          e | ⟨s', n', g1, g2, g3, g4, _⟩
        · exact Or.inl e
        · exact Or.inr ⟨s', n', g1, g2, g3, by omega⟩

theorem shipped_keyscan {inp : Input} {s : State} {k : Kb} (h : Shows fourMaps openLayout s k)
    (hf : Follows k) :
    (Calm inp (keysOf openLayout) k → keyscan shipped inp s = keyscan fourMaps inp s) ∧
    (¬ Calm inp (keysOf openLayout) k → keyscan shipped inp s = .error .oob ∨
      ∃ s' m, keyscan shipped inp s = .ok s' ∧ Trapped m s' ∧ 1 ≤ m ∧ m ≤ 10) := by
  obtain ⟨free, hw⟩ := h.wf
  have hcf := fourMaps_facts
  obtain ⟨hk2, hk3, hk4, _⟩ := hooksOk_facts (hcf.parts hw.idx).2.2.2
  rw [← hw.hooks] at hk2 hk4
  have hk2' : s.hooks[HOOK_ROW_SCANNER]? = some .archReadRow := hk2
  have hk4' : s.hooks[HOOK_EACH_SCAN]? = some .null := hk4
  have e : keyscan shipped inp s = scanRows shipped .archReadRow inp 256 0 s := by
    unfold keyscan hookGet hookExecute
    rw [if_pos (hookValid_iff.mpr (by decide)), rd_some hk2', ok_bind]
    rw [if_pos (hookValid_iff.mpr (by decide)), rd_some hk4', ok_bind]
    rfl
  rw [e, keyscan_fold hcf (openLayout_allowed inp) ⟨_, _, _, _, hw⟩, keysOf_allKeys]
  exact shipped_scanRows 9 h hf (by omega) (by omega)

theorem step_trips (d : Deb) (p : Bool) (hd : 1 ≤ d.left) :
    (p = true ∧ d.on = false ∧ d.left = 1) ↔ (d.on = false ∧ (d.step p).on = true) := by
  unfold Deb.step
  constructor
  · rintro ⟨rfl, h2, h3⟩
    refine ⟨h2, ?_⟩
    rw [if_neg (by rw [h2]; decide), if_pos (by omega)]
  · rintro ⟨h1, h2⟩
    by_cases hp : p = d.on
    · rw [if_pos hp, h1] at h2; cases h2
    · rw [if_neg hp] at h2
      by_cases hl : d.left ≤ 1
      · rw [if_pos hl] at h2
        exact ⟨h2, h1, by omega⟩
      · rw [if_neg hl] at h2
        rw [h1] at h2; cases h2

/-- The keys before and after DIP switch 2 in a scan. -/
theorem keys_split : keysOf openLayout =
      (keysOf openLayout).take 66 ++ (8, 2) :: (keysOf openLayout).drop 67 ∧
    (keysOf openLayout).Nodup ∧ (8, 1) ∈ (keysOf openLayout).take 66 ∧
    (8, 2) ∉ (keysOf openLayout).take 66 ∧ (8, 2) ∉ (keysOf openLayout).drop 67 := by
  decide +kernel

theorem calm_iff (inp : Input) (k : Kb) (hd : 1 ≤ (k.deb 8 2).left) :
    Calm inp (keysOf openLayout) k ↔ ¬ ((k.deb 8 2).on = false ∧
      ((k.deb 8 2).step (sample inp 8 2)).on = true ∧
      ((k.deb 8 1).step (sample inp 8 1)).on = false) := by
  obtain ⟨h1, h2, h3, h4, h5⟩ := keys_split
  have hn : ((keysOf openLayout).take 66).Nodup := h2.sublist (List.take_sublist _ _)
  rw [h1, calm_append]
  have hA := calm_other inp _ h4 k
  have hB := calm_other inp _ h5
    ((keysKb inp ((keysOf openLayout).take 66) k).key fourMaps openLayout (sample inp 8 2) 8 2)
  have d2 := keysKb_deb inp _ hn k 8 2
  have d1 := keysKb_deb inp _ hn k 8 1
  rw [if_neg h4] at d2
  rw [if_pos h3] at d1
  have hk : KTrips (keysKb inp ((keysOf openLayout).take 66) k) (sample inp 8 2) (8, 2) ↔
      ((k.deb 8 2).on = false ∧ ((k.deb 8 2).step (sample inp 8 2)).on = true ∧
      ((k.deb 8 1).step (sample inp 8 1)).on = false) := by
    unfold KTrips
    rw [d2, d1]
    have hs := step_trips (k.deb 8 2) (sample inp 8 2) hd
    constructor
    · rintro ⟨_, a, b, c, d⟩
      exact ⟨b, (hs.mp ⟨a, b, c⟩).2, d⟩
    · rintro ⟨b, c, d⟩
      obtain ⟨x, y, z⟩ := hs.mpr ⟨b, c⟩
      exact ⟨rfl, x, y, z, d⟩
  constructor
  · rintro ⟨_, hc⟩ ht
    exact hc.1 (hk.mpr ht)
  · intro ht
    exact ⟨hA, fun hh => ht (hk.mp hh), hB⟩

/-! ## Runs -/

/-- The keyboard after a run of the firmware without keymaps 4 and 5. -/
theorem four_run (inps : List Input) : ∃ s,
    (boot fourMaps >>= fun s0 => run fourMaps s0 inps) = .ok s ∧
    Shows fourMaps openLayout s (Kb.after fourMaps openLayout inps) ∧
    Follows (Kb.after fourMaps openLayout inps) := by
  have hcf := fourMaps_facts
  obtain ⟨s0, e1, e2⟩ := Shows.start hcf
  obtain ⟨s, g1, g2⟩ := e2.run hcf inps (fun inp _ => openLayout_allowed inp)
  refine ⟨s, by rw [e1, ok_bind]; exact g1, g2, ?_⟩
  exact after_induction hcf (Q := fun _ _ _ => True) Follows.start (fun k h => h.output)
    (fun k p r c _ _ hr hc _ h => h.key hr hc p) inps (fun inp _ => openLayout_allowed inp)
    (fun _ _ _ _ _ _ => trivial)

theorem kb_deb_after (inps : List Input) (r c : Nat) (hr : r < 9) (hc : c < 8) :
    (Kb.after fourMaps openLayout inps).deb r c =
      (samplesOf inps r c).foldl Deb.step Deb.init := by
  induction inps using snoc_induction with
  | h0 =>
    show (Kb.start fourMaps).deb r c = _
    unfold Kb.start
    rw [install_deb]; rfl
  | h1 inps inp ih =>
    have : Kb.after fourMaps openLayout (inps ++ [inp]) =
        keysKb inp (keysOf openLayout) (Kb.after fourMaps openLayout inps).output := by
      unfold Kb.after; rw [List.foldl_append]; rfl
    rw [this, keysKb_deb inp _ keys_split.2.1, output_deb, if_pos, ih]
    · unfold samplesOf
      rw [List.map_append, List.foldl_append]; rfl
    · rw [keysOf_allKeys]
      exact (mem_keyOrder _ _ _ _).mpr ⟨Nat.zero_le _, by simpa [openLayout] using hr, hc⟩

theorem deb_left (l : List Bool) : 1 ≤ (l.foldl Deb.step Deb.init).left := by
  induction l using snoc_induction with
  | h0 => decide
  | h1 l p ih =>
    rw [List.foldl_append]
    show 1 ≤ (Deb.step _ p).left
    unfold Deb.step
    split
    · exact ih
    · split
      · simp
      · show 1 ≤ _ - 1; omega

/-- A pass meets the condition exactly if a key handled in it does. -/
theorem calm_trips (pre : List Input) (inp : Input) :
    Calm inp (keysOf openLayout) (Kb.after fourMaps openLayout pre).output ↔ ¬ Trips pre inp := by
  have hc := calm_iff inp (Kb.after fourMaps openLayout pre).output (by
    rw [output_deb, kb_deb_after pre 8 2 (by decide) (by decide)]
    exact deb_left _)
  rw [hc, output_deb, kb_deb_after pre 8 2 (by decide) (by decide),
    kb_deb_after pre 8 1 (by decide) (by decide)]
  unfold Trips dip debounced samplesOf
  rw [List.map_append, List.map_append, List.foldl_append, List.foldl_append]
  exact Iff.rfl

/-- One pass of the main loop after a run. -/
theorem shipped_pass (pre : List Input) (inp : Input) {s : State}
    (h : Shows fourMaps openLayout s (Kb.after fourMaps openLayout pre))
    (hf : Follows (Kb.after fourMaps openLayout pre)) :
    (¬ Trips pre inp → tick shipped s inp = tick fourMaps s inp) ∧
    (Trips pre inp → tick shipped s inp = .error .oob ∨
      ∃ s' m, tick shipped s inp = .ok s' ∧ Trapped m s' ∧ 1 ≤ m ∧ m ≤ 10) := by
  have hcf := fourMaps_facts
  obtain ⟨s1, e1, e2⟩ := h.output hcf
  obtain ⟨g1, g2⟩ := shipped_keyscan (inp := inp) e2 hf.output
  have ht := calm_trips pre inp
  unfold tick
  rw [e1, ok_bind, ok_bind]
  exact ⟨fun hn => g1 (ht.mpr hn), fun hn => g2 (fun hh => (ht.mp hh) hn)⟩

theorem boot_same : boot shipped = boot fourMaps := by decide +kernel

theorem Spec.NeverTrips.init {inps : List Input} {x : Input} (h : NeverTrips (inps ++ [x])) :
    NeverTrips inps ∧ ¬ Trips inps x := by
  refine ⟨?_, h inps x [] rfl⟩
  intro pre inp post e
  exact h pre inp (post ++ [x]) (by rw [e]; simp)

theorem Spec.NeverTrips.snoc {inps : List Input} {x : Input} (h : NeverTrips inps)
    (hx : ¬ Trips inps x) : NeverTrips (inps ++ [x]) := by
  intro pre inp post e
  rcases List.eq_nil_or_concat post with rfl | ⟨post', y, rfl⟩
  · obtain ⟨rfl, h2⟩ := List.append_inj' e rfl
    cases h2
    exact hx
  · have e' : inps ++ [x] = (pre ++ inp :: post') ++ [y] := by rw [e]; simp
    obtain ⟨rfl, _⟩ := List.append_inj' e' rfl
    exact h pre inp post' rfl

theorem Spec.NeverTrips.nil : NeverTrips [] := by
  intro pre inp post e
  cases pre <;> cases e

theorem neverTrips_of {inps : List Input}
    (h : ∀ n, (hn : n < inps.length) → ¬ Trips (inps.take n) inps[n]) : NeverTrips inps := by
  intro pre inp post e
  have hn : pre.length < inps.length := by rw [e]; simp
  have := h pre.length hn
  simpa [e] using this

/-- A run either never meets the condition or has a first place where it does. -/
theorem first_trip (inps : List Input) : NeverTrips inps ∨
    ∃ pre inp post, inps = pre ++ inp :: post ∧ Trips pre inp ∧ NeverTrips pre := by
  induction inps using snoc_induction with
  | h0 => exact Or.inl .nil
  | h1 inps x ih =>
    rcases ih with h | ⟨pre, inp, post, e, h1, h2⟩
    · by_cases hx : Trips inps x
      · exact Or.inr ⟨inps, x, [], rfl, hx, h⟩
      · exact Or.inl (h.snoc hx)
    · exact Or.inr ⟨pre, inp, post ++ [x], by rw [e]; simp, h1, h2⟩

theorem powerUp_nil (cfg : Config) : powerUp cfg [] = boot cfg := by
  have h : ∀ x : Res State, (x >>= fun s0 => run cfg s0 []) = x := by
    intro x; cases x <;> rfl
  exact h _

theorem powerUp_snoc (cfg : Config) (inps : List Input) (x : Input) :
    powerUp cfg (inps ++ [x]) = (powerUp cfg inps >>= fun s => tick cfg s x) := by
  unfold powerUp
  cases boot cfg with
  | error e => rfl
  | ok s0 =>
    rw [ok_bind, ok_bind, run_append]
    cases run cfg s0 inps with
    | error e => rfl
    | ok s =>
      rw [ok_bind, ok_bind, run_cons]
      cases tick cfg s x <;> rfl

theorem powerUp_same (inps : List Input) (h : NeverTrips inps) :
    powerUp shipped inps = powerUp fourMaps inps := by
  induction inps using snoc_induction with
  | h0 => rw [powerUp_nil, powerUp_nil, boot_same]
  | h1 inps x ih =>
    obtain ⟨h1, h2⟩ := h.init
    obtain ⟨s, e1, e2, e3⟩ := four_run inps
    have e1 : powerUp fourMaps inps = .ok s := e1
    rw [powerUp_snoc, powerUp_snoc, ih h1, e1, ok_bind, ok_bind]
    exact (shipped_pass inps x e2 e3).1 h2

theorem powerUp_append (cfg : Config) (i1 i2 : List Input) :
    powerUp cfg (i1 ++ i2) = (powerUp cfg i1 >>= fun s => run cfg s i2) := by
  unfold powerUp
  cases boot cfg with
  | error e => rfl
  | ok s0 => rw [ok_bind, ok_bind, run_append]

theorem powerUp_trips (pre : List Input) (inp : Input) (post : List Input) (h : Trips pre inp)
    (hn : NeverTrips pre) (hp : 10 ≤ post.length) :
    powerUp shipped (pre ++ inp :: post) = .error .oob := by
  obtain ⟨s, e1, e2, e3⟩ := four_run pre
  have e1 : powerUp fourMaps pre = .ok s := e1
  rw [powerUp_append, powerUp_same pre hn, e1, ok_bind, run_cons]
  rcases (shipped_pass pre inp e2 e3).2 h with e | ⟨s', m, g1, g2, g3, g4⟩
  · rw [e]; rfl
  · rw [g1, ok_bind]
    exact trap_run post g2 g3 (by omega)

theorem firstReadings_succ (f : Nat → Input) (n : Nat) :
    firstReadings f (n + 1) = firstReadings f n ++ [f n] := by
  unfold firstReadings
  rw [List.range_succ, List.map_append]; rfl

theorem firstReadings_never (f : Nat → Input) (h : ∀ n, ¬ Trips (firstReadings f n) (f n))
    (n : Nat) : NeverTrips (firstReadings f n) := by
  induction n with
  | zero => exact .nil
  | succ n ih => rw [firstReadings_succ]; exact ih.snoc (h n)

theorem firstReadings_add (f : Nat → Input) (n m : Nat) :
    ∃ l, l.length = m ∧ firstReadings f (n + m) = firstReadings f n ++ l := by
  induction m with
  | zero => exact ⟨[], rfl, by simp⟩
  | succ m ih =>
    obtain ⟨l, h1, h2⟩ := ih
    refine ⟨l ++ [f (n + m)], by simp [h1], ?_⟩
    rw [← Nat.add_assoc, firstReadings_succ, h2]; simp

theorem debounced_constant (b : Bool) (n : Nat) :
    debounced (List.replicate n b) = (b && decide (10 ≤ n)) := by
  by_cases hn : n < 10
  · have : ∀ n < 10, ∀ b : Bool,
        debounced (List.replicate n b) = (b && decide (10 ≤ n)) := by decide
    exact this n hn b
  · obtain ⟨m, rfl⟩ : ∃ m, n = 10 + m := ⟨n - 10, by omega⟩
    have h1 : ∀ b : Bool, (List.replicate 10 b).foldl Deb.step Deb.init = ⟨b, 10⟩ := by decide
    have h2 : (List.replicate m b).foldl Deb.step ⟨b, 10⟩ = ⟨b, 10⟩ := by
      induction m with
      | zero => rfl
      | succ m ih =>
        rw [List.replicate_succ, List.foldl_cons]
        have : Deb.step ⟨b, 10⟩ b = ⟨b, 10⟩ := if_pos rfl
        rw [this]
        exact ih (by omega)
    unfold debounced
    rw [← List.replicate_append_replicate, List.foldl_append, h1, h2]
    simp

theorem samples_constant (f : Nat → Input) (c : Nat) (b : Bool) (h : ∀ n, sample (f n) 8 c = b)
    (n : Nat) : dip (firstReadings f n) c = (b && decide (10 ≤ n)) := by
  have : samplesOf (firstReadings f n) 8 c = List.replicate n b := by
    unfold samplesOf firstReadings
    rw [List.map_map, List.eq_replicate_iff]
    refine ⟨by simp, ?_⟩
    intro x hx
    simp only [List.mem_map, Function.comp] at hx
    obtain ⟨m, _, rfl⟩ := hx
    exact h m
  unfold dip
  rw [this, debounced_constant]

end Asdf
