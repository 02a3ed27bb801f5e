import Verif.Lemmas.Main
import Verif.Lemmas.Trace

/-! # The two output streams over scans and main-loop passes -/

namespace Asdf

open Spec

theorem keysAfter_prefix (L : Layout) (p : Bool) (s : State) (r c : Nat) (ks : List Code) :
    ks <+: keysAfter L p s r c ks := by
  unfold keysAfter keysAfterPress
  split
  · split
    · exact putL_prefix _ _ _
    · exact List.prefix_rfl
  · split
    · exact putL_prefix _ _ _
    · exact List.prefix_rfl

theorem Spec.Allowed.free {L : Layout} {inp : Input} (hin : Allowed L inp) {r c : Nat}
    (hr : r < L.rows) (hc : c < L.cols) (hp : sample inp r c = true) : L.blocked r c = false := by
  cases hb : L.blocked r c with
  | false => rfl
  | true =>
    have := hin r c hr hc hb
    rw [this] at hp; cases hp

/-- Handling keys only appends to the streams. -/
theorem keySteps_wf {cfg : Config} {L : Layout} (hcf : CfgFacts cfg L) {inp : Input}
    (hin : Allowed L inp) (keys : List (Nat × Nat)) {s : State} {ks ms a free}
    (h : WF cfg L s ks ms a free) (hk : ∀ k ∈ keys, k.1 < L.rows ∧ k.2 < L.cols) :
    ∃ s' ks' ms' a' free', keySteps cfg inp keys s = .ok s' ∧ WF cfg L s' ks' ms' a' free' ∧
      ks <+: ks' ∧ ms <+: ms' := by
  induction keys generalizing s ks ms a free with
  | nil => exact ⟨s, ks, ms, a, free, rfl, h, List.prefix_rfl, List.prefix_rfl⟩
  | cons k keys ih =>
    obtain ⟨r, c⟩ := k
    have hrc := hk (r, c) (by simp)
    obtain ⟨s1, ms1, a1, f1, e1, e2, e4, _⟩ := keyStep_ok hcf h hrc.1 hrc.2 (p := sample inp r c)
      (hin.free hrc.1 hrc.2)
    obtain ⟨s2, ks2, ms2, a2, f2, g1, g2, g3, g4⟩ := ih e2 (fun k hkm => hk k (by simp [hkm]))
    refine ⟨s2, ks2, ms2, a2, f2, ?_, g2, (keysAfter_prefix _ _ _ _ _ _).trans g3, e4.trans g4⟩
    rw [keySteps_cons, e1, ok_bind, g1]

theorem mem_allKeys {L : Layout} {k : Nat × Nat} : k ∈ allKeys L ↔ k.1 < L.rows ∧ k.2 < L.cols := by
  unfold allKeys; rw [mem_keyOrder]; omega

theorem keyscan_wf {cfg : Config} {L : Layout} (hcf : CfgFacts cfg L) {inp : Input}
    (hin : Allowed L inp) {s : State} {ks ms a free} (h : WF cfg L s ks ms a free) :
    ∃ s' ks' ms' a' free', keyscan cfg inp s = .ok s' ∧ WF cfg L s' ks' ms' a' free' ∧
      ks <+: ks' ∧ ms <+: ms' := by
  rw [keyscan_fold hcf hin ⟨_, _, _, _, h⟩]
  exact keySteps_wf hcf hin _ h (fun k hk => mem_allKeys.mp hk)

/-! ## The head of the streams -/

theorem frontL_nil : frontL [] = 0xA0 := rfl

theorem frontL_cons (c : Code) (l : List Code) : frontL (c :: l) = c := rfl

theorem frontL_ne {ms : List Code} (h : ∀ c ∈ ms, c.toNat < 0xA0) :
    frontL ms = 0xA0 ↔ ms = [] := by
  cases ms with
  | nil => simp [frontL]
  | cons c ms =>
    rw [frontL_cons]
    constructor
    · intro he
      have := h c (by simp)
      rw [he] at this
      exact absurd this (by decide)
    · intro he; cases he

/-- What is sent in one pass. -/
def sentNow (ks ms : List Code) : List Code :=
  match ms with
  | m :: _ => [m]
  | [] => (ks.take 1).filter (fun c => decide (c.toNat < 0xA0))

theorem sends_outTrace (delay : UInt16) {ks ms : List Code} (h : CodesOk ks ms) :
    sends (outTrace delay ks ms) = sentNow ks ms := by
  unfold outTrace sentNow
  cases ms with
  | nil =>
    rw [if_pos frontL_nil]
    cases ks with
    | nil => rw [if_neg (by rw [frontL_nil]; decide)]; rfl
    | cons k ks =>
      rw [frontL_cons]
      by_cases hk : k.toNat < 0xA0
      · rw [if_pos hk]; simp [sends, hk]
      · rw [if_neg hk]; simp [sends, hk]
  | cons m ms =>
    have hm := h.2 m (by simp)
    rw [if_neg (by rw [frontL_ne h.2]; simp), frontL_cons, if_pos hm]
    rfl

theorem sends_append (a b : List Event) : sends (a ++ b) = sends a ++ sends b := by
  unfold sends; rw [List.filterMap_append]

/-- Keystrokes after the output part of one pass. -/
def keysLeft (ks ms : List Code) : List Code := if ms = [] then ks.tail else ks

/-- One main-loop pass on the streams. -/
theorem tick_wf {cfg : Config} {L : Layout} (hcf : CfgFacts cfg L) {inp : Input}
    (hin : Allowed L inp) {s : State} {ks ms a free} (h : WF cfg L s ks ms a free) :
    ∃ s' ks' ms' a' free' evs, tick cfg s inp = .ok s' ∧ WF cfg L s' ks' ms' a' free' ∧
      keysLeft ks ms <+: ks' ∧ ms.tail <+: ms' ∧ s'.dev.trace = s.dev.trace ++ evs ∧
      sends evs = sentNow ks ms := by
  obtain ⟨b', e1, e2⟩ := outputPhase_ok hcf h
  obtain ⟨s', ks', ms', a', f', g1, g2, g3, g4⟩ := keyscan_wf hcf hin e2
  obtain ⟨evs, t1, t2⟩ := keyscan_ns g1
  refine ⟨s', ks', ms', a', f', outTrace s.printDelay ks ms ++ evs, ?_, g2, ?_, g4, ?_, ?_⟩
  · unfold tick; rw [e1, ok_bind, g1]
  · unfold keysLeft
    by_cases he : ms = []
    · rw [if_pos ((frontL_ne h.codes.2).mpr he)] at g3; rw [if_pos he]; exact g3
    · rw [if_neg (fun hh => he ((frontL_ne h.codes.2).mp hh))] at g3; rw [if_neg he]; exact g3
  · rw [t1]; simp
  · rw [sends_append, t2, sends_outTrace _ h.codes, List.append_nil]

/-! ## Quiet passes -/

theorem keySteps_quiet {cfg : Config} {L : Layout} (hcf : CfgFacts cfg L) {inp : Input}
    {s : State} {ks ms a free} (h : WF cfg L s ks ms a free) (hq : Quiet L s inp)
    (keys : List (Nat × Nat)) (hk : ∀ k ∈ keys, k.1 < L.rows ∧ k.2 < L.cols) :
    keySteps cfg inp keys s = .ok s := by
  induction keys with
  | nil => rfl
  | cons k keys ih =>
    obtain ⟨r, c⟩ := k
    have hrc := hk (r, c) (by simp)
    obtain ⟨h1, h2⟩ := hq r c hrc.1 hrc.2
    have : keyStep cfg (sample inp r c) s r c = .ok s := by
      unfold keyStep
      rw [if_neg (by simp [h1])]
      cases hs : sample inp r c with
      | false => rw [if_neg (by decide)]
      | true =>
        rw [if_pos rfl]
        exact heldPressed_other hcf h hrc.1 hrc.2 (h2 (by rw [← h1, hs]))
    rw [keySteps_cons, this, ok_bind]
    exact ih (fun k hkm => hk k (by simp [hkm]))

theorem Quiet.allowed {cfg : Config} {L : Layout} {inp : Input} {s : State} {ks ms a free}
    (h : WF cfg L s ks ms a free) (hq : Quiet L s inp) : Allowed L inp := by
  intro r c hr hc hb
  rw [(hq r c hr hc).1]
  exact h.blocked r c hr hc hb

/-- A quiet pass only sends the next code. -/
theorem tick_quiet {cfg : Config} {L : Layout} (hcf : CfgFacts cfg L) {inp : Input}
    {s : State} {ks ms a free} (h : WF cfg L s ks ms a free) (hq : Quiet L s inp) :
    ∃ b', tick cfg s inp = .ok { s with
        buf := b',
        dev := { s.dev with trace := s.dev.trace ++ outTrace s.printDelay ks ms } } ∧
      WF cfg L { s with
        buf := b',
        dev := { s.dev with trace := s.dev.trace ++ outTrace s.printDelay ks ms } }
        (keysLeft ks ms) ms.tail a free := by
  obtain ⟨b', e1, e2⟩ := outputPhase_ok hcf h
  have hke : (if frontL ms = 0xA0 then ks.tail else ks) = keysLeft ks ms := by
    unfold keysLeft
    by_cases he : ms = []
    · rw [if_pos ((frontL_ne h.codes.2).mpr he), if_pos he]
    · rw [if_neg (fun hh => he ((frontL_ne h.codes.2).mp hh)), if_neg he]
  rw [hke] at e2
  refine ⟨b', ?_, e2⟩
  unfold tick
  rw [e1, ok_bind, keyscan_fold hcf (Quiet.allowed h hq) ⟨_, _, _, _, e2⟩]
  exact keySteps_quiet hcf e2 hq _ (fun k hk => mem_allKeys.mp hk)

end Asdf
