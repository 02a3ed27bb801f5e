import Verif.Lemmas.OneKey
import Verif.Spec.Typing

/-! # Closed form of holding one key, and the history invariant -/

namespace Asdf

open Spec

theorem One.sent_append (x : Code) (o : One) (a b : List Bool) :
    o.sent x (a ++ b) = o.sent x a ++ (a.foldl (One.tick x) o).sent x b := by
  induction a generalizing o with
  | nil => rfl
  | cons p a ih =>
    show sentNow o.ks o.ms ++ (o.tick x p).sent x (a ++ b) = _
    rw [ih, ← List.append_assoc]; rfl

/-- The repeat timer right after the press is accepted. -/
def One.pressRep (x : Code) (o : One) : RepState :=
  if o.last ≠ x then repResetCount o.rep else o.rep

/-- The code is queued in scan `j` of holding. -/
def One.queued (x : Code) (o : One) (j : Nat) : Bool :=
  j == o.deb.left || (decide (o.deb.left < j) && firesAt (o.pressRep x) (j - o.deb.left))

/-- The state after `n` scans of holding. -/
def One.held (x : Code) (o : One) (n : Nat) : One :=
  { deb := if n < o.deb.left then ⟨false, o.deb.left - n⟩ else ⟨true, 10⟩
    last := if n < o.deb.left then o.last else x
    rep := if n < o.deb.left then o.rep else heldFor (o.pressRep x) (n - o.deb.left)
    ks := if o.queued x n then [x] else []
    ms := [] }

theorem putL_nil (x : Code) : putL 16 [] x = [x] := rfl

theorem One.held_step (x : Code) (o : One) (n : Nat) :
    (o.held x n).tick x true = o.held x (n + 1) := by
  have hout : (o.held x n).out = { o.held x n with ks := [] } := by
    unfold One.out One.held keysLeft
    dsimp only
    rw [if_pos rfl]
    cases o.queued x n <;> rfl
  unfold One.tick
  rw [hout]
  unfold One.key One.held
  dsimp only
  by_cases h1 : n < o.deb.left
  · rw [if_pos h1, if_pos h1, if_pos h1]
    rw [if_pos (show (true ≠ false) by decide)]
    by_cases h2 : o.deb.left = n + 1
    · rw [if_pos (show o.deb.left - n ≤ 1 by omega)]
      have hq : o.queued x (n + 1) = true := by
        unfold One.queued; simp [h2]
      rw [if_neg (show ¬ n + 1 < o.deb.left by omega), if_neg (show ¬ n + 1 < o.deb.left by omega),
        if_neg (show ¬ n + 1 < o.deb.left by omega), if_pos hq, if_pos rfl]
      rw [show n + 1 - o.deb.left = 0 by omega]
      rfl
    · rw [if_neg (show ¬ o.deb.left - n ≤ 1 by omega)]
      have hq : o.queued x (n + 1) = false := by
        unfold One.queued
        rw [show (n + 1 == o.deb.left) = false by simp; omega,
          show decide (o.deb.left < n + 1) = false by simp; omega]
        rfl
      rw [if_pos (show n + 1 < o.deb.left by omega), if_pos (show n + 1 < o.deb.left by omega),
        if_pos (show n + 1 < o.deb.left by omega), hq]
      rw [show o.deb.left - n - 1 = o.deb.left - (n + 1) by omega]
      rfl
  · rw [if_neg h1, if_neg h1, if_neg h1]
    rw [if_neg (show ¬ (true ≠ true) by simp), if_pos ⟨rfl, rfl⟩]
    rw [if_neg (show ¬ n + 1 < o.deb.left by omega), if_neg (show ¬ n + 1 < o.deb.left by omega),
      if_neg (show ¬ n + 1 < o.deb.left by omega)]
    have hk : n + 1 - o.deb.left = n - o.deb.left + 1 := by omega
    have hq : o.queued x (n + 1) = (repTick (heldFor (o.pressRep x) (n - o.deb.left))).1 := by
      unfold One.queued
      rw [show (n + 1 == o.deb.left) = false by simp; omega,
        show decide (o.deb.left < n + 1) = true by simp; omega, hk]
      simp [firesAt]
    rw [hq, hk, putL_nil]
    rfl

theorem One.held_deb (x : Code) (o : One) {n : Nat} (h : ¬ n < o.deb.left) :
    (o.held x n).deb = ⟨true, 10⟩ := if_neg h

theorem One.held_last (x : Code) (o : One) {n : Nat} (h : ¬ n < o.deb.left) :
    (o.held x n).last = x := if_neg h

theorem One.held_rep (x : Code) (o : One) {n : Nat} (h : ¬ n < o.deb.left) :
    (o.held x n).rep = heldFor (o.pressRep x) (n - o.deb.left) := if_neg h

theorem One.held_ks (x : Code) (o : One) (n : Nat) :
    (o.held x n).ks = if o.queued x n then [x] else [] := rfl

theorem One.held_zero (x : Code) (o : One) (hl : 1 ≤ o.deb.left) (hon : o.deb.on = false)
    (hk : o.ks = []) (hm : o.ms = []) : o.held x 0 = o := by
  unfold One.held
  have hq : o.queued x 0 = false := by
    unfold One.queued
    rw [show (0 == o.deb.left) = false by simp; omega]
    simp
  rw [if_pos (show 0 < o.deb.left by omega), if_pos (show 0 < o.deb.left by omega),
    if_pos (show 0 < o.deb.left by omega), hq]
  obtain ⟨⟨on, left⟩, last, rep, ks, ms⟩ := o
  cases hon; cases hk; cases hm
  rfl

/-- Holding the key for `n` scans. -/
theorem One.hold (x : Code) (o : One) (hl : 1 ≤ o.deb.left) (hon : o.deb.on = false)
    (hk : o.ks = []) (hm : o.ms = []) (n : Nat) :
    (List.replicate n true).foldl (One.tick x) o = o.held x n ∧
    o.sent x (List.replicate n true) =
      if x.toNat < 0xA0 then List.replicate ((List.range n).countP (o.queued x)) x else [] := by
  induction n with
  | zero =>
    refine ⟨(o.held_zero x hl hon hk hm).symm, ?_⟩
    show [] = _
    split <;> rfl
  | succ n ih =>
    obtain ⟨ih1, ih2⟩ := ih
    rw [List.replicate_succ']
    constructor
    · rw [List.foldl_append, ih1]
      exact o.held_step x n
    · rw [One.sent_append, ih1, ih2]
      have hs : (o.held x n).sent x [true] = if o.queued x n then
          (if x.toNat < 0xA0 then [x] else []) else [] := by
        show sentNow (o.held x n).ks (o.held x n).ms ++ [] = _
        rw [List.append_nil]
        unfold One.held sentNow
        dsimp only
        cases o.queued x n
        · rfl
        · by_cases h : x.toNat < 0xA0 <;> simp [h]
      rw [hs, List.range_succ, List.countP_append, List.countP_singleton]
      by_cases h : x.toNat < 0xA0
      · rw [if_pos h, if_pos h, if_pos h]
        cases o.queued x n
        · simp
        · simp [← List.replicate_succ']
      · rw [if_neg h, if_neg h, if_neg h]; simp

/-- A key mapped to NOTHING transmits nothing. -/
theorem One.nothing_sent (o : One) (hk : ∀ k ∈ o.ks, k = 0xA0) (hm : o.ms = []) (ps : List Bool) :
    o.sent 0xA0 ps = [] := by
  induction ps generalizing o with
  | nil => rfl
  | cons p ps ih =>
    show sentNow o.ks o.ms ++ (o.tick 0xA0 p).sent 0xA0 ps = []
    have h1 : sentNow o.ks o.ms = [] := by
      rw [hm]
      unfold sentNow
      cases hks : o.ks with
      | nil => rfl
      | cons k ks =>
        have := hk k (by rw [hks]; simp)
        rw [this]; rfl
    have h2 : ∀ k ∈ o.out.ks, k = 0xA0 := by
      intro k hkm
      have : k ∈ keysLeft o.ks o.ms := hkm
      rw [hm] at this
      exact hk k (List.mem_of_mem_tail this)
    have h4 : ∀ k ∈ putL 16 o.out.ks 0xA0, k = 0xA0 := by
      intro k hkm
      unfold putL at hkm
      split at hkm
      · rcases List.mem_append.mp hkm with hkm | hkm
        · exact h2 k hkm
        · exact List.mem_singleton.mp hkm
      · exact h2 k hkm
    have h3 : ∀ k ∈ (o.tick 0xA0 p).ks, k = 0xA0 := by
      unfold One.tick One.key
      split
      · split
        · split
          · exact h4
          · exact h2
        · exact h2
      · split
        · dsimp only
          split
          · exact h4
          · exact h2
        · exact h2
    rw [h1, ih _ h3 (by
      unfold One.tick; rw [One.key_ms]
      show o.ms.tail = []
      rw [hm]; rfl)]
    rfl

/-- The schedule in closed form. -/
theorem One.queued_eq (x : Code) (o : One) (j : Nat) :
    o.queued x j = holdDue o.deb.left
      (if (o.pressRep x).timer = 0 then none else some (o.pressRep x).timer.toNat) j := by
  unfold One.queued holdDue
  by_cases hj : j = o.deb.left
  · simp [hj]
  · rw [show (j == o.deb.left) = false by simpa using hj]
    by_cases ht : (o.pressRep x).timer = 0
    · rw [if_pos ht, not_firesAt_zero _ ht]; simp
    · rw [if_neg ht]
      have hpos : 0 < (o.pressRep x).timer.toNat := by
        exact Nat.pos_of_ne_zero fun hc => ht (u16_eq_zero.mpr hc)
      by_cases hlt : o.deb.left < j
      · have := firesAt_iff (o.pressRep x) hpos (j - o.deb.left) (by omega)
        show (false || (decide (o.deb.left < j) && _)) = (false || (decide _ && _))
        simp only [hlt, decide_true, Bool.true_and, Bool.false_or]
        rw [Bool.eq_iff_iff, this]
        simp only [Bool.and_eq_true, decide_eq_true_eq, beq_iff_eq]
        omega
      · show (false || (decide (o.deb.left < j) && _)) = (false || (decide _ && _))
        rw [decide_eq_false hlt, decide_eq_false (by omega)]
        rfl

/-- How many codes are due before scan `n`. -/
theorem countP_holdDue (d t n : Nat) (ht : 1 ≤ t) :
    (List.range n).countP (holdDue d (some t)) =
      (if d < n then 1 else 0) + (if d + t < n then 1 + (n - 1 - d - t) / 66 else 0) := by
  induction n with
  | zero => rfl
  | succ n ih =>
    rw [List.range_succ, List.countP_append, ih, List.countP_singleton]
    show _ + (if (n == d || (decide (d + t ≤ n) && (n - d - t) % 66 == 0)) = true then 1 else 0) = _
    by_cases h1 : n = d
    · rw [if_neg (show ¬ d < n by omega), if_neg (show ¬ d + t < n by omega),
        if_pos (show d < n + 1 by omega), if_neg (show ¬ d + t < n + 1 by omega)]
      simp [h1]
    · by_cases h2 : d + t ≤ n
      · rw [if_pos (show d < n by omega), if_pos (show d < n + 1 by omega),
          if_pos (show d + t < n + 1 by omega)]
        rw [show (n == d) = false by simpa using h1]
        by_cases h3 : n = d + t
        · rw [if_neg (show ¬ d + t < n by omega)]
          rw [show n - d - t = 0 by omega, show n + 1 - 1 - d - t = 0 by omega]
          simp [h2]
        · rw [if_pos (show d + t < n by omega)]
          simp only [h2, decide_true, Bool.true_and, Bool.false_or]
          generalize hk : n - d - t = k
          rw [show n - 1 - d - t = k - 1 by omega, show n + 1 - 1 - d - t = k by omega]
          have hk1 : 1 ≤ k := by omega
          by_cases h4 : k % 66 = 0
          · simp [h4]; omega
          · simp [h4]; omega
      · rw [if_neg (show ¬ d + t < n by omega), if_neg (show ¬ d + t < n + 1 by omega)]
        rw [show (n == d) = false by simpa using h1, decide_eq_false h2]
        by_cases h3 : d < n
        · rw [if_pos h3, if_pos (show d < n + 1 by omega)]; simp
        · rw [if_neg h3, if_neg (show ¬ d < n + 1 by omega)]; simp

theorem countP_holdDue_none (d n : Nat) :
    (List.range n).countP (holdDue d none) = if d < n then 1 else 0 := by
  induction n with
  | zero => rfl
  | succ n ih =>
    rw [List.range_succ, List.countP_append, ih, List.countP_singleton]
    unfold holdDue
    by_cases h1 : n = d
    · rw [if_neg (by omega), if_pos (show d < n + 1 by omega)]; simp [h1]
    · rw [show (n == d) = false by simpa using h1]
      by_cases h3 : d < n
      · rw [if_pos h3, if_pos (show d < n + 1 by omega)]; simp
      · rw [if_neg h3, if_neg (show ¬ d < n + 1 by omega)]; simp

/-! ## Key events -/

/-- Keystrokes after an event. -/
def keysEv (ks : List Code) : Option KeyEv → List Code
  | some (.press _ _ code) => keysAfterPress ks code
  | some (.again _ _ code) => putL 16 ks code
  | _ => ks

/-- The code due for repetition after an event. -/
def lastEv (last : Code) : Option KeyEv → Code
  | some (.press _ _ code) => if code.toNat ≤ 0xA0 then code else last
  | some (.release _ _ code) => if last = code then 0xA0 else last
  | _ => last

theorem fire_iff (r : RepState) : (repTick r).1 = true ↔ r.timer = 1 := by
  rw [(repTick_spec r).1, decide_eq_true_eq]
  exact UInt16.toNat_inj (b := 1)

theorem putL_ne (ks : List Code) (x : Code) (h : ks.length < 16) : putL 16 ks x ≠ ks := by
  unfold putL
  rw [if_pos h]
  intro hb
  have := congrArg List.length hb
  simp at this

theorem One.key_again (x : Code) (o : One) (hon : o.deb.on = true) (hl : o.last = x)
    (ht : o.rep.timer = 1) :
    (o.key x true).deb = o.deb ∧ (o.key x true).ks = putL 16 o.ks x := by
  unfold One.key
  rw [if_neg (show ¬ true ≠ o.deb.on by rw [hon]; simp), if_pos ⟨rfl, hl.symm⟩]
  refine ⟨rfl, ?_⟩
  show (if (repTick o.rep).1 = true then _ else _) = _
  rw [if_pos ((fire_iff _).mpr ht)]

theorem keysAfter_ev (L : Layout) (p : Bool) (s : State) (r c : Nat) (ks : List Code) :
    keysAfter L p s r c ks = keysEv ks (eventOf L.cols s r c p) := by
  unfold keysAfter eventOf
  cases p <;> cases ha : accepted s r c
  · rw [if_neg (by simp), if_neg (by simp), if_neg (by simp), if_neg (by simp)]; rfl
  · rw [if_neg (by simp), if_neg (by simp), if_pos (by simp)]
    split <;> rfl
  · rw [if_pos (show true ≠ false by decide)]
    by_cases h1 : counter s r c = 1
    · rw [if_pos ⟨rfl, rfl, h1⟩, if_pos h1]; rfl
    · rw [if_neg (fun hh => h1 hh.2.2), if_neg (by simp), if_neg h1]; rfl
  · rw [if_neg (by simp), if_neg (show ¬ (true ≠ true) by simp)]
    by_cases h1 : codeOf s L.cols r c = s.lastKey ∧ s.rep.timer = 1
    · rw [if_pos ⟨rfl, rfl, h1.1, (fire_iff _).mpr h1.2⟩, if_pos ⟨rfl, h1⟩]
      show _ = putL 16 ks (codeOf s L.cols r c)
      rw [h1.1]
    · rw [if_neg (fun hh => h1 ⟨hh.2.2.1, (fire_iff _).mp hh.2.2.2⟩), if_neg (fun hh => h1 hh.2)]
      rfl

/-- One key: the streams and the code due for repetition follow the event. -/
theorem keyStep_ev {cfg : Config} {L : Layout} (hcf : CfgFacts cfg L) {s : State}
    {ks ms : List Code} {a : Outputs} {free : List Nat} (h : WF cfg L s ks ms a free) {r c : Nat}
    (hr : r < L.rows) (hc : c < L.cols) {p : Bool} (hp : p = true → L.blocked r c = false) :
    ∃ s' ms' a' free', keyStep cfg p s r c = .ok s' ∧
      WF cfg L s' (keysEv ks (eventOf L.cols s r c p)) ms' a' free' ∧ ms <+: ms' ∧
      s'.lastKey = lastEv s.lastKey (eventOf L.cols s r c p) := by
  obtain ⟨s', ms', a', f', e1, e2, e3, _⟩ := keyStep_ok hcf h hr hc hp
  rw [keysAfter_ev] at e2
  refine ⟨s', ms', a', f', e1, e2, e3, ?_⟩
  by_cases hx : (codeOf s L.cols r c).toNat ≤ 0xA0
  · obtain ⟨s2, g1, _, g3, _⟩ := keyStep_one hcf h hr hc hp hx
    rw [e1] at g1
    cases g1
    have := congrArg One.last g3
    have hl : s'.lastKey = ((oneOf s r c ks ms).key (codeOf s L.cols r c) p).last := this
    rw [hl]
    obtain ⟨y, _, hy, hy1, _⟩ := h.cell (r := r) (c := c) (Nat.lt_of_lt_of_le hr hcf.rows16)
      (Nat.lt_of_lt_of_le hc hcf.cols8)
    unfold One.key eventOf
    have hon : (oneOf s r c ks ms).deb.on = accepted s r c := rfl
    have hleft : (oneOf s r c ks ms).deb.left = counter s r c := rfl
    have hlast : (oneOf s r c ks ms).last = s.lastKey := rfl
    simp only [hon, hleft, hlast]
    by_cases hne : p ≠ accepted s r c
    · rw [if_pos hne, if_pos hne]
      by_cases h1 : counter s r c = 1
      · rw [if_pos (show counter s r c ≤ 1 by omega), if_pos h1]
        cases p
        · rfl
        · show codeOf s L.cols r c = if _ then _ else _
          rw [if_pos hx]
      · rw [if_neg (show ¬ counter s r c ≤ 1 by omega), if_neg h1]; rfl
    · rw [if_neg hne, if_neg hne]
      have : lastEv s.lastKey (if p = true ∧ codeOf s L.cols r c = s.lastKey ∧ s.rep.timer = 1 then
          some (.again r c (codeOf s L.cols r c)) else none) = s.lastKey := by split <;> rfl
      rw [this]
      split <;> rfl
  · have hr16 : r < 16 := Nat.lt_of_lt_of_le hr hcf.rows16
    have hc8 : c < 8 := Nat.lt_of_lt_of_le hc hcf.cols8
    have hln : codeOf s L.cols r c ≠ s.lastKey := by
      intro he; rw [he] at hx; exact hx h.last
    unfold keyStep at e1
    unfold eventOf
    by_cases hne : p ≠ accepted s r c
    · rw [if_pos hne] at e1 ⊢
      by_cases h1 : counter s r c = 1
      · rw [if_pos h1]
        have hfl := h.flip hcf hr hc hp
        obtain ⟨hlook, hms⟩ := lookup_ok hcf hfl.idx hfl.maps hr hc
        have hmsel : mapselOk cfg L (codeOf (flipCell s r c p) L.cols r c) = true := by
          rcases hms with hb | hb
          · exfalso
            cases p with
            | true => rw [hp rfl] at hb; cases hb
            | false =>
              have := h.blocked r c hr hc hb
              rw [this] at hne; exact hne rfl
          · exact hb
        have hgt : codeOf (flipCell s r c p) L.cols r c > INVALID_CODE := by
          rw [gt_invalid, codeOf_flip]; omega
        rw [pressOrRelease_accept h hr16 hc8 p h1, hlook, ok_bind] at e1
        cases p with
        | true =>
          obtain ⟨s2, _, _, _, g1, _, _, g4, _⟩ := activateAction_ok hcf hfl (actionOk_of hmsel)
          rw [if_pos rfl] at e1
          unfold activateKey at e1
          rw [if_pos hgt, g1] at e1
          cases e1
          show s'.lastKey = if _ then _ else _
          rw [if_neg hx, g4]; rfl
        | false =>
          obtain ⟨s2, _, _, g1, _, _, g4, _⟩ := deactivateAction_ok hcf hfl (actionOk_of hmsel)
          rw [if_neg (by decide)] at e1
          unfold deactivateKey at e1
          rw [if_pos hgt, g1] at e1
          cases e1
          show s'.lastKey = if s.lastKey = codeOf s L.cols r c then _ else _
          rw [if_neg (fun hh => hln hh.symm), g4]; rfl
      · obtain ⟨y, _, _, _, e⟩ := pressOrRelease_count (cfg := cfg) h hr16 hc8 p h1
        rw [e] at e1
        cases e1
        rw [if_neg h1]; rfl
    · rw [if_neg hne] at e1 ⊢
      rw [if_neg (fun hh => hln hh.2.1)]
      cases p with
      | false => rw [if_neg (by decide)] at e1; cases e1; rfl
      | true =>
        rw [if_pos rfl, heldPressed_other hcf h hr hc hln] at e1
        cases e1; rfl

/-- The last key in terms of the log. -/
def LastOk (last : Code) (log : List KeyEv) : Prop :=
  last = 0xA0 ∨ ∃ l1 r c l2, log = l1 ++ .press r c last :: l2 ∧
    ∀ e ∈ l2, e.pressesCode = false ∧ e.releases last = false

theorem LastOk.step {last : Code} {log : List KeyEv} (h : LastOk last log) (e : Option KeyEv)
    : LastOk (lastEv last e) (log ++ e.toList) := by
  have keep : ∀ e : KeyEv, e.pressesCode = false → e.releases last = false →
      LastOk last (log ++ [e]) := by
    intro e he1 he2
    rcases h with h | ⟨l1, r, c, l2, h1, h2⟩
    · exact Or.inl h
    · refine Or.inr ⟨l1, r, c, l2 ++ [e], by rw [h1]; simp, ?_⟩
      intro x hx
      rcases List.mem_append.mp hx with hx | hx
      · exact h2 x hx
      · rw [List.mem_singleton.mp hx]; exact ⟨he1, he2⟩
  cases e with
  | none => simpa [lastEv] using h
  | some e =>
    show LastOk _ (log ++ [e])
    cases e with
    | press r c code =>
      show LastOk (if code.toNat ≤ 0xA0 then code else last) _
      by_cases hc : code.toNat ≤ 0xA0
      · rw [if_pos hc]
        exact Or.inr ⟨log, r, c, [], rfl, by simp⟩
      · rw [if_neg hc]
        exact keep _ (by simpa [KeyEv.pressesCode] using hc) rfl
    | release r c code =>
      show LastOk (if last = code then 0xA0 else last) _
      by_cases hc : last = code
      · rw [if_pos hc]; exact Or.inl rfl
      · rw [if_neg hc]
        exact keep _ rfl (by simpa [KeyEv.releases] using fun hh => hc hh.symm)
    | again r c code => exact keep _ rfl rfl

/-- Every history keeps the invariant. -/
theorem Spec.History.inv {cfg : Config} {L : Layout} (hcf : CfgFacts cfg L) {s : State}
    {log : List KeyEv} (h : History cfg L s log) :
    (∃ ks ms a free, WF cfg L s ks ms a free) ∧ LastOk s.lastKey log := by
  induction h with
  | boot hb =>
    obtain ⟨s0, a, free, e1, e2, _⟩ := boot_inv hcf
    rw [e1] at hb; cases hb
    obtain ⟨_, _, _, g, _⟩ := boot_ok (cfg := cfg) (hcf.parts hcf.zero).2.1
    rw [e1] at g; cases g
    exact ⟨⟨_, _, _, _, e2⟩, Or.inl rfl⟩
  | output hs ho ih =>
    obtain ⟨⟨ks, ms, a, free, hw⟩, hl⟩ := ih
    obtain ⟨b', e1, e2⟩ := outputPhase_ok hcf hw
    rw [e1] at ho; cases ho
    exact ⟨⟨_, _, _, _, e2⟩, hl⟩
  | key hs r c p hr hc hp hk ih =>
    obtain ⟨⟨ks, ms, a, free, hw⟩, hl⟩ := ih
    obtain ⟨s2, _, _, _, e1, e2, _, e4⟩ := keyStep_ev hcf hw hr hc hp
    rw [e1] at hk; cases hk
    refine ⟨⟨_, _, _, _, e2⟩, ?_⟩
    rw [e4]
    exact hl.step _

theorem keySteps_history {cfg : Config} {L : Layout} {inp : Input}
    (hin : Allowed L inp) (keys : List (Nat × Nat)) {s s' : State} {log : List KeyEv}
    (h : History cfg L s log) (hk : ∀ k ∈ keys, k.1 < L.rows ∧ k.2 < L.cols)
    (he : keySteps cfg inp keys s = .ok s') : ∃ log', History cfg L s' (log ++ log') := by
  induction keys generalizing s log with
  | nil => cases he; exact ⟨[], by simpa using h⟩
  | cons k keys ih =>
    rw [keySteps_cons] at he
    obtain ⟨s1, h1, h2⟩ := bind_eq_ok.mp he
    have hrc := hk k (by simp)
    have := History.key h k.1 k.2 (sample inp k.1 k.2) hrc.1 hrc.2 (hin.free hrc.1 hrc.2) h1
    obtain ⟨log', hl⟩ := ih this (fun k hkm => hk k (by simp [hkm])) h2
    exact ⟨_, by rw [← List.append_assoc]; exact hl⟩

/-- Every main-loop pass extends a history. -/
theorem Spec.History.tick {cfg : Config} {L : Layout} (hcf : CfgFacts cfg L) {inp : Input}
    (hin : Allowed L inp) {s s' : State} {log : List KeyEv} (h : History cfg L s log)
    (ht : Asdf.tick cfg s inp = .ok s') : ∃ log', History cfg L s' (log ++ log') := by
  unfold Asdf.tick at ht
  obtain ⟨s1, h1, h2⟩ := bind_eq_ok.mp ht
  have hh := History.output h h1
  rw [keyscan_fold hcf hin (hh.inv hcf).1] at h2
  exact keySteps_history hin _ hh (fun k hk => mem_allKeys.mp hk) h2

theorem Spec.Reachable.history {cfg : Config} {L : Layout} (hcf : CfgFacts cfg L) {s : State}
    (h : Reachable cfg L s) : ∃ log, History cfg L s log := by
  obtain ⟨s0, inps, h1, h2, h3⟩ := h
  have h0 : History cfg L s0 [] := .boot h1
  clear h1
  generalize hl : ([] : List KeyEv) = log at h0
  clear hl
  induction inps generalizing s0 log with
  | nil => cases h3; exact ⟨log, h0⟩
  | cons inp inps ih =>
    rw [run_cons] at h3
    obtain ⟨s1, g1, g2⟩ := bind_eq_ok.mp h3
    obtain ⟨log', hl⟩ := h0.tick hcf (h2 inp (by simp)) g1
    exact ih s1 (fun i hi => h2 i (by simp [hi])) g2 _ hl

end Asdf
