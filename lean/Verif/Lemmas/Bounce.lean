import Verif.Lemmas.Loose
import Verif.Spec.Bounce

/-! # Contacts that bounce: the debouncer and the typist -/

namespace Asdf

open Spec

namespace Typist

open Loose

variable {cfg : Config} {L : Layout} {i : UInt8} {d : Nat}

/-! ## The debouncer -/

theorem deb_few (s : Bool) (l : List Bool) (n : Nat) (h : l.count (!s) < n) :
    l.foldl Deb.step ⟨s, n⟩ = ⟨s, n - l.count (!s)⟩ := by
  induction l generalizing n with
  | nil => simp
  | cons b l ih =>
    rw [List.foldl_cons]
    by_cases hb : b = s
    · have e : List.count (!s) (b :: l) = l.count (!s) := by
        rw [List.count_cons, hb]; cases s <;> simp
      rw [e] at h ⊢
      have : Deb.step ⟨s, n⟩ b = ⟨s, n⟩ := by simp [Deb.step, hb]
      rw [this, ih n h]
    · have hb' : b = !s := by cases b <;> cases s <;> simp_all
      have e : List.count (!s) (b :: l) = l.count (!s) + 1 := by
        rw [List.count_cons, hb']; simp
      rw [e] at h ⊢
      have : Deb.step ⟨s, n⟩ b = ⟨s, n - 1⟩ := by
        unfold Deb.step
        rw [if_neg hb, if_neg (by show ¬ (n ≤ 1); omega)]
      rw [this, ih (n - 1) (by omega)]
      congr 1
      omega

theorem deb_run (s : Bool) (a n : Nat) (ha : 1 ≤ a) (h : a ≤ n) :
    (List.replicate n (!s)).foldl Deb.step ⟨s, a⟩ = ⟨!s, 10⟩ := by
  have e : n = (a - 1) + (1 + (n - a)) := by omega
  rw [e, ← List.replicate_append_replicate, List.foldl_append, deb_few s _ a (by
    rw [List.count_replicate_self]; omega), List.count_replicate_self,
    ← List.replicate_append_replicate, List.foldl_append]
  have : (List.replicate 1 (!s)).foldl Deb.step ⟨s, a - (a - 1)⟩ = ⟨!s, 10⟩ := by
    show Deb.step _ (!s) = _
    unfold Deb.step
    rw [if_neg (by show ¬ (!s) = s; cases s <;> decide), if_pos (by show a - (a - 1) ≤ 1; omega)]
  rw [this, deb_same]

/-- The scan after which a change is accepted. -/
def acceptAt (s : Bool) (bs : List Bool) : Nat := bs.length + 9 - bs.count (!s)

theorem accept_bounds (s : Bool) {bs : List Bool} (h : bs.length ≤ 9) :
    9 ≤ acceptAt s bs ∧ acceptAt s bs < bs.length + 10 := by
  have := List.count_le_length (a := !s) (l := bs)
  unfold acceptAt
  omega

/-- A contact that bounces and is then steady: the change is accepted once. -/
theorem deb_move (s : Bool) {bs : List Bool} (hb : bs.length ≤ 9) {n k : Nat} (hn : 10 ≤ n)
    (hk : k ≤ bs.length + n) :
    (((bs ++ List.replicate n (!s)).take k).foldl Deb.step ⟨s, 10⟩).on =
      if k ≤ acceptAt s bs then s else !s := by
  have hc := List.count_le_length (a := !s) (l := bs)
  rw [List.take_append, List.take_replicate, List.foldl_append]
  by_cases h1 : k ≤ bs.length
  · have e0 : min (k - bs.length) n = 0 := by omega
    have hc' : (bs.take k).count (!s) ≤ bs.count (!s) := (List.take_sublist k bs).count_le _
    rw [e0, deb_few s _ 10 (by omega), List.replicate_zero, List.foldl_nil,
      if_pos (by have := (accept_bounds s hb).1; omega)]
  · rw [List.take_of_length_le (by omega), deb_few s bs 10 (by omega)]
    by_cases h2 : k ≤ acceptAt s bs
    · rw [if_pos h2, deb_few s _ _ (by
        rw [List.count_replicate_self]; unfold acceptAt at h2; omega)]
    · rw [if_neg h2, deb_run s _ _ (by omega) (by unfold acceptAt at h2; omega)]

theorem deb_moved (s : Bool) {bs : List Bool} (hb : bs.length ≤ 9) {n : Nat} (hn : 10 ≤ n) :
    (bs ++ List.replicate n (!s)).foldl Deb.step ⟨s, 10⟩ = ⟨!s, 10⟩ := by
  have hc := List.count_le_length (a := !s) (l := bs)
  rw [List.foldl_append, deb_few s bs 10 (by omega), deb_run s _ _ (by omega) (by omega)]

/-! ## One movement -/

/-- Readings in which one key moves. -/
structure OneMoves (L : Layout) (S S' : Down) (z : Nat × Nat) (bs : List Bool) (n : Nat) (rs : List Input) :
    Prop where
  len : bs.length ≤ 9
  steady : 10 ≤ n
  size : rs.length = bs.length + n
  row : z.1 < L.rows
  col : z.2 < L.cols
  turn : S' z.1 z.2 = !S z.1 z.2
  same : ∀ r c, (r, c) ≠ z → S' r c = S r c
  moves : samplesOf rs z.1 z.2 = bs ++ List.replicate n (S' z.1 z.2)
  rest : ∀ r c, r < L.rows → c < L.cols → (r, c) ≠ z → samplesOf rs r c = List.replicate rs.length (S r c)

section
variable {S S' : Down} {z : Nat × Nat} {bs : List Bool} {n : Nat} {rs pre : List Input}

theorem OneMoves.during (M : OneMoves L S S' z bs n rs) (h : Settled L pre S) {k : Nat} (hk : k ≤ rs.length)
    {r c : Nat} (hr : r < L.rows) (hc : c < L.cols) :
    downAfter (pre ++ rs.take k) r c = if k ≤ acceptAt (S z.1 z.2) bs then S r c else S' r c := by
  have ht : samplesOf (rs.take k) r c = (samplesOf rs r c).take k := List.map_take
  unfold downAfter debounced
  rw [samples_append, List.foldl_append, h r c hr hc, ht]
  by_cases e : (r, c) = z
  · subst e
    have := M.moves
    have hm := deb_move (S r c) M.len M.steady (k := k) (by rw [← M.size]; exact hk)
    dsimp only at this
    rw [this, M.turn]
    exact hm
  · rw [M.rest r c hr hc e, M.same r c e, ite_self, List.take_replicate, deb_same]

theorem OneMoves.settled (M : OneMoves L S S' z bs n rs) (h : Settled L pre S) : Settled L (pre ++ rs) S' := by
  intro r c hr hc
  rw [samples_append, List.foldl_append, h r c hr hc]
  by_cases e : (r, c) = z
  · subst e
    have := M.moves
    dsimp only at this
    rw [this, M.turn, deb_moved _ M.len M.steady]
  · rw [M.rest r c hr hc e, M.same r c e, deb_same]

end

/-! ## The typist during one movement -/

/-- Nothing changes. -/
theorem still_list {S : Down} {h : Hand}
    (hS : ∀ x ∈ keysOf L, S x.1 x.2 = true → Holds cfg L i h x) (rs pre : List Input)
    (hd : ∀ k, k ≤ rs.length → ∀ r c, r < L.rows → c < L.cols → downAfter (pre ++ rs.take k) r c = S r c) :
    typist cfg L i h.mods pre rs = List.replicate rs.length [] ∧
      handAt cfg L i h pre rs = h ∧ Tidy cfg L i h pre rs := by
  induction rs generalizing pre with
  | nil => exact ⟨rfl, rfl, trivial⟩
  | cons R rs ih =>
    have h0 : ∀ r c, r < L.rows → c < L.cols → downAfter pre r c = S r c := by
      intro r c hr hc
      have := hd 0 (Nat.zero_le _) r c hr hc
      rwa [List.take_zero, List.append_nil] at this
    have h1 : ∀ r c, r < L.rows → c < L.cols → downAfter (pre ++ [R]) r c = S r c :=
      hd 1 (by rw [List.length_cons]; omega)
    have ht : typeKeys cfg L i (downAfter pre) (downAfter (pre ++ [R])) (keysOf L) h.mods = ([], h.mods) := by
      refine typeKeys_same _ (fun x hx => ?_) h.mods
      obtain ⟨hr, hc⟩ := (mem_keysOf L).mp hx
      rw [h0 _ _ hr hc, h1 _ _ hr hc]
    obtain ⟨t1, t2⟩ := tidy_same (cfg := cfg) (L := L) (i := i) (S := S) (h := h) (keysOf L) hS
    obtain ⟨c1, c2⟩ := hand_congr (cfg := cfg) (L := L) (i := i) (b := downAfter pre) (a := downAfter (pre ++ [R]))
      (b' := S) (a' := S) (keysOf L) (fun x hx => by
        obtain ⟨hr, hc⟩ := (mem_keysOf L).mp hx
        exact ⟨h0 _ _ hr hc, h1 _ _ hr hc⟩) h
    obtain ⟨i1, i2, i3⟩ := ih (pre ++ [R]) (fun j hj r c hr hc => by
      have := hd (j + 1) (by rw [List.length_cons]; omega) r c hr hc
      rwa [List.take_succ_cons, ← List.singleton_append, ← List.append_assoc] at this)
    rw [List.length_cons, List.replicate_succ]
    unfold typist handAt Tidy
    dsimp only
    rw [ht, c2, t2]
    exact ⟨by rw [i1], i2, c1.mpr t1, i3⟩

/-- Readings during which the debounced keys change once, after `j` scans. -/
theorem phase_list {S S' : Down} {h h' : Hand} {u : List Code}
    (hS : ∀ x ∈ keysOf L, S x.1 x.2 = true → Holds cfg L i h x)
    (hS' : ∀ x ∈ keysOf L, S' x.1 x.2 = true → Holds cfg L i h' x)
    (hN : tidyKeys cfg L i S S' (keysOf L) h) (hh : handAfter cfg L i S S' (keysOf L) h = h')
    {rs pre : List Input} {j : Nat} (hj : j < rs.length) (hd : ∀ k, k ≤ rs.length → ∀ r c, r < L.rows → c < L.cols →
      downAfter (pre ++ rs.take k) r c = if k ≤ j then S r c else S' r c)
    (ht : (typeKeys cfg L i S S' (keysOf L) h.mods).1 = u) :
    typist cfg L i h.mods pre rs = List.replicate j [] ++ ([u] ++ List.replicate (rs.length - (j + 1)) []) ∧
    handAt cfg L i h pre rs = h' ∧ Tidy cfg L i h pre rs := by
  have e : rs = rs.take j ++ ([rs[j]] ++ rs.drop (j + 1)) := by
    rw [List.singleton_append, List.getElem_cons_drop, List.take_append_drop]
  have ej : rs.take j ++ [rs[j]] = rs.take (j + 1) := (List.take_succ_eq_append_getElem hj).symm
  obtain ⟨a1, a2, a3⟩ := still_list hS (rs.take j) pre (fun k hk r c hr hc => by
    rw [List.length_take] at hk
    rw [List.take_take, hd _ (by omega) r c hr hc, if_pos (by omega)])
  obtain ⟨b1, b2, b3⟩ := still_list hS' (rs.drop (j + 1)) (pre ++ rs.take (j + 1)) (fun k hk r c hr hc => by
    rw [List.length_drop] at hk
    have : rs.take (j + 1) ++ (rs.drop (j + 1)).take k = rs.take (j + 1 + k) := List.take_add.symm
    rw [List.append_assoc, this, hd _ (by omega) r c hr hc, if_neg (by omega)])
  rw [List.length_take, Nat.min_eq_left (by omega)] at a1
  rw [List.length_drop] at b1
  have hd : ∀ x ∈ keysOf L, downAfter (pre ++ rs.take j) x.1 x.2 = S x.1 x.2 ∧
      downAfter (pre ++ rs.take j ++ [rs[j]]) x.1 x.2 = S' x.1 x.2 := by
    intro x hx
    obtain ⟨hr, hc⟩ := (mem_keysOf L).mp hx
    rw [List.append_assoc, ej, hd _ (by omega) _ _ hr hc, hd _ (by omega) _ _ hr hc, if_pos (Nat.le_refl _),
      if_neg (by omega)]
    exact ⟨rfl, rfl⟩
  obtain ⟨c1, c2⟩ := hand_congr (cfg := cfg) (L := L) (i := i) (keysOf L) hd h
  have t1 : typist cfg L i h.mods (pre ++ rs.take j) [rs[j]] = [u] := by
    unfold typist
    dsimp only
    rw [typeKeys_congr _ hd h.mods, ht]
    rfl
  have t2 : handAt cfg L i h (pre ++ rs.take j) [rs[j]] = h' := c2.trans hh
  have t3 : Tidy cfg L i h (pre ++ rs.take j) [rs[j]] := ⟨c1.mpr hN, trivial⟩
  have m1 : modsAt cfg L i h.mods pre (rs.take j) = h.mods := by rw [← handAt_mods, a2]
  have m2 : modsAt cfg L i h.mods (pre ++ rs.take j) [rs[j]] = h'.mods := by rw [← handAt_mods, t2]
  have T : typist cfg L i h.mods pre (rs.take j ++ ([rs[j]] ++ rs.drop (j + 1))) =
      List.replicate j [] ++ ([u] ++ List.replicate (rs.length - (j + 1)) []) := by
    rw [typist_append, typist_append, a1, m1, t1, m2, List.append_assoc, ej, b1]
  have M : handAt cfg L i h pre (rs.take j ++ ([rs[j]] ++ rs.drop (j + 1))) = h' := by
    rw [handAt_append, handAt_append, a2, t2, List.append_assoc, ej, b2]
  have N : Tidy cfg L i h pre (rs.take j ++ ([rs[j]] ++ rs.drop (j + 1))) := by
    rw [tidy_append, tidy_append, a2, t2, List.append_assoc, ej]
    exact ⟨a3, t3, b3⟩
  rw [← e] at T M N
  exact ⟨T, M, N⟩

/-! ## How long keys are down -/

/-- The debounced state of a key, scan by scan. -/
def downs (r c : Nat) : List Input → List Input → List Bool
  | _, [] => []
  | pre, inp :: more => downAfter (pre ++ [inp]) r c :: downs r c (pre ++ [inp]) more

/-- The number of scans a key has been down for. -/
def lastRun (a : Nat) (l : List Bool) : Nat := l.foldl (fun a b => if b then a + 1 else 0) a

/-- A key is never down for more than `d` scans, the first `a` of them before. -/
def RunsOk (d : Nat) : Nat → List Bool → Prop
  | _, [] => True
  | a, true :: l => a + 1 ≤ d ∧ RunsOk d (a + 1) l
  | _, false :: l => RunsOk d 0 l

theorem downs_append (r c : Nat) (pre u v : List Input) :
    downs r c pre (u ++ v) = downs r c pre u ++ downs r c (pre ++ u) v := by
  induction u generalizing pre with
  | nil => rw [List.append_nil]; rfl
  | cons x u ih =>
    have e := ih (pre ++ [x])
    rw [List.append_assoc pre] at e
    exact congrArg (List.cons _) e

theorem downs_const (r c : Nat) (b : Bool) (rs pre : List Input)
    (h : ∀ k, 1 ≤ k → k ≤ rs.length → downAfter (pre ++ rs.take k) r c = b) :
    downs r c pre rs = List.replicate rs.length b := by
  induction rs generalizing pre with
  | nil => rfl
  | cons R rs ih =>
    have h1 : downAfter (pre ++ [R]) r c = b := h 1 (Nat.le_refl _) (by rw [List.length_cons]; omega)
    have i1 := ih (pre ++ [R]) (fun j _ hj => by
      have := h (j + 1) (by omega) (by rw [List.length_cons]; omega)
      rwa [List.take_succ_cons, ← List.singleton_append, ← List.append_assoc] at this)
    rw [List.length_cons, List.replicate_succ]
    unfold downs
    rw [h1, i1]

theorem runsOk_append (d a : Nat) (u v : List Bool) :
    RunsOk d a (u ++ v) ↔ RunsOk d a u ∧ RunsOk d (lastRun a u) v := by
  induction u generalizing a with
  | nil => exact ⟨fun h => ⟨trivial, h⟩, fun h => h.2⟩
  | cons b u ih =>
    cases b
    · exact ih 0
    · exact (and_congr_right' (ih (a + 1))).trans and_assoc.symm

theorem lastRun_append (a : Nat) (u v : List Bool) : lastRun a (u ++ v) = lastRun (lastRun a u) v :=
  List.foldl_append

theorem runsOk_false (d a n : Nat) : RunsOk d a (List.replicate n false) := by
  induction n generalizing a with
  | zero => trivial
  | succ n ih => exact ih 0

theorem lastRun_false (a n : Nat) : lastRun a (List.replicate n false) = if n = 0 then a else 0 := by
  induction n generalizing a with
  | zero => rfl
  | succ n ih =>
    show lastRun 0 (List.replicate n false) = _
    rw [ih]
    simp

theorem lastRun_zero (n : Nat) : lastRun 0 (List.replicate n false) = 0 := by
  rw [lastRun_false]
  split <;> rfl

theorem runsOk_true {d a n : Nat} (h : a + n ≤ d) : RunsOk d a (List.replicate n true) := by
  induction n generalizing a with
  | zero => trivial
  | succ n ih => exact ⟨by omega, ih (by omega)⟩

theorem lastRun_true (a n : Nat) : lastRun a (List.replicate n true) = a + n := by
  induction n generalizing a with
  | zero => rfl
  | succ n ih =>
    show lastRun (a + 1) (List.replicate n true) = _
    rw [ih]
    omega

theorem runsOk_le {d a n : Nat} (hn : n ≠ 0) (h : RunsOk d a (List.replicate n true)) : a + n ≤ d := by
  induction n generalizing a with
  | zero => exact absurd rfl hn
  | succ n ih =>
    obtain ⟨h1, h2⟩ := h
    by_cases h0 : n = 0
    · omega
    · have := ih h0 h2
      omega

theorem lastRun_pos {r c : Nat} {pre u : List Input} (a : Nat) (hu : u ≠ []) (h : downAfter (pre ++ u) r c = true) :
    1 ≤ lastRun a (downs r c pre u) := by
  obtain ⟨u', x, rfl⟩ : ∃ u' x, u = u' ++ [x] := ⟨u.dropLast, u.getLast hu, (List.dropLast_concat_getLast hu).symm⟩
  rw [downs_append]
  have e : downs r c (pre ++ u') [x] = [true] := by
    unfold downs
    rw [List.append_assoc, h]
    rfl
  rw [e, lastRun, List.foldl_append]
  exact Nat.le_add_left _ _

theorem brief_of_runs {pre more : List Input} {r c : Nat} (h0 : downAfter pre r c = false)
    (h : RunsOk d 0 (downs r c pre more)) (hd : d ≠ 0) (u v w : List Input) (e : more = u ++ v ++ w)
    (hl : v.length = d) : ∃ v1 v2, v = v1 ++ v2 ∧ downAfter (pre ++ u ++ v1) r c = false := by
  refine Classical.byContradiction fun hno => ?_
  have hall : ∀ k, downAfter (pre ++ u ++ v.take k) r c = true := by
    intro k
    cases e : downAfter (pre ++ u ++ v.take k) r c
    · exact absurd ⟨v.take k, v.drop k, (List.take_append_drop k v).symm, e⟩ hno
    · rfl
  have hu : u ≠ [] := by
    rintro rfl
    have := hall 0
    rw [List.take_zero, List.append_nil, List.append_nil, h0] at this
    cases this
  rw [e, downs_append, downs_append, runsOk_append, runsOk_append] at h
  have hv := h.1.2
  rw [downs_const r c true v (pre ++ u) fun k _ _ => hall k] at hv
  have hp := lastRun_pos 0 hu (by have := hall 0; rwa [List.take_zero, List.append_nil] at this)
  have := runsOk_le (by omega) hv
  omega

theorem OneMoves.downs {S S' : Down} {z : Nat × Nat} {bs : List Bool} {n : Nat} {rs pre : List Input}
    (M : OneMoves L S S' z bs n rs) (h : Settled L pre S) {r c : Nat} (hr : r < L.rows) (hc : c < L.cols) :
    Typist.downs r c pre rs = List.replicate (acceptAt (S z.1 z.2) bs) (S r c) ++
      List.replicate (rs.length - acceptAt (S z.1 z.2) bs) (S' r c) := by
  have hb := (accept_bounds (S z.1 z.2) M.len).2
  have hsz := M.size
  have hst := M.steady
  generalize hj : acceptAt (S z.1 z.2) bs = j at hb ⊢
  have hdur := fun k (hk : k ≤ rs.length) => M.during h hk hr hc
  rw [hj] at hdur
  have e : Typist.downs r c pre (rs.take j ++ rs.drop j) = List.replicate j (S r c) ++
      List.replicate (rs.length - j) (S' r c) := by
    rw [downs_append, downs_const r c (S r c) (rs.take j) pre (fun k _ hk => by
      rw [List.length_take] at hk
      rw [List.take_take, hdur _ (by omega), if_pos (by omega)]),
      downs_const r c (S' r c) (rs.drop j) (pre ++ rs.take j) (fun k h1 hk => by
        rw [List.length_drop] at hk
        have : rs.take j ++ (rs.drop j).take k = rs.take (j + k) := List.take_add.symm
        rw [List.append_assoc, this, hdur _ (by omega), if_neg (by omega)]),
      List.length_take, List.length_drop, Nat.min_eq_left (by omega)]
  rwa [List.take_append_drop] at e

end Typist

end Asdf
