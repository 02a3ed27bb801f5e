import Verif.Lemmas.Debounce
import Verif.Spec.Examples

/-! # Properties C10-C14 and C17: debouncing and safety of the scanner

Unless stated otherwise the theorems hold for every configuration and every
sequence of matrix readings, as long as the run does not end in undefined
behaviour; C17 says when that is guaranteed. -/

namespace Asdf.Props

open Spec

/-- The shipped keymaps, all six, have at least nine rows and eight columns. -/
theorem shipped_dims : CfgDims shipped 9 8 := by
  have h : ∀ n, n < 256 → shippedValid (UInt8.ofNat n) = true →
      dimsOk 9 8 (mapsOf (shippedSetup (UInt8.ofNat n))) = true := by decide +kernel
  intro i hv
  have := h i.toNat i.toNat_lt
  rw [UInt8.ofNat_toNat] at this
  exact this hv

/-! ## C10 -/

/-- **C10.** In every state reached from power-up, with any keymap list and any
readings, every debounce count is between 1 and the debounce time. -/
theorem C10_counts_never_wrap (cfg : Config) (h0 : cfg.valid 0 = true) (s0 s : State)
    (inps : List Input) (hb : boot cfg = .ok s0) (hr : run cfg s0 inps = .ok s) :
    ∀ r c, r < 16 → c < 8 → 1 ≤ counter s r c ∧ counter s r c ≤ 10 := by
  have hcd : CfgDims cfg 0 0 := by
    intro i _
    simp [dimsOk]
  obtain ⟨hs, _⟩ := run_deb hcd (by omega) inps (boot_shape hcd h0 hb).1 hr
  intro r c h1 h2
  obtain ⟨x, _, e, e1, e2⟩ := hs.cell h1 h2
  rw [e]; exact ⟨e1, e2⟩

/-- Non-vacuity of C10: a run of the shipped firmware. -/
example : shipped.valid 0 = true ∧ runsOk typedAndReleasedA = true := by decide +kernel

/-! ## C11 -/

/-- **C11.** The debounced state of a key after any sequence of scans is a
function of the key's own samples. -/
theorem C11_own_samples_only (cfg : Config) (R C : Nat) (hcd : CfgDims cfg R C) (hR : R ≤ 16)
    (hC : C ≤ 8) (h0 : cfg.valid 0 = true) (s0 s : State) (inps : List Input)
    (hb : boot cfg = .ok s0) (hr : run cfg s0 inps = .ok s) (r c : Nat) (h1 : r < R) (h2 : c < C) :
    accepted s r c = debounced (samplesOf inps r c) := by
  obtain ⟨hs, hi⟩ := boot_shape hcd h0 hb
  obtain ⟨_, hd⟩ := run_deb hcd hC inps hs hr
  have := hd r c h1 h2
  rw [hi r c (by omega) (by omega)] at this
  exact congrArg Deb.on this

/-- **C11**, as non-interference: two histories that agree on a key leave it in
the same debounced state, whatever the other keys, modifiers and DIP switches
did. -/
theorem C11_key_independence (cfg : Config) (R C : Nat) (hcd : CfgDims cfg R C) (hR : R ≤ 16)
    (hC : C ≤ 8) (h0 : cfg.valid 0 = true) (s0 s s' : State) (inps inps' : List Input)
    (hb : boot cfg = .ok s0) (hr : run cfg s0 inps = .ok s) (hr' : run cfg s0 inps' = .ok s')
    (r c : Nat) (h1 : r < R) (h2 : c < C) (hsame : samplesOf inps r c = samplesOf inps' r c) :
    accepted s r c = accepted s' r c := by
  rw [C11_own_samples_only cfg R C hcd hR hC h0 s0 s inps hb hr r c h1 h2,
    C11_own_samples_only cfg R C hcd hR hC h0 s0 s' inps' hb hr' r c h1 h2, hsame]

/-- Non-vacuity of C11: two successful runs that differ in other keys. -/
example : runsOk typedA = true ∧
    runsOk (List.replicate 10 (fun i => if i = 1 then 0x40 else 0x18)) = true ∧
    samplesOf typedA 1 6 =
      samplesOf (List.replicate 10 (fun i => if i = 1 then 0x40 else 0x18)) 1 6 := by
  decide +kernel

/-! ## Lemmas about one debouncer -/

theorem snoc_induction {α : Type} {P : List α → Prop} (h0 : P [])
    (h1 : ∀ l x, P l → P (l ++ [x])) (l : List α) : P l := by
  rw [← List.reverse_reverse l]
  induction l.reverse with
  | nil => exact h0
  | cons x l ih => rw [List.reverse_cons]; exact h1 _ _ ih

theorem Deb.step_same (d : Deb) : d.step d.on = d := if_pos rfl

theorem Deb.step_flip {d : Deb} {p : Bool} (hp : p ≠ d.on) (h : d.left ≤ 1) :
    d.step p = ⟨p, 10⟩ := by
  unfold Deb.step; rw [if_neg hp, if_pos h]

theorem Deb.step_count {d : Deb} {p : Bool} (hp : p ≠ d.on) (h : ¬ d.left ≤ 1) :
    d.step p = ⟨d.on, d.left - 1⟩ := by
  unfold Deb.step; rw [if_neg hp, if_neg h]

theorem debounced_snoc (l : List Bool) (p : Bool) :
    debounced (l ++ [p]) = ((l.foldl Deb.step Deb.init).step p).on := by
  unfold debounced; rw [List.foldl_append]; rfl

/-- The history since the last accepted change. -/
theorem since_last_change (l : List Bool) :
    ∃ pre post, l = pre ++ post ∧
      (pre = [] ∨ ∃ q x, pre = q ++ [x] ∧ debounced q ≠ debounced pre) ∧
      (∀ k, debounced (pre ++ post.take k) = debounced l) ∧
      1 ≤ (l.foldl Deb.step Deb.init).left ∧
      post.count (!debounced l) + (l.foldl Deb.step Deb.init).left = 10 := by
  induction l using snoc_induction with
  | h0 => exact ⟨[], [], rfl, Or.inl rfl, by simp, by decide, by decide⟩
  | h1 l p ih =>
    obtain ⟨pre, post, e1, e2, e3, e4, e5⟩ := ih
    have hfold : (l ++ [p]).foldl Deb.step Deb.init = (l.foldl Deb.step Deb.init).step p := by
      rw [List.foldl_append]; rfl
    have hon : (l.foldl Deb.step Deb.init).on = debounced l := rfl
    have extend : debounced (l ++ [p]) = debounced l → ∀ k,
        debounced (pre ++ (post ++ [p]).take k) = debounced (l ++ [p]) := by
      intro hs k
      by_cases hk : k ≤ post.length
      · rw [List.take_append_of_le_length hk, e3 k, hs]
      · rw [List.take_of_length_le (by simp; omega), ← List.append_assoc, ← e1]
    by_cases hp : p = debounced l
    · have hst : (l.foldl Deb.step Deb.init).step p = l.foldl Deb.step Deb.init := by
        rw [hp, ← hon]; exact Deb.step_same _
      have hd : debounced (l ++ [p]) = debounced l := by
        rw [debounced_snoc, hst]; rfl
      refine ⟨pre, post ++ [p], by rw [e1, List.append_assoc], e2, extend hd, ?_, ?_⟩
      · rw [hfold, hst]; exact e4
      · rw [hfold, hst, hd, List.count_append]
        have : ([p] : List Bool).count (!debounced l) = 0 := by
          rw [hp]; cases debounced l <;> rfl
        omega
    · by_cases hl : (l.foldl Deb.step Deb.init).left ≤ 1
      · have hst := Deb.step_flip (d := l.foldl Deb.step Deb.init) (p := p) hp hl
        refine ⟨l ++ [p], [], by simp, Or.inr ⟨l, p, rfl, ?_⟩, by simp, ?_, ?_⟩
        · rw [debounced_snoc, hst]; exact fun h => hp h.symm
        · rw [hfold, hst]; show 1 ≤ 10; decide
        · rw [hfold, hst]; rfl
      · have hst := Deb.step_count (d := l.foldl Deb.step Deb.init) (p := p) hp hl
        have hd : debounced (l ++ [p]) = debounced l := by
          rw [debounced_snoc, hst]; rfl
        refine ⟨pre, post ++ [p], by rw [e1, List.append_assoc], e2, extend hd, ?_, ?_⟩
        · rw [hfold, hst]; show 1 ≤ _ - 1; omega
        · rw [hfold, hst, hd, List.count_append]
          have : ([p] : List Bool).count (!debounced l) = 1 := by
            have : p = !debounced l := by
              cases p <;> cases hh : debounced l <;> simp_all
            rw [this]; cases debounced l <;> rfl
          show _ + (_ - 1) = 10
          omega

/-! ## C12 -/

/-- The full property C12 for the shipped firmware: whenever a change of a key is
accepted, the last ten samples of the key were all in the new state. -/
def C12Statement : Prop :=
  ∀ (s0 s s' : State) (inps : List Input) (inp : Input) (r c : Nat),
    boot shipped = .ok s0 → run shipped s0 inps = .ok s → tick shipped s inp = .ok s' →
    r < 9 → c < 8 → accepted s' r c ≠ accepted s r c →
    ∃ pre last, samplesOf (inps ++ [inp]) r c = pre ++ last ∧ last.length = 10 ∧
      ∀ x ∈ last, x = accepted s' r c

/-- Nine samples of a closed key, one open (a bounce). -/
def bounce : List Input := List.replicate 9 (closing 1 6) ++ [noKeys]

/-- **C12 is false.**  The count is not restarted when the key returns to its old
state: nine closed samples, one open sample and one closed sample are accepted as
a press. -/
theorem C12_false : ¬ C12Statement := by
  intro h
  have hb : boot shipped = .ok (after []) := by decide +kernel
  have hr : run shipped (after []) bounce = .ok (after bounce) := by decide +kernel
  have ht : tick shipped (after bounce) (closing 1 6) =
      .ok (after (bounce ++ [closing 1 6])) := by decide +kernel
  have hch : accepted (after (bounce ++ [closing 1 6])) 1 6 ≠ accepted (after bounce) 1 6 := by
    decide +kernel
  obtain ⟨pre, last, e1, e2, e3⟩ := h _ _ _ bounce (closing 1 6) 1 6 hb hr ht (by omega) (by omega) hch
  have hacc : accepted (after (bounce ++ [closing 1 6])) 1 6 = true := by decide +kernel
  have hs : samplesOf (bounce ++ [closing 1 6]) 1 6 = List.replicate 9 true ++ [false, true] := by
    decide +kernel
  rw [hacc] at e3
  rw [hs] at e1
  have hlen := congrArg List.length e1
  simp [e2] at hlen
  have hd := congrArg (List.drop 1) e1
  rw [List.drop_left' hlen] at hd
  have := e3 false (by rw [← hd]; decide)
  cases this

/-- **C12 (partial).**  Missing: the ten samples need not be consecutive
(`C12_false`).  Proved: a change is accepted only when exactly ten samples since
the last accepted change of that key (or since power-up) were in the new state,
the last of them being the current one. -/
theorem C12_ten_samples_partial (cfg : Config) (R C : Nat) (hcd : CfgDims cfg R C) (hR : R ≤ 16)
    (hC : C ≤ 8) (h0 : cfg.valid 0 = true) (s0 s s' : State) (inps : List Input) (inp : Input)
    (hb : boot cfg = .ok s0) (hr : run cfg s0 inps = .ok s) (ht : tick cfg s inp = .ok s')
    (r c : Nat) (h1 : r < R) (h2 : c < C) (hch : accepted s' r c ≠ accepted s r c) :
    ∃ pre post, samplesOf inps r c = pre ++ post ∧
      (pre = [] ∨ ∃ q x, pre = q ++ [x] ∧ debounced q ≠ debounced pre) ∧
      (∀ k, debounced (pre ++ post.take k) = accepted s r c) ∧
      (post ++ [sample inp r c]).count (accepted s' r c) = 10 ∧
      sample inp r c = accepted s' r c := by
  have hacc := C11_own_samples_only cfg R C hcd hR hC h0 s0 s inps hb hr r c h1 h2
  have hrun : run cfg s0 (inps ++ [inp]) = .ok s' := by
    rw [run_append, hr, ok_bind, run_cons, ht, ok_bind]; rfl
  have hacc' := C11_own_samples_only cfg R C hcd hR hC h0 s0 s' (inps ++ [inp]) hb hrun r c h1 h2
  have hsam : samplesOf (inps ++ [inp]) r c = samplesOf inps r c ++ [sample inp r c] := by
    simp [samplesOf]
  rw [hsam] at hacc'
  obtain ⟨pre, post, e1, e2, e3, e4, e5⟩ := since_last_change (samplesOf inps r c)
  rw [hacc, hacc'] at hch
  have hon : ((samplesOf inps r c).foldl Deb.step Deb.init).on = debounced (samplesOf inps r c) := rfl
  have hp : sample inp r c ≠ debounced (samplesOf inps r c) := by
    intro hp
    apply hch
    rw [debounced_snoc, hp, ← hon, Deb.step_same]
  have hl : ((samplesOf inps r c).foldl Deb.step Deb.init).left ≤ 1 := by
    apply Classical.byContradiction
    intro hl
    apply hch
    rw [debounced_snoc, Deb.step_count hp hl]
    rfl
  have hnew : debounced (samplesOf inps r c ++ [sample inp r c]) = sample inp r c := by
    rw [debounced_snoc, Deb.step_flip hp hl]
  have hneg : sample inp r c = !debounced (samplesOf inps r c) := by
    cases h : sample inp r c <;> cases h' : debounced (samplesOf inps r c) <;> simp_all
  refine ⟨pre, post, e1, e2, fun k => by rw [e3 k, hacc], ?_, by rw [hacc', hnew]⟩
  rw [hacc', hnew, List.count_append]
  have : ([sample inp r c] : List Bool).count (sample inp r c) = 1 := by simp
  rw [this]
  rw [← hneg] at e5
  omega

/-- Non-vacuity of C12 (partial): the tenth closed sample is accepted. -/
example : run shipped (after []) (List.replicate 9 (closing 1 6)) =
      .ok (after (List.replicate 9 (closing 1 6))) ∧
    tick shipped (after (List.replicate 9 (closing 1 6))) (closing 1 6) = .ok (after typedA) ∧
    accepted (after typedA) 1 6 ≠ accepted (after (List.replicate 9 (closing 1 6))) 1 6 := by
  decide +kernel

/-! ## C13 -/

theorem Deb.hold {d : Deb} (n : Nat) (h : n < d.left) :
    (List.replicate n (!d.on)).foldl Deb.step d = ⟨d.on, d.left - n⟩ := by
  induction n generalizing d with
  | zero => rfl
  | succ n ih =>
    have hne : (!d.on) ≠ d.on := by cases d.on <;> decide
    rw [List.replicate_succ, List.foldl_cons, Deb.step_count hne (by omega)]
    have := ih (d := ⟨d.on, d.left - 1⟩) (by show n < d.left - 1; omega)
    rw [this]
    show Deb.mk d.on (d.left - 1 - n) = _
    congr 1; omega

theorem Deb.hold_all {d : Deb} (h : 1 ≤ d.left) :
    (List.replicate d.left (!d.on)).foldl Deb.step d = ⟨!d.on, 10⟩ := by
  have hne : (!d.on) ≠ d.on := by cases d.on <;> decide
  have hsp : List.replicate d.left (!d.on) =
      List.replicate (d.left - 1) (!d.on) ++ [!d.on] := by
    rw [← List.replicate_succ', show d.left - 1 + 1 = d.left by omega]
  rw [hsp, List.foldl_append, Deb.hold _ (by omega)]
  exact Deb.step_flip (d := ⟨d.on, d.left - (d.left - 1)⟩) hne
    (by show d.left - (d.left - 1) ≤ 1; omega)

theorem samplesOf_take (inps : List Input) (r c k : Nat) :
    samplesOf (inps.take k) r c = (samplesOf inps r c).take k := by
  simp [samplesOf, List.map_take]

theorem run_take {cfg : Config} {s s' : State} {inps : List Input} (h : run cfg s inps = .ok s')
    (k : Nat) : ∃ sk, run cfg s (inps.take k) = .ok sk ∧ run cfg sk (inps.drop k) = .ok s' := by
  have : run cfg s (inps.take k ++ inps.drop k) = .ok s' := by rw [List.take_append_drop]; exact h
  rw [run_append] at this
  obtain ⟨sk, h1, h2⟩ := bind_eq_ok.mp this
  exact ⟨sk, h1, h2⟩

/-- **C13.** From every reachable state: if a key is sampled in the opposite of
its accepted state for ten consecutive scans, then there is exactly one first
scan among them after which the change is accepted; before it the key keeps its
accepted state. -/
theorem C13_accepted_within_ten (cfg : Config) (R C : Nat) (hcd : CfgDims cfg R C) (hR : R ≤ 16)
    (hC : C ≤ 8) (h0 : cfg.valid 0 = true) (s0 s s' : State) (pre inps : List Input)
    (hb : boot cfg = .ok s0) (hpre : run cfg s0 pre = .ok s) (hr : run cfg s inps = .ok s')
    (r c : Nat) (h1 : r < R) (h2 : c < C)
    (hs : samplesOf inps r c = List.replicate 10 (!accepted s r c)) :
    ∃ n, 1 ≤ n ∧ n ≤ 10 ∧
      (∀ k sk, k < n → run cfg s (inps.take k) = .ok sk → accepted sk r c = accepted s r c) ∧
      (∃ sn, run cfg s (inps.take n) = .ok sn ∧ accepted sn r c = !accepted s r c) := by
  obtain ⟨hsh, _⟩ := run_deb hcd hC pre (boot_shape hcd h0 hb).1 hpre
  obtain ⟨x, _, hx, hx1, hx2⟩ := hsh.cell (r := r) (c := c) (by omega) (by omega)
  refine ⟨counter s r c, by omega, by omega, ?_, ?_⟩
  · intro k sk hk hrk
    obtain ⟨_, hd⟩ := run_deb hcd hC _ hsh hrk
    have := hd r c h1 h2
    rw [show (inps.take k).map (fun inp => sample inp r c) = samplesOf (inps.take k) r c from rfl,
      samplesOf_take, hs, List.take_replicate, Nat.min_eq_left (by omega)] at this
    have h3 := Deb.hold (d := debOf s r c) k hk
    rw [show (debOf s r c).on = accepted s r c from rfl] at h3
    rw [h3] at this
    exact congrArg Deb.on this
  · obtain ⟨sn, hrn, _⟩ := run_take hr (counter s r c)
    refine ⟨sn, hrn, ?_⟩
    obtain ⟨_, hd⟩ := run_deb hcd hC _ hsh hrn
    have := hd r c h1 h2
    rw [show (inps.take (counter s r c)).map (fun inp => sample inp r c) =
        samplesOf (inps.take (counter s r c)) r c from rfl,
      samplesOf_take, hs, List.take_replicate, Nat.min_eq_left (by omega)] at this
    have h3 := Deb.hold_all (d := debOf s r c) (by show 1 ≤ counter s r c; omega)
    rw [show (debOf s r c).on = accepted s r c from rfl,
      show (debOf s r c).left = counter s r c from rfl] at h3
    rw [h3] at this
    exact congrArg Deb.on this

/-- **C13 (exactly ten).** At power-up, and in the scan in which a change of the
key was accepted, the next change needs exactly ten samples: after nine it is not
accepted, after the tenth it is. -/
theorem C13_exactly_ten (cfg : Config) (R C : Nat) (hcd : CfgDims cfg R C) (hR : R ≤ 16)
    (hC : C ≤ 8) (h0 : cfg.valid 0 = true) (s0 s s' : State) (pre inps : List Input)
    (hb : boot cfg = .ok s0) (hpre : run cfg s0 pre = .ok s) (hr : run cfg s inps = .ok s')
    (r c : Nat) (h1 : r < R) (h2 : c < C)
    (hfresh : pre = [] ∨ ∃ q inp sq, pre = q ++ [inp] ∧ run cfg s0 q = .ok sq ∧
      accepted sq r c ≠ accepted s r c)
    (hs : samplesOf inps r c = List.replicate 10 (!accepted s r c)) :
    (∀ k sk, k < 10 → run cfg s (inps.take k) = .ok sk → accepted sk r c = accepted s r c) ∧
      accepted s' r c = !accepted s r c := by
  obtain ⟨hsh0, hi⟩ := boot_shape hcd h0 hb
  obtain ⟨hsh, hd⟩ := run_deb hcd hC pre hsh0 hpre
  have hcnt : counter s r c = 10 := by
    have hdeb := hd r c h1 h2
    rw [hi r c (by omega) (by omega)] at hdeb
    rcases hfresh with rfl | ⟨q, inp, sq, rfl, hq, hne⟩
    · exact congrArg Deb.left hdeb
    · obtain ⟨_, hdq⟩ := run_deb hcd hC q hsh0 hq
      have hdq := hdq r c h1 h2
      rw [hi r c (by omega) (by omega)] at hdq
      rw [List.map_append, List.foldl_append, ← hdq] at hdeb
      have hdeb : debOf s r c = (debOf sq r c).step (sample inp r c) := hdeb
      have hon : (debOf s r c).on ≠ (debOf sq r c).on := fun h => hne h.symm
      by_cases hp : sample inp r c = (debOf sq r c).on
      · rw [hp, Deb.step_same] at hdeb
        rw [hdeb] at hon; exact absurd rfl hon
      · by_cases hl : (debOf sq r c).left ≤ 1
        · rw [Deb.step_flip hp hl] at hdeb
          exact congrArg Deb.left hdeb
        · rw [Deb.step_count hp hl] at hdeb
          rw [hdeb] at hon; exact absurd rfl hon
  constructor
  · intro k sk hk hrk
    obtain ⟨_, hd⟩ := run_deb hcd hC _ hsh hrk
    have := hd r c h1 h2
    rw [show (inps.take k).map (fun inp => sample inp r c) = samplesOf (inps.take k) r c from rfl,
      samplesOf_take, hs, List.take_replicate, Nat.min_eq_left (by omega)] at this
    have h3 := Deb.hold (d := debOf s r c) k (by show k < counter s r c; omega)
    rw [show (debOf s r c).on = accepted s r c from rfl] at h3
    rw [h3] at this
    exact congrArg Deb.on this
  · obtain ⟨_, hd⟩ := run_deb hcd hC _ hsh hr
    have := hd r c h1 h2
    rw [show inps.map (fun inp => sample inp r c) = samplesOf inps r c from rfl, hs] at this
    have h3 := Deb.hold_all (d := debOf s r c) (by show 1 ≤ counter s r c; omega)
    rw [show (debOf s r c).on = accepted s r c from rfl,
      show (debOf s r c).left = counter s r c from rfl, hcnt] at h3
    rw [h3] at this
    exact congrArg Deb.on this

/-- Non-vacuity of C13: the press and the release of A. -/
example : run shipped (after []) typedA = .ok (after typedA) ∧
    samplesOf typedA 1 6 = List.replicate 10 (!accepted (after []) 1 6) ∧
    run shipped (after typedA) (List.replicate 10 noKeys) =
      .ok (after (typedA ++ List.replicate 10 noKeys)) ∧
    samplesOf (List.replicate 10 noKeys) 1 6 = List.replicate 10 (!accepted (after typedA) 1 6) := by
  decide +kernel

/-! ## C14 -/

/-- Events of one debouncer alternate. -/
theorem Deb.events_alternate (d : Deb) (l : List Bool) : Alternates (!d.on) (d.events l) := by
  induction l generalizing d with
  | nil => trivial
  | cons p l ih =>
    unfold Deb.events
    by_cases h : p ≠ d.on ∧ d.left ≤ 1
    · rw [if_pos h]
      have hp : p = !d.on := by
        have := h.1
        cases p <;> cases hd : d.on <;> simp_all
      refine ⟨hp, ?_⟩
      have := ih (d.step p)
      rw [Deb.step_flip h.1 h.2] at this ⊢
      rw [← hp]; exact this
    · rw [if_neg h]
      have : (d.step p).on = d.on := by
        by_cases hp : p = d.on
        · rw [hp, Deb.step_same]
        · have hl : ¬ d.left ≤ 1 := fun hl => h ⟨hp, hl⟩
          rw [Deb.step_count hp hl]
      have e := ih (d.step p)
      rw [this] at e; exact e

/-- **C14 (alternation).** The accepted events of a key since power-up alternate,
beginning with a press. -/
theorem C14_events_alternate (inps : List Input) (r c : Nat) :
    Alternates true (Deb.init.events (samplesOf inps r c)) :=
  Deb.events_alternate Deb.init _

/-- **C14 (events are what the firmware handles).**  In every reachable state, a
changed sample of a key is handled as a press (`asdf_activate_key`) or release
(`asdf_deactivate_key`) exactly when the debouncer reports the event in this
sample; otherwise only the debounce counter changes. -/
theorem C14_events_are_handled (cfg : Config) (L : Layout) (hc : cfgOk cfg L = true) (s : State)
    (h : Reachable cfg L s) (r c : Nat) (hr : r < L.rows) (hcl : c < L.cols) (p : Bool)
    (hp : p ≠ accepted s r c) :
    ((debOf s r c).events [p] = [p] ∧ ∃ s1, accepted s1 r c = p ∧
        s1 = { s with stable := s1.stable, counters := s1.counters } ∧
        pressOrRelease cfg s r c p = (lookupKeycode s r c >>= fun code =>
          if p then activateKey cfg s1 code else deactivateKey cfg s1 code)) ∨
    ((debOf s r c).events [p] = [] ∧ ∃ cnt,
        pressOrRelease cfg s r c p = .ok { s with counters := cnt }) := by
  have hcf := cfgFacts hc
  obtain ⟨ks, ms, a, free, hw⟩ := h.inv hcf
  have hr16 : r < 16 := Nat.lt_of_lt_of_le hr hcf.rows16
  have hc8 : c < 8 := Nat.lt_of_lt_of_le hcl hcf.cols8
  obtain ⟨x, _, hx, hx1, _⟩ := hw.cell hr16 hc8
  by_cases h1 : counter s r c = 1
  · left
    refine ⟨?_, flipCell s r c p, ?_, rfl, ?_⟩
    · unfold Deb.events
      rw [if_pos ⟨hp, by show counter s r c ≤ 1; omega⟩]; rfl
    · rw [accepted_flip (by rw [hw.stableLen]; exact hr16) hc8 p r c hc8, if_pos ⟨rfl, rfl⟩]
    · rw [pressOrRelease_accept hw hr16 hc8 p h1]
      rfl
  · right
    obtain ⟨y, _, _, _, e⟩ := pressOrRelease_count (cfg := cfg) hw hr16 hc8 p h1
    refine ⟨?_, _, e⟩
    unfold Deb.events
    rw [if_neg (fun hh => h1 (by have : counter s r c ≤ 1 := hh.2; omega))]
    rfl

/-- Non-vacuity of C14: a history with a press and a release, and the state just
before the press is accepted. -/
example : Deb.init.events (samplesOf typedAndReleasedA 1 6) = [true, false] ∧
    (debOf (after (List.replicate 9 (closing 1 6))) 1 6).events [true] = [true] := by
  decide +kernel

/-! ## C17 -/

/-- The full property C17 for the shipped firmware. -/
def C17Statement : Prop :=
  ∀ inps : List Input, ∃ s0 s, boot shipped = .ok s0 ∧ run shipped s0 inps = .ok s

/-- DIP switch 2 closed for eleven scans. -/
def dip2 : List Input := List.replicate 11 (closing 8 2)

/-- Closing DIP switch 2 makes the firmware read outside the table `keymaps`: the
scan after the selection of keymap 4 looks up `keymaps[4]` of four entries. -/
theorem C17_out_of_bounds : boot shipped = .ok (after []) ∧
    run shipped (after []) dip2 = .error .oob := by decide +kernel

/-- **C17 is false** of the shipped firmware. -/
theorem C17_false : ¬ C17Statement := by
  intro h
  obtain ⟨s0, s, h1, h2⟩ := h dip2
  rw [C17_out_of_bounds.1] at h1
  cases h1
  rw [C17_out_of_bounds.2] at h2
  cases h2

/-- **C17 (partial).**  Missing: readings in which the switch that leads outside
the first four keymaps is closed (`C17_false`).  Proved: for every keymap list
that is fit for a layout and every sequence of allowed readings, the firmware
runs without undefined behaviour. -/
theorem C17_no_undefined_behaviour_partial (cfg : Config) (L : Layout) (hc : cfgOk cfg L = true)
    (inps : List Input) (hin : ∀ inp ∈ inps, Allowed L inp) :
    ∃ s0 s, boot cfg = .ok s0 ∧ run cfg s0 inps = .ok s := by
  have hcf := cfgFacts hc
  obtain ⟨s0, a, free, e1, e2, _⟩ := boot_inv hcf
  obtain ⟨s, g1, _⟩ := run_ok hcf inps hin ⟨_, _, _, _, e2⟩
  exact ⟨s0, s, e1, g1⟩

/-- The shipped keymap list is fit for the layout in which only DIP switch 2 has
to stay open. -/
theorem shipped_ok : cfgOk shipped shippedLayout = true := by decide +kernel

/-- **C17 (partial)** for the shipped firmware: no undefined behaviour in any run
in which DIP switch 2 is never sampled closed. -/
theorem C17_shipped_partial (inps : List Input) (h : ∀ inp ∈ inps, sample inp 8 2 = false) :
    ∃ s0 s, boot shipped = .ok s0 ∧ run shipped s0 inps = .ok s := by
  apply C17_no_undefined_behaviour_partial shipped shippedLayout shipped_ok
  intro inp hi r c _ _ hb
  simp only [shippedLayout, Bool.and_eq_true, beq_iff_eq] at hb
  rw [hb.1, hb.2]
  exact h inp hi

/-- Non-vacuity of C17: readings with every other key and switch closed. -/
example : ∀ inp ∈ List.replicate 1000 (fun r => if r = 8 then 0xFB else 0xFF : Input),
    sample inp 8 2 = false := by
  intro inp hi
  rw [(List.mem_replicate.mp hi).2]
  decide

end Asdf.Props
