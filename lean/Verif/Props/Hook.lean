import Verif.Model.Shipped
import Verif.Lemmas.Basic

/-! # Properties C33, C34: hooks and keymap selection -/

namespace Asdf.Props

/-- Specification: the function hook `id` uses after the assignments `ops`
(oldest first) on a freshly initialised table. -/
def hookAfter (ops : List (Nat × HookFn)) (id : Nat) : HookFn :=
  if 1 ≤ id ∧ id ≤ 15 then
    match ops.reverse.find? (fun op => op.1 == id) with
    | some op => op.2
    | none => if id = 1 then .keyscan else if id = 2 then .archReadRow
              else if id = 3 then .archSendCode else .null
  else .null

/-- A sequence of assignments on the model of the C code. -/
def assignHooks (hs : List HookFn) (ops : List (Nat × HookFn)) : Res (List HookFn) :=
  ops.foldlM (fun hs op => hookAssign hs op.1 op.2) hs

private theorem hookValid_iff {id : Nat} : hookValid id = true ↔ 1 ≤ id ∧ id ≤ 15 := by
  unfold hookValid
  rw [Bool.and_eq_true, decide_eq_true_eq, decide_eq_true_eq]
  show 0 < id ∧ id < 16 ↔ _
  omega

private theorem assignHooks_ok (ops : List (Nat × HookFn)) (hs : List HookFn)
    (hl : hs.length = 16) :
    ∃ hs', assignHooks hs ops = .ok hs' ∧ hs'.length = 16 ∧
      ∀ id, 1 ≤ id → id ≤ 15 → hs'[id]? =
        match ops.reverse.find? (fun op => op.1 == id) with
        | some op => some op.2
        | none => hs[id]? := by
  induction ops generalizing hs with
  | nil => exact ⟨hs, rfl, hl, fun id _ _ => rfl⟩
  | cons op ops ih =>
    have h1 : ∃ hs1, hookAssign hs op.1 op.2 = .ok hs1 ∧ hs1.length = 16 ∧
        ∀ id, 1 ≤ id → id ≤ 15 → hs1[id]? = if op.1 = id then some op.2 else hs[id]? := by
      unfold hookAssign
      by_cases hv : hookValid op.1 = true
      · have hv' := hookValid_iff.mp hv
        refine ⟨hs.set op.1 op.2, ?_, by simpa using hl, ?_⟩
        · rw [if_pos hv, wr_ok (by omega)]
        · intro id _ _
          by_cases hid : op.1 = id
          · subst hid; simp [show op.1 < hs.length by omega]
          · rw [List.getElem?_set_ne hid, if_neg hid]
      · refine ⟨hs, by rw [if_neg hv], hl, ?_⟩
        intro id h1 h2
        have : op.1 ≠ id := by
          intro hc; rw [hookValid_iff] at hv; omega
        rw [if_neg this]
    obtain ⟨hs1, ha, hl1, hg⟩ := h1
    obtain ⟨hs2, hb, hl2, hg2⟩ := ih hs1 hl1
    refine ⟨hs2, ?_, hl2, ?_⟩
    · unfold assignHooks at hb ⊢
      rw [List.foldlM_cons, ha]; exact hb
    · intro id h1 h2
      rw [hg2 id h1 h2, List.reverse_cons, List.find?_append]
      cases List.find? (fun op => op.1 == id) ops.reverse with
      | some x => simp
      | none =>
        simp only [Option.none_or, hg id h1 h2]
        by_cases hid : op.1 = id
        · simp [hid]
        · have : (op.1 == id) = false := by simpa using hid
          simp [hid]

/-- **C33.** After initialisation and every sequence of assignments with
arbitrary ids, asking for hook `id` yields the function most recently assigned
to exactly that id, the default if there is none, and the function without
effect for an invalid id. -/
theorem C33_hooks_are_a_guarded_finite_map (hs0 : List HookFn) (ops : List (Nat × HookFn)) :
    ∃ hs, assignHooks (hookInit hs0) ops = .ok hs ∧ ∀ id, hookGet hs id = .ok (hookAfter ops id) := by
  obtain ⟨hs, h1, hl, hg⟩ := assignHooks_ok ops (hookInit hs0) (by simp [hookInit, NUM_HOOKS])
  refine ⟨hs, h1, ?_⟩
  intro id
  unfold hookGet hookAfter
  by_cases hv : hookValid id = true
  · have hv' := hookValid_iff.mp hv
    rw [if_pos hv, if_pos hv']
    have hg' := hg id hv'.1 hv'.2
    cases hf : List.find? (fun op => op.1 == id) ops.reverse with
    | some op => rw [hf] at hg'; exact rd_some hg'
    | none =>
      rw [hf] at hg'
      apply rd_some
      rw [hg']
      have : id < 16 := by omega
      revert hv'
      clear hg' hf hv hg hl h1
      revert id
      show ∀ id, id < 16 → 1 ≤ id ∧ id ≤ 15 → (hookInit [])[id]? =
        some (if id = 1 then .keyscan else if id = 2 then .archReadRow
              else if id = 3 then .archSendCode else .null)
      decide
  · have hv' := mt hookValid_iff.mpr hv
    rw [if_neg hv, if_neg hv']

/-- **C33.** Executing a hook runs the function the table holds for exactly that
id; an invalid id has no effect. -/
theorem C33_execute (hs0 : List HookFn) (ops : List (Nat × HookFn)) (s : State)
    (hs : assignHooks (hookInit hs0) ops = .ok s.hooks) (id : Nat) :
    (hookAfter ops id = .null → hookExecute s id = .ok s) ∧
    (∀ text, hookAfter ops id = .print text → hookExecute s id = print s text) := by
  obtain ⟨hs', h1, hg⟩ := C33_hooks_are_a_guarded_finite_map hs0 ops
  rw [hs] at h1
  cases h1
  have hgid := hg id
  unfold hookExecute
  unfold hookGet at hgid
  by_cases hv : hookValid id = true
  · rw [if_pos hv] at hgid ⊢
    rw [hgid]
    constructor
    · intro h; rw [h]; rfl
    · intro t h; rw [h]; rfl
  · rw [if_neg hv] at hgid ⊢
    constructor
    · intro _; rfl
    · intro t h
      rw [h] at hgid
      cases hgid

/-- **C33.** An invalid id has no effect, in every state. -/
theorem C33_invalid_id_is_inert (s : State) (id : Nat) (f : HookFn) (h : id = 0 ∨ 16 ≤ id) :
    hookExecute s id = .ok s ∧ hookAssign s.hooks id f = .ok s.hooks := by
  have hv : ¬ hookValid id = true := by rw [hookValid_iff]; omega
  unfold hookExecute hookAssign
  rw [if_neg hv, if_neg hv]
  exact ⟨rfl, rfl⟩

/-- Non-vacuity of C33. -/
example : hookAfter [(14, .print [1]), (99, .print [2]), (14, .print [3])] 14 = .print [3] ∧
    hookAfter [(14, .print [1]), (99, .print [2])] 99 = .null ∧
    hookAfter [(14, .print [1])] 2 = .archReadRow := by decide

example : (assignHooks (hookInit hooksZero) [(14, .print [1]), (99, .print [2])]).map (·[14]?) =
    .ok (some (.print [1])) := by decide

/-- **C34.** Selecting a keymap that is not in the list, or the current one,
leaves the whole state (including the trace of hardware effects) unchanged. -/
theorem C34_select_invalid_or_current_is_noop (cfg : Config) (s : State) (i : UInt8)
    (h : cfg.valid i = false ∨ i = s.curIdx) : keymapsSelect cfg s i = .ok s := by
  unfold keymapsSelect keymapsSwitch
  rcases h with h | h
  · rw [h]; simp
  · rw [if_neg (by simpa using h)]

/-- **C34.** The same through the DIP switches: closing or opening a map-select
switch that leads to a missing keymap, or does not change the number, has no
effect. -/
theorem C34_map_switch_to_missing_keymap_is_noop (cfg : Config) (s : State) (bit : UInt8) :
    (cfg.valid (s.curIdx ||| bit) = false ∨ s.curIdx ||| bit = s.curIdx →
      mapSelectSet cfg s bit = .ok s) ∧
    (cfg.valid (s.curIdx &&& ~~~bit) = false ∨ s.curIdx &&& ~~~bit = s.curIdx →
      mapSelectClear cfg s bit = .ok s) :=
  ⟨C34_select_invalid_or_current_is_noop cfg s _, C34_select_invalid_or_current_is_noop cfg s _⟩

/-- Non-vacuity of C34: from keymap 2, closing switch 2 leads to the missing
keymap 6. -/
example : shipped.valid (2 ||| 4) = false ∧ shipped.valid 2 = true := by decide

end Asdf.Props
