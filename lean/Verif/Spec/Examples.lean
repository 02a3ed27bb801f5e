import Verif.Spec.Shipped

/-! # Concrete keyboards, used to show that hypotheses can be met -/

namespace Asdf.Spec

/-- A reading with exactly the key in row `r`, column `c` closed. -/
def closing (r c : Nat) : Input := fun i => if i = r then UInt8.ofNat (1 <<< c) else 0

/-- A reading with no key closed. -/
def noKeys : Input := fun _ => 0

/-- The shipped keyboard after power-up and the given passes (`State.zero` if
that failed; the examples show that it did not). -/
def after (inps : List Input) : State :=
  match boot shipped with
  | .ok s => match run shipped s inps with
    | .ok s' => s'
    | .error _ => State.zero
  | .error _ => State.zero

/-- The run that `after` describes did not fail. -/
def runsOk (inps : List Input) : Bool :=
  match boot shipped with
  | .ok s => match run shipped s inps with
    | .ok _ => true
    | .error _ => false
  | .error _ => false

theorem after_reachable {L : Layout} {inps : List Input} (h : runsOk inps = true)
    (ha : ∀ inp ∈ inps, Allowed L inp) : Reachable shipped L (after inps) := by
  unfold runsOk at h
  unfold after Reachable
  cases hb : boot shipped with
  | error e => rw [hb] at h; cases h
  | ok s0 =>
    rw [hb] at h
    dsimp only at h ⊢
    refine ⟨s0, inps, rfl, ha, ?_⟩
    cases hr : run shipped s0 inps with
    | error e => rw [hr] at h; cases h
    | ok s => rfl

/-- A reading that leaves row 8 open is allowed. -/
theorem allowed_of_row8 {inp : Input} (h : inp 8 = 0) : Allowed shippedLayout inp := by
  intro r c _ _ hb
  simp only [shippedLayout, Bool.and_eq_true, beq_iff_eq] at hb
  rw [hb.1, sample, h]
  simp [bitOf]

/-- The letter A (row 1, column 6 of the first keymap) was just accepted. -/
def typedA : List Input := List.replicate 10 (closing 1 6)

theorem typedA_reachable : Reachable shipped shippedLayout (after typedA) :=
  after_reachable (by decide +kernel) (by
    intro inp hi
    rw [(List.mem_replicate.mp hi).2]
    exact allowed_of_row8 rfl)

/-- A was typed and released. -/
def typedAndReleasedA : List Input :=
  List.replicate 9 noKeys ++ List.replicate 10 (closing 1 6) ++ List.replicate 10 noKeys

end Asdf.Spec
