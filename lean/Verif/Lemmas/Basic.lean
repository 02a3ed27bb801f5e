import Verif.Model.Basic

/-! # Lemmas about checked array access -/

namespace Asdf

theorem rd_ok {α} {l : List α} {i : Nat} (h : i < l.length) : rd l i = .ok l[i] := by
  simp [rd, h]

theorem rd_some {α} {l : List α} {i : Nat} {x : α} (h : l[i]? = some x) : rd l i = .ok x := by
  simp [rd, h]

theorem rd_eq_ok {α} {l : List α} {i : Nat} {x : α} : rd l i = .ok x ↔ l[i]? = some x := by
  unfold rd; split <;> simp_all

theorem rd_oob {α} {l : List α} {i : Nat} (h : l.length ≤ i) : rd l i = .error .oob := by
  simp [rd, h]

theorem wr_ok {α} {l : List α} {i : Nat} {x : α} (h : i < l.length) :
    wr l i x = .ok (l.set i x) := by
  simp [wr, h]

theorem wr_eq_ok {α} {l l' : List α} {i : Nat} {x : α} :
    wr l i x = .ok l' ↔ i < l.length ∧ l.set i x = l' := by
  unfold wr
  split
  · simp_all
  · constructor
    · intro h; cases h
    · intro h; omega

theorem rdI_nat {α} (l : List α) (i : Nat) : rdI l (i : Int) = rd l i := by
  simp [rdI]

theorem wrI_nat {α} (l : List α) (i : Nat) (x : α) : wrI l (i : Int) x = wr l i x := by
  simp [wrI]

@[simp] theorem ok_bind {α β} (x : α) (f : α → Res β) : (Except.ok x >>= f) = f x := rfl

@[simp] theorem error_bind {α β} (e : UB) (f : α → Res β) :
    ((Except.error e : Res α) >>= f) = Except.error e := rfl

@[simp] theorem pure_eq_ok {α} (x : α) : (pure x : Res α) = Except.ok x := rfl

theorem bind_eq_ok {α β} {x : Res α} {f : α → Res β} {b : β} :
    (x >>= f) = .ok b ↔ ∃ a, x = .ok a ∧ f a = .ok b := by
  cases x <;> simp

theorem bind_assoc_res {α β γ} (x : Res α) (f : α → Res β) (g : β → Res γ) :
    ((x >>= f) >>= g) = (x >>= fun a => f a >>= g) := by
  cases x <;> rfl

end Asdf
