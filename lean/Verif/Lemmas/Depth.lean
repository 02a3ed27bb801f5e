import Verif.Spec.Depth
import Verif.Lemmas.CHwCausal

/-! # Calls that are nested too deep -/

namespace Asdf.C

open Avr Spec

variable {B : Board} {W : Outside}

theorem run_runOver [IsBoard B] (hB : PlainBoard B) {w : Nat} {deep : Call Hw} :
    ∀ (n : Nat) (f : F) (args : List Val) (s : St Hw),
    Alike (fun _ => False) s (run (hwProg B W) w n f args s) (runOver (hwProg B W) w deep n f args s) := by
  intro n
  induction n with
  | zero => exact fun _ _ _ => .fuel
  | succ n ih =>
    intro f args s
    cases hb : wholeBody B f with
    | some b =>
      rw [hw_fn W w n hb]
      have e : runOver (hwProg B W) w deep (n + 1) f args s = apply (runOver (hwProg B W) w deep n) w b args s := by
        show (match wholeBody B f with | some b => _ | none => _) = _
        rw [hb]
      rw [e]
      exact apply_alike ih (Nat.le_refl w) b (hB f b hb) args s
    | none =>
      rw [hw_ext W w n hb]
      have e : runOver (hwProg B W) w deep (n + 1) f args s = hwExt B W (runOver (hwProg B W) w deep n) f args s := by
        show (match wholeBody B f with | some b => _ | none => _) = _
        rw [hb]
        rfl
      rw [e]
      exact ext_alike (fun _ _ _ h => h) (fun _ _ => rfl) (fun _ _ _ => .same fun h => h.elim) ih f args s

/-- If the run does not end because of the bounds, deeper calls have no influence. -/
theorem over_same [IsBoard B] (hB : PlainBoard B) {w n : Nat} {deep : Call Hw} {f : F} {args : List Val} {s : St Hw}
    (h : run (hwProg B W) w n f args s ≠ .err .fuel) :
    runOver (hwProg B W) w deep n f args s = run (hwProg B W) w n f args s := by
  rcases (run_runOver (W := W) hB (w := w) (deep := deep) n f args s).1 with e | e
  · exact e.symm
  · exfalso
    cases e1 : run (hwProg B W) w n f args s with
    | ok a t => rw [e1] at e; exact e.elim
    | stop t => rw [e1] at e; exact e.elim
    | err r =>
      rw [e1] at e
      rcases e with rfl | ⟨_, e⟩
      · exact h e1
      · exact e.elim

/-- More levels. -/
theorem runOver_add {ι : Type} (P : Prog ι) (w : Nat) (deep : Call ι) (m : Nat) : ∀ n,
    runOver P w (runOver P w deep m) n = runOver P w deep (n + m)
  | 0 => by rw [Nat.zero_add]; rfl
  | n + 1 => by
    rw [show n + 1 + m = n + m + 1 by omega]
    funext f args s
    simp only [runOver, runOver_add P w deep m n]

/-- With the error as what deeper calls do, it is the same interpreter. -/
theorem runOver_run {ι : Type} (P : Prog ι) (w : Nat) : ∀ n, runOver P w (fun _ _ _ => .err .fuel) n = run P w n
  | 0 => rfl
  | n + 1 => by
    funext f args s
    simp only [runOver, run, runOver_run P w n]
    cases P.body f <;> rfl

end Asdf.C
