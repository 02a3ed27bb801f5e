import Verif.Lemmas.Pool
import Verif.Props.Buffer

/-! # C93: exactly which reservations are unsafe -/

namespace Asdf.Props

open Asdf.Spec

/-- **C93.**  A sequence of calls of the buffer functions, with any sizes a caller can pass, has
undefined behaviour exactly if at some point a buffer is granted although the sizes granted before add
up to less than 0. -/
theorem C93_exact (ops : List BufOp) (h : ∀ op ∈ ops, op.int16) :
    (∃ e, runBuf BufState.zero ops = .error e) ↔
      ∃ pre k post, ops = pre ++ .new k :: post ∧ Overdraws (grants pre) k :=
  Pool.run_error ops Pool.inv_zero h

/-- After sizes 10 and -11 the next reservation is outside the pool; after 10 and -5 it is inside
(where it shares memory with the first buffer, `C02_negative_size_interferes`). -/
example : Overdraws (grants [.new 10, .new (-11)]) 100 ∧ ¬ Overdraws (grants [.new 10, .new (-5)]) 5 := by
  decide +kernel

/-- **C93, put and get.**  They are always safe: the next call after a run without undefined
behaviour is unsafe only if it is a reservation that overdraws. -/
theorem C93_put_get_safe (ops : List BufOp) (h : ∀ op ∈ ops, op.int16) (b : BufState) (outs : List BufOut)
    (hr : runBuf BufState.zero ops = .ok (b, outs)) (x : Int) (c : Code) :
    (∃ b', bufPut b x c = .ok b') ∧ ∃ c' b', bufGet b x = .ok (c', b') := by
  have hi := Pool.run_inv ops Pool.inv_zero h hr
  obtain ⟨b1, e1, _⟩ := Pool.put_ok hi x c
  obtain ⟨c2, b2, e2, _⟩ := Pool.get_ok hi x
  exact ⟨⟨b1, e1⟩, c2, b2, e2⟩

/-- **C93, a buffer of negative size.**  It accepts nothing and gives nothing. -/
theorem C93_negative_inert (ops : List BufOp) (h : ∀ op ∈ ops, op.int16) (b : BufState) (outs : List BufOut)
    (hr : runBuf BufState.zero ops = .ok (b, outs)) (i : Nat) (k : Int) (hk : k ≤ 0)
    (hg : (grants ops)[i]? = some k) (c : Code) :
    bufPut b i c = .ok b ∧ bufGet b i = .ok (0xA0, b) :=
  Pool.inert (Pool.run_inv ops Pool.inv_zero h hr) hg hk c

example : (grants [.new 10, .new (-5), .new 5])[1]? = some (-5) := by decide +kernel

end Asdf.Props
