import Verif.Lemmas.Buffer

/-! # Properties C01-C04: the buffer module

The specification is `Verif/Spec/Queue.lean`: a list of bounded FIFO queues.
-/

namespace Asdf.Props

open Spec

/-- **C01.** Every sequence of API calls with non-negative sizes, from the reset
state, returns exactly what bounded FIFO queues return: no undefined behaviour,
same handles, same codes, in the same order. -/
theorem C01_buffers_are_bounded_fifo (ops : List BufOp) (hs : ∀ op ∈ ops, op.sane = true) :
    ∃ b, runBuf BufState.zero ops = .ok (b, (runSpec [] ops).2) := by
  obtain ⟨b, h, _⟩ := runBuf_refines ops hs BufRel.zero
  exact ⟨b, h⟩

/-- Non-vacuity of C01: two buffers, one overflowing and wrapping around. -/
example : (runBuf BufState.zero
    [.new 2, .new 3, .put 0 65, .put 0 66, .put 0 67, .get 0, .put 0 68, .put 1 1,
     .get 0, .get 0, .get 0, .get 1]).map Prod.snd =
    .ok ([.handle 0, .handle 1, .unit, .unit, .unit, .code 65, .unit, .unit,
     .code 66, .code 68, .code 0xA0, .code 1]) := by decide +kernel

/-! ## The queue specification itself is a FIFO -/

/-- Put the codes of a list one after the other. -/
def putAll (q : Queue) (cs : List Code) : Queue := cs.foldl Queue.put q

/-- Take `n` codes out. -/
def popN : Nat → Queue → List Code × Queue
  | 0, q => ([], q)
  | n + 1, q => let (cs, q') := popN n q.pop; (q.front :: cs, q')

/-- **C01** (sanity of the specification): codes that fit come out in order, and
the queue is then as it was without them. -/
theorem C01_spec_fifo (cap : Nat) (cs ds : List Code) (h : (cs ++ ds).length ≤ cap) :
    popN cs.length (putAll ⟨cap, []⟩ (cs ++ ds)) = (cs, ⟨cap, ds⟩) := by
  have hput : ∀ (xs ys : List Code), (ys ++ xs).length ≤ cap →
      putAll ⟨cap, ys⟩ xs = ⟨cap, ys ++ xs⟩ := by
    intro xs
    induction xs with
    | nil => intro ys _; simp [putAll]
    | cons x xs ih =>
      intro ys hl
      simp only [putAll, List.foldl_cons]
      have : Queue.put ⟨cap, ys⟩ x = ⟨cap, ys ++ [x]⟩ := by
        unfold Queue.put; rw [if_pos]; simp at hl ⊢; omega
      rw [this]
      have := ih (ys ++ [x]) (by simp at hl ⊢; omega)
      simpa [putAll] using this
  rw [hput _ _ (by simpa using h)]
  simp only [List.nil_append]
  clear h hput
  induction cs with
  | nil => rfl
  | cons c cs ih => simp [popN, Queue.pop, Queue.front, ih]

/-- **C01** (sanity of the specification): a full queue drops the new code. -/
theorem C01_spec_full (q : Queue) (c : Code) (h : q.cap ≤ q.items.length) : q.put c = q := by
  unfold Queue.put; rw [if_neg (by omega)]

example : (⟨2, [1, 2]⟩ : Queue).put 3 = ⟨2, [1, 2]⟩ := by decide

/-! ## C02 -/

/-- **C02.** Leaving out all calls on handle `h` from any sequence of API calls
does not change the result of any other call. -/
theorem C02_buffers_do_not_interfere (h : Int) (ops : List BufOp)
    (hs : ∀ op ∈ ops, op.sane = true) :
    ∃ b outs b', runBuf BufState.zero ops = .ok (b, outs) ∧
      runBuf BufState.zero (ops.filter (fun op => !onHandle h op)) =
        .ok (b', otherOuts h ops outs) := by
  obtain ⟨b, h1, _⟩ := runBuf_refines ops hs BufRel.zero
  obtain ⟨b', h2, _⟩ := runBuf_refines (ops.filter (fun op => !onHandle h op))
    (fun op ho => hs op (List.mem_filter.mp ho).1) BufRel.zero
  refine ⟨b, _, b', h1, ?_⟩
  rw [h2, spec_noninterf h ops ⟨rfl, rfl, fun _ _ => rfl⟩]

/-- Non-vacuity of C02: calls on handle 1 are interleaved with calls on handle 0. -/
example : otherOuts 1 [.new 2, .new 2, .put 0 7, .put 1 8, .get 1, .get 0]
      [.handle 0, .handle 1, .unit, .unit, .code 8, .code 7] =
    [.handle 0, .handle 1, .unit, .code 7] := by decide

/-- C02 fails if a negative size is requested: with sizes 10, -5, 5 the first and
third buffer overlap, and a put on handle 2 changes what a get on handle 0 returns. -/
theorem C02_negative_size_interferes :
    (runBuf BufState.zero
        ([.new 10, .new (-5), .new 5] ++ List.replicate 6 (.put 0 1) ++ [.put 2 9] ++
          List.replicate 6 (.get 0))).map Prod.snd =
        .ok ([.handle 0, .handle 1, .handle 2] ++ List.replicate 7 .unit ++
          [.code 1, .code 1, .code 1, .code 1, .code 1, .code 9]) ∧
      (runBuf BufState.zero
        ([.new 10, .new (-5), .new 5] ++ List.replicate 6 (.put 0 1) ++
          List.replicate 6 (.get 0))).map Prod.snd =
        .ok ([.handle 0, .handle 1, .handle 2] ++ List.replicate 6 .unit ++
          [.code 1, .code 1, .code 1, .code 1, .code 1, .code 1]) :=
  by decide +kernel

/-! ## C03 -/

/-- **C03, partial.** No sequence of calls with non-negative sizes (zero
included) has undefined behaviour: no access outside the pool or the descriptor
table, no remainder by zero, no overflow.  Missing: negative sizes, for which
the claim is false (`C03_negative_size_unsafe`). -/
theorem C03_buffer_memory_safe_partial (ops : List BufOp) (hs : ∀ op ∈ ops, op.sane = true)
    (e : UB) : runBuf BufState.zero ops ≠ .error e := by
  obtain ⟨b, h, _⟩ := runBuf_refines ops hs BufRel.zero
  rw [h]; intro hc; cases hc

example : ∀ op ∈ ([.new 0, .put 0 1, .get 0, .new 144, .put 1 5, .put (-3) 1] : List BufOp),
    op.sane = true := by decide

/-- C03 is false of the code as it stands: after a request for a negative size
the next reservation forms a pointer outside the pool; a very negative size
overflows the 16-bit subtraction. -/
theorem C03_negative_size_unsafe :
    runBuf BufState.zero [.new (-1), .new 1] = .error .oob ∧
    runBuf BufState.zero [.new (-32768), .new 1] = .error .overflow := ⟨rfl, rfl⟩

/-! ## C04 -/

/-- **C04.** After every sequence of calls, reserving `n ≥ 0` elements succeeds
iff fewer than four buffers are reserved and the pool still has room; it then
returns the next handle; otherwise it returns the invalid handle and changes
nothing. -/
theorem C04_reservation_iff_fits (ops : List BufOp) (hs : ∀ op ∈ ops, op.sane = true) (n : Nat) :
    ∃ b outs h b', runBuf BufState.zero ops = .ok (b, outs) ∧ bufNew b n = .ok (h, b') ∧
      (h ≠ -1 ↔ (runSpec [] ops).1.length < 4 ∧
        ((runSpec [] ops).1.map Queue.cap).sum + n ≤ 144) ∧
      (h ≠ -1 → h = ((runSpec [] ops).1.length : Int)) ∧
      (h = -1 → b' = b) := by
  obtain ⟨b, h1, hr⟩ := runBuf_refines ops hs BufRel.zero
  obtain ⟨b', h2, _, hb⟩ := hr.new n
  refine ⟨b, _, _, b', h1, h2, ?_, ?_, ?_⟩
  · by_cases hf : fits (runSpec [] ops).1 n
    · rw [if_pos hf]
      exact ⟨fun _ => hf, fun _ => by omega⟩
    · rw [if_neg hf]
      exact ⟨fun x => absurd rfl x, fun x => absurd x hf⟩
  · intro h; split
    · rfl
    · rename_i hf; rw [if_neg hf] at h; exact absurd rfl h
  · intro h
    apply hb
    intro hf
    rw [if_pos hf] at h
    omega

/-- **C04.** A handle that was never handed out (negative, or not below the
number of reserved buffers) is inert: put changes nothing, get returns "no code"
and changes nothing. -/
theorem C04_unknown_handle_is_inert (ops : List BufOp) (hs : ∀ op ∈ ops, op.sane = true)
    (h : Int) (hh : h < 0 ∨ ((runSpec [] ops).1.length : Int) ≤ h) (c : Code) :
    ∃ b outs, runBuf BufState.zero ops = .ok (b, outs) ∧
      bufPut b h c = .ok b ∧ bufGet b h = .ok (0xA0, b) := by
  obtain ⟨b, h1, hr⟩ := runBuf_refines ops hs BufRel.zero
  have hn : ¬ isHandle (runSpec [] ops).1 h := by unfold isHandle; omega
  exact ⟨b, _, h1, hr.put_invalid hn c, hr.get_invalid hn⟩

/-- Non-vacuity of C04: a history with three reservations, a failed one, and a
fourth one that still fits. -/
example : (runSpec [] [.new 100, .new 40, .new 5, .new 4, .new 0]).2 =
      [.handle 0, .handle 1, .handle (-1), .handle 2, .handle 3] ∧
    (runSpec [] [.new 100, .new 40, .new 5, .new 4, .new 0]).1.length = 4 := by decide

end Asdf.Props
