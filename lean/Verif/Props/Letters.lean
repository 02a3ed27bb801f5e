import Verif.Spec.Letters
import Verif.Props.Machine

/-! # Property C57: letter keys -/

namespace Asdf.Props

open Spec

/-- **C57 (tables).** In each of the six keymaps, a key that has a letter in the plain
table has the letter's control code under CTRL and its capital under SHIFT or caps lock;
the only exceptions are the two Apple II keys under SHIFT. -/
theorem C57_tables : ∀ i ∈ shippedNumbers, ∀ r < rowsOf i, ∀ c < colsOf i,
    ∀ shift caps ctrl : Bool,
      isLetter (codeUnder shipped i (colsOf i) r c false false false) = true →
      (appleException i (codeUnder shipped i (colsOf i) r c false false false) && shift && !ctrl) =
        false →
      codeUnder shipped i (colsOf i) r c shift caps ctrl =
        letterCode (codeUnder shipped i (colsOf i) r c false false false) shift caps ctrl := by
  decide +kernel

/-- **C57 (completeness).** Each keymap has each of the 26 letters on exactly one key. -/
theorem C57_each_letter_once : ∀ i ∈ shippedNumbers, ∀ n < 26,
    (((tablesOf shipped i)[0]?.getD []).filter fun x => upper x == UInt8.ofNat (0x41 + n) &&
      isLetter x).length = 1 := by
  decide +kernel

/-- **C57 (exceptions).** What the two Apple II keys give under SHIFT. -/
theorem C57_apple : codeUnder shipped 3 8 1 1 true false false = 0x40 ∧
    codeUnder shipped 3 8 1 1 false false false = 0x50 ∧
    codeUnder shipped 3 8 2 3 true false false = 0x5E ∧
    codeUnder shipped 3 8 2 3 false false false = 0x4E := by decide +kernel

/-- **C57 (at run time).** At any moment of any run with keymaps 0 to 3, a letter key has
the code its letter should have under the current modifiers (`Kb.after` tracks them). -/
theorem C57_letters (inps : List Input) (hin : ∀ inp ∈ inps, Allowed shippedLayout inp)
    (r c : Nat) (hr : r < 9) (hc : c < 8) (k : Kb) (hk : k = Kb.after shipped shippedLayout inps)
    (x : Code) (hx : codeUnder shipped k.map 8 r c false false false = x) (hl : isLetter x = true)
    (ha : (appleException k.map x && (k.held || k.locked) && !k.ctrl) = false) :
    ∃ s, (boot shipped >>= fun s0 => run shipped s0 inps) = .ok s ∧
      lookupKeycode s r c = .ok (letterCode x (k.held || k.locked) k.caps k.ctrl) := by
  obtain ⟨s0, e1, e2⟩ := Shows.start (cfgFacts shipped_ok)
  obtain ⟨s1, g1, g2⟩ := e2.run (cfgFacts shipped_ok) inps hin
  obtain ⟨_, w⟩ := g2.wf
  have hm : k.map ∈ shippedLayout.maps := by
    have := w.idx
    rw [g2.map] at this
    rw [hk]
    exact this
  obtain ⟨s, f1, _, _, _, _, f6⟩ := C55_whole_keyboard shipped shippedLayout shipped_ok inps hin
  refine ⟨s, f1, ?_⟩
  rw [(f6 r c hr hc).2, ← hk]
  have hall : ∀ i ∈ shippedLayout.maps, i ∈ shippedNumbers ∧ rowsOf i = 9 ∧ colsOf i = 8 := by
    decide +kernel
  obtain ⟨h1, h2, h3⟩ := hall _ hm
  have := C57_tables k.map h1 r (by rw [h2]; exact hr) c (by rw [h3]; exact hc)
    (k.held || k.locked) k.caps k.ctrl
  rw [h3, hx] at this
  exact congrArg Except.ok (this hl ha)

/-- A, just typed, is a letter key of keymap 0, with no modifier. -/
example : (∀ inp ∈ typedA, Allowed shippedLayout inp) ∧
    (Kb.after shipped shippedLayout typedA).map = 0 ∧
    codeUnder shipped 0 8 1 6 false false false = 0x61 ∧ isLetter 0x61 = true ∧
    letterCode 0x61 true false false = 0x41 ∧ letterCode 0x61 false false true = 1 := by
  refine ⟨?_, by decide +kernel, by decide +kernel, by decide, by decide, by decide⟩
  intro inp hi
  rw [(List.mem_replicate.mp hi).2]
  exact allowed_of_row8 rfl

end Asdf.Props
