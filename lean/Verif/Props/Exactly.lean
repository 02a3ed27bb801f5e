import Verif.Props.Keymaps
import Verif.Props.Keys

/-! # Property C111: exactly which messages are ambiguous and which have no key -/

namespace Asdf.Props

open Spec

/-- **C111, identification.**  Two shipped keymaps print the same identification exactly if they are the same keymap
or are classic and classic caps. -/
theorem C111_same_message : ∀ i ∈ shippedNumbers, ∀ j ∈ shippedNumbers,
    (idMessage i = idMessage j ↔ i = j ∨ (i ≤ 1 ∧ j ≤ 1)) := by
  decide +kernel

theorem prints_lt : ∀ i ∈ shippedNumbers, ∀ n, Prints i n → n < 12 := by
  have h : ∀ i ∈ shippedNumbers, (hooksOf (shipped.setup i)).length ≤ 16 := by decide +kernel
  intro i hi n ⟨text, e⟩
  have := (List.getElem?_eq_some_iff.mp e).1
  have := h i hi
  omega

/-- **C111, keys.**  A message of a shipped keymap has a key exactly if it is none of these four: the keyboard test
of keymap 3, the identification of keymap 4, and both messages of keymap 5. -/
theorem C111_message_keys (i : UInt8) (hi : i ∈ shippedNumbers) (n : Nat) (hp : Prints i n) :
    HasFunctionKey i n ↔ (i, n) ∉ [(3, 9), (4, 10), (5, 9), (5, 10)] := by
  have hn := prints_lt i hi n hp
  constructor
  · intro h e
    exact (C71_false _ e).2 h
  · intro h
    have h1 : ∀ i ∈ shippedNumbers, ∀ n < 12, Prints i n →
        (i, n) ∈ ([(3, 9), (4, 10), (5, 9), (5, 10)] : List (UInt8 × Nat)) ∨ i ∈ ([0, 1, 2] : List UInt8) ∨ (i, n) = (3, 10) := by
      decide +kernel
    rcases h1 i hi n hn hp with h2 | h2 | h2
    · exact absurd h2 h
    · exact C71_messages_have_keys_partial.1 i h2 n hn hp
    · injection h2 with e1 e2
      subst e1
      subst e2
      exact C71_messages_have_keys_partial.2

example : Prints 2 3 ∧ Prints 5 10 ∧ (2 : UInt8) ∈ shippedNumbers ∧ (5 : UInt8) ∈ shippedNumbers := by decide +kernel

end Asdf.Props
