import Verif.Model.CParse

/-! # The tables of names -/

namespace Asdf.C

variable {α : Type}

theorem assoc_mem (x : Nat) (v : α) : ∀ l : List (Nat × α), assoc x l = some v → (x, v) ∈ l
  | [], h => by cases h
  | (y, w) :: l, h => by
    have ih := assoc_mem x v l
    unfold assoc at h
    cases e : Nat.beq y x
    · rw [e] at h
      exact List.mem_cons_of_mem _ (ih h)
    · rw [e] at h
      cases Option.some.inj h
      rw [Nat.eq_of_beq_eq_true e]
      exact List.mem_cons_self

theorem assoc_cons_of (x y : Nat) (v w : α) (l : List (Nat × α)) (h : assoc x ((y, w) :: l) = some v) :
    (x = y ∧ v = w) ∨ assoc x l = some v := by
  unfold assoc at h
  cases e : Nat.beq y x
  · rw [e] at h
    exact .inr h
  · rw [e] at h
    exact .inl ⟨(Nat.eq_of_beq_eq_true e).symm, (Option.some.inj h).symm⟩

theorem insert_find (y : Nat) (w : α) (x : Nat) (v : α) : ∀ (d g h : Nat) (t : Trie α),
    (t.insert y w d g).find x h = some v → (x = y ∧ v = w) ∨ t.find x h = some v := by
  intro d
  induction d with
  | zero =>
    intro g h t
    cases t with
    | leaf l => exact assoc_cons_of x y v w l
    | node a b => exact fun e => .inr e
  | succ d ih =>
    intro g h t
    cases t with
    | leaf l =>
      cases l with
      | cons e l => exact assoc_cons_of x y v w (e :: l)
      | nil =>
        unfold Trie.insert
        have no : ∀ k, (Trie.leaf [] : Trie α).find x k = none := fun _ => rfl
        cases Nat.beq (Nat.mod g 2) 0
        · show Trie.find x h (.node (.leaf []) (Trie.insert y w d (Nat.div g 2) (.leaf []))) = some v → _
          unfold Trie.find
          cases Nat.beq (Nat.mod h 2) 0
          · intro e
            exact (ih _ _ _ e).imp id fun e => by rw [no] at e; cases e
          · intro e; cases e
        · show Trie.find x h (.node (Trie.insert y w d (Nat.div g 2) (.leaf [])) (.leaf [])) = some v → _
          unfold Trie.find
          cases Nat.beq (Nat.mod h 2) 0
          · intro e; cases e
          · intro e
            exact (ih _ _ _ e).imp id fun e => by rw [no] at e; cases e
    | node a b =>
      unfold Trie.insert
      cases Nat.beq (Nat.mod g 2) 0
      · show Trie.find x h (.node a (b.insert y w d (Nat.div g 2))) = some v → _
        unfold Trie.find
        cases Nat.beq (Nat.mod h 2) 0
        · exact fun e => ih _ _ _ e
        · exact fun e => .inr e
      · show Trie.find x h (.node (a.insert y w d (Nat.div g 2)) b) = some v → _
        unfold Trie.find
        cases Nat.beq (Nat.mod h 2) 0
        · exact fun e => .inr e
        · exact fun e => ih _ _ _ e

theorem fold_get (x : Nat) (v : α) : ∀ (l : List (Nat × α)) (t : Trie α),
    (l.foldl (fun t e => t.put e.1 e.2) t).get x = some v → (x, v) ∈ l ∨ t.get x = some v
  | [], _, h => .inr h
  | e :: l, t, h => by
    rcases fold_get x v l (t.put e.1 e.2) h with h | h
    · exact .inl (List.mem_cons_of_mem _ h)
    · rcases insert_find e.1 e.2 x v _ _ _ t h with ⟨h1, h2⟩ | h
      · exact .inl (by rw [h1, h2]; exact List.mem_cons_self)
      · exact .inr h

/-- What a table finds is one of its entries. -/
theorem of_get {l : List (Nat × α)} {x : Nat} {v : α} (h : (Trie.of l).get x = some v) : (x, v) ∈ l := by
  rcases fold_get x v l .empty h with h | h
  · exact h
  · cases h

end Asdf.C
