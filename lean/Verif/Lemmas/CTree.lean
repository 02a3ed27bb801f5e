import Verif.Model.CUnits

/-! # Comparing programs

Equality of syntax trees and of static objects is decidable. -/

namespace Asdf.C

deriving instance DecidableEq for Expr, LExpr, Args
deriving instance DecidableEq for Ty
deriving instance DecidableEq for Stmt, Cases
deriving instance DecidableEq for Fun

mutual

/-- Are two objects the same? -/
def Tree.same : Tree → Tree → Bool
  | .leaf v, .leaf w => decide (v = w)
  | .arr l, .arr m => sameList l m
  | .struct l, .struct m => sameFields l m
  | _, _ => false

/-- Are two lists of objects the same? -/
def sameList : List Tree → List Tree → Bool
  | [], [] => true
  | a :: l, b :: m => a.same b && sameList l m
  | _, _ => false

/-- Are two structures the same? -/
def sameFields : List (Fld × Tree) → List (Fld × Tree) → Bool
  | [], [] => true
  | (f, a) :: l, (g, b) :: m => decide (f = g) && a.same b && sameFields l m
  | _, _ => false

end

mutual

theorem Tree.same_eq : ∀ a b : Tree, a.same b = true → a = b
  | .leaf v, .leaf w, h => by simp [Tree.same] at h; rw [h]
  | .arr l, .arr m, h => by simp [Tree.same] at h; rw [sameList_eq l m h]
  | .struct l, .struct m, h => by simp [Tree.same] at h; rw [sameFields_eq l m h]
  | .leaf _, .arr _, h => by simp [Tree.same] at h
  | .leaf _, .struct _, h => by simp [Tree.same] at h
  | .arr _, .leaf _, h => by simp [Tree.same] at h
  | .arr _, .struct _, h => by simp [Tree.same] at h
  | .struct _, .leaf _, h => by simp [Tree.same] at h
  | .struct _, .arr _, h => by simp [Tree.same] at h

theorem sameList_eq : ∀ a b : List Tree, sameList a b = true → a = b
  | [], [], _ => rfl
  | a :: l, b :: m, h => by
    simp [sameList] at h
    rw [Tree.same_eq a b h.1, sameList_eq l m h.2]
  | [], _ :: _, h => by simp [sameList] at h
  | _ :: _, [], h => by simp [sameList] at h

theorem sameFields_eq : ∀ a b : List (Fld × Tree), sameFields a b = true → a = b
  | [], [], _ => rfl
  | (f, a) :: l, (g, b) :: m, h => by
    simp [sameFields] at h
    rw [h.1.1, Tree.same_eq a b h.1.2, sameFields_eq l m h.2]
  | [], _ :: _, h => by simp [sameFields] at h
  | _ :: _, [], h => by simp [sameFields] at h

end

mutual

theorem Tree.same_self : ∀ a : Tree, a.same a = true
  | .leaf v => by simp [Tree.same]
  | .arr l => by simp [Tree.same, sameList_self l]
  | .struct l => by simp [Tree.same, sameFields_self l]

theorem sameList_self : ∀ a : List Tree, sameList a a = true
  | [] => rfl
  | a :: l => by simp [sameList, Tree.same_self a, sameList_self l]

theorem sameFields_self : ∀ a : List (Fld × Tree), sameFields a a = true
  | [] => rfl
  | (f, a) :: l => by simp [sameFields, Tree.same_self a, sameFields_self l]

end

instance : DecidableEq Tree := fun a b =>
  if h : a.same b = true then isTrue (Tree.same_eq a b h)
  else isFalse fun e => h (e ▸ Tree.same_self a)

deriving instance DecidableEq for Item

end Asdf.C
