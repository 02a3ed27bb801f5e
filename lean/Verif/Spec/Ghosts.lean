import Verif.Spec.KeyPlaces

/-! # Specification vocabulary: a keyboard without diodes -/

namespace Asdf.Spec

open Pcb

/-- A wire in place of a diode. -/
def wired : Link → Link
  | .diode a b => .wire a b
  | l => l

/-- The links of a part of a keyboard that has wires in place of the diodes of the keys; the lamps stay. -/
def bareLinks (cut : Bool) (p : Part) : List Link :=
  if p.kind = .led then p.links .kb cut else (p.links .kb cut).map wired

/-- All links of an assembly whose keyboard has no diodes. -/
def bare (A : Assembly) : List Link :=
  A.keyboard.flatMap (bareLinks A.cut) ++ A.io.flatMap (Part.links .io A.cut) ++ A.cable

/-- The switches that have a diode on the interface board (hardware/interface-ascii/README.md): the DIP
switches, and on the classic keyboard POWER, RUBOUT and `@`. -/
def classicGuarded : Sw → Bool
  | .key n => n = 32 || n = 34 || n = 61
  | .dip _ => true

def solGuarded : Sw → Bool
  | .key _ => false
  | .dip _ => true

/-- A row line or a column line. -/
inductive MatrixLine where
  | row (r : Nat)
  | col (c : Nat)

/-- The lines that are joined to the rows `sel` by closed switches.  Through a switch with a diode a row
reaches its column only. -/
inductive Reaches (ps : List Place) (guarded closed : Sw → Bool) (sel : Nat → Prop) : MatrixLine → Prop
  | selected {r : Nat} (h : sel r) : Reaches ps guarded closed sel (.row r)
  | toColumn {p : Place} (hp : p ∈ ps) (hc : closed p.sw = true) (h : Reaches ps guarded closed sel (.row p.row)) :
      Reaches ps guarded closed sel (.col p.col)
  | toRow {p : Place} (hp : p ∈ ps) (hc : closed p.sw = true) (hg : guarded p.sw = false)
      (h : Reaches ps guarded closed sel (.col p.col)) : Reaches ps guarded closed sel (.row p.row)

/-- A closed switch at a position. -/
def ClosedAt (ps : List Place) (closed : Sw → Bool) (r c : Nat) : Prop :=
  ∃ p ∈ ps, p.row = r ∧ p.col = c ∧ closed p.sw = true

/-- Three closed switches at corners of a rectangle, with no closed switch at the fourth.  The one in the
middle has no diode. -/
def OpenCorner (ps : List Place) (guarded closed : Sw → Bool) : Prop :=
  ∃ p ∈ ps, ∃ q ∈ ps, ∃ s ∈ ps, closed p.sw = true ∧ closed q.sw = true ∧ closed s.sw = true ∧
    guarded q.sw = false ∧ p.col = q.col ∧ q.row = s.row ∧ ¬ ClosedAt ps closed p.row s.col

/-- The keyboards on the interface boards, without diodes of the keys, with (`cut`) or without the diodes of
the rows; their switches and those with a diode of their own. -/
def bare328 (cut : Bool) : List (Assembly × List Place × (Sw → Bool)) :=
  [(classic328 cut, classicPlaces, classicGuarded), (sol328 cut, solPlaces, solGuarded)]

def bare2560 (cut : Bool) : List (Assembly × List Place × (Sw → Bool)) :=
  [(classic2560 cut, classicPlaces, classicGuarded), (sol2560 cut, solPlaces, solGuarded),
   (classicEnc cut, classicPlaces, classicGuarded), (solEnc cut, solPlaces, solGuarded)]

end Asdf.Spec
