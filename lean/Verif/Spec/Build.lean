import Verif.Model.Build
import Verif.Spec.Scan

/-! # Specification vocabulary: keymaps of one shape -/

namespace Asdf.Spec

/-- A keymap of `rows` × `cols` keys: all four tables have these dimensions and are
complete, and its hooks print texts or do nothing. -/
def shaped (rows cols : Nat) (setup : List SetupCmd) : Bool :=
  ((mapsOf setup).all fun e => e.rows.toNat == rows && e.cols.toNat == cols &&
    match e.matrix with
    | none => false
    | some t => decide (rows * cols ≤ t.length)) && hooksOk (hooksOf setup)

/-- A keymap list that the firmware can hold: numbers below four, among them 0, all
keymaps of the same shape. -/
def uniform (rows cols : Nat) (l : List (UInt8 × List SetupCmd)) : Bool :=
  l.all (fun e => decide (e.1.toNat < 4) && shaped rows cols e.2) && l.any fun e => e.1 == 0

/-- The layout of such a build: nothing is excluded. -/
def layoutOf (rows cols : Nat) (l : List (UInt8 × List SetupCmd)) : Layout where
  rows := rows
  cols := cols
  maps := l.map Prod.fst
  blocked := fun _ _ => false

end Asdf.Spec
