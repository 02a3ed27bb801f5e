import Verif.Lemmas.GhostFacts2560

/-! # The checks of the boards with a keyboard without diodes: the Apple encoder -/

namespace Asdf.Ghosts

open Pcb Spec Asdf.Pcb.Roles

/-- The nets of the row drivers, and behind their diodes the row lines. -/
def driversEnc : List Nat := [52, 122, 53, 123, 37, 124, 38, 47, 39, 48, 40, 49, 41, 50, 42, 51]

def rowsEnc (k : Nat) : Option Net :=
  ([3, 4, 24, 2, 5, 6, 23, 7, 29, 28, 27, 34, 33, 32, 31, 30][k]?).map .io

theorem classicEnc_ok : boardOk2560 (classicEnc true) ⟨classicEnc_kb, classicEnc_io⟩ driversEnc classicGuarded
    classicPlaces classicEnc_ways rowsEnc = true := by decide +kernel

theorem solEnc_ok : boardOk2560 (solEnc true) ⟨solEnc_kb, solEnc_io⟩ driversEnc solGuarded
    solPlaces solEnc_ways rowsEnc = true := by decide +kernel

theorem fightsEnc :
    (driversOk (bare (classicEnc false)) rowsEnc (driver2560 (classicEnc false)) &&
      (bare (classicEnc false)).all noDip0) = true ∧
    (driversOk (bare (solEnc false)) rowsEnc (driver2560 (solEnc false)) &&
      (bare (solEnc false)).all noDip0) = true := by
  decide +kernel

end Asdf.Ghosts
