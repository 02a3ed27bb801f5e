import Verif.Lemmas.GhostFacts328

/-! # The checks of the boards with a keyboard without diodes: the ATmega2560 interface -/

namespace Asdf.Ghosts

open Pcb Spec Asdf.Pcb.Roles

/-- The nets of the row drivers, and behind their diodes the row lines. -/
def drivers2560 : List Nat := [52, 137, 53, 138, 37, 139, 38, 47, 39, 48, 40, 49, 41, 50, 42, 51]

def rows2560 (k : Nat) : Option Net :=
  ([3, 4, 24, 2, 5, 6, 23, 7, 29, 28, 27, 34, 33, 32, 31, 30][k]?).map .io

theorem classic2560_ok : boardOk2560 (classic2560 true) ⟨classic2560_kb, classic2560_io⟩ drivers2560 classicGuarded
    classicPlaces classic2560_ways rows2560 = true := by decide +kernel

theorem sol2560_ok : boardOk2560 (sol2560 true) ⟨sol2560_kb, sol2560_io⟩ drivers2560 solGuarded
    solPlaces sol2560_ways rows2560 = true := by decide +kernel

theorem fights2560 :
    (driversOk (bare (classic2560 false)) rows2560 (driver2560 (classic2560 false)) &&
      (bare (classic2560 false)).all noDip0) = true ∧
    (driversOk (bare (sol2560 false)) rows2560 (driver2560 (sol2560 false)) &&
      (bare (sol2560 false)).all noDip0) = true := by
  decide +kernel

end Asdf.Ghosts
