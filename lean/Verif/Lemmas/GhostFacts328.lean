import Verif.Lemmas.Ghosts

/-! # The checks of the boards with a keyboard without diodes: the ATmega328P interface -/

namespace Asdf.Ghosts

open Pcb Spec Asdf.Pcb.Roles

/-- The nets of the row drivers, and behind their diodes the row lines. -/
def drivers328 : List Nat := [45, 46, 62, 56, 63, 65, 64, 57, 47, 58, 48, 59, 49, 60, 50, 61]

def rows328 (k : Nat) : Option Net :=
  ([4, 5, 25, 3, 6, 7, 24, 8, 37, 36, 35, 42, 41, 40, 39, 38][k]?).map .io

theorem classic328_ok : boardOk328 (classic328 true) ⟨classic328_kb, classic328_io⟩ drivers328 classicGuarded
    classicPlaces classic328_ways rows328 = true := by decide +kernel

theorem sol328_ok : boardOk328 (sol328 true) ⟨sol328_kb, sol328_io⟩ drivers328 solGuarded
    solPlaces sol328_ways rows328 = true := by decide +kernel

theorem fights328 :
    (driversOk (bare (classic328 false)) rows328 (driver328 (classic328 false)) &&
      (bare (classic328 false)).all noDip0) = true ∧
    (driversOk (bare (sol328 false)) rows328 (driver328 (sol328 false)) &&
      (bare (sol328 false)).all noDip0) = true := by
  decide +kernel

end Asdf.Ghosts
