import Verif.Lemmas.BoardRoles

/-! # The checks of the boards on the ATmega328P interface -/

namespace Asdf.Pcb

open Spec Asdf.Pcb.Roles

theorem classic328_ok : ∀ cut, boardOk328 (classic328 cut) ⟨classic328_kb, classic328_io⟩ classicPlaces
    classic328_ways = true := by decide +kernel

theorem sol328_ok : ∀ cut, boardOk328 (sol328 cut) ⟨sol328_kb, sol328_io⟩ solPlaces
    sol328_ways = true := by decide +kernel

end Asdf.Pcb
