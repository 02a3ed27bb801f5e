import Verif.Lemmas.BoardRoles

/-! # The checks of the boards with the ATmega2560 -/

namespace Asdf.Pcb

open Spec Asdf.Pcb.Roles

theorem classic2560_ok : ∀ cut, boardOk2560 (classic2560 cut) ⟨classic2560_kb, classic2560_io⟩
    classicPlaces classic2560_ways = true := by decide +kernel

theorem sol2560_ok : ∀ cut, boardOk2560 (sol2560 cut) ⟨sol2560_kb, sol2560_io⟩ solPlaces
    sol2560_ways = true := by decide +kernel

theorem classicEnc_ok : ∀ cut, boardOk2560 (classicEnc cut) ⟨classicEnc_kb, classicEnc_io⟩
    classicPlaces classicEnc_ways = true := by decide +kernel

theorem solEnc_ok : ∀ cut, boardOk2560 (solEnc cut) ⟨solEnc_kb, solEnc_io⟩ solPlaces
    solEnc_ways = true := by decide +kernel

theorem sol1_ok : boardOk2560 sol1 ⟨sol1_kb, sol1_io⟩ solPlaces sol1_ways = true := by decide +kernel

end Asdf.Pcb
