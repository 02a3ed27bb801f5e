import Verif.Spec.Pins

/-! # Specification vocabulary: an OSI keyboard on the ATmega2560 board

The keyboard has an enable line (active low) and a read/write line, and shares the
eight column lines with the controller as a bus.  A byte written to it (the end of a
low pulse on read/write while it is enabled) selects rows, one per bit; while it is
enabled and read/write is high it puts the columns of the selected rows on the bus,
a 1 for a closed key. -/

namespace Asdf.Spec

open Avr

/-- The enable line (asdf_arch_atmega2560.h:326-328). -/
def osiEnable : Pin := ⟨.A, 1⟩

/-- The read/write line (asdf_arch_atmega2560.h:330-332). -/
def osiRw : Pin := ⟨.A, 2⟩

/-- The controller drives both control lines. -/
def osiWired (r : Regs) : Prop := isOutput r osiEnable = true ∧ isOutput r osiRw = true

/-- The rows selected in the keyboard after the registers went from `r` through the
states of the list; `latch` is the byte written before. -/
def osiLatch (latch : UInt8) (r : Regs) : List Regs → UInt8
  | [] => latch
  | r' :: l =>
    osiLatch
      (if drive r' osiEnable = .low ∧ drive r osiRw = .low ∧ drive r' osiRw = .high then
        r'.port .C &&& r'.ddr .C else latch) r' l

/-- The keyboard puts byte `v` on the bus: bit `i` is 1 exactly when a key in column
`i` of a selected row is closed. -/
def osiColumns (keys : Nat → UInt8) (latch v : UInt8) : Prop :=
  ∀ i, i < 8 → (bitOf v i = true ↔ ∃ n, n < 8 ∧ bitOf latch n = true ∧ bitOf (keys n) i = true)

/-- The keyboard is talking: enabled and read. -/
def osiTalks (r : Regs) : Prop := drive r osiEnable = .low ∧ drive r osiRw = .high

end Asdf.Spec
