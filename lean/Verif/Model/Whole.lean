import Verif.Model.Main
import Verif.Model.Arch328p
import Verif.Model.Arch2560

/-! # The whole keyboard: the portable part running on a board

`Model/Core.lean` and `Model/Main.lean` model the portable part with an abstract row
reader; here the row reader is the board's own code, working on the board's registers,
and everything the portable part asks the hardware to do is carried out on the same
registers. -/

namespace Asdf.Whole

open Avr

/-- What the outside world presents to the controller while one row is read: the
closed keys of every row, the levels of the other inputs of the column port, and what
the external shift register holds (ATmega328P board only).  They may be different for
every row read. -/
structure Contacts where
  keys : Nat → UInt8
  other : UInt8
  sr : UInt8

/-- A firmware target: the register accesses of each hardware event, and the row
reader, which returns the byte read and the register states gone through; `rowUs` are the
microseconds it waits on purpose. -/
structure Target where
  opsOf : Event → List Op
  read : Contacts → UInt8 → Regs → Res (UInt8 × List Regs)
  rowUs : Nat

/-- The ATmega328P target (Arch/asdf_arch_atmega328p.c); its row reader has no delay (:770-801). -/
def target328 : Target where
  opsOf := M328.opsOf
  read c row r :=
    let x := M328.readRow c.keys c.other row ⟨r, c.sr, []⟩
    .ok (x.1, x.2.log)
  rowUs := 0

/-- The ATmega2560 target (Arch/asdf_arch_atmega2560.c); `cols keys r` is the byte the
key matrix puts on the column port.  The row reader has two delays of
`ASDF_KEYBOARD_ROW_SETTLING_TIME_US` = 4 (:778, :780; Arch/asdf_arch_atmega2560.h:39). -/
def target2560 (cols : (Nat → UInt8) → Regs → UInt8) : Target where
  opsOf := M2560.opsOf
  read c row r := M2560.readRow (cols c.keys) row r
  rowUs := 2 * M2560.SETTLING_US

/-- The whole keyboard: the variables of the portable part, the registers, and all
register states since power-up, oldest first (a record for the specification). -/
structure Whole where
  fw : State
  regs : Regs
  log : List Regs

/-- The portable part goes on to the state `s`; the hardware carries out what it
asked for on the way.  (The calls happen inside the portable functions; the portable
part never reads back a register outside the row reader, so carrying them out
together is the same.) -/
def Whole.goOn (T : Target) (w : Whole) (s : State) : Whole :=
  let ops := (s.dev.trace.drop w.fw.dev.trace.length).flatMap T.opsOf
  { fw := s
    regs := exec .sbi (fun _ => 0) w.regs ops
    log := w.log ++ states .sbi (fun _ => 0) w.regs ops }

/-- Call the row reader hook (asdf.c:571). -/
def callReader (T : Target) (reader : HookFn) (c : Contacts) (row : Nat) (w : Whole) :
    Res (UInt8 × Whole) :=
  match reader with
  | .archReadRow => do
    let (v, l) ← T.read c (UInt8.ofNat row) w.regs
    .ok (v, { w with regs := l.getLast?.getD w.regs, log := w.log ++ l })
  | _ => .error .badCall

/-- The row loop of `asdf_keyscan` (asdf.c:569-586); `mx row` is the outside world
while row `row` is read. -/
def scanRows (T : Target) (cfg : Config) (reader : HookFn) (mx : Nat → Contacts) :
    Nat → Nat → Whole → Res Whole
  | 0, _, _ => .error .diverge
  | fuel + 1, row, w => do
    let n ← numRows w.fw
    if row < n.toNat then do
      let (keys, w) ← callReader T reader (mx row) row w
      let st ← rd w.fw.stable row
      let s ← scanCols cfg row 256 0 (keys ^^^ st) keys w.fw
      scanRows T cfg reader mx fuel (row + 1) (w.goOn T s)
    else .ok w

/-- `asdf_keyscan` (asdf.c:564-587). -/
def keyscan (T : Target) (cfg : Config) (mx : Nat → Contacts) (w : Whole) : Res Whole := do
  let reader ← hookGet w.fw.hooks HOOK_ROW_SCANNER
  let s ← hookExecute w.fw HOOK_EACH_SCAN
  scanRows T cfg reader mx 256 0 (w.goOn T s)

/-- One pass of the main loop (main.c:68-78). -/
def pass (T : Target) (cfg : Config) (w : Whole) (mx : Nat → Contacts) : Res Whole := do
  let s ← outputPhase w.fw
  keyscan T cfg mx (w.goOn T s)

/-- Power-up with any register contents (main.c:64). -/
def powerUp (T : Target) (cfg : Config) (r0 : Regs) : Res Whole := do
  let s ← boot cfg
  .ok (Whole.goOn T ⟨State.zero, r0, []⟩ s)

/-- Power-up and successive passes of the main loop (main.c:62-79). -/
def life (T : Target) (cfg : Config) (r0 : Regs) (mxs : List (Nat → Contacts)) : Res Whole := do
  let w ← powerUp T cfg r0
  mxs.foldlM (pass T cfg) w

end Asdf.Whole
