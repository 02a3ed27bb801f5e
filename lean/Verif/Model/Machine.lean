import Verif.Model.Tick
import Verif.Model.Whole

/-! # The whole machine: the program on its board, with the timer interrupt

`Model/Tick.lean` interleaves the interrupt with the portable part, `Model/Whole.lean`
runs the portable part on the registers of a board; this is both together. -/

namespace Asdf.Machine

open Whole

/-- The whole machine: the variable `tick` (asdf_arch_atmega328p.c:45,
asdf_arch_atmega2560.c:46), where the main loop is, the program and the registers, and
the observations so far. -/
structure Machine where
  flag : Bool
  pc : Pc
  board : Whole
  hist : List Obs

/-- One step: the interrupt routine, or a step of the main loop; `mx row` is what the
outside world presents while row `row` is read, if this step is a pass through the
body. -/
inductive Step where
  | isr
  | main (mx : Nat → Contacts)

/-- One step of the main loop (main.c:66-79 with asdf_arch_atmega328p.c:181-186), with
the simplification described at `Sys.mainStep`.  The interrupt routine touches no port,
so it does not matter to the registers when it comes. -/
def mainStep (T : Target) (cfg : Config) (m : Machine) (mx : Nat → Contacts) : Res Machine :=
  match m.pc with
  | .poll => .ok { m with pc := .clear m.flag }
  | .clear v =>
    .ok { m with flag := false, pc := .test v, hist := m.hist ++ if v then [.taken] else [] }
  | .test true => .ok { m with pc := .body, hist := m.hist ++ [.scan] }
  | .test false => .ok { m with pc := .poll }
  | .body => do
    let w ← pass T cfg m.board mx
    .ok { m with board := w, flag := m.flag && !reinits m.board.fw w.fw, pc := .rest }
  | .rest => .ok { m with pc := .poll }

/-- One step; the interrupt is `ISR(TIMER0_COMPA_vect)` (asdf_arch_atmega328p.c:64-67,
asdf_arch_atmega2560.c:65-68). -/
def step (T : Target) (cfg : Config) (m : Machine) : Step → Res Machine
  | .isr => .ok { m with flag := true, hist := m.hist ++ [.tick] }
  | .main mx => mainStep T cfg m mx

/-- An interleaving of interrupts and main loop steps. -/
def exec (T : Target) (cfg : Config) (m : Machine) (l : List Step) : Res Machine :=
  l.foldlM (step T cfg) m

/-- From power-up with any register contents (main.c:64-66); the flag may already be
set when the main loop starts. -/
def life (T : Target) (cfg : Config) (r0 : Avr.Regs) (flag : Bool) (l : List Step) :
    Res Machine := do
  let w ← powerUp T cfg r0
  exec T cfg ⟨flag, .poll, w, if flag then [.tick] else []⟩ l

end Asdf.Machine
