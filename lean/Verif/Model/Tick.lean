import Verif.Model.Main

/-! # The timer interrupt and the polling of its flag

`asdf_arch_tick` and the interrupt routine are the same in both AVR files
(`Arch/asdf_arch_atmega328p.c:64-67, 181-186`, `Arch/asdf_arch_atmega2560.c:65-68,
182-187`).  The flag is one `volatile` byte, so each access to it is one step; the
interrupt may come before each step of the main loop. -/

namespace Asdf

/-- Where the main loop is: about to read the flag (asdf_arch_atmega328p.c:183),
about to clear it (:184), about to test the returned value (main.c:68), in the
body of the `if` (main.c:69-77), or in the rest of the body after the hardware was
last initialised by it.  `v` is `retval`. -/
inductive Pc where
  | poll
  | clear (v : Bool)
  | test (v : Bool)
  | body
  | rest
  deriving DecidableEq, Repr

/-- What an observer with a clock would note down (modelling device): a timer
interrupt, the main loop clearing the flag after having read it set, the start of a
pass through the body of the `if`. -/
inductive Obs where
  | tick | taken | scan
  deriving DecidableEq, Repr

/-- The whole program: `flag` is the variable `tick` (asdf_arch_atmega328p.c:45),
`fw` the state of the portable part, `hist` the observations so far. -/
structure Sys where
  flag : Bool
  pc : Pc
  fw : State
  hist : List Obs

/-- One step: the interrupt routine, or a step of the main loop.  `inp` is what the
key matrix shows if this step is a pass through the body. -/
inductive Step where
  | isr
  | main (inp : Input)

/-- `ISR(TIMER0_COMPA_vect)` (asdf_arch_atmega328p.c:64-67). -/
def Sys.isr (s : Sys) : Sys := { s with flag := true, hist := s.hist ++ [.tick] }

/-- Did a pass through the body initialise the hardware?  A keymap switch does. -/
def reinits (before after : State) : Bool :=
  (after.dev.trace.drop before.dev.trace.length).contains .archInit

/-- One step of the main loop (main.c:66-79 with asdf_arch_atmega328p.c:181-186).
Simplification: the interrupt touches only the flag, and in the body only
`asdf_arch_init` touches it, by clearing it (asdf_arch_atmega328p.c:717, 156).  So the
body is two steps: up to the last such call, and the rest; without such a call it
does not matter where the cut is. -/
def Sys.mainStep (cfg : Config) (s : Sys) (inp : Input) : Res Sys :=
  match s.pc with
  | .poll => .ok { s with pc := .clear s.flag }
  | .clear v => .ok { s with flag := false, pc := .test v, hist := s.hist ++ if v then [.taken] else [] }
  | .test true => .ok { s with pc := .body, hist := s.hist ++ [.scan] }
  | .test false => .ok { s with pc := .poll }
  | .body => do
    let fw ← tick cfg s.fw inp
    .ok { s with fw := fw, flag := s.flag && !reinits s.fw fw, pc := .rest }
  | .rest => .ok { s with pc := .poll }

/-- One step. -/
def Sys.step (cfg : Config) (s : Sys) : Step → Res Sys
  | .isr => .ok s.isr
  | .main inp => s.mainStep cfg inp

/-- An interleaving of interrupts and main loop steps. -/
def Sys.exec (cfg : Config) (s : Sys) (l : List Step) : Res Sys := l.foldlM (Sys.step cfg) s

/-- The program at the start of the main loop (main.c:64-66); the flag may already
be set, since interrupts are enabled during the initialisation. -/
def Sys.start (fw : State) (flag : Bool) : Sys :=
  { flag := flag, pc := .poll, fw := fw, hist := if flag then [.tick] else [] }

end Asdf
