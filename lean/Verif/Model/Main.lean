import Verif.Model.Core

/-! # `main.c`: the main loop -/

namespace Asdf

/-- Call the output hook (main.c:73-75). -/
def callOutput (s : State) (code : Code) : Res State := do
  let f ← hookGet s.hooks HOOK_OUTPUT
  match f with
  | .archSendCode => .ok (s.emit (.send code))
  | _ => .error .badCall

/-- The part of the loop body before the scan (main.c:69-76). -/
def outputPhase (s : State) : Res State := do
  let (code, s) ← nextCode s
  if code < INVALID_CODE then callOutput s code else .ok s

/-- One pass of the main loop in which `asdf_arch_tick()` returned true
(main.c:68-78). -/
def tick (cfg : Config) (s : State) (inp : Input) : Res State := do
  let s ← outputPhase s
  keyscan cfg inp s

/-- Successive passes of the main loop, one per input (main.c:66-79). -/
def run (cfg : Config) (s : State) (inps : List Input) : Res State :=
  inps.foldlM (tick cfg) s

/-- Power-up: `asdf_init()` on the reset memory image (main.c:64). -/
def boot (cfg : Config) : Res State := asdfInit cfg State.zero

end Asdf
