import Verif.Model.Buffer
import Verif.Model.Repeat
import Verif.Model.Device
import Verif.Model.Hook

/-! # All static variables of the firmware -/

namespace Asdf

/-- `asdf_keycode_map_t` (asdf_keymaps.h:47-51).  `matrix` is `none` for the
null pointer, otherwise the row-major contents of the table it points to. -/
structure MapEntry where
  matrix : Option (List Code)
  rows : UInt8
  cols : UInt8
  deriving DecidableEq, Repr

/-- The static variables of `asdf_modifiers.c` (lines 34, 37, 40). -/
structure Mods where
  shift : UInt8
  caps : UInt8
  ctrl : UInt8
  deriving DecidableEq, Repr

/-- All static variables of the portable firmware: `asdf.c` (lines 48, 59, 62,
65, 68, 74), `asdf_keymaps.c` (lines 36, 39) and the modules above. -/
structure State where
  buf : BufState
  rep : RepState
  mods : Mods
  dev : Dev
  hooks : List HookFn
  maps : List MapEntry
  curIdx : UInt8
  stable : List UInt8
  counters : List (List UInt8)
  lastKey : Code
  kcBuf : Int
  msgBuf : Int
  printDelay : UInt16
  deriving DecidableEq, Repr

/-- The memory image at reset: C zero-initialises static variables. -/
def State.zero : State :=
  { buf := BufState.zero
    rep := RepState.zero
    mods := ⟨0, 0, 0⟩
    dev := Dev.zero
    hooks := hooksZero
    maps := List.replicate NUM_MODIFIERS ⟨none, 0, 0⟩
    curIdx := 0
    stable := List.replicate MAX_ROWS 0
    counters := List.replicate MAX_ROWS (List.replicate MAX_COLS 0)
    lastKey := 0
    kcBuf := 0
    msgBuf := 0
    printDelay := 0 }

/-- Append a hardware effect.  (Modelling device.) -/
def State.emit (s : State) (e : Event) : State := { s with dev := s.dev.emit e }

end Asdf
