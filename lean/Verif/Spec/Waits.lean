import Verif.Spec.Timing
import Verif.Spec.Pulse
import Verif.Model.CUnits

/-! # How long the keyboard waits on purpose -/

namespace Asdf.Spec

/-- The microseconds a run has waited on purpose since reset. -/
def waited (h : C.Hw) : Nat := (h.log.map Prod.snd).sum

/-- The microseconds that reading all nine rows of the matrix waits. -/
def scanUs : C.Chip → Nat
  | .m328 => 0
  | .m2560 => 72

/-- How many of the codes that the host received are characters of messages. -/
def messageChars (host : List (Bool × Code)) : Nat := (host.filter Prod.fst).length

end Asdf.Spec
