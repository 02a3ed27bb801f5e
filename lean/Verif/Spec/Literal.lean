import Verif.Spec.Pins

/-! # What a build without optimisation does to the pins of the strobe's port -/

namespace Asdf.Spec

/-- What a pin that is neither the strobe nor a data line goes through while a code is sent by a build without
optimisation: its level and direction after the data, the strobe, the delay and the strobe.  `here`: it is on the port
of the strobe; `l`: its level before; `o`: it is an output; `e`: the level the outside world puts on it. -/
def literalPin (here l o e : Bool) : List (Bool × Bool) :=
  if here then
    if o then [(l, o), (false, o), (false, o), (false, o)]
    else [(l, o), (l != e, o), (l != e, o), (l, o)]
  else [(l, o), (l, o), (l, o), (l, o)]

end Asdf.Spec
