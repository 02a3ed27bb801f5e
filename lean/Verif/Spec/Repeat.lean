import Verif.Model.Repeat

/-! # Specification of key repeat -/

namespace Asdf.Spec

/-- Events that concern the repeat timer. -/
inductive RepOp where
  /-- the REPEAT key is pressed / released -/
  | repeatDown | repeatUp
  /-- the autorepeat switch is closed / opened -/
  | autoOn | autoOff
  /-- a key with a new code is pressed -/
  | newKey
  /-- one scan in which the last pressed key is held -/
  | held
  deriving DecidableEq, Repr

/-- The corresponding call of the firmware; the result tells whether the held
key is to be repeated now. -/
def callRep (r : RepState) : RepOp → Bool × RepState
  | .repeatDown => (false, repActivate r)
  | .repeatUp => (false, repDeactivate r)
  | .autoOn => (false, repAutoOn r)
  | .autoOff => (false, repAutoOff r)
  | .newKey => (false, repResetCount r)
  | .held => repTick r

/-- The timer after a history of events since power-up. -/
def repAfter (h : List RepOp) : RepState := h.foldl (fun r o => (callRep r o).2) (repInit RepState.zero)

/-- The timer after `n` scans of a held key. -/
def heldFor (r : RepState) : Nat → RepState
  | 0 => r
  | n + 1 => (repTick (heldFor r n)).2

/-- The held key is repeated in the `k`-th scan (counted from 1). -/
def firesAt (r : RepState) (k : Nat) : Bool := (repTick (heldFor r (k - 1))).1

def isAuto (o : RepOp) : Bool := o == .autoOn || o == .autoOff
def isRepeatKey (o : RepOp) : Bool := o == .repeatDown || o == .repeatUp

/-- Autorepeat is enabled: the switch was never used or last closed. -/
def autoEnabled (h : List RepOp) : Bool := (h.filter isAuto).getLast? != some .autoOff

/-- The REPEAT key is held: its last event was a press. -/
def repeatHeld (h : List RepOp) : Bool := (h.filter isRepeatKey).getLast? == some .repeatDown

end Asdf.Spec
