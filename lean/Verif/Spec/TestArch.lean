import Verif.Model.ArchTest
import Verif.Spec.Tables

/-! # Specification vocabulary: pulses on the simulated board

What happens at one output is a list of settings and delays, **latest first**. -/

namespace Asdf.Spec

/-- A setting of the output, or a delay. -/
inductive Ev where
  | set (b : Bool)
  | delay
  deriving DecidableEq, Repr

/-- The level of the output: the latest setting. -/
def outLevel : List Ev → Option Bool
  | [] => none
  | .set b :: _ => some b
  | .delay :: old => outLevel old

/-- The latest event changed the level of the output to `b`, and did not close a
pulse (does not directly follow a delay). -/
def changedTo (b : Bool) : List Ev → Bool
  | .set _ :: .delay :: _ => false
  | .set b' :: old => b' == b && outLevel old == some !b
  | _ => false

/-- Some delay does not directly follow a change that could open a pulse, or is not
directly followed by the change back. -/
def illFormed : List Ev → Bool
  | [] => false
  | .delay :: old => illFormed old || (!changedTo true old && !changedTo false old)
  | .set b :: .delay :: old => illFormed (.delay :: old) || !changedTo (!b) old
  | .set _ :: old => illFormed old

/-- A pulse of level `b` just ended: a change to `b`, one delay, a change back. -/
def pulseEnded (b : Bool) (h : List Ev) : Prop :=
  ∃ old, h = .set (!b) :: .delay :: .set b :: old ∧ outLevel old = some !b

/-- What an event of the firmware does at physical output `dev`. -/
def atOutput (dev : Nat) : Event → List Ev
  | .out q v => if q = dev then [.set (decide (v ≠ 0))] else []
  | .delayShort => [.delay]
  | .delayLong => [.delay]
  | .delayMs _ => [.delay]
  | _ => []

/-- What happened at physical output `dev`, latest first. -/
def historyAt (dev : Nat) (t : List Event) : List Ev := (t.flatMap (atOutput dev)).reverse

/-- The events since the board was last initialised. -/
def sinceInit (t : List Event) : List Event := t.foldl (fun l e => if e = .archInit then [] else l ++ [e]) []

/-- The physical outputs that are not open-drain or open-source variants. -/
def plainOutputs : List Nat :=
  [PHYSICAL_NO_OUT, PHYSICAL_OUT1, PHYSICAL_OUT2, PHYSICAL_OUT3, PHYSICAL_LED1, PHYSICAL_LED2, PHYSICAL_LED3]

/-- The error states of the detector. -/
def pulseErrors : List TestArch.PulseSt :=
  [.errDoubleDelay, .errNoTransBefore, .errNoTransAfter, .errFromInitial]

end Asdf.Spec
