import Verif.Spec.History

/-! # When a held key is typed -/

namespace Asdf.Spec

/-- Scans (counted from 1) in which a key that is held from scan 1 on queues its
code: scan `d` in which the press is accepted, `t` scans later, and then every 66
scans.  With `t = none` the key does not repeat. -/
def holdDue (d : Nat) (t : Option Nat) (j : Nat) : Bool :=
  j == d || match t with
    | none => false
    | some t => decide (d + t ≤ j) && (j - d - t) % 66 == 0

/-- The repeat delay that applies to a press of `x` in state `s`: the current
mode's delay if another code was pressed last, else what is left of the running
delay; `none` if repeat is off. -/
def pressDelay (s : State) (x : Code) : Option Nat :=
  if s.lastKey ≠ x then (if s.rep.state = 0 then none else some s.rep.state.toNat)
  else (if s.rep.timer = 0 then none else some s.rep.timer.toNat)

end Asdf.Spec
