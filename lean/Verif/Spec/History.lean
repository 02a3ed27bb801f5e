import Verif.Spec.Scan

/-! # Key events and histories

`asdf_keyscan` visits the keys in row-major order and handles one sample of each.
A history records the key events the firmware handled since power-up. -/

namespace Asdf.Spec

/-- What `asdf_keyscan` does with one key, given its sample `p` (the loop body
asdf.c:576-583). -/
def keyStep (cfg : Config) (p : Bool) (s : State) (r c : Nat) : Res State :=
  if p ≠ accepted s r c then pressOrRelease cfg s r c p
  else if p then heldPressed cfg s r c
  else .ok s

/-- Something that happens to a key: it is accepted as pressed or released, or it
is held and repeated.  `code` is its mapping at that moment. -/
inductive KeyEv where
  | press (r c : Nat) (code : Code)
  | release (r c : Nat) (code : Code)
  | again (r c : Nat) (code : Code)
  deriving DecidableEq, Repr

/-- The event that a sample causes: the tenth deviating sample is accepted; a held
key that has the last pressed code repeats when the repeat timer runs out. -/
def eventOf (cols : Nat) (s : State) (r c : Nat) (p : Bool) : Option KeyEv :=
  if p ≠ accepted s r c then
    if counter s r c = 1 then
      some (if p then .press r c (codeOf s cols r c) else .release r c (codeOf s cols r c))
    else none
  else if p = true ∧ codeOf s cols r c = s.lastKey ∧ s.rep.timer = 1 then
    some (.again r c (codeOf s cols r c))
  else none

/-- Histories since power-up: passes of the main loop, interrupted anywhere
between two keys. -/
inductive History (cfg : Config) (L : Layout) : State → List KeyEv → Prop
  /-- power-up -/
  | boot {s : State} (h : boot cfg = .ok s) : History cfg L s []
  /-- the output part of a main-loop pass -/
  | output {s s' : State} {log : List KeyEv} (hs : History cfg L s log)
      (h : outputPhase s = .ok s') : History cfg L s' log
  /-- one sample of one key -/
  | key {s s' : State} {log : List KeyEv} (hs : History cfg L s log) (r c : Nat) (p : Bool)
      (hr : r < L.rows) (hc : c < L.cols) (hp : p = true → L.blocked r c = false)
      (h : keyStep cfg p s r c = .ok s') :
      History cfg L s' (log ++ (eventOf L.cols s r c p).toList)

/-- The event is a press of a key mapped to a code or to NOTHING. -/
def KeyEv.pressesCode : KeyEv → Bool
  | .press _ _ code => decide (code.toNat ≤ 0xA0)
  | _ => false

/-- The event is a release of a key mapped to `x`. -/
def KeyEv.releases (x : Code) : KeyEv → Bool
  | .release _ _ code => code == x
  | _ => false

/-- The event is a release of the key in row `r`, column `c`. -/
def KeyEv.releasesAt (r c : Nat) : KeyEv → Bool
  | .release r' c' _ => r' == r && c' == c
  | _ => false

end Asdf.Spec
