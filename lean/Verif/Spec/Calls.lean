import Verif.Spec.SpotDeeds

/-! # Function keys among the text

Typing as in `Spec/Repeats.lean`, but keys with other functions are pressed as well: those that print a message,
those that switch an output, and those without any meaning. -/

namespace Asdf.Spec

open Avr Pcb

/-- The code of a key that prints a message, switches an output, or does nothing.  The others are characters,
modifiers, REPEAT and the DIP switches. -/
def CallCode (x : Code) : Prop := x.toNat = 0xA7 ∨ 0xAE ≤ x.toNat

instance (x : Code) : Decidable (CallCode x) := inferInstanceAs (Decidable (_ ∨ _))

/-- The text of function `n` of keymap `i`, if it prints one. -/
def textOf (i : UInt8) (n : Nat) : List Code :=
  match (hooksOf (fourMaps.setup i))[4 + n]? with
  | some (.print text) => withCR text
  | _ => []

/-- What a key with this code prints: 0xA7 and 0xB7 are function 1, and so on up to 0xC0 for function 10. -/
def messageOf (i : UInt8) (x : Code) : List Code :=
  if x.toNat = 0xA7 then textOf i 1
  else if 0xB7 ≤ x.toNat ∧ x.toNat ≤ 0xC0 then textOf i (x.toNat - 0xB6)
  else []

/-- A modifier moves, a key with a character is pressed, held and released, or a function key is. -/
inductive Act where
  | modifier (v : KeyMove)
  | stroke (p : KeyStroke)
  | call (p : KeyStroke)
  deriving DecidableEq

def Act.moves : Act → List KeyMove
  | .modifier v => [v]
  | .stroke p => [p.press, p.release]
  | .call p => [p.press, p.release]

/-- The movements of several acts. -/
def actMoves (as : List Act) : List KeyMove := as.flatMap Act.moves

/-- The act is allowed in this state.  After the press of a function key there are as many scans as its message
has characters before something else moves. -/
def Act.Allowed (i : UInt8) (s : Session) : Act → Prop
  | .modifier v => IsModKey fourMaps openLayout i v.key.1 v.key.2 ∧ MayToggle i s v.key
  | .stroke p => ¬ IsModKey fourMaps openLayout i p.key.1 p.key.2 ∧ MayToggle i s p.key ∧
      MayToggle i (s.move i p.key) p.key
  | .call p => p.key.1 < 8 ∧ p.key.2 < 8 ∧ p.key ∉ s.down ∧ CallCode (s.code i p.key) ∧
      10 + (messageOf i (s.code i p.key)).length ≤ p.held + p.releaseBounce.length + p.rest

/-- The state after the act: only modifiers change it. -/
def Act.next (i : UInt8) (s : Session) : Act → Session
  | .modifier v => s.move i v.key
  | _ => s

/-- Each act is allowed when it comes. -/
def ActsAllowed (i : UInt8) : Session → List Act → Prop
  | _, [] => True
  | s, a :: as => a.Allowed i s ∧ ActsAllowed i (a.next i s) as

/-- What arrives: characters as often as they repeat, and messages (marked `true`). -/
def actText (i : UInt8) : Session → List Act → List (Bool × Code)
  | _, [] => []
  | s, .modifier v :: as => actText i (s.move i v.key) as
  | s, .stroke p :: as => List.replicate (timesSent p.closed) (false, s.code i p.key) ++ actText i s as
  | s, .call p :: as => (messageOf i (s.code i p.key)).map (true, ·) ++ actText i s as

/-! ## In time, on any board -/

/-- The same with movements in time. -/
inductive SpotAct where
  | modifier (m : SpotMove)
  | stroke (press release : SpotMove)
  | call (press release : SpotMove)
  deriving DecidableEq

def SpotAct.moves : SpotAct → List SpotMove
  | .modifier m => [m]
  | .stroke m m' => [m, m']
  | .call m m' => [m, m']

/-- The movements of several acts. -/
def spotActMoves (as : List SpotAct) : List SpotMove := as.flatMap SpotAct.moves

/-- Each act is allowed when it comes.  After the bounce of a function key that is pressed there are ten scans and
as many more as its message has characters before the next act. -/
def SpotActsAllowed (i : UInt8) (times : List (Nat → Nat)) : Session → List SpotAct → Prop
  | _, [] => True
  | s, .modifier m :: as => IsModKey fourMaps openLayout i m.key.1 m.key.2 ∧ MayToggle i s m.key ∧
      SpotActsAllowed i times (s.move i m.key) as
  | s, .stroke m m' :: as => m'.key = m.key ∧ ¬ IsModKey fourMaps openLayout i m.key.1 m.key.2 ∧
      MayToggle i s m.key ∧ MayToggle i (s.move i m.key) m.key ∧ SpotActsAllowed i times s as
  | s, .call m m' :: as => m'.key = m.key ∧ m.key.1 < 8 ∧ m.key.2 < 8 ∧ m.key ∉ s.down ∧
      CallCode (s.code i m.key) ∧
      scansBefore times m.key.1 m.ends + 10 + (messageOf i (s.code i m.key)).length ≤ untilMove times (spotActMoves as) ∧
      SpotActsAllowed i times s as

/-- What arrives. -/
def spotActText (i : UInt8) (times : List (Nat → Nat)) (readings : List Input) :
    Session → List SpotAct → List (Bool × Code)
  | _, [] => []
  | s, .modifier m :: as => spotActText i times readings (s.move i m.key) as
  | s, .stroke m m' :: as =>
    List.replicate (timesSent (closedScans readings m.key (scansBefore times m.key.1 m.begins)
      (scansBefore times m.key.1 m'.ends))) (false, s.code i m.key) ++ spotActText i times readings s as
  | s, .call m _ :: as => (messageOf i (s.code i m.key)).map (true, ·) ++ spotActText i times readings s as

/-- Typing on a board with the DIP switches set to `d`, as in `Holding`, with function keys. -/
structure Calling (ps : List Place) (d : UInt8) (times : List (Nat → Nat)) (as : List SpotAct) : Prop where
  setting : Setting d
  there : ∀ m ∈ spotActMoves as, ∃ p ∈ ps, spotOf p = m.key
  order : SpotActsAllowed (d &&& 3) times (Session.start d) as
  first : 10 ≤ untilMove times (spotActMoves as)
  timing : GoodTimes times (spotActMoves as)

end Asdf.Spec
