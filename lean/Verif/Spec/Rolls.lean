import Verif.Spec.AnyBoard
import Verif.Spec.Holds

/-! # Keys overlap and are held as long as one likes

As in `Spec/Movers.lean`, but without a limit for the time that keys are held, and with the REPEAT key and the
autorepeat switch: of the keys that are held, the one pressed last repeats its character.  A key is read once in each
scan; while it is the one that repeats, the repeat timer counts its closed readings: it starts at 525, at 66 while
REPEAT is in force or at 0 (never) while autorepeat is off, and then at 66. -/

namespace Asdf.Spec

open Avr Pcb

/-- The first key is read before the second in each scan. -/
def readFirst (y z : Nat × Nat) : Bool := decide (y.1 < z.1 ∨ y.1 = z.1 ∧ y.2 < z.2)

/-- The key that repeats: the one pressed last, while it is down and has under the present modifiers the code that
it had when it was pressed. -/
def Session.repeating (i : UInt8) (s : Session) : Option (Nat × Nat) :=
  s.hand.last.bind fun y => if y.1 ∈ s.down ∧ s.code i y.1 = y.2 then some y.1 else none

/-- Its code. -/
def Session.lastCode (s : Session) : Code := (s.hand.last.map (·.2)).getD 0xA0

/-- The number of scans before the one in which a movement takes effect: that is the tenth in which the contact is
read in its new state. -/
def KeyMove.effectAt (v : KeyMove) (down : List (Nat × Nat)) : Nat :=
  v.bounce.length + 9 - v.bounce.count (decide (v.key ∉ down))

/-- The closed readings of the key that repeats until a movement takes effect. -/
def KeyMove.before (i : UInt8) (s : Session) (v : KeyMove) : Nat :=
  match s.repeating i with
  | none => 0
  | some z => if z = v.key then v.bounce.count true else v.effectAt s.down + (readFirst z v.key).toNat

/-- The codes of the REPEAT key and of the autorepeat switch. -/
def isControl (c : Code) : Bool := c == 0xA6 || c == 0xAC

/-- A key with such a code is pressed or released. -/
def Rpt.control (r : Rpt) (c : Code) (down : Bool) : Rpt :=
  if c = 0xA6 then if down then r.press else r.release else r.auto down

/-- The state after the movement of any key: REPEAT and the autorepeat switch type nothing. -/
def Session.step (i : UInt8) (s : Session) (z : Nat × Nat) : Session :=
  if isControl (s.code i z) then { s with down := toggled s.down z } else s.move i z

/-- The state after these movements. -/
def Session.steps (i : UInt8) (s : Session) (zs : List (Nat × Nat)) : Session := zs.foldl (Session.step i) s

/-- The text of the movement itself. -/
def Session.types (i : UInt8) (s : Session) (z : Nat × Nat) : List Code :=
  if isControl (s.code i z) then [] else s.text i z

/-- The closed readings, after a movement has taken effect, of the key that repeats then. -/
def KeyMove.behind (i : UInt8) (s : Session) (v : KeyMove) : Nat :=
  match (s.step i v.key).repeating i with
  | none => 0
  | some z => (readFirst v.key z).toNat + (v.scans - (v.effectAt s.down + 1))

/-- The readings left until the next repetition, `n` readings after `d` were left. -/
def leftAt (d n : Nat) : Nat := if d = 0 then 0 else if n < d then d - n else 66 - (n - d) % 66

/-- The repeat timer after `n` closed readings of the key that repeats. -/
def Rpt.ticks (r : Rpt) (n : Nat) : Rpt := { r with left := leftAt r.left n }

/-- The repeat timer when the key `z` moves: a new character starts the delay again. -/
def Session.timer (i : UInt8) (s : Session) (r : Rpt) (z : Nat × Nat) : Rpt :=
  if isControl (s.code i z) then r.control (s.code i z) (decide (z ∉ s.down))
  else if s.text i z = [] then r else r.restart

/-- The repeat timer when a movement has taken effect. -/
def KeyMove.timer (i : UInt8) (s : Session) (r : Rpt) (v : KeyMove) : Rpt := s.timer i (r.ticks (v.before i s)) v.key

/-- The text of one movement: repetitions, the character of a key that is pressed, repetitions. -/
def KeyMove.rolled (i : UInt8) (s : Session) (r : Rpt) (v : KeyMove) : List Code :=
  List.replicate (repsIn r.left (v.before i s)) s.lastCode ++ s.types i v.key ++
    List.replicate (repsIn (v.timer i s r).left (v.behind i s)) (s.step i v.key).lastCode

/-- The text of the movements. -/
def rollText (i : UInt8) : Session → Rpt → List KeyMove → List Code
  | _, _, [] => []
  | s, r, v :: vs => v.rolled i s r ++ rollText i (s.step i v.key) ((v.timer i s r).ticks (v.behind i s)) vs

/-- The timer at first: a key repeats after 525 readings. -/
def Rpt.first : Rpt := ⟨525, 525, 525⟩

/-- A key may move in this state: as `MayToggle`, or it is REPEAT or the autorepeat switch, and no key that is down
afterwards has the character that was typed last with another key. -/
def MayStep (i : UInt8) (s : Session) (z : Nat × Nat) : Prop :=
  if isControl (s.code i z) then z.2 < 8 ∧ (z.1 < 8 ∨ z = (8, 7)) ∧
    ∀ p ∈ toggled s.down z, s.hand.Tidy fourMaps openLayout i true true p
  else MayToggle i s z

/-- Each of these keys may move when it does. -/
def MovesAllowed (i : UInt8) : Session → List (Nat × Nat) → Prop
  | _, [] => True
  | s, z :: zs => MayStep i s z ∧ MovesAllowed i (s.step i z) zs

/-- None of these movements is one of REPEAT or of the autorepeat switch. -/
def NoControl (i : UInt8) : Session → List (Nat × Nat) → Prop
  | _, [] => True
  | s, z :: zs => isControl (s.code i z) = false ∧ NoControl i (s.move i z) zs

/-- Keys and the autorepeat switch. -/
def OnlyKeys (zs : List (Nat × Nat)) : Prop := ∀ z ∈ zs, z.1 < 8 ∨ z = (8, 7)

/-! ## In time, on any board -/

/-- The movements in scans, as they are found in the readings `R`. -/
def scanMoves (times : List (Nat → Nat)) (R : List Input) : List SpotMove → List KeyMove
  | [] => []
  | m :: ms =>
    ⟨m.key, ((R.map fun inp => sample inp m.key.1 m.key.2).drop (scansBefore times m.key.1 m.begins)).take
        (scansBefore times m.key.1 m.ends - scansBefore times m.key.1 m.begins),
      untilMove times ms - scansBefore times m.key.1 m.ends⟩ :: scanMoves times R ms

/-- Typing on a board with the DIP switches set to `d` at first: as `Hands`, but keys are held as long as one likes,
and REPEAT and the autorepeat switch are used. -/
structure Rolling (ps : List Place) (d : UInt8) (times : List (Nat → Nat)) (ms : List SpotMove) : Prop where
  setting : Setting d
  there : ∀ m ∈ ms, ∃ p ∈ ps, spotOf p = m.key
  order : MovesAllowed (d &&& 3) (Session.start d) (ms.map (·.key))
  first : 10 ≤ untilMove times ms
  timing : GoodTimes times ms

end Asdf.Spec
