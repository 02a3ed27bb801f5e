import Verif.Model.Core

/-! # Specification of the modifier keys

The state of the modifiers as a function of the history of modifier events. -/

namespace Asdf.Spec

/-- Accepted presses and releases of modifier keys. -/
inductive ModEvent where
  | shiftDown | shiftUp | lockOn | lockToggle | capsDown | ctrlDown | ctrlUp
  deriving DecidableEq, Repr

/-- The corresponding call of the firmware: activation or deactivation of a key
with the code `ACTION_SHIFT`, `ACTION_SHIFTLOCK_ON`, ... (asdf.h:56-60). -/
def callMod (cfg : Config) (s : State) : ModEvent → Res State
  | .shiftDown => activateKey cfg s 0xA1
  | .shiftUp => deactivateKey cfg s 0xA1
  | .lockOn => activateKey cfg s 0xA2
  | .lockToggle => activateKey cfg s 0xA3
  | .capsDown => activateKey cfg s 0xA4
  | .ctrlDown => activateKey cfg s 0xA5
  | .ctrlUp => deactivateKey cfg s 0xA5

/-- A history of events, oldest first. -/
def runMods (cfg : Config) (s : State) (h : List ModEvent) : Res State := h.foldlM (callMod cfg) s

/-- The part of the history after the last event satisfying `p`. -/
def since (p : ModEvent → Bool) (h : List ModEvent) : List ModEvent :=
  (h.reverse.takeWhile (fun e => !p e)).reverse

def isShift (e : ModEvent) : Bool := e == .shiftDown || e == .shiftUp
def isCtrl (e : ModEvent) : Bool := e == .ctrlDown || e == .ctrlUp

/-- CTRL is active iff the last CTRL event was a press. -/
def ctrlActive (h : List ModEvent) : Bool := (h.filter isCtrl).getLast? == some .ctrlDown

/-- SHIFT is held iff the last SHIFT event was a press. -/
def shiftHeld (h : List ModEvent) : Bool := (h.filter isShift).getLast? == some .shiftDown

/-- Caps lock is on iff the number of caps presses is odd. -/
def capsOn (h : List ModEvent) : Bool := h.count .capsDown % 2 == 1

/-- Shift lock: cleared by every SHIFT event, set by lock-on, flipped by
lock-toggle. -/
def shiftLocked (h : List ModEvent) : Bool :=
  let h := since isShift h
  (h.contains .lockOn) ^^ ((since (· == .lockOn) h).count .lockToggle % 2 == 1)

/-- The table a lookup has to use: CTRL before SHIFT before CAPS
(0 plain, 1 shift, 2 caps, 3 ctrl). -/
def tableFor (shift caps ctrl : Bool) : Nat :=
  if ctrl then 3 else if shift then 1 else if caps then 2 else 0

end Asdf.Spec
