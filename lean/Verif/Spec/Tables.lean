import Verif.Model.Shipped
import Verif.Spec.Shipped

/-! # Specification vocabulary for the shipped keymaps -/

namespace Asdf.Spec

/-- The numbers of the six shipped keymaps. -/
def shippedNumbers : List UInt8 := [0, 1, 2, 3, 4, 5]

/-- The four tables of a shipped keymap (plain, shift, caps, ctrl). -/
def shippedMaps (i : UInt8) : List MapEntry := mapsOf (shippedSetup i)

/-- Entry `(r, c)` of a table, as the scanner addresses it. -/
def entryOf (e : MapEntry) (r c : Nat) : Option Code :=
  e.matrix.bind fun t => t[r * e.cols.toNat + c]?

/-- A row of a table. -/
def rowOf (e : MapEntry) (r : Nat) : List (Option Code) :=
  (List.range e.cols.toNat).map fun c => entryOf e r c

/-- Transmittable codes are below 0xA0; the defined actions are 0xA0-0xC1
(`ACTION_NOTHING` to `ACTION_FN_11`, asdf.h:54-105). -/
def definedCode (c : Code) : Bool := decide (c.toNat ≤ 0xC1)

/-- A complete table within the scanner's limits, all entries defined. -/
def wellFormed (e : MapEntry) : Bool :=
  match e.matrix with
  | none => false
  | some t => t.length == e.rows.toNat * e.cols.toNat && decide (1 ≤ e.rows.toNat) &&
      decide (e.rows.toNat ≤ 16) && decide (1 ≤ e.cols.toNat) && decide (e.cols.toNat ≤ 8) &&
      t.all definedCode

/-- The row in which the hardware reads the DIP switches
(`ASDF_ARCH_DIPSWITCH_ROW`, asdf_arch_atmega328p.h:263, asdf_arch_atmega2560.h:358). -/
def DIP_ROW : Nat := 8

/-- The eight DIP switches: keymap bits 0-3, unused, `FN_11`, strobe polarity,
autorepeat. -/
def dipRow : List (Option Code) :=
  [some 0xA8, some 0xA9, some 0xAA, some 0xAB, some 0, some 0xC1, some 0xAD, some 0xAC]

/-- The text a keymap prints for identification, on user hook 10. -/
def idMessage (i : UInt8) : Option (List Code) :=
  match (hooksOf (shippedSetup i))[14]? with
  | some (HookFn.print text) => some text
  | _ => none

/-- The first assignment of physical output `p` in a setup function (later ones
are ignored): the virtual output and the initial value. -/
def assignmentOf (cmds : List SetupCmd) (p : Nat) : Option (Nat × UInt8) :=
  cmds.findSome? fun c => match c with
    | .vassign v q _ x => if q = p then some (v, x) else none
    | _ => none

/-- The effect of one event on the last value output `p` was driven with;
initialising the hardware forgets it. -/
def outStep (p : Nat) (o : Option UInt8) : Event → Option UInt8
  | .archInit => none
  | .out q v => if q = p then some v else o
  | _ => o

/-- The value output `p` was last driven with since the outputs were last
initialised. -/
def lastOut (t : List Event) (p : Nat) : Option UInt8 := t.foldl (outStep p) none

/-- The value output `p` was last driven with since power-up.  (Initialising the
hardware leaves the levels of these ports as they are, asdf_arch_atmega328p.c:218-223.) -/
def shown (t : List Event) (p : Nat) : Option UInt8 :=
  t.foldl (fun o e => match e with
    | .out q v => if q = p then some v else o
    | _ => o) none

/-- The tables of keymap `i`. -/
def tablesOf (cfg : Config) (i : UInt8) : List (List Code) :=
  (mapsOf (cfg.setup i)).map fun e => e.matrix.getD []

/-- In all tables of all keymaps of the layout, the keys with action `act` are
exactly those at the positions `P`. -/
def placed (cfg : Config) (L : Layout) (act : Action) (P : List (Nat × Nat)) : Bool :=
  L.maps.all fun i => (tablesOf cfg i).all fun t =>
    (List.range L.rows).all fun r => (List.range L.cols).all fun c =>
      decide (decodeAction (entryAt t L.cols r c) = act) == P.contains (r, c)

/-- The positions of an action in a table. -/
def positionsOf (act : Action) (e : MapEntry) : List Nat :=
  ((List.range (e.rows.toNat * e.cols.toNat)).filter fun k =>
    match e.matrix.bind (·[k]?) with
    | some code => decide (decodeAction code = act)
    | none => false)

/-- The number set on DIP switches 0-3, as debounced. -/
def dipNumber (s : State) : Nat :=
  (accepted s DIP_ROW 0).toNat + 2 * (accepted s DIP_ROW 1).toNat +
    4 * (accepted s DIP_ROW 2).toNat + 8 * (accepted s DIP_ROW 3).toNat

end Asdf.Spec
