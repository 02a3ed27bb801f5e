import Verif.Spec.Typed

/-! # Pulses on an output -/

namespace Asdf.Spec

/-- The number of pulses on output `p` in a trace, each pulse being: drive `x`, wait
`d`, drive `y`, with nothing in between.  `none` if output `p` is driven in any other
way. -/
def pulses (p : Nat) (x y : UInt8) (d : Event) : List Event → Option Nat
  | [] => some 0
  | .out q v :: es =>
    if q ≠ p then pulses p x y d es
    else match es with
      | e :: .out q' v' :: es' =>
        if v = x ∧ e = d ∧ q' = p ∧ v' = y then (pulses p x y d es').map (· + 1) else none
      | _ => none
  | _ :: es => pulses p x y d es

/-- What one sample presses: the code, if the press of a key with code `x` is accepted. -/
def Kb.pressedBy (x : Code) (cfg : Config) (L : Layout) (p : Bool) (k : Kb) (r c : Nat) :
    List Code :=
  if p = true ∧ (k.deb r c).on = false ∧ (k.deb r c).left ≤ 1 ∧ k.code cfg L r c = x then [x]
  else []

/-- How often a key with code `x` was pressed since power-up. -/
def pressCount (cfg : Config) (L : Layout) (x : Code) (inps : List Input) : Nat :=
  (Kb.log cfg L (Kb.pressedBy x) inps (Kb.start cfg)).flatten.length

/-- The effect of a setup statement on outputs, caps lock and the hardware. -/
def setupFx (x : Outputs × Bool × List Event) : SetupCmd → Outputs × Bool × List Event
  | .vassign v p fn i =>
    (if (1 ≤ v && v ≤ 11) && (1 ≤ p && p ≤ 12) &&
        (List.range 12).all fun w => !(x.1.lists w).contains p then x.1.assign v p fn i else x.1, x.2)
  | .capsActivate =>
    ((x.1.act VCAPS_LED (if !x.2.1 then .setHi else .setLo)).1, !x.2.1,
      x.2.2 ++ (x.1.act VCAPS_LED (if !x.2.1 then .setHi else .setLo)).2)
  | .negStrobe => (x.1, x.2.1, x.2.2 ++ [.negStrobe])
  | _ => x

/-- In a setup run with caps lock at `caps`, output code `v` becomes the only owner of
output `p`, pulses it from level `x` (function `fn`), and `p` is not driven. -/
def pulseCheck (cmds : List SetupCmd) (v p : Nat) (fn : VFun) (x : UInt8) (caps : Bool) : Bool :=
  let y := cmds.foldl setupFx (Outputs.initial, caps, [.archInit])
  y.1.lists v == [p] && y.1.fn v == fn && y.1.level p == x &&
    ((List.range 12).all fun w => w == v || !(y.1.lists w).contains p) &&
    (y.2.2.all fun e => match e with
      | .out q _ => q != p
      | _ => true)

end Asdf.Spec
