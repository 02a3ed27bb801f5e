import Verif.Model.Device

/-! # Specification of the output modules

Each virtual output owns a list of physical outputs; a physical output has a
current level.  A reader only needs this file to read `Props/Device.lean`.
-/

namespace Asdf.Spec

/-- Abstract output configuration. -/
structure Outputs where
  /-- physical outputs of each virtual output, most recently assigned first -/
  lists : Nat → List Nat
  /-- function of each virtual output -/
  fn : Nat → VFun
  /-- logical level of each physical output -/
  level : Nat → UInt8

/-- Configuration after initialisation: nothing assigned, all levels 1. -/
def Outputs.initial : Outputs :=
  { lists := fun _ => [], fn := fun _ => .nofunc, level := fun _ => 1 }

/-- Physical output `p` is not assigned to any virtual output. -/
def Outputs.Unused (a : Outputs) (p : Nat) : Prop := ∀ w, p ∉ a.lists w

/-- The assignment of `p` to `v` is possible. -/
def Outputs.CanAssign (a : Outputs) (v p : Nat) : Prop :=
  (1 ≤ v ∧ v ≤ 11) ∧ (1 ≤ p ∧ p ≤ 12) ∧ a.Unused p

/-- The effect of a possible assignment. -/
def Outputs.assign (a : Outputs) (v p : Nat) (fn : VFun) (initial : UInt8) : Outputs :=
  { lists := fun w => if w = v then p :: a.lists v else a.lists w
    fn := fun w => if w = v then fn else a.fn w
    level := fun q => if q = p then initial else a.level q }

/-- Drive all outputs of `v`, computing the new level from the old one. -/
def Outputs.drive (a : Outputs) (v : Nat) (g : UInt8 → UInt8) : Outputs × List Event :=
  ({ a with level := fun p => if p ∈ a.lists v then g (a.level p) else a.level p },
   (a.lists v).map fun p => Event.out p (g (a.level p)))

/-- Logical inversion. -/
def inv (x : UInt8) : UInt8 := if x = 0 then 1 else 0

/-- A pulse: invert all outputs of `v`, wait, invert them again. -/
def Outputs.pulse (a : Outputs) (v : Nat) (delay : Event) : Outputs × List Event :=
  let r1 := a.drive v inv
  let r2 := r1.1.drive v inv
  (r2.1, r1.2 ++ [delay] ++ r2.2)

/-- Applying a function to a virtual output: the new levels and the hardware
effects. -/
def Outputs.act (a : Outputs) (v : Nat) : VFun → Outputs × List Event
  | .nofunc => (a, [])
  | .setHi => a.drive v (fun _ => 1)
  | .setLo => a.drive v (fun _ => 0)
  | .toggle => a.drive v inv
  | .pulseShort => a.pulse v .delayShort
  | .pulseLong => a.pulse v .delayLong

/-- An assignment request, with arbitrary numbers. -/
structure AssignReq where
  v : Nat
  p : Nat
  fn : VFun
  initial : UInt8
  deriving DecidableEq, Repr

/-- Execute assignment requests on the model of the C code. -/
def assignAll (d : Dev) (rs : List AssignReq) : Res Dev :=
  rs.foldlM (fun d r => virtAssign d r.v r.p r.fn r.initial) d

open Classical in
/-- Execute assignment requests on the specification. -/
noncomputable def Outputs.assignAll (a : Outputs) (rs : List AssignReq) : Outputs :=
  rs.foldl (fun a r => if a.CanAssign r.v r.p then a.assign r.v r.p r.fn r.initial else a) a

/-- The physical outputs reached from device `p` by following the links of the
device table (what a loop over a virtual output visits).  `none`: the walk left
the table or did not end. -/
def walk (d : Dev) : Nat → Nat → Option (List Nat)
  | 0, _ => none
  | fuel + 1, p =>
    if p = 0 then some []
    else match d.phys[p]? with
      | none => none
      | some e => (walk d fuel e.next).map (p :: ·)

/-- The physical outputs of virtual output `v` in the device table. -/
def outputsOf (d : Dev) (v : Nat) : Option (List Nat) :=
  match d.virt[v]? with
  | none => none
  | some e => walk d 14 e.phys

/-- Calls of the output modules: assignments with arbitrary numbers, functions
applied to an existing virtual output. -/
inductive DevOp where
  | assign (r : AssignReq)
  | action (v : Fin 12) (fn : VFun)
  | activate (v : Fin 12)
  /-- a hardware effect caused by another part of the firmware -/
  | other (e : Event)
  deriving DecidableEq, Repr

/-- One call on the model of the C code. -/
def callDev (d : Dev) : DevOp → Res Dev
  | .assign r => virtAssign d r.v r.p r.fn r.initial
  | .action v fn => virtAction d v fn
  | .activate v => virtActivate d v
  | .other e => .ok (d.emit e)

/-- A history of calls, starting from initialised tables. -/
def runDev (d0 : Dev) (ops : List DevOp) : Res Dev := ops.foldlM callDev (virtInit d0)

/-- The device tables result from some history of calls. -/
def OutputsReachable (d : Dev) : Prop := ∃ d0 ops, runDev d0 ops = .ok d

open Classical in
/-- One call on the specification: new configuration and hardware effects. -/
noncomputable def Outputs.call (a : Outputs) : DevOp → Outputs × List Event
  | .assign r => (if a.CanAssign r.v r.p then a.assign r.v r.p r.fn r.initial else a, [])
  | .action v fn => a.act v fn
  | .activate v => a.act v (a.fn v)
  | .other e => (a, [e])

/-- A history of calls on the specification. -/
noncomputable def Outputs.run (a : Outputs) : List DevOp → Outputs × List Event
  | [] => (a, [])
  | op :: ops =>
    let r1 := a.call op
    let r2 := r1.1.run ops
    (r2.1, r1.2 ++ r2.2)

end Asdf.Spec
