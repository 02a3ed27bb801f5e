import Verif.Model.Basic

/-! # `asdf_physical.c` and `asdf_virtual.c`: outputs -/

namespace Asdf

/-! Physical devices `asdf_physical_dev_t` (asdf_physical.h:35-50). -/

/-- asdf_physical.h:36 -/
def PHYSICAL_NO_OUT : Nat := 0
/-- asdf_physical.h:37 -/
def PHYSICAL_OUT1 : Nat := 1
/-- asdf_physical.h:38 -/
def PHYSICAL_OUT1_OPEN_HI : Nat := 2
/-- asdf_physical.h:39 -/
def PHYSICAL_OUT1_OPEN_LO : Nat := 3
/-- asdf_physical.h:40 -/
def PHYSICAL_OUT2 : Nat := 4
/-- asdf_physical.h:41 -/
def PHYSICAL_OUT2_OPEN_HI : Nat := 5
/-- asdf_physical.h:42 -/
def PHYSICAL_OUT2_OPEN_LO : Nat := 6
/-- asdf_physical.h:43 -/
def PHYSICAL_OUT3 : Nat := 7
/-- asdf_physical.h:44 -/
def PHYSICAL_OUT3_OPEN_HI : Nat := 8
/-- asdf_physical.h:45 -/
def PHYSICAL_OUT3_OPEN_LO : Nat := 9
/-- asdf_physical.h:46 -/
def PHYSICAL_LED1 : Nat := 10
/-- asdf_physical.h:47 -/
def PHYSICAL_LED2 : Nat := 11
/-- asdf_physical.h:48 -/
def PHYSICAL_LED3 : Nat := 12

/-! Virtual devices `asdf_virtual_dev_t` (asdf_virtual.h:32-46). -/

/-- asdf_virtual.h:33 -/
def V_NULL : Nat := 0
/-- asdf_virtual.h:34 -/
def VOUT1 : Nat := 1
/-- asdf_virtual.h:35 -/
def VOUT2 : Nat := 2
/-- asdf_virtual.h:36 -/
def VOUT3 : Nat := 3
/-- asdf_virtual.h:37 -/
def VOUT4 : Nat := 4
/-- asdf_virtual.h:38 -/
def VOUT5 : Nat := 5
/-- asdf_virtual.h:39 -/
def VOUT6 : Nat := 6
/-- asdf_virtual.h:40 -/
def VLED1 : Nat := 7
/-- asdf_virtual.h:41 -/
def VLED2 : Nat := 8
/-- asdf_virtual.h:42 -/
def VLED3 : Nat := 9
/-- asdf_virtual.h:43 -/
def VCAPS_LED : Nat := 10
/-- asdf_virtual.h:44 -/
def VSHIFT_LED : Nat := 11

/-- `asdf_virtual_function_t` (asdf_virtual.h:49-57). -/
inductive VFun where
  | nofunc | setHi | setLo | pulseShort | pulseLong | toggle
  deriving DecidableEq, Repr

/-- `physical_device_table_entry_t` (asdf_physical.c:42-46).  The `handler`
member is constant (asdf_physical.c:50-64) and is represented by the device
number in `Event.out`. -/
structure PhysEntry where
  shadow : UInt8
  next : Nat
  deriving DecidableEq, Repr

/-- Entry of `virtual_device_table` (asdf_virtual.c:42-46). -/
structure VirtEntry where
  phys : Nat
  fn : VFun
  deriving DecidableEq, Repr

/-- The static tables of `asdf_physical.c` (line 50) and `asdf_virtual.c`
(line 42), and the trace of hardware effects so far (oldest first). -/
structure Dev where
  phys : List PhysEntry
  virt : List VirtEntry
  trace : List Event
  deriving DecidableEq, Repr

/-- Static (zero) initialisation of the two tables. -/
def Dev.zero : Dev :=
  { phys := List.replicate NUM_PHYS ⟨0, 0⟩
    virt := List.replicate NUM_VIRT ⟨0, .nofunc⟩
    trace := [] }

/-- Append a hardware effect to the trace.  (Modelling device.) -/
def Dev.emit (d : Dev) (e : Event) : Dev := { d with trace := d.trace ++ [e] }

/-- `asdf_physical_set` (asdf_physical.c:83-87): call the handler, then store
the shadow value. -/
def physSet (d : Dev) (p : Nat) (v : UInt8) : Res Dev := do
  let e ← rd d.phys p
  let t ← wr d.phys p { e with shadow := v }
  .ok { (d.emit (.out p v)) with phys := t }

/-- `asdf_physical_on` (asdf_physical.c:103-107). -/
def physOn (d : Dev) (p : Nat) : Res Dev := physSet d p 1

/-- `asdf_physical_off` (asdf_physical.c:123-127). -/
def physOff (d : Dev) (p : Nat) : Res Dev := physSet d p 0

/-- `asdf_physical_assert` (asdf_physical.c:145-149). -/
def physAssert (d : Dev) (p : Nat) : Res Dev := do
  let e ← rd d.phys p
  .ok (d.emit (.out p e.shadow))

/-- C's `!value`. (asdf_physical.c:170) -/
def cNot (v : UInt8) : UInt8 := if v = 0 then 1 else 0

/-- `asdf_physical_toggle` (asdf_physical.c:166-171). -/
def physToggle (d : Dev) (p : Nat) : Res Dev := do
  let e ← rd d.phys p
  physSet d p (cNot e.shadow)

/-- `valid_physical_device` (asdf_physical.c:187-190). -/
def validPhys (p : Nat) : Bool := decide (PHYSICAL_NO_OUT < p) && decide (p < NUM_PHYS)

/-- The search loop of `physical_device_is_available`
(asdf_physical.c:215-218), from `cur` with `next_out = phys[cur].next`. -/
def findFree (phys : List PhysEntry) (device : Nat) : Nat → Nat → Res Nat
  | 0, _ => .error .diverge
  | fuel + 1, cur => do
    let e ← rd phys cur
    if e.next = PHYSICAL_NO_OUT then .ok NUM_PHYS
    else if e.next = device then .ok cur
    else findFree phys device fuel e.next

/-- `physical_device_is_available` (asdf_physical.c:210-220): the predecessor of
`device` in the list of free devices that starts at entry 0, or `NUM_PHYS`.
The fuel bounds the number of loop iterations; running out of it is the error
`diverge`. -/
def physIsAvailable (phys : List PhysEntry) (device : Nat) : Res Nat :=
  findFree phys device (NUM_PHYS + 1) PHYSICAL_NO_OUT

/-- `asdf_physical_next_device` (asdf_physical.c:239-242). -/
def physNext (d : Dev) (p : Nat) : Res Nat := do
  let e ← rd d.phys p
  .ok e.next

/-- `asdf_physical_allocate` (asdf_physical.c:264-287). -/
def physAllocate (d : Dev) (p : Nat) (tail : Nat) (initial : UInt8) : Res (Bool × Dev) := do
  let pred ← physIsAvailable d.phys p
  if validPhys p && decide (NUM_PHYS ≠ pred) then do
    let ep ← rd d.phys p
    let epred ← rd d.phys pred
    let t1 ← wr d.phys pred { epred with next := ep.next }
    let ep1 ← rd t1 p
    let t2 ← wr t1 p { ep1 with next := tail }
    let ep2 ← rd t2 p
    let t3 ← wr t2 p { ep2 with shadow := initial }
    .ok (true, { d with phys := t3 })
  else .ok (false, d)

/-- `asdf_physical_init` (asdf_physical.c:303-314): all shadows 1, the free list
runs through the whole table. -/
def physInit (d : Dev) : Dev :=
  { d with phys := (List.range NUM_PHYS).map fun i =>
      { shadow := 1, next := if i = NUM_PHYS - 1 then PHYSICAL_NO_OUT else i + 1 } }

/-- `asdf_virtual_map_function` (asdf_virtual.c:67-73): apply `f` to every device
of the list starting at `device`.  Fuel bounds the loop. -/
def mapDevices (f : Dev → Nat → Res Dev) : Nat → Dev → Nat → Res Dev
  | 0, _, _ => .error .diverge
  | fuel + 1, d, device =>
    if device = PHYSICAL_NO_OUT then .ok d
    else do
      let d ← f d device
      let nxt ← physNext d device
      mapDevices f fuel d nxt

/-- Fuel of `mapDevices`: one more than there are devices. -/
def LIST_FUEL : Nat := NUM_PHYS + 1

/-- `asdf_virtual_action` (asdf_virtual.c:92-124). -/
def virtAction (d : Dev) (v : Nat) (fn : VFun) : Res Dev := do
  let e ← rd d.virt v
  match fn with
  | .pulseLong => do
    let d ← mapDevices physToggle LIST_FUEL d e.phys
    let d := d.emit .delayLong
    mapDevices physToggle LIST_FUEL d e.phys
  | .pulseShort => do
    let d ← mapDevices physToggle LIST_FUEL d e.phys
    let d := d.emit .delayShort
    mapDevices physToggle LIST_FUEL d e.phys
  | .toggle => mapDevices physToggle LIST_FUEL d e.phys
  | .setHi => mapDevices physOn LIST_FUEL d e.phys
  | .setLo => mapDevices physOff LIST_FUEL d e.phys
  | .nofunc => .ok d

/-- `asdf_virtual_activate` (asdf_virtual.c:141-144). -/
def virtActivate (d : Dev) (v : Nat) : Res Dev := do
  let e ← rd d.virt v
  virtAction d v e.fn

/-- `valid_virtual_device` (asdf_virtual.c:160-163). -/
def validVirt (v : Nat) : Bool := decide (V_NULL < v) && decide (v < NUM_VIRT)

/-- `asdf_virtual_assign` (asdf_virtual.c:187-199). -/
def virtAssign (d : Dev) (v p : Nat) (fn : VFun) (initial : UInt8) : Res Dev :=
  if validVirt v then do
    let e ← rd d.virt v
    let (ok, d) ← physAllocate d p e.phys initial
    if ok then do
      let t ← wr d.virt v { phys := p, fn := fn }
      .ok { d with virt := t }
    else .ok d
  else .ok d

/-- `asdf_virtual_init` (asdf_virtual.c:215-226). -/
def virtInit (d : Dev) : Dev :=
  { physInit d with virt := List.replicate NUM_VIRT ⟨PHYSICAL_NO_OUT, .nofunc⟩ }

/-- The loop of `asdf_virtual_sync` (asdf_virtual.c:240-245). -/
def virtSync (d : Dev) : Res Dev :=
  (List.range NUM_PHYS).foldlM physAssert d

end Asdf
