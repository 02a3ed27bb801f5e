import Verif.Model.Keymaps
import Verif.Spec.Device

/-! # Specification of a keymap: what its setup function establishes -/

namespace Asdf.Spec

/-- The four tables after one setup statement. -/
def mapsStep (m : List MapEntry) : SetupCmd → List MapEntry
  | .addMap t i r c =>
    if i < 4 ∧ r.toNat ≤ 16 ∧ c.toNat ≤ 8 then m.set i ⟨some t, r, c⟩ else m
  | _ => m

/-- The tables a keymap defines (one entry per modifier: plain, shift, caps,
ctrl); a modifier without a legal table has none. -/
def mapsOf (cmds : List SetupCmd) : List MapEntry :=
  cmds.foldl mapsStep (List.replicate 4 ⟨none, 0, 0⟩)

/-- The hooks after one setup statement. -/
def hooksStep (h : List HookFn) : SetupCmd → List HookFn
  | .hook id f => if 1 ≤ id ∧ id ≤ 15 then h.set id f else h
  | _ => h

/-- The hooks a keymap defines, on top of the defaults. -/
def hooksOf (cmds : List SetupCmd) : List HookFn := cmds.foldl hooksStep (hookInit [])

/-- The print delay after a keymap's setup. -/
def delayOf (d : UInt16) (cmds : List SetupCmd) : UInt16 :=
  cmds.foldl (fun d c => match c with | .printDelay ms => ms.toUInt16 | _ => d) d

/-- Caps lock after a keymap's setup: every caps-lock activation flips it. -/
def capsOf (caps : UInt8) (cmds : List SetupCmd) : UInt8 :=
  cmds.foldl (fun x c => match c with | .capsActivate => x ^^^ 1 | _ => x) caps

open Classical in
/-- Caps-lock state and output configuration after one setup statement. -/
noncomputable def outsStep (x : UInt8 × Outputs) : SetupCmd → UInt8 × Outputs
  | .vassign v p fn i => (x.1, if x.2.CanAssign v p then x.2.assign v p fn i else x.2)
  | .capsActivate =>
    (x.1 ^^^ 1, (x.2.act VCAPS_LED (if x.1 ^^^ 1 ≠ 0 then .setHi else .setLo)).1)
  | _ => x

/-- The output configuration a keymap defines; it depends on the caps-lock state
before only in the level of the caps-lock indicator. -/
noncomputable def outsOf (caps : UInt8) (cmds : List SetupCmd) : UInt8 × Outputs :=
  cmds.foldl outsStep (caps, Outputs.initial)

end Asdf.Spec
