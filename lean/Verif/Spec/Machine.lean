import Verif.Spec.Scan
import Verif.Spec.Tables

/-! # The keyboard as its user sees it

A complete description of the keyboard without C data structures: no buffer pool,
device tables, hook table, bit masks or counters that wrap.  `Props/Machine.lean`
shows that the firmware behaves exactly like this. -/

namespace Asdf.Spec

/-- Key repeat.  Delays are in scans; 0 means that nothing repeats. -/
structure Rpt where
  /-- the delay before the first repetition of the next key -/
  delay : Nat
  /-- the delay when the REPEAT key is up -/
  rest : Nat
  /-- scans until the held key is repeated -/
  left : Nat
  deriving DecidableEq, Repr

/-- The REPEAT key is pressed.  Quirk: it is ignored if a repetition is due within 66
scans anyway. -/
def Rpt.press (r : Rpt) : Rpt :=
  if 66 < r.left ∨ r.delay = 0 then { r with delay := 66, left := 66 } else r

/-- The REPEAT key is released. -/
def Rpt.release (r : Rpt) : Rpt := { r with delay := r.rest, left := r.rest }

/-- The autorepeat switch is operated; while REPEAT is in force only the delay for
later changes. -/
def Rpt.auto (r : Rpt) (on : Bool) : Rpt :=
  let d := if on then 525 else 0
  if r.delay = 66 then { r with rest := d } else ⟨d, d, d⟩

/-- A key with a new code is pressed. -/
def Rpt.restart (r : Rpt) : Rpt := { r with left := r.delay }

/-- One scan of the held key; after a repetition the next follows in 66 scans. -/
def Rpt.tick (r : Rpt) : Rpt :=
  { r with left := if r.left = 0 then 0 else if r.left = 1 then 66 else r.left - 1 }

/-- The keyboard. -/
structure Kb where
  /-- the selected keymap -/
  map : UInt8
  /-- the debouncer of each key -/
  deb : Nat → Nat → Deb
  held : Bool
  locked : Bool
  caps : Bool
  ctrl : Bool
  /-- the code that repeats while its key is held (0xA0: none) -/
  last : Code
  rpt : Rpt
  /-- keystrokes waiting for the host -/
  keys : List Code
  /-- message characters waiting for the host; they go first -/
  msgs : List Code
  outs : Outputs
  /-- pause before a message character, in ms -/
  pause : UInt16
  /-- everything done to the hardware since power-up -/
  trace : List Event

def Kb.emit (k : Kb) (es : List Event) : Kb := { k with trace := k.trace ++ es }

/-- Apply a function to a virtual output. -/
def Kb.apply (k : Kb) (v : Nat) (fn : VFun) : Kb :=
  { k with outs := (k.outs.act v fn).1, trace := k.trace ++ (k.outs.act v fn).2 }

/-- Switch an indicator. -/
def Kb.light (k : Kb) (v : Nat) (on : Bool) : Kb := k.apply v (if on then .setHi else .setLo)

/-- Set SHIFT (held, locked); the indicator shows the lock. -/
def Kb.setShift (k : Kb) (held locked : Bool) : Kb :=
  Kb.light { k with held := held, locked := locked } VSHIFT_LED locked

/-- Flip caps lock; the indicator follows. -/
def Kb.flipCaps (k : Kb) : Kb := Kb.light { k with caps := !k.caps } VCAPS_LED (!k.caps)

/-- The current code of a key: CTRL before SHIFT before CAPS. -/
def Kb.code (cfg : Config) (L : Layout) (k : Kb) (r c : Nat) : Code :=
  entryAt ((tablesOf cfg k.map)[tableFor (k.held || k.locked) k.caps k.ctrl]?.getD []) L.cols r c

/-- Queue a message as far as 128 characters allow. -/
def Kb.say (k : Kb) (text : List Code) : Kb :=
  { k with msgs := k.msgs ++ (withCR text).take (128 - k.msgs.length) }

/-- Function `n` of the current keymap: some print a message. -/
def Kb.function (cfg : Config) (k : Kb) (n : Nat) : Kb :=
  match (hooksOf (cfg.setup k.map))[4 + n]? with
  | some (.print text) => k.say text
  | _ => k

/-- Output `p` (1 to 12) can be given to output code `v` (1 to 11) if no code has it. -/
def Kb.canAssign (k : Kb) (v p : Nat) : Bool :=
  (1 ≤ v && v ≤ 11) && (1 ≤ p && p ≤ 12) && (List.range 12).all fun w => !(k.outs.lists w).contains p

/-- One statement of a keymap's setup.  Tables and messages are looked up by keymap
number, so there is nothing to do for them. -/
def Kb.setup1 (k : Kb) : SetupCmd → Kb
  | .printDelay ms => { k with pause := ms.toUInt16 }
  | .vassign v p fn i =>
    { k with outs := if k.canAssign v p then k.outs.assign v p fn i else k.outs }
  | .capsActivate => k.flipCaps
  | .negStrobe => k.emit [.negStrobe]
  | .addMap _ _ _ _ => k
  | .hook _ _ => k

/-- Install keymap `i`: initialise the hardware, forget the output configuration, run
the keymap's setup.  Modifiers, queues and debouncers stay. -/
def Kb.install (cfg : Config) (k : Kb) (i : UInt8) : Kb :=
  (cfg.setup i).foldl Kb.setup1 (Kb.emit { k with map := i, outs := Outputs.initial } [.archInit])

/-- Select keymap `i`, if there is one and it is not in use already. -/
def Kb.select (cfg : Config) (k : Kb) (i : UInt8) : Kb :=
  if i ≠ k.map ∧ cfg.valid i = true then k.install cfg i else k

/-- A code is typed: queued if fewer than 16 are waiting; a code other than the last
one restarts the repeat delay. -/
def Kb.type (k : Kb) (code : Code) : Kb :=
  { k with
    keys := if k.keys.length < 16 then k.keys ++ [code] else k.keys
    last := code
    rpt := if k.last = code then k.rpt else k.rpt.restart }

/-- A key with code `code` is pressed. -/
def Kb.press (cfg : Config) (k : Kb) (code : Code) : Kb :=
  match code.toNat with
  | 0xA1 => k.setShift true false
  | 0xA2 => k.setShift k.held true
  | 0xA3 => k.setShift k.held (!k.locked)
  | 0xA4 => k.flipCaps
  | 0xA5 => { k with ctrl := true }
  | 0xA6 => { k with rpt := k.rpt.press }
  | 0xA7 => k.function cfg 1
  | 0xA8 => k.select cfg (k.map ||| 1)
  | 0xA9 => k.select cfg (k.map ||| 2)
  | 0xAA => k.select cfg (k.map ||| 4)
  | 0xAB => k.select cfg (k.map ||| 8)
  | 0xAC => { k with rpt := k.rpt.auto true }
  | 0xAD => k.emit [.posStrobe]
  | 0xAE => k.apply 7 (k.outs.fn 7)
  | 0xAF => k.apply 8 (k.outs.fn 8)
  | 0xB0 => k.apply 9 (k.outs.fn 9)
  | 0xB1 => k.apply 1 (k.outs.fn 1)
  | 0xB2 => k.apply 2 (k.outs.fn 2)
  | 0xB3 => k.apply 3 (k.outs.fn 3)
  | 0xB4 => k.apply 4 (k.outs.fn 4)
  | 0xB5 => k.apply 5 (k.outs.fn 5)
  | 0xB6 => k.apply 6 (k.outs.fn 6)
  | 0xB7 => k.function cfg 1
  | 0xB8 => k.function cfg 2
  | 0xB9 => k.function cfg 3
  | 0xBA => k.function cfg 4
  | 0xBB => k.function cfg 5
  | 0xBC => k.function cfg 6
  | 0xBD => k.function cfg 7
  | 0xBE => k.function cfg 8
  | 0xBF => k.function cfg 9
  | 0xC0 => k.function cfg 10
  | n => if n ≤ 0xA0 then k.type code else k

/-- A key with code `code` is released. -/
def Kb.release (cfg : Config) (k : Kb) (code : Code) : Kb :=
  match code.toNat with
  | 0xA1 => k.setShift false false
  | 0xA5 => { k with ctrl := false }
  | 0xA6 => { k with rpt := k.rpt.release }
  | 0xA8 => k.select cfg (k.map &&& ~~~1)
  | 0xA9 => k.select cfg (k.map &&& ~~~2)
  | 0xAA => k.select cfg (k.map &&& ~~~4)
  | 0xAB => k.select cfg (k.map &&& ~~~8)
  | 0xAC => { k with rpt := k.rpt.auto false }
  | 0xAD => k.emit [.negStrobe]
  | n => if n ≤ 0xA0 then { k with last := if k.last = code then 0xA0 else k.last } else k

/-- One sample `p` of key `(r, c)`. -/
def Kb.key (cfg : Config) (L : Layout) (p : Bool) (k : Kb) (r c : Nat) : Kb :=
  let k' := { k with
    deb := fun r' c' => if r' = r ∧ c' = c then (k.deb r c).step p else k.deb r' c' }
  if p ≠ (k.deb r c).on then
    if (k.deb r c).left ≤ 1 then
      if p then k'.press cfg (k.code cfg L r c) else k'.release cfg (k.code cfg L r c)
    else k'
  else if p = true ∧ k.code cfg L r c = k.last then
    if k.rpt.left = 1 then Kb.type { k' with rpt := k.rpt.tick } k.last
    else { k' with rpt := k.rpt.tick }
  else k'

/-- One item goes to the host: a message character, after a pause, or else a
keystroke.  0xA0 is not sent. -/
def Kb.output (k : Kb) : Kb :=
  match k.msgs with
  | m :: ms => Kb.emit { k with msgs := ms } [.delayMs k.pause, .send m]
  | [] => match k.keys with
    | c :: cs => Kb.emit { k with keys := cs } (if c.toNat < 0xA0 then [.send c] else [])
    | [] => k

/-- The keys of the layout, row by row. -/
def keysOf (L : Layout) : List (Nat × Nat) :=
  (List.range L.rows).flatMap fun r => (List.range L.cols).map fun c => (r, c)

/-- One pass: one item of output, then one sample of every key. -/
def Kb.pass (cfg : Config) (L : Layout) (k : Kb) (inp : Input) : Kb :=
  (keysOf L).foldl (fun k x => k.key cfg L (sample inp x.1 x.2) x.1 x.2) k.output

/-- Power-up: nothing pressed, nothing waiting, autorepeat on, keymap 0. -/
def Kb.start (cfg : Config) : Kb :=
  Kb.install cfg
    { map := 0
      deb := fun _ _ => Deb.init
      held := false
      locked := false
      caps := false
      ctrl := false
      last := 0xA0
      rpt := ⟨525, 525, 525⟩
      keys := []
      msgs := []
      outs := Outputs.initial
      pause := 0
      trace := [] } 0

/-- The keyboard after power-up and the given readings of the matrix. -/
def Kb.after (cfg : Config) (L : Layout) (inps : List Input) : Kb :=
  inps.foldl (Kb.pass cfg L) (Kb.start cfg)

end Asdf.Spec
