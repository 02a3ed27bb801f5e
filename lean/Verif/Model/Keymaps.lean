import Verif.Model.Modifiers

/-! # `asdf_keymaps.c` and the generated keymap switch -/

namespace Asdf

/-- One statement of a keymap setup function (`Keymaps/asdf_keymap_*.c`).
(Modelling device: the setup functions are straight-line sequences of these
calls.) -/
inductive SetupCmd where
  /-- `asdf_set_print_delay` -/
  | printDelay (ms : UInt8)
  /-- `asdf_keymaps_add_map`, reached through the `*_add_map` wrappers -/
  | addMap (matrix : List Code) (modifier : Nat) (rows cols : UInt8)
  /-- `asdf_hook_assign` -/
  | hook (id : Nat) (f : HookFn)
  /-- `asdf_virtual_assign` -/
  | vassign (v p : Nat) (fn : VFun) (initial : UInt8)
  /-- `asdf_modifier_capslock_activate` -/
  | capsActivate
  /-- `asdf_arch_set_neg_strobe` -/
  | negStrobe
  deriving DecidableEq, Repr

/-- The keymaps compiled into the firmware: the two `switch` statements that
CMake generates from `keymap_list.cmake` into `asdf_keymap_setup.c`
(asdf_keymap_setup.c.in:52-56, 74-87). -/
structure Config where
  /-- `asdf_keymap_valid` -/
  valid : UInt8 → Bool
  /-- `asdf_keymap_setup` -/
  setup : UInt8 → List SetupCmd

/-- `asdf_keymaps_add_map` (asdf_keymaps.c:60-72). -/
def addMap (s : State) (matrix : Option (List Code)) (modifier : Nat) (rows cols : UInt8) :
    Res State :=
  if modifier < NUM_MODIFIERS ∧ rows.toNat ≤ MAX_ROWS ∧ cols.toNat ≤ MAX_COLS then do
    let m ← wr s.maps modifier { matrix := matrix, rows := rows, cols := cols }
    .ok { s with maps := m }
  else .ok s

/-- `asdf_keymaps_num_rows` (asdf_keymaps.c:88-91). -/
def numRows (s : State) : Res UInt8 := do
  let i ← modifierIndex s.mods
  let m ← rd s.maps i
  .ok m.rows

/-- `asdf_keymaps_num_cols` (asdf_keymaps.c:107-110). -/
def numCols (s : State) : Res UInt8 := do
  let i ← modifierIndex s.mods
  let m ← rd s.maps i
  .ok m.cols

/-- `asdf_keymaps_reset` (asdf_keymaps.c:127-140). -/
def keymapsReset (s : State) : Res State := do
  let s ← (List.range NUM_MODIFIERS).foldlM (fun s i => addMap s none i 0 0) s
  .ok { s with dev := virtInit s.dev, hooks := hookInit s.hooks }

/-- Execute one setup statement (see `SetupCmd`; `asdf_set_print_delay` is
asdf.c:170-173). -/
def runCmd (s : State) : SetupCmd → Res State
  | .printDelay ms => .ok { s with printDelay := ms.toUInt16 }
  | .addMap m i r c => addMap s (some m) i r c
  | .hook id f => do
    let h ← hookAssign s.hooks id f
    .ok { s with hooks := h }
  | .vassign v p fn i => do
    let d ← virtAssign s.dev v p fn i
    .ok { s with dev := d }
  | .capsActivate => capslockActivate s
  | .negStrobe => .ok (s.emit .negStrobe)

/-- `asdf_keymap_setup`: run the setup function of keymap `index`
(asdf_keymap_setup.c.in:52-56). -/
def keymapSetup (cfg : Config) (s : State) (index : UInt8) : Res State :=
  (cfg.setup index).foldlM runCmd s

/-- `asdf_keymaps_switch` (asdf_keymaps.c:160-173). -/
def keymapsSwitch (cfg : Config) (s : State) (index : UInt8) : Res State :=
  if cfg.valid index then do
    let s := { s with curIdx := index }
    let s := s.emit .archInit
    let s ← keymapsReset s
    keymapSetup cfg s index
  else .ok s

/-- `asdf_keymaps_select` (asdf_keymaps.c:190-196). -/
def keymapsSelect (cfg : Config) (s : State) (index : UInt8) : Res State :=
  if index ≠ s.curIdx then keymapsSwitch cfg s index else .ok s

/-- `asdf_keymaps_init` (asdf_keymaps.c:212-215). -/
def keymapsInit (cfg : Config) (s : State) : Res State := keymapsSwitch cfg s 0

/-- `asdf_keymaps_map_select_n_set` for `bit` = `ASDF_KEYMAP_BIT_n` (1, 2, 4, 8)
(asdf_keymaps.c:252-255, 292-295, 332-335, 372-375; asdf_keymaps.h:40-43). -/
def mapSelectSet (cfg : Config) (s : State) (bit : UInt8) : Res State :=
  keymapsSelect cfg s (s.curIdx ||| bit)

/-- `asdf_keymaps_map_select_n_clear` (asdf_keymaps.c:232-235, 272-275, 312-315,
352-355). -/
def mapSelectClear (cfg : Config) (s : State) (bit : UInt8) : Res State :=
  keymapsSelect cfg s (s.curIdx &&& ~~~bit)

/-- `asdf_keymaps_get_code` (asdf_keymaps.c:394-405).  The array `keymaps` has
one entry per *modifier* but lines 397 and 400 index it with the *keyboard*
number.  The table is read as flat memory (`FLASH_READ_MATRIX_ELEMENT`,
asdf_arch_atmega328p.h:250). -/
def getCode (s : State) (row col : Nat) (modifier : Nat) : Res Code := do
  let cur ← rd s.maps s.curIdx.toNat
  if cur.cols ≠ 0 ∧ cur.rows ≠ 0 then do
    let m ← rd s.maps modifier
    match m.matrix with
    | none => .error .nullDeref
    | some t => rd t (row * cur.cols.toNat + col)
  else .ok 0

end Asdf
