import Verif.Model.Keymaps

/-! # `asdf.c`: buffers, actions, debounce, scan -/

namespace Asdf

/-- `asdf_put_code` (asdf.c:90-93). -/
def putCode (s : State) (c : Code) : Res State := do
  let b ← bufPut s.buf s.kcBuf c
  .ok { s with buf := b }

/-- `asdf_buffer_put(asdf_message_buffer, c)` (asdf.c:117). -/
def putMsg (s : State) (c : Code) : Res State := do
  let b ← bufPut s.buf s.msgBuf c
  .ok { s with buf := b }

/-- `asdf_putc` (asdf.c:111-119).  The recursive call is made with `'\r'`, for
which the condition is false, so it is written out. -/
def putc (s : State) (c : Code) : Res State := do
  let s ← if c = 0x0A then putMsg s 0x0D else .ok s
  putMsg s c

/-- `asdf_print` of a text without conversion specifications
(asdf_print.c:55-62): `asdf_putc` for every character. -/
def print (s : State) (text : List Code) : Res State := text.foldlM putc s

/-- `asdf_next_code` (asdf.c:141-151). -/
def nextCode (s : State) : Res (Code × State) := do
  let (code, b) ← bufGet s.buf s.msgBuf
  let s := { s with buf := b }
  if INVALID_CODE = code then do
    let (code, b) ← bufGet s.buf s.kcBuf
    .ok (code, { s with buf := b })
  else .ok (code, s.emit (.delayMs s.printDelay))

/-- `asdf_lookup_keycode` (asdf.c:190-193). -/
def lookupKeycode (s : State) (row col : Nat) : Res Code := do
  let i ← modifierIndex s.mods
  getCode s row col i

/-- `asdf_hook_execute` (asdf_hook.c:96-101).  Calling a function that takes an
argument or returns a value through `void (*)(void)` is `badCall`; the scanner
is not re-entrant in the model (`reentry`). -/
def hookExecute (s : State) (id : Nat) : Res State :=
  if hookValid id then do
    let f ← rd s.hooks id
    match f with
    | .null => .ok s
    | .print text => print s text
    | .keyscan => .error .reentry
    | .nullPtr | .archReadRow | .archSendCode => .error .badCall
  else .ok s

/-- The action codes of `action_t` (asdf.h:54-105) that the two `switch`
statements distinguish. -/
inductive Action where
  | nothing | shift | shiftlockOn | shiftlockToggle | caps | ctrl | repeat | hereIs
  /-- `ACTION_MAPSEL_n`, with `bit` = `ASDF_KEYMAP_BIT_n` -/
  | mapsel (bit : UInt8)
  | autorepeatSelect | strobeSelect
  /-- `ACTION_VLED1..3`, `ACTION_VOUT1..6`, with the virtual device -/
  | virt (v : Nat)
  /-- `ACTION_FN_n` -/
  | fn (n : Nat)
  /-- any other value -/
  | other
  deriving DecidableEq, Repr

/-- Values of `action_t` (asdf.h:54-105). -/
def decodeAction (c : Code) : Action :=
  match c.toNat with
  | 0xA0 => .nothing
  | 0xA1 => .shift
  | 0xA2 => .shiftlockOn
  | 0xA3 => .shiftlockToggle
  | 0xA4 => .caps
  | 0xA5 => .ctrl
  | 0xA6 => .repeat
  | 0xA7 => .hereIs
  | 0xA8 => .mapsel 1
  | 0xA9 => .mapsel 2
  | 0xAA => .mapsel 4
  | 0xAB => .mapsel 8
  | 0xAC => .autorepeatSelect
  | 0xAD => .strobeSelect
  | 0xAE => .virt VLED1
  | 0xAF => .virt VLED2
  | 0xB0 => .virt VLED3
  | 0xB1 => .virt VOUT1
  | 0xB2 => .virt VOUT2
  | 0xB3 => .virt VOUT3
  | 0xB4 => .virt VOUT4
  | 0xB5 => .virt VOUT5
  | 0xB6 => .virt VOUT6
  | 0xB7 => .fn 1
  | 0xB8 => .fn 2
  | 0xB9 => .fn 3
  | 0xBA => .fn 4
  | 0xBB => .fn 5
  | 0xBC => .fn 6
  | 0xBD => .fn 7
  | 0xBE => .fn 8
  | 0xBF => .fn 9
  | 0xC0 => .fn 10
  | 0xC1 => .fn 11
  | _ => .other

/-- `asdf_activate_action` (asdf.c:219-341). -/
def activateAction (cfg : Config) (s : State) : Action → Res State
  | .shift => shiftActivate s
  | .shiftlockOn => shiftlockOn s
  | .shiftlockToggle => shiftlockToggle s
  | .caps => capslockActivate s
  | .ctrl => .ok (ctrlActivate s)
  | .repeat => .ok { s with rep := repActivate s.rep }
  | .mapsel bit => mapSelectSet cfg s bit
  | .strobeSelect => .ok (s.emit .posStrobe)
  | .autorepeatSelect => .ok { s with rep := repAutoOn s.rep }
  | .virt v => do
    let d ← virtActivate s.dev v
    .ok { s with dev := d }
  | .nothing | .hereIs => hookExecute s HOOK_USER_1
  | .fn n => if 1 ≤ n ∧ n ≤ 10 then hookExecute s (HOOK_USER_1 + (n - 1)) else .ok s
  | .other => .ok s

/-- `asdf_deactivate_action` (asdf.c:361-403). -/
def deactivateAction (cfg : Config) (s : State) : Action → Res State
  | .shift => shiftDeactivate s
  | .ctrl => .ok (ctrlDeactivate s)
  | .repeat => .ok { s with rep := repDeactivate s.rep }
  | .mapsel bit => mapSelectClear cfg s bit
  | .strobeSelect => .ok (s.emit .negStrobe)
  | .autorepeatSelect => .ok { s with rep := repAutoOff s.rep }
  | .nothing | .shiftlockOn | .shiftlockToggle | .caps | .hereIs | .virt _ | .fn _ | .other => .ok s

/-- `asdf_activate_key` (asdf.c:421-435). -/
def activateKey (cfg : Config) (s : State) (code : Code) : Res State :=
  if code > INVALID_CODE then activateAction cfg s (decodeAction code)
  else do
    let s ← putCode s code
    if s.lastKey ≠ code then .ok { s with lastKey := code, rep := repResetCount s.rep }
    else .ok s

/-- `asdf_deactivate_key` (asdf.c:453-464). -/
def deactivateKey (cfg : Config) (s : State) (code : Code) : Res State :=
  if code > INVALID_CODE then deactivateAction cfg s (decodeAction code)
  else if s.lastKey = code then .ok { s with lastKey := INVALID_CODE }
  else .ok s

/-- `1 << col` truncated to `asdf_cols_t` (asdf.c:499, 504). -/
def colBit (col : Nat) : UInt8 := UInt8.ofNat (1 <<< col)

/-- `asdf_handle_key_press_or_release` (asdf.c:488-508). -/
def pressOrRelease (cfg : Config) (s : State) (row col : Nat) (pressed : Bool) : Res State := do
  let rowCounters ← rd s.counters row
  let c ← rd rowCounters col
  let c := c - 1
  if c = 0 then do
    let rc ← wr rowCounters col DEBOUNCE_TIME
    let cs ← wr s.counters row rc
    let st ← rd s.stable row
    if pressed then do
      let stable ← wr s.stable row (st ||| colBit col)
      let s := { s with counters := cs, stable := stable }
      let code ← lookupKeycode s row col
      activateKey cfg s code
    else do
      let stable ← wr s.stable row (st &&& ~~~(colBit col))
      let s := { s with counters := cs, stable := stable }
      let code ← lookupKeycode s row col
      deactivateKey cfg s code
  else do
    let rc ← wr rowCounters col c
    let cs ← wr s.counters row rc
    .ok { s with counters := cs }

/-- `asdf_handle_key_held_pressed` (asdf.c:531-540). -/
def heldPressed (cfg : Config) (s : State) (row col : Nat) : Res State := do
  let code ← lookupKeycode s row col
  if code = s.lastKey then
    let (fire, rep) := repTick s.rep
    let s := { s with rep := rep }
    if fire then activateKey cfg s s.lastKey else .ok s
  else .ok s

/-- The column loop of `asdf_keyscan` (asdf.c:575-585).  `col` stays below the
column count, a `uint8_t`, so it never wraps and 256 units of fuel suffice. -/
def scanCols (cfg : Config) (row : Nat) : Nat → Nat → UInt8 → UInt8 → State → Res State
  | 0, _, _, _, _ => .error .diverge
  | fuel + 1, col, changed, keys, s => do
    let n ← numCols s
    if col < n.toNat then do
      let s ←
        if changed &&& 1 ≠ 0 then pressOrRelease cfg s row col (keys &&& 1 ≠ 0)
        else if keys &&& 1 ≠ 0 then heldPressed cfg s row col
        else .ok s
      scanCols cfg row fuel (col + 1) (changed >>> 1) (keys >>> 1) s
    else .ok s

/-- The row readings of one scan: what the hardware returns for each row. -/
abbrev Input := Nat → UInt8

/-- Call the row reader fetched at the start of the scan (asdf.c:566, 570). -/
def callReader (reader : HookFn) (inp : Input) (row : Nat) : Res UInt8 :=
  match reader with
  | .archReadRow => .ok (inp row)
  | _ => .error .badCall

/-- The row loop of `asdf_keyscan` (asdf.c:569-586). -/
def scanRows (cfg : Config) (reader : HookFn) (inp : Input) : Nat → Nat → State → Res State
  | 0, _, _ => .error .diverge
  | fuel + 1, row, s => do
    let n ← numRows s
    if row < n.toNat then do
      let keys ← callReader reader inp row
      let st ← rd s.stable row
      let s ← scanCols cfg row 256 0 (keys ^^^ st) keys s
      scanRows cfg reader inp fuel (row + 1) s
    else .ok s

/-- `asdf_keyscan` (asdf.c:564-587). -/
def keyscan (cfg : Config) (inp : Input) (s : State) : Res State := do
  let reader ← hookGet s.hooks HOOK_ROW_SCANNER
  let s ← hookExecute s HOOK_EACH_SCAN
  scanRows cfg reader inp 256 0 s

/-- The column loop of `asdf_apply_all_actions` (asdf.c:616-624). -/
def applyCols (cfg : Config) (row : Nat) : Nat → Nat → UInt8 → State → Res State
  | 0, _, _, _ => .error .diverge
  | fuel + 1, col, keys, s => do
    let n ← numCols s
    if col < n.toNat then do
      let code ← lookupKeycode s row col
      let s ←
        if keys &&& 1 ≠ 0 then activateAction cfg s (decodeAction code)
        else deactivateAction cfg s (decodeAction code)
      applyCols cfg row fuel (col + 1) (keys >>> 1) s
    else .ok s

/-- The row loop of `asdf_apply_all_actions` (asdf.c:609-625). -/
def applyRows (cfg : Config) (reader : HookFn) (inp : Input) : Nat → Nat → State → Res State
  | 0, _, _ => .error .diverge
  | fuel + 1, row, s => do
    let n ← numRows s
    if row < n.toNat then do
      let keys ← callReader reader inp row
      let st ← wr s.stable row keys
      let s ← applyCols cfg row 256 0 keys { s with stable := st }
      applyRows cfg reader inp fuel (row + 1) s
    else .ok s

/-- `asdf_apply_all_actions` (asdf.c:605-626).  Nothing in the firmware calls it. -/
def applyAllActions (cfg : Config) (inp : Input) (s : State) : Res State := do
  let reader ← hookGet s.hooks HOOK_ROW_SCANNER
  applyRows cfg reader inp 256 0 s

/-- `asdf_init` (asdf.c:642-663). -/
def asdfInit (cfg : Config) (s : State) : Res State := do
  let s := { s with lastKey := INVALID_CODE }
  let s := { s with buf := bufInit s.buf }
  let s := { s with rep := repInit s.rep }
  let s ← keymapsInit cfg s
  let (h1, b) ← bufNew s.buf KEYCODE_BUFFER_SIZE
  let s := { s with kcBuf := h1, buf := b }
  let (h2, b) ← bufNew s.buf MESSAGE_BUFFER_SIZE
  let s := { s with msgBuf := h2, buf := b }
  .ok { s with
    stable := List.replicate MAX_ROWS 0
    counters := List.replicate MAX_ROWS (List.replicate MAX_COLS DEBOUNCE_TIME) }

end Asdf
