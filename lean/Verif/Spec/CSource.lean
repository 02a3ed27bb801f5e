import Verif.Model.CProg

/-! # How the static variables of the C source correspond to the state of the model

`encMem x s` is the memory of the C program in which every static variable has the value that
the state `s` of the model has for it.  Two things are not determined by `s` and are given by `x`:
the pointers in the entries of `buffers` (those not handed out yet hold whatever they hold) and
which function each hook points to (two functions may print the same text). -/

namespace Asdf.C

/-- The pointers that the state of the model does not fix. -/
structure Extra where
  /-- `buffers[i].buf` -/
  bp : List Val
  /-- `hook_map[i]` -/
  hk : List Val

/-- A `uint8_t` object. -/
def u8 (c : UInt8) : Tree := .leaf (.int .u8 c.toNat)

/-- A `uint16_t` object. -/
def u16 (c : UInt16) : Tree := .leaf (.int .u16 c.toNat)

/-- The output function in entry `i` of the table of physical outputs. -/
def handler : Nat → Val
  | 0 => .fn .asdf_arch_null_output
  | 1 => .fn .asdf_arch_out1_set
  | 2 => .fn .asdf_arch_out1_open_hi_set
  | 3 => .fn .asdf_arch_out1_open_lo_set
  | 4 => .fn .asdf_arch_out2_set
  | 5 => .fn .asdf_arch_out2_open_hi_set
  | 6 => .fn .asdf_arch_out2_open_lo_set
  | 7 => .fn .asdf_arch_out3_set
  | 8 => .fn .asdf_arch_out3_open_hi_set
  | 9 => .fn .asdf_arch_out3_open_lo_set
  | 10 => .fn .asdf_arch_led1_set
  | 11 => .fn .asdf_arch_led2_set
  | 12 => .fn .asdf_arch_led3_set
  | _ => .null

/-- The values of `asdf_virtual_function_t` (asdf_virtual.h:49-57). -/
def funNo : VFun → Nat
  | .nofunc => 0
  | .setHi => 1
  | .setLo => 2
  | .pulseShort => 3
  | .pulseLong => 4
  | .toggle => 5

/-- An entry of `buffers`. -/
def encBuf (p : Val) (d : BufDesc) : Tree :=
  .struct [(.buf, .leaf p), (.size, .leaf (.int .i16 d.size)), (.head, u8 d.head), (.tail, u8 d.tail),
    (.count, u8 d.count)]

/-- An entry of the table of physical outputs. -/
def encPhys (i : Nat) (e : PhysEntry) : Tree :=
  .struct [(.handler, .leaf (handler i)), (.shadow, u8 e.shadow), (.next, .leaf (.int .u8 e.next))]

/-- An entry of the table of virtual outputs. -/
def encVirt (e : VirtEntry) : Tree :=
  .struct [(.physical_device, .leaf (.int .u8 e.phys)), (.function, .leaf (.int .u8 (funNo e.fn)))]

/-- A pointer to a key table. -/
def encMatrix : Option (List Code) → Val
  | none => .null
  | some t => .rom t 0

/-- An entry of `keymaps`. -/
def encMap (m : MapEntry) : Tree :=
  .struct [(.matrix, .leaf (encMatrix m.matrix)), (.rows, u8 m.rows), (.cols, u8 m.cols)]

/-- The static variables. -/
def encMem (x : Extra) (s : State) : G → Tree
  | .buffer_pool => .arr (s.buf.pool.map u8)
  | .buffers => .arr (List.zipWith encBuf x.bp s.buf.bufs)
  | .buffer_pool_next_available => .leaf (.int .i16 s.buf.nextAvail)
  | .next_handle => .leaf (.int .i8 s.buf.nextHandle)
  | .repeat_state => u16 s.rep.state
  | .base_repeat_state => u16 s.rep.base
  | .key_repeat_timer => u16 s.rep.timer
  | .physical_device_table => .arr (s.dev.phys.mapIdx encPhys)
  | .virtual_device_table => .arr (s.dev.virt.map encVirt)
  | .hook_map => .arr (x.hk.map .leaf)
  | .shift_state => u8 s.mods.shift
  | .caps_state => u8 s.mods.caps
  | .ctrl_state => u8 s.mods.ctrl
  | .keymaps => .arr (s.maps.map encMap)
  | .current_keyboard_index => u8 s.curIdx
  | .last_stable_key_state => .arr (s.stable.map u8)
  | .debounce_counters => .arr (s.counters.map fun r => .arr (r.map u8))
  | .last_key => u8 s.lastKey
  | .asdf_keycode_buffer => .leaf (.int .i8 s.kcBuf)
  | .asdf_message_buffer => .leaf (.int .i8 s.msgBuf)
  | .asdf_print_delay_ms => u16 s.printDelay
  | .modifier_mapping => init_modifier_mapping
  | .classic_maps => init_classic_maps
  | .apple_maps => init_apple_maps
  | .ace1000_maps => init_ace1000_maps

/-- The state of the C program that corresponds to `s`: with these local variables, this
behaviour of the hardware still to come and these keys held. -/
def K (x : Extra) (s : State) (env : List (L × Val)) (polls : List (Option Input))
    (keys : Option Input) : St Io :=
  ⟨encMem x s, env, ⟨s.dev.trace, polls, keys⟩⟩

/-- The text that a function of a keymap file prints. -/
def printed (f : F) : Option (List Code) :=
  match body f with
  | some ⟨[], none, .expr (.call .asdf_print (.cons (.str t) .nil))⟩ => some t
  | _ => none

/-- The hook `h` of the model is the function pointer `v`. -/
def HookIs (h : HookFn) (v : Val) : Prop :=
  match h with
  | .nullPtr => v = .null
  | .null => v = .fn .asdf_hook_null_func
  | .archReadRow => v = .fn .asdf_arch_read_row
  | .archSendCode => v = .fn .asdf_arch_send_code
  | .keyscan => v = .fn .asdf_keyscan
  | .print t => ∃ f, v = .fn f ∧ printed f = some t ∧ t.contains 37 = false

/-- The sizes of the arrays, the ranges of the variables, and what `x` gives fits `s`. -/
structure Fits (x : Extra) (s : State) : Prop where
  pool : s.buf.pool.length = 144
  bufs : s.buf.bufs.length = 4
  bp : x.bp.length = 4
  avail : 0 ≤ s.buf.nextAvail ∧ s.buf.nextAvail ≤ 144
  handle : 0 ≤ s.buf.nextHandle ∧ s.buf.nextHandle ≤ 4
  size : ∀ d ∈ s.buf.bufs, 0 ≤ d.size ∧ d.size ≤ 144
  ptr : ∀ i : Nat, (i : Int) < s.buf.nextHandle → ∀ d, s.buf.bufs[i]? = some d →
    x.bp[i]? = some (.ptr .buffer_pool [.ix d.buf])
  noint : ∀ v ∈ x.bp, ∀ t n, v ≠ .int t n
  phys : s.dev.phys.length = 13
  next : ∀ e ∈ s.dev.phys, e.next < 256
  virt : s.dev.virt.length = 12
  vphys : ∀ e ∈ s.dev.virt, e.phys < 256
  nhooks : s.hooks.length = 16
  hk : x.hk.length = 16
  hooks : ∀ (i : Nat) h v, s.hooks[i]? = some h → x.hk[i]? = some v → HookIs h v
  maps : s.maps.length = 4
  stable : s.stable.length = 16
  counters : s.counters.length = 16
  row : ∀ r ∈ s.counters, r.length = 8
  kc : -1 ≤ s.kcBuf ∧ s.kcBuf ≤ 3
  msg : -1 ≤ s.msgBuf ∧ s.msgBuf ≤ 3

/-- What the C program does from reset, up to the moment when it polls the timer after the answers
`polls` are used up: the hardware effects in order, or `none` if the run has no meaning in C.
`w` bounds the turns of each loop, `n` the depth of calls. -/
def cEffects (w n : Nat) (polls : List (Option Input)) : Option (List Event) :=
  match run prog w n .main [] (start polls) with
  | .stop S => some S.io.trace
  | _ => none

/-- The C program accesses memory outside an object. -/
def cLeaves (w n : Nat) (polls : List (Option Input)) : Prop :=
  run prog w n .main [] (start polls) = .err .oob

/-- The key readings of the milliseconds that the timer reported. -/
def readings (polls : List (Option Input)) : List Input := polls.filterMap id

/-- The first `n` answers of the timer. -/
def firstPolls (f : Nat → Option Input) (n : Nat) : List (Option Input) := (List.range n).map f

end Asdf.C
