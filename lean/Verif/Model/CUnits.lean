import Verif.Model.CParse
import Verif.Model.CText
import Verif.Model.CTokens

/-! # The translation units of the firmware

Which files make up the firmware, what the system headers supply, and the file that CMake
generates. -/

namespace Asdf.C

/-! ## What the system headers supply -/

/-- The types of the language and of stdint.h and stdio.h: `uint8_t`, `int8_t`, `uint16_t`,
`int16_t`, `uint32_t`, `int32_t`, `char`, `int`, `FILE`. -/
def sysTypes : List (Name × CTy) :=
  [(0x75696E74385F74, .int .u8),
   (0x696E74385F74, .int .i8),
   (0x75696E7431365F74, .int .u16),
   (0x696E7431365F74, .int .i16),
   (0x75696E7433325F74, .int .u32),
   (0x696E7433325F74, .int .i32),
   (0x63686172, .int .i8),
   (0x696E74, .int .i16),
   (0x46494C45, .other)]

/-- The functions of avr-libc: `pgm_read_byte` (avr/pgmspace.h); in the hardware layer also
`cli`, `sei` (avr/interrupt.h), `_delay_us` and `_delay_ms` (util/delay.h). -/
def sysFuns (hw : Bool) : List (Name × F) :=
  bif hw then [(0x636C69, .cli), (0x736569, .sei), (0x5F64656C61795F7573, .delay_us), (0x5F64656C61795F6D73, .delay_ms)]
  else [(0x70676D5F726561645F62797465, .pgm_read_byte)]

/-- The macros of avr/io.h that the hardware layer uses: the bit numbers `CLKPCE`, `WGM01`, `CS00`,
`CS01`, `OCIE0A`; and `ISR(vector)` of avr/interrupt.h, which begins the definition of a
function without parameters and result. -/
def sysMacros (hw : Bool) : List (Name × Macro) :=
  bif hw then
    [(0x434C4B504345, ⟨none, [.num 7 false]⟩), (0x57474D3031, ⟨none, [.num 1 false]⟩),
     (0x43533030, ⟨none, [.num 0 false]⟩), (0x43533031, ⟨none, [.num 1 false]⟩),
     (0x4F4349453041, ⟨none, [.num 1 false]⟩),
     (0x495352, ⟨some [0x766563746F72],
       [.id kVoid, .id 0x766563746F72, .op 0x28, .id kVoid, .op 0x29]⟩)]
  else []

/-- The registers of the hardware layer (avr/io.h). -/
def sysRegs (hw : Bool) : List (Name × Glob) :=
  bif hw then (namesR.take 23).map fun e => (e.1, .var e.2) else []

/-- What is declared before the first line of a translation unit. -/
def sysCtx (hw : Bool) : Ctx :=
  ⟨hw, Trie.of sysTypes, .empty, Trie.of (sysRegs hw), Trie.of (sysFuns hw), []⟩

/-- Translate the tokens of a source file. -/
def compile (hw : Bool) (files : Name → Option (List Tok)) (ts : List Tok) : Option (List Item) :=
  unit 5000 (sysCtx hw) (prep files 100000 (Trie.of (sysMacros hw)) ts)

/-! ## The generated source file

`asdf_keymap_setup.c` is made from `asdf_keymap_setup.c.in` and `keymap_list.cmake`
(src/CMakeLists.txt:3-60). -/

/-- The part before a byte, and the part after it. -/
def splitAt (c : Nat) : List Nat → List Nat × List Nat
  | [] => ([], [])
  | d :: l =>
    bif Nat.beq c d then ([], l)
    else match splitAt c l with
      | (a, b) => (d :: a, b)

/-- The name and the number in an entry `<name:number>` of the list. -/
def mapEntry (l : List Nat) : List Nat × List Nat :=
  match splitAt 0x3A l with
  | (a, b) => (a.tail, b.dropLast)

/-- The entries of keymap_list.cmake:1-8: its strings. -/
def mapEntries : List Tok → List (List Nat × List Nat)
  | [] => []
  | .str l :: ts => mapEntry l :: mapEntries ts
  | _ :: ts => mapEntries ts

/-- ` void setup_<name>_keymap(void);` for every entry (src/CMakeLists.txt:19-25). -/
def declText : List (List Nat × List Nat) → List Nat
  | [] => []
  | e :: l => 10 :: lineBytes 300 0x20766F69642073657475705F [] ++ e.1 ++ lineBytes 300 0x5F6B65796D617028766F6964293B [] ++ declText l

/-- `    case <number>: setup_<name>_keymap();break;` for every entry (src/CMakeLists.txt:3-9). -/
def tableText : List (List Nat × List Nat) → List Nat
  | [] => []
  | e :: l => 10 :: lineBytes 300 0x202020206361736520 [] ++ e.2 ++ lineBytes 300 0x3A2073657475705F [] ++ e.1 ++ lineBytes 300 0x5F6B65796D617028293B627265616B3B [] ++ tableText l

/-- `    case <number>:;` for every entry (src/CMakeLists.txt:11-17). -/
def validText : List (List Nat × List Nat) → List Nat
  | [] => []
  | e :: l => 10 :: lineBytes 300 0x202020206361736520 [] ++ e.2 ++ lineBytes 300 0x3A3B [] ++ validText l

/-- `configure_file` (src/CMakeLists.txt:48): the values of the variables `keymap_declarations`,
`keymap_table` and `keymap_valid`. -/
def cmakeVar (e : List (List Nat × List Nat)) (x : Name) : List Nat :=
  bif Nat.beq x 0x6B65796D61705F6465636C61726174696F6E73 then declText e
  else bif Nat.beq x 0x6B65796D61705F7461626C65 then tableText e
  else bif Nat.beq x 0x6B65796D61705F76616C6964 then validText e
  else []

/-- Replace every `@name@`; `x` is the part of a name read so far. -/
def configure (e : List (List Nat × List Nat)) : Option Name → List Nat → List Nat
  | _, [] => []
  | none, c :: l => bif Nat.beq c 0x40 then configure e (some 0) l else c :: configure e none l
  | some x, c :: l =>
    bif Nat.beq c 0x40 then cmakeVar e x ++ configure e none l else configure e (some (x * 256 + c)) l

/-! ## The files -/

/-- The two controllers. -/
inductive Chip where
  | m328 | m2560
  deriving DecidableEq, Repr

/-- The headers, by the name after `#include`.  `asdf_keymap_setup.h` is a copy of
`asdf_keymap_setup.h.in` (src/CMakeLists.txt:49), `asdf_arch.h` is the header of the controller
(src/Arch/CMakeLists.txt). -/
def headerText (b : Chip) : List (Name × List Nat) :=
  [(0x617364665F617263682E68, match b with | .m328 => Text.asdf_arch_atmega328p_h | .m2560 => Text.asdf_arch_atmega2560_h),
   (0x617364662E68, Text.asdf_h),
   (0x617364665F61736369692E68, Text.asdf_ascii_h),
   (0x617364665F6275666665722E68, Text.asdf_buffer_h),
   (0x617364665F636F6E6669672E68, Text.asdf_config_h),
   (0x617364665F686F6F6B2E68, Text.asdf_hook_h),
   (0x617364665F6B65796D61705F73657475702E68, Text.asdf_keymap_setup_h_in),
   (0x617364665F6B65796D6170732E68, Text.asdf_keymaps_h),
   (0x617364665F6D6F646966696572732E68, Text.asdf_modifiers_h),
   (0x617364665F706879736963616C2E68, Text.asdf_physical_h),
   (0x617364665F7072696E742E68, Text.asdf_print_h),
   (0x617364665F7265706561742E68, Text.asdf_repeat_h),
   (0x617364665F7669727475616C2E68, Text.asdf_virtual_h),
   (0x617364665F6B65796D61705F646566735F6469707377697463682E68, Text.asdf_keymap_defs_dipswitch_h),
   (0x617364665F6B65796D61705F636C61737369632E68, Text.asdf_keymap_classic_h),
   (0x617364665F6B65796D61705F636C61737369635F6164645F6D61702E68, Text.asdf_keymap_classic_add_map_h),
   (0x617364665F6B65796D61705F6170706C65322E68, Text.asdf_keymap_apple2_h),
   (0x617364665F6B65796D61705F6170706C65325F636170732E68, Text.asdf_keymap_apple2_caps_h),
   (0x617364665F6B65796D61705F6170706C65325F6164645F6D61702E68, Text.asdf_keymap_apple2_add_map_h),
   (0x617364665F6B65796D61705F736F6C2E68, Text.asdf_keymap_sol_h),
   (0x617364665F6B65796D61705F616365313030302E68, Text.asdf_keymap_ace1000_h),
   (0x617364665F6B65796D61705F616365313030305F6164645F6D61702E68, Text.asdf_keymap_ace1000_add_map_h)]

/-- The tokens of the headers. -/
def headerToks (b : Chip) : List (Name × List Tok) :=
  [(0x617364665F617263682E68, match b with | .m328 => Tokens.asdf_arch_atmega328p_h | .m2560 => Tokens.asdf_arch_atmega2560_h),
   (0x617364662E68, Tokens.asdf_h),
   (0x617364665F61736369692E68, Tokens.asdf_ascii_h),
   (0x617364665F6275666665722E68, Tokens.asdf_buffer_h),
   (0x617364665F636F6E6669672E68, Tokens.asdf_config_h),
   (0x617364665F686F6F6B2E68, Tokens.asdf_hook_h),
   (0x617364665F6B65796D61705F73657475702E68, Tokens.asdf_keymap_setup_h_in),
   (0x617364665F6B65796D6170732E68, Tokens.asdf_keymaps_h),
   (0x617364665F6D6F646966696572732E68, Tokens.asdf_modifiers_h),
   (0x617364665F706879736963616C2E68, Tokens.asdf_physical_h),
   (0x617364665F7072696E742E68, Tokens.asdf_print_h),
   (0x617364665F7265706561742E68, Tokens.asdf_repeat_h),
   (0x617364665F7669727475616C2E68, Tokens.asdf_virtual_h),
   (0x617364665F6B65796D61705F646566735F6469707377697463682E68, Tokens.asdf_keymap_defs_dipswitch_h),
   (0x617364665F6B65796D61705F636C61737369632E68, Tokens.asdf_keymap_classic_h),
   (0x617364665F6B65796D61705F636C61737369635F6164645F6D61702E68, Tokens.asdf_keymap_classic_add_map_h),
   (0x617364665F6B65796D61705F6170706C65322E68, Tokens.asdf_keymap_apple2_h),
   (0x617364665F6B65796D61705F6170706C65325F636170732E68, Tokens.asdf_keymap_apple2_caps_h),
   (0x617364665F6B65796D61705F6170706C65325F6164645F6D61702E68, Tokens.asdf_keymap_apple2_add_map_h),
   (0x617364665F6B65796D61705F736F6C2E68, Tokens.asdf_keymap_sol_h),
   (0x617364665F6B65796D61705F616365313030302E68, Tokens.asdf_keymap_ace1000_h),
   (0x617364665F6B65796D61705F616365313030305F6164645F6D61702E68, Tokens.asdf_keymap_ace1000_add_map_h)]

/-- The tokens of a header. -/
def headersOf (b : Chip) (x : Name) : Option (List Tok) := assoc x (headerToks b)

/-- The text of `asdf_keymap_setup.c`. -/
def setupText : List Nat :=
  configure (mapEntries (lex (bytes Text.keymap_list_cmake))) none (bytes Text.asdf_keymap_setup_c_in)

end Asdf.C
