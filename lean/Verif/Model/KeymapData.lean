import Verif.Model.Basic

/-! # Key tables and messages of the shipped keymaps

Generated by `tools/gen_keymaps.py` from the C sources; do not edit.
Entries not mentioned in a C initialiser are zero, as in C. -/

namespace Asdf

/-- `CLASSIC_NUM_ROWS` (Keymaps/asdf_keymap_classic_add_map.c or its header). -/
def classicRows : UInt8 := 9

/-- `CLASSIC_NUM_COLS`. -/
def classicCols : UInt8 := 8

/-- `classic_plain_matrix` (Keymaps/asdf_keymap_classic_add_map.c:71-83), row-major. -/
def classicPlainMatrix : List Code := [
  0xA0, 0xA1, 0xA1, 0xA0, 0x1B, 0x09, 0xA5, 0x5C,  -- [0] ACTION_NOTHING ACTION_SHIFT ACTION_SHIFT ACTION_NOTHING ASCII_ESC ASCII_TAB ACTION_CTRL ASCII_BACKSLASH
  0x7F, 0x70, 0x3B, 0x2F, 0x20, 0x7A, 0x61, 0x71,  -- [1] ASCII_DEL 'p' ';' '/' ASCII_SPACE 'z' 'a' 'q'
  0xA0, 0x2C, 0x6D, 0x6E, 0x62, 0x76, 0x63, 0x78,  -- [2] CLASSIC_ACTION_BREAK ASCII_COMMA 'm' 'n' 'b' 'v' 'c' 'x'
  0xA0, 0x6B, 0x6A, 0x68, 0x67, 0x66, 0x64, 0x73,  -- [3] ACTION_NOTHING 'k' 'j' 'h' 'g' 'f' 'd' 's'
  0xA0, 0x69, 0x75, 0x79, 0x74, 0x72, 0x65, 0x77,  -- [4] ACTION_NOTHING 'i' 'u' 'y' 't' 'r' 'e' 'w'
  0xA0, 0xA6, 0xA4, 0x0D, 0x0A, 0x6F, 0x6C, 0x2E,  -- [5] ACTION_NOTHING ACTION_REPEAT ACTION_CAPS ASCII_CR ASCII_LF 'o' 'l' ASCII_PERIOD
  0x7E, 0x5D, 0x5B, 0x2D, 0x3A, 0x30, 0x39, 0x38,  -- [6] ASCII_TILDE ASCII_RT_SQUARE_BRACE ASCII_LT_SQUARE_BRACE '-' ':' ASCII_ZERO '9' '8'
  0x40, 0x37, 0x36, 0x35, 0x34, 0x33, 0x32, 0x31,  -- [7] ASCII_AT '7' '6' '5' '4' '3' '2' '1'
  0xA8, 0xA9, 0xAA, 0xAB, 0x00, 0xC1, 0xAD, 0xAC ]  -- [8] ACTION_MAPSEL_0 ACTION_MAPSEL_1 ACTION_MAPSEL_2 ACTION_MAPSEL_3 0 ACTION_FN_11 ACTION_STROBE_POLARITY_SELECT ACTION_AUTOREPEAT_SELECT

/-- `classic_shift_matrix` (Keymaps/asdf_keymap_classic_add_map.c:85-97), row-major. -/
def classicShiftMatrix : List Code := [
  0xA0, 0xA1, 0xA1, 0xA0, 0x1B, 0x09, 0xA5, 0x7C,  -- [0] ACTION_NOTHING ACTION_SHIFT ACTION_SHIFT ACTION_NOTHING ASCII_ESC ASCII_TAB ACTION_CTRL ASCII_VERT_BAR
  0x7F, 0x50, 0x2B, 0x3F, 0x20, 0x5A, 0x41, 0x51,  -- [1] ASCII_DEL 'P' '+' '?' ASCII_SPACE 'Z' 'A' 'Q'
  0xB2, 0x3C, 0x4D, 0x4E, 0x42, 0x56, 0x43, 0x58,  -- [2] CLASSIC_ACTION_CLEAR '<' 'M' 'N' 'B' 'V' 'C' 'X'
  0xA0, 0x4B, 0x4A, 0x48, 0x47, 0x46, 0x44, 0x53,  -- [3] ACTION_NOTHING 'K' 'J' 'H' 'G' 'F' 'D' 'S'
  0xA0, 0x49, 0x55, 0x59, 0x54, 0x52, 0x45, 0x57,  -- [4] ACTION_NOTHING 'I' 'U' 'Y' 'T' 'R' 'E' 'W'
  0xA0, 0xA6, 0xA4, 0x0D, 0x0A, 0x4F, 0x4C, 0x3E,  -- [5] ACTION_NOTHING ACTION_REPEAT ACTION_CAPS ASCII_CR ASCII_LF 'O' 'L' '>'
  0x7E, 0x7D, 0x7B, 0x3D, 0x2A, 0x30, 0x29, 0x28,  -- [6] ASCII_TILDE ASCII_RT_CURLY_BRACE ASCII_LT_CURLY_BRACE '=' '*' ASCII_ZERO ASCII_RT_PAREN ASCII_LT_PAREN
  0x60, 0x27, 0x26, 0x25, 0x24, 0x23, 0x22, 0x21,  -- [7] ASCII_GRAVE_ACCENT ASCII_SINGLE_QUOTE '&' '%' '$' '#' ASCII_DOUBLE_QUOTE '!'
  0xA8, 0xA9, 0xAA, 0xAB, 0x00, 0xC1, 0xAD, 0xAC ]  -- [8] ACTION_MAPSEL_0 ACTION_MAPSEL_1 ACTION_MAPSEL_2 ACTION_MAPSEL_3 0 ACTION_FN_11 ACTION_STROBE_POLARITY_SELECT ACTION_AUTOREPEAT_SELECT

/-- `classic_caps_matrix` (Keymaps/asdf_keymap_classic_add_map.c:99-111), row-major. -/
def classicCapsMatrix : List Code := [
  0xA0, 0xA1, 0xA1, 0xA0, 0x1B, 0x09, 0xA5, 0x5C,  -- [0] ACTION_NOTHING ACTION_SHIFT ACTION_SHIFT ACTION_NOTHING ASCII_ESC ASCII_TAB ACTION_CTRL ASCII_BACKSLASH
  0x7F, 0x50, 0x3B, 0x2F, 0x20, 0x5A, 0x41, 0x51,  -- [1] ASCII_DEL 'P' ';' '/' ASCII_SPACE 'Z' 'A' 'Q'
  0xA0, 0x2C, 0x4D, 0x4E, 0x42, 0x56, 0x43, 0x58,  -- [2] CLASSIC_ACTION_BREAK ASCII_COMMA 'M' 'N' 'B' 'V' 'C' 'X'
  0xA0, 0x4B, 0x4A, 0x48, 0x47, 0x46, 0x44, 0x53,  -- [3] ACTION_NOTHING 'K' 'J' 'H' 'G' 'F' 'D' 'S'
  0xA0, 0x49, 0x55, 0x59, 0x54, 0x52, 0x45, 0x57,  -- [4] ACTION_NOTHING 'I' 'U' 'Y' 'T' 'R' 'E' 'W'
  0xA0, 0xA6, 0xA4, 0x0D, 0x0A, 0x4F, 0x4C, 0x2E,  -- [5] ACTION_NOTHING ACTION_REPEAT ACTION_CAPS ASCII_CR ASCII_LF 'O' 'L' ASCII_PERIOD
  0x7E, 0x5D, 0x5B, 0x2D, 0x3A, 0x30, 0x39, 0x38,  -- [6] ASCII_TILDE ASCII_RT_SQUARE_BRACE ASCII_LT_SQUARE_BRACE '-' ':' ASCII_ZERO '9' '8'
  0x40, 0x37, 0x36, 0x35, 0x34, 0x33, 0x32, 0x31,  -- [7] ASCII_AT '7' '6' '5' '4' '3' '2' '1'
  0xA8, 0xA9, 0xAA, 0xAB, 0x00, 0xC1, 0xAD, 0xAC ]  -- [8] ACTION_MAPSEL_0 ACTION_MAPSEL_1 ACTION_MAPSEL_2 ACTION_MAPSEL_3 0 ACTION_FN_11 ACTION_STROBE_POLARITY_SELECT ACTION_AUTOREPEAT_SELECT

/-- `classic_ctrl_matrix` (Keymaps/asdf_keymap_classic_add_map.c:113-131), row-major. -/
def classicCtrlMatrix : List Code := [
  0xA0, 0xA1, 0xA1, 0xA0, 0x1B, 0x09, 0xA5, 0x1C,  -- [0] ACTION_NOTHING ACTION_SHIFT ACTION_SHIFT ACTION_NOTHING ASCII_ESC ASCII_TAB ACTION_CTRL 0x1c
  0xA0, 0x10, 0xA0, 0xA0, 0x20, 0x1A, 0x01, 0x11,  -- [1] ACTION_NOTHING ASCII_CTRL_P ACTION_NOTHING ACTION_NOTHING ASCII_SPACE ASCII_CTRL_Z ASCII_CTRL_A ASCII_CTRL_Q
  0xB1, 0x2C, 0x0D, 0x0E, 0x02, 0x16, 0x03, 0x18,  -- [2] CLASSIC_ACTION_RESET ASCII_COMMA ASCII_CTRL_M ASCII_CTRL_N ASCII_CTRL_B ASCII_CTRL_V ASCII_CTRL_C ASCII_CTRL_X
  0xA0, 0x0B, 0x0A, 0x08, 0x07, 0x06, 0x04, 0x13,  -- [3] ACTION_NOTHING ASCII_CTRL_K ASCII_CTRL_J ASCII_CTRL_H ASCII_CTRL_G ASCII_CTRL_F ASCII_CTRL_D ASCII_CTRL_S
  0xA0, 0x09, 0x15, 0x19, 0x14, 0x12, 0x05, 0x17,  -- [4] ACTION_NOTHING ASCII_CTRL_I ASCII_CTRL_U ASCII_CTRL_Y ASCII_CTRL_T ASCII_CTRL_R ASCII_CTRL_E ASCII_CTRL_W
  0xA0, 0xA6, 0xA4, 0x0D, 0x0A, 0x0F, 0x0C, 0xA0,  -- [5] ACTION_NOTHING ACTION_REPEAT ACTION_CAPS ASCII_CR ASCII_LF ASCII_CTRL_O ASCII_CTRL_L ACTION_NOTHING
  0xA0, 0x1D, 0x1B, 0xA0, 0xA0, 0xC0, 0xBF, 0xBE,  -- [6] ACTION_NOTHING 0x1d ASCII_ESC ACTION_NOTHING ACTION_NOTHING ACTION_FN_10 ACTION_FN_9 ACTION_FN_8
  0x00, 0xBD, 0xBC, 0xBB, 0xBA, 0xB9, 0xB8, 0xB7,  -- [7] ASCII_NULL ACTION_FN_7 ACTION_FN_6 ACTION_FN_5 ACTION_FN_4 ACTION_FN_3 ACTION_FN_2 ACTION_FN_1
  0xA8, 0xA9, 0xAA, 0xAB, 0x00, 0xC1, 0xAD, 0xAC ]  -- [8] ACTION_MAPSEL_0 ACTION_MAPSEL_1 ACTION_MAPSEL_2 ACTION_MAPSEL_3 0 ACTION_FN_11 ACTION_STROBE_POLARITY_SELECT ACTION_AUTOREPEAT_SELECT

/-- `ASDF_APPLE2_NUM_ROWS` (Keymaps/asdf_keymap_apple2_add_map.c or its header). -/
def appleRows : UInt8 := 9

/-- `ASDF_APPLE2_NUM_COLS`. -/
def appleCols : UInt8 := 8

/-- `apple_plain_matrix` (Keymaps/asdf_keymap_apple2_add_map.c:69-80), row-major. -/
def applePlainMatrix : List Code := [
  0xA4, 0xA1, 0xA1, 0xA0, 0xA0, 0x1B, 0xA5, 0x15,  -- [0] ACTION_CAPS ACTION_SHIFT ACTION_SHIFT ACTION_NOTHING ACTION_NOTHING ASCII_ESC ACTION_CTRL APPLE_RIGHT_ARROW
  0x7F, 0x70, 0x3B, 0x2F, 0x20, 0x7A, 0x61, 0x71,  -- [1] ASCII_DEL 'p' ';' '/' ASCII_SPACE 'z' 'a' 'q'
  0xA0, 0x2C, 0x6D, 0x6E, 0x62, 0x76, 0x63, 0x78,  -- [2] ACTION_NOTHING ASCII_COMMA 'm' 'n' 'b' 'v' 'c' 'x'
  0xA0, 0x6B, 0x6A, 0x68, 0x67, 0x66, 0x64, 0x73,  -- [3] ACTION_NOTHING 'k' 'j' 'h' 'g' 'f' 'd' 's'
  0xA0, 0x69, 0x75, 0x79, 0x74, 0x72, 0x65, 0x77,  -- [4] ACTION_NOTHING 'i' 'u' 'y' 't' 'r' 'e' 'w'
  0xA0, 0xA0, 0xA0, 0x0D, 0x5E, 0x6F, 0x6C, 0x2E,  -- [5] ACTION_NOTHING ACTION_NOTHING ACTION_NOTHING ASCII_CR '^' 'o' 'l' ASCII_PERIOD
  0xA0, 0xA0, 0xA0, 0x2D, 0x3A, 0x30, 0x39, 0x38,  -- [6] ACTION_NOTHING ACTION_NOTHING ACTION_NOTHING '-' ':' ASCII_ZERO '9' '8'
  0x08, 0x37, 0x36, 0x35, 0x34, 0x33, 0x32, 0x31,  -- [7] APPLE_LEFT_ARROW '7' '6' '5' '4' '3' '2' '1'
  0xA8, 0xA9, 0xAA, 0xAB, 0x00, 0xC1, 0xAD, 0xAC ]  -- [8] ACTION_MAPSEL_0 ACTION_MAPSEL_1 ACTION_MAPSEL_2 ACTION_MAPSEL_3 0 ACTION_FN_11 ACTION_STROBE_POLARITY_SELECT ACTION_AUTOREPEAT_SELECT

/-- `apple_shift_matrix` (Keymaps/asdf_keymap_apple2_add_map.c:82-94), row-major. -/
def appleShiftMatrix : List Code := [
  0xA4, 0xA1, 0xA1, 0xA0, 0xA0, 0x1B, 0xA5, 0x15,  -- [0] ACTION_CAPS ACTION_SHIFT ACTION_SHIFT ACTION_NOTHING ACTION_NOTHING ASCII_ESC ACTION_CTRL APPLE_RIGHT_ARROW
  0xA0, 0x50, 0x2B, 0x3F, 0x20, 0x5A, 0x41, 0x51,  -- [1] ACTION_NOTHING 'P' '+' '?' ASCII_SPACE 'Z' 'A' 'Q'
  0xA0, 0x3C, 0x4D, 0x4E, 0x42, 0x56, 0x43, 0x58,  -- [2] ACTION_NOTHING '<' 'M' 'N' 'B' 'V' 'C' 'X'
  0xA0, 0x4B, 0x4A, 0x48, 0x47, 0x46, 0x44, 0x53,  -- [3] ACTION_NOTHING 'K' 'J' 'H' 'G' 'F' 'D' 'S'
  0xA0, 0x49, 0x55, 0x59, 0x54, 0x52, 0x45, 0x57,  -- [4] ACTION_NOTHING 'I' 'U' 'Y' 'T' 'R' 'E' 'W'
  0xA0, 0xA0, 0xA0, 0x0D, 0x40, 0x4F, 0x4C, 0x3E,  -- [5] ACTION_NOTHING ACTION_NOTHING ACTION_NOTHING ASCII_CR ASCII_AT 'O' 'L' '>'
  0xA0, 0xA0, 0xB2, 0x3D, 0x2A, 0x40, 0x29, 0x28,  -- [6] ACTION_NOTHING ACTION_NOTHING APPLE_ACTION_CLEAR '=' '*' ASCII_AT ASCII_RT_PAREN ASCII_LT_PAREN
  0x08, 0x27, 0x26, 0x25, 0x24, 0x23, 0x22, 0x21,  -- [7] APPLE_LEFT_ARROW ASCII_SINGLE_QUOTE '&' '%' '$' '#' ASCII_DOUBLE_QUOTE '!'
  0xA8, 0xA9, 0xAA, 0xAB, 0x00, 0xC1, 0xAD, 0xAC ]  -- [8] ACTION_MAPSEL_0 ACTION_MAPSEL_1 ACTION_MAPSEL_2 ACTION_MAPSEL_3 0 ACTION_FN_11 ACTION_STROBE_POLARITY_SELECT ACTION_AUTOREPEAT_SELECT

/-- `apple_caps_shift_matrix` (Keymaps/asdf_keymap_apple2_add_map.c:96-108), row-major. -/
def appleCapsShiftMatrix : List Code := [
  0xA4, 0xA1, 0xA1, 0xA0, 0xA0, 0x1B, 0xA5, 0x15,  -- [0] ACTION_CAPS ACTION_SHIFT ACTION_SHIFT ACTION_NOTHING ACTION_NOTHING ASCII_ESC ACTION_CTRL APPLE_RIGHT_ARROW
  0xA0, 0x40, 0x2B, 0x3F, 0x20, 0x5A, 0x41, 0x51,  -- [1] ACTION_NOTHING ASCII_AT '+' '?' ASCII_SPACE 'Z' 'A' 'Q'
  0xA0, 0x3C, 0x4D, 0x5E, 0x42, 0x56, 0x43, 0x58,  -- [2] ACTION_NOTHING '<' 'M' '^' 'B' 'V' 'C' 'X'
  0xA0, 0x4B, 0x4A, 0x48, 0x47, 0x46, 0x44, 0x53,  -- [3] ACTION_NOTHING 'K' 'J' 'H' 'G' 'F' 'D' 'S'
  0xA0, 0x49, 0x55, 0x59, 0x54, 0x52, 0x45, 0x57,  -- [4] ACTION_NOTHING 'I' 'U' 'Y' 'T' 'R' 'E' 'W'
  0xA0, 0xA0, 0xA0, 0x0D, 0xA6, 0x4F, 0x4C, 0x3E,  -- [5] ACTION_NOTHING ACTION_NOTHING ACTION_NOTHING ASCII_CR ACTION_REPEAT 'O' 'L' '>'
  0xA0, 0xA0, 0xB2, 0x3D, 0x2A, 0xA0, 0x29, 0x28,  -- [6] ACTION_NOTHING ACTION_NOTHING APPLE_ACTION_CLEAR '=' '*' ACTION_NOTHING ASCII_RT_PAREN ASCII_LT_PAREN
  0x08, 0x27, 0x26, 0x25, 0x24, 0x23, 0x22, 0x21,  -- [7] APPLE_LEFT_ARROW ASCII_SINGLE_QUOTE '&' '%' '$' '#' ASCII_DOUBLE_QUOTE '!'
  0xA8, 0xA9, 0xAA, 0xAB, 0x00, 0xC1, 0xAD, 0xAC ]  -- [8] ACTION_MAPSEL_0 ACTION_MAPSEL_1 ACTION_MAPSEL_2 ACTION_MAPSEL_3 0 ACTION_FN_11 ACTION_STROBE_POLARITY_SELECT ACTION_AUTOREPEAT_SELECT

/-- `apple_caps_matrix` (Keymaps/asdf_keymap_apple2_add_map.c:110-121), row-major. -/
def appleCapsMatrix : List Code := [
  0xA4, 0xA1, 0xA1, 0xA0, 0xA0, 0x1B, 0xA5, 0x15,  -- [0] ACTION_CAPS ACTION_SHIFT ACTION_SHIFT ACTION_NOTHING ACTION_NOTHING ASCII_ESC ACTION_CTRL APPLE_RIGHT_ARROW
  0xA0, 0x50, 0x3B, 0x2F, 0x20, 0x5A, 0x41, 0x51,  -- [1] ACTION_NOTHING 'P' ';' '/' ASCII_SPACE 'Z' 'A' 'Q'
  0xA0, 0x2C, 0x4D, 0x4E, 0x42, 0x56, 0x43, 0x58,  -- [2] ACTION_NOTHING ASCII_COMMA 'M' 'N' 'B' 'V' 'C' 'X'
  0xA0, 0x4B, 0x4A, 0x48, 0x47, 0x46, 0x44, 0x53,  -- [3] ACTION_NOTHING 'K' 'J' 'H' 'G' 'F' 'D' 'S'
  0xA0, 0x49, 0x55, 0x59, 0x54, 0x52, 0x45, 0x57,  -- [4] ACTION_NOTHING 'I' 'U' 'Y' 'T' 'R' 'E' 'W'
  0xA0, 0xA0, 0xA0, 0x0D, 0xA6, 0x4F, 0x4C, 0x2E,  -- [5] ACTION_NOTHING ACTION_NOTHING ACTION_NOTHING ASCII_CR ACTION_REPEAT 'O' 'L' ASCII_PERIOD
  0xA0, 0xA0, 0xA0, 0x2D, 0x3A, 0x30, 0x39, 0x38,  -- [6] ACTION_NOTHING ACTION_NOTHING ACTION_NOTHING '-' ':' ASCII_ZERO '9' '8'
  0x08, 0x37, 0x36, 0x35, 0x34, 0x33, 0x32, 0x31,  -- [7] APPLE_LEFT_ARROW '7' '6' '5' '4' '3' '2' '1'
  0xA8, 0xA9, 0xAA, 0xAB, 0x00, 0xC1, 0xAD, 0xAC ]  -- [8] ACTION_MAPSEL_0 ACTION_MAPSEL_1 ACTION_MAPSEL_2 ACTION_MAPSEL_3 0 ACTION_FN_11 ACTION_STROBE_POLARITY_SELECT ACTION_AUTOREPEAT_SELECT

/-- `apple_ctrl_matrix` (Keymaps/asdf_keymap_apple2_add_map.c:123-141), row-major. -/
def appleCtrlMatrix : List Code := [
  0xA4, 0xA1, 0xA1, 0xA0, 0xA0, 0x1B, 0xA5, 0x15,  -- [0] ACTION_CAPS ACTION_SHIFT ACTION_SHIFT ACTION_NOTHING ACTION_NOTHING ASCII_ESC ACTION_CTRL APPLE_RIGHT_ARROW
  0xA0, 0x10, 0xA0, 0x5C, 0x20, 0x1A, 0x01, 0x11,  -- [1] ACTION_NOTHING ASCII_CTRL_P ACTION_NOTHING ASCII_BACKSLASH ASCII_SPACE ASCII_CTRL_Z ASCII_CTRL_A ASCII_CTRL_Q
  0xA0, 0x5B, 0x0D, 0x0E, 0x02, 0x16, 0x03, 0x18,  -- [2] ACTION_NOTHING ASCII_LT_SQUARE_BRACE ASCII_CTRL_M ASCII_CTRL_N ASCII_CTRL_B ASCII_CTRL_V ASCII_CTRL_C ASCII_CTRL_X
  0xA0, 0x0B, 0x0A, 0x08, 0x07, 0x06, 0x04, 0x13,  -- [3] ACTION_NOTHING ASCII_CTRL_K ASCII_CTRL_J ASCII_CTRL_H ASCII_CTRL_G ASCII_CTRL_F ASCII_CTRL_D ASCII_CTRL_S
  0xA0, 0x09, 0x15, 0x19, 0x14, 0x12, 0x05, 0x17,  -- [4] ACTION_NOTHING ASCII_CTRL_I ASCII_CTRL_U ASCII_CTRL_Y ASCII_CTRL_T ASCII_CTRL_R ASCII_CTRL_E ASCII_CTRL_W
  0xA0, 0xA0, 0xA0, 0x0D, 0xA6, 0x0F, 0x0C, 0x5D,  -- [5] ACTION_NOTHING ACTION_NOTHING ACTION_NOTHING ASCII_CR ACTION_REPEAT ASCII_CTRL_O ASCII_CTRL_L ASCII_RT_SQUARE_BRACE
  0xA0, 0xA0, 0xB1, 0x5F, 0xA0, 0xC0, 0x7D, 0x7B,  -- [6] ACTION_NOTHING ACTION_NOTHING APPLE_ACTION_RESET ASCII_UNDERSCORE ACTION_NOTHING ACTION_FN_10 ASCII_RT_CURLY_BRACE ASCII_LT_CURLY_BRACE
  0x7F, 0x60, 0x5E, 0xBB, 0xBA, 0xB9, 0x7E, 0x7C,  -- [7] ASCII_DEL ASCII_GRAVE_ACCENT ASCII_CARET ACTION_FN_5 ACTION_FN_4 ACTION_FN_3 ASCII_TILDE ASCII_VERT_BAR
  0xA8, 0xA9, 0xAA, 0xAB, 0x00, 0xC1, 0xAD, 0xAC ]  -- [8] ACTION_MAPSEL_0 ACTION_MAPSEL_1 ACTION_MAPSEL_2 ACTION_MAPSEL_3 0 ACTION_FN_11 ACTION_STROBE_POLARITY_SELECT ACTION_AUTOREPEAT_SELECT

/-- `ASDF_SOL_NUM_ROWS` (Keymaps/asdf_keymap_sol.c or its header). -/
def solRows : UInt8 := 13

/-- `ASDF_SOL_NUM_COLS`. -/
def solCols : UInt8 := 8

/-- `sol_plain_map` (Keymaps/asdf_keymap_sol.c:38-56), row-major. -/
def solPlainMap : List Code := [
  0xA5, 0xA2, 0x61, 0x73, 0x64, 0x66, 0x67, 0x68,  -- [0] ACTION_CTRL SOL_KBD_SHIFTLOCK_ACTION 'a' 's' 'd' 'f' 'g' 'h'
  0x6A, 0x6B, 0x6C, 0x3B, 0x3A, 0x7F, 0xA6, 0xA5,  -- [1] 'j' 'k' 'l' ';' ':' ASCII_DEL ACTION_REPEAT ACTION_CTRL
  0xA4, 0xA1, 0x7A, 0x78, 0x63, 0x76, 0x62, 0x6E,  -- [2] ACTION_CAPS ACTION_SHIFT 'z' 'x' 'c' 'v' 'b' 'n'
  0x6D, 0x2C, 0x2E, 0x2F, 0xA1, 0x80, 0xA0, 0xA0,  -- [3] 'm' ASCII_COMMA ASCII_PERIOD '/' ACTION_SHIFT SOL_ASCII_MODE_SELECT ACTION_NOTHING ACTION_NOTHING
  0x1B, 0x31, 0x32, 0x33, 0x34, 0x35, 0x36, 0x37,  -- [4] ASCII_ESC '1' '2' '3' '4' '5' '6' '7'
  0x38, 0x39, 0x30, 0x2D, 0x5E, 0x5B, 0x5C, 0x5D,  -- [5] '8' '9' ASCII_ZERO '-' '^' ASCII_LT_SQUARE_BRACE ASCII_BACKSLASH ASCII_RT_SQUARE_BRACE
  0xB2, 0x09, 0x71, 0x77, 0x65, 0x72, 0x74, 0x79,  -- [6] SOL_KBD_BREAK_ACTION ASCII_TAB 'q' 'w' 'e' 'r' 't' 'y'
  0x75, 0x69, 0x6F, 0x70, 0x40, 0x0D, 0x0A, 0x8C,  -- [7] 'u' 'i' 'o' 'p' ASCII_AT ASCII_CR ASCII_LF SOL_ASCII_LOAD
  0xA8, 0xA9, 0xAA, 0xAB, 0x00, 0xC1, 0xAD, 0xAC,  -- [8] ACTION_MAPSEL_0 ACTION_MAPSEL_1 ACTION_MAPSEL_2 ACTION_MAPSEL_3 0 ACTION_FN_11 ACTION_STROBE_POLARITY_SELECT ACTION_AUTOREPEAT_SELECT
  0xB3, 0x97, 0x81, 0x20, 0x93, 0x9A, 0x8E, 0x8B,  -- [9] SOL_KBD_LOCAL_ACTION SOL_ASCII_UP_ARROW SOL_ASCII_LT_ARROW ASCII_SPACE SOL_ASCII_RT_ARROW SOL_ASCII_DN_ARROW SOL_ASCII_HOME SOL_ASCII_CLEAR
  0x2D, 0x37, 0x2A, 0x38, 0x2F, 0x39, 0xA0, 0xA0,  -- [10] '-' '7' '*' '8' '/' '9' ACTION_NOTHING ACTION_NOTHING
  0x34, 0x31, 0x35, 0x32, 0x36, 0x33, 0xA0, 0xA0,  -- [11] '4' '1' '5' '2' '6' '3' ACTION_NOTHING ACTION_NOTHING
  0x30, 0x2E, 0x2B, 0xA0, 0xA0, 0xA0, 0xA0, 0xA0 ]  -- [12] '0' ASCII_PERIOD '+' ACTION_NOTHING ACTION_NOTHING ACTION_NOTHING ACTION_NOTHING ACTION_NOTHING

/-- `sol_caps_map` (Keymaps/asdf_keymap_sol.c:58-76), row-major. -/
def solCapsMap : List Code := [
  0xA5, 0xA2, 0x41, 0x53, 0x44, 0x46, 0x47, 0x48,  -- [0] ACTION_CTRL SOL_KBD_SHIFTLOCK_ACTION 'A' 'S' 'D' 'F' 'G' 'H'
  0x4A, 0x4B, 0x4C, 0x3B, 0x3A, 0x7F, 0xA6, 0xA5,  -- [1] 'J' 'K' 'L' ';' ':' ASCII_DEL ACTION_REPEAT ACTION_CTRL
  0xA4, 0xA1, 0x5A, 0x58, 0x43, 0x56, 0x42, 0x4E,  -- [2] ACTION_CAPS ACTION_SHIFT 'Z' 'X' 'C' 'V' 'B' 'N'
  0x4D, 0x2C, 0x2E, 0x2F, 0xA1, 0x80, 0xA0, 0xA0,  -- [3] 'M' ASCII_COMMA ASCII_PERIOD '/' ACTION_SHIFT SOL_ASCII_MODE_SELECT ACTION_NOTHING ACTION_NOTHING
  0x1B, 0x31, 0x32, 0x33, 0x34, 0x35, 0x36, 0x37,  -- [4] ASCII_ESC '1' '2' '3' '4' '5' '6' '7'
  0x38, 0x39, 0x30, 0x2D, 0x5E, 0x5B, 0x5C, 0x5D,  -- [5] '8' '9' ASCII_ZERO '-' '^' ASCII_LT_SQUARE_BRACE ASCII_BACKSLASH ASCII_RT_SQUARE_BRACE
  0xB2, 0x09, 0x51, 0x57, 0x45, 0x52, 0x54, 0x59,  -- [6] SOL_KBD_BREAK_ACTION ASCII_TAB 'Q' 'W' 'E' 'R' 'T' 'Y'
  0x55, 0x49, 0x4F, 0x50, 0x40, 0x0D, 0x0A, 0x8C,  -- [7] 'U' 'I' 'O' 'P' ASCII_AT ASCII_CR ASCII_LF SOL_ASCII_LOAD
  0xA8, 0xA9, 0xAA, 0xAB, 0x00, 0xC1, 0xAD, 0xAC,  -- [8] ACTION_MAPSEL_0 ACTION_MAPSEL_1 ACTION_MAPSEL_2 ACTION_MAPSEL_3 0 ACTION_FN_11 ACTION_STROBE_POLARITY_SELECT ACTION_AUTOREPEAT_SELECT
  0xB3, 0x97, 0x81, 0x20, 0x93, 0x9A, 0x8E, 0x8B,  -- [9] SOL_KBD_LOCAL_ACTION SOL_ASCII_UP_ARROW SOL_ASCII_LT_ARROW ASCII_SPACE SOL_ASCII_RT_ARROW SOL_ASCII_DN_ARROW SOL_ASCII_HOME SOL_ASCII_CLEAR
  0x2D, 0x37, 0x2A, 0x38, 0x2F, 0x39, 0xA0, 0xA0,  -- [10] '-' '7' '*' '8' '/' '9' ACTION_NOTHING ACTION_NOTHING
  0x34, 0x31, 0x35, 0x32, 0x36, 0x33, 0xA0, 0xA0,  -- [11] '4' '1' '5' '2' '6' '3' ACTION_NOTHING ACTION_NOTHING
  0x30, 0x2E, 0x2B, 0xA0, 0xA0, 0xA0, 0xA0, 0xA0 ]  -- [12] '0' ASCII_PERIOD '+' ACTION_NOTHING ACTION_NOTHING ACTION_NOTHING ACTION_NOTHING ACTION_NOTHING

/-- `sol_shift_map` (Keymaps/asdf_keymap_sol.c:79-96), row-major. -/
def solShiftMap : List Code := [
  0xA5, 0xA2, 0x41, 0x53, 0x44, 0x46, 0x47, 0x48,  -- [0] ACTION_CTRL SOL_KBD_SHIFTLOCK_ACTION 'A' 'S' 'D' 'F' 'G' 'H'
  0x4A, 0x4B, 0x4C, 0x3B, 0x3A, 0x5F, 0xA6, 0xA5,  -- [1] 'J' 'K' 'L' ';' ':' ASCII_UNDERSCORE ACTION_REPEAT ACTION_CTRL
  0xA4, 0xA1, 0x5A, 0x58, 0x43, 0x56, 0x42, 0x4E,  -- [2] ACTION_CAPS ACTION_SHIFT 'Z' 'X' 'C' 'V' 'B' 'N'
  0x4D, 0x3C, 0x3E, 0x3F, 0xA1, 0x80, 0xA0, 0xA0,  -- [3] 'M' '<' '>' '?' ACTION_SHIFT SOL_ASCII_MODE_SELECT ACTION_NOTHING ACTION_NOTHING
  0x1B, 0x21, 0x22, 0x23, 0x24, 0x25, 0x26, 0x27,  -- [4] ASCII_ESC '!' ASCII_DOUBLE_QUOTE '#' '$' '%' '&' ASCII_SINGLE_QUOTE
  0x28, 0x29, 0x20, 0x3D, 0x7E, 0x5B, 0x5C, 0x5D,  -- [5] ASCII_LT_PAREN ASCII_RT_PAREN ASCII_SPACE '=' ASCII_TILDE ASCII_LT_SQUARE_BRACE ASCII_BACKSLASH ASCII_RT_SQUARE_BRACE
  0xB2, 0x09, 0x51, 0x57, 0x45, 0x52, 0x54, 0x59,  -- [6] SOL_KBD_BREAK_ACTION ASCII_TAB 'Q' 'W' 'E' 'R' 'T' 'Y'
  0x55, 0x49, 0x4F, 0x50, 0x60, 0x0D, 0x0A, 0x8C,  -- [7] 'U' 'I' 'O' 'P' ASCII_GRAVE_ACCENT ASCII_CR ASCII_LF SOL_ASCII_LOAD
  0xA8, 0xA9, 0xAA, 0xAB, 0x00, 0xC1, 0xAD, 0xAC,  -- [8] ACTION_MAPSEL_0 ACTION_MAPSEL_1 ACTION_MAPSEL_2 ACTION_MAPSEL_3 0 ACTION_FN_11 ACTION_STROBE_POLARITY_SELECT ACTION_AUTOREPEAT_SELECT
  0xB3, 0x97, 0x81, 0x20, 0x93, 0x9A, 0x8E, 0x8B,  -- [9] SOL_KBD_LOCAL_ACTION SOL_ASCII_UP_ARROW SOL_ASCII_LT_ARROW ASCII_SPACE SOL_ASCII_RT_ARROW SOL_ASCII_DN_ARROW SOL_ASCII_HOME SOL_ASCII_CLEAR
  0x2D, 0x37, 0x2A, 0x38, 0x2F, 0x39, 0xA0, 0xA0,  -- [10] '-' '7' '*' '8' '/' '9' ACTION_NOTHING ACTION_NOTHING
  0x34, 0x31, 0x35, 0x32, 0x36, 0x33, 0xA0, 0xA0,  -- [11] '4' '1' '5' '2' '6' '3' ACTION_NOTHING ACTION_NOTHING
  0x30, 0x2E, 0x2B, 0xA0, 0xA0, 0xA0, 0xA0, 0xA0 ]  -- [12] '0' ASCII_PERIOD '+' ACTION_NOTHING ACTION_NOTHING ACTION_NOTHING ACTION_NOTHING ACTION_NOTHING

/-- `sol_ctrl_map` (Keymaps/asdf_keymap_sol.c:99-121), row-major. -/
def solCtrlMap : List Code := [
  0xA5, 0xA2, 0x01, 0x13, 0x04, 0x06, 0x07, 0x08,  -- [0] ACTION_CTRL SOL_KBD_SHIFTLOCK_ACTION ASCII_CTRL_A ASCII_CTRL_S ASCII_CTRL_D ASCII_CTRL_F ASCII_CTRL_G ASCII_CTRL_H
  0x0A, 0x0B, 0x0C, 0x0B, 0x0A, 0x7F, 0xB1, 0xA5,  -- [1] ASCII_CTRL_J ASCII_CTRL_K ASCII_CTRL_L ASCII_VT ASCII_LF ASCII_DEL SOL_KBD_RESET_ACTION ACTION_CTRL
  0xA4, 0xA1, 0x1A, 0x18, 0x03, 0x16, 0x02, 0x0E,  -- [2] ACTION_CAPS ACTION_SHIFT ASCII_CTRL_Z ASCII_CTRL_X ASCII_CTRL_C ASCII_CTRL_V ASCII_CTRL_B ASCII_CTRL_N
  0x0D, 0x0C, 0x0E, 0x0F, 0xA1, 0x80, 0xA0, 0xA0,  -- [3] ASCII_CTRL_M ASCII_FF ASCII_SO ASCII_SI ACTION_SHIFT SOL_ASCII_MODE_SELECT ACTION_NOTHING ACTION_NOTHING
  0x1B, 0x01, 0x02, 0x03, 0x04, 0x05, 0x06, 0x07,  -- [4] ASCII_ESC ASCII_SOH ASCII_STX ASCII_ETX ASCII_EOT ASCII_ENQ ASCII_ACK ASCII_BEL
  0x08, 0x09, 0x00, 0x0D, 0x1E, 0x1B, 0x1C, 0x1D,  -- [5] ASCII_BS ASCII_TAB ASCII_NULL ASCII_CR ASCII_RS ASCII_ESC ASCII_FS ASCII_GS
  0xB2, 0x09, 0x11, 0x17, 0x05, 0x12, 0x14, 0x19,  -- [6] SOL_KBD_BREAK_ACTION ASCII_TAB ASCII_CTRL_Q ASCII_CTRL_W ASCII_CTRL_E ASCII_CTRL_R ASCII_CTRL_T ASCII_CTRL_Y
  0x15, 0x09, 0x0F, 0x10, 0x00, 0x0D, 0x0A, 0x8C,  -- [7] ASCII_CTRL_U ASCII_CTRL_I ASCII_CTRL_O ASCII_CTRL_P ASCII_NULL ASCII_CR ASCII_LF SOL_ASCII_LOAD
  0xA8, 0xA9, 0xAA, 0xAB, 0x00, 0xC1, 0xAD, 0xAC,  -- [8] ACTION_MAPSEL_0 ACTION_MAPSEL_1 ACTION_MAPSEL_2 ACTION_MAPSEL_3 0 ACTION_FN_11 ACTION_STROBE_POLARITY_SELECT ACTION_AUTOREPEAT_SELECT
  0xB3, 0x97, 0x81, 0x20, 0x93, 0x9A, 0x8E, 0x8B,  -- [9] SOL_KBD_LOCAL_ACTION SOL_ASCII_UP_ARROW SOL_ASCII_LT_ARROW ASCII_SPACE SOL_ASCII_RT_ARROW SOL_ASCII_DN_ARROW SOL_ASCII_HOME SOL_ASCII_CLEAR
  0x2D, 0x37, 0x2A, 0x38, 0x2F, 0x39, 0xA0, 0xA0,  -- [10] '-' '7' '*' '8' '/' '9' ACTION_NOTHING ACTION_NOTHING
  0x34, 0x31, 0x35, 0x32, 0x36, 0x33, 0xA0, 0xA0,  -- [11] '4' '1' '5' '2' '6' '3' ACTION_NOTHING ACTION_NOTHING
  0x30, 0x2E, 0x2B, 0xA0, 0xA0, 0xA0, 0xA0, 0xA0 ]  -- [12] '0' ASCII_PERIOD '+' ACTION_NOTHING ACTION_NOTHING ACTION_NOTHING ACTION_NOTHING ACTION_NOTHING

/-- `ACE1000_NUM_ROWS` (Keymaps/asdf_keymap_ace1000_add_map.c or its header). -/
def ace1000Rows : UInt8 := 10

/-- `ACE1000_NUM_COLS`. -/
def ace1000Cols : UInt8 := 8

/-- `ace1000_plain_matrix` (Keymaps/asdf_keymap_ace1000_add_map.c:43-54), row-major. -/
def ace1000PlainMatrix : List Code := [
  0x1B, 0x03, 0x13, 0xA5, 0x09, 0xA4, 0xA1, 0x20,  -- [0] ACE_KEY_ESC ACE_KEY_BREAK ACE_KEY_PAUSE ACTION_CTRL ACE_KEY_TAB ACTION_CAPS ACTION_SHIFT ACE_KEY_SPACE
  0x31, 0x71, 0x61, 0x7A, 0x32, 0x77, 0x73, 0x78,  -- [1] ACE_KEY_1 ACE_KEY_Q ACE_KEY_A ACE_KEY_Z ACE_KEY_2 ACE_KEY_W ACE_KEY_S ACE_KEY_X
  0x33, 0x65, 0x64, 0x63, 0x34, 0x72, 0x66, 0x76,  -- [2] ACE_KEY_3 ACE_KEY_E ACE_KEY_D ACE_KEY_C ACE_KEY_4 ACE_KEY_R ACE_KEY_F ACE_KEY_V
  0x35, 0x74, 0x67, 0x62, 0x36, 0x79, 0x68, 0x6E,  -- [3] ACE_KEY_5 ACE_KEY_T ACE_KEY_G ACE_KEY_B ACE_KEY_6 ACE_KEY_Y ACE_KEY_H ACE_KEY_N
  0x37, 0x75, 0x6A, 0x6D, 0x38, 0x69, 0x6B, 0x2C,  -- [4] ACE_KEY_7 ACE_KEY_U ACE_KEY_J ACE_KEY_M ACE_KEY_8 ACE_KEY_I ACE_KEY_K ACE_KEY_COMMA
  0x39, 0x6F, 0x6C, 0x2E, 0x15, 0x2D, 0x3D, 0x2A,  -- [5] ACE_KEY_9 ACE_KEY_O ACE_KEY_L ACE_KEY_PERIOD ACE_KEY_RIGHT ACE_KEY_UNDERSCORE ACE_KEY_PLUS ACE_KEY_SPLAT
  0x30, 0x70, 0x3B, 0x2F, 0x37, 0x34, 0x31, 0x3E,  -- [6] ACE_KEY_0 ACE_KEY_P ACE_KEY_SEMI ACE_KEY_SLASH ACE_KEY_7 ACE_KEY_4 ACE_KEY_1 ACE_KEY_GT
  0x2D, 0x7B, 0x27, 0xA1, 0x38, 0x35, 0x32, 0x30,  -- [7] ACE_KEY_MINUS ACE_KEY_CURLY ACE_KEY_QUOTE ACTION_SHIFT ACE_KEY_8 ACE_KEY_5 ACE_KEY_2 ACE_KEY_0
  0xA8, 0xA9, 0xAA, 0xAB, 0x00, 0xC1, 0xAD, 0xAC,  -- [8] ACTION_MAPSEL_0 ACTION_MAPSEL_1 ACTION_MAPSEL_2 ACTION_MAPSEL_3 0 ACTION_FN_11 ACTION_STROBE_POLARITY_SELECT ACTION_AUTOREPEAT_SELECT
  0x2F, 0x5B, 0x0D, 0x08, 0x39, 0x36, 0x33, 0x2E ]  -- [9] ACE_KEY_SLASH ACE_KEY_SQUARE ACE_KEY_RETURN ACE_KEY_LEFT ACE_KEY_9 ACE_KEY_6 ACE_KEY_3 ACE_KEY_PERIOD

/-- `ace1000_shift_matrix` (Keymaps/asdf_keymap_ace1000_add_map.c:56-67), row-major. -/
def ace1000ShiftMatrix : List Code := [
  0x1B, 0x03, 0x13, 0xA5, 0x09, 0xA4, 0xA1, 0x20,  -- [0] ACE_KEY_SHIFT_ESC ACE_KEY_SHIFT_BREAK ACE_KEY_SHIFT_PAUSE ACTION_CTRL ACE_KEY_SHIFT_TAB ACTION_CAPS ACTION_SHIFT ACE_KEY_SHIFT_SPACE
  0x21, 0x51, 0x41, 0x5A, 0x40, 0x57, 0x53, 0x58,  -- [1] ACE_KEY_SHIFT_1 ACE_KEY_SHIFT_Q ACE_KEY_SHIFT_A ACE_KEY_SHIFT_Z ACE_KEY_SHIFT_2 ACE_KEY_SHIFT_W ACE_KEY_SHIFT_S ACE_KEY_SHIFT_X
  0x23, 0x45, 0x44, 0x43, 0x24, 0x52, 0x46, 0x56,  -- [2] ACE_KEY_SHIFT_3 ACE_KEY_SHIFT_E ACE_KEY_SHIFT_D ACE_KEY_SHIFT_C ACE_KEY_SHIFT_4 ACE_KEY_SHIFT_R ACE_KEY_SHIFT_F ACE_KEY_SHIFT_V
  0x25, 0x54, 0x47, 0x42, 0x5E, 0x59, 0x48, 0x4E,  -- [3] ACE_KEY_SHIFT_5 ACE_KEY_SHIFT_T ACE_KEY_SHIFT_G ACE_KEY_SHIFT_B ACE_KEY_SHIFT_6 ACE_KEY_SHIFT_Y ACE_KEY_SHIFT_H ACE_KEY_SHIFT_N
  0x26, 0x55, 0x4A, 0x4D, 0x2A, 0x49, 0x4B, 0x3C,  -- [4] ACE_KEY_SHIFT_7 ACE_KEY_SHIFT_U ACE_KEY_SHIFT_J ACE_KEY_SHIFT_M ACE_KEY_SHIFT_8 ACE_KEY_SHIFT_I ACE_KEY_SHIFT_K ACE_KEY_SHIFT_COMMA
  0x28, 0x4F, 0x4C, 0x3E, 0x15, 0x5F, 0x2B, 0x2A,  -- [5] ACE_KEY_SHIFT_9 ACE_KEY_SHIFT_O ACE_KEY_SHIFT_L ACE_KEY_SHIFT_PERIOD ACE_KEY_SHIFT_RIGHT ACE_KEY_SHIFT_UNDERSCORE ACE_KEY_SHIFT_PLUS ACE_KEY_SHIFT_SPLAT
  0x29, 0x50, 0x3A, 0x3F, 0x26, 0x24, 0x21, 0x3E,  -- [6] ACE_KEY_SHIFT_0 ACE_KEY_SHIFT_P ACE_KEY_SHIFT_SEMI ACE_KEY_SHIFT_SLASH ACE_KEY_SHIFT_7 ACE_KEY_SHIFT_4 ACE_KEY_SHIFT_1 ACE_KEY_SHIFT_GT
  0x2D, 0x7D, 0x22, 0xA1, 0x2A, 0x25, 0x40, 0x29,  -- [7] ACE_KEY_SHIFT_MINUS ACE_KEY_SHIFT_CURLY ACE_KEY_SHIFT_QUOTE ACTION_SHIFT ACE_KEY_SHIFT_8 ACE_KEY_SHIFT_5 ACE_KEY_SHIFT_2 ACE_KEY_SHIFT_0
  0xA8, 0xA9, 0xAA, 0xAB, 0x00, 0xC1, 0xAD, 0xAC,  -- [8] ACTION_MAPSEL_0 ACTION_MAPSEL_1 ACTION_MAPSEL_2 ACTION_MAPSEL_3 0 ACTION_FN_11 ACTION_STROBE_POLARITY_SELECT ACTION_AUTOREPEAT_SELECT
  0x3F, 0x5D, 0x0D, 0x08, 0x28, 0x5E, 0x23, 0x3E ]  -- [9] ACE_KEY_SHIFT_SLASH ACE_KEY_SHIFT_SQUARE ACE_KEY_RETURN ACE_KEY_SHIFT_LEFT ACE_KEY_SHIFT_9 ACE_KEY_SHIFT_6 ACE_KEY_SHIFT_3 ACE_KEY_SHIFT_PERIOD

/-- `ace1000_caps_matrix` (Keymaps/asdf_keymap_ace1000_add_map.c:69-80), row-major. -/
def ace1000CapsMatrix : List Code := [
  0x1B, 0x03, 0x13, 0xA5, 0x09, 0xA4, 0xA1, 0x20,  -- [0] ACE_KEY_ESC ACE_KEY_BREAK ACE_KEY_PAUSE ACTION_CTRL ACE_KEY_TAB ACTION_CAPS ACTION_SHIFT ACE_KEY_SPACE
  0x31, 0x51, 0x41, 0x5A, 0x32, 0x57, 0x53, 0x58,  -- [1] ACE_KEY_1 ACE_KEY_SHIFT_Q ACE_KEY_SHIFT_A ACE_KEY_SHIFT_Z ACE_KEY_2 ACE_KEY_SHIFT_W ACE_KEY_SHIFT_S ACE_KEY_SHIFT_X
  0x33, 0x45, 0x44, 0x43, 0x34, 0x52, 0x46, 0x56,  -- [2] ACE_KEY_3 ACE_KEY_SHIFT_E ACE_KEY_SHIFT_D ACE_KEY_SHIFT_C ACE_KEY_4 ACE_KEY_SHIFT_R ACE_KEY_SHIFT_F ACE_KEY_SHIFT_V
  0x35, 0x54, 0x47, 0x42, 0x36, 0x59, 0x48, 0x4E,  -- [3] ACE_KEY_5 ACE_KEY_SHIFT_T ACE_KEY_SHIFT_G ACE_KEY_SHIFT_B ACE_KEY_6 ACE_KEY_SHIFT_Y ACE_KEY_SHIFT_H ACE_KEY_SHIFT_N
  0x37, 0x55, 0x4A, 0x4D, 0x38, 0x49, 0x4B, 0x2C,  -- [4] ACE_KEY_7 ACE_KEY_SHIFT_U ACE_KEY_SHIFT_J ACE_KEY_SHIFT_M ACE_KEY_8 ACE_KEY_SHIFT_I ACE_KEY_SHIFT_K ACE_KEY_COMMA
  0x39, 0x4F, 0x4C, 0x2E, 0x15, 0x2D, 0x3D, 0x2A,  -- [5] ACE_KEY_9 ACE_KEY_SHIFT_O ACE_KEY_SHIFT_L ACE_KEY_PERIOD ACE_KEY_RIGHT ACE_KEY_UNDERSCORE ACE_KEY_PLUS ACE_KEY_SPLAT
  0x30, 0x50, 0x3B, 0x2F, 0x37, 0x34, 0x31, 0x3E,  -- [6] ACE_KEY_0 ACE_KEY_SHIFT_P ACE_KEY_SEMI ACE_KEY_SLASH ACE_KEY_7 ACE_KEY_4 ACE_KEY_1 ACE_KEY_GT
  0x2D, 0x7B, 0x27, 0xA1, 0x38, 0x35, 0x32, 0x30,  -- [7] ACE_KEY_MINUS ACE_KEY_CURLY ACE_KEY_QUOTE ACTION_SHIFT ACE_KEY_8 ACE_KEY_5 ACE_KEY_2 ACE_KEY_0
  0xA8, 0xA9, 0xAA, 0xAB, 0x00, 0xC1, 0xAD, 0xAC,  -- [8] ACTION_MAPSEL_0 ACTION_MAPSEL_1 ACTION_MAPSEL_2 ACTION_MAPSEL_3 0 ACTION_FN_11 ACTION_STROBE_POLARITY_SELECT ACTION_AUTOREPEAT_SELECT
  0x2F, 0x5B, 0x0D, 0x08, 0x39, 0x36, 0x33, 0x2E ]  -- [9] ACE_KEY_SLASH ACE_KEY_SQUARE ACE_KEY_RETURN ACE_KEY_LEFT ACE_KEY_9 ACE_KEY_6 ACE_KEY_3 ACE_KEY_PERIOD

/-- `ace1000_ctrl_matrix` (Keymaps/asdf_keymap_ace1000_add_map.c:82-93), row-major. -/
def ace1000CtrlMatrix : List Code := [
  0x1B, 0x03, 0x13, 0xA5, 0x09, 0xA4, 0xA1, 0x20,  -- [0] ACE_KEY_ESC ACE_KEY_BREAK ACE_KEY_PAUSE ACTION_CTRL ACE_KEY_TAB ACTION_CAPS ACTION_SHIFT ACE_KEY_SPACE
  0x31, 0x11, 0x01, 0x1A, 0x32, 0x17, 0x13, 0x18,  -- [1] ACE_KEY_CTRL_1 ACE_KEY_CTRL_Q ACE_KEY_CTRL_A ACE_KEY_CTRL_Z ACE_KEY_CTRL_2 ACE_KEY_CTRL_W ACE_KEY_CTRL_S ACE_KEY_CTRL_X
  0x33, 0x05, 0x04, 0x03, 0x34, 0x12, 0x06, 0x16,  -- [2] ACE_KEY_CTRL_3 ACE_KEY_CTRL_E ACE_KEY_CTRL_D ACE_KEY_CTRL_C ACE_KEY_CTRL_4 ACE_KEY_CTRL_R ACE_KEY_CTRL_F ACE_KEY_CTRL_V
  0x35, 0x14, 0x07, 0x02, 0x36, 0x19, 0x08, 0x0E,  -- [3] ACE_KEY_CTRL_5 ACE_KEY_CTRL_T ACE_KEY_CTRL_G ACE_KEY_CTRL_B ACE_KEY_CTRL_6 ACE_KEY_CTRL_Y ACE_KEY_CTRL_H ACE_KEY_CTRL_N
  0x37, 0x15, 0x0A, 0x0D, 0x38, 0x09, 0x0B, 0x2C,  -- [4] ACE_KEY_CTRL_7 ACE_KEY_CTRL_U ACE_KEY_CTRL_J ACE_KEY_CTRL_M ACE_KEY_CTRL_8 ACE_KEY_CTRL_I ACE_KEY_CTRL_K ACE_KEY_CTRL_COMMA
  0x39, 0x0F, 0x0C, 0x2E, 0x15, 0x3D, 0x3D, 0x2A,  -- [5] ACE_KEY_CTRL_9 ACE_KEY_CTRL_O ACE_KEY_CTRL_L ACE_KEY_CTRL_PERIOD ACE_KEY_CTRL_RIGHT ACE_KEY_CTRL_UNDERSCORE ACE_KEY_CTRL_PLUS ACE_KEY_CTRL_SPLAT
  0x30, 0x10, 0x3B, 0x2F, 0x37, 0x34, 0x31, 0x3E,  -- [6] ACE_KEY_CTRL_0 ACE_KEY_CTRL_P ACE_KEY_CTRL_SEMI ACE_KEY_CTRL_SLASH ACE_KEY_CTRL_7 ACE_KEY_CTRL_4 ACE_KEY_CTRL_1 ACE_KEY_CTRL_GT
  0x2D, 0x7B, 0x27, 0xA1, 0x38, 0x35, 0x32, 0x30,  -- [7] ACE_KEY_CTRL_MINUS ACE_KEY_CTRL_CURLY ACE_KEY_CTRL_QUOTE ACTION_SHIFT ACE_KEY_CTRL_8 ACE_KEY_CTRL_5 ACE_KEY_CTRL_2 ACE_KEY_CTRL_0
  0xA8, 0xA9, 0xAA, 0xAB, 0x00, 0xC1, 0xAD, 0xAC,  -- [8] ACTION_MAPSEL_0 ACTION_MAPSEL_1 ACTION_MAPSEL_2 ACTION_MAPSEL_3 0 ACTION_FN_11 ACTION_STROBE_POLARITY_SELECT ACTION_AUTOREPEAT_SELECT
  0x2F, 0x1D, 0x0D, 0x08, 0x39, 0x36, 0x33, 0x2E ]  -- [9] ACE_KEY_CTRL_SLASH ACE_KEY_CTRL_SQUARE ACE_KEY_RETURN ACE_KEY_CTRL_LEFT ACE_KEY_CTRL_9 ACE_KEY_CTRL_6 ACE_KEY_CTRL_3 ACE_KEY_CTRL_PERIOD

/-- Text printed by `classic_id_message` (Keymaps/asdf_keymap_classic.c:36): `[Keymap: classic]\n` -/
def classicIdMessageText : List Code := [
  0x5B, 0x4B, 0x65, 0x79, 0x6D, 0x61, 0x70, 0x3A, 0x20, 0x63, 0x6C, 0x61, 0x73, 0x73, 0x69, 0x63,
  0x5D, 0x0A ]

/-- Text printed by `classic_caps_id_message` (Keymaps/asdf_keymap_classic_caps.c:38): `[Keymap: classic]\n` -/
def classicCapsIdMessageText : List Code := [
  0x5B, 0x4B, 0x65, 0x79, 0x6D, 0x61, 0x70, 0x3A, 0x20, 0x63, 0x6C, 0x61, 0x73, 0x73, 0x69, 0x63,
  0x5D, 0x0A ]

/-- Text printed by `apple2_id_message` (Keymaps/asdf_keymap_apple2.c:52): `[Keymap: Apple 2 (u/l case)]` -/
def apple2IdMessageText : List Code := [
  0x5B, 0x4B, 0x65, 0x79, 0x6D, 0x61, 0x70, 0x3A, 0x20, 0x41, 0x70, 0x70, 0x6C, 0x65, 0x20, 0x32,
  0x20, 0x28, 0x75, 0x2F, 0x6C, 0x20, 0x63, 0x61, 0x73, 0x65, 0x29, 0x5D ]

/-- Text printed by `apple2_caps_id_message` (Keymaps/asdf_keymap_apple2_caps.c:35): `[Keymap: Apple 2 CAPS]` -/
def apple2CapsIdMessageText : List Code := [
  0x5B, 0x4B, 0x65, 0x79, 0x6D, 0x61, 0x70, 0x3A, 0x20, 0x41, 0x70, 0x70, 0x6C, 0x65, 0x20, 0x32,
  0x20, 0x43, 0x41, 0x50, 0x53, 0x5D ]

/-- Text printed by `sol_id_message` (Keymaps/asdf_keymap_sol.c:147): `[Keybd: Sol-20]` -/
def solIdMessageText : List Code := [
  0x5B, 0x4B, 0x65, 0x79, 0x62, 0x64, 0x3A, 0x20, 0x53, 0x6F, 0x6C, 0x2D, 0x32, 0x30, 0x5D ]

/-- Text printed by `ace1000_id_message` (Keymaps/asdf_keymap_ace1000.c:38): `[Keymap: ace1000]\n` -/
def ace1000IdMessageText : List Code := [
  0x5B, 0x4B, 0x65, 0x79, 0x6D, 0x61, 0x70, 0x3A, 0x20, 0x61, 0x63, 0x65, 0x31, 0x30, 0x30, 0x30,
  0x5D, 0x0A ]

/-- Text printed by `applesoft_keyboard_test` (Keymaps/asdf_keymap_apple2_add_map.c:154): `10GETA$(0):A=ASC(A$(0)):A$(1)="CTL+"+CHR$(A + 64):?"'";A$(A<32);"' = ";A:IFA<>3GOTO10\r` -/
def applesoftKeyboardTestText : List Code := [
  0x31, 0x30, 0x47, 0x45, 0x54, 0x41, 0x24, 0x28, 0x30, 0x29, 0x3A, 0x41, 0x3D, 0x41, 0x53, 0x43,
  0x28, 0x41, 0x24, 0x28, 0x30, 0x29, 0x29, 0x3A, 0x41, 0x24, 0x28, 0x31, 0x29, 0x3D, 0x22, 0x43,
  0x54, 0x4C, 0x2B, 0x22, 0x2B, 0x43, 0x48, 0x52, 0x24, 0x28, 0x41, 0x20, 0x2B, 0x20, 0x36, 0x34,
  0x29, 0x3A, 0x3F, 0x22, 0x27, 0x22, 0x3B, 0x41, 0x24, 0x28, 0x41, 0x3C, 0x33, 0x32, 0x29, 0x3B,
  0x22, 0x27, 0x20, 0x3D, 0x20, 0x22, 0x3B, 0x41, 0x3A, 0x49, 0x46, 0x41, 0x3C, 0x3E, 0x33, 0x47,
  0x4F, 0x54, 0x4F, 0x31, 0x30, 0x0D ]

/-- Text printed by `ace1000_keyboard_test` (Keymaps/asdf_keymap_ace1000_add_map.c:115): `10GETA$(0):A=ASC(A$(0)):A$(1)="CTL+"+CHR$(A + 64):?"'";A$(A<32);"' = ";A:IFA<>3GOTO10\r` -/
def ace1000KeyboardTestText : List Code := [
  0x31, 0x30, 0x47, 0x45, 0x54, 0x41, 0x24, 0x28, 0x30, 0x29, 0x3A, 0x41, 0x3D, 0x41, 0x53, 0x43,
  0x28, 0x41, 0x24, 0x28, 0x30, 0x29, 0x29, 0x3A, 0x41, 0x24, 0x28, 0x31, 0x29, 0x3D, 0x22, 0x43,
  0x54, 0x4C, 0x2B, 0x22, 0x2B, 0x43, 0x48, 0x52, 0x24, 0x28, 0x41, 0x20, 0x2B, 0x20, 0x36, 0x34,
  0x29, 0x3A, 0x3F, 0x22, 0x27, 0x22, 0x3B, 0x41, 0x24, 0x28, 0x41, 0x3C, 0x33, 0x32, 0x29, 0x3B,
  0x22, 0x27, 0x20, 0x3D, 0x20, 0x22, 0x3B, 0x41, 0x3A, 0x49, 0x46, 0x41, 0x3C, 0x3E, 0x33, 0x47,
  0x4F, 0x54, 0x4F, 0x31, 0x30, 0x0D ]

end Asdf
