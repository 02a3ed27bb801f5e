import Verif.Model.CLang

/-! # The C sources of the portable firmware

Generated by `tools/c2lean.py` from the C sources; do not edit.

One definition for each function, in the order of the files; the comment says where it
is.  Macros and enumerators with an integer value are the constants at the beginning. -/

namespace Asdf.C

/-! ## Macros and enumerators -/

/-- `ASDF_BUFFER_INVALID` (asdf_buffer.h:33). -/
abbrev Mac.ASDF_BUFFER_INVALID : Int := (-1)

/-- `ASDF_BUFFER_NUM_HANDLES` (asdf_buffer.h:38). -/
abbrev Mac.ASDF_BUFFER_NUM_HANDLES : Int := 4

/-- `ASDF_BUFFER_POOL_SIZE` (asdf_config.h:57). -/
abbrev Mac.ASDF_BUFFER_POOL_SIZE : Int := 144

/-- `ASDF_INVALID_CODE` (asdf.h:36). -/
abbrev Mac.ASDF_INVALID_CODE : Int := 160

/-- `REPEAT_AUTO` (asdf_repeat.c:53). -/
abbrev Mac.REPEAT_AUTO : Int := 525

/-- `REPEAT_OFF` (asdf_repeat.c:51). -/
abbrev Mac.REPEAT_OFF : Int := 0

/-- `REPEAT_ON` (asdf_repeat.c:52). -/
abbrev Mac.REPEAT_ON : Int := 66

/-- `PHYSICAL_NO_OUT` (asdf_physical.h:36). -/
abbrev Mac.PHYSICAL_NO_OUT : Int := 0

/-- `ASDF_PHYSICAL_NUM_RESOURCES` (asdf_physical.h:49). -/
abbrev Mac.ASDF_PHYSICAL_NUM_RESOURCES : Int := 13

/-- `ASDF_VIRTUAL_OUT_DEFAULT_VALUE` (asdf_config.h:84). -/
abbrev Mac.ASDF_VIRTUAL_OUT_DEFAULT_VALUE : Int := 1

/-- `V_PULSE_LONG` (asdf_virtual.h:54). -/
abbrev Mac.V_PULSE_LONG : Int := 4

/-- `V_PULSE_SHORT` (asdf_virtual.h:53). -/
abbrev Mac.V_PULSE_SHORT : Int := 3

/-- `V_TOGGLE` (asdf_virtual.h:55). -/
abbrev Mac.V_TOGGLE : Int := 5

/-- `V_SET_HI` (asdf_virtual.h:51). -/
abbrev Mac.V_SET_HI : Int := 1

/-- `V_SET_LO` (asdf_virtual.h:52). -/
abbrev Mac.V_SET_LO : Int := 2

/-- `V_NOFUNC` (asdf_virtual.h:50). -/
abbrev Mac.V_NOFUNC : Int := 0

/-- `V_NULL` (asdf_virtual.h:33). -/
abbrev Mac.V_NULL : Int := 0

/-- `ASDF_VIRTUAL_NUM_RESOURCES` (asdf_virtual.h:45). -/
abbrev Mac.ASDF_VIRTUAL_NUM_RESOURCES : Int := 12

/-- `ASDF_HOOK_NULL` (asdf_hook.h:31). -/
abbrev Mac.ASDF_HOOK_NULL : Int := 0

/-- `ASDF_NUM_HOOKS` (asdf_hook.h:47). -/
abbrev Mac.ASDF_NUM_HOOKS : Int := 16

/-- `ASDF_HOOK_ROW_SCANNER` (asdf_hook.h:33). -/
abbrev Mac.ASDF_HOOK_ROW_SCANNER : Int := 2

/-- `ASDF_HOOK_OUTPUT` (asdf_hook.h:34). -/
abbrev Mac.ASDF_HOOK_OUTPUT : Int := 3

/-- `ASDF_HOOK_KEY_SCANNER` (asdf_hook.h:32). -/
abbrev Mac.ASDF_HOOK_KEY_SCANNER : Int := 1

/-- `SHIFT_LOCKED_ST` (asdf_modifiers.h:50). -/
abbrev Mac.SHIFT_LOCKED_ST : Int := 2

/-- `VSHIFT_LED` (asdf_virtual.h:44). -/
abbrev Mac.VSHIFT_LED : Int := 11

/-- `SHIFT_ON_ST` (asdf_modifiers.h:49). -/
abbrev Mac.SHIFT_ON_ST : Int := 1

/-- `VCAPS_LED` (asdf_virtual.h:43). -/
abbrev Mac.VCAPS_LED : Int := 10

/-- `CAPS_LOCKED_ST` (asdf_modifiers.h:58). -/
abbrev Mac.CAPS_LOCKED_ST : Int := 1

/-- `CTRL_ON_ST` (asdf_modifiers.h:62). -/
abbrev Mac.CTRL_ON_ST : Int := 1

/-- `SHIFT_OFF_ST` (asdf_modifiers.h:48). -/
abbrev Mac.SHIFT_OFF_ST : Int := 0

/-- `CTRL_OFF_ST` (asdf_modifiers.h:62). -/
abbrev Mac.CTRL_OFF_ST : Int := 0

/-- `CAPS_OFF_ST` (asdf_modifiers.h:57). -/
abbrev Mac.CAPS_OFF_ST : Int := 0

/-- `ASDF_MODIFIERS_SHIFT_MASK` (asdf_modifiers.h:42). -/
abbrev Mac.ASDF_MODIFIERS_SHIFT_MASK : Int := 1

/-- `ASDF_MODIFIERS_CAPS_MASK` (asdf_modifiers.h:43). -/
abbrev Mac.ASDF_MODIFIERS_CAPS_MASK : Int := 2

/-- `ASDF_MODIFIERS_CTRL_MASK` (asdf_modifiers.h:44). -/
abbrev Mac.ASDF_MODIFIERS_CTRL_MASK : Int := 4

/-- `ASDF_MOD_NUM_MODIFIERS` (asdf_modifiers.h:73). -/
abbrev Mac.ASDF_MOD_NUM_MODIFIERS : Int := 4

/-- `ASDF_MAX_ROWS` (asdf.h:40). -/
abbrev Mac.ASDF_MAX_ROWS : Int := 16

/-- `ASDF_MAX_COLS` (asdf.h:39). -/
abbrev Mac.ASDF_MAX_COLS : Int := 8

/-- `ASDF_KEYMAP_BIT_0` (asdf_keymaps.h:40). -/
abbrev Mac.ASDF_KEYMAP_BIT_0 : Int := 1

/-- `ASDF_KEYMAP_BIT_1` (asdf_keymaps.h:41). -/
abbrev Mac.ASDF_KEYMAP_BIT_1 : Int := 2

/-- `ASDF_KEYMAP_BIT_2` (asdf_keymaps.h:42). -/
abbrev Mac.ASDF_KEYMAP_BIT_2 : Int := 4

/-- `ASDF_KEYMAP_BIT_3` (asdf_keymaps.h:43). -/
abbrev Mac.ASDF_KEYMAP_BIT_3 : Int := 8

/-- `ACTION_SHIFT` (Keymaps/asdf_keymap_defs_sol.h:168). -/
abbrev Mac.ACTION_SHIFT : Int := 161

/-- `ACTION_SHIFTLOCK_ON` (asdf.h:57). -/
abbrev Mac.ACTION_SHIFTLOCK_ON : Int := 162

/-- `ACTION_SHIFTLOCK_TOGGLE` (asdf.h:58). -/
abbrev Mac.ACTION_SHIFTLOCK_TOGGLE : Int := 163

/-- `ACTION_CAPS` (Keymaps/asdf_keymap_defs_test.h:64). -/
abbrev Mac.ACTION_CAPS : Int := 164

/-- `ACTION_CTRL` (Keymaps/asdf_keymap_classic_add_map.c:73). -/
abbrev Mac.ACTION_CTRL : Int := 165

/-- `ACTION_REPEAT` (Keymaps/asdf_keymap_apple2_add_map.c:135). -/
abbrev Mac.ACTION_REPEAT : Int := 166

/-- `ACTION_MAPSEL_0` (asdf.h:63). -/
abbrev Mac.ACTION_MAPSEL_0 : Int := 168

/-- `ACTION_MAPSEL_1` (asdf.h:64). -/
abbrev Mac.ACTION_MAPSEL_1 : Int := 169

/-- `ACTION_MAPSEL_2` (asdf.h:65). -/
abbrev Mac.ACTION_MAPSEL_2 : Int := 170

/-- `ACTION_MAPSEL_3` (asdf.h:66). -/
abbrev Mac.ACTION_MAPSEL_3 : Int := 171

/-- `ACTION_STROBE_POLARITY_SELECT` (asdf.h:68). -/
abbrev Mac.ACTION_STROBE_POLARITY_SELECT : Int := 173

/-- `ACTION_AUTOREPEAT_SELECT` (asdf.h:67). -/
abbrev Mac.ACTION_AUTOREPEAT_SELECT : Int := 172

/-- `ACTION_VLED1` (asdf.h:69). -/
abbrev Mac.ACTION_VLED1 : Int := 174

/-- `VLED1` (asdf_virtual.h:40). -/
abbrev Mac.VLED1 : Int := 7

/-- `ACTION_VLED2` (asdf.h:70). -/
abbrev Mac.ACTION_VLED2 : Int := 175

/-- `VLED2` (asdf_virtual.h:41). -/
abbrev Mac.VLED2 : Int := 8

/-- `ACTION_VLED3` (asdf.h:71). -/
abbrev Mac.ACTION_VLED3 : Int := 176

/-- `VLED3` (asdf_virtual.h:42). -/
abbrev Mac.VLED3 : Int := 9

/-- `ACTION_VOUT1` (asdf.h:72). -/
abbrev Mac.ACTION_VOUT1 : Int := 177

/-- `VOUT1` (asdf_virtual.h:34). -/
abbrev Mac.VOUT1 : Int := 1

/-- `ACTION_VOUT2` (asdf.h:73). -/
abbrev Mac.ACTION_VOUT2 : Int := 178

/-- `VOUT2` (asdf_virtual.h:35). -/
abbrev Mac.VOUT2 : Int := 2

/-- `ACTION_VOUT3` (asdf.h:74). -/
abbrev Mac.ACTION_VOUT3 : Int := 179

/-- `VOUT3` (asdf_virtual.h:36). -/
abbrev Mac.VOUT3 : Int := 3

/-- `ACTION_VOUT4` (asdf.h:75). -/
abbrev Mac.ACTION_VOUT4 : Int := 180

/-- `VOUT4` (asdf_virtual.h:37). -/
abbrev Mac.VOUT4 : Int := 4

/-- `ACTION_VOUT5` (asdf.h:76). -/
abbrev Mac.ACTION_VOUT5 : Int := 181

/-- `VOUT5` (asdf_virtual.h:38). -/
abbrev Mac.VOUT5 : Int := 5

/-- `ACTION_VOUT6` (asdf.h:77). -/
abbrev Mac.ACTION_VOUT6 : Int := 182

/-- `VOUT6` (asdf_virtual.h:39). -/
abbrev Mac.VOUT6 : Int := 6

/-- `ACTION_NOTHING` (Keymaps/asdf_keymap_apple2_add_map.c:71). -/
abbrev Mac.ACTION_NOTHING : Int := 160

/-- `ACTION_HERE_IS` (asdf.h:62). -/
abbrev Mac.ACTION_HERE_IS : Int := 167

/-- `ACTION_FN_1` (Keymaps/asdf_keymap_classic_add_map.c:129). -/
abbrev Mac.ACTION_FN_1 : Int := 183

/-- `ASDF_HOOK_USER_1` (asdf_hook.h:36). -/
abbrev Mac.ASDF_HOOK_USER_1 : Int := 5

/-- `ACTION_FN_2` (asdf.h:79). -/
abbrev Mac.ACTION_FN_2 : Int := 184

/-- `ASDF_HOOK_USER_2` (asdf_hook.h:37). -/
abbrev Mac.ASDF_HOOK_USER_2 : Int := 6

/-- `ACTION_FN_3` (asdf.h:80). -/
abbrev Mac.ACTION_FN_3 : Int := 185

/-- `ASDF_HOOK_USER_3` (asdf_hook.h:38). -/
abbrev Mac.ASDF_HOOK_USER_3 : Int := 7

/-- `ACTION_FN_4` (Keymaps/asdf_keymap_apple2_add_map.c:139). -/
abbrev Mac.ACTION_FN_4 : Int := 186

/-- `ASDF_HOOK_USER_4` (asdf_hook.h:39). -/
abbrev Mac.ASDF_HOOK_USER_4 : Int := 8

/-- `ACTION_FN_5` (asdf.h:82). -/
abbrev Mac.ACTION_FN_5 : Int := 187

/-- `ASDF_HOOK_USER_5` (asdf_hook.h:40). -/
abbrev Mac.ASDF_HOOK_USER_5 : Int := 9

/-- `ACTION_FN_6` (asdf.h:83). -/
abbrev Mac.ACTION_FN_6 : Int := 188

/-- `ASDF_HOOK_USER_6` (asdf_hook.h:41). -/
abbrev Mac.ASDF_HOOK_USER_6 : Int := 10

/-- `ACTION_FN_7` (asdf.h:84). -/
abbrev Mac.ACTION_FN_7 : Int := 189

/-- `ASDF_HOOK_USER_7` (asdf_hook.h:42). -/
abbrev Mac.ASDF_HOOK_USER_7 : Int := 11

/-- `ACTION_FN_8` (asdf.h:85). -/
abbrev Mac.ACTION_FN_8 : Int := 190

/-- `ASDF_HOOK_USER_8` (asdf_hook.h:43). -/
abbrev Mac.ASDF_HOOK_USER_8 : Int := 12

/-- `ACTION_FN_9` (Keymaps/asdf_keymap_classic_add_map.c:127). -/
abbrev Mac.ACTION_FN_9 : Int := 191

/-- `ASDF_HOOK_USER_9` (asdf_hook.h:44). -/
abbrev Mac.ASDF_HOOK_USER_9 : Int := 13

/-- `ACTION_FN_10` (asdf.h:87). -/
abbrev Mac.ACTION_FN_10 : Int := 192

/-- `ASDF_HOOK_USER_10` (asdf_hook.h:45). -/
abbrev Mac.ASDF_HOOK_USER_10 : Int := 14

/-- `ASDF_ACTION` (asdf.h:33). -/
abbrev Mac.ASDF_ACTION : Int := 160

/-- `ASDF_DEBOUNCE_TIME_MS` (asdf_config.h:60). -/
abbrev Mac.ASDF_DEBOUNCE_TIME_MS : Int := 10

/-- `ASDF_HOOK_EACH_SCAN` (asdf_hook.h:35). -/
abbrev Mac.ASDF_HOOK_EACH_SCAN : Int := 4

/-- `ASDF_KEYCODE_BUFFER_SIZE` (asdf_config.h:53). -/
abbrev Mac.ASDF_KEYCODE_BUFFER_SIZE : Int := 16

/-- `ASDF_MESSAGE_BUFFER_SIZE` (asdf_config.h:55). -/
abbrev Mac.ASDF_MESSAGE_BUFFER_SIZE : Int := 128

/-- `CLASSIC_NUM_COLS` (Keymaps/asdf_keymap_classic.h:40). -/
abbrev Mac.CLASSIC_NUM_COLS : Int := 8

/-- `CLASSIC_NUM_ROWS` (Keymaps/asdf_keymap_classic.h:39). -/
abbrev Mac.CLASSIC_NUM_ROWS : Int := 9

/-- `ASDF_CLASSIC_PRINT_SPEED` (Keymaps/asdf_keymap_classic.h:64). -/
abbrev Mac.ASDF_CLASSIC_PRINT_SPEED : Int := 40

/-- `MOD_PLAIN_MAP` (asdf_modifiers.h:69). -/
abbrev Mac.MOD_PLAIN_MAP : Int := 0

/-- `CLASSIC_PLAIN_MAP` (Keymaps/asdf_keymap_classic_add_map.h:37). -/
abbrev Mac.CLASSIC_PLAIN_MAP : Int := 0

/-- `MOD_CAPS_MAP` (asdf_modifiers.c:46). -/
abbrev Mac.MOD_CAPS_MAP : Int := 2

/-- `CLASSIC_CAPS_MAP` (Keymaps/asdf_keymap_classic_add_map.h:38). -/
abbrev Mac.CLASSIC_CAPS_MAP : Int := 1

/-- `MOD_SHIFT_MAP` (asdf_modifiers.c:45). -/
abbrev Mac.MOD_SHIFT_MAP : Int := 1

/-- `CLASSIC_SHIFT_MAP` (Keymaps/asdf_keymap_classic_add_map.h:39). -/
abbrev Mac.CLASSIC_SHIFT_MAP : Int := 2

/-- `MOD_CTRL_MAP` (asdf_modifiers.c:48). -/
abbrev Mac.MOD_CTRL_MAP : Int := 3

/-- `CLASSIC_CTRL_MAP` (Keymaps/asdf_keymap_classic_add_map.h:40). -/
abbrev Mac.CLASSIC_CTRL_MAP : Int := 3

/-- `CLASSIC_ID_MESSAGE_HOOK` (Keymaps/asdf_keymap_classic.h:61). -/
abbrev Mac.CLASSIC_ID_MESSAGE_HOOK : Int := 14

/-- `APPLESOFT_KEYBOARD_TEST_HOOK` (Keymaps/asdf_keymap_ace1000.h:64). -/
abbrev Mac.APPLESOFT_KEYBOARD_TEST_HOOK : Int := 13

/-- `CLASSIC_POWER_LED_INIT_VALUE` (Keymaps/asdf_keymap_classic.h:56). -/
abbrev Mac.CLASSIC_POWER_LED_INIT_VALUE : Int := 1

/-- `CLASSIC_POWER_LED` (Keymaps/asdf_keymap_classic.h:55). -/
abbrev Mac.CLASSIC_POWER_LED : Int := 10

/-- `CLASSIC_VIRTUAL_POWER_LED` (Keymaps/asdf_keymap_classic.h:54). -/
abbrev Mac.CLASSIC_VIRTUAL_POWER_LED : Int := 7

/-- `CLASSIC_CAPS_LED_INIT_VALUE` (Keymaps/asdf_keymap_classic.h:59). -/
abbrev Mac.CLASSIC_CAPS_LED_INIT_VALUE : Int := 0

/-- `CLASSIC_CAPS_LED` (Keymaps/asdf_keymap_classic.h:58). -/
abbrev Mac.CLASSIC_CAPS_LED : Int := 12

/-- `CLASSIC_RESET_ACTIVE_VALUE` (Keymaps/asdf_keymap_classic.h:47). -/
abbrev Mac.CLASSIC_RESET_ACTIVE_VALUE : Int := 0

/-- `CLASSIC_RESET_OUTPUT` (Keymaps/asdf_keymap_classic.h:46). -/
abbrev Mac.CLASSIC_RESET_OUTPUT : Int := 8

/-- `CLASSIC_VIRTUAL_RESET` (Keymaps/asdf_keymap_classic.h:44). -/
abbrev Mac.CLASSIC_VIRTUAL_RESET : Int := 1

/-- `CLASSIC_CLR_SCR_ACTIVE_VALUE` (Keymaps/asdf_keymap_classic.h:52). -/
abbrev Mac.CLASSIC_CLR_SCR_ACTIVE_VALUE : Int := 1

/-- `CLASSIC_CLR_SCR_OUT` (Keymaps/asdf_keymap_classic.h:51). -/
abbrev Mac.CLASSIC_CLR_SCR_OUT : Int := 3

/-- `CLASSIC_VIRTUAL_CLR_SCR` (Keymaps/asdf_keymap_classic.h:49). -/
abbrev Mac.CLASSIC_VIRTUAL_CLR_SCR : Int := 2

/-- `ASDF_APPLE2_NUM_COLS` (Keymaps/asdf_keymap_apple2_add_map.h:38). -/
abbrev Mac.ASDF_APPLE2_NUM_COLS : Int := 8

/-- `ASDF_APPLE2_NUM_ROWS` (Keymaps/asdf_keymap_apple2_add_map.h:37). -/
abbrev Mac.ASDF_APPLE2_NUM_ROWS : Int := 9

/-- `APPLE2_PRINT_DELAY` (Keymaps/asdf_keymap_apple2.h:48). -/
abbrev Mac.APPLE2_PRINT_DELAY : Int := 40

/-- `APPLE_PLAIN_MAP` (Keymaps/asdf_keymap_apple2_add_map.h:64). -/
abbrev Mac.APPLE_PLAIN_MAP : Int := 0

/-- `APPLE_CAPS_MAP` (Keymaps/asdf_keymap_apple2_add_map.h:65). -/
abbrev Mac.APPLE_CAPS_MAP : Int := 1

/-- `APPLE_SHIFT_MAP` (Keymaps/asdf_keymap_apple2_add_map.h:66). -/
abbrev Mac.APPLE_SHIFT_MAP : Int := 2

/-- `APPLE_CTRL_MAP` (Keymaps/asdf_keymap_apple2_add_map.h:68). -/
abbrev Mac.APPLE_CTRL_MAP : Int := 4

/-- `APPLESOFT_KEYBOARD_TEST` (Keymaps/asdf_keymap_apple2.h:44). -/
abbrev Mac.APPLESOFT_KEYBOARD_TEST : Int := 7

/-- `APPLE2_ID_MESSAGE` (Keymaps/asdf_keymap_apple2.h:45). -/
abbrev Mac.APPLE2_ID_MESSAGE : Int := 14

/-- `APPLE_POWER_LED_INIT_VALUE` (Keymaps/asdf_keymap_apple2_add_map.h:52). -/
abbrev Mac.APPLE_POWER_LED_INIT_VALUE : Int := 0

/-- `APPLE_POWER_LED` (Keymaps/asdf_keymap_apple2_add_map.h:51). -/
abbrev Mac.APPLE_POWER_LED : Int := 10

/-- `APPLE_DISABLED_INIT_VALUE` (Keymaps/asdf_keymap_apple2_add_map.h:56). -/
abbrev Mac.APPLE_DISABLED_INIT_VALUE : Int := 0

/-- `APPLE_DISABLED_LED` (Keymaps/asdf_keymap_apple2_add_map.h:55). -/
abbrev Mac.APPLE_DISABLED_LED : Int := 12

/-- `APPLE_VIRTUAL_DISABLED_LED` (Keymaps/asdf_keymap_apple2_add_map.h:54). -/
abbrev Mac.APPLE_VIRTUAL_DISABLED_LED : Int := 8

/-- `APPLE_RESET_ACTIVE_VALUE` (Keymaps/asdf_keymap_apple2_add_map.h:43). -/
abbrev Mac.APPLE_RESET_ACTIVE_VALUE : Int := 0

/-- `APPLE_RESET_OUTPUT` (Keymaps/asdf_keymap_apple2_add_map.h:42). -/
abbrev Mac.APPLE_RESET_OUTPUT : Int := 8

/-- `APPLE_VIRTUAL_RESET` (Keymaps/asdf_keymap_apple2_add_map.h:41). -/
abbrev Mac.APPLE_VIRTUAL_RESET : Int := 1

/-- `APPLE_CLR_SCR_ACTIVE_VALUE` (Keymaps/asdf_keymap_apple2_add_map.h:48). -/
abbrev Mac.APPLE_CLR_SCR_ACTIVE_VALUE : Int := 1

/-- `APPLE_CLR_SCR_OUTPUT` (Keymaps/asdf_keymap_apple2_add_map.h:47). -/
abbrev Mac.APPLE_CLR_SCR_OUTPUT : Int := 3

/-- `APPLE_VIRTUAL_CLR_SCR` (Keymaps/asdf_keymap_apple2_add_map.h:46). -/
abbrev Mac.APPLE_VIRTUAL_CLR_SCR : Int := 2

/-- `APPLE_CAPS_SHIFT_MAP` (Keymaps/asdf_keymap_apple2_add_map.h:67). -/
abbrev Mac.APPLE_CAPS_SHIFT_MAP : Int := 3

/-- `APPLESOFT_KEYBOARD_TEST` (Keymaps/asdf_keymap_apple2_caps.h:42). -/
abbrev Mac.APPLESOFT_KEYBOARD_TEST' : Int := 13

/-- `APPLE2_CAPS_ID_MESSAGE` (Keymaps/asdf_keymap_apple2_caps.h:43). -/
abbrev Mac.APPLE2_CAPS_ID_MESSAGE : Int := 14

/-- `APPLE_VIRTUAL_POWER_LED` (Keymaps/asdf_keymap_apple2_add_map.h:50). -/
abbrev Mac.APPLE_VIRTUAL_POWER_LED : Int := 7

/-- `ASDF_SOL_NUM_COLS` (Keymaps/asdf_keymap_defs_sol.h:41). -/
abbrev Mac.ASDF_SOL_NUM_COLS : Int := 8

/-- `ASDF_SOL_NUM_ROWS` (Keymaps/asdf_keymap_defs_sol.h:40). -/
abbrev Mac.ASDF_SOL_NUM_ROWS : Int := 13

/-- `SOL_PRINT_DELAY` (Keymaps/asdf_keymap_sol.c:35). -/
abbrev Mac.SOL_PRINT_DELAY : Int := 40

/-- `SOL_KBD_LED_OFF` (Keymaps/asdf_keymap_defs_sol.h:82). -/
abbrev Mac.SOL_KBD_LED_OFF : Int := 0

/-- `SOL_KBD_LED_UPPERCASE` (Keymaps/asdf_keymap_defs_sol.h:108). -/
abbrev Mac.SOL_KBD_LED_UPPERCASE : Int := 10

/-- `SOL_KBD_LED_SHIFTLOCK` (Keymaps/asdf_keymap_defs_sol.h:110). -/
abbrev Mac.SOL_KBD_LED_SHIFTLOCK : Int := 12

/-- `SOL_KBD_TTL_HIGH` (Keymaps/asdf_keymap_defs_sol.h:105). -/
abbrev Mac.SOL_KBD_TTL_HIGH : Int := 1

/-- `SOL_KBD_TTLOUT_LOCAL` (Keymaps/asdf_keymap_defs_sol.h:113). -/
abbrev Mac.SOL_KBD_TTLOUT_LOCAL : Int := 1

/-- `SOL_KBD_VLOCAL` (Keymaps/asdf_keymap_defs_sol.h:80). -/
abbrev Mac.SOL_KBD_VLOCAL : Int := 3

/-- `SOL_KBD_LED_LOCAL` (Keymaps/asdf_keymap_defs_sol.h:109). -/
abbrev Mac.SOL_KBD_LED_LOCAL : Int := 11

/-- `SOL_KBD_TTLOUT_RESET` (Keymaps/asdf_keymap_defs_sol.h:111). -/
abbrev Mac.SOL_KBD_TTLOUT_RESET : Int := 8

/-- `SOL_KBD_VRESET` (Keymaps/asdf_keymap_defs_sol.h:78). -/
abbrev Mac.SOL_KBD_VRESET : Int := 1

/-- `SOL_KBD_TTLOUT_BREAK` (Keymaps/asdf_keymap_defs_sol.h:112). -/
abbrev Mac.SOL_KBD_TTLOUT_BREAK : Int := 4

/-- `SOL_KBD_VBREAK` (Keymaps/asdf_keymap_defs_sol.h:79). -/
abbrev Mac.SOL_KBD_VBREAK : Int := 2

/-- `SOL_ID_MESSAGE_HOOK` (Keymaps/asdf_keymap_sol.c:36). -/
abbrev Mac.SOL_ID_MESSAGE_HOOK : Int := 14

/-- `ACE1000_NUM_COLS` (Keymaps/asdf_keymap_ace1000.h:42). -/
abbrev Mac.ACE1000_NUM_COLS : Int := 8

/-- `ACE1000_NUM_ROWS` (Keymaps/asdf_keymap_ace1000.h:41). -/
abbrev Mac.ACE1000_NUM_ROWS : Int := 10

/-- `ASDF_ACE1000_PRINT_SPEED` (Keymaps/asdf_keymap_ace1000.h:66). -/
abbrev Mac.ASDF_ACE1000_PRINT_SPEED : Int := 40

/-- `ACE1000_PLAIN_MAP` (Keymaps/asdf_keymap_ace1000_add_map.h:34). -/
abbrev Mac.ACE1000_PLAIN_MAP : Int := 0

/-- `ACE1000_CAPS_MAP` (Keymaps/asdf_keymap_ace1000_add_map.h:35). -/
abbrev Mac.ACE1000_CAPS_MAP : Int := 1

/-- `ACE1000_SHIFT_MAP` (Keymaps/asdf_keymap_ace1000_add_map.h:36). -/
abbrev Mac.ACE1000_SHIFT_MAP : Int := 2

/-- `ACE1000_CTRL_MAP` (Keymaps/asdf_keymap_ace1000_add_map.h:37). -/
abbrev Mac.ACE1000_CTRL_MAP : Int := 3

/-- `ACE1000_ID_MESSAGE_HOOK` (Keymaps/asdf_keymap_ace1000.h:63). -/
abbrev Mac.ACE1000_ID_MESSAGE_HOOK : Int := 14

/-- `ACE1000_POWER_LED_INIT_VALUE` (Keymaps/asdf_keymap_ace1000.h:58). -/
abbrev Mac.ACE1000_POWER_LED_INIT_VALUE : Int := 1

/-- `ACE1000_POWER_LED` (Keymaps/asdf_keymap_ace1000.h:57). -/
abbrev Mac.ACE1000_POWER_LED : Int := 10

/-- `ACE1000_VIRTUAL_POWER_LED` (Keymaps/asdf_keymap_ace1000.h:56). -/
abbrev Mac.ACE1000_VIRTUAL_POWER_LED : Int := 7

/-- `ACE1000_CAPS_LED_INIT_VALUE` (Keymaps/asdf_keymap_ace1000.h:61). -/
abbrev Mac.ACE1000_CAPS_LED_INIT_VALUE : Int := 0

/-- `ACE1000_CAPS_LED` (Keymaps/asdf_keymap_ace1000.h:60). -/
abbrev Mac.ACE1000_CAPS_LED : Int := 12

/-- `ACE1000_RESET_ACTIVE_VALUE` (Keymaps/asdf_keymap_ace1000.h:49). -/
abbrev Mac.ACE1000_RESET_ACTIVE_VALUE : Int := 0

/-- `ACE1000_RESET_OUTPUT` (Keymaps/asdf_keymap_ace1000.h:48). -/
abbrev Mac.ACE1000_RESET_OUTPUT : Int := 8

/-- `ACE1000_VIRTUAL_RESET` (Keymaps/asdf_keymap_ace1000.h:46). -/
abbrev Mac.ACE1000_VIRTUAL_RESET : Int := 1

/-- `ACE1000_CLR_SCR_ACTIVE_VALUE` (Keymaps/asdf_keymap_ace1000.h:54). -/
abbrev Mac.ACE1000_CLR_SCR_ACTIVE_VALUE : Int := 1

/-- `ACE1000_CLR_SCR_OUT` (Keymaps/asdf_keymap_ace1000.h:53). -/
abbrev Mac.ACE1000_CLR_SCR_OUT : Int := 3

/-- `ACE1000_VIRTUAL_CLR_SCR` (Keymaps/asdf_keymap_ace1000.h:51). -/
abbrev Mac.ACE1000_VIRTUAL_CLR_SCR : Int := 2

/-! ## Constant tables, row by row -/

/-- `classic_plain_matrix` (Keymaps/asdf_keymap_classic_add_map.c:71). -/
def tab_classic_plain_matrix : List Code := [
  0xA0, 0xA1, 0xA1, 0xA0, 0x1B, 0x09, 0xA5, 0x5C,
  0x7F, 0x70, 0x3B, 0x2F, 0x20, 0x7A, 0x61, 0x71,
  0xA0, 0x2C, 0x6D, 0x6E, 0x62, 0x76, 0x63, 0x78,
  0xA0, 0x6B, 0x6A, 0x68, 0x67, 0x66, 0x64, 0x73,
  0xA0, 0x69, 0x75, 0x79, 0x74, 0x72, 0x65, 0x77,
  0xA0, 0xA6, 0xA4, 0x0D, 0x0A, 0x6F, 0x6C, 0x2E,
  0x7E, 0x5D, 0x5B, 0x2D, 0x3A, 0x30, 0x39, 0x38,
  0x40, 0x37, 0x36, 0x35, 0x34, 0x33, 0x32, 0x31,
  0xA8, 0xA9, 0xAA, 0xAB, 0x00, 0xC1, 0xAD, 0xAC]

/-- `classic_shift_matrix` (Keymaps/asdf_keymap_classic_add_map.c:85). -/
def tab_classic_shift_matrix : List Code := [
  0xA0, 0xA1, 0xA1, 0xA0, 0x1B, 0x09, 0xA5, 0x7C,
  0x7F, 0x50, 0x2B, 0x3F, 0x20, 0x5A, 0x41, 0x51,
  0xB2, 0x3C, 0x4D, 0x4E, 0x42, 0x56, 0x43, 0x58,
  0xA0, 0x4B, 0x4A, 0x48, 0x47, 0x46, 0x44, 0x53,
  0xA0, 0x49, 0x55, 0x59, 0x54, 0x52, 0x45, 0x57,
  0xA0, 0xA6, 0xA4, 0x0D, 0x0A, 0x4F, 0x4C, 0x3E,
  0x7E, 0x7D, 0x7B, 0x3D, 0x2A, 0x30, 0x29, 0x28,
  0x60, 0x27, 0x26, 0x25, 0x24, 0x23, 0x22, 0x21,
  0xA8, 0xA9, 0xAA, 0xAB, 0x00, 0xC1, 0xAD, 0xAC]

/-- `classic_caps_matrix` (Keymaps/asdf_keymap_classic_add_map.c:99). -/
def tab_classic_caps_matrix : List Code := [
  0xA0, 0xA1, 0xA1, 0xA0, 0x1B, 0x09, 0xA5, 0x5C,
  0x7F, 0x50, 0x3B, 0x2F, 0x20, 0x5A, 0x41, 0x51,
  0xA0, 0x2C, 0x4D, 0x4E, 0x42, 0x56, 0x43, 0x58,
  0xA0, 0x4B, 0x4A, 0x48, 0x47, 0x46, 0x44, 0x53,
  0xA0, 0x49, 0x55, 0x59, 0x54, 0x52, 0x45, 0x57,
  0xA0, 0xA6, 0xA4, 0x0D, 0x0A, 0x4F, 0x4C, 0x2E,
  0x7E, 0x5D, 0x5B, 0x2D, 0x3A, 0x30, 0x39, 0x38,
  0x40, 0x37, 0x36, 0x35, 0x34, 0x33, 0x32, 0x31,
  0xA8, 0xA9, 0xAA, 0xAB, 0x00, 0xC1, 0xAD, 0xAC]

/-- `classic_ctrl_matrix` (Keymaps/asdf_keymap_classic_add_map.c:113). -/
def tab_classic_ctrl_matrix : List Code := [
  0xA0, 0xA1, 0xA1, 0xA0, 0x1B, 0x09, 0xA5, 0x1C,
  0xA0, 0x10, 0xA0, 0xA0, 0x20, 0x1A, 0x01, 0x11,
  0xB1, 0x2C, 0x0D, 0x0E, 0x02, 0x16, 0x03, 0x18,
  0xA0, 0x0B, 0x0A, 0x08, 0x07, 0x06, 0x04, 0x13,
  0xA0, 0x09, 0x15, 0x19, 0x14, 0x12, 0x05, 0x17,
  0xA0, 0xA6, 0xA4, 0x0D, 0x0A, 0x0F, 0x0C, 0xA0,
  0xA0, 0x1D, 0x1B, 0xA0, 0xA0, 0xC0, 0xBF, 0xBE,
  0x00, 0xBD, 0xBC, 0xBB, 0xBA, 0xB9, 0xB8, 0xB7,
  0xA8, 0xA9, 0xAA, 0xAB, 0x00, 0xC1, 0xAD, 0xAC]

/-- `apple_plain_matrix` (Keymaps/asdf_keymap_apple2_add_map.c:69). -/
def tab_apple_plain_matrix : List Code := [
  0xA4, 0xA1, 0xA1, 0xA0, 0xA0, 0x1B, 0xA5, 0x15,
  0x7F, 0x70, 0x3B, 0x2F, 0x20, 0x7A, 0x61, 0x71,
  0xA0, 0x2C, 0x6D, 0x6E, 0x62, 0x76, 0x63, 0x78,
  0xA0, 0x6B, 0x6A, 0x68, 0x67, 0x66, 0x64, 0x73,
  0xA0, 0x69, 0x75, 0x79, 0x74, 0x72, 0x65, 0x77,
  0xA0, 0xA0, 0xA0, 0x0D, 0x5E, 0x6F, 0x6C, 0x2E,
  0xA0, 0xA0, 0xA0, 0x2D, 0x3A, 0x30, 0x39, 0x38,
  0x08, 0x37, 0x36, 0x35, 0x34, 0x33, 0x32, 0x31,
  0xA8, 0xA9, 0xAA, 0xAB, 0x00, 0xC1, 0xAD, 0xAC]

/-- `apple_shift_matrix` (Keymaps/asdf_keymap_apple2_add_map.c:82). -/
def tab_apple_shift_matrix : List Code := [
  0xA4, 0xA1, 0xA1, 0xA0, 0xA0, 0x1B, 0xA5, 0x15,
  0xA0, 0x50, 0x2B, 0x3F, 0x20, 0x5A, 0x41, 0x51,
  0xA0, 0x3C, 0x4D, 0x4E, 0x42, 0x56, 0x43, 0x58,
  0xA0, 0x4B, 0x4A, 0x48, 0x47, 0x46, 0x44, 0x53,
  0xA0, 0x49, 0x55, 0x59, 0x54, 0x52, 0x45, 0x57,
  0xA0, 0xA0, 0xA0, 0x0D, 0x40, 0x4F, 0x4C, 0x3E,
  0xA0, 0xA0, 0xB2, 0x3D, 0x2A, 0x40, 0x29, 0x28,
  0x08, 0x27, 0x26, 0x25, 0x24, 0x23, 0x22, 0x21,
  0xA8, 0xA9, 0xAA, 0xAB, 0x00, 0xC1, 0xAD, 0xAC]

/-- `apple_caps_shift_matrix` (Keymaps/asdf_keymap_apple2_add_map.c:96). -/
def tab_apple_caps_shift_matrix : List Code := [
  0xA4, 0xA1, 0xA1, 0xA0, 0xA0, 0x1B, 0xA5, 0x15,
  0xA0, 0x40, 0x2B, 0x3F, 0x20, 0x5A, 0x41, 0x51,
  0xA0, 0x3C, 0x4D, 0x5E, 0x42, 0x56, 0x43, 0x58,
  0xA0, 0x4B, 0x4A, 0x48, 0x47, 0x46, 0x44, 0x53,
  0xA0, 0x49, 0x55, 0x59, 0x54, 0x52, 0x45, 0x57,
  0xA0, 0xA0, 0xA0, 0x0D, 0xA6, 0x4F, 0x4C, 0x3E,
  0xA0, 0xA0, 0xB2, 0x3D, 0x2A, 0xA0, 0x29, 0x28,
  0x08, 0x27, 0x26, 0x25, 0x24, 0x23, 0x22, 0x21,
  0xA8, 0xA9, 0xAA, 0xAB, 0x00, 0xC1, 0xAD, 0xAC]

/-- `apple_caps_matrix` (Keymaps/asdf_keymap_apple2_add_map.c:110). -/
def tab_apple_caps_matrix : List Code := [
  0xA4, 0xA1, 0xA1, 0xA0, 0xA0, 0x1B, 0xA5, 0x15,
  0xA0, 0x50, 0x3B, 0x2F, 0x20, 0x5A, 0x41, 0x51,
  0xA0, 0x2C, 0x4D, 0x4E, 0x42, 0x56, 0x43, 0x58,
  0xA0, 0x4B, 0x4A, 0x48, 0x47, 0x46, 0x44, 0x53,
  0xA0, 0x49, 0x55, 0x59, 0x54, 0x52, 0x45, 0x57,
  0xA0, 0xA0, 0xA0, 0x0D, 0xA6, 0x4F, 0x4C, 0x2E,
  0xA0, 0xA0, 0xA0, 0x2D, 0x3A, 0x30, 0x39, 0x38,
  0x08, 0x37, 0x36, 0x35, 0x34, 0x33, 0x32, 0x31,
  0xA8, 0xA9, 0xAA, 0xAB, 0x00, 0xC1, 0xAD, 0xAC]

/-- `apple_ctrl_matrix` (Keymaps/asdf_keymap_apple2_add_map.c:123). -/
def tab_apple_ctrl_matrix : List Code := [
  0xA4, 0xA1, 0xA1, 0xA0, 0xA0, 0x1B, 0xA5, 0x15,
  0xA0, 0x10, 0xA0, 0x5C, 0x20, 0x1A, 0x01, 0x11,
  0xA0, 0x5B, 0x0D, 0x0E, 0x02, 0x16, 0x03, 0x18,
  0xA0, 0x0B, 0x0A, 0x08, 0x07, 0x06, 0x04, 0x13,
  0xA0, 0x09, 0x15, 0x19, 0x14, 0x12, 0x05, 0x17,
  0xA0, 0xA0, 0xA0, 0x0D, 0xA6, 0x0F, 0x0C, 0x5D,
  0xA0, 0xA0, 0xB1, 0x5F, 0xA0, 0xC0, 0x7D, 0x7B,
  0x7F, 0x60, 0x5E, 0xBB, 0xBA, 0xB9, 0x7E, 0x7C,
  0xA8, 0xA9, 0xAA, 0xAB, 0x00, 0xC1, 0xAD, 0xAC]

/-- `sol_plain_map` (Keymaps/asdf_keymap_sol.c:38). -/
def tab_sol_plain_map : List Code := [
  0xA5, 0xA2, 0x61, 0x73, 0x64, 0x66, 0x67, 0x68,
  0x6A, 0x6B, 0x6C, 0x3B, 0x3A, 0x7F, 0xA6, 0xA5,
  0xA4, 0xA1, 0x7A, 0x78, 0x63, 0x76, 0x62, 0x6E,
  0x6D, 0x2C, 0x2E, 0x2F, 0xA1, 0x80, 0xA0, 0xA0,
  0x1B, 0x31, 0x32, 0x33, 0x34, 0x35, 0x36, 0x37,
  0x38, 0x39, 0x30, 0x2D, 0x5E, 0x5B, 0x5C, 0x5D,
  0xB2, 0x09, 0x71, 0x77, 0x65, 0x72, 0x74, 0x79,
  0x75, 0x69, 0x6F, 0x70, 0x40, 0x0D, 0x0A, 0x8C,
  0xA8, 0xA9, 0xAA, 0xAB, 0x00, 0xC1, 0xAD, 0xAC,
  0xB3, 0x97, 0x81, 0x20, 0x93, 0x9A, 0x8E, 0x8B,
  0x2D, 0x37, 0x2A, 0x38, 0x2F, 0x39, 0xA0, 0xA0,
  0x34, 0x31, 0x35, 0x32, 0x36, 0x33, 0xA0, 0xA0,
  0x30, 0x2E, 0x2B, 0xA0, 0xA0, 0xA0, 0xA0, 0xA0]

/-- `sol_caps_map` (Keymaps/asdf_keymap_sol.c:58). -/
def tab_sol_caps_map : List Code := [
  0xA5, 0xA2, 0x41, 0x53, 0x44, 0x46, 0x47, 0x48,
  0x4A, 0x4B, 0x4C, 0x3B, 0x3A, 0x7F, 0xA6, 0xA5,
  0xA4, 0xA1, 0x5A, 0x58, 0x43, 0x56, 0x42, 0x4E,
  0x4D, 0x2C, 0x2E, 0x2F, 0xA1, 0x80, 0xA0, 0xA0,
  0x1B, 0x31, 0x32, 0x33, 0x34, 0x35, 0x36, 0x37,
  0x38, 0x39, 0x30, 0x2D, 0x5E, 0x5B, 0x5C, 0x5D,
  0xB2, 0x09, 0x51, 0x57, 0x45, 0x52, 0x54, 0x59,
  0x55, 0x49, 0x4F, 0x50, 0x40, 0x0D, 0x0A, 0x8C,
  0xA8, 0xA9, 0xAA, 0xAB, 0x00, 0xC1, 0xAD, 0xAC,
  0xB3, 0x97, 0x81, 0x20, 0x93, 0x9A, 0x8E, 0x8B,
  0x2D, 0x37, 0x2A, 0x38, 0x2F, 0x39, 0xA0, 0xA0,
  0x34, 0x31, 0x35, 0x32, 0x36, 0x33, 0xA0, 0xA0,
  0x30, 0x2E, 0x2B, 0xA0, 0xA0, 0xA0, 0xA0, 0xA0]

/-- `sol_shift_map` (Keymaps/asdf_keymap_sol.c:79). -/
def tab_sol_shift_map : List Code := [
  0xA5, 0xA2, 0x41, 0x53, 0x44, 0x46, 0x47, 0x48,
  0x4A, 0x4B, 0x4C, 0x3B, 0x3A, 0x5F, 0xA6, 0xA5,
  0xA4, 0xA1, 0x5A, 0x58, 0x43, 0x56, 0x42, 0x4E,
  0x4D, 0x3C, 0x3E, 0x3F, 0xA1, 0x80, 0xA0, 0xA0,
  0x1B, 0x21, 0x22, 0x23, 0x24, 0x25, 0x26, 0x27,
  0x28, 0x29, 0x20, 0x3D, 0x7E, 0x5B, 0x5C, 0x5D,
  0xB2, 0x09, 0x51, 0x57, 0x45, 0x52, 0x54, 0x59,
  0x55, 0x49, 0x4F, 0x50, 0x60, 0x0D, 0x0A, 0x8C,
  0xA8, 0xA9, 0xAA, 0xAB, 0x00, 0xC1, 0xAD, 0xAC,
  0xB3, 0x97, 0x81, 0x20, 0x93, 0x9A, 0x8E, 0x8B,
  0x2D, 0x37, 0x2A, 0x38, 0x2F, 0x39, 0xA0, 0xA0,
  0x34, 0x31, 0x35, 0x32, 0x36, 0x33, 0xA0, 0xA0,
  0x30, 0x2E, 0x2B, 0xA0, 0xA0, 0xA0, 0xA0, 0xA0]

/-- `sol_ctrl_map` (Keymaps/asdf_keymap_sol.c:99). -/
def tab_sol_ctrl_map : List Code := [
  0xA5, 0xA2, 0x01, 0x13, 0x04, 0x06, 0x07, 0x08,
  0x0A, 0x0B, 0x0C, 0x0B, 0x0A, 0x7F, 0xB1, 0xA5,
  0xA4, 0xA1, 0x1A, 0x18, 0x03, 0x16, 0x02, 0x0E,
  0x0D, 0x0C, 0x0E, 0x0F, 0xA1, 0x80, 0xA0, 0xA0,
  0x1B, 0x01, 0x02, 0x03, 0x04, 0x05, 0x06, 0x07,
  0x08, 0x09, 0x00, 0x0D, 0x1E, 0x1B, 0x1C, 0x1D,
  0xB2, 0x09, 0x11, 0x17, 0x05, 0x12, 0x14, 0x19,
  0x15, 0x09, 0x0F, 0x10, 0x00, 0x0D, 0x0A, 0x8C,
  0xA8, 0xA9, 0xAA, 0xAB, 0x00, 0xC1, 0xAD, 0xAC,
  0xB3, 0x97, 0x81, 0x20, 0x93, 0x9A, 0x8E, 0x8B,
  0x2D, 0x37, 0x2A, 0x38, 0x2F, 0x39, 0xA0, 0xA0,
  0x34, 0x31, 0x35, 0x32, 0x36, 0x33, 0xA0, 0xA0,
  0x30, 0x2E, 0x2B, 0xA0, 0xA0, 0xA0, 0xA0, 0xA0]

/-- `ace1000_plain_matrix` (Keymaps/asdf_keymap_ace1000_add_map.c:43). -/
def tab_ace1000_plain_matrix : List Code := [
  0x1B, 0x03, 0x13, 0xA5, 0x09, 0xA4, 0xA1, 0x20,
  0x31, 0x71, 0x61, 0x7A, 0x32, 0x77, 0x73, 0x78,
  0x33, 0x65, 0x64, 0x63, 0x34, 0x72, 0x66, 0x76,
  0x35, 0x74, 0x67, 0x62, 0x36, 0x79, 0x68, 0x6E,
  0x37, 0x75, 0x6A, 0x6D, 0x38, 0x69, 0x6B, 0x2C,
  0x39, 0x6F, 0x6C, 0x2E, 0x15, 0x2D, 0x3D, 0x2A,
  0x30, 0x70, 0x3B, 0x2F, 0x37, 0x34, 0x31, 0x3E,
  0x2D, 0x7B, 0x27, 0xA1, 0x38, 0x35, 0x32, 0x30,
  0xA8, 0xA9, 0xAA, 0xAB, 0x00, 0xC1, 0xAD, 0xAC,
  0x2F, 0x5B, 0x0D, 0x08, 0x39, 0x36, 0x33, 0x2E]

/-- `ace1000_shift_matrix` (Keymaps/asdf_keymap_ace1000_add_map.c:56). -/
def tab_ace1000_shift_matrix : List Code := [
  0x1B, 0x03, 0x13, 0xA5, 0x09, 0xA4, 0xA1, 0x20,
  0x21, 0x51, 0x41, 0x5A, 0x40, 0x57, 0x53, 0x58,
  0x23, 0x45, 0x44, 0x43, 0x24, 0x52, 0x46, 0x56,
  0x25, 0x54, 0x47, 0x42, 0x5E, 0x59, 0x48, 0x4E,
  0x26, 0x55, 0x4A, 0x4D, 0x2A, 0x49, 0x4B, 0x3C,
  0x28, 0x4F, 0x4C, 0x3E, 0x15, 0x5F, 0x2B, 0x2A,
  0x29, 0x50, 0x3A, 0x3F, 0x26, 0x24, 0x21, 0x3E,
  0x2D, 0x7D, 0x22, 0xA1, 0x2A, 0x25, 0x40, 0x29,
  0xA8, 0xA9, 0xAA, 0xAB, 0x00, 0xC1, 0xAD, 0xAC,
  0x3F, 0x5D, 0x0D, 0x08, 0x28, 0x5E, 0x23, 0x3E]

/-- `ace1000_caps_matrix` (Keymaps/asdf_keymap_ace1000_add_map.c:69). -/
def tab_ace1000_caps_matrix : List Code := [
  0x1B, 0x03, 0x13, 0xA5, 0x09, 0xA4, 0xA1, 0x20,
  0x31, 0x51, 0x41, 0x5A, 0x32, 0x57, 0x53, 0x58,
  0x33, 0x45, 0x44, 0x43, 0x34, 0x52, 0x46, 0x56,
  0x35, 0x54, 0x47, 0x42, 0x36, 0x59, 0x48, 0x4E,
  0x37, 0x55, 0x4A, 0x4D, 0x38, 0x49, 0x4B, 0x2C,
  0x39, 0x4F, 0x4C, 0x2E, 0x15, 0x2D, 0x3D, 0x2A,
  0x30, 0x50, 0x3B, 0x2F, 0x37, 0x34, 0x31, 0x3E,
  0x2D, 0x7B, 0x27, 0xA1, 0x38, 0x35, 0x32, 0x30,
  0xA8, 0xA9, 0xAA, 0xAB, 0x00, 0xC1, 0xAD, 0xAC,
  0x2F, 0x5B, 0x0D, 0x08, 0x39, 0x36, 0x33, 0x2E]

/-- `ace1000_ctrl_matrix` (Keymaps/asdf_keymap_ace1000_add_map.c:82). -/
def tab_ace1000_ctrl_matrix : List Code := [
  0x1B, 0x03, 0x13, 0xA5, 0x09, 0xA4, 0xA1, 0x20,
  0x31, 0x11, 0x01, 0x1A, 0x32, 0x17, 0x13, 0x18,
  0x33, 0x05, 0x04, 0x03, 0x34, 0x12, 0x06, 0x16,
  0x35, 0x14, 0x07, 0x02, 0x36, 0x19, 0x08, 0x0E,
  0x37, 0x15, 0x0A, 0x0D, 0x38, 0x09, 0x0B, 0x2C,
  0x39, 0x0F, 0x0C, 0x2E, 0x15, 0x3D, 0x3D, 0x2A,
  0x30, 0x10, 0x3B, 0x2F, 0x37, 0x34, 0x31, 0x3E,
  0x2D, 0x7B, 0x27, 0xA1, 0x38, 0x35, 0x32, 0x30,
  0xA8, 0xA9, 0xAA, 0xAB, 0x00, 0xC1, 0xAD, 0xAC,
  0x2F, 0x1D, 0x0D, 0x08, 0x39, 0x36, 0x33, 0x2E]

/-! ## Functions -/

/-- `asdf_buffer_init` (asdf_buffer.c:84-88). -/
def fn_asdf_buffer_init : Fun where
  params := []
  result := none
  body :=
    (.seq (.expr (.assign (.obj .buffer_pool_next_available) (.num 0)))
    (.expr (.assign (.obj .next_handle) (.num 0))))

/-- `buffer_handle_valid` (asdf_buffer.c:104-107). -/
def fn_buffer_handle_valid : Fun where
  params := [(.handle, (.int .i8))]
  result := some (.int .u8)
  body :=
    (.ret (.and (.bin .ge (.load (.var .handle)) (.num 0)) (.bin .lt (.load (.var .handle)) (.load (.obj .next_handle)))))

/-- `asdf_buffer_new` (asdf_buffer.c:126-144). -/
def fn_asdf_buffer_new : Fun where
  params := [(.size, (.int .i16))]
  result := some (.int .i8)
  body :=
    (.seq (.decl (.int .i8) .handle (.num Mac.ASDF_BUFFER_INVALID))
    (.seq (.ite (.bin .lt (.load (.obj .next_handle)) (.num Mac.ASDF_BUFFER_NUM_HANDLES))
      (.ite (.bin .le (.load (.var .size)) (.bin .sub (.num Mac.ASDF_BUFFER_POOL_SIZE) (.load (.obj .buffer_pool_next_available))))
        (.seq (.expr (.assign (.var .handle) (.post .add (.obj .next_handle))))
          (.seq (.expr (.assign (.fld (.idx (.obj .buffers) (.load (.var .handle))) .size) (.load (.var .size))))
          (.seq (.expr (.assign (.fld (.idx (.obj .buffers) (.load (.var .handle))) .buf) (.addr (.idx (.obj .buffer_pool) (.load (.obj .buffer_pool_next_available))))))
          (.seq (.expr (.assign (.fld (.idx (.obj .buffers) (.load (.var .handle))) .head) (.num 0)))
          (.seq (.expr (.assign (.fld (.idx (.obj .buffers) (.load (.var .handle))) .tail) (.num 0)))
          (.seq (.expr (.assign (.fld (.idx (.obj .buffers) (.load (.var .handle))) .count) (.num 0)))
          (.expr (.update .add (.obj .buffer_pool_next_available) (.load (.var .size))))))))))
        .skip)
      .skip)
    (.ret (.load (.var .handle)))))

/-- `asdf_buffer_put` (asdf_buffer.c:165-174). -/
def fn_asdf_buffer_put : Fun where
  params := [(.handle, (.int .i8)), (.code, (.int .u8))]
  result := none
  body :=
    (.ite (.call .buffer_handle_valid (.cons (.load (.var .handle)) .nil))
    (.ite (.bin .lt (.load (.fld (.idx (.obj .buffers) (.load (.var .handle))) .count)) (.load (.fld (.idx (.obj .buffers) (.load (.var .handle))) .size)))
      (.seq (.expr (.assign (.pidx (.load (.fld (.idx (.obj .buffers) (.load (.var .handle))) .buf)) (.load (.fld (.idx (.obj .buffers) (.load (.var .handle))) .head))) (.load (.var .code))))
        (.seq (.expr (.assign (.fld (.idx (.obj .buffers) (.load (.var .handle))) .head) (.bin .mod (.bin .add (.load (.fld (.idx (.obj .buffers) (.load (.var .handle))) .head)) (.num 1)) (.load (.fld (.idx (.obj .buffers) (.load (.var .handle))) .size)))))
        (.expr (.post .add (.fld (.idx (.obj .buffers) (.load (.var .handle))) .count)))))
      .skip)
    .skip)

/-- `asdf_buffer_get` (asdf_buffer.c:193-202). -/
def fn_asdf_buffer_get : Fun where
  params := [(.handle, (.int .i8))]
  result := some (.int .u8)
  body :=
    (.seq (.decl (.int .u8) .code (.num Mac.ASDF_INVALID_CODE))
    (.seq (.ite (.and (.call .buffer_handle_valid (.cons (.load (.var .handle)) .nil)) (.load (.fld (.idx (.obj .buffers) (.load (.var .handle))) .count)))
      (.seq (.expr (.assign (.var .code) (.load (.pidx (.load (.fld (.idx (.obj .buffers) (.load (.var .handle))) .buf)) (.load (.fld (.idx (.obj .buffers) (.load (.var .handle))) .tail))))))
        (.seq (.expr (.assign (.fld (.idx (.obj .buffers) (.load (.var .handle))) .tail) (.bin .mod (.bin .add (.load (.fld (.idx (.obj .buffers) (.load (.var .handle))) .tail)) (.num 1)) (.load (.fld (.idx (.obj .buffers) (.load (.var .handle))) .size)))))
        (.expr (.post .sub (.fld (.idx (.obj .buffers) (.load (.var .handle))) .count)))))
      .skip)
    (.ret (.load (.var .code)))))

/-- `asdf_repeat_init` (asdf_repeat.c:78-82). -/
def fn_asdf_repeat_init : Fun where
  params := []
  result := none
  body :=
    (.seq (.expr (.assign (.obj .repeat_state) (.assign (.obj .base_repeat_state) (.num Mac.REPEAT_AUTO))))
    (.expr (.assign (.obj .key_repeat_timer) (.cast .u16 (.load (.obj .repeat_state))))))

/-- `asdf_repeat_reset_count` (asdf_repeat.c:98-101). -/
def fn_asdf_repeat_reset_count : Fun where
  params := []
  result := none
  body :=
    (.expr (.assign (.obj .key_repeat_timer) (.cast .u16 (.load (.obj .repeat_state)))))

/-- `asdf_repeat_auto_off` (asdf_repeat.c:118-124). -/
def fn_asdf_repeat_auto_off : Fun where
  params := []
  result := none
  body :=
    (.seq (.expr (.assign (.obj .base_repeat_state) (.num Mac.REPEAT_OFF)))
    (.ite (.bin .ne (.num Mac.REPEAT_ON) (.load (.obj .repeat_state)))
    (.expr (.assign (.obj .key_repeat_timer) (.assign (.obj .repeat_state) (.load (.obj .base_repeat_state)))))
    .skip))

/-- `asdf_repeat_auto_on` (asdf_repeat.c:141-147). -/
def fn_asdf_repeat_auto_on : Fun where
  params := []
  result := none
  body :=
    (.seq (.expr (.assign (.obj .base_repeat_state) (.num Mac.REPEAT_AUTO)))
    (.ite (.bin .ne (.num Mac.REPEAT_ON) (.load (.obj .repeat_state)))
    (.expr (.assign (.obj .key_repeat_timer) (.assign (.obj .repeat_state) (.load (.obj .base_repeat_state)))))
    .skip))

/-- `asdf_repeat_activate` (asdf_repeat.c:164-169). -/
def fn_asdf_repeat_activate : Fun where
  params := []
  result := none
  body :=
    (.ite (.or (.bin .gt (.load (.obj .key_repeat_timer)) (.num Mac.REPEAT_ON)) (.bin .eq (.num Mac.REPEAT_OFF) (.load (.obj .repeat_state))))
    (.expr (.assign (.obj .key_repeat_timer) (.assign (.obj .repeat_state) (.num Mac.REPEAT_ON))))
    .skip)

/-- `asdf_repeat_deactivate` (asdf_repeat.c:188-191). -/
def fn_asdf_repeat_deactivate : Fun where
  params := []
  result := none
  body :=
    (.expr (.assign (.obj .key_repeat_timer) (.assign (.obj .repeat_state) (.load (.obj .base_repeat_state)))))

/-- `asdf_repeat` (asdf_repeat.c:209-218). -/
def fn_asdf_repeat : Fun where
  params := []
  result := some (.int .u8)
  body :=
    (.seq (.decl (.int .u8) .timeout (.and (.load (.obj .key_repeat_timer)) (.un .not (.update .sub (.obj .key_repeat_timer) (.num 1)))))
    (.seq (.ite (.load (.var .timeout))
      (.expr (.assign (.obj .key_repeat_timer) (.num Mac.REPEAT_ON)))
      .skip)
    (.ret (.load (.var .timeout)))))

/-- `asdf_physical_set` (asdf_physical.c:83-87). -/
def fn_asdf_physical_set : Fun where
  params := [(.physical_out, (.int .u8)), (.value, (.int .u8))]
  result := none
  body :=
    (.seq (.expr (.callp (.load (.fld (.idx (.obj .physical_device_table) (.load (.var .physical_out))) .handler)) (.cons (.load (.var .value)) .nil)))
    (.expr (.assign (.fld (.idx (.obj .physical_device_table) (.load (.var .physical_out))) .shadow) (.load (.var .value)))))

/-- `asdf_physical_on` (asdf_physical.c:103-107). -/
def fn_asdf_physical_on : Fun where
  params := [(.physical_out, (.int .u8))]
  result := none
  body :=
    (.seq (.expr (.callp (.load (.fld (.idx (.obj .physical_device_table) (.load (.var .physical_out))) .handler)) (.cons (.num 1) .nil)))
    (.expr (.assign (.fld (.idx (.obj .physical_device_table) (.load (.var .physical_out))) .shadow) (.num 1))))

/-- `asdf_physical_off` (asdf_physical.c:123-127). -/
def fn_asdf_physical_off : Fun where
  params := [(.physical_out, (.int .u8))]
  result := none
  body :=
    (.seq (.expr (.callp (.load (.fld (.idx (.obj .physical_device_table) (.load (.var .physical_out))) .handler)) (.cons (.num 0) .nil)))
    (.expr (.assign (.fld (.idx (.obj .physical_device_table) (.load (.var .physical_out))) .shadow) (.num 0))))

/-- `asdf_physical_assert` (asdf_physical.c:145-149). -/
def fn_asdf_physical_assert : Fun where
  params := [(.physical_out, (.int .u8))]
  result := none
  body :=
    (.seq (.decl (.int .u8) .value (.load (.fld (.idx (.obj .physical_device_table) (.load (.var .physical_out))) .shadow)))
    (.expr (.callp (.load (.fld (.idx (.obj .physical_device_table) (.load (.var .physical_out))) .handler)) (.cons (.load (.var .value)) .nil))))

/-- `asdf_physical_toggle` (asdf_physical.c:166-171). -/
def fn_asdf_physical_toggle : Fun where
  params := [(.physical_out, (.int .u8))]
  result := none
  body :=
    (.seq (.decl (.int .u8) .value (.load (.fld (.idx (.obj .physical_device_table) (.load (.var .physical_out))) .shadow)))
    (.expr (.call .asdf_physical_set (.cons (.load (.var .physical_out)) (.cons (.un .not (.load (.var .value))) .nil)))))

/-- `valid_physical_device` (asdf_physical.c:187-190). -/
def fn_valid_physical_device : Fun where
  params := [(.device, (.int .u8))]
  result := some (.int .u8)
  body :=
    (.ret (.and (.bin .gt (.load (.var .device)) (.num Mac.PHYSICAL_NO_OUT)) (.bin .lt (.load (.var .device)) (.num Mac.ASDF_PHYSICAL_NUM_RESOURCES))))

/-- `physical_device_is_available` (asdf_physical.c:210-220). -/
def fn_physical_device_is_available : Fun where
  params := [(.device, (.int .u8))]
  result := some (.int .u8)
  body :=
    (.seq (.decl (.int .u8) .current_out (.num Mac.PHYSICAL_NO_OUT))
    (.seq (.decl (.int .u8) .next_out (.load (.fld (.idx (.obj .physical_device_table) (.load (.var .current_out))) .next)))
    (.seq (.loop (.and (.bin .ne (.load (.var .next_out)) (.num Mac.PHYSICAL_NO_OUT)) (.bin .ne (.load (.var .next_out)) (.load (.var .device)))) (.num 0)
      (.seq (.expr (.assign (.var .current_out) (.load (.var .next_out))))
        (.expr (.assign (.var .next_out) (.load (.fld (.idx (.obj .physical_device_table) (.load (.var .current_out))) .next))))))
    (.ret (.cond (.bin .eq (.num Mac.PHYSICAL_NO_OUT) (.load (.var .next_out))) (.num Mac.ASDF_PHYSICAL_NUM_RESOURCES) (.load (.var .current_out)))))))

/-- `asdf_physical_next_device` (asdf_physical.c:239-242). -/
def fn_asdf_physical_next_device : Fun where
  params := [(.device, (.int .u8))]
  result := some (.int .u8)
  body :=
    (.ret (.load (.fld (.idx (.obj .physical_device_table) (.load (.var .device))) .next)))

/-- `asdf_physical_allocate` (asdf_physical.c:264-287). -/
def fn_asdf_physical_allocate : Fun where
  params := [(.physical_out, (.int .u8)), (.tail, (.int .u8)), (.initial_value, (.int .u8))]
  result := some (.int .u8)
  body :=
    (.seq (.decl (.int .u8) .success (.num 0))
    (.seq (.decl (.int .u8) .predecessor (.call .physical_device_is_available (.cons (.load (.var .physical_out)) .nil)))
    (.seq (.ite (.and (.call .valid_physical_device (.cons (.load (.var .physical_out)) .nil)) (.bin .ne (.num Mac.ASDF_PHYSICAL_NUM_RESOURCES) (.load (.var .predecessor))))
      (.seq (.expr (.assign (.fld (.idx (.obj .physical_device_table) (.load (.var .predecessor))) .next) (.load (.fld (.idx (.obj .physical_device_table) (.load (.var .physical_out))) .next))))
        (.seq (.expr (.assign (.fld (.idx (.obj .physical_device_table) (.load (.var .physical_out))) .next) (.load (.var .tail))))
        (.seq (.expr (.assign (.fld (.idx (.obj .physical_device_table) (.load (.var .physical_out))) .shadow) (.load (.var .initial_value))))
        (.expr (.assign (.var .success) (.num 1))))))
      .skip)
    (.ret (.load (.var .success))))))

/-- `asdf_physical_init` (asdf_physical.c:303-314). -/
def fn_asdf_physical_init : Fun where
  params := []
  result := none
  body :=
    (.seq (.block (.seq (.decl (.int .u8) .i (.num 0))
      (.loop (.bin .lt (.load (.var .i)) (.num Mac.ASDF_PHYSICAL_NUM_RESOURCES)) (.post .add (.var .i))
      (.seq (.expr (.assign (.fld (.idx (.obj .physical_device_table) (.load (.var .i))) .shadow) (.num Mac.ASDF_VIRTUAL_OUT_DEFAULT_VALUE)))
        (.expr (.assign (.fld (.idx (.obj .physical_device_table) (.load (.var .i))) .next) (.bin .add (.load (.var .i)) (.num 1))))))))
    (.expr (.assign (.fld (.idx (.obj .physical_device_table) (.bin .sub (.num Mac.ASDF_PHYSICAL_NUM_RESOURCES) (.num 1))) .next) (.num Mac.PHYSICAL_NO_OUT))))

/-- `asdf_virtual_map_function` (asdf_virtual.c:67-73). -/
def fn_asdf_virtual_map_function : Fun where
  params := [(.function, .ptr), (.device, (.int .u8))]
  result := none
  body :=
    (.loop (.bin .ne (.num Mac.PHYSICAL_NO_OUT) (.load (.var .device))) (.num 0)
    (.seq (.expr (.callp (.load (.var .function)) (.cons (.load (.var .device)) .nil)))
      (.expr (.assign (.var .device) (.call .asdf_physical_next_device (.cons (.load (.var .device)) .nil))))))

/-- `asdf_virtual_action` (asdf_virtual.c:92-124). -/
def fn_asdf_virtual_action : Fun where
  params := [(.virtual_out, (.int .u8)), (.function, (.int .u8))]
  result := none
  body :=
    (.seq (.decl (.int .u8) .device_list (.load (.fld (.idx (.obj .virtual_device_table) (.load (.var .virtual_out))) .physical_device)))
    (.switch (.load (.var .function))
    (.cons [Mac.V_PULSE_LONG] false (.seq (.expr (.call .asdf_virtual_map_function (.cons (.fn .asdf_physical_toggle) (.cons (.load (.var .device_list)) .nil))))
      (.seq (.expr (.call .asdf_arch_pulse_delay_long .nil))
      (.seq (.expr (.call .asdf_virtual_map_function (.cons (.fn .asdf_physical_toggle) (.cons (.load (.var .device_list)) .nil))))
      .brk)))
    (.cons [Mac.V_PULSE_SHORT] false (.seq (.expr (.call .asdf_virtual_map_function (.cons (.fn .asdf_physical_toggle) (.cons (.load (.var .device_list)) .nil))))
      (.seq (.expr (.call .asdf_arch_pulse_delay_short .nil))
      (.seq (.expr (.call .asdf_virtual_map_function (.cons (.fn .asdf_physical_toggle) (.cons (.load (.var .device_list)) .nil))))
      .brk)))
    (.cons [Mac.V_TOGGLE] false (.seq (.expr (.call .asdf_virtual_map_function (.cons (.fn .asdf_physical_toggle) (.cons (.load (.var .device_list)) .nil))))
      .brk)
    (.cons [Mac.V_SET_HI] false (.seq (.expr (.call .asdf_virtual_map_function (.cons (.fn .asdf_physical_on) (.cons (.load (.var .device_list)) .nil))))
      .brk)
    (.cons [Mac.V_SET_LO] false (.expr (.call .asdf_virtual_map_function (.cons (.fn .asdf_physical_off) (.cons (.load (.var .device_list)) .nil))))
    (.cons [Mac.V_NOFUNC] true .brk
    .nil))))))))

/-- `asdf_virtual_activate` (asdf_virtual.c:141-144). -/
def fn_asdf_virtual_activate : Fun where
  params := [(.virtual_out, (.int .u8))]
  result := none
  body :=
    (.expr (.call .asdf_virtual_action (.cons (.load (.var .virtual_out)) (.cons (.load (.fld (.idx (.obj .virtual_device_table) (.load (.var .virtual_out))) .function)) .nil))))

/-- `valid_virtual_device` (asdf_virtual.c:160-163). -/
def fn_valid_virtual_device : Fun where
  params := [(.device, (.int .u8))]
  result := some (.int .u8)
  body :=
    (.ret (.and (.bin .gt (.load (.var .device)) (.num Mac.V_NULL)) (.bin .lt (.load (.var .device)) (.num Mac.ASDF_VIRTUAL_NUM_RESOURCES))))

/-- `asdf_virtual_assign` (asdf_virtual.c:187-199). -/
def fn_asdf_virtual_assign : Fun where
  params := [(.virtual_out, (.int .u8)), (.physical_out, (.int .u8)), (.function, (.int .u8)), (.initial_value, (.int .u8))]
  result := none
  body :=
    (.ite (.call .valid_virtual_device (.cons (.load (.var .virtual_out)) .nil))
    (.block (.seq (.decl (.int .u8) .tail (.load (.fld (.idx (.obj .virtual_device_table) (.load (.var .virtual_out))) .physical_device)))
      (.ite (.call .asdf_physical_allocate (.cons (.load (.var .physical_out)) (.cons (.load (.var .tail)) (.cons (.load (.var .initial_value)) .nil))))
      (.seq (.expr (.assign (.fld (.idx (.obj .virtual_device_table) (.load (.var .virtual_out))) .physical_device) (.load (.var .physical_out))))
        (.expr (.assign (.fld (.idx (.obj .virtual_device_table) (.load (.var .virtual_out))) .function) (.load (.var .function)))))
      .skip)))
    .skip)

/-- `asdf_virtual_init` (asdf_virtual.c:215-226). -/
def fn_asdf_virtual_init : Fun where
  params := []
  result := none
  body :=
    (.seq (.expr (.call .asdf_physical_init .nil))
    (.block (.seq (.decl (.int .u8) .i (.num 0))
    (.loop (.bin .lt (.load (.var .i)) (.num Mac.ASDF_VIRTUAL_NUM_RESOURCES)) (.post .add (.var .i))
    (.seq (.expr (.assign (.fld (.idx (.obj .virtual_device_table) (.load (.var .i))) .function) (.num Mac.V_NOFUNC)))
      (.expr (.assign (.fld (.idx (.obj .virtual_device_table) (.load (.var .i))) .physical_device) (.num Mac.PHYSICAL_NO_OUT))))))))

/-- `asdf_virtual_sync` (asdf_virtual.c:240-245). -/
def fn_asdf_virtual_sync : Fun where
  params := []
  result := none
  body :=
    (.block (.seq (.decl (.int .u8) .i (.num 0))
    (.loop (.bin .lt (.load (.var .i)) (.num Mac.ASDF_PHYSICAL_NUM_RESOURCES)) (.post .add (.var .i))
    (.expr (.call .asdf_physical_assert (.cons (.cast .u8 (.load (.var .i))) .nil))))))

/-- `asdf_hook_null_func` (asdf_hook.c:58-58). -/
def fn_asdf_hook_null_func : Fun where
  params := []
  result := none
  body :=
    .skip

/-- `asdf_hook_valid_id` (asdf_hook.c:75-78). -/
def fn_asdf_hook_valid_id : Fun where
  params := [(.id, (.int .u8))]
  result := some (.int .u8)
  body :=
    (.ret (.and (.bin .gt (.load (.var .id)) (.num Mac.ASDF_HOOK_NULL)) (.bin .lt (.load (.var .id)) (.num Mac.ASDF_NUM_HOOKS))))

/-- `asdf_hook_execute` (asdf_hook.c:96-101). -/
def fn_asdf_hook_execute : Fun where
  params := [(.hook_id, (.int .u8))]
  result := none
  body :=
    (.ite (.call .asdf_hook_valid_id (.cons (.load (.var .hook_id)) .nil))
    (.expr (.callp (.load (.idx (.obj .hook_map) (.load (.var .hook_id)))) .nil))
    .skip)

/-- `asdf_hook_get` (asdf_hook.c:118-121). -/
def fn_asdf_hook_get : Fun where
  params := [(.hook_id, (.int .u8))]
  result := some .ptr
  body :=
    (.ret (.cond (.call .asdf_hook_valid_id (.cons (.load (.var .hook_id)) .nil)) (.load (.idx (.obj .hook_map) (.load (.var .hook_id)))) (.fn .asdf_hook_null_func)))

/-- `asdf_hook_assign` (asdf_hook.c:140-145). -/
def fn_asdf_hook_assign : Fun where
  params := [(.hook_id, (.int .u8)), (.func, .ptr)]
  result := none
  body :=
    (.ite (.call .asdf_hook_valid_id (.cons (.load (.var .hook_id)) .nil))
    (.expr (.assign (.idx (.obj .hook_map) (.load (.var .hook_id))) (.load (.var .func))))
    .skip)

/-- `asdf_hook_init` (asdf_hook.c:163-173). -/
def fn_asdf_hook_init : Fun where
  params := []
  result := none
  body :=
    (.seq (.block (.seq (.decl (.int .u8) .i (.num 0))
      (.loop (.bin .lt (.load (.var .i)) (.num Mac.ASDF_NUM_HOOKS)) (.post .add (.var .i))
      (.expr (.assign (.idx (.obj .hook_map) (.load (.var .i))) (.fn .asdf_hook_null_func))))))
    (.seq (.expr (.assign (.idx (.obj .hook_map) (.num Mac.ASDF_HOOK_ROW_SCANNER)) (.fn .asdf_arch_read_row)))
    (.seq (.expr (.assign (.idx (.obj .hook_map) (.num Mac.ASDF_HOOK_OUTPUT)) (.fn .asdf_arch_send_code)))
    (.expr (.assign (.idx (.obj .hook_map) (.num Mac.ASDF_HOOK_KEY_SCANNER)) (.fn .asdf_keyscan))))))

/-- `asdf_modifier_set_shift_state` (asdf_modifiers.c:62-66). -/
def fn_asdf_modifier_set_shift_state : Fun where
  params := [(.new_state, (.int .u8))]
  result := none
  body :=
    (.seq (.expr (.assign (.obj .shift_state) (.load (.var .new_state))))
    (.expr (.call .asdf_virtual_action (.cons (.num Mac.VSHIFT_LED) (.cons (.cond (.bin .band (.load (.obj .shift_state)) (.num Mac.SHIFT_LOCKED_ST)) (.num Mac.V_SET_HI) (.num Mac.V_SET_LO)) .nil)))))

/-- `asdf_modifier_shift_activate` (asdf_modifiers.c:78-81). -/
def fn_asdf_modifier_shift_activate : Fun where
  params := []
  result := none
  body :=
    (.expr (.call .asdf_modifier_set_shift_state (.cons (.num Mac.SHIFT_ON_ST) .nil)))

/-- `asdf_modifier_shiftlock_on_activate` (asdf_modifiers.c:96-99). -/
def fn_asdf_modifier_shiftlock_on_activate : Fun where
  params := []
  result := none
  body :=
    (.expr (.call .asdf_modifier_set_shift_state (.cons (.bin .bor (.load (.obj .shift_state)) (.num Mac.SHIFT_LOCKED_ST)) .nil)))

/-- `asdf_modifier_shiftlock_toggle_activate` (asdf_modifiers.c:113-116). -/
def fn_asdf_modifier_shiftlock_toggle_activate : Fun where
  params := []
  result := none
  body :=
    (.expr (.call .asdf_modifier_set_shift_state (.cons (.bin .bxor (.load (.obj .shift_state)) (.num Mac.SHIFT_LOCKED_ST)) .nil)))

/-- `asdf_modifier_set_caps_state` (asdf_modifiers.c:128-132). -/
def fn_asdf_modifier_set_caps_state : Fun where
  params := [(.new_state, (.int .u8))]
  result := none
  body :=
    (.seq (.expr (.assign (.obj .caps_state) (.load (.var .new_state))))
    (.expr (.call .asdf_virtual_action (.cons (.num Mac.VCAPS_LED) (.cons (.cond (.load (.obj .caps_state)) (.num Mac.V_SET_HI) (.num Mac.V_SET_LO)) .nil)))))

/-- `asdf_modifier_capslock_activate` (asdf_modifiers.c:144-147). -/
def fn_asdf_modifier_capslock_activate : Fun where
  params := []
  result := none
  body :=
    (.expr (.call .asdf_modifier_set_caps_state (.cons (.update .bxor (.obj .caps_state) (.num Mac.CAPS_LOCKED_ST)) .nil)))

/-- `asdf_modifier_ctrl_activate` (asdf_modifiers.c:159-162). -/
def fn_asdf_modifier_ctrl_activate : Fun where
  params := []
  result := none
  body :=
    (.expr (.assign (.obj .ctrl_state) (.num Mac.CTRL_ON_ST)))

/-- `asdf_modifier_shift_deactivate` (asdf_modifiers.c:176-179). -/
def fn_asdf_modifier_shift_deactivate : Fun where
  params := []
  result := none
  body :=
    (.expr (.call .asdf_modifier_set_shift_state (.cons (.num Mac.SHIFT_OFF_ST) .nil)))

/-- `asdf_modifier_ctrl_deactivate` (asdf_modifiers.c:191-194). -/
def fn_asdf_modifier_ctrl_deactivate : Fun where
  params := []
  result := none
  body :=
    (.expr (.assign (.obj .ctrl_state) (.num Mac.CTRL_OFF_ST)))

/-- `asdf_modifiers_init` (asdf_modifiers.c:206-211). -/
def fn_asdf_modifiers_init : Fun where
  params := []
  result := none
  body :=
    (.seq (.expr (.call .asdf_modifier_set_shift_state (.cons (.num Mac.SHIFT_OFF_ST) .nil)))
    (.seq (.expr (.call .asdf_modifier_set_caps_state (.cons (.num Mac.CAPS_OFF_ST) .nil)))
    (.expr (.assign (.obj .ctrl_state) (.num Mac.CTRL_OFF_ST)))))

/-- `asdf_modifier_index` (asdf_modifiers.c:223-238). -/
def fn_asdf_modifier_index : Fun where
  params := []
  result := some (.int .u8)
  body :=
    (.seq (.decl (.int .u8) .active_modifiers (.num 0))
    (.seq (.ite (.load (.obj .shift_state))
      (.expr (.update .bor (.var .active_modifiers) (.num Mac.ASDF_MODIFIERS_SHIFT_MASK)))
      .skip)
    (.seq (.ite (.load (.obj .caps_state))
      (.expr (.update .bor (.var .active_modifiers) (.num Mac.ASDF_MODIFIERS_CAPS_MASK)))
      .skip)
    (.seq (.ite (.load (.obj .ctrl_state))
      (.expr (.update .bor (.var .active_modifiers) (.num Mac.ASDF_MODIFIERS_CTRL_MASK)))
      .skip)
    (.ret (.load (.idx (.obj .modifier_mapping) (.load (.var .active_modifiers)))))))))

/-- `asdf_keymaps_add_map` (asdf_keymaps.c:60-72). -/
def fn_asdf_keymaps_add_map : Fun where
  params := [(.matrix, .ptr), (.modifier_index, (.int .u8)), (.num_rows, (.int .u8)), (.num_cols, (.int .u8))]
  result := none
  body :=
    (.ite (.and (.and (.bin .lt (.load (.var .modifier_index)) (.num Mac.ASDF_MOD_NUM_MODIFIERS)) (.bin .le (.load (.var .num_rows)) (.num Mac.ASDF_MAX_ROWS))) (.bin .le (.load (.var .num_cols)) (.num Mac.ASDF_MAX_COLS)))
    (.seq (.expr (.assign (.fld (.idx (.obj .keymaps) (.load (.var .modifier_index))) .matrix) (.load (.var .matrix))))
      (.seq (.expr (.assign (.fld (.idx (.obj .keymaps) (.load (.var .modifier_index))) .rows) (.load (.var .num_rows))))
      (.expr (.assign (.fld (.idx (.obj .keymaps) (.load (.var .modifier_index))) .cols) (.load (.var .num_cols))))))
    .skip)

/-- `asdf_keymaps_num_rows` (asdf_keymaps.c:88-91). -/
def fn_asdf_keymaps_num_rows : Fun where
  params := []
  result := some (.int .u8)
  body :=
    (.ret (.load (.fld (.idx (.obj .keymaps) (.call .asdf_modifier_index .nil)) .rows)))

/-- `asdf_keymaps_num_cols` (asdf_keymaps.c:107-110). -/
def fn_asdf_keymaps_num_cols : Fun where
  params := []
  result := some (.int .u8)
  body :=
    (.ret (.load (.fld (.idx (.obj .keymaps) (.call .asdf_modifier_index .nil)) .cols)))

/-- `asdf_keymaps_reset` (asdf_keymaps.c:127-140). -/
def fn_asdf_keymaps_reset : Fun where
  params := []
  result := none
  body :=
    (.seq (.block (.seq (.decl (.int .u8) .i (.num 0))
      (.loop (.bin .lt (.load (.var .i)) (.num Mac.ASDF_MOD_NUM_MODIFIERS)) (.post .add (.var .i))
      (.expr (.call .asdf_keymaps_add_map (.cons .null (.cons (.cast .u8 (.load (.var .i))) (.cons (.num 0) (.cons (.num 0) .nil)))))))))
    (.seq (.expr (.call .asdf_virtual_init .nil))
    (.expr (.call .asdf_hook_init .nil))))

/-- `asdf_keymaps_switch` (asdf_keymaps.c:160-173). -/
def fn_asdf_keymaps_switch : Fun where
  params := [(.index, (.int .u8))]
  result := none
  body :=
    (.ite (.call .asdf_keymap_valid (.cons (.load (.var .index)) .nil))
    (.seq (.expr (.assign (.obj .current_keyboard_index) (.load (.var .index))))
      (.seq (.expr (.call .asdf_arch_init .nil))
      (.seq (.expr (.call .asdf_keymaps_reset .nil))
      (.expr (.call .asdf_keymap_setup (.cons (.load (.var .index)) .nil))))))
    .skip)

/-- `asdf_keymaps_select` (asdf_keymaps.c:190-196). -/
def fn_asdf_keymaps_select : Fun where
  params := [(.index, (.int .u8))]
  result := none
  body :=
    (.ite (.bin .ne (.load (.var .index)) (.load (.obj .current_keyboard_index)))
    (.expr (.call .asdf_keymaps_switch (.cons (.load (.var .index)) .nil)))
    .skip)

/-- `asdf_keymaps_init` (asdf_keymaps.c:212-215). -/
def fn_asdf_keymaps_init : Fun where
  params := []
  result := none
  body :=
    (.expr (.call .asdf_keymaps_switch (.cons (.num 0) .nil)))

/-- `asdf_keymaps_map_select_0_clear` (asdf_keymaps.c:232-235). -/
def fn_asdf_keymaps_map_select_0_clear : Fun where
  params := []
  result := none
  body :=
    (.expr (.call .asdf_keymaps_select (.cons (.bin .band (.load (.obj .current_keyboard_index)) (.un .bnot (.num Mac.ASDF_KEYMAP_BIT_0))) .nil)))

/-- `asdf_keymaps_map_select_0_set` (asdf_keymaps.c:252-255). -/
def fn_asdf_keymaps_map_select_0_set : Fun where
  params := []
  result := none
  body :=
    (.expr (.call .asdf_keymaps_select (.cons (.bin .bor (.load (.obj .current_keyboard_index)) (.num Mac.ASDF_KEYMAP_BIT_0)) .nil)))

/-- `asdf_keymaps_map_select_1_clear` (asdf_keymaps.c:272-275). -/
def fn_asdf_keymaps_map_select_1_clear : Fun where
  params := []
  result := none
  body :=
    (.expr (.call .asdf_keymaps_select (.cons (.bin .band (.load (.obj .current_keyboard_index)) (.un .bnot (.num Mac.ASDF_KEYMAP_BIT_1))) .nil)))

/-- `asdf_keymaps_map_select_1_set` (asdf_keymaps.c:292-295). -/
def fn_asdf_keymaps_map_select_1_set : Fun where
  params := []
  result := none
  body :=
    (.expr (.call .asdf_keymaps_select (.cons (.bin .bor (.load (.obj .current_keyboard_index)) (.num Mac.ASDF_KEYMAP_BIT_1)) .nil)))

/-- `asdf_keymaps_map_select_2_clear` (asdf_keymaps.c:312-315). -/
def fn_asdf_keymaps_map_select_2_clear : Fun where
  params := []
  result := none
  body :=
    (.expr (.call .asdf_keymaps_select (.cons (.bin .band (.load (.obj .current_keyboard_index)) (.un .bnot (.num Mac.ASDF_KEYMAP_BIT_2))) .nil)))

/-- `asdf_keymaps_map_select_2_set` (asdf_keymaps.c:332-335). -/
def fn_asdf_keymaps_map_select_2_set : Fun where
  params := []
  result := none
  body :=
    (.expr (.call .asdf_keymaps_select (.cons (.bin .bor (.load (.obj .current_keyboard_index)) (.num Mac.ASDF_KEYMAP_BIT_2)) .nil)))

/-- `asdf_keymaps_map_select_3_clear` (asdf_keymaps.c:352-355). -/
def fn_asdf_keymaps_map_select_3_clear : Fun where
  params := []
  result := none
  body :=
    (.expr (.call .asdf_keymaps_select (.cons (.bin .band (.load (.obj .current_keyboard_index)) (.un .bnot (.num Mac.ASDF_KEYMAP_BIT_3))) .nil)))

/-- `asdf_keymaps_map_select_3_set` (asdf_keymaps.c:372-375). -/
def fn_asdf_keymaps_map_select_3_set : Fun where
  params := []
  result := none
  body :=
    (.expr (.call .asdf_keymaps_select (.cons (.bin .bor (.load (.obj .current_keyboard_index)) (.num Mac.ASDF_KEYMAP_BIT_3)) .nil)))

/-- `asdf_keymaps_get_code` (asdf_keymaps.c:394-405). -/
def fn_asdf_keymaps_get_code : Fun where
  params := [(.row, (.int .u8)), (.col, (.int .u8)), (.modifier_index, (.int .u8))]
  result := some (.int .u8)
  body :=
    (.seq (.decl (.int .u8) .num_cols (.load (.fld (.idx (.obj .keymaps) (.load (.obj .current_keyboard_index))) .cols)))
    (.seq (.decl (.int .u8) .keycode (.num 0))
    (.seq (.ite (.and (.load (.fld (.idx (.obj .keymaps) (.load (.obj .current_keyboard_index))) .cols)) (.load (.fld (.idx (.obj .keymaps) (.load (.obj .current_keyboard_index))) .rows)))
      (.block (.seq (.decl (.mat (.load (.var .num_cols))) .keycode_matrix (.load (.fld (.idx (.obj .keymaps) (.load (.var .modifier_index))) .matrix)))
        (.expr (.assign (.var .keycode) (.call .pgm_read_byte (.cons (.addr (.pidx (.row (.load (.var .keycode_matrix)) (.load (.var .row))) (.load (.var .col)))) .nil))))))
      .skip)
    (.ret (.load (.var .keycode))))))

/-- `asdf_put_code` (asdf.c:90-93). -/
def fn_asdf_put_code : Fun where
  params := [(.code, (.int .u8))]
  result := none
  body :=
    (.expr (.call .asdf_buffer_put (.cons (.load (.obj .asdf_keycode_buffer)) (.cons (.load (.var .code)) .nil))))

/-- `asdf_putc` (asdf.c:111-119). -/
def fn_asdf_putc : Fun where
  params := [(.c, (.int .i8)), (.stream, .ptr)]
  result := some (.int .i16)
  body :=
    (.seq (.ite (.bin .eq (.num 10) (.load (.var .c)))
      (.expr (.call .asdf_putc (.cons (.num 13) (.cons (.load (.var .stream)) .nil))))
      .skip)
    (.seq (.expr (.call .asdf_buffer_put (.cons (.load (.obj .asdf_message_buffer)) (.cons (.cast .u8 (.load (.var .c))) .nil))))
    (.ret (.cast .i16 (.load (.var .c))))))

/-- `asdf_next_code` (asdf.c:141-151). -/
def fn_asdf_next_code : Fun where
  params := []
  result := some (.int .u8)
  body :=
    (.seq (.decl (.int .u8) .code (.call .asdf_buffer_get (.cons (.load (.obj .asdf_message_buffer)) .nil)))
    (.seq (.ite (.bin .eq (.num Mac.ASDF_INVALID_CODE) (.load (.var .code)))
      (.expr (.assign (.var .code) (.call .asdf_buffer_get (.cons (.load (.obj .asdf_keycode_buffer)) .nil))))
      (.expr (.call .asdf_arch_delay_ms (.cons (.load (.obj .asdf_print_delay_ms)) .nil))))
    (.ret (.load (.var .code)))))

/-- `asdf_set_print_delay` (asdf.c:170-173). -/
def fn_asdf_set_print_delay : Fun where
  params := [(.delay_ms, (.int .u8))]
  result := none
  body :=
    (.expr (.assign (.obj .asdf_print_delay_ms) (.load (.var .delay_ms))))

/-- `asdf_lookup_keycode` (asdf.c:190-193). -/
def fn_asdf_lookup_keycode : Fun where
  params := [(.row, (.int .u8)), (.col, (.int .u8))]
  result := some (.int .u8)
  body :=
    (.ret (.call .asdf_keymaps_get_code (.cons (.load (.var .row)) (.cons (.load (.var .col)) (.cons (.call .asdf_modifier_index .nil) .nil)))))

/-- `asdf_activate_action` (asdf.c:219-341). -/
def fn_asdf_activate_action : Fun where
  params := [(.keycode, (.int .u8))]
  result := none
  body :=
    (.switch (.load (.var .keycode))
    (.cons [Mac.ACTION_SHIFT] false (.seq (.expr (.call .asdf_modifier_shift_activate .nil))
      .brk)
    (.cons [Mac.ACTION_SHIFTLOCK_ON] false (.seq (.expr (.call .asdf_modifier_shiftlock_on_activate .nil))
      .brk)
    (.cons [Mac.ACTION_SHIFTLOCK_TOGGLE] false (.seq (.expr (.call .asdf_modifier_shiftlock_toggle_activate .nil))
      .brk)
    (.cons [Mac.ACTION_CAPS] false (.seq (.expr (.call .asdf_modifier_capslock_activate .nil))
      .brk)
    (.cons [Mac.ACTION_CTRL] false (.seq (.expr (.call .asdf_modifier_ctrl_activate .nil))
      .brk)
    (.cons [Mac.ACTION_REPEAT] false (.seq (.expr (.call .asdf_repeat_activate .nil))
      .brk)
    (.cons [Mac.ACTION_MAPSEL_0] false (.seq (.expr (.call .asdf_keymaps_map_select_0_set .nil))
      .brk)
    (.cons [Mac.ACTION_MAPSEL_1] false (.seq (.expr (.call .asdf_keymaps_map_select_1_set .nil))
      .brk)
    (.cons [Mac.ACTION_MAPSEL_2] false (.seq (.expr (.call .asdf_keymaps_map_select_2_set .nil))
      .brk)
    (.cons [Mac.ACTION_MAPSEL_3] false (.seq (.expr (.call .asdf_keymaps_map_select_3_set .nil))
      .brk)
    (.cons [Mac.ACTION_STROBE_POLARITY_SELECT] false (.seq (.expr (.call .asdf_arch_set_pos_strobe .nil))
      .brk)
    (.cons [Mac.ACTION_AUTOREPEAT_SELECT] false (.seq (.expr (.call .asdf_repeat_auto_on .nil))
      .brk)
    (.cons [Mac.ACTION_VLED1] false (.seq (.expr (.call .asdf_virtual_activate (.cons (.num Mac.VLED1) .nil)))
      .brk)
    (.cons [Mac.ACTION_VLED2] false (.seq (.expr (.call .asdf_virtual_activate (.cons (.num Mac.VLED2) .nil)))
      .brk)
    (.cons [Mac.ACTION_VLED3] false (.seq (.expr (.call .asdf_virtual_activate (.cons (.num Mac.VLED3) .nil)))
      .brk)
    (.cons [Mac.ACTION_VOUT1] false (.seq (.expr (.call .asdf_virtual_activate (.cons (.num Mac.VOUT1) .nil)))
      .brk)
    (.cons [Mac.ACTION_VOUT2] false (.seq (.expr (.call .asdf_virtual_activate (.cons (.num Mac.VOUT2) .nil)))
      .brk)
    (.cons [Mac.ACTION_VOUT3] false (.seq (.expr (.call .asdf_virtual_activate (.cons (.num Mac.VOUT3) .nil)))
      .brk)
    (.cons [Mac.ACTION_VOUT4] false (.seq (.expr (.call .asdf_virtual_activate (.cons (.num Mac.VOUT4) .nil)))
      .brk)
    (.cons [Mac.ACTION_VOUT5] false (.seq (.expr (.call .asdf_virtual_activate (.cons (.num Mac.VOUT5) .nil)))
      .brk)
    (.cons [Mac.ACTION_VOUT6] false (.seq (.expr (.call .asdf_virtual_activate (.cons (.num Mac.VOUT6) .nil)))
      .brk)
    (.cons [Mac.ACTION_NOTHING, Mac.ACTION_HERE_IS, Mac.ACTION_FN_1] false (.seq (.expr (.call .asdf_hook_execute (.cons (.num Mac.ASDF_HOOK_USER_1) .nil)))
      .brk)
    (.cons [Mac.ACTION_FN_2] false (.seq (.expr (.call .asdf_hook_execute (.cons (.num Mac.ASDF_HOOK_USER_2) .nil)))
      .brk)
    (.cons [Mac.ACTION_FN_3] false (.seq (.expr (.call .asdf_hook_execute (.cons (.num Mac.ASDF_HOOK_USER_3) .nil)))
      .brk)
    (.cons [Mac.ACTION_FN_4] false (.seq (.expr (.call .asdf_hook_execute (.cons (.num Mac.ASDF_HOOK_USER_4) .nil)))
      .brk)
    (.cons [Mac.ACTION_FN_5] false (.seq (.expr (.call .asdf_hook_execute (.cons (.num Mac.ASDF_HOOK_USER_5) .nil)))
      .brk)
    (.cons [Mac.ACTION_FN_6] false (.seq (.expr (.call .asdf_hook_execute (.cons (.num Mac.ASDF_HOOK_USER_6) .nil)))
      .brk)
    (.cons [Mac.ACTION_FN_7] false (.seq (.expr (.call .asdf_hook_execute (.cons (.num Mac.ASDF_HOOK_USER_7) .nil)))
      .brk)
    (.cons [Mac.ACTION_FN_8] false (.seq (.expr (.call .asdf_hook_execute (.cons (.num Mac.ASDF_HOOK_USER_8) .nil)))
      .brk)
    (.cons [Mac.ACTION_FN_9] false (.seq (.expr (.call .asdf_hook_execute (.cons (.num Mac.ASDF_HOOK_USER_9) .nil)))
      .brk)
    (.cons [Mac.ACTION_FN_10] false (.seq (.expr (.call .asdf_hook_execute (.cons (.num Mac.ASDF_HOOK_USER_10) .nil)))
      .brk)
    (.cons [] true .brk
    .nil)))))))))))))))))))))))))))))))))

/-- `asdf_deactivate_action` (asdf.c:361-403). -/
def fn_asdf_deactivate_action : Fun where
  params := [(.keycode, (.int .u8))]
  result := none
  body :=
    (.switch (.load (.var .keycode))
    (.cons [Mac.ACTION_SHIFT] false (.seq (.expr (.call .asdf_modifier_shift_deactivate .nil))
      .brk)
    (.cons [Mac.ACTION_CTRL] false (.seq (.expr (.call .asdf_modifier_ctrl_deactivate .nil))
      .brk)
    (.cons [Mac.ACTION_REPEAT] false (.seq (.expr (.call .asdf_repeat_deactivate .nil))
      .brk)
    (.cons [Mac.ACTION_MAPSEL_0] false (.seq (.expr (.call .asdf_keymaps_map_select_0_clear .nil))
      .brk)
    (.cons [Mac.ACTION_MAPSEL_1] false (.seq (.expr (.call .asdf_keymaps_map_select_1_clear .nil))
      .brk)
    (.cons [Mac.ACTION_MAPSEL_2] false (.seq (.expr (.call .asdf_keymaps_map_select_2_clear .nil))
      .brk)
    (.cons [Mac.ACTION_MAPSEL_3] false (.seq (.expr (.call .asdf_keymaps_map_select_3_clear .nil))
      .brk)
    (.cons [Mac.ACTION_STROBE_POLARITY_SELECT] false (.seq (.expr (.call .asdf_arch_set_neg_strobe .nil))
      .brk)
    (.cons [Mac.ACTION_AUTOREPEAT_SELECT] false (.seq (.expr (.call .asdf_repeat_auto_off .nil))
      .brk)
    (.cons [Mac.ACTION_NOTHING] true .brk
    .nil)))))))))))

/-- `asdf_activate_key` (asdf.c:421-435). -/
def fn_asdf_activate_key : Fun where
  params := [(.keycode, (.int .u8))]
  result := none
  body :=
    (.ite (.bin .gt (.load (.var .keycode)) (.num Mac.ASDF_ACTION))
    (.expr (.call .asdf_activate_action (.cons (.cast .u8 (.load (.var .keycode))) .nil)))
    (.seq (.expr (.call .asdf_put_code (.cons (.load (.var .keycode)) .nil)))
      (.ite (.bin .ne (.load (.obj .last_key)) (.load (.var .keycode)))
      (.seq (.expr (.assign (.obj .last_key) (.load (.var .keycode))))
        (.expr (.call .asdf_repeat_reset_count .nil)))
      .skip)))

/-- `asdf_deactivate_key` (asdf.c:453-464). -/
def fn_asdf_deactivate_key : Fun where
  params := [(.keycode, (.int .u8))]
  result := none
  body :=
    (.ite (.bin .gt (.load (.var .keycode)) (.num Mac.ASDF_ACTION))
    (.expr (.call .asdf_deactivate_action (.cons (.cast .u8 (.load (.var .keycode))) .nil)))
    (.ite (.bin .eq (.load (.obj .last_key)) (.load (.var .keycode)))
      (.expr (.assign (.obj .last_key) (.num Mac.ACTION_NOTHING)))
      .skip))

/-- `asdf_handle_key_press_or_release` (asdf.c:488-508). -/
def fn_asdf_handle_key_press_or_release : Fun where
  params := [(.row, (.int .u8)), (.col, (.int .u8)), (.key_was_pressed, (.int .u8))]
  result := none
  body :=
    (.seq (.decl .ptr .debounce_count (.addr (.idx (.idx (.obj .debounce_counters) (.load (.var .row))) (.load (.var .col)))))
    (.ite (.un .not (.update .sub (.deref (.load (.var .debounce_count))) (.num 1)))
    (.seq (.expr (.assign (.deref (.load (.var .debounce_count))) (.num Mac.ASDF_DEBOUNCE_TIME_MS)))
      (.ite (.load (.var .key_was_pressed))
      (.seq (.expr (.update .bor (.idx (.obj .last_stable_key_state) (.load (.var .row))) (.bin .shl (.num 1) (.load (.var .col)))))
        (.expr (.call .asdf_activate_key (.cons (.call .asdf_lookup_keycode (.cons (.load (.var .row)) (.cons (.load (.var .col)) .nil))) .nil))))
      (.seq (.expr (.update .band (.idx (.obj .last_stable_key_state) (.load (.var .row))) (.un .bnot (.bin .shl (.num 1) (.load (.var .col))))))
        (.expr (.call .asdf_deactivate_key (.cons (.call .asdf_lookup_keycode (.cons (.load (.var .row)) (.cons (.load (.var .col)) .nil))) .nil))))))
    .skip))

/-- `asdf_handle_key_held_pressed` (asdf.c:531-540). -/
def fn_asdf_handle_key_held_pressed : Fun where
  params := [(.row, (.int .u8)), (.col, (.int .u8))]
  result := none
  body :=
    (.ite (.bin .eq (.call .asdf_lookup_keycode (.cons (.load (.var .row)) (.cons (.load (.var .col)) .nil))) (.load (.obj .last_key)))
    (.ite (.call .asdf_repeat .nil)
      (.expr (.call .asdf_activate_key (.cons (.load (.obj .last_key)) .nil)))
      .skip)
    .skip)

/-- `asdf_keyscan` (asdf.c:564-587). -/
def fn_asdf_keyscan : Fun where
  params := []
  result := none
  body :=
    (.seq (.decl .ptr .row_reader (.call .asdf_hook_get (.cons (.num Mac.ASDF_HOOK_ROW_SCANNER) .nil)))
    (.seq (.expr (.call .asdf_hook_execute (.cons (.num Mac.ASDF_HOOK_EACH_SCAN) .nil)))
    (.block (.seq (.decl (.int .u8) .row (.num 0))
    (.loop (.bin .lt (.load (.var .row)) (.call .asdf_keymaps_num_rows .nil)) (.post .add (.var .row))
    (.block (.seq (.decl (.int .u8) .row_key_state (.callp (.load (.var .row_reader)) (.cons (.load (.var .row)) .nil)))
      (.seq (.decl (.int .u8) .changed (.bin .bxor (.load (.var .row_key_state)) (.load (.idx (.obj .last_stable_key_state) (.load (.var .row))))))
      (.block (.seq (.decl (.int .u8) .col (.num 0))
      (.loop (.bin .lt (.load (.var .col)) (.call .asdf_keymaps_num_cols .nil)) (.post .add (.var .col))
      (.seq (.ite (.bin .band (.load (.var .changed)) (.num 1))
          (.expr (.call .asdf_handle_key_press_or_release (.cons (.load (.var .row)) (.cons (.load (.var .col)) (.cons (.bin .band (.load (.var .row_key_state)) (.num 1)) .nil)))))
          (.ite (.bin .band (.load (.var .row_key_state)) (.num 1))
            (.expr (.call .asdf_handle_key_held_pressed (.cons (.load (.var .row)) (.cons (.load (.var .col)) .nil))))
            .skip))
        (.seq (.expr (.update .shr (.var .changed) (.num 1)))
        (.expr (.update .shr (.var .row_key_state) (.num 1))))))))))))))))

/-- `asdf_apply_all_actions` (asdf.c:605-626). -/
def fn_asdf_apply_all_actions : Fun where
  params := []
  result := none
  body :=
    (.seq (.decl .ptr .row_reader (.call .asdf_hook_get (.cons (.num Mac.ASDF_HOOK_ROW_SCANNER) .nil)))
    (.block (.seq (.decl (.int .u8) .row (.num 0))
    (.loop (.bin .lt (.load (.var .row)) (.call .asdf_keymaps_num_rows .nil)) (.post .add (.var .row))
    (.block (.seq (.decl (.int .u8) .row_key_state (.callp (.load (.var .row_reader)) (.cons (.load (.var .row)) .nil)))
      (.seq (.expr (.assign (.idx (.obj .last_stable_key_state) (.load (.var .row))) (.load (.var .row_key_state))))
      (.block (.seq (.decl (.int .u8) .col (.num 0))
      (.loop (.bin .lt (.load (.var .col)) (.call .asdf_keymaps_num_cols .nil)) (.post .add (.var .col))
      (.block (.seq (.decl (.int .u8) .code (.call .asdf_lookup_keycode (.cons (.load (.var .row)) (.cons (.load (.var .col)) .nil))))
        (.seq (.ite (.bin .band (.load (.var .row_key_state)) (.num 1))
          (.expr (.call .asdf_activate_action (.cons (.load (.var .code)) .nil)))
          (.expr (.call .asdf_deactivate_action (.cons (.load (.var .code)) .nil))))
        (.expr (.update .shr (.var .row_key_state) (.num 1))))))))))))))))

/-- `asdf_init` (asdf.c:642-663). -/
def fn_asdf_init : Fun where
  params := []
  result := none
  body :=
    (.seq (.expr (.assign (.obj .last_key) (.num Mac.ACTION_NOTHING)))
    (.seq (.expr (.call .asdf_buffer_init .nil))
    (.seq (.expr (.call .asdf_repeat_init .nil))
    (.seq (.expr (.call .asdf_keymaps_init .nil))
    (.seq (.expr (.assign (.obj .asdf_keycode_buffer) (.call .asdf_buffer_new (.cons (.num Mac.ASDF_KEYCODE_BUFFER_SIZE) .nil))))
    (.seq (.expr (.assign (.obj .asdf_message_buffer) (.call .asdf_buffer_new (.cons (.num Mac.ASDF_MESSAGE_BUFFER_SIZE) .nil))))
    (.block (.seq (.decl (.int .u8) .row (.num 0))
    (.loop (.bin .lt (.load (.var .row)) (.num Mac.ASDF_MAX_ROWS)) (.post .add (.var .row))
    (.seq (.expr (.assign (.idx (.obj .last_stable_key_state) (.load (.var .row))) (.num 0)))
      (.block (.seq (.decl (.int .u8) .col (.num 0))
      (.loop (.bin .lt (.load (.var .col)) (.num Mac.ASDF_MAX_COLS)) (.post .add (.var .col))
      (.expr (.assign (.idx (.idx (.obj .debounce_counters) (.load (.var .row))) (.load (.var .col))) (.num Mac.ASDF_DEBOUNCE_TIME_MS))))))))))))))))

/-- `main` (main.c:61-80). -/
def fn_main : Fun where
  params := []
  result := some (.int .i16)
  body :=
    (.seq (.expr (.call .asdf_init .nil))
    (.loop (.num 1) (.num 0)
    (.ite (.call .asdf_arch_tick .nil)
      (.block (.seq (.decl (.int .u8) .code (.call .asdf_next_code .nil))
        (.seq (.ite (.bin .lt (.load (.var .code)) (.num Mac.ASDF_INVALID_CODE))
          (.block (.seq (.decl .ptr .output_function (.call .asdf_hook_get (.cons (.num Mac.ASDF_HOOK_OUTPUT) .nil)))
            (.expr (.callp (.load (.var .output_function)) (.cons (.load (.var .code)) .nil)))))
          .skip)
        (.expr (.call .asdf_keyscan .nil)))))
      .skip)))

/-- `asdf_keymap_setup` (asdf_keymap_setup.c:58-68). -/
def fn_asdf_keymap_setup : Fun where
  params := [(.index, (.int .u8))]
  result := none
  body :=
    (.switch (.load (.var .index))
    (.cons [0] true (.seq (.expr (.call .setup_classic_keymap .nil))
      .brk)
    (.cons [1] false (.seq (.expr (.call .setup_classic_caps_keymap .nil))
      .brk)
    (.cons [2] false (.seq (.expr (.call .setup_apple2_keymap .nil))
      .brk)
    (.cons [3] false (.seq (.expr (.call .setup_apple2_caps_keymap .nil))
      .brk)
    (.cons [4] false (.seq (.expr (.call .setup_sol_keymap .nil))
      .brk)
    (.cons [5] false (.seq (.expr (.call .setup_ace1000_keymap .nil))
      .brk)
    .nil)))))))

/-- `asdf_keymap_valid` (asdf_keymap_setup.c:86-105). -/
def fn_asdf_keymap_valid : Fun where
  params := [(.index, (.int .u8))]
  result := some (.int .u8)
  body :=
    (.seq (.decl (.int .u8) .valid (.num 0))
    (.seq (.switch (.load (.var .index))
      (.cons [0, 1, 2, 3, 4, 5] false (.seq (.expr (.assign (.var .valid) (.num 1)))
        .brk)
      (.cons [] true (.seq (.expr (.assign (.var .valid) (.num 0)))
        .brk)
      .nil)))
    (.ret (.load (.var .valid)))))

/-- `classic_add_map` (Keymaps/asdf_keymap_classic_add_map.c:142-151). -/
def fn_classic_add_map : Fun where
  params := [(.map_index, (.int .u8)), (.modifier_index, (.int .u8))]
  result := none
  body :=
    (.seq (.decl (.mat (.num Mac.CLASSIC_NUM_COLS)) .matrix (.load (.idx (.obj .classic_maps) (.load (.var .map_index)))))
    (.expr (.call .asdf_keymaps_add_map (.cons (.addr (.pidx (.row (.load (.var .matrix)) (.num 0)) (.num 0))) (.cons (.load (.var .modifier_index)) (.cons (.cast .u8 (.num Mac.CLASSIC_NUM_ROWS)) (.cons (.cast .u8 (.num Mac.CLASSIC_NUM_COLS)) .nil)))))))

/-- `classic_id_message` (Keymaps/asdf_keymap_classic.c:35-37). -/
def fn_classic_id_message : Fun where
  params := []
  result := none
  body :=
    (.expr (.call .asdf_print (.cons (.str [0x5B, 0x4B, 0x65, 0x79, 0x6D, 0x61, 0x70, 0x3A, 0x20, 0x63, 0x6C, 0x61, 0x73, 0x73, 0x69, 0x63, 0x5D, 0x0A]) .nil)))

/-- `setup_classic_keymap` (Keymaps/asdf_keymap_classic.c:54-80). -/
def fn_setup_classic_keymap : Fun where
  params := []
  result := none
  body :=
    (.seq (.expr (.call .asdf_set_print_delay (.cons (.num Mac.ASDF_CLASSIC_PRINT_SPEED) .nil)))
    (.seq (.expr (.call .classic_add_map (.cons (.num Mac.CLASSIC_PLAIN_MAP) (.cons (.num Mac.MOD_PLAIN_MAP) .nil))))
    (.seq (.expr (.call .classic_add_map (.cons (.num Mac.CLASSIC_CAPS_MAP) (.cons (.num Mac.MOD_CAPS_MAP) .nil))))
    (.seq (.expr (.call .classic_add_map (.cons (.num Mac.CLASSIC_SHIFT_MAP) (.cons (.num Mac.MOD_SHIFT_MAP) .nil))))
    (.seq (.expr (.call .classic_add_map (.cons (.num Mac.CLASSIC_CTRL_MAP) (.cons (.num Mac.MOD_CTRL_MAP) .nil))))
    (.seq (.expr (.call .asdf_hook_assign (.cons (.num Mac.CLASSIC_ID_MESSAGE_HOOK) (.cons (.fn .classic_id_message) .nil))))
    (.seq (.expr (.call .asdf_hook_assign (.cons (.num Mac.APPLESOFT_KEYBOARD_TEST_HOOK) (.cons (.fn .applesoft_keyboard_test) .nil))))
    (.seq (.expr (.call .asdf_virtual_assign (.cons (.num Mac.CLASSIC_VIRTUAL_POWER_LED) (.cons (.num Mac.CLASSIC_POWER_LED) (.cons (.num Mac.V_NOFUNC) (.cons (.num Mac.CLASSIC_POWER_LED_INIT_VALUE) .nil))))))
    (.seq (.expr (.call .asdf_virtual_assign (.cons (.num Mac.VCAPS_LED) (.cons (.num Mac.CLASSIC_CAPS_LED) (.cons (.num Mac.V_NOFUNC) (.cons (.num Mac.CLASSIC_CAPS_LED_INIT_VALUE) .nil))))))
    (.seq (.expr (.call .asdf_virtual_assign (.cons (.num Mac.CLASSIC_VIRTUAL_RESET) (.cons (.num Mac.CLASSIC_RESET_OUTPUT) (.cons (.num Mac.V_PULSE_SHORT) (.cons (.un .not (.num Mac.CLASSIC_RESET_ACTIVE_VALUE)) .nil))))))
    (.expr (.call .asdf_virtual_assign (.cons (.num Mac.CLASSIC_VIRTUAL_CLR_SCR) (.cons (.num Mac.CLASSIC_CLR_SCR_OUT) (.cons (.num Mac.V_PULSE_LONG) (.cons (.un .not (.num Mac.CLASSIC_CLR_SCR_ACTIVE_VALUE)) .nil))))))))))))))))

/-- `classic_caps_id_message` (Keymaps/asdf_keymap_classic_caps.c:37-39). -/
def fn_classic_caps_id_message : Fun where
  params := []
  result := none
  body :=
    (.expr (.call .asdf_print (.cons (.str [0x5B, 0x4B, 0x65, 0x79, 0x6D, 0x61, 0x70, 0x3A, 0x20, 0x63, 0x6C, 0x61, 0x73, 0x73, 0x69, 0x63, 0x5D, 0x0A]) .nil)))

/-- `setup_classic_caps_keymap` (Keymaps/asdf_keymap_classic_caps.c:57-83). -/
def fn_setup_classic_caps_keymap : Fun where
  params := []
  result := none
  body :=
    (.seq (.expr (.call .asdf_set_print_delay (.cons (.num Mac.ASDF_CLASSIC_PRINT_SPEED) .nil)))
    (.seq (.expr (.call .classic_add_map (.cons (.num Mac.CLASSIC_CAPS_MAP) (.cons (.num Mac.MOD_PLAIN_MAP) .nil))))
    (.seq (.expr (.call .classic_add_map (.cons (.num Mac.CLASSIC_CAPS_MAP) (.cons (.num Mac.MOD_CAPS_MAP) .nil))))
    (.seq (.expr (.call .classic_add_map (.cons (.num Mac.CLASSIC_SHIFT_MAP) (.cons (.num Mac.MOD_SHIFT_MAP) .nil))))
    (.seq (.expr (.call .classic_add_map (.cons (.num Mac.CLASSIC_CTRL_MAP) (.cons (.num Mac.MOD_CTRL_MAP) .nil))))
    (.seq (.expr (.call .asdf_hook_assign (.cons (.num Mac.CLASSIC_ID_MESSAGE_HOOK) (.cons (.fn .classic_caps_id_message) .nil))))
    (.seq (.expr (.call .asdf_hook_assign (.cons (.num Mac.APPLESOFT_KEYBOARD_TEST_HOOK) (.cons (.fn .applesoft_keyboard_test) .nil))))
    (.seq (.expr (.call .asdf_virtual_assign (.cons (.num Mac.CLASSIC_VIRTUAL_POWER_LED) (.cons (.num Mac.CLASSIC_POWER_LED) (.cons (.num Mac.V_NOFUNC) (.cons (.num Mac.CLASSIC_POWER_LED_INIT_VALUE) .nil))))))
    (.seq (.expr (.call .asdf_virtual_assign (.cons (.num Mac.CLASSIC_VIRTUAL_POWER_LED) (.cons (.num Mac.CLASSIC_CAPS_LED) (.cons (.num Mac.V_NOFUNC) (.cons (.num Mac.CLASSIC_CAPS_LED_INIT_VALUE) .nil))))))
    (.seq (.expr (.call .asdf_virtual_assign (.cons (.num Mac.CLASSIC_VIRTUAL_RESET) (.cons (.num Mac.CLASSIC_RESET_OUTPUT) (.cons (.num Mac.V_PULSE_SHORT) (.cons (.un .not (.num Mac.CLASSIC_RESET_ACTIVE_VALUE)) .nil))))))
    (.expr (.call .asdf_virtual_assign (.cons (.num Mac.CLASSIC_VIRTUAL_CLR_SCR) (.cons (.num Mac.CLASSIC_CLR_SCR_OUT) (.cons (.num Mac.V_PULSE_LONG) (.cons (.un .not (.num Mac.CLASSIC_CLR_SCR_ACTIVE_VALUE)) .nil))))))))))))))))

/-- `applesoft_keyboard_test` (Keymaps/asdf_keymap_apple2_add_map.c:152-155). -/
def fn_applesoft_keyboard_test : Fun where
  params := []
  result := none
  body :=
    (.expr (.call .asdf_print (.cons (.str [0x31, 0x30, 0x47, 0x45, 0x54, 0x41, 0x24, 0x28, 0x30, 0x29, 0x3A, 0x41, 0x3D, 0x41, 0x53, 0x43, 0x28, 0x41, 0x24, 0x28, 0x30, 0x29, 0x29, 0x3A, 0x41, 0x24, 0x28, 0x31, 0x29, 0x3D, 0x22, 0x43, 0x54, 0x4C, 0x2B, 0x22, 0x2B, 0x43, 0x48, 0x52, 0x24, 0x28, 0x41, 0x20, 0x2B, 0x20, 0x36, 0x34, 0x29, 0x3A, 0x3F, 0x22, 0x27, 0x22, 0x3B, 0x41, 0x24, 0x28, 0x41, 0x3C, 0x33, 0x32, 0x29, 0x3B, 0x22, 0x27, 0x20, 0x3D, 0x20, 0x22, 0x3B, 0x41, 0x3A, 0x49, 0x46, 0x41, 0x3C, 0x3E, 0x33, 0x47, 0x4F, 0x54, 0x4F, 0x31, 0x30, 0x0D]) .nil)))

/-- `apple_add_map` (Keymaps/asdf_keymap_apple2_add_map.c:157-166). -/
def fn_apple_add_map : Fun where
  params := [(.map_index, (.int .u8)), (.modifier_index, (.int .u8))]
  result := none
  body :=
    (.seq (.decl (.mat (.num Mac.ASDF_APPLE2_NUM_COLS)) .matrix (.load (.idx (.obj .apple_maps) (.load (.var .map_index)))))
    (.expr (.call .asdf_keymaps_add_map (.cons (.addr (.pidx (.row (.load (.var .matrix)) (.num 0)) (.num 0))) (.cons (.load (.var .modifier_index)) (.cons (.cast .u8 (.num Mac.ASDF_APPLE2_NUM_ROWS)) (.cons (.cast .u8 (.num Mac.ASDF_APPLE2_NUM_COLS)) .nil)))))))

/-- `apple2_id_message` (Keymaps/asdf_keymap_apple2.c:50-53). -/
def fn_apple2_id_message : Fun where
  params := []
  result := none
  body :=
    (.expr (.call .asdf_print (.cons (.str [0x5B, 0x4B, 0x65, 0x79, 0x6D, 0x61, 0x70, 0x3A, 0x20, 0x41, 0x70, 0x70, 0x6C, 0x65, 0x20, 0x32, 0x20, 0x28, 0x75, 0x2F, 0x6C, 0x20, 0x63, 0x61, 0x73, 0x65, 0x29, 0x5D]) .nil)))

/-- `setup_apple2_keymap` (Keymaps/asdf_keymap_apple2.c:55-84). -/
def fn_setup_apple2_keymap : Fun where
  params := []
  result := none
  body :=
    (.seq (.expr (.call .asdf_set_print_delay (.cons (.num Mac.APPLE2_PRINT_DELAY) .nil)))
    (.seq (.expr (.call .apple_add_map (.cons (.num Mac.APPLE_PLAIN_MAP) (.cons (.num Mac.MOD_PLAIN_MAP) .nil))))
    (.seq (.expr (.call .apple_add_map (.cons (.num Mac.APPLE_CAPS_MAP) (.cons (.num Mac.MOD_CAPS_MAP) .nil))))
    (.seq (.expr (.call .apple_add_map (.cons (.num Mac.APPLE_SHIFT_MAP) (.cons (.num Mac.MOD_SHIFT_MAP) .nil))))
    (.seq (.expr (.call .apple_add_map (.cons (.num Mac.APPLE_CTRL_MAP) (.cons (.num Mac.MOD_CTRL_MAP) .nil))))
    (.seq (.expr (.call .asdf_hook_assign (.cons (.num Mac.APPLESOFT_KEYBOARD_TEST) (.cons (.fn .applesoft_keyboard_test) .nil))))
    (.seq (.expr (.call .asdf_hook_assign (.cons (.num Mac.APPLE2_ID_MESSAGE) (.cons (.fn .apple2_id_message) .nil))))
    (.seq (.expr (.call .asdf_virtual_assign (.cons (.num Mac.VCAPS_LED) (.cons (.num Mac.APPLE_POWER_LED) (.cons (.num Mac.V_NOFUNC) (.cons (.num Mac.APPLE_POWER_LED_INIT_VALUE) .nil))))))
    (.seq (.expr (.call .asdf_virtual_assign (.cons (.num Mac.APPLE_VIRTUAL_DISABLED_LED) (.cons (.num Mac.APPLE_DISABLED_LED) (.cons (.num Mac.V_NOFUNC) (.cons (.num Mac.APPLE_DISABLED_INIT_VALUE) .nil))))))
    (.seq (.expr (.call .asdf_virtual_assign (.cons (.num Mac.APPLE_VIRTUAL_RESET) (.cons (.num Mac.APPLE_RESET_OUTPUT) (.cons (.num Mac.V_PULSE_SHORT) (.cons (.un .not (.num Mac.APPLE_RESET_ACTIVE_VALUE)) .nil))))))
    (.seq (.expr (.call .asdf_virtual_assign (.cons (.num Mac.APPLE_VIRTUAL_CLR_SCR) (.cons (.num Mac.APPLE_CLR_SCR_OUTPUT) (.cons (.num Mac.V_PULSE_LONG) (.cons (.un .not (.num Mac.APPLE_CLR_SCR_ACTIVE_VALUE)) .nil))))))
    (.expr (.call .asdf_modifier_capslock_activate .nil)))))))))))))

/-- `apple2_caps_id_message` (Keymaps/asdf_keymap_apple2_caps.c:34-36). -/
def fn_apple2_caps_id_message : Fun where
  params := []
  result := none
  body :=
    (.expr (.call .asdf_print (.cons (.str [0x5B, 0x4B, 0x65, 0x79, 0x6D, 0x61, 0x70, 0x3A, 0x20, 0x41, 0x70, 0x70, 0x6C, 0x65, 0x20, 0x32, 0x20, 0x43, 0x41, 0x50, 0x53, 0x5D]) .nil)))

/-- `setup_apple2_caps_keymap` (Keymaps/asdf_keymap_apple2_caps.c:52-76). -/
def fn_setup_apple2_caps_keymap : Fun where
  params := []
  result := none
  body :=
    (.seq (.expr (.call .asdf_set_print_delay (.cons (.num Mac.APPLE2_PRINT_DELAY) .nil)))
    (.seq (.expr (.call .apple_add_map (.cons (.num Mac.APPLE_CAPS_MAP) (.cons (.num Mac.MOD_PLAIN_MAP) .nil))))
    (.seq (.expr (.call .apple_add_map (.cons (.num Mac.APPLE_CAPS_MAP) (.cons (.num Mac.MOD_CAPS_MAP) .nil))))
    (.seq (.expr (.call .apple_add_map (.cons (.num Mac.APPLE_CAPS_SHIFT_MAP) (.cons (.num Mac.MOD_SHIFT_MAP) .nil))))
    (.seq (.expr (.call .apple_add_map (.cons (.num Mac.APPLE_CTRL_MAP) (.cons (.num Mac.MOD_CTRL_MAP) .nil))))
    (.seq (.expr (.call .asdf_hook_assign (.cons (.num Mac.APPLESOFT_KEYBOARD_TEST') (.cons (.fn .applesoft_keyboard_test) .nil))))
    (.seq (.expr (.call .asdf_hook_assign (.cons (.num Mac.APPLE2_CAPS_ID_MESSAGE) (.cons (.fn .apple2_caps_id_message) .nil))))
    (.seq (.expr (.call .asdf_virtual_assign (.cons (.num Mac.APPLE_VIRTUAL_POWER_LED) (.cons (.num Mac.APPLE_POWER_LED) (.cons (.num Mac.V_NOFUNC) (.cons (.num Mac.APPLE_POWER_LED_INIT_VALUE) .nil))))))
    (.seq (.expr (.call .asdf_virtual_assign (.cons (.num Mac.APPLE_VIRTUAL_DISABLED_LED) (.cons (.num Mac.APPLE_DISABLED_LED) (.cons (.num Mac.V_NOFUNC) (.cons (.num Mac.APPLE_DISABLED_INIT_VALUE) .nil))))))
    (.seq (.expr (.call .asdf_virtual_assign (.cons (.num Mac.APPLE_VIRTUAL_RESET) (.cons (.num Mac.APPLE_RESET_OUTPUT) (.cons (.num Mac.V_PULSE_SHORT) (.cons (.un .not (.num Mac.APPLE_RESET_ACTIVE_VALUE)) .nil))))))
    (.expr (.call .asdf_virtual_assign (.cons (.num Mac.APPLE_VIRTUAL_CLR_SCR) (.cons (.num Mac.APPLE_CLR_SCR_OUTPUT) (.cons (.num Mac.V_PULSE_LONG) (.cons (.un .not (.num Mac.APPLE_CLR_SCR_ACTIVE_VALUE)) .nil))))))))))))))))

/-- `sol_add_map` (Keymaps/asdf_keymap_sol.c:137-142). -/
def fn_sol_add_map : Fun where
  params := [(.matrix, (.mat (.num Mac.ASDF_SOL_NUM_COLS))), (.modifier_index, (.int .u8))]
  result := none
  body :=
    (.expr (.call .asdf_keymaps_add_map (.cons (.addr (.pidx (.row (.load (.var .matrix)) (.num 0)) (.num 0))) (.cons (.load (.var .modifier_index)) (.cons (.cast .u8 (.num Mac.ASDF_SOL_NUM_ROWS)) (.cons (.cast .u8 (.num Mac.ASDF_SOL_NUM_COLS)) .nil))))))

/-- `sol_id_message` (Keymaps/asdf_keymap_sol.c:145-148). -/
def fn_sol_id_message : Fun where
  params := []
  result := none
  body :=
    (.expr (.call .asdf_print (.cons (.str [0x5B, 0x4B, 0x65, 0x79, 0x62, 0x64, 0x3A, 0x20, 0x53, 0x6F, 0x6C, 0x2D, 0x32, 0x30, 0x5D]) .nil)))

/-- `setup_sol_keymap` (Keymaps/asdf_keymap_sol.c:150-183). -/
def fn_setup_sol_keymap : Fun where
  params := []
  result := none
  body :=
    (.seq (.expr (.call .sol_add_map (.cons (.tab tab_sol_plain_map Mac.ASDF_SOL_NUM_COLS) (.cons (.num Mac.MOD_PLAIN_MAP) .nil))))
    (.seq (.expr (.call .sol_add_map (.cons (.tab tab_sol_caps_map Mac.ASDF_SOL_NUM_COLS) (.cons (.num Mac.MOD_CAPS_MAP) .nil))))
    (.seq (.expr (.call .sol_add_map (.cons (.tab tab_sol_shift_map Mac.ASDF_SOL_NUM_COLS) (.cons (.num Mac.MOD_SHIFT_MAP) .nil))))
    (.seq (.expr (.call .sol_add_map (.cons (.tab tab_sol_ctrl_map Mac.ASDF_SOL_NUM_COLS) (.cons (.num Mac.MOD_CTRL_MAP) .nil))))
    (.seq (.expr (.call .asdf_set_print_delay (.cons (.num Mac.SOL_PRINT_DELAY) .nil)))
    (.seq (.expr (.call .asdf_virtual_assign (.cons (.num Mac.VCAPS_LED) (.cons (.num Mac.SOL_KBD_LED_UPPERCASE) (.cons (.num Mac.V_NOFUNC) (.cons (.num Mac.SOL_KBD_LED_OFF) .nil))))))
    (.seq (.expr (.call .asdf_virtual_assign (.cons (.num Mac.VSHIFT_LED) (.cons (.num Mac.SOL_KBD_LED_SHIFTLOCK) (.cons (.num Mac.V_NOFUNC) (.cons (.num Mac.SOL_KBD_LED_OFF) .nil))))))
    (.seq (.expr (.call .asdf_virtual_assign (.cons (.num Mac.SOL_KBD_VLOCAL) (.cons (.num Mac.SOL_KBD_TTLOUT_LOCAL) (.cons (.num Mac.V_TOGGLE) (.cons (.num Mac.SOL_KBD_TTL_HIGH) .nil))))))
    (.seq (.expr (.call .asdf_virtual_assign (.cons (.num Mac.SOL_KBD_VLOCAL) (.cons (.num Mac.SOL_KBD_LED_LOCAL) (.cons (.num Mac.V_TOGGLE) (.cons (.num Mac.SOL_KBD_LED_OFF) .nil))))))
    (.seq (.expr (.call .asdf_virtual_assign (.cons (.num Mac.SOL_KBD_VRESET) (.cons (.num Mac.SOL_KBD_TTLOUT_RESET) (.cons (.num Mac.V_PULSE_SHORT) (.cons (.num Mac.SOL_KBD_TTL_HIGH) .nil))))))
    (.seq (.expr (.call .asdf_virtual_assign (.cons (.num Mac.SOL_KBD_VBREAK) (.cons (.num Mac.SOL_KBD_TTLOUT_BREAK) (.cons (.num Mac.V_PULSE_LONG) (.cons (.num Mac.SOL_KBD_TTL_HIGH) .nil))))))
    (.seq (.expr (.call .asdf_modifier_capslock_activate .nil))
    (.seq (.expr (.call .asdf_arch_set_neg_strobe .nil))
    (.expr (.call .asdf_hook_assign (.cons (.num Mac.SOL_ID_MESSAGE_HOOK) (.cons (.fn .sol_id_message) .nil)))))))))))))))))

/-- `ace1000_add_map` (Keymaps/asdf_keymap_ace1000_add_map.c:102-111). -/
def fn_ace1000_add_map : Fun where
  params := [(.map_index, (.int .u8)), (.modifier_index, (.int .u8))]
  result := none
  body :=
    (.seq (.decl (.mat (.num Mac.ACE1000_NUM_COLS)) .matrix (.load (.idx (.obj .ace1000_maps) (.load (.var .map_index)))))
    (.expr (.call .asdf_keymaps_add_map (.cons (.addr (.pidx (.row (.load (.var .matrix)) (.num 0)) (.num 0))) (.cons (.load (.var .modifier_index)) (.cons (.cast .u8 (.num Mac.ACE1000_NUM_ROWS)) (.cons (.cast .u8 (.num Mac.ACE1000_NUM_COLS)) .nil)))))))

/-- `ace1000_keyboard_test` (Keymaps/asdf_keymap_ace1000_add_map.c:113-116). -/
def fn_ace1000_keyboard_test : Fun where
  params := []
  result := none
  body :=
    (.expr (.call .asdf_print (.cons (.str [0x31, 0x30, 0x47, 0x45, 0x54, 0x41, 0x24, 0x28, 0x30, 0x29, 0x3A, 0x41, 0x3D, 0x41, 0x53, 0x43, 0x28, 0x41, 0x24, 0x28, 0x30, 0x29, 0x29, 0x3A, 0x41, 0x24, 0x28, 0x31, 0x29, 0x3D, 0x22, 0x43, 0x54, 0x4C, 0x2B, 0x22, 0x2B, 0x43, 0x48, 0x52, 0x24, 0x28, 0x41, 0x20, 0x2B, 0x20, 0x36, 0x34, 0x29, 0x3A, 0x3F, 0x22, 0x27, 0x22, 0x3B, 0x41, 0x24, 0x28, 0x41, 0x3C, 0x33, 0x32, 0x29, 0x3B, 0x22, 0x27, 0x20, 0x3D, 0x20, 0x22, 0x3B, 0x41, 0x3A, 0x49, 0x46, 0x41, 0x3C, 0x3E, 0x33, 0x47, 0x4F, 0x54, 0x4F, 0x31, 0x30, 0x0D]) .nil)))

/-- `ace1000_id_message` (Keymaps/asdf_keymap_ace1000.c:37-39). -/
def fn_ace1000_id_message : Fun where
  params := []
  result := none
  body :=
    (.expr (.call .asdf_print (.cons (.str [0x5B, 0x4B, 0x65, 0x79, 0x6D, 0x61, 0x70, 0x3A, 0x20, 0x61, 0x63, 0x65, 0x31, 0x30, 0x30, 0x30, 0x5D, 0x0A]) .nil)))

/-- `setup_ace1000_keymap` (Keymaps/asdf_keymap_ace1000.c:56-85). -/
def fn_setup_ace1000_keymap : Fun where
  params := []
  result := none
  body :=
    (.seq (.expr (.call .asdf_set_print_delay (.cons (.num Mac.ASDF_ACE1000_PRINT_SPEED) .nil)))
    (.seq (.expr (.call .ace1000_add_map (.cons (.num Mac.ACE1000_PLAIN_MAP) (.cons (.num Mac.MOD_PLAIN_MAP) .nil))))
    (.seq (.expr (.call .ace1000_add_map (.cons (.num Mac.ACE1000_CAPS_MAP) (.cons (.num Mac.MOD_CAPS_MAP) .nil))))
    (.seq (.expr (.call .ace1000_add_map (.cons (.num Mac.ACE1000_SHIFT_MAP) (.cons (.num Mac.MOD_SHIFT_MAP) .nil))))
    (.seq (.expr (.call .ace1000_add_map (.cons (.num Mac.ACE1000_CTRL_MAP) (.cons (.num Mac.MOD_CTRL_MAP) .nil))))
    (.seq (.expr (.call .asdf_hook_assign (.cons (.num Mac.ACE1000_ID_MESSAGE_HOOK) (.cons (.fn .ace1000_id_message) .nil))))
    (.seq (.expr (.call .asdf_hook_assign (.cons (.num Mac.APPLESOFT_KEYBOARD_TEST_HOOK) (.cons (.fn .ace1000_keyboard_test) .nil))))
    (.seq (.expr (.call .asdf_virtual_assign (.cons (.num Mac.ACE1000_VIRTUAL_POWER_LED) (.cons (.num Mac.ACE1000_POWER_LED) (.cons (.num Mac.V_NOFUNC) (.cons (.num Mac.ACE1000_POWER_LED_INIT_VALUE) .nil))))))
    (.seq (.expr (.call .asdf_virtual_assign (.cons (.num Mac.VCAPS_LED) (.cons (.num Mac.ACE1000_CAPS_LED) (.cons (.num Mac.V_NOFUNC) (.cons (.num Mac.ACE1000_CAPS_LED_INIT_VALUE) .nil))))))
    (.seq (.expr (.call .asdf_virtual_assign (.cons (.num Mac.ACE1000_VIRTUAL_RESET) (.cons (.num Mac.ACE1000_RESET_OUTPUT) (.cons (.num Mac.V_PULSE_SHORT) (.cons (.un .not (.num Mac.ACE1000_RESET_ACTIVE_VALUE)) .nil))))))
    (.seq (.expr (.call .asdf_virtual_assign (.cons (.num Mac.ACE1000_VIRTUAL_CLR_SCR) (.cons (.num Mac.ACE1000_CLR_SCR_OUT) (.cons (.num Mac.V_PULSE_LONG) (.cons (.un .not (.num Mac.ACE1000_CLR_SCR_ACTIVE_VALUE)) .nil))))))
    (.expr (.call .asdf_modifier_capslock_activate .nil)))))))))))))

/-! ## Static objects -/

/-- `buffer_pool` (asdf_buffer.c:57). -/
def init_buffer_pool : Tree :=
  (.arr (List.replicate 144 (.leaf (.int .u8 0))))

/-- `buffers` (asdf_buffer.c:61). -/
def init_buffers : Tree :=
  (.arr (List.replicate 4 (.struct [(.buf, (.leaf .null)), (.size, (.leaf (.int .i16 0))), (.head, (.leaf (.int .u8 0))), (.tail, (.leaf (.int .u8 0))), (.count, (.leaf (.int .u8 0)))])))

/-- `buffer_pool_next_available` (asdf_buffer.c:64). -/
def init_buffer_pool_next_available : Tree :=
  (.leaf (.int .i16 0))

/-- `next_handle` (asdf_buffer.c:67). -/
def init_next_handle : Tree :=
  (.leaf (.int .i8 0))

/-- `repeat_state` (asdf_repeat.c:57). -/
def init_repeat_state : Tree :=
  (.leaf (.int .u16 0))

/-- `base_repeat_state` (asdf_repeat.c:62). -/
def init_base_repeat_state : Tree :=
  (.leaf (.int .u16 0))

/-- `key_repeat_timer` (asdf_repeat.c:65). -/
def init_key_repeat_timer : Tree :=
  (.leaf (.int .u16 0))

/-- `physical_device_table` (asdf_physical.c:50). -/
def init_physical_device_table : Tree :=
  (.arr [(.struct [(.handler, (.leaf (.fn .asdf_arch_null_output))), (.shadow, (.leaf (.int .u8 0))), (.next, (.leaf (.int .u8 0)))]),
    (.struct [(.handler, (.leaf (.fn .asdf_arch_out1_set))), (.shadow, (.leaf (.int .u8 0))), (.next, (.leaf (.int .u8 0)))]),
    (.struct [(.handler, (.leaf (.fn .asdf_arch_out1_open_hi_set))), (.shadow, (.leaf (.int .u8 0))), (.next, (.leaf (.int .u8 0)))]),
    (.struct [(.handler, (.leaf (.fn .asdf_arch_out1_open_lo_set))), (.shadow, (.leaf (.int .u8 0))), (.next, (.leaf (.int .u8 0)))]),
    (.struct [(.handler, (.leaf (.fn .asdf_arch_out2_set))), (.shadow, (.leaf (.int .u8 0))), (.next, (.leaf (.int .u8 0)))]),
    (.struct [(.handler, (.leaf (.fn .asdf_arch_out2_open_hi_set))), (.shadow, (.leaf (.int .u8 0))), (.next, (.leaf (.int .u8 0)))]),
    (.struct [(.handler, (.leaf (.fn .asdf_arch_out2_open_lo_set))), (.shadow, (.leaf (.int .u8 0))), (.next, (.leaf (.int .u8 0)))]),
    (.struct [(.handler, (.leaf (.fn .asdf_arch_out3_set))), (.shadow, (.leaf (.int .u8 0))), (.next, (.leaf (.int .u8 0)))]),
    (.struct [(.handler, (.leaf (.fn .asdf_arch_out3_open_hi_set))), (.shadow, (.leaf (.int .u8 0))), (.next, (.leaf (.int .u8 0)))]),
    (.struct [(.handler, (.leaf (.fn .asdf_arch_out3_open_lo_set))), (.shadow, (.leaf (.int .u8 0))), (.next, (.leaf (.int .u8 0)))]),
    (.struct [(.handler, (.leaf (.fn .asdf_arch_led1_set))), (.shadow, (.leaf (.int .u8 0))), (.next, (.leaf (.int .u8 0)))]),
    (.struct [(.handler, (.leaf (.fn .asdf_arch_led2_set))), (.shadow, (.leaf (.int .u8 0))), (.next, (.leaf (.int .u8 0)))]),
    (.struct [(.handler, (.leaf (.fn .asdf_arch_led3_set))), (.shadow, (.leaf (.int .u8 0))), (.next, (.leaf (.int .u8 0)))])])

/-- `virtual_device_table` (asdf_virtual.c:42). -/
def init_virtual_device_table : Tree :=
  (.arr (List.replicate 12 (.struct [(.physical_device, (.leaf (.int .u8 0))), (.function, (.leaf (.int .u8 0)))])))

/-- `hook_map` (asdf_hook.c:42). -/
def init_hook_map : Tree :=
  (.arr (List.replicate 16 (.leaf .null)))

/-- `shift_state` (asdf_modifiers.c:34). -/
def init_shift_state : Tree :=
  (.leaf (.int .u8 0))

/-- `caps_state` (asdf_modifiers.c:37). -/
def init_caps_state : Tree :=
  (.leaf (.int .u8 0))

/-- `ctrl_state` (asdf_modifiers.c:40). -/
def init_ctrl_state : Tree :=
  (.leaf (.int .u8 0))

/-- `modifier_mapping` (asdf_modifiers.c:44). -/
def init_modifier_mapping : Tree :=
  (.arr [(.leaf (.int .u8 0)),
    (.leaf (.int .u8 1)),
    (.leaf (.int .u8 2)),
    (.leaf (.int .u8 1)),
    (.leaf (.int .u8 3)),
    (.leaf (.int .u8 3)),
    (.leaf (.int .u8 3)),
    (.leaf (.int .u8 3))])

/-- `keymaps` (asdf_keymaps.c:36). -/
def init_keymaps : Tree :=
  (.arr (List.replicate 4 (.struct [(.matrix, (.leaf .null)), (.rows, (.leaf (.int .u8 0))), (.cols, (.leaf (.int .u8 0)))])))

/-- `current_keyboard_index` (asdf_keymaps.c:39). -/
def init_current_keyboard_index : Tree :=
  (.leaf (.int .u8 0))

/-- `last_stable_key_state` (asdf.c:48). -/
def init_last_stable_key_state : Tree :=
  (.arr (List.replicate 16 (.leaf (.int .u8 0))))

/-- `debounce_counters` (asdf.c:59). -/
def init_debounce_counters : Tree :=
  (.arr (List.replicate 16 (.arr (List.replicate 8 (.leaf (.int .u8 0))))))

/-- `last_key` (asdf.c:62). -/
def init_last_key : Tree :=
  (.leaf (.int .u8 0))

/-- `asdf_keycode_buffer` (asdf.c:65). -/
def init_asdf_keycode_buffer : Tree :=
  (.leaf (.int .i8 0))

/-- `asdf_message_buffer` (asdf.c:68). -/
def init_asdf_message_buffer : Tree :=
  (.leaf (.int .i8 0))

/-- `asdf_print_delay_ms` (asdf.c:74). -/
def init_asdf_print_delay_ms : Tree :=
  (.leaf (.int .u16 0))

/-- `classic_maps` (Keymaps/asdf_keymap_classic_add_map.c:135). -/
def init_classic_maps : Tree :=
  (.arr [(.leaf (.rom tab_classic_plain_matrix 0)),
    (.leaf (.rom tab_classic_caps_matrix 0)),
    (.leaf (.rom tab_classic_shift_matrix 0)),
    (.leaf (.rom tab_classic_ctrl_matrix 0))])

/-- `apple_maps` (Keymaps/asdf_keymap_apple2_add_map.c:144). -/
def init_apple_maps : Tree :=
  (.arr [(.leaf (.rom tab_apple_plain_matrix 0)),
    (.leaf (.rom tab_apple_caps_matrix 0)),
    (.leaf (.rom tab_apple_shift_matrix 0)),
    (.leaf (.rom tab_apple_caps_shift_matrix 0)),
    (.leaf (.rom tab_apple_ctrl_matrix 0))])

/-- `ace1000_maps` (Keymaps/asdf_keymap_ace1000_add_map.c:95). -/
def init_ace1000_maps : Tree :=
  (.arr [(.leaf (.rom tab_ace1000_plain_matrix 0)),
    (.leaf (.rom tab_ace1000_caps_matrix 0)),
    (.leaf (.rom tab_ace1000_shift_matrix 0)),
    (.leaf (.rom tab_ace1000_ctrl_matrix 0))])

/-- The static objects at reset. -/
def mem0 : G → Tree
  | .buffer_pool => init_buffer_pool
  | .buffers => init_buffers
  | .buffer_pool_next_available => init_buffer_pool_next_available
  | .next_handle => init_next_handle
  | .repeat_state => init_repeat_state
  | .base_repeat_state => init_base_repeat_state
  | .key_repeat_timer => init_key_repeat_timer
  | .physical_device_table => init_physical_device_table
  | .virtual_device_table => init_virtual_device_table
  | .hook_map => init_hook_map
  | .shift_state => init_shift_state
  | .caps_state => init_caps_state
  | .ctrl_state => init_ctrl_state
  | .modifier_mapping => init_modifier_mapping
  | .keymaps => init_keymaps
  | .current_keyboard_index => init_current_keyboard_index
  | .last_stable_key_state => init_last_stable_key_state
  | .debounce_counters => init_debounce_counters
  | .last_key => init_last_key
  | .asdf_keycode_buffer => init_asdf_keycode_buffer
  | .asdf_message_buffer => init_asdf_message_buffer
  | .asdf_print_delay_ms => init_asdf_print_delay_ms
  | .classic_maps => init_classic_maps
  | .apple_maps => init_apple_maps
  | .ace1000_maps => init_ace1000_maps

/-- The functions with a body. -/
def body : F → Option Fun
  | .asdf_buffer_init => some fn_asdf_buffer_init
  | .buffer_handle_valid => some fn_buffer_handle_valid
  | .asdf_buffer_new => some fn_asdf_buffer_new
  | .asdf_buffer_put => some fn_asdf_buffer_put
  | .asdf_buffer_get => some fn_asdf_buffer_get
  | .asdf_repeat_init => some fn_asdf_repeat_init
  | .asdf_repeat_reset_count => some fn_asdf_repeat_reset_count
  | .asdf_repeat_auto_off => some fn_asdf_repeat_auto_off
  | .asdf_repeat_auto_on => some fn_asdf_repeat_auto_on
  | .asdf_repeat_activate => some fn_asdf_repeat_activate
  | .asdf_repeat_deactivate => some fn_asdf_repeat_deactivate
  | .asdf_repeat => some fn_asdf_repeat
  | .asdf_physical_set => some fn_asdf_physical_set
  | .asdf_physical_on => some fn_asdf_physical_on
  | .asdf_physical_off => some fn_asdf_physical_off
  | .asdf_physical_assert => some fn_asdf_physical_assert
  | .asdf_physical_toggle => some fn_asdf_physical_toggle
  | .valid_physical_device => some fn_valid_physical_device
  | .physical_device_is_available => some fn_physical_device_is_available
  | .asdf_physical_next_device => some fn_asdf_physical_next_device
  | .asdf_physical_allocate => some fn_asdf_physical_allocate
  | .asdf_physical_init => some fn_asdf_physical_init
  | .asdf_virtual_map_function => some fn_asdf_virtual_map_function
  | .asdf_virtual_action => some fn_asdf_virtual_action
  | .asdf_virtual_activate => some fn_asdf_virtual_activate
  | .valid_virtual_device => some fn_valid_virtual_device
  | .asdf_virtual_assign => some fn_asdf_virtual_assign
  | .asdf_virtual_init => some fn_asdf_virtual_init
  | .asdf_virtual_sync => some fn_asdf_virtual_sync
  | .asdf_hook_null_func => some fn_asdf_hook_null_func
  | .asdf_hook_valid_id => some fn_asdf_hook_valid_id
  | .asdf_hook_execute => some fn_asdf_hook_execute
  | .asdf_hook_get => some fn_asdf_hook_get
  | .asdf_hook_assign => some fn_asdf_hook_assign
  | .asdf_hook_init => some fn_asdf_hook_init
  | .asdf_modifier_set_shift_state => some fn_asdf_modifier_set_shift_state
  | .asdf_modifier_shift_activate => some fn_asdf_modifier_shift_activate
  | .asdf_modifier_shiftlock_on_activate => some fn_asdf_modifier_shiftlock_on_activate
  | .asdf_modifier_shiftlock_toggle_activate => some fn_asdf_modifier_shiftlock_toggle_activate
  | .asdf_modifier_set_caps_state => some fn_asdf_modifier_set_caps_state
  | .asdf_modifier_capslock_activate => some fn_asdf_modifier_capslock_activate
  | .asdf_modifier_ctrl_activate => some fn_asdf_modifier_ctrl_activate
  | .asdf_modifier_shift_deactivate => some fn_asdf_modifier_shift_deactivate
  | .asdf_modifier_ctrl_deactivate => some fn_asdf_modifier_ctrl_deactivate
  | .asdf_modifiers_init => some fn_asdf_modifiers_init
  | .asdf_modifier_index => some fn_asdf_modifier_index
  | .asdf_keymaps_add_map => some fn_asdf_keymaps_add_map
  | .asdf_keymaps_num_rows => some fn_asdf_keymaps_num_rows
  | .asdf_keymaps_num_cols => some fn_asdf_keymaps_num_cols
  | .asdf_keymaps_reset => some fn_asdf_keymaps_reset
  | .asdf_keymaps_switch => some fn_asdf_keymaps_switch
  | .asdf_keymaps_select => some fn_asdf_keymaps_select
  | .asdf_keymaps_init => some fn_asdf_keymaps_init
  | .asdf_keymaps_map_select_0_clear => some fn_asdf_keymaps_map_select_0_clear
  | .asdf_keymaps_map_select_0_set => some fn_asdf_keymaps_map_select_0_set
  | .asdf_keymaps_map_select_1_clear => some fn_asdf_keymaps_map_select_1_clear
  | .asdf_keymaps_map_select_1_set => some fn_asdf_keymaps_map_select_1_set
  | .asdf_keymaps_map_select_2_clear => some fn_asdf_keymaps_map_select_2_clear
  | .asdf_keymaps_map_select_2_set => some fn_asdf_keymaps_map_select_2_set
  | .asdf_keymaps_map_select_3_clear => some fn_asdf_keymaps_map_select_3_clear
  | .asdf_keymaps_map_select_3_set => some fn_asdf_keymaps_map_select_3_set
  | .asdf_keymaps_get_code => some fn_asdf_keymaps_get_code
  | .asdf_put_code => some fn_asdf_put_code
  | .asdf_putc => some fn_asdf_putc
  | .asdf_next_code => some fn_asdf_next_code
  | .asdf_set_print_delay => some fn_asdf_set_print_delay
  | .asdf_lookup_keycode => some fn_asdf_lookup_keycode
  | .asdf_activate_action => some fn_asdf_activate_action
  | .asdf_deactivate_action => some fn_asdf_deactivate_action
  | .asdf_activate_key => some fn_asdf_activate_key
  | .asdf_deactivate_key => some fn_asdf_deactivate_key
  | .asdf_handle_key_press_or_release => some fn_asdf_handle_key_press_or_release
  | .asdf_handle_key_held_pressed => some fn_asdf_handle_key_held_pressed
  | .asdf_keyscan => some fn_asdf_keyscan
  | .asdf_apply_all_actions => some fn_asdf_apply_all_actions
  | .asdf_init => some fn_asdf_init
  | .main => some fn_main
  | .asdf_keymap_setup => some fn_asdf_keymap_setup
  | .asdf_keymap_valid => some fn_asdf_keymap_valid
  | .classic_add_map => some fn_classic_add_map
  | .classic_id_message => some fn_classic_id_message
  | .setup_classic_keymap => some fn_setup_classic_keymap
  | .classic_caps_id_message => some fn_classic_caps_id_message
  | .setup_classic_caps_keymap => some fn_setup_classic_caps_keymap
  | .applesoft_keyboard_test => some fn_applesoft_keyboard_test
  | .apple_add_map => some fn_apple_add_map
  | .apple2_id_message => some fn_apple2_id_message
  | .setup_apple2_keymap => some fn_setup_apple2_keymap
  | .apple2_caps_id_message => some fn_apple2_caps_id_message
  | .setup_apple2_caps_keymap => some fn_setup_apple2_caps_keymap
  | .sol_add_map => some fn_sol_add_map
  | .sol_id_message => some fn_sol_id_message
  | .setup_sol_keymap => some fn_setup_sol_keymap
  | .ace1000_add_map => some fn_ace1000_add_map
  | .ace1000_keyboard_test => some fn_ace1000_keyboard_test
  | .ace1000_id_message => some fn_ace1000_id_message
  | .setup_ace1000_keymap => some fn_setup_ace1000_keymap
  | _ => none

end Asdf.C
