import Verif.Model.KeymapData
import Verif.Model.Main

/-! # The shipped keymaps: setup functions and keymap list -/

namespace Asdf

/-- `ASDF_HOOK_USER_n` (asdf_hook.h:36-46). -/
def hookUser (n : Nat) : Nat := HOOK_USER_1 + (n - 1)

/-- Print delay of every shipped keymap, 40 ms (`ASDF_CLASSIC_PRINT_SPEED`,
Keymaps/asdf_keymap_classic.h:64; `APPLE2_PRINT_DELAY`, asdf_keymap_apple2.h:48;
`SOL_PRINT_DELAY`, asdf_keymap_sol.h:77; `ASDF_ACE1000_PRINT_SPEED`,
asdf_keymap_ace1000.h:66). -/
def SHIPPED_PRINT_DELAY : UInt8 := 40

/-- `applesoft_keyboard_test` installed by the classic keymaps and the Apple
keymaps (Keymaps/asdf_keymap_apple2_add_map.c:152-155; `classic` uses the same
function, Keymaps/asdf_keymap_classic.c:64). -/
def applesoftTest : HookFn := .print applesoftKeyboardTestText

/-- `asdf_keymap_classic` setup (Keymaps/asdf_keymap_classic.c:54-80).  The
wrapper `classic_add_map` picks the matrix (Keymaps/asdf_keymap_classic_add_map.c:135-152). -/
def classicSetup : List SetupCmd := [
  .printDelay SHIPPED_PRINT_DELAY,
  .addMap classicPlainMatrix MOD_PLAIN_MAP classicRows classicCols,
  .addMap classicCapsMatrix MOD_CAPS_MAP classicRows classicCols,
  .addMap classicShiftMatrix MOD_SHIFT_MAP classicRows classicCols,
  .addMap classicCtrlMatrix MOD_CTRL_MAP classicRows classicCols,
  .hook (hookUser 10) (.print classicIdMessageText),
  .hook (hookUser 9) applesoftTest,
  .vassign VLED1 PHYSICAL_LED1 .nofunc 1,
  .vassign VCAPS_LED PHYSICAL_LED3 .nofunc 0,
  .vassign VOUT1 PHYSICAL_OUT3_OPEN_HI .pulseShort 1,
  .vassign VOUT2 PHYSICAL_OUT1_OPEN_LO .pulseLong 0 ]

/-- `asdf_keymap_classic_caps` setup (Keymaps/asdf_keymap_classic_caps.c:57-83). -/
def classicCapsSetup : List SetupCmd := [
  .printDelay SHIPPED_PRINT_DELAY,
  .addMap classicCapsMatrix MOD_PLAIN_MAP classicRows classicCols,
  .addMap classicCapsMatrix MOD_CAPS_MAP classicRows classicCols,
  .addMap classicShiftMatrix MOD_SHIFT_MAP classicRows classicCols,
  .addMap classicCtrlMatrix MOD_CTRL_MAP classicRows classicCols,
  .hook (hookUser 10) (.print classicCapsIdMessageText),
  .hook (hookUser 9) applesoftTest,
  .vassign VLED1 PHYSICAL_LED1 .nofunc 1,
  .vassign VLED1 PHYSICAL_LED3 .nofunc 0,
  .vassign VOUT1 PHYSICAL_OUT3_OPEN_HI .pulseShort 1,
  .vassign VOUT2 PHYSICAL_OUT1_OPEN_LO .pulseLong 0 ]

/-- `asdf_keymap_apple2` setup (Keymaps/asdf_keymap_apple2.c:55-84). -/
def apple2Setup : List SetupCmd := [
  .printDelay SHIPPED_PRINT_DELAY,
  .addMap applePlainMatrix MOD_PLAIN_MAP appleRows appleCols,
  .addMap appleCapsMatrix MOD_CAPS_MAP appleRows appleCols,
  .addMap appleShiftMatrix MOD_SHIFT_MAP appleRows appleCols,
  .addMap appleCtrlMatrix MOD_CTRL_MAP appleRows appleCols,
  .hook (hookUser 3) applesoftTest,
  .hook (hookUser 10) (.print apple2IdMessageText),
  .vassign VCAPS_LED PHYSICAL_LED1 .nofunc 0,
  .vassign VLED2 PHYSICAL_LED3 .nofunc 0,
  .vassign VOUT1 PHYSICAL_OUT3_OPEN_HI .pulseShort 1,
  .vassign VOUT2 PHYSICAL_OUT1_OPEN_LO .pulseLong 0,
  .capsActivate ]

/-- `asdf_keymap_apple2_caps` setup (Keymaps/asdf_keymap_apple2_caps.c:52-76). -/
def apple2CapsSetup : List SetupCmd := [
  .printDelay SHIPPED_PRINT_DELAY,
  .addMap appleCapsMatrix MOD_PLAIN_MAP appleRows appleCols,
  .addMap appleCapsMatrix MOD_CAPS_MAP appleRows appleCols,
  .addMap appleCapsShiftMatrix MOD_SHIFT_MAP appleRows appleCols,
  .addMap appleCtrlMatrix MOD_CTRL_MAP appleRows appleCols,
  .hook (hookUser 9) applesoftTest,
  .hook (hookUser 10) (.print apple2CapsIdMessageText),
  .vassign VLED1 PHYSICAL_LED1 .nofunc 0,
  .vassign VLED2 PHYSICAL_LED3 .nofunc 0,
  .vassign VOUT1 PHYSICAL_OUT3_OPEN_HI .pulseShort 1,
  .vassign VOUT2 PHYSICAL_OUT1_OPEN_LO .pulseLong 0 ]

/-- `asdf_keymap_sol` setup (Keymaps/asdf_keymap_sol.c:150-183). -/
def solSetup : List SetupCmd := [
  .addMap solPlainMap MOD_PLAIN_MAP solRows solCols,
  .addMap solCapsMap MOD_CAPS_MAP solRows solCols,
  .addMap solShiftMap MOD_SHIFT_MAP solRows solCols,
  .addMap solCtrlMap MOD_CTRL_MAP solRows solCols,
  .printDelay SHIPPED_PRINT_DELAY,
  .vassign VCAPS_LED PHYSICAL_LED1 .nofunc 0,
  .vassign VSHIFT_LED PHYSICAL_LED3 .nofunc 0,
  .vassign VOUT3 PHYSICAL_OUT1 .toggle 1,
  .vassign VOUT3 PHYSICAL_LED2 .toggle 0,
  .vassign VOUT1 PHYSICAL_OUT3_OPEN_HI .pulseShort 1,
  .vassign VOUT2 PHYSICAL_OUT2 .pulseLong 1,
  .capsActivate,
  .negStrobe,
  .hook (hookUser 10) (.print solIdMessageText) ]

/-- `asdf_keymap_ace1000` setup (Keymaps/asdf_keymap_ace1000.c:56-85). -/
def ace1000Setup : List SetupCmd := [
  .printDelay SHIPPED_PRINT_DELAY,
  .addMap ace1000PlainMatrix MOD_PLAIN_MAP ace1000Rows ace1000Cols,
  .addMap ace1000CapsMatrix MOD_CAPS_MAP ace1000Rows ace1000Cols,
  .addMap ace1000ShiftMatrix MOD_SHIFT_MAP ace1000Rows ace1000Cols,
  .addMap ace1000CtrlMatrix MOD_CTRL_MAP ace1000Rows ace1000Cols,
  .hook (hookUser 10) (.print ace1000IdMessageText),
  .hook (hookUser 9) (.print ace1000KeyboardTestText),
  .vassign VLED1 PHYSICAL_LED1 .nofunc 1,
  .vassign VCAPS_LED PHYSICAL_LED3 .nofunc 0,
  .vassign VOUT1 PHYSICAL_OUT3_OPEN_HI .pulseShort 1,
  .vassign VOUT2 PHYSICAL_OUT1_OPEN_LO .pulseLong 0,
  .capsActivate ]

/-- `asdf_keymap_valid` as generated from keymap_list.cmake (classic:0,
classic_caps:1, apple2:2, apple2_caps:3, sol:4, ace1000:5;
asdf_keymap_setup.c.in:74-87). -/
def shippedValid (i : UInt8) : Bool :=
  match i.toNat with
  | 0 | 1 | 2 | 3 | 4 | 5 => true
  | _ => false

/-- `asdf_keymap_setup` as generated: the `default` label falls into case 0
(asdf_keymap_setup.c.in:52-56). -/
def shippedSetup (i : UInt8) : List SetupCmd :=
  match i.toNat with
  | 1 => classicCapsSetup
  | 2 => apple2Setup
  | 3 => apple2CapsSetup
  | 4 => solSetup
  | 5 => ace1000Setup
  | _ => classicSetup

/-- The shipped firmware configuration. -/
def shipped : Config := { valid := shippedValid, setup := shippedSetup }

end Asdf
