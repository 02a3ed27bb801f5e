import Verif.Lemmas.CUnitList

/-! # The translation of each file, with the headers for the ATmega328P

Generated by `tools/cunits.py`. -/

namespace Asdf.C

theorem m328_asdf_buffer_c : compile false (headersOf .m328) (Tokens.asdf_buffer_c) =
    some unit_asdf_buffer_c := by decide +kernel

theorem m328_asdf_repeat_c : compile false (headersOf .m328) (Tokens.asdf_repeat_c) =
    some unit_asdf_repeat_c := by decide +kernel

theorem m328_asdf_physical_c : compile false (headersOf .m328) (Tokens.asdf_physical_c) =
    some unit_asdf_physical_c := by decide +kernel

theorem m328_asdf_virtual_c : compile false (headersOf .m328) (Tokens.asdf_virtual_c) =
    some unit_asdf_virtual_c := by decide +kernel

theorem m328_asdf_hook_c : compile false (headersOf .m328) (Tokens.asdf_hook_c) =
    some unit_asdf_hook_c := by decide +kernel

theorem m328_asdf_modifiers_c : compile false (headersOf .m328) (Tokens.asdf_modifiers_c) =
    some unit_asdf_modifiers_c := by decide +kernel

theorem m328_asdf_keymaps_c : compile false (headersOf .m328) (Tokens.asdf_keymaps_c) =
    some unit_asdf_keymaps_c := by decide +kernel

theorem m328_asdf_c : compile false (headersOf .m328) (Tokens.asdf_c) =
    some unit_asdf_c := by decide +kernel

theorem m328_main_c : compile false (headersOf .m328) (Tokens.main_c) =
    some unit_main_c := by decide +kernel

theorem m328_asdf_keymap_setup_c : compile false (headersOf .m328) (lex setupText) =
    some unit_asdf_keymap_setup_c := by decide +kernel

theorem m328_asdf_keymap_classic_add_map_c : compile false (headersOf .m328) (Tokens.asdf_keymap_classic_add_map_c) =
    some unit_asdf_keymap_classic_add_map_c := by decide +kernel

theorem m328_asdf_keymap_classic_c : compile false (headersOf .m328) (Tokens.asdf_keymap_classic_c) =
    some unit_asdf_keymap_classic_c := by decide +kernel

theorem m328_asdf_keymap_classic_caps_c : compile false (headersOf .m328) (Tokens.asdf_keymap_classic_caps_c) =
    some unit_asdf_keymap_classic_caps_c := by decide +kernel

theorem m328_asdf_keymap_apple2_add_map_c : compile false (headersOf .m328) (Tokens.asdf_keymap_apple2_add_map_c) =
    some unit_asdf_keymap_apple2_add_map_c := by decide +kernel

theorem m328_asdf_keymap_apple2_c : compile false (headersOf .m328) (Tokens.asdf_keymap_apple2_c) =
    some unit_asdf_keymap_apple2_c := by decide +kernel

theorem m328_asdf_keymap_apple2_caps_c : compile false (headersOf .m328) (Tokens.asdf_keymap_apple2_caps_c) =
    some unit_asdf_keymap_apple2_caps_c := by decide +kernel

theorem m328_asdf_keymap_sol_c : compile false (headersOf .m328) (Tokens.asdf_keymap_sol_c) =
    some unit_asdf_keymap_sol_c := by decide +kernel

theorem m328_asdf_keymap_ace1000_add_map_c : compile false (headersOf .m328) (Tokens.asdf_keymap_ace1000_add_map_c) =
    some unit_asdf_keymap_ace1000_add_map_c := by decide +kernel

theorem m328_asdf_keymap_ace1000_c : compile false (headersOf .m328) (Tokens.asdf_keymap_ace1000_c) =
    some unit_asdf_keymap_ace1000_c := by decide +kernel

theorem m328_asdf_arch_atmega328p_c : compile true (headersOf .m328) Tokens.asdf_arch_atmega328p_c =
    some unit_asdf_arch_atmega328p_c := by decide +kernel

end Asdf.C
