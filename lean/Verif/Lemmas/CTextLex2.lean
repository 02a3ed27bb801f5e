import Verif.Model.CUnits

/-! # The tokens of the files, part 2

Generated by `tools/cunits.py`. -/

namespace Asdf.C

theorem lex_asdf_ascii_h : lex (bytes Text.asdf_ascii_h) = Tokens.asdf_ascii_h := by decide +kernel

theorem lex_asdf_hook_h : lex (bytes Text.asdf_hook_h) = Tokens.asdf_hook_h := by decide +kernel

theorem lex_asdf_keymap_setup_h_in : lex (bytes Text.asdf_keymap_setup_h_in) = Tokens.asdf_keymap_setup_h_in := by decide +kernel

theorem lex_asdf_repeat_h : lex (bytes Text.asdf_repeat_h) = Tokens.asdf_repeat_h := by decide +kernel

theorem lex_asdf_buffer_c : lex (bytes Text.asdf_buffer_c) = Tokens.asdf_buffer_c := by decide +kernel

theorem lex_asdf_hook_c : lex (bytes Text.asdf_hook_c) = Tokens.asdf_hook_c := by decide +kernel

theorem lex_main_c : lex (bytes Text.main_c) = Tokens.main_c := by decide +kernel

theorem lex_asdf_keymap_apple2_h : lex (bytes Text.asdf_keymap_apple2_h) = Tokens.asdf_keymap_apple2_h := by decide +kernel

theorem lex_asdf_keymap_ace1000_add_map_h : lex (bytes Text.asdf_keymap_ace1000_add_map_h) = Tokens.asdf_keymap_ace1000_add_map_h := by decide +kernel

theorem lex_asdf_keymap_classic_add_map_c : lex (bytes Text.asdf_keymap_classic_add_map_c) = Tokens.asdf_keymap_classic_add_map_c := by decide +kernel

theorem lex_asdf_keymap_classic_caps_c : lex (bytes Text.asdf_keymap_classic_caps_c) = Tokens.asdf_keymap_classic_caps_c := by decide +kernel

theorem lex_asdf_keymap_sol_c : lex (bytes Text.asdf_keymap_sol_c) = Tokens.asdf_keymap_sol_c := by decide +kernel

theorem lex_asdf_arch_atmega328p_h : lex (bytes Text.asdf_arch_atmega328p_h) = Tokens.asdf_arch_atmega328p_h := by decide +kernel

theorem lex_asdf_arch_atmega2560_c : lex (bytes Text.asdf_arch_atmega2560_c) = Tokens.asdf_arch_atmega2560_c := by decide +kernel

end Asdf.C
