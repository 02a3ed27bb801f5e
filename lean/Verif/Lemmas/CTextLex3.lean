import Verif.Model.CUnits

/-! # The tokens of the files, part 3

Generated by `tools/cunits.py`. -/

namespace Asdf.C

theorem lex_asdf_physical_h : lex (bytes Text.asdf_physical_h) = Tokens.asdf_physical_h := by decide +kernel

theorem lex_asdf_virtual_h : lex (bytes Text.asdf_virtual_h) = Tokens.asdf_virtual_h := by decide +kernel

theorem lex_asdf_repeat_c : lex (bytes Text.asdf_repeat_c) = Tokens.asdf_repeat_c := by decide +kernel

theorem lex_asdf_keymap_classic_add_map_h : lex (bytes Text.asdf_keymap_classic_add_map_h) = Tokens.asdf_keymap_classic_add_map_h := by decide +kernel

theorem lex_asdf_keymap_apple2_caps_h : lex (bytes Text.asdf_keymap_apple2_caps_h) = Tokens.asdf_keymap_apple2_caps_h := by decide +kernel

theorem lex_asdf_keymap_sol_h : lex (bytes Text.asdf_keymap_sol_h) = Tokens.asdf_keymap_sol_h := by decide +kernel

theorem lex_asdf_keymap_ace1000_h : lex (bytes Text.asdf_keymap_ace1000_h) = Tokens.asdf_keymap_ace1000_h := by decide +kernel

theorem lex_asdf_keymap_classic_c : lex (bytes Text.asdf_keymap_classic_c) = Tokens.asdf_keymap_classic_c := by decide +kernel

theorem lex_asdf_keymap_apple2_add_map_c : lex (bytes Text.asdf_keymap_apple2_add_map_c) = Tokens.asdf_keymap_apple2_add_map_c := by decide +kernel

theorem lex_asdf_keymap_apple2_caps_c : lex (bytes Text.asdf_keymap_apple2_caps_c) = Tokens.asdf_keymap_apple2_caps_c := by decide +kernel

theorem lex_asdf_keymap_ace1000_add_map_c : lex (bytes Text.asdf_keymap_ace1000_add_map_c) = Tokens.asdf_keymap_ace1000_add_map_c := by decide +kernel

theorem lex_asdf_keymap_ace1000_c : lex (bytes Text.asdf_keymap_ace1000_c) = Tokens.asdf_keymap_ace1000_c := by decide +kernel

theorem lex_asdf_arch_atmega2560_h : lex (bytes Text.asdf_arch_atmega2560_h) = Tokens.asdf_arch_atmega2560_h := by decide +kernel

theorem lex_asdf_arch_atmega328p_c : lex (bytes Text.asdf_arch_atmega328p_c) = Tokens.asdf_arch_atmega328p_c := by decide +kernel

end Asdf.C
