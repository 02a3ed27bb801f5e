import Verif.Model.CUnits

/-! # The tokens of the files, part 1

Generated by `tools/cunits.py`. -/

namespace Asdf.C

theorem lex_asdf_h : lex (bytes Text.asdf_h) = Tokens.asdf_h := by decide +kernel

theorem lex_asdf_buffer_h : lex (bytes Text.asdf_buffer_h) = Tokens.asdf_buffer_h := by decide +kernel

theorem lex_asdf_config_h : lex (bytes Text.asdf_config_h) = Tokens.asdf_config_h := by decide +kernel

theorem lex_asdf_keymaps_h : lex (bytes Text.asdf_keymaps_h) = Tokens.asdf_keymaps_h := by decide +kernel

theorem lex_asdf_modifiers_h : lex (bytes Text.asdf_modifiers_h) = Tokens.asdf_modifiers_h := by decide +kernel

theorem lex_asdf_print_h : lex (bytes Text.asdf_print_h) = Tokens.asdf_print_h := by decide +kernel

theorem lex_asdf_physical_c : lex (bytes Text.asdf_physical_c) = Tokens.asdf_physical_c := by decide +kernel

theorem lex_asdf_virtual_c : lex (bytes Text.asdf_virtual_c) = Tokens.asdf_virtual_c := by decide +kernel

theorem lex_asdf_modifiers_c : lex (bytes Text.asdf_modifiers_c) = Tokens.asdf_modifiers_c := by decide +kernel

theorem lex_asdf_keymaps_c : lex (bytes Text.asdf_keymaps_c) = Tokens.asdf_keymaps_c := by decide +kernel

theorem lex_asdf_c : lex (bytes Text.asdf_c) = Tokens.asdf_c := by decide +kernel

theorem lex_asdf_keymap_defs_dipswitch_h : lex (bytes Text.asdf_keymap_defs_dipswitch_h) = Tokens.asdf_keymap_defs_dipswitch_h := by decide +kernel

theorem lex_asdf_keymap_classic_h : lex (bytes Text.asdf_keymap_classic_h) = Tokens.asdf_keymap_classic_h := by decide +kernel

theorem lex_asdf_keymap_apple2_add_map_h : lex (bytes Text.asdf_keymap_apple2_add_map_h) = Tokens.asdf_keymap_apple2_add_map_h := by decide +kernel

theorem lex_asdf_keymap_apple2_c : lex (bytes Text.asdf_keymap_apple2_c) = Tokens.asdf_keymap_apple2_c := by decide +kernel

end Asdf.C
