import Verif.Lemmas.CTree
import Verif.Model.CSource
import Verif.Model.CArch328
import Verif.Model.CArch2560

/-! # The definitions in each file, in the order of the text

Generated by `tools/cunits.py`. -/

namespace Asdf.C

/-- The definitions in asdf_buffer.c. -/
def unit_asdf_buffer_c : List Item := [
  .obj .buffer_pool init_buffer_pool, .obj .buffers init_buffers,
  .obj .buffer_pool_next_available init_buffer_pool_next_available,
  .obj .next_handle init_next_handle, .fn .asdf_buffer_init fn_asdf_buffer_init,
  .fn .buffer_handle_valid fn_buffer_handle_valid, .fn .asdf_buffer_new fn_asdf_buffer_new,
  .fn .asdf_buffer_put fn_asdf_buffer_put, .fn .asdf_buffer_get fn_asdf_buffer_get]

/-- The definitions in asdf_repeat.c. -/
def unit_asdf_repeat_c : List Item := [
  .obj .repeat_state init_repeat_state, .obj .base_repeat_state init_base_repeat_state,
  .obj .key_repeat_timer init_key_repeat_timer, .fn .asdf_repeat_init fn_asdf_repeat_init,
  .fn .asdf_repeat_reset_count fn_asdf_repeat_reset_count,
  .fn .asdf_repeat_auto_off fn_asdf_repeat_auto_off,
  .fn .asdf_repeat_auto_on fn_asdf_repeat_auto_on,
  .fn .asdf_repeat_activate fn_asdf_repeat_activate,
  .fn .asdf_repeat_deactivate fn_asdf_repeat_deactivate, .fn .asdf_repeat fn_asdf_repeat]

/-- The definitions in asdf_physical.c. -/
def unit_asdf_physical_c : List Item := [
  .obj .physical_device_table init_physical_device_table,
  .fn .asdf_physical_set fn_asdf_physical_set, .fn .asdf_physical_on fn_asdf_physical_on,
  .fn .asdf_physical_off fn_asdf_physical_off, .fn .asdf_physical_assert fn_asdf_physical_assert,
  .fn .asdf_physical_toggle fn_asdf_physical_toggle,
  .fn .valid_physical_device fn_valid_physical_device,
  .fn .physical_device_is_available fn_physical_device_is_available,
  .fn .asdf_physical_next_device fn_asdf_physical_next_device,
  .fn .asdf_physical_allocate fn_asdf_physical_allocate,
  .fn .asdf_physical_init fn_asdf_physical_init]

/-- The definitions in asdf_virtual.c. -/
def unit_asdf_virtual_c : List Item := [
  .obj .virtual_device_table init_virtual_device_table,
  .fn .asdf_virtual_map_function fn_asdf_virtual_map_function,
  .fn .asdf_virtual_action fn_asdf_virtual_action,
  .fn .asdf_virtual_activate fn_asdf_virtual_activate,
  .fn .valid_virtual_device fn_valid_virtual_device,
  .fn .asdf_virtual_assign fn_asdf_virtual_assign, .fn .asdf_virtual_init fn_asdf_virtual_init,
  .fn .asdf_virtual_sync fn_asdf_virtual_sync]

/-- The definitions in asdf_hook.c. -/
def unit_asdf_hook_c : List Item := [
  .obj .hook_map init_hook_map, .fn .asdf_hook_null_func fn_asdf_hook_null_func,
  .fn .asdf_hook_valid_id fn_asdf_hook_valid_id, .fn .asdf_hook_execute fn_asdf_hook_execute,
  .fn .asdf_hook_get fn_asdf_hook_get, .fn .asdf_hook_assign fn_asdf_hook_assign,
  .fn .asdf_hook_init fn_asdf_hook_init]

/-- The definitions in asdf_modifiers.c. -/
def unit_asdf_modifiers_c : List Item := [
  .obj .shift_state init_shift_state, .obj .caps_state init_caps_state,
  .obj .ctrl_state init_ctrl_state, .obj .modifier_mapping init_modifier_mapping,
  .fn .asdf_modifier_set_shift_state fn_asdf_modifier_set_shift_state,
  .fn .asdf_modifier_shift_activate fn_asdf_modifier_shift_activate,
  .fn .asdf_modifier_shiftlock_on_activate fn_asdf_modifier_shiftlock_on_activate,
  .fn .asdf_modifier_shiftlock_toggle_activate fn_asdf_modifier_shiftlock_toggle_activate,
  .fn .asdf_modifier_set_caps_state fn_asdf_modifier_set_caps_state,
  .fn .asdf_modifier_capslock_activate fn_asdf_modifier_capslock_activate,
  .fn .asdf_modifier_ctrl_activate fn_asdf_modifier_ctrl_activate,
  .fn .asdf_modifier_shift_deactivate fn_asdf_modifier_shift_deactivate,
  .fn .asdf_modifier_ctrl_deactivate fn_asdf_modifier_ctrl_deactivate,
  .fn .asdf_modifiers_init fn_asdf_modifiers_init, .fn .asdf_modifier_index fn_asdf_modifier_index]

/-- The definitions in asdf_keymaps.c. -/
def unit_asdf_keymaps_c : List Item := [
  .obj .keymaps init_keymaps, .obj .current_keyboard_index init_current_keyboard_index,
  .fn .asdf_keymaps_add_map fn_asdf_keymaps_add_map,
  .fn .asdf_keymaps_num_rows fn_asdf_keymaps_num_rows,
  .fn .asdf_keymaps_num_cols fn_asdf_keymaps_num_cols,
  .fn .asdf_keymaps_reset fn_asdf_keymaps_reset, .fn .asdf_keymaps_switch fn_asdf_keymaps_switch,
  .fn .asdf_keymaps_select fn_asdf_keymaps_select, .fn .asdf_keymaps_init fn_asdf_keymaps_init,
  .fn .asdf_keymaps_map_select_0_clear fn_asdf_keymaps_map_select_0_clear,
  .fn .asdf_keymaps_map_select_0_set fn_asdf_keymaps_map_select_0_set,
  .fn .asdf_keymaps_map_select_1_clear fn_asdf_keymaps_map_select_1_clear,
  .fn .asdf_keymaps_map_select_1_set fn_asdf_keymaps_map_select_1_set,
  .fn .asdf_keymaps_map_select_2_clear fn_asdf_keymaps_map_select_2_clear,
  .fn .asdf_keymaps_map_select_2_set fn_asdf_keymaps_map_select_2_set,
  .fn .asdf_keymaps_map_select_3_clear fn_asdf_keymaps_map_select_3_clear,
  .fn .asdf_keymaps_map_select_3_set fn_asdf_keymaps_map_select_3_set,
  .fn .asdf_keymaps_get_code fn_asdf_keymaps_get_code]

/-- The definitions in asdf.c. -/
def unit_asdf_c : List Item := [
  .obj .last_stable_key_state init_last_stable_key_state,
  .obj .debounce_counters init_debounce_counters, .obj .last_key init_last_key,
  .obj .asdf_keycode_buffer init_asdf_keycode_buffer,
  .obj .asdf_message_buffer init_asdf_message_buffer,
  .obj .asdf_print_delay_ms init_asdf_print_delay_ms, .fn .asdf_put_code fn_asdf_put_code,
  .fn .asdf_putc fn_asdf_putc, .fn .asdf_next_code fn_asdf_next_code,
  .fn .asdf_set_print_delay fn_asdf_set_print_delay,
  .fn .asdf_lookup_keycode fn_asdf_lookup_keycode,
  .fn .asdf_activate_action fn_asdf_activate_action,
  .fn .asdf_deactivate_action fn_asdf_deactivate_action,
  .fn .asdf_activate_key fn_asdf_activate_key, .fn .asdf_deactivate_key fn_asdf_deactivate_key,
  .fn .asdf_handle_key_press_or_release fn_asdf_handle_key_press_or_release,
  .fn .asdf_handle_key_held_pressed fn_asdf_handle_key_held_pressed,
  .fn .asdf_keyscan fn_asdf_keyscan, .fn .asdf_apply_all_actions fn_asdf_apply_all_actions,
  .fn .asdf_init fn_asdf_init]

/-- The definitions in main.c. -/
def unit_main_c : List Item := [
  .fn .main fn_main]

/-- The definitions in asdf_keymap_setup.c. -/
def unit_asdf_keymap_setup_c : List Item := [
  .fn .asdf_keymap_setup fn_asdf_keymap_setup, .fn .asdf_keymap_valid fn_asdf_keymap_valid]

/-- The definitions in asdf_keymap_classic_add_map.c. -/
def unit_asdf_keymap_classic_add_map_c : List Item := [
  .obj .classic_maps init_classic_maps, .fn .classic_add_map fn_classic_add_map]

/-- The definitions in asdf_keymap_classic.c. -/
def unit_asdf_keymap_classic_c : List Item := [
  .fn .classic_id_message fn_classic_id_message, .fn .setup_classic_keymap fn_setup_classic_keymap]

/-- The definitions in asdf_keymap_classic_caps.c. -/
def unit_asdf_keymap_classic_caps_c : List Item := [
  .fn .classic_caps_id_message fn_classic_caps_id_message,
  .fn .setup_classic_caps_keymap fn_setup_classic_caps_keymap]

/-- The definitions in asdf_keymap_apple2_add_map.c. -/
def unit_asdf_keymap_apple2_add_map_c : List Item := [
  .obj .apple_maps init_apple_maps, .fn .applesoft_keyboard_test fn_applesoft_keyboard_test,
  .fn .apple_add_map fn_apple_add_map]

/-- The definitions in asdf_keymap_apple2.c. -/
def unit_asdf_keymap_apple2_c : List Item := [
  .fn .apple2_id_message fn_apple2_id_message, .fn .setup_apple2_keymap fn_setup_apple2_keymap]

/-- The definitions in asdf_keymap_apple2_caps.c. -/
def unit_asdf_keymap_apple2_caps_c : List Item := [
  .fn .apple2_caps_id_message fn_apple2_caps_id_message,
  .fn .setup_apple2_caps_keymap fn_setup_apple2_caps_keymap]

/-- The definitions in asdf_keymap_sol.c. -/
def unit_asdf_keymap_sol_c : List Item := [
  .fn .sol_add_map fn_sol_add_map, .fn .sol_id_message fn_sol_id_message,
  .fn .setup_sol_keymap fn_setup_sol_keymap]

/-- The definitions in asdf_keymap_ace1000_add_map.c. -/
def unit_asdf_keymap_ace1000_add_map_c : List Item := [
  .obj .ace1000_maps init_ace1000_maps, .fn .ace1000_add_map fn_ace1000_add_map,
  .fn .ace1000_keyboard_test fn_ace1000_keyboard_test]

/-- The definitions in asdf_keymap_ace1000.c. -/
def unit_asdf_keymap_ace1000_c : List Item := [
  .fn .ace1000_id_message fn_ace1000_id_message, .fn .setup_ace1000_keymap fn_setup_ace1000_keymap]

/-- The definitions in asdf_arch_atmega328p.c. -/
def unit_asdf_arch_atmega328p_c : List Item := [
  .var .tick A328.init_tick.toNat, .var .data_polarity A328.init_data_polarity.toNat,
  .fn .TIMER0_COMPA_vect A328.fn_TIMER0_COMPA_vect, .fn .set_bit A328.fn_set_bit,
  .fn .clear_bit A328.fn_clear_bit, .fn .arch_timer0_config A328.fn_arch_timer0_config,
  .fn .asdf_arch_tick_timer_init A328.fn_asdf_arch_tick_timer_init,
  .fn .asdf_arch_tick A328.fn_asdf_arch_tick,
  .fn .asdf_arch_init_clock A328.fn_asdf_arch_init_clock,
  .fn .asdf_arch_init_leds A328.fn_asdf_arch_init_leds,
  .fn .asdf_arch_led1_set A328.fn_asdf_arch_led1_set,
  .fn .asdf_arch_led2_set A328.fn_asdf_arch_led2_set,
  .fn .asdf_arch_led3_set A328.fn_asdf_arch_led3_set,
  .fn .asdf_arch_out1_set A328.fn_asdf_arch_out1_set,
  .fn .asdf_arch_out1_open_hi_set A328.fn_asdf_arch_out1_open_hi_set,
  .fn .asdf_arch_out1_open_lo_set A328.fn_asdf_arch_out1_open_lo_set,
  .fn .asdf_arch_out2_set A328.fn_asdf_arch_out2_set,
  .fn .asdf_arch_null_output A328.fn_asdf_arch_null_output,
  .fn .asdf_arch_out2_open_hi_set A328.fn_asdf_arch_out2_open_hi_set,
  .fn .asdf_arch_out2_open_lo_set A328.fn_asdf_arch_out2_open_lo_set,
  .fn .asdf_arch_out3_set A328.fn_asdf_arch_out3_set,
  .fn .asdf_arch_out3_open_hi_set A328.fn_asdf_arch_out3_open_hi_set,
  .fn .asdf_arch_out3_open_lo_set A328.fn_asdf_arch_out3_open_lo_set,
  .fn .asdf_arch_set_pos_strobe A328.fn_asdf_arch_set_pos_strobe,
  .fn .asdf_arch_set_neg_strobe A328.fn_asdf_arch_set_neg_strobe,
  .fn .asdf_arch_init_ascii_output A328.fn_asdf_arch_init_ascii_output,
  .fn .asdf_arch_init_column_control A328.fn_asdf_arch_init_column_control,
  .fn .asdf_arch_init_row_outputs A328.fn_asdf_arch_init_row_outputs,
  .fn .asdf_arch_pulse_delay_short A328.fn_asdf_arch_pulse_delay_short,
  .fn .asdf_arch_pulse_delay_long A328.fn_asdf_arch_pulse_delay_long,
  .fn .asdf_arch_delay_ms A328.fn_asdf_arch_delay_ms, .fn .asdf_arch_init A328.fn_asdf_arch_init,
  .fn .asdf_arch_read_row A328.fn_asdf_arch_read_row,
  .fn .asdf_arch_send_code A328.fn_asdf_arch_send_code]

/-- The definitions in asdf_arch_atmega2560.c. -/
def unit_asdf_arch_atmega2560_c : List Item := [
  .var .tick A2560.init_tick.toNat, .var .data_polarity A2560.init_data_polarity.toNat,
  .fn .TIMER0_COMPA_vect A2560.fn_TIMER0_COMPA_vect, .fn .set_bit A2560.fn_set_bit,
  .fn .clear_bit A2560.fn_clear_bit, .fn .arch_timer0_config A2560.fn_arch_timer0_config,
  .fn .asdf_arch_tick_timer_init A2560.fn_asdf_arch_tick_timer_init,
  .fn .asdf_arch_tick A2560.fn_asdf_arch_tick,
  .fn .asdf_arch_init_clock A2560.fn_asdf_arch_init_clock,
  .fn .asdf_arch_init_leds A2560.fn_asdf_arch_init_leds,
  .fn .asdf_arch_led1_set A2560.fn_asdf_arch_led1_set,
  .fn .asdf_arch_led2_set A2560.fn_asdf_arch_led2_set,
  .fn .asdf_arch_led3_set A2560.fn_asdf_arch_led3_set,
  .fn .asdf_arch_null_output A2560.fn_asdf_arch_null_output,
  .fn .asdf_arch_out1_set A2560.fn_asdf_arch_out1_set,
  .fn .asdf_arch_out1_open_hi_set A2560.fn_asdf_arch_out1_open_hi_set,
  .fn .asdf_arch_out1_open_lo_set A2560.fn_asdf_arch_out1_open_lo_set,
  .fn .asdf_arch_out2_set A2560.fn_asdf_arch_out2_set,
  .fn .asdf_arch_out2_open_hi_set A2560.fn_asdf_arch_out2_open_hi_set,
  .fn .asdf_arch_out2_open_lo_set A2560.fn_asdf_arch_out2_open_lo_set,
  .fn .asdf_arch_out3_set A2560.fn_asdf_arch_out3_set,
  .fn .asdf_arch_out3_open_hi_set A2560.fn_asdf_arch_out3_open_hi_set,
  .fn .asdf_arch_out3_open_lo_set A2560.fn_asdf_arch_out3_open_lo_set,
  .fn .asdf_arch_set_pos_strobe A2560.fn_asdf_arch_set_pos_strobe,
  .fn .asdf_arch_set_neg_strobe A2560.fn_asdf_arch_set_neg_strobe,
  .fn .asdf_arch_init_ascii_output A2560.fn_asdf_arch_init_ascii_output,
  .fn .asdf_arch_init_columns A2560.fn_asdf_arch_init_columns,
  .fn .asdf_arch_init_row_outputs A2560.fn_asdf_arch_init_row_outputs,
  .fn .asdf_arch_pulse_delay_short A2560.fn_asdf_arch_pulse_delay_short,
  .fn .asdf_arch_pulse_delay_long A2560.fn_asdf_arch_pulse_delay_long,
  .fn .asdf_arch_delay_ms A2560.fn_asdf_arch_delay_ms, .fn .asdf_arch_init A2560.fn_asdf_arch_init,
  .fn .asdf_arch_read_row A2560.fn_asdf_arch_read_row,
  .fn .asdf_arch_osi_read_row A2560.fn_asdf_arch_osi_read_row,
  .fn .asdf_arch_send_code A2560.fn_asdf_arch_send_code]

end Asdf.C
