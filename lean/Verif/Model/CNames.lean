/-! # The names in the C sources

Generated by `tools/c2lean.py` from the C sources; do not edit. -/

namespace Asdf.C

/-- Objects with static storage duration. -/
inductive G where
  | buffer_pool | buffers | buffer_pool_next_available | next_handle | repeat_state
  | base_repeat_state | key_repeat_timer | physical_device_table | virtual_device_table
  | hook_map | shift_state | caps_state | ctrl_state | modifier_mapping | keymaps
  | current_keyboard_index | last_stable_key_state | debounce_counters | last_key
  | asdf_keycode_buffer | asdf_message_buffer | asdf_print_delay_ms | classic_maps | apple_maps
  | ace1000_maps
  deriving DecidableEq, Repr

/-- Functions.  The first 97 have a body in the portable sources; the next 24 are the hardware
layer and library functions they call; then come the other functions of the hardware layer;
the last 6 are the accesses to registers and what avr-libc supplies. -/
inductive F where
  | asdf_buffer_init | buffer_handle_valid | asdf_buffer_new | asdf_buffer_put | asdf_buffer_get
  | asdf_repeat_init | asdf_repeat_reset_count | asdf_repeat_auto_off | asdf_repeat_auto_on
  | asdf_repeat_activate | asdf_repeat_deactivate | asdf_repeat | asdf_physical_set
  | asdf_physical_on | asdf_physical_off | asdf_physical_assert | asdf_physical_toggle
  | valid_physical_device | physical_device_is_available | asdf_physical_next_device
  | asdf_physical_allocate | asdf_physical_init | asdf_virtual_map_function
  | asdf_virtual_action | asdf_virtual_activate | valid_virtual_device | asdf_virtual_assign
  | asdf_virtual_init | asdf_virtual_sync | asdf_hook_null_func | asdf_hook_valid_id
  | asdf_hook_execute | asdf_hook_get | asdf_hook_assign | asdf_hook_init
  | asdf_modifier_set_shift_state | asdf_modifier_shift_activate
  | asdf_modifier_shiftlock_on_activate | asdf_modifier_shiftlock_toggle_activate
  | asdf_modifier_set_caps_state | asdf_modifier_capslock_activate | asdf_modifier_ctrl_activate
  | asdf_modifier_shift_deactivate | asdf_modifier_ctrl_deactivate | asdf_modifiers_init
  | asdf_modifier_index | asdf_keymaps_add_map | asdf_keymaps_num_rows | asdf_keymaps_num_cols
  | asdf_keymaps_reset | asdf_keymaps_switch | asdf_keymaps_select | asdf_keymaps_init
  | asdf_keymaps_map_select_0_clear | asdf_keymaps_map_select_0_set
  | asdf_keymaps_map_select_1_clear | asdf_keymaps_map_select_1_set
  | asdf_keymaps_map_select_2_clear | asdf_keymaps_map_select_2_set
  | asdf_keymaps_map_select_3_clear | asdf_keymaps_map_select_3_set | asdf_keymaps_get_code
  | asdf_put_code | asdf_putc | asdf_next_code | asdf_set_print_delay | asdf_lookup_keycode
  | asdf_activate_action | asdf_deactivate_action | asdf_activate_key | asdf_deactivate_key
  | asdf_handle_key_press_or_release | asdf_handle_key_held_pressed | asdf_keyscan
  | asdf_apply_all_actions | asdf_init | main | asdf_keymap_setup | asdf_keymap_valid
  | classic_add_map | classic_id_message | setup_classic_keymap | classic_caps_id_message
  | setup_classic_caps_keymap | applesoft_keyboard_test | apple_add_map | apple2_id_message
  | setup_apple2_keymap | apple2_caps_id_message | setup_apple2_caps_keymap | sol_add_map
  | sol_id_message | setup_sol_keymap | ace1000_add_map | ace1000_keyboard_test
  | ace1000_id_message | setup_ace1000_keymap | asdf_arch_init | asdf_arch_tick
  | asdf_arch_read_row | asdf_arch_send_code | asdf_arch_set_pos_strobe
  | asdf_arch_set_neg_strobe | asdf_arch_pulse_delay_short | asdf_arch_pulse_delay_long
  | asdf_arch_delay_ms | asdf_arch_null_output | asdf_arch_out1_set | asdf_arch_out1_open_hi_set
  | asdf_arch_out1_open_lo_set | asdf_arch_out2_set | asdf_arch_out2_open_hi_set
  | asdf_arch_out2_open_lo_set | asdf_arch_out3_set | asdf_arch_out3_open_hi_set
  | asdf_arch_out3_open_lo_set | asdf_arch_led1_set | asdf_arch_led2_set | asdf_arch_led3_set
  | asdf_print | pgm_read_byte | TIMER0_COMPA_vect | set_bit | clear_bit | arch_timer0_config
  | asdf_arch_tick_timer_init | asdf_arch_init_clock | asdf_arch_init_leds
  | asdf_arch_init_ascii_output | asdf_arch_init_column_control | asdf_arch_init_row_outputs
  | asdf_arch_init_columns | asdf_arch_osi_read_row | io_read | io_write | cli | sei | delay_us
  | delay_ms
  deriving DecidableEq, Repr

/-- Registers, and the static variables of the hardware layer. -/
inductive R where
  | PORTA | PORTB | PORTC | PORTD | PORTH | PORTJ | DDRA | DDRB | DDRC | DDRD | DDRH | DDRJ
  | PINA | PINB | PINC | PIND | PINH | PINJ | CLKPR | OCR0A | TCCR0A | TCCR0B | TIMSK0 | tick
  | data_polarity
  deriving DecidableEq, Repr

/-- Local variables and parameters. -/
inductive L where
  | handle | size | code | timeout | physical_out | value | device | current_out | next_out
  | tail | initial_value | success | predecessor | i | function | virtual_out | device_list | id
  | hook_id | func | new_state | active_modifiers | matrix | modifier_index | num_rows
  | num_cols | index | row | col | keycode | keycode_matrix | c | stream | delay_ms
  | key_was_pressed | debounce_count | row_reader | row_key_state | changed | output_function
  | valid | map_index | port | bit | bits | retval | cols | rows
  deriving DecidableEq, Repr

/-- Members of structures. -/
inductive Fld where
  | size | buf | head | tail | count | handler | shadow | next | physical_device | function
  | matrix | rows | cols
  deriving DecidableEq, Repr

end Asdf.C
