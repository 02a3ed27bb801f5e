import Verif.Model.CLex

/-! # The names in the C sources, as numbers

Generated by `tools/ctext.py` from `Model/CNames.lean`. -/

namespace Asdf.C

/-- The names of type `G`. -/
def namesG : List (Name × G) := [
  (0x6275666665725F706F6F6C, .buffer_pool), (0x62756666657273, .buffers),
  (0x6275666665725F706F6F6C5F6E6578745F617661696C61626C65, .buffer_pool_next_available),
  (0x6E6578745F68616E646C65, .next_handle), (0x7265706561745F7374617465, .repeat_state),
  (0x626173655F7265706561745F7374617465, .base_repeat_state),
  (0x6B65795F7265706561745F74696D6572, .key_repeat_timer),
  (0x706879736963616C5F6465766963655F7461626C65, .physical_device_table),
  (0x7669727475616C5F6465766963655F7461626C65, .virtual_device_table), (0x686F6F6B5F6D6170, .hook_map),
  (0x73686966745F7374617465, .shift_state), (0x636170735F7374617465, .caps_state),
  (0x6374726C5F7374617465, .ctrl_state), (0x6D6F6469666965725F6D617070696E67, .modifier_mapping),
  (0x6B65796D617073, .keymaps), (0x63757272656E745F6B6579626F6172645F696E646578, .current_keyboard_index),
  (0x6C6173745F737461626C655F6B65795F7374617465, .last_stable_key_state),
  (0x6465626F756E63655F636F756E74657273, .debounce_counters), (0x6C6173745F6B6579, .last_key),
  (0x617364665F6B6579636F64655F627566666572, .asdf_keycode_buffer),
  (0x617364665F6D6573736167655F627566666572, .asdf_message_buffer),
  (0x617364665F7072696E745F64656C61795F6D73, .asdf_print_delay_ms),
  (0x636C61737369635F6D617073, .classic_maps), (0x6170706C655F6D617073, .apple_maps),
  (0x616365313030305F6D617073, .ace1000_maps)]

/-- The names of type `F`. -/
def namesF : List (Name × F) := [
  (0x617364665F6275666665725F696E6974, .asdf_buffer_init),
  (0x6275666665725F68616E646C655F76616C6964, .buffer_handle_valid),
  (0x617364665F6275666665725F6E6577, .asdf_buffer_new), (0x617364665F6275666665725F707574, .asdf_buffer_put),
  (0x617364665F6275666665725F676574, .asdf_buffer_get),
  (0x617364665F7265706561745F696E6974, .asdf_repeat_init),
  (0x617364665F7265706561745F72657365745F636F756E74, .asdf_repeat_reset_count),
  (0x617364665F7265706561745F6175746F5F6F6666, .asdf_repeat_auto_off),
  (0x617364665F7265706561745F6175746F5F6F6E, .asdf_repeat_auto_on),
  (0x617364665F7265706561745F6163746976617465, .asdf_repeat_activate),
  (0x617364665F7265706561745F64656163746976617465, .asdf_repeat_deactivate),
  (0x617364665F726570656174, .asdf_repeat), (0x617364665F706879736963616C5F736574, .asdf_physical_set),
  (0x617364665F706879736963616C5F6F6E, .asdf_physical_on),
  (0x617364665F706879736963616C5F6F6666, .asdf_physical_off),
  (0x617364665F706879736963616C5F617373657274, .asdf_physical_assert),
  (0x617364665F706879736963616C5F746F67676C65, .asdf_physical_toggle),
  (0x76616C69645F706879736963616C5F646576696365, .valid_physical_device),
  (0x706879736963616C5F6465766963655F69735F617661696C61626C65, .physical_device_is_available),
  (0x617364665F706879736963616C5F6E6578745F646576696365, .asdf_physical_next_device),
  (0x617364665F706879736963616C5F616C6C6F63617465, .asdf_physical_allocate),
  (0x617364665F706879736963616C5F696E6974, .asdf_physical_init),
  (0x617364665F7669727475616C5F6D61705F66756E6374696F6E, .asdf_virtual_map_function),
  (0x617364665F7669727475616C5F616374696F6E, .asdf_virtual_action),
  (0x617364665F7669727475616C5F6163746976617465, .asdf_virtual_activate),
  (0x76616C69645F7669727475616C5F646576696365, .valid_virtual_device),
  (0x617364665F7669727475616C5F61737369676E, .asdf_virtual_assign),
  (0x617364665F7669727475616C5F696E6974, .asdf_virtual_init),
  (0x617364665F7669727475616C5F73796E63, .asdf_virtual_sync),
  (0x617364665F686F6F6B5F6E756C6C5F66756E63, .asdf_hook_null_func),
  (0x617364665F686F6F6B5F76616C69645F6964, .asdf_hook_valid_id),
  (0x617364665F686F6F6B5F65786563757465, .asdf_hook_execute), (0x617364665F686F6F6B5F676574, .asdf_hook_get),
  (0x617364665F686F6F6B5F61737369676E, .asdf_hook_assign), (0x617364665F686F6F6B5F696E6974, .asdf_hook_init),
  (0x617364665F6D6F6469666965725F7365745F73686966745F7374617465, .asdf_modifier_set_shift_state),
  (0x617364665F6D6F6469666965725F73686966745F6163746976617465, .asdf_modifier_shift_activate),
  (0x617364665F6D6F6469666965725F73686966746C6F636B5F6F6E5F6163746976617465, .asdf_modifier_shiftlock_on_activate),
  (0x617364665F6D6F6469666965725F73686966746C6F636B5F746F67676C655F6163746976617465, .asdf_modifier_shiftlock_toggle_activate),
  (0x617364665F6D6F6469666965725F7365745F636170735F7374617465, .asdf_modifier_set_caps_state),
  (0x617364665F6D6F6469666965725F636170736C6F636B5F6163746976617465, .asdf_modifier_capslock_activate),
  (0x617364665F6D6F6469666965725F6374726C5F6163746976617465, .asdf_modifier_ctrl_activate),
  (0x617364665F6D6F6469666965725F73686966745F64656163746976617465, .asdf_modifier_shift_deactivate),
  (0x617364665F6D6F6469666965725F6374726C5F64656163746976617465, .asdf_modifier_ctrl_deactivate),
  (0x617364665F6D6F646966696572735F696E6974, .asdf_modifiers_init),
  (0x617364665F6D6F6469666965725F696E646578, .asdf_modifier_index),
  (0x617364665F6B65796D6170735F6164645F6D6170, .asdf_keymaps_add_map),
  (0x617364665F6B65796D6170735F6E756D5F726F7773, .asdf_keymaps_num_rows),
  (0x617364665F6B65796D6170735F6E756D5F636F6C73, .asdf_keymaps_num_cols),
  (0x617364665F6B65796D6170735F7265736574, .asdf_keymaps_reset),
  (0x617364665F6B65796D6170735F737769746368, .asdf_keymaps_switch),
  (0x617364665F6B65796D6170735F73656C656374, .asdf_keymaps_select),
  (0x617364665F6B65796D6170735F696E6974, .asdf_keymaps_init),
  (0x617364665F6B65796D6170735F6D61705F73656C6563745F305F636C656172, .asdf_keymaps_map_select_0_clear),
  (0x617364665F6B65796D6170735F6D61705F73656C6563745F305F736574, .asdf_keymaps_map_select_0_set),
  (0x617364665F6B65796D6170735F6D61705F73656C6563745F315F636C656172, .asdf_keymaps_map_select_1_clear),
  (0x617364665F6B65796D6170735F6D61705F73656C6563745F315F736574, .asdf_keymaps_map_select_1_set),
  (0x617364665F6B65796D6170735F6D61705F73656C6563745F325F636C656172, .asdf_keymaps_map_select_2_clear),
  (0x617364665F6B65796D6170735F6D61705F73656C6563745F325F736574, .asdf_keymaps_map_select_2_set),
  (0x617364665F6B65796D6170735F6D61705F73656C6563745F335F636C656172, .asdf_keymaps_map_select_3_clear),
  (0x617364665F6B65796D6170735F6D61705F73656C6563745F335F736574, .asdf_keymaps_map_select_3_set),
  (0x617364665F6B65796D6170735F6765745F636F6465, .asdf_keymaps_get_code),
  (0x617364665F7075745F636F6465, .asdf_put_code), (0x617364665F70757463, .asdf_putc),
  (0x617364665F6E6578745F636F6465, .asdf_next_code),
  (0x617364665F7365745F7072696E745F64656C6179, .asdf_set_print_delay),
  (0x617364665F6C6F6F6B75705F6B6579636F6465, .asdf_lookup_keycode),
  (0x617364665F61637469766174655F616374696F6E, .asdf_activate_action),
  (0x617364665F646561637469766174655F616374696F6E, .asdf_deactivate_action),
  (0x617364665F61637469766174655F6B6579, .asdf_activate_key),
  (0x617364665F646561637469766174655F6B6579, .asdf_deactivate_key),
  (0x617364665F68616E646C655F6B65795F70726573735F6F725F72656C65617365, .asdf_handle_key_press_or_release),
  (0x617364665F68616E646C655F6B65795F68656C645F70726573736564, .asdf_handle_key_held_pressed),
  (0x617364665F6B65797363616E, .asdf_keyscan),
  (0x617364665F6170706C795F616C6C5F616374696F6E73, .asdf_apply_all_actions),
  (0x617364665F696E6974, .asdf_init), (0x6D61696E, .main),
  (0x617364665F6B65796D61705F7365747570, .asdf_keymap_setup),
  (0x617364665F6B65796D61705F76616C6964, .asdf_keymap_valid),
  (0x636C61737369635F6164645F6D6170, .classic_add_map),
  (0x636C61737369635F69645F6D657373616765, .classic_id_message),
  (0x73657475705F636C61737369635F6B65796D6170, .setup_classic_keymap),
  (0x636C61737369635F636170735F69645F6D657373616765, .classic_caps_id_message),
  (0x73657475705F636C61737369635F636170735F6B65796D6170, .setup_classic_caps_keymap),
  (0x6170706C65736F66745F6B6579626F6172645F74657374, .applesoft_keyboard_test),
  (0x6170706C655F6164645F6D6170, .apple_add_map), (0x6170706C65325F69645F6D657373616765, .apple2_id_message),
  (0x73657475705F6170706C65325F6B65796D6170, .setup_apple2_keymap),
  (0x6170706C65325F636170735F69645F6D657373616765, .apple2_caps_id_message),
  (0x73657475705F6170706C65325F636170735F6B65796D6170, .setup_apple2_caps_keymap),
  (0x736F6C5F6164645F6D6170, .sol_add_map), (0x736F6C5F69645F6D657373616765, .sol_id_message),
  (0x73657475705F736F6C5F6B65796D6170, .setup_sol_keymap),
  (0x616365313030305F6164645F6D6170, .ace1000_add_map),
  (0x616365313030305F6B6579626F6172645F74657374, .ace1000_keyboard_test),
  (0x616365313030305F69645F6D657373616765, .ace1000_id_message),
  (0x73657475705F616365313030305F6B65796D6170, .setup_ace1000_keymap),
  (0x617364665F617263685F696E6974, .asdf_arch_init), (0x617364665F617263685F7469636B, .asdf_arch_tick),
  (0x617364665F617263685F726561645F726F77, .asdf_arch_read_row),
  (0x617364665F617263685F73656E645F636F6465, .asdf_arch_send_code),
  (0x617364665F617263685F7365745F706F735F7374726F6265, .asdf_arch_set_pos_strobe),
  (0x617364665F617263685F7365745F6E65675F7374726F6265, .asdf_arch_set_neg_strobe),
  (0x617364665F617263685F70756C73655F64656C61795F73686F7274, .asdf_arch_pulse_delay_short),
  (0x617364665F617263685F70756C73655F64656C61795F6C6F6E67, .asdf_arch_pulse_delay_long),
  (0x617364665F617263685F64656C61795F6D73, .asdf_arch_delay_ms),
  (0x617364665F617263685F6E756C6C5F6F7574707574, .asdf_arch_null_output),
  (0x617364665F617263685F6F7574315F736574, .asdf_arch_out1_set),
  (0x617364665F617263685F6F7574315F6F70656E5F68695F736574, .asdf_arch_out1_open_hi_set),
  (0x617364665F617263685F6F7574315F6F70656E5F6C6F5F736574, .asdf_arch_out1_open_lo_set),
  (0x617364665F617263685F6F7574325F736574, .asdf_arch_out2_set),
  (0x617364665F617263685F6F7574325F6F70656E5F68695F736574, .asdf_arch_out2_open_hi_set),
  (0x617364665F617263685F6F7574325F6F70656E5F6C6F5F736574, .asdf_arch_out2_open_lo_set),
  (0x617364665F617263685F6F7574335F736574, .asdf_arch_out3_set),
  (0x617364665F617263685F6F7574335F6F70656E5F68695F736574, .asdf_arch_out3_open_hi_set),
  (0x617364665F617263685F6F7574335F6F70656E5F6C6F5F736574, .asdf_arch_out3_open_lo_set),
  (0x617364665F617263685F6C6564315F736574, .asdf_arch_led1_set),
  (0x617364665F617263685F6C6564325F736574, .asdf_arch_led2_set),
  (0x617364665F617263685F6C6564335F736574, .asdf_arch_led3_set), (0x617364665F7072696E74, .asdf_print),
  (0x70676D5F726561645F62797465, .pgm_read_byte), (0x54494D4552305F434F4D50415F76656374, .TIMER0_COMPA_vect),
  (0x7365745F626974, .set_bit), (0x636C6561725F626974, .clear_bit),
  (0x617263685F74696D6572305F636F6E666967, .arch_timer0_config),
  (0x617364665F617263685F7469636B5F74696D65725F696E6974, .asdf_arch_tick_timer_init),
  (0x617364665F617263685F696E69745F636C6F636B, .asdf_arch_init_clock),
  (0x617364665F617263685F696E69745F6C656473, .asdf_arch_init_leds),
  (0x617364665F617263685F696E69745F61736369695F6F7574707574, .asdf_arch_init_ascii_output),
  (0x617364665F617263685F696E69745F636F6C756D6E5F636F6E74726F6C, .asdf_arch_init_column_control),
  (0x617364665F617263685F696E69745F726F775F6F757470757473, .asdf_arch_init_row_outputs),
  (0x617364665F617263685F696E69745F636F6C756D6E73, .asdf_arch_init_columns),
  (0x617364665F617263685F6F73695F726561645F726F77, .asdf_arch_osi_read_row), (0x696F5F72656164, .io_read),
  (0x696F5F7772697465, .io_write), (0x636C69, .cli), (0x736569, .sei), (0x5F64656C61795F7573, .delay_us),
  (0x5F64656C61795F6D73, .delay_ms)]

/-- The names of type `R`. -/
def namesR : List (Name × R) := [
  (0x504F525441, .PORTA), (0x504F525442, .PORTB), (0x504F525443, .PORTC), (0x504F525444, .PORTD),
  (0x504F525448, .PORTH), (0x504F52544A, .PORTJ), (0x44445241, .DDRA), (0x44445242, .DDRB),
  (0x44445243, .DDRC), (0x44445244, .DDRD), (0x44445248, .DDRH), (0x4444524A, .DDRJ), (0x50494E41, .PINA),
  (0x50494E42, .PINB), (0x50494E43, .PINC), (0x50494E44, .PIND), (0x50494E48, .PINH), (0x50494E4A, .PINJ),
  (0x434C4B5052, .CLKPR), (0x4F43523041, .OCR0A), (0x544343523041, .TCCR0A), (0x544343523042, .TCCR0B),
  (0x54494D534B30, .TIMSK0), (0x7469636B, .tick), (0x646174615F706F6C6172697479, .data_polarity)]

/-- The names of type `L`. -/
def namesL : List (Name × L) := [
  (0x68616E646C65, .handle), (0x73697A65, .size), (0x636F6465, .code), (0x74696D656F7574, .timeout),
  (0x706879736963616C5F6F7574, .physical_out), (0x76616C7565, .value), (0x646576696365, .device),
  (0x63757272656E745F6F7574, .current_out), (0x6E6578745F6F7574, .next_out), (0x7461696C, .tail),
  (0x696E697469616C5F76616C7565, .initial_value), (0x73756363657373, .success),
  (0x7072656465636573736F72, .predecessor), (0x69, .i), (0x66756E6374696F6E, .function),
  (0x7669727475616C5F6F7574, .virtual_out), (0x6465766963655F6C697374, .device_list), (0x6964, .id),
  (0x686F6F6B5F6964, .hook_id), (0x66756E63, .func), (0x6E65775F7374617465, .new_state),
  (0x6163746976655F6D6F64696669657273, .active_modifiers), (0x6D6174726978, .matrix),
  (0x6D6F6469666965725F696E646578, .modifier_index), (0x6E756D5F726F7773, .num_rows),
  (0x6E756D5F636F6C73, .num_cols), (0x696E646578, .index), (0x726F77, .row), (0x636F6C, .col),
  (0x6B6579636F6465, .keycode), (0x6B6579636F64655F6D6174726978, .keycode_matrix), (0x63, .c),
  (0x73747265616D, .stream), (0x64656C61795F6D73, .delay_ms),
  (0x6B65795F7761735F70726573736564, .key_was_pressed), (0x6465626F756E63655F636F756E74, .debounce_count),
  (0x726F775F726561646572, .row_reader), (0x726F775F6B65795F7374617465, .row_key_state),
  (0x6368616E676564, .changed), (0x6F75747075745F66756E6374696F6E, .output_function), (0x76616C6964, .valid),
  (0x6D61705F696E646578, .map_index), (0x706F7274, .port), (0x626974, .bit), (0x62697473, .bits),
  (0x72657476616C, .retval), (0x636F6C73, .cols), (0x726F7773, .rows)]

/-- The names of type `Fld`. -/
def namesFld : List (Name × Fld) := [
  (0x73697A65, .size), (0x627566, .buf), (0x68656164, .head), (0x7461696C, .tail), (0x636F756E74, .count),
  (0x68616E646C6572, .handler), (0x736861646F77, .shadow), (0x6E657874, .next),
  (0x706879736963616C5F646576696365, .physical_device), (0x66756E6374696F6E, .function),
  (0x6D6174726978, .matrix), (0x726F7773, .rows), (0x636F6C73, .cols)]

end Asdf.C
