Asdf.Props.C01_buffers_are_bounded_fifo                      propext, Classical.choice, Quot.sound
Asdf.Props.C01_spec_fifo                                     propext, Quot.sound
Asdf.Props.C01_spec_full                                     propext, Quot.sound
Asdf.Props.C02_buffers_do_not_interfere                      propext, Classical.choice, Quot.sound
Asdf.Props.C02_negative_size_interferes                      propext
Asdf.Props.C03_buffer_memory_safe_partial                    propext, Classical.choice, Quot.sound
Asdf.Props.C03_negative_size_unsafe                          propext
Asdf.Props.C04_reservation_iff_fits                          propext, Classical.choice, Quot.sound
Asdf.Props.C04_unknown_handle_is_inert                       propext, Classical.choice, Quot.sound
Asdf.Props.C05_next_code                                     propext, Classical.choice, Quot.sound
Asdf.Props.C05_pause                                         propext, Classical.choice, Quot.sound
Asdf.Props.C05_shipped                                       propext, Classical.choice, Quot.sound
Asdf.Props.C06_print                                         propext, Classical.choice, Quot.sound
Asdf.Props.C06_print_verbatim                                propext, Classical.choice, Quot.sound
Asdf.Props.C07_messages_fit                                  propext
Asdf.Props.C07_messages_transmitted                          propext, Classical.choice, Quot.sound
Asdf.Props.C07_messages_reach_host                           propext, Classical.choice, Quot.sound
Asdf.Props.C08_at_most_one_send                              propext, Quot.sound
Asdf.Props.C08_front_is_sent                                 propext, Classical.choice, Quot.sound
Asdf.Props.C08_shipped                                       propext, Classical.choice, Quot.sound
Asdf.Props.C09_streams_conserved                             propext, Classical.choice, Quot.sound
Asdf.Props.C09_pending_delivered                             propext, Classical.choice, Quot.sound
Asdf.Props.C10_counts_never_wrap                             propext, Classical.choice, Quot.sound
Asdf.Props.C100_bounds                                       propext, Classical.choice, Quot.sound
Asdf.Props.C100_looks                                        propext, Classical.choice, Quot.sound
Asdf.Props.C100_next                                         propext, Classical.choice, Quot.sound
Asdf.Props.C100_first                                        propext, Classical.choice, Quot.sound
Asdf.Props.C100_ticking                                      propext, Classical.choice, Quot.sound
Asdf.Props.C100_busy                                         propext, Classical.choice, Quot.sound
Asdf.Props.C100_lost                                         propext, Classical.choice, Quot.sound
Asdf.Props.C101_every_text_328                               propext, Classical.choice, Quot.sound
Asdf.Props.C101_every_text_2560                              propext, Classical.choice, Quot.sound
Asdf.Props.C102_only                                         propext, Classical.choice, Quot.sound
Asdf.Props.C102_stays                                        propext, Classical.choice, Quot.sound
Asdf.Props.C102_cause                                        propext, Classical.choice, Quot.sound
Asdf.Props.C102_next                                         propext, Classical.choice, Quot.sound
Asdf.Props.C102_scans                                        propext, Classical.choice, Quot.sound
Asdf.Props.C102_unsafe                                       propext, Classical.choice, Quot.sound
Asdf.Props.C102_exact                                        propext, Classical.choice, Quot.sound
Asdf.Props.C102_keyboards                                    propext, Classical.choice, Quot.sound
Asdf.Props.C103_typed                                        propext, Classical.choice, Quot.sound
Asdf.Props.C103_host                                         propext, Classical.choice, Quot.sound
Asdf.Props.C103_computer_328                                 propext, Classical.choice, Quot.sound
Asdf.Props.C103_computer_2560                                propext, Classical.choice, Quot.sound
Asdf.Props.C103_condition_needed                             propext, Classical.choice, Quot.sound
Asdf.Props.C104_bounce                                       propext, Classical.choice, Quot.sound
Asdf.Props.C104_every_text                                   propext, Classical.choice, Quot.sound
Asdf.Props.C104_computer_328                                 propext, Classical.choice, Quot.sound
Asdf.Props.C104_computer_2560                                propext, Classical.choice, Quot.sound
Asdf.Props.C105_fingers                                      propext, Classical.choice, Quot.sound
Asdf.Props.C105_computer_328                                 propext, Classical.choice, Quot.sound
Asdf.Props.C105_computer_2560                                propext, Classical.choice, Quot.sound
Asdf.Props.C106_every_text_328                               propext, Classical.choice, Quot.sound
Asdf.Props.C106_every_text_2560                              propext, Classical.choice, Quot.sound
Asdf.Props.C106_nothing_else                                 propext, Quot.sound
Asdf.Props.C107_held                                         propext, Classical.choice, Quot.sound
Asdf.Props.C107_fingers                                      propext, Classical.choice, Quot.sound
Asdf.Props.C107_computer_328                                 propext, Classical.choice, Quot.sound
Asdf.Props.C107_computer_2560                                propext, Classical.choice, Quot.sound
Asdf.Props.C108_m328                                         propext, Quot.sound
Asdf.Props.C108_m2560                                        propext, Quot.sound
Asdf.Props.C109_pins                                         propext, Classical.choice, Quot.sound
Asdf.Props.C109_when                                         propext, Classical.choice, Quot.sound
Asdf.Props.C109_after                                        propext, Classical.choice, Quot.sound
Asdf.Props.C11_own_samples_only                              propext, Classical.choice, Quot.sound
Asdf.Props.C11_key_independence                              propext, Classical.choice, Quot.sound
Asdf.Props.C110_calls                                        propext, Classical.choice, Quot.sound
Asdf.Props.C110_fingers                                      propext, Classical.choice, Quot.sound
Asdf.Props.C110_computer_328                                 propext, Classical.choice, Quot.sound
Asdf.Props.C110_computer_2560                                propext, Classical.choice, Quot.sound
Asdf.Props.C111_same_message                                 propext
Asdf.Props.C111_message_keys                                 propext, Quot.sound
Asdf.Props.C112_select                                       propext, Classical.choice, Quot.sound
Asdf.Props.C112_events                                       propext, Classical.choice, Quot.sound
Asdf.Props.C112_safe                                         propext, Classical.choice, Quot.sound
Asdf.Props.C112_outputs                                      propext, Classical.choice, Quot.sound
Asdf.Props.C112_lamps                                        propext, Classical.choice, Quot.sound
Asdf.Props.C112_lines                                        propext, Classical.choice, Quot.sound
Asdf.Props.C113_values                                       propext, Quot.sound
Asdf.Props.C113_open_outputs                                 propext, Quot.sound
Asdf.Props.C113_trusted                                      propext, Quot.sound
Asdf.Props.C113_pulses                                       propext, Quot.sound
Asdf.Props.C113_sent                                         propext
Asdf.Props.C114_new_key                                      propext, Classical.choice, Quot.sound
Asdf.Props.C114_within_66                                    propext, Classical.choice, Quot.sound
Asdf.Props.C115_swaps                                        propext, Classical.choice, Quot.sound
Asdf.Props.C115_fingers                                      propext, Classical.choice, Quot.sound
Asdf.Props.C115_computer_328                                 propext, Classical.choice, Quot.sound
Asdf.Props.C115_computer_2560                                propext, Classical.choice, Quot.sound
Asdf.Props.C116_rolls                                        propext, Classical.choice, Quot.sound
Asdf.Props.C116_off                                          propext, Classical.choice, Quot.sound
Asdf.Props.C116_fingers                                      propext, Classical.choice, Quot.sound
Asdf.Props.C116_computer_328                                 propext, Classical.choice, Quot.sound
Asdf.Props.C116_computer_2560                                propext, Classical.choice, Quot.sound
Asdf.Props.C117_depth                                        propext, Classical.choice, Quot.sound
Asdf.Props.C117_ends                                         propext, Classical.choice, Quot.sound
Asdf.Props.C118_waits                                        propext, Classical.choice, Quot.sound
Asdf.Props.C118_typing                                       propext, Classical.choice, Quot.sound
Asdf.Props.C119_columns_328                                  propext, Quot.sound
Asdf.Props.C119_columns_2560                                 propext, Quot.sound
Asdf.Props.C119_drivers_328                                  propext, Quot.sound
Asdf.Props.C119_drivers_2560                                 propext, Quot.sound
Asdf.Props.C119_ghosts                                       propext, Classical.choice, Quot.sound
Asdf.Props.C119_two_switches                                 propext, Quot.sound
Asdf.Props.C119_one_key                                      propext, Quot.sound
Asdf.Props.C119_read_328                                     propext, Classical.choice, Quot.sound
Asdf.Props.C119_read_2560                                    propext, Classical.choice, Quot.sound
Asdf.Props.C119_levels_328                                   propext, Classical.choice, Quot.sound
Asdf.Props.C119_levels_2560                                  propext, Classical.choice, Quot.sound
Asdf.Props.C119_fight                                        propext, Quot.sound
Asdf.Props.C119_dip_ghost                                    propext
Asdf.Props.C119_shift_ghost                                  propext, Quot.sound
Asdf.Props.C119_built                                        propext, Classical.choice, Quot.sound
Asdf.Props.C119_computer_328                                 propext, Classical.choice, Quot.sound
Asdf.Props.C119_computer_2560                                propext, Classical.choice, Quot.sound
Asdf.Props.C119_lines                                        propext, Quot.sound
Asdf.Props.C12_ten_samples_partial                           propext, Classical.choice, Quot.sound
Asdf.Props.C12_false                                         propext, Quot.sound
Asdf.Props.C13_accepted_within_ten                           propext, Classical.choice, Quot.sound
Asdf.Props.C13_exactly_ten                                   propext, Classical.choice, Quot.sound
Asdf.Props.C14_events_alternate                              propext
Asdf.Props.C14_events_are_handled                            propext, Classical.choice, Quot.sound
Asdf.Props.C15_runs_are_histories                            propext, Classical.choice, Quot.sound
Asdf.Props.C15_press_queues_once                             propext, Classical.choice, Quot.sound
Asdf.Props.C15_nothing_else_queues                           propext, Classical.choice, Quot.sound
Asdf.Props.C15_pass                                          propext, Classical.choice, Quot.sound
Asdf.Props.C16_nothing_key_is_silent_partial                 propext, Classical.choice, Quot.sound
Asdf.Props.C16_delays_other_keys                             propext, Quot.sound
Asdf.Props.C16_stops_repeat                                  propext, Classical.choice, Quot.sound
Asdf.Props.C17_no_undefined_behaviour_partial                propext, Classical.choice, Quot.sound
Asdf.Props.C17_shipped_partial                               propext, Classical.choice, Quot.sound
Asdf.Props.C17_false                                         propext, Quot.sound
Asdf.Props.C17_out_of_bounds                                 propext, Quot.sound
Asdf.Props.C72_exact                                         propext, Classical.choice, Quot.sound
Asdf.Props.C18_lookup_partial                                propext, Classical.choice, Quot.sound
Asdf.Props.C18_shipped_partial                               propext, Classical.choice, Quot.sound
Asdf.Props.C18_false                                         propext, Classical.choice, Quot.sound
Asdf.Props.C19_autorepeat_schedule                           propext, Classical.choice, Quot.sound
Asdf.Props.C19_hold_schedule_partial                         propext, Classical.choice, Quot.sound
Asdf.Props.C19_false                                         propext, Classical.choice, Quot.sound
Asdf.Props.C20_no_repeat_when_off                            propext, Quot.sound
Asdf.Props.C20_held_key_sent_once                            propext, Classical.choice, Quot.sound
Asdf.Props.C21_release_restores_mode                         propext, Classical.choice, Quot.sound
Asdf.Props.C21_fast_repeat_while_held_partial                propext, Classical.choice, Quot.sound
Asdf.Props.C21_fast_schedule_partial                         propext, Classical.choice, Quot.sound
Asdf.Props.C21_repeat_key_can_be_ignored                     none
Asdf.Props.C22_only_last_press_repeats                       propext, Classical.choice, Quot.sound
Asdf.Props.C22_case                                          propext, Classical.choice, Quot.sound
Asdf.Props.C23_modifier_precedence                           propext, Classical.choice, Quot.sound
Asdf.Props.C23_table_after_history                           propext, Classical.choice, Quot.sound
Asdf.Props.C24_modifiers_follow_history                      propext, Classical.choice, Quot.sound
Asdf.Props.C25_lock_leds_follow_lock_states                  propext, Classical.choice, Quot.sound
Asdf.Props.C26_false                                         propext, Quot.sound
Asdf.Props.C26_witness                                       propext, Quot.sound
Asdf.Props.C26_led_shows_caps_partial                        propext, Classical.choice, Quot.sound
Asdf.Props.C26_always_partial                                propext, Classical.choice, Quot.sound
Asdf.Props.C26_driving_keymaps                               propext, Quot.sound
Asdf.Props.C26_shift_led_partial                             propext, Classical.choice, Quot.sound
Asdf.Props.C27_false                                         propext
Asdf.Props.C27_stuck_repeat                                  propext, Quot.sound
Asdf.Props.C27_positions_partial                             propext
Asdf.Props.C27_ctrl_not_stuck                                propext, Classical.choice, Quot.sound
Asdf.Props.C27_ctrl_exact                                    propext, Classical.choice, Quot.sound
Asdf.Props.C27_shift_not_stuck                               propext, Classical.choice, Quot.sound
Asdf.Props.C27_repeat_not_stuck                              propext, Classical.choice, Quot.sound
Asdf.Props.C27_shipped_places                                propext, Quot.sound
Asdf.Props.C28_outputs_partitioned                           propext, Classical.choice, Quot.sound
Asdf.Props.C29_impossible_assignment_is_noop                 propext, Classical.choice, Quot.sound
Asdf.Props.C30_history_refines_spec                          propext, Classical.choice, Quot.sound
Asdf.Props.C30_action_drives_exactly_own_outputs             propext, Classical.choice, Quot.sound
Asdf.Props.C30_action_changes_no_other_level                 propext, Classical.choice, Quot.sound
Asdf.Props.C30_activate_applies_configured_function          propext, Classical.choice, Quot.sound
Asdf.Props.C31_pulse_inverts_waits_restores                  propext, Classical.choice, Quot.sound
Asdf.Props.C32_false                                         propext, Quot.sound
Asdf.Props.C32_nothing_driven                                propext, Quot.sound
Asdf.Props.C32_recorded_partial                              propext, Classical.choice, Quot.sound
Asdf.Props.C32_sync_would_drive                              propext, Quot.sound
Asdf.Props.C33_hooks_are_a_guarded_finite_map                propext, Classical.choice, Quot.sound
Asdf.Props.C33_execute                                       propext, Classical.choice, Quot.sound
Asdf.Props.C33_invalid_id_is_inert                           propext, Classical.choice, Quot.sound
Asdf.Props.C34_select_invalid_or_current_is_noop             propext, Quot.sound
Asdf.Props.C34_map_switch_to_missing_keymap_is_noop          propext, Quot.sound
Asdf.Props.C35_no_residue                                    propext, Classical.choice, Quot.sound
Asdf.Props.C35_kept                                          propext, Classical.choice, Quot.sound
Asdf.Props.C36_false                                         propext, Quot.sound
Asdf.Props.C36_keymap_follows_partial                        propext, Classical.choice, Quot.sound
Asdf.Props.C36_exact_partial                                 propext, Classical.choice, Quot.sound
Asdf.Props.C37_false                                         propext, Quot.sound
Asdf.Props.C37_after_ten_scans_partial                       propext, Quot.sound
Asdf.Props.C37_next_scan_fails                               propext, Quot.sound
Asdf.Props.C37_constant_switches_partial                     propext, Classical.choice, Quot.sound
Asdf.Props.C38_false                                         propext, Classical.choice, Quot.sound
Asdf.Props.C38_dip4_types                                    propext, Quot.sound
Asdf.Props.C38_dips_never_type_partial                       propext, Classical.choice, Quot.sound
Asdf.Props.C38_nul_stream                                    propext, Classical.choice, Quot.sound
Asdf.Props.C39_tables_well_formed                            propext
Asdf.Props.C39_all_keymaps                                   propext
Asdf.Props.C40_false                                         propext
Asdf.Props.C40_messages_differ_partial                       propext
Asdf.Props.C41_value                                         propext, Classical.choice, Quot.sound
Asdf.Props.C41_large_rows                                    propext, Classical.choice, Quot.sound
Asdf.Props.C41_other_pins                                    propext, Classical.choice, Quot.sound
Asdf.Props.C41_pins_disjoint                                 propext, Quot.sound
Asdf.Props.C41_always_ready                                  propext, Classical.choice, Quot.sound
Asdf.Props.C42_row_line                                      propext, Quot.sound
Asdf.Props.C42_value                                         propext, Classical.choice, Quot.sound
Asdf.Props.C42_matrix                                        propext, Classical.choice, Quot.sound
Asdf.Props.C42_other_pins                                    propext, Quot.sound
Asdf.Props.C42_always_ready                                  propext, Classical.choice, Quot.sound
Asdf.Props.C42_row_31_undefined                              propext, Quot.sound
Asdf.Props.C42_transient_two_lines                           propext, Quot.sound
Asdf.Props.C42_matrix_exists                                 propext, Classical.choice, Quot.sound
Asdf.Props.C43_one_pulse                                     propext, Classical.choice, Quot.sound
Asdf.Props.C43_other_pins                                    propext, Classical.choice, Quot.sound
Asdf.Props.C43_directions                                    propext, Quot.sound
Asdf.Props.C43_idle_level                                    propext, Classical.choice, Quot.sound
Asdf.Props.C43_firmware                                      propext, Classical.choice, Quot.sound
Asdf.Props.C43_host_receives                                 propext, Classical.choice, Quot.sound
Asdf.Props.C43_polarity_selection_is_seen                    propext, Quot.sound
Asdf.Props.C44_open_high_never_high                          propext, Classical.choice, Quot.sound
Asdf.Props.C44_open_low_never_low                            propext, Classical.choice, Quot.sound
Asdf.Props.C44_own_pin_only                                  propext, Classical.choice, Quot.sound
Asdf.Props.C44_effect                                        propext, Classical.choice, Quot.sound
Asdf.Props.C44_no_open_out2_on_328p                          propext, Quot.sound
Asdf.Props.C44_meant_exists                                  propext, Quot.sound
Asdf.Props.C45_not_more_scans_than_ticks                     propext, Quot.sound
Asdf.Props.C45_no_tick_answered_twice                        propext, Quot.sound
Asdf.Props.C45_refines_run                                   propext, Quot.sound
Asdf.Props.C45_false                                         propext, Quot.sound
Asdf.Props.C45_lost_at_switch                                propext, Quot.sound
Asdf.Props.C45_answered_partial                              propext, Classical.choice, Quot.sound
Asdf.Props.C45_exactly_one_scan_per_tick_partial             propext, Classical.choice, Quot.sound
Asdf.Props.C45_scans_back_to_back                            propext, Quot.sound
Asdf.Props.C46_reports_pulses                                propext, Quot.sound
Asdf.Props.C46_reports_errors                                propext, Quot.sound
Asdf.Props.C46_errors_last                                   propext
Asdf.Props.C47_power_up                                      propext, Classical.choice, Quot.sound
Asdf.Props.C47_buffer_sizes                                  propext, Classical.choice, Quot.sound
Asdf.Props.C48_hold_sends                                    propext, Classical.choice, Quot.sound
Asdf.Props.C48_hold_types_on_schedule                        propext, Classical.choice, Quot.sound
Asdf.Props.C48_number_of_codes                               propext, Classical.choice, Quot.sound
Asdf.Props.C49_false                                         propext, Quot.sound
Asdf.Props.C49_led_goes_out                                  propext, Quot.sound
Asdf.Props.C49_one_pulse_partial                             propext, Quot.sound
Asdf.Props.C50_false                                         propext, Quot.sound
Asdf.Props.C50_lost_at_switch                                propext, Quot.sound
Asdf.Props.C50_negative_only_when_opened_partial             propext, Classical.choice, Quot.sound
Asdf.Props.C50_exact_partial                                 propext, Classical.choice, Quot.sound
Asdf.Props.C50_closed_rests_low_partial                      propext, Classical.choice, Quot.sound
Asdf.Props.C51_false                                         propext, Quot.sound
Asdf.Props.C51_divided_slow                                  propext, Quot.sound
Asdf.Props.C51_m328_partial                                  propext, Quot.sound
Asdf.Props.C51_m2560_partial                                 propext, Quot.sound
Asdf.Props.C52_false                                         propext
Asdf.Props.C52_reports_last_value_partial                    propext, Quot.sound
Asdf.Props.C53_false                                         propext, Quot.sound
Asdf.Props.C53_settings_independent_partial                  propext, Quot.sound
Asdf.Props.C53_pulse_disturbs_all_others                     propext, Quot.sound
Asdf.Props.C54_false                                         propext, Quot.sound
Asdf.Props.C54_exact_partial                                 propext, Classical.choice, Quot.sound
Asdf.Props.C54_closed_enabled_partial                        propext, Classical.choice, Quot.sound
Asdf.Props.C55_whole_keyboard                                propext, Classical.choice, Quot.sound
Asdf.Props.C55_reachable                                     propext, Classical.choice, Quot.sound
Asdf.Props.C56_one_pulse_per_press                           propext, Classical.choice, Quot.sound
Asdf.Props.C56_shipped                                       propext, Classical.choice, Quot.sound
Asdf.Props.C56_safe                                          propext, Classical.choice, Quot.sound
Asdf.Props.C57_tables                                        propext, Quot.sound
Asdf.Props.C57_each_letter_once                              propext
Asdf.Props.C57_apple                                         propext
Asdf.Props.C57_letters                                       propext, Classical.choice, Quot.sound
Asdf.Props.C57_letters_safe                                  propext, Classical.choice, Quot.sound
Asdf.Props.C58_subsequence                                   propext, Classical.choice, Quot.sound
Asdf.Props.C58_nothing_lost_partial                          propext, Classical.choice, Quot.sound
Asdf.Props.C58_messages_complete_partial                     propext, Classical.choice, Quot.sound
Asdf.Props.C58_one_at_a_time_partial                         propext, Classical.choice, Quot.sound
Asdf.Props.C58_false                                         propext, Quot.sound
Asdf.Props.C59_whole_board                                   propext, Classical.choice, Quot.sound
Asdf.Props.C59_pins                                          propext, Classical.choice, Quot.sound
Asdf.Props.C59_host                                          propext, Classical.choice, Quot.sound
Asdf.Props.C59_host_since                                    propext, Classical.choice, Quot.sound
Asdf.Props.C60_lamp                                          propext, Classical.choice, Quot.sound
Asdf.Props.C60_never_switched                                propext, Classical.choice, Quot.sound
Asdf.Props.C60_false                                         propext, Classical.choice, Quot.sound
Asdf.Props.C60_witness                                       propext, Quot.sound
Asdf.Props.C60_caps_partial                                  propext, Classical.choice, Quot.sound
Asdf.Props.C60_shiftlock_partial                             propext, Classical.choice, Quot.sound
Asdf.Props.C61_typed_partial                                 propext, Classical.choice, Quot.sound
Asdf.Props.C61_false                                         propext, Classical.choice, Quot.sound
Asdf.Props.C62_builds                                        propext, Classical.choice, Quot.sound
Asdf.Props.C62_shipped_keymaps                               propext
Asdf.Props.C62_shipped_list_is_not_uniform                   propext
Asdf.Props.C62_shipped_build                                 propext, Quot.sound
Asdf.Props.C63_one_per_pass                                  propext, Classical.choice, Quot.sound
Asdf.Props.C63_delivered                                     propext, Classical.choice, Quot.sound
Asdf.Props.C63_messages_delivered                            propext, Classical.choice, Quot.sound
Asdf.Props.C63_everything_typed_arrives                      propext, Classical.choice, Quot.sound
Asdf.Props.C64_noise_has_no_effect                           propext, Classical.choice, Quot.sound
Asdf.Props.C64_untouched_is_silent                           propext, Classical.choice, Quot.sound
Asdf.Props.C64_released_falls_silent                         propext, Classical.choice, Quot.sound
Asdf.Props.C65_program                                       propext, Classical.choice, Quot.sound
Asdf.Props.C66_only_keymap_characters                        propext, Classical.choice, Quot.sound
Asdf.Props.C66_seven_bits                                    propext, Classical.choice, Quot.sound
Asdf.Props.C66_seven_bits_safe                               propext, Classical.choice, Quot.sound
Asdf.Props.C67_lines_end_with_cr_lf                          propext, Classical.choice, Quot.sound
Asdf.Props.C68_false                                         propext
Asdf.Props.C68_caps_changes_letters_only_partial             propext, Quot.sound
Asdf.Props.C68_caps_at_run_time_partial                      propext, Classical.choice, Quot.sound
Asdf.Props.C68_caps_safe_partial                             propext, Classical.choice, Quot.sound
Asdf.Props.C68_exact                                         propext, Classical.choice, Quot.sound
Asdf.Props.C69_false                                         propext, Quot.sound
Asdf.Props.C69_character_set_partial                         propext, Quot.sound
Asdf.Props.C69_apple_prints_all_partial                      propext, Quot.sound
Asdf.Props.C69_typed_partial                                 propext, Classical.choice, Quot.sound
Asdf.Props.C70_false                                         propext, Quot.sound
Asdf.Props.C70_one_shift_key_partial                         propext, Classical.choice, Quot.sound
Asdf.Props.C71_false                                         propext
Asdf.Props.C71_messages_have_keys_partial                    propext
Asdf.Props.C72_four_keymaps                                  propext, Classical.choice, Quot.sound
Asdf.Props.C72_safe                                          propext, Classical.choice, Quot.sound
Asdf.Props.C72_unsafe                                        propext, Classical.choice, Quot.sound
Asdf.Props.C72_exact                                         propext, Classical.choice, Quot.sound
Asdf.Props.C72_dip_settings                                  propext, Classical.choice, Quot.sound
Asdf.Props.C73_strobe                                        propext, Classical.choice, Quot.sound
Asdf.Props.C73_autorepeat                                    propext, Classical.choice, Quot.sound
Asdf.Props.C73_unmoved                                       propext, Classical.choice, Quot.sound
Asdf.Props.C74_machine                                       propext, Classical.choice, Quot.sound
Asdf.Props.C75_board_safe                                    propext, Classical.choice, Quot.sound
Asdf.Props.C75_board_unsafe                                  propext, Classical.choice, Quot.sound
Asdf.Props.C75_machine                                       propext, Classical.choice, Quot.sound
Asdf.Props.C76_selects                                       propext, Classical.choice, Quot.sound
Asdf.Props.C76_value                                         propext, Classical.choice, Quot.sound
Asdf.Props.C76_other_pins                                    propext, Classical.choice, Quot.sound
Asdf.Props.C76_contention                                    propext, Classical.choice, Quot.sound
Asdf.Props.C76_pullups                                       propext, Quot.sound
Asdf.Props.C76_not_ready                                     propext, Quot.sound
Asdf.Props.C76_always_wired                                  propext, Classical.choice, Quot.sound
Asdf.Props.C76_stays_wired                                   propext, Classical.choice, Quot.sound
Asdf.Props.C76_upper_rows                                    propext, Quot.sound
Asdf.Props.C77_exact                                         propext, Classical.choice, Quot.sound
Asdf.Props.C77_shipped                                       propext, Classical.choice, Quot.sound
Asdf.Props.C77_accounting                                    propext, Classical.choice, Quot.sound
Asdf.Props.C77_complete_iff                                  propext, Classical.choice, Quot.sound
Asdf.Props.C77_line_end_cut                                  propext, Classical.choice, Quot.sound
Asdf.Props.C78_reads                                         propext, Classical.choice, Quot.sound
Asdf.Props.C78_shipped                                       propext, Classical.choice, Quot.sound
Asdf.Props.C78_end_to_end                                    propext, Classical.choice, Quot.sound
Asdf.Props.C78_extra_character                               propext, Classical.choice, Quot.sound
Asdf.Props.C79_account                                       propext, Quot.sound
Asdf.Props.C79_none_lost                                     propext, Classical.choice, Quot.sound
Asdf.Props.C80_columns_328                                   propext, Quot.sound
Asdf.Props.C80_shift_register                                propext, Classical.choice, Quot.sound
Asdf.Props.C80_rows_328                                      propext, Quot.sound
Asdf.Props.C80_columns_2560                                  propext, Quot.sound
Asdf.Props.C80_matrix_2560                                   propext, Quot.sound
Asdf.Props.C80_built                                         propext, Classical.choice, Quot.sound
Asdf.Props.C80_rows_2560                                     propext, Quot.sound
Asdf.Props.C80_all_switches                                  propext, Quot.sound
Asdf.Props.C80_positions                                     none
Asdf.Props.C80_labels                                        propext
Asdf.Props.C80_pullups                                       propext, Quot.sound
Asdf.Props.C80_shift_register_pins                           none
Asdf.Props.C80_levels_328                                    propext, Classical.choice, Quot.sound
Asdf.Props.C80_levels_2560                                   propext, Classical.choice, Quot.sound
Asdf.Props.C81_classic                                       propext
Asdf.Props.C81_capitals                                      propext
Asdf.Props.C81_functions                                     propext
Asdf.Props.C81_others                                        propext
Asdf.Props.C81_apple                                         propext
Asdf.Props.C81_dips                                          propext
Asdf.Props.C81_sol                                           propext
Asdf.Props.C81_sol_functions                                 propext
Asdf.Props.C81_sol_others                                    propext
Asdf.Props.C81_typed                                         propext, Classical.choice, Quot.sound
Asdf.Props.C81_typed_shifted                                 propext, Classical.choice, Quot.sound
Asdf.Props.C82_supply                                        propext, Quot.sound
Asdf.Props.C82_lines_328                                     propext, Quot.sound
Asdf.Props.C82_lines_2560                                    propext, Quot.sound
Asdf.Props.C82_code_328                                      propext, Classical.choice, Quot.sound
Asdf.Props.C82_code_2560                                     propext, Classical.choice, Quot.sound
Asdf.Props.C83_lit_328                                       propext, Quot.sound
Asdf.Props.C83_lit_2560                                      propext, Quot.sound
Asdf.Props.C83_all                                           none
Asdf.Props.C83_shows_328                                     propext, Classical.choice, Quot.sound
Asdf.Props.C83_shows_2560                                    propext, Classical.choice, Quot.sound
Asdf.Props.C84_keys_have_no_effect                           propext, Quot.sound
Asdf.Props.C84_false                                         propext, Quot.sound
Asdf.Props.C84_turned_partial                                propext, Quot.sound
Asdf.Props.C85_lines                                         none
Asdf.Props.C85_keyboard                                      propext, Quot.sound
Asdf.Props.C86_chips                                         none
Asdf.Props.C86_latches_enabled                               none
Asdf.Props.C86_write                                         propext
Asdf.Props.C86_read                                          propext
Asdf.Props.C86_write_lines                                   propext
Asdf.Props.C86_matrix                                        propext, Quot.sound
Asdf.Props.C86_scan                                          propext, Quot.sound
Asdf.Props.C86_labels                                        propext
Asdf.Props.C86_all_keys                                      propext, Quot.sound
Asdf.Props.C86_pullups                                       none
Asdf.Props.C87_shipped_328                                   propext, Classical.choice, Quot.sound
Asdf.Props.C87_shipped_2560                                  propext, Classical.choice, Quot.sound
Asdf.Props.C87_socket_328                                    propext, Classical.choice, Quot.sound
Asdf.Props.C87_socket_2560                                   propext, Classical.choice, Quot.sound
Asdf.Props.C87_visible_328                                   propext, Classical.choice, Quot.sound
Asdf.Props.C87_visible_2560                                  propext, Classical.choice, Quot.sound
Asdf.Props.C88_same_effects                                  propext, Classical.choice, Quot.sound
Asdf.Props.C88_safe                                          propext, Classical.choice, Quot.sound
Asdf.Props.C88_host                                          propext, Classical.choice, Quot.sound
Asdf.Props.C88_unsafe                                        propext, Classical.choice, Quot.sound
Asdf.Props.C88_exact                                         propext, Classical.choice, Quot.sound
Asdf.Props.C89_atmega328p                                    propext, Classical.choice, Quot.sound
Asdf.Props.C89_atmega2560                                    propext, Classical.choice, Quot.sound
Asdf.Props.C89_osi_reader                                    propext, Classical.choice, Quot.sound
Asdf.Props.C89_set_bit                                       propext, Classical.choice, Quot.sound
Asdf.Props.C89_clear_bit                                     propext, Classical.choice, Quot.sound
Asdf.Props.C90_text                                          propext, Classical.choice, Quot.sound
Asdf.Props.C90_safe                                          propext, Classical.choice, Quot.sound
Asdf.Props.C90_safe_settings                                 propext, Quot.sound
Asdf.Props.C90_host                                          propext, Classical.choice, Quot.sound
Asdf.Props.C90_computer_328                                  propext, Classical.choice, Quot.sound
Asdf.Props.C90_computer_2560                                 propext, Classical.choice, Quot.sound
Asdf.Props.C91_typed                                         propext, Classical.choice, Quot.sound
Asdf.Props.C91_host                                          propext, Classical.choice, Quot.sound
Asdf.Props.C91_computer_328                                  propext, Classical.choice, Quot.sound
Asdf.Props.C91_computer_2560                                 propext, Classical.choice, Quot.sound
Asdf.Props.C91_strokes                                       propext, Classical.choice, Quot.sound
Asdf.Props.C91_strokes_computer_328                          propext, Classical.choice, Quot.sound
Asdf.Props.C91_strokes_computer_2560                         propext, Classical.choice, Quot.sound
Asdf.Props.C91_rollover                                      propext, Classical.choice, Quot.sound
Asdf.Props.C91_any_text                                      propext, Classical.choice, Quot.sound
Asdf.Props.C92_never                                         propext, Classical.choice, Quot.sound
Asdf.Props.C92_never_four                                    propext, Classical.choice, Quot.sound
Asdf.Props.C92_exactly                                       propext, Classical.choice, Quot.sound
Asdf.Props.C93_exact                                         propext, Classical.choice, Quot.sound
Asdf.Props.C93_put_get_safe                                  propext, Classical.choice, Quot.sound
Asdf.Props.C93_negative_inert                                propext, Classical.choice, Quot.sound
Asdf.Props.C94_panel                                         propext, Classical.choice, Quot.sound
Asdf.Props.C94_shift                                         propext, Quot.sound
Asdf.Props.C94_ctrl                                          propext, Classical.choice, Quot.sound
Asdf.Props.C94_caps                                          propext, Quot.sound
Asdf.Props.C94_lamps                                         propext, Classical.choice, Quot.sound
Asdf.Props.C95_exact                                         propext, Classical.choice, Quot.sound
Asdf.Props.C95_host                                          propext, Classical.choice, Quot.sound
Asdf.Props.C95_schedule                                      propext, Classical.choice, Quot.sound
Asdf.Props.C95_double_rate                                   propext, Classical.choice, Quot.sound
Asdf.Props.C96_portable                                      propext, Quot.sound
Asdf.Props.C96_hardware                                      propext, Quot.sound
Asdf.Props.C96_names                                         propext
Asdf.Props.C96_run                                           propext, Quot.sound
Asdf.Props.C96_safe                                          propext, Classical.choice, Quot.sound
Asdf.Props.C97_scope                                         propext, Classical.choice, Quot.sound
Asdf.Props.C97_pulses                                        propext, Classical.choice, Quot.sound
Asdf.Props.C97_pace                                          propext, Classical.choice, Quot.sound
Asdf.Props.C98_output3                                       propext, Classical.choice, Quot.sound
Asdf.Props.C98_output1                                       propext, Classical.choice, Quot.sound
Asdf.Props.C99_bounce                                        propext, Classical.choice, Quot.sound
Asdf.Props.C99_fingers                                       propext, Classical.choice, Quot.sound
Asdf.Props.C99_computer_328                                  propext, Classical.choice, Quot.sound
Asdf.Props.C99_computer_2560                                 propext, Classical.choice, Quot.sound
