{
 "claims": [
  {
   "property": "C01",
   "status": "proved",
   "theorems": [
    "Asdf.Props.C01_buffers_are_bounded_fifo",
    "Asdf.Props.C01_spec_fifo",
    "Asdf.Props.C01_spec_full"
   ],
   "note": "every operation sequence with non-negative sizes refines bounded FIFO queues"
  },
  {
   "property": "C02",
   "status": "proved",
   "theorems": [
    "Asdf.Props.C02_buffers_do_not_interfere",
    "Asdf.Props.C02_negative_size_interferes"
   ],
   "note": "non-interference for non-negative sizes; a negative size breaks it (witness)"
  },
  {
   "property": "C03",
   "status": "partial",
   "theorems": [
    "Asdf.Props.C03_buffer_memory_safe_partial",
    "Asdf.Props.C03_negative_size_unsafe"
   ],
   "note": "false for negative sizes (witness proved); proved for every sequence with non-negative sizes; the exact rule for all sizes is C93"
  },
  {
   "property": "C04",
   "status": "proved",
   "theorems": [
    "Asdf.Props.C04_reservation_iff_fits",
    "Asdf.Props.C04_unknown_handle_is_inert"
   ],
   "note": ""
  },
  {
   "property": "C05",
   "status": "proved",
   "theorems": [
    "Asdf.Props.C05_next_code",
    "Asdf.Props.C05_pause",
    "Asdf.Props.C05_shipped"
   ],
   "note": "every reachable-shape state with both streams abstracted as lists; the delay is the one of the selected keymap after every run, 40 ms with the shipped keymaps"
  },
  {
   "property": "C06",
   "status": "proved",
   "theorems": [
    "Asdf.Props.C06_print",
    "Asdf.Props.C06_print_verbatim"
   ],
   "note": "texts of codes below 0xA0 that fit"
  },
  {
   "property": "C07",
   "status": "proved",
   "theorems": [
    "Asdf.Props.C07_messages_fit",
    "Asdf.Props.C07_messages_transmitted",
    "Asdf.Props.C07_messages_reach_host"
   ],
   "note": "all six shipped keymaps for fitting and transmission; end to end through the main loop for keymaps 0-3"
  },
  {
   "property": "C08",
   "status": "proved",
   "theorems": [
    "Asdf.Props.C08_at_most_one_send",
    "Asdf.Props.C08_front_is_sent",
    "Asdf.Props.C08_shipped"
   ],
   "note": "at-most-one and below 0xA0 for every state; the front-of-stream part for reachable states of any fit keymap list, and for the shipped one"
  },
  {
   "property": "C09",
   "status": "proved",
   "theorems": [
    "Asdf.Props.C09_streams_conserved",
    "Asdf.Props.C09_pending_delivered"
   ],
   "note": ""
  },
  {
   "property": "C10",
   "status": "proved",
   "theorems": [
    "Asdf.Props.C10_counts_never_wrap"
   ],
   "note": "every configuration and every input"
  },
  {
   "property": "C100",
   "status": "proved",
   "theorems": [
    "Asdf.Props.C100_bounds",
    "Asdf.Props.C100_looks",
    "Asdf.Props.C100_next",
    "Asdf.Props.C100_first",
    "Asdf.Props.C100_ticking",
    "Asdf.Props.C100_busy",
    "Asdf.Props.C100_lost"
   ],
   "note": "Full property, for the text of the source files on both boards. Time is counted in accesses to registers; an interrupt can come before each. C100_bounds: the bounds of the interpreter on loops and calls do not matter. C100_lost is the negative part: a timer that asks only between look and clear is never heard."
  },
  {
   "property": "C101",
   "status": "proved",
   "theorems": [
    "Asdf.Props.C101_every_text_328",
    "Asdf.Props.C101_every_text_2560"
   ],
   "note": "Full property. The keys move without bounce here (C99 allows bounce for given movements); the world with the keys is built along the run, so the times depend on the timer and the other pins."
  },
  {
   "property": "C102",
   "status": "proved",
   "theorems": [
    "Asdf.Props.C102_only",
    "Asdf.Props.C102_stays",
    "Asdf.Props.C102_cause",
    "Asdf.Props.C102_next",
    "Asdf.Props.C102_scans",
    "Asdf.Props.C102_unsafe",
    "Asdf.Props.C102_exact",
    "Asdf.Props.C102_keyboards"
   ],
   "note": "Full property, for the text of the source files on both boards. C90 and C100 are about safe use; here nothing is assumed about the keys. C102_only excludes every error of the interpreter except the access outside of an object (null pointers, shifts, overflow, bad calls, loops without end). C102_exact is the two-sided condition on the DIP switches. C102_keyboards states it for the labelled DIP switches of every keyboard: DIP 3 alone closed, the setting meant for the Sol keymap, never works."
  },
  {
   "property": "C103",
   "status": "proved",
   "theorems": [
    "Asdf.Props.C103_typed",
    "Asdf.Props.C103_host",
    "Asdf.Props.C103_computer_328",
    "Asdf.Props.C103_computer_2560",
    "Asdf.Props.C103_condition_needed"
   ],
   "note": "C103_typed is for every keymap list; C103_host for the shipped firmware in safe use (C72); C103_computer_* for the C text on the boards. C99 says the same for movements of the keys of the classic keyboard with bouncing contacts. C103_condition_needed: a typed twice, SHIFT pressed before the first a is released, is received three times, because the code stays recorded as last pressed and the delay is not started again. Non-vacuity: \"HiIh\" with SHIFT released before H and CAPS LOCK switched while keys are down."
  },
  {
   "property": "C104",
   "status": "proved",
   "theorems": [
    "Asdf.Props.C104_bounce",
    "Asdf.Props.C104_every_text",
    "Asdf.Props.C104_computer_328",
    "Asdf.Props.C104_computer_2560"
   ],
   "note": "All settings with one of the keymaps 0 to 3 (with the others the firmware leaves its memory objects, C72). The computer theorems take the readings of the scans as hypothesis; C105 derives them from the movements of the switches in time."
  },
  {
   "property": "C105",
   "status": "proved",
   "theorems": [
    "Asdf.Props.C105_fingers",
    "Asdf.Props.C105_computer_328",
    "Asdf.Props.C105_computer_2560"
   ],
   "note": "Both place lists (classic and Sol keyboard), all settings with one of the keymaps 0 to 3; nothing is assumed about a contact while it bounces. The order of the movements is restricted by the typist's rule of C103 (Sound) and measured by the scans of the same run."
  },
  {
   "property": "C106",
   "status": "proved",
   "theorems": [
    "Asdf.Props.C106_every_text_328",
    "Asdf.Props.C106_every_text_2560",
    "Asdf.Props.C106_nothing_else"
   ],
   "note": "Full property for the keymaps 0 to 3. The keys move without bounce in the texts that are constructed (C105 allows bounce for given movements). On the Sol keyboard S and D of these keymaps have no key."
  },
  {
   "property": "C107",
   "status": "proved",
   "theorems": [
    "Asdf.Props.C107_held",
    "Asdf.Props.C107_fingers",
    "Asdf.Props.C107_computer_328",
    "Asdf.Props.C107_computer_2560"
   ],
   "note": "One key with a character at a time; with rollover see C103 and C105 (no key held long enough to repeat). The counts follow the readings of the scans, so the theorem in time refers to what was read between the press and the release."
  },
  {
   "property": "C108",
   "status": "proved",
   "theorems": [
    "Asdf.Props.C108_m328",
    "Asdf.Props.C108_m2560"
   ],
   "note": "The exact rule behind C51: tick every 2^p milliseconds for a clock divided by 2^p at reset. That the change window is shut at reset is a fact of the datasheet (hypothesis)."
  },
  {
   "property": "C109",
   "status": "proved",
   "theorems": [
    "Asdf.Props.C109_pins",
    "Asdf.Props.C109_when",
    "Asdf.Props.C109_after"
   ],
   "note": "The exact rule behind C49, pin by pin, and an if-and-only-if for when C49 holds."
  },
  {
   "property": "C11",
   "status": "proved",
   "theorems": [
    "Asdf.Props.C11_own_samples_only",
    "Asdf.Props.C11_key_independence"
   ],
   "note": ""
  },
  {
   "property": "C110",
   "status": "proved",
   "theorems": [
    "Asdf.Props.C110_calls",
    "Asdf.Props.C110_fingers",
    "Asdf.Props.C110_computer_328",
    "Asdf.Props.C110_computer_2560"
   ],
   "note": "One key at a time (as C107), with the message out before the next key moves; keymaps 0 to 3."
  },
  {
   "property": "C111",
   "status": "proved",
   "theorems": [
    "Asdf.Props.C111_same_message",
    "Asdf.Props.C111_message_keys"
   ],
   "note": "The exact rules behind C40 and C71."
  },
  {
   "property": "C112",
   "status": "proved",
   "theorems": [
    "Asdf.Props.C112_select",
    "Asdf.Props.C112_events",
    "Asdf.Props.C112_safe",
    "Asdf.Props.C112_outputs",
    "Asdf.Props.C112_lamps",
    "Asdf.Props.C112_lines"
   ],
   "note": "The exact rule for C32: nothing but a caps-lock lamp is driven on selection, and nothing else moves. C112_select is for every keymap list and state; C112_safe shows that the hypotheses of C112_events hold in every safe run."
  },
  {
   "property": "C113",
   "status": "proved",
   "theorems": [
    "Asdf.Props.C113_values",
    "Asdf.Props.C113_open_outputs",
    "Asdf.Props.C113_trusted",
    "Asdf.Props.C113_pulses",
    "Asdf.Props.C113_sent"
   ],
   "note": "The exact rules for C52 and C53: all outputs, open ones included, and the record of sent codes."
  },
  {
   "property": "C114",
   "status": "proved",
   "theorems": [
    "Asdf.Props.C114_new_key",
    "Asdf.Props.C114_within_66"
   ],
   "note": "The exact rule behind C19, C20 and C21, without their hypotheses."
  },
  {
   "property": "C115",
   "status": "proved",
   "theorems": [
    "Asdf.Props.C115_swaps",
    "Asdf.Props.C115_fingers",
    "Asdf.Props.C115_computer_328",
    "Asdf.Props.C115_computer_2560"
   ],
   "note": "One key at a time as in C110; a key that is held while a switch is moved must be a modifier key in the new keymap too; DIP switches 2 to 7 stay where they are; keymaps 0 to 3."
  },
  {
   "property": "C116",
   "status": "proved",
   "theorems": [
    "Asdf.Props.C116_rolls",
    "Asdf.Props.C116_off",
    "Asdf.Props.C116_fingers",
    "Asdf.Props.C116_computer_328",
    "Asdf.Props.C116_computer_2560"
   ],
   "note": "C104 and C107 in one and without the limits of both: C104 has overlapping keys that are held for at most 525 scans, C107 one key at a time. REPEAT whose meaning changes with a modifier while it is held (keymap 2) is followed too, as the code at the release decides (C27). With the keymaps 0 to 3 (with the others the firmware leaves its memory objects, C72). Keys that call messages or perform other actions are not in these sessions (C110)."
  },
  {
   "property": "C117",
   "status": "proved",
   "theorems": [
    "Asdf.Props.C117_depth",
    "Asdf.Props.C117_ends"
   ],
   "note": "Full property. `DepthAtMost 23`: a call above level 23 could do anything, the run is the same; an example shows that level 9 is reached already before the first look, so the bound is not empty. C117_ends: the run with 23 levels reaches its look or accesses memory outside of an object as described by C102. How many bytes of stack a level takes is decided by the compiler and is not modelled."
  },
  {
   "property": "C118",
   "status": "proved",
   "theorems": [
    "Asdf.Props.C118_waits",
    "Asdf.Props.C118_typing"
   ],
   "note": "Time the instructions take is not modelled (only the delays written in the source). Which codes the host is sent, and which of them are characters of messages, is C77; pressCount (C56) counts the accepted presses of keys that have output code 1 or 2 at that moment."
  },
  {
   "property": "C119",
   "status": "proved",
   "theorems": [
    "Asdf.Props.C119_columns_328",
    "Asdf.Props.C119_columns_2560",
    "Asdf.Props.C119_drivers_328",
    "Asdf.Props.C119_drivers_2560",
    "Asdf.Props.C119_ghosts",
    "Asdf.Props.C119_two_switches",
    "Asdf.Props.C119_one_key",
    "Asdf.Props.C119_read_328",
    "Asdf.Props.C119_read_2560",
    "Asdf.Props.C119_levels_328",
    "Asdf.Props.C119_levels_2560",
    "Asdf.Props.C119_fight",
    "Asdf.Props.C119_dip_ghost",
    "Asdf.Props.C119_shift_ghost",
    "Asdf.Props.C119_built",
    "Asdf.Props.C119_computer_328",
    "Asdf.Props.C119_computer_2560",
    "Asdf.Props.C119_lines"
   ],
   "note": "Complements C80 (keyboards with diodes). C119_dip_ghost is a finding: without diodes at the keys, two keys can make an open DIP switch appear closed. C119_computer_*: from the switches to the computer, run on the C text."
  },
  {
   "property": "C12",
   "status": "partial",
   "theorems": [
    "Asdf.Props.C12_ten_samples_partial",
    "Asdf.Props.C12_false"
   ],
   "note": "false as stated: the count is cumulative (witness proved). Proved: exactly ten samples of the new state since the last accepted change"
  },
  {
   "property": "C13",
   "status": "proved",
   "theorems": [
    "Asdf.Props.C13_accepted_within_ten",
    "Asdf.Props.C13_exactly_ten"
   ],
   "note": ""
  },
  {
   "property": "C14",
   "status": "proved",
   "theorems": [
    "Asdf.Props.C14_events_alternate",
    "Asdf.Props.C14_events_are_handled"
   ],
   "note": ""
  },
  {
   "property": "C15",
   "status": "proved",
   "theorems": [
    "Asdf.Props.C15_runs_are_histories",
    "Asdf.Props.C15_press_queues_once",
    "Asdf.Props.C15_nothing_else_queues",
    "Asdf.Props.C15_pass"
   ],
   "note": "For every history of the main loop under every well-formed configuration; the shipped configuration is one."
  },
  {
   "property": "C16",
   "status": "partial",
   "theorems": [
    "Asdf.Props.C16_nothing_key_is_silent_partial",
    "Asdf.Props.C16_delays_other_keys",
    "Asdf.Props.C16_stops_repeat"
   ],
   "note": "The property is false of the code: a NOTHING key delays and silences other keys (two theorems). Proved part: alone, it transmits nothing and changes nothing."
  },
  {
   "property": "C17",
   "status": "partial",
   "theorems": [
    "Asdf.Props.C17_no_undefined_behaviour_partial",
    "Asdf.Props.C17_shipped_partial",
    "Asdf.Props.C17_false",
    "Asdf.Props.C17_out_of_bounds",
    "Asdf.Props.C72_exact"
   ],
   "note": "False as stated: DIP switch 2 selects keymap 4 and the next lookup reads outside keymaps[4] (witness proved). Proved for every run in which DIP switch 2 is never sampled closed, and exactly characterised by C72_exact."
  },
  {
   "property": "C18",
   "status": "partial",
   "theorems": [
    "Asdf.Props.C18_lookup_partial",
    "Asdf.Props.C18_shipped_partial",
    "Asdf.Props.C18_false"
   ],
   "note": "False for keymaps 4 and 5, where every lookup is out of bounds (C18_false). Proved for keymaps 0-3, in every state and along every run from power-up."
  },
  {
   "property": "C19",
   "status": "partial",
   "theorems": [
    "Asdf.Props.C19_autorepeat_schedule",
    "Asdf.Props.C19_hold_schedule_partial",
    "Asdf.Props.C19_false"
   ],
   "note": "False when the pressed code is still recorded as last pressed although its key is up (C19_false). Proved otherwise."
  },
  {
   "property": "C20",
   "status": "proved",
   "theorems": [
    "Asdf.Props.C20_no_repeat_when_off",
    "Asdf.Props.C20_held_key_sent_once"
   ],
   "note": "Timer level and host level."
  },
  {
   "property": "C21",
   "status": "partial",
   "theorems": [
    "Asdf.Props.C21_release_restores_mode",
    "Asdf.Props.C21_fast_repeat_while_held_partial",
    "Asdf.Props.C21_fast_schedule_partial",
    "Asdf.Props.C21_repeat_key_can_be_ignored"
   ],
   "note": "The property is false of the code when the timer has run down to 66 or less; C21_repeat_key_can_be_ignored proves the failure. The exact rule for every history is C114. Within typed text, as far as the computer: C116."
  },
  {
   "property": "C22",
   "status": "proved",
   "theorems": [
    "Asdf.Props.C22_only_last_press_repeats",
    "Asdf.Props.C22_case"
   ],
   "note": "For every history."
  },
  {
   "property": "C23",
   "status": "proved",
   "theorems": [
    "Asdf.Props.C23_modifier_precedence",
    "Asdf.Props.C23_table_after_history"
   ],
   "note": ""
  },
  {
   "property": "C24",
   "status": "proved",
   "theorems": [
    "Asdf.Props.C24_modifiers_follow_history"
   ],
   "note": ""
  },
  {
   "property": "C25",
   "status": "proved",
   "theorems": [
    "Asdf.Props.C25_lock_leds_follow_lock_states"
   ],
   "note": ""
  },
  {
   "property": "C26",
   "status": "partial",
   "theorems": [
    "Asdf.Props.C26_false",
    "Asdf.Props.C26_witness",
    "Asdf.Props.C26_led_shows_caps_partial",
    "Asdf.Props.C26_always_partial",
    "Asdf.Props.C26_driving_keymaps",
    "Asdf.Props.C26_shift_led_partial"
   ],
   "note": "False after keymap switches (witness: keymap 2 and back; caps on, LED never driven). For every keymap list and every run: once driven since the last switch the indicator shows the caps state; always for keymaps that activate caps lock in their setup (2, 4, 5). The same for the shift-lock indicator. The exact behaviour of the shipped lamps is C94"
  },
  {
   "property": "C27",
   "status": "partial",
   "theorems": [
    "Asdf.Props.C27_false",
    "Asdf.Props.C27_stuck_repeat",
    "Asdf.Props.C27_positions_partial",
    "Asdf.Props.C27_ctrl_not_stuck",
    "Asdf.Props.C27_ctrl_exact",
    "Asdf.Props.C27_shift_not_stuck",
    "Asdf.Props.C27_repeat_not_stuck",
    "Asdf.Props.C27_shipped_places"
   ],
   "note": "False for REPEAT (apple2 and Sol keymaps): refuted on the tables and by a concrete run that leaves fast repeat on with no key held. SHIFT, CTRL and CAPS have the same positions in all tables of all six keymaps. For every history of every keymap list in which a modifier has fixed positions: momentary shift, CTRL and fast repeat are only active while such a key is held (instances: shipped keymaps 0-3; REPEAT for the classic ones). C114 and C116 follow REPEAT exactly, also when it stays in force."
  },
  {
   "property": "C28",
   "status": "proved",
   "theorems": [
    "Asdf.Props.C28_outputs_partitioned"
   ],
   "note": ""
  },
  {
   "property": "C29",
   "status": "proved",
   "theorems": [
    "Asdf.Props.C29_impossible_assignment_is_noop"
   ],
   "note": ""
  },
  {
   "property": "C30",
   "status": "proved",
   "theorems": [
    "Asdf.Props.C30_history_refines_spec",
    "Asdf.Props.C30_action_drives_exactly_own_outputs",
    "Asdf.Props.C30_action_changes_no_other_level",
    "Asdf.Props.C30_activate_applies_configured_function"
   ],
   "note": ""
  },
  {
   "property": "C31",
   "status": "proved",
   "theorems": [
    "Asdf.Props.C31_pulse_inverts_waits_restores"
   ],
   "note": ""
  },
  {
   "property": "C32",
   "status": "partial",
   "theorems": [
    "Asdf.Props.C32_false",
    "Asdf.Props.C32_nothing_driven",
    "Asdf.Props.C32_recorded_partial",
    "Asdf.Props.C32_sync_would_drive"
   ],
   "note": "False: selecting a keymap drives nothing but possibly the caps indicator. The initial values are recorded as levels, for every keymap list and prior state. Exactly what is driven: C112."
  },
  {
   "property": "C33",
   "status": "proved",
   "theorems": [
    "Asdf.Props.C33_hooks_are_a_guarded_finite_map",
    "Asdf.Props.C33_execute",
    "Asdf.Props.C33_invalid_id_is_inert"
   ],
   "note": ""
  },
  {
   "property": "C34",
   "status": "proved",
   "theorems": [
    "Asdf.Props.C34_select_invalid_or_current_is_noop",
    "Asdf.Props.C34_map_switch_to_missing_keymap_is_noop"
   ],
   "note": ""
  },
  {
   "property": "C35",
   "status": "proved",
   "theorems": [
    "Asdf.Props.C35_no_residue",
    "Asdf.Props.C35_kept"
   ],
   "note": "Selecting a keymap from two arbitrary states gives the same tables, hooks and output assignments; pending output, debounce state, repeat state, SHIFT and CTRL are kept."
  },
  {
   "property": "C36",
   "status": "partial",
   "theorems": [
    "Asdf.Props.C36_false",
    "Asdf.Props.C36_keymap_follows_partial",
    "Asdf.Props.C36_exact_partial"
   ],
   "note": "False: closing 1, closing 2, opening 1 leaves keymap 0 although the switches spell 4. Proved for every history with DIP switch 2 open (keymaps 0-3), by induction over key events. C115 follows such movements within typed text, as far as the computer."
  },
  {
   "property": "C37",
   "status": "partial",
   "theorems": [
    "Asdf.Props.C37_false",
    "Asdf.Props.C37_after_ten_scans_partial",
    "Asdf.Props.C37_next_scan_fails",
    "Asdf.Props.C37_constant_switches_partial"
   ],
   "note": "False for keymaps 4 and 5 combined with a closed switch 4-7 (out-of-bounds lookup in the same scan). Proved for all other settings after exactly ten scans; for keymaps 0-3 after any number of scans from ten on, whatever is typed."
  },
  {
   "property": "C38",
   "status": "partial",
   "theorems": [
    "Asdf.Props.C38_false",
    "Asdf.Props.C38_dip4_types",
    "Asdf.Props.C38_dips_never_type_partial",
    "Asdf.Props.C38_nul_stream"
   ],
   "note": "False: DIP switch 4 types NUL. All other DIP switches never queue a character. C38_nul_stream: the exact stream of NULs of a keyboard switched on with switch 4 closed."
  },
  {
   "property": "C39",
   "status": "proved",
   "theorems": [
    "Asdf.Props.C39_tables_well_formed",
    "Asdf.Props.C39_all_keymaps"
   ],
   "note": "Kernel evaluation of all six complete keymaps."
  },
  {
   "property": "C40",
   "status": "partial",
   "theorems": [
    "Asdf.Props.C40_false",
    "Asdf.Props.C40_messages_differ_partial"
   ],
   "note": "False: classic and classic_caps print the same text. All other pairs differ. Exactly which are equal: C111."
  },
  {
   "property": "C41",
   "status": "proved",
   "theorems": [
    "Asdf.Props.C41_value",
    "Asdf.Props.C41_large_rows",
    "Asdf.Props.C41_other_pins",
    "Asdf.Props.C41_pins_disjoint",
    "Asdf.Props.C41_always_ready"
   ],
   "note": "For every register state reachable after initialisation, every matrix and row number. The shift register outside the controller is modelled from the comments in the source."
  },
  {
   "property": "C42",
   "status": "proved",
   "theorems": [
    "Asdf.Props.C42_row_line",
    "Asdf.Props.C42_value",
    "Asdf.Props.C42_matrix",
    "Asdf.Props.C42_other_pins",
    "Asdf.Props.C42_always_ready",
    "Asdf.Props.C42_row_31_undefined",
    "Asdf.Props.C42_transient_two_lines",
    "Asdf.Props.C42_matrix_exists"
   ],
   "note": "For every row below 31 and every reachable register state, with the column levels an arbitrary function of the registers. While the row lines change, two of them are low for a moment (witness); at the read exactly one is."
  },
  {
   "property": "C43",
   "status": "proved",
   "theorems": [
    "Asdf.Props.C43_one_pulse",
    "Asdf.Props.C43_other_pins",
    "Asdf.Props.C43_directions",
    "Asdf.Props.C43_idle_level",
    "Asdf.Props.C43_firmware",
    "Asdf.Props.C43_host_receives",
    "Asdf.Props.C43_polarity_selection_is_seen"
   ],
   "note": "Both AVR boards, optimised (SBI) code generation, every register state. Pin waveform between register writes; real time between the edges is not modelled."
  },
  {
   "property": "C44",
   "status": "proved",
   "theorems": [
    "Asdf.Props.C44_open_high_never_high",
    "Asdf.Props.C44_open_low_never_low",
    "Asdf.Props.C44_own_pin_only",
    "Asdf.Props.C44_effect",
    "Asdf.Props.C44_no_open_out2_on_328p",
    "Asdf.Props.C44_meant_exists"
   ],
   "note": "Every intermediate register state of every output setter on both AVR boards."
  },
  {
   "property": "C45",
   "status": "partial",
   "theorems": [
    "Asdf.Props.C45_not_more_scans_than_ticks",
    "Asdf.Props.C45_no_tick_answered_twice",
    "Asdf.Props.C45_refines_run",
    "Asdf.Props.C45_false",
    "Asdf.Props.C45_lost_at_switch",
    "Asdf.Props.C45_answered_partial",
    "Asdf.Props.C45_exactly_one_scan_per_tick_partial",
    "Asdf.Props.C45_scans_back_to_back"
   ],
   "note": "First two parts proved for every interleaving. The third is false of the code: a tick between the read and the clear of the flag, or in a pass that switches the keymap, is lost (witnesses). Proved part: every other tick is answered within five main loop steps. The exact rule for which ticks are seen is C79."
  },
  {
   "property": "C46",
   "status": "proved",
   "theorems": [
    "Asdf.Props.C46_reports_pulses",
    "Asdf.Props.C46_reports_errors",
    "Asdf.Props.C46_errors_last"
   ],
   "note": "For every event sequence and every plain output; the open outputs are covered by C52."
  },
  {
   "property": "C47",
   "status": "proved",
   "theorems": [
    "Asdf.Props.C47_power_up",
    "Asdf.Props.C47_buffer_sizes"
   ],
   "note": "Symbolic boot for every keymap list."
  },
  {
   "property": "C48",
   "status": "proved",
   "theorems": [
    "Asdf.Props.C48_hold_sends",
    "Asdf.Props.C48_hold_types_on_schedule",
    "Asdf.Props.C48_number_of_codes"
   ],
   "note": "For every state of the repeat timer; the schedule with 525 scans is the case of a freshly started delay."
  },
  {
   "property": "C49",
   "status": "partial",
   "theorems": [
    "Asdf.Props.C49_false",
    "Asdf.Props.C49_led_goes_out",
    "Asdf.Props.C49_one_pulse_partial"
   ],
   "note": "False of the code: a literal read-modify-write of PINB toggles every high pin of port B (witness). Proved part: the strobe pin itself still gives one pulse. Exactly what happens to the other pins, and when nothing does, is C109."
  },
  {
   "property": "C50",
   "status": "partial",
   "theorems": [
    "Asdf.Props.C50_false",
    "Asdf.Props.C50_lost_at_switch",
    "Asdf.Props.C50_negative_only_when_opened_partial",
    "Asdf.Props.C50_exact_partial",
    "Asdf.Props.C50_closed_rests_low_partial"
   ],
   "note": "False as stated: an open switch at power-up leaves positive polarity, and a keymap change resets the polarity. Proved: a closed switch always gives positive polarity (keymaps 0-3), also at the pin; exact rule as long as the keymap is not changed. The exact rule with keymap changes, in terms of the readings, is C73_strobe."
  },
  {
   "property": "C51",
   "status": "partial",
   "theorems": [
    "Asdf.Props.C51_false",
    "Asdf.Props.C51_divided_slow",
    "Asdf.Props.C51_m328_partial",
    "Asdf.Props.C51_m2560_partial"
   ],
   "note": "False as stated: a divided system clock at reset stays divided. Proved for an undivided clock: exactly n interrupts in every n milliseconds, after any events and row reads. The exact rule for every divider is C108."
  },
  {
   "property": "C52",
   "status": "partial",
   "theorems": [
    "Asdf.Props.C52_false",
    "Asdf.Props.C52_reports_last_value_partial"
   ],
   "note": "False of the code: the setters of all open outputs write output 1 open-high (witness). Proved part: all plain outputs and LEDs. Exactly what is reported: C113."
  },
  {
   "property": "C53",
   "status": "partial",
   "theorems": [
    "Asdf.Props.C53_false",
    "Asdf.Props.C53_settings_independent_partial",
    "Asdf.Props.C53_pulse_disturbs_all_others"
   ],
   "note": "False of the code: every delay is seen by the detectors of all outputs (witness). Proved part: setting other outputs does not disturb a detector. Exactly what is reported: C113."
  },
  {
   "property": "C54",
   "status": "partial",
   "theorems": [
    "Asdf.Props.C54_false",
    "Asdf.Props.C54_exact_partial",
    "Asdf.Props.C54_closed_enabled_partial"
   ],
   "note": "False as stated: an open switch at power-up leaves autorepeat enabled. Exact rule proved for keymaps 0-3: disabled iff the switch is open and was closed before; in terms of the readings in C73_autorepeat. Within typed text, as far as the computer: C116."
  },
  {
   "property": "C55",
   "status": "proved",
   "theorems": [
    "Asdf.Props.C55_whole_keyboard",
    "Asdf.Props.C55_reachable"
   ],
   "note": "Forward simulation between the firmware model and the abstract keyboard of Spec/Machine.lean. Ranges over configurations passing cfgOk (keymaps 0 to 3 of the shipped firmware with the third DIP switch open); keymaps 4 and 5 run into undefined behaviour, see C17."
  },
  {
   "property": "C56",
   "status": "proved",
   "theorems": [
    "Asdf.Props.C56_one_pulse_per_press",
    "Asdf.Props.C56_shipped",
    "Asdf.Props.C56_safe"
   ],
   "note": "General theorem for every keymap list with a sole owner of the output; instance for keymaps 0 to 3. C56_safe: every safe use (C72), switch 2 included."
  },
  {
   "property": "C57",
   "status": "proved",
   "theorems": [
    "Asdf.Props.C57_tables",
    "Asdf.Props.C57_each_letter_once",
    "Asdf.Props.C57_apple",
    "Asdf.Props.C57_letters",
    "Asdf.Props.C57_letters_safe"
   ],
   "note": "All six keymaps by kernel evaluation of the complete tables; at run time for keymaps 0 to 3 (4 and 5 are undefined behaviour, C17). C57_letters_safe: every safe use (C72)."
  },
  {
   "property": "C58",
   "status": "partial",
   "theorems": [
    "Asdf.Props.C58_subsequence",
    "Asdf.Props.C58_nothing_lost_partial",
    "Asdf.Props.C58_messages_complete_partial",
    "Asdf.Props.C58_one_at_a_time_partial",
    "Asdf.Props.C58_false"
   ],
   "note": "False as stated: more than 16 waiting codes are lost (witness: 17 keys in one scan). Proved for every run: a subsequence (no invention, doubling, reordering). Proved complete while the queues have room, in particular when at most one code is typed per scan and no message is printed. The exact rule, losses included, is C77."
  },
  {
   "property": "C59",
   "status": "proved",
   "theorems": [
    "Asdf.Props.C59_whole_board",
    "Asdf.Props.C59_pins",
    "Asdf.Props.C59_host",
    "Asdf.Props.C59_host_since"
   ],
   "note": "Both boards, every initial register content, every contact behaviour. The host theorem from power-up is for positive polarity; C59_host_since covers both polarities from any moment on."
  },
  {
   "property": "C60",
   "status": "partial",
   "theorems": [
    "Asdf.Props.C60_lamp",
    "Asdf.Props.C60_never_switched",
    "Asdf.Props.C60_false",
    "Asdf.Props.C60_witness",
    "Asdf.Props.C60_caps_partial",
    "Asdf.Props.C60_shiftlock_partial"
   ],
   "note": "False as stated: on the ATmega2560 board the caps-lock lamp is lit after a reset with caps lock off. Proved: a lamp once switched shows the last value for ever, and the caps-lock and shift-lock lamps are right once switched since the keymap was selected. The exact behaviour of the shipped lamps is C94"
  },
  {
   "property": "C61",
   "status": "partial",
   "theorems": [
    "Asdf.Props.C61_typed_partial",
    "Asdf.Props.C61_false"
   ],
   "note": "False as stated: the seventeenth code typed in one scan is lost. Proved when no two codes are typed in the same scan. The exact rule for what the host reads, losses and messages included, is C78."
  },
  {
   "property": "C62",
   "status": "proved",
   "theorems": [
    "Asdf.Props.C62_builds",
    "Asdf.Props.C62_shipped_keymaps",
    "Asdf.Props.C62_shipped_list_is_not_uniform",
    "Asdf.Props.C62_shipped_build"
   ],
   "note": "C62_shipped_build: the shipped firmware is this build rule applied to the list in keymap_list.cmake (the unknown-number fallback included)."
  },
  {
   "property": "C63",
   "status": "proved",
   "theorems": [
    "Asdf.Props.C63_one_per_pass",
    "Asdf.Props.C63_delivered",
    "Asdf.Props.C63_messages_delivered",
    "Asdf.Props.C63_everything_typed_arrives"
   ],
   "note": "While messages are printed without pause keystrokes wait; the theorems state exactly that condition."
  },
  {
   "property": "C64",
   "status": "proved",
   "theorems": [
    "Asdf.Props.C64_noise_has_no_effect",
    "Asdf.Props.C64_untouched_is_silent",
    "Asdf.Props.C64_released_falls_silent"
   ],
   "note": "The debouncer counts differing scans without restarting (C12), so ten closed scans, however far apart, are accepted; the bound is exact."
  },
  {
   "property": "C65",
   "status": "proved",
   "theorems": [
    "Asdf.Props.C65_program"
   ],
   "note": "The interrupt sets a flag; the main loop's poll, clear, test and body are separate steps."
  },
  {
   "property": "C66",
   "status": "proved",
   "theorems": [
    "Asdf.Props.C66_only_keymap_characters",
    "Asdf.Props.C66_seven_bits",
    "Asdf.Props.C66_seven_bits_safe"
   ],
   "note": "C66_seven_bits concerns the shipped keymaps 0 to 3, the ones that work (C17). C66_seven_bits_safe: every safe use (C72)."
  },
  {
   "property": "C67",
   "status": "proved",
   "theorems": [
    "Asdf.Props.C67_lines_end_with_cr_lf"
   ],
   "note": "A full message queue may cut a message anywhere, also between CR and LF (C08); a LF without its CR is never sent."
  },
  {
   "property": "C68",
   "status": "partial",
   "theorems": [
    "Asdf.Props.C68_false",
    "Asdf.Props.C68_caps_changes_letters_only_partial",
    "Asdf.Props.C68_caps_at_run_time_partial",
    "Asdf.Props.C68_caps_safe_partial",
    "Asdf.Props.C68_exact"
   ],
   "note": "False for two keys of keymap 2; proved for all other keys of all keymaps and at run time. C68_caps_safe_partial: every safe use (C72). C68_exact: the exact rule for every key, including the two, in every safe use."
  },
  {
   "property": "C69",
   "status": "partial",
   "theorems": [
    "Asdf.Props.C69_false",
    "Asdf.Props.C69_character_set_partial",
    "Asdf.Props.C69_apple_prints_all_partial",
    "Asdf.Props.C69_typed_partial"
   ],
   "note": "False: each keymap lacks some codes. The exact character set of each keymap is proved, and typing each of its characters from every reachable state."
  },
  {
   "property": "C70",
   "status": "partial",
   "theorems": [
    "Asdf.Props.C70_false",
    "Asdf.Props.C70_one_shift_key_partial"
   ],
   "note": "False when both SHIFT keys are held and one is released; proved when only one of them is used. The exact rule is C94_shift"
  },
  {
   "property": "C71",
   "status": "partial",
   "theorems": [
    "Asdf.Props.C71_false",
    "Asdf.Props.C71_messages_have_keys_partial"
   ],
   "note": "False for keymaps 3, 4 and 5. Exactly which messages have keys: C111."
  },
  {
   "property": "C72",
   "status": "proved",
   "theorems": [
    "Asdf.Props.C72_four_keymaps",
    "Asdf.Props.C72_safe",
    "Asdf.Props.C72_unsafe",
    "Asdf.Props.C72_exact",
    "Asdf.Props.C72_dip_settings"
   ],
   "note": "Necessary and sufficient condition on the readings, for endless use. C72_four_keymaps is about the same firmware with keymaps 4 and 5 taken out of the list, with no condition on the readings at all."
  },
  {
   "property": "C73",
   "status": "proved",
   "theorems": [
    "Asdf.Props.C73_strobe",
    "Asdf.Props.C73_autorepeat",
    "Asdf.Props.C73_unmoved"
   ],
   "note": "Exact rules in terms of the debounced readings, for all runs that are safe in the sense of C72."
  },
  {
   "property": "C74",
   "status": "proved",
   "theorems": [
    "Asdf.Props.C74_machine"
   ],
   "note": "For every configuration that meets the conditions of C55 (for the shipped one: DIP switch 2 open, see C75 for the general case). The host part is for positive polarity; other polarities from any moment on: C59_host_since."
  },
  {
   "property": "C75",
   "status": "proved",
   "theorems": [
    "Asdf.Props.C75_board_safe",
    "Asdf.Props.C75_board_unsafe",
    "Asdf.Props.C75_machine"
   ],
   "note": "The condition is the exact one of C72."
  },
  {
   "property": "C76",
   "status": "proved",
   "theorems": [
    "Asdf.Props.C76_selects",
    "Asdf.Props.C76_value",
    "Asdf.Props.C76_other_pins",
    "Asdf.Props.C76_contention",
    "Asdf.Props.C76_pullups",
    "Asdf.Props.C76_not_ready",
    "Asdf.Props.C76_always_wired",
    "Asdf.Props.C76_stays_wired",
    "Asdf.Props.C76_upper_rows"
   ],
   "note": "No shipped keymap installs this reader. Findings proved: the bus is driven from both sides for a moment in every read (C76_contention); the column pull-ups are lost, so that a row from 8 on read afterwards floats (C76_pullups, C76_not_ready)."
  },
  {
   "property": "C77",
   "status": "proved",
   "theorems": [
    "Asdf.Props.C77_exact",
    "Asdf.Props.C77_shipped",
    "Asdf.Props.C77_accounting",
    "Asdf.Props.C77_complete_iff",
    "Asdf.Props.C77_line_end_cut"
   ],
   "note": "Exact version of C58, which is false as stated."
  },
  {
   "property": "C78",
   "status": "proved",
   "theorems": [
    "Asdf.Props.C78_reads",
    "Asdf.Props.C78_shipped",
    "Asdf.Props.C78_end_to_end",
    "Asdf.Props.C78_extra_character"
   ],
   "note": "Includes a proved witness that moving the strobe switch makes the computer read an extra character."
  },
  {
   "property": "C79",
   "status": "proved",
   "theorems": [
    "Asdf.Props.C79_account",
    "Asdf.Props.C79_none_lost"
   ],
   "note": "The exact account that C45 lacks. The hypothesis is that the run has a result, which C74 proves for both boards."
  },
  {
   "property": "C80",
   "status": "proved",
   "theorems": [
    "Asdf.Props.C80_columns_328",
    "Asdf.Props.C80_shift_register",
    "Asdf.Props.C80_rows_328",
    "Asdf.Props.C80_columns_2560",
    "Asdf.Props.C80_matrix_2560",
    "Asdf.Props.C80_built",
    "Asdf.Props.C80_rows_2560",
    "Asdf.Props.C80_all_switches",
    "Asdf.Props.C80_positions",
    "Asdf.Props.C80_labels",
    "Asdf.Props.C80_pullups",
    "Asdf.Props.C80_shift_register_pins",
    "Asdf.Props.C80_levels_328",
    "Asdf.Props.C80_levels_2560"
   ],
   "note": "The netlists are extracted from the board files by a script; part behaviour as in the trusted base."
  },
  {
   "property": "C81",
   "status": "proved",
   "theorems": [
    "Asdf.Props.C81_classic",
    "Asdf.Props.C81_capitals",
    "Asdf.Props.C81_functions",
    "Asdf.Props.C81_others",
    "Asdf.Props.C81_apple",
    "Asdf.Props.C81_dips",
    "Asdf.Props.C81_sol",
    "Asdf.Props.C81_sol_functions",
    "Asdf.Props.C81_sol_others",
    "Asdf.Props.C81_typed",
    "Asdf.Props.C81_typed_shifted"
   ],
   "note": "Labels are the values of the switches in the board files; what they mean is the table Spec/Legends.lean. The end-to-end theorems are for the classic keyboard."
  },
  {
   "property": "C82",
   "status": "proved",
   "theorems": [
    "Asdf.Props.C82_supply",
    "Asdf.Props.C82_lines_328",
    "Asdf.Props.C82_lines_2560",
    "Asdf.Props.C82_code_328",
    "Asdf.Props.C82_code_2560"
   ],
   "note": "The sockets are those of Spec/Sockets (apple2Socket, apple1Socket, solSocket, outputSocket) with the connector numbers of the boards. ext is whatever the other wires to the outside carry; the line itself must not be pulled low from outside."
  },
  {
   "property": "C83",
   "status": "proved",
   "theorems": [
    "Asdf.Props.C83_lit_328",
    "Asdf.Props.C83_lit_2560",
    "Asdf.Props.C83_all",
    "Asdf.Props.C83_shows_328",
    "Asdf.Props.C83_shows_2560"
   ],
   "note": "Lit: the anode is connected to the supply through wires and resistors, and current can flow from the cathode to a low net. A lamp never switched has the level of power-up (C60_never_switched)."
  },
  {
   "property": "C84",
   "status": "partial",
   "theorems": [
    "Asdf.Props.C84_keys_have_no_effect",
    "Asdf.Props.C84_false",
    "Asdf.Props.C84_turned_partial"
   ],
   "note": "False of the board as drawn: no key has any effect on the interface (C84_keys_have_no_effect, C84_false). C84_turned_partial proves it for the board with the diodes of the keys put in the other way round, for keys 1 to 72; the row of keys 73 and 74 is not on the connector."
  },
  {
   "property": "C85",
   "status": "proved",
   "theorems": [
    "Asdf.Props.C85_lines",
    "Asdf.Props.C85_keyboard"
   ],
   "note": "the nets of the pads of the adapter; cables connect pin i to pin i"
  },
  {
   "property": "C86",
   "status": "proved",
   "theorems": [
    "Asdf.Props.C86_chips",
    "Asdf.Props.C86_latches_enabled",
    "Asdf.Props.C86_write",
    "Asdf.Props.C86_read",
    "Asdf.Props.C86_write_lines",
    "Asdf.Props.C86_matrix",
    "Asdf.Props.C86_scan",
    "Asdf.Props.C86_labels",
    "Asdf.Props.C86_all_keys",
    "Asdf.Props.C86_pullups"
   ],
   "note": "logic levels; the shift lock's analog switch counts as a switch; the sound generator, the RESET delay and the shift-lock toggle are not modelled"
  },
  {
   "property": "C87",
   "status": "proved",
   "theorems": [
    "Asdf.Props.C87_shipped_328",
    "Asdf.Props.C87_shipped_2560",
    "Asdf.Props.C87_socket_328",
    "Asdf.Props.C87_socket_2560",
    "Asdf.Props.C87_visible_328",
    "Asdf.Props.C87_visible_2560"
   ],
   "note": "Composes C80, C75, C77, C78 and C82. Which uses are safe: C72. What moving the polarity switch adds: C78."
  },
  {
   "property": "C88",
   "status": "proved",
   "theorems": [
    "Asdf.Props.C88_same_effects",
    "Asdf.Props.C88_safe",
    "Asdf.Props.C88_host",
    "Asdf.Props.C88_unsafe",
    "Asdf.Props.C88_exact"
   ],
   "note": "The text of main.c, asdf.c, asdf_*.c and the shipped keymaps is translated mechanically; every function of it (including main) is shown to do what the model does. C88_exact: the C text can run forever without undefined behaviour exactly when the use is safe in the sense of C72. asdf_print/vfprintf, pgm_read_byte and the functions of Arch are given by Model/CProg.lean."
  },
  {
   "property": "C89",
   "status": "proved",
   "theorems": [
    "Asdf.Props.C89_atmega328p",
    "Asdf.Props.C89_atmega2560",
    "Asdf.Props.C89_osi_reader",
    "Asdf.Props.C89_set_bit",
    "Asdf.Props.C89_clear_bit"
   ],
   "note": "The hardware layers are translated mechanically from the C files. Serves (Spec/CHw.lean) is the agreement of the text with the board model used by C36-C87; the outside world is an arbitrary function of time. In Serves, set_bit and clear_bit are single instructions; C89_set_bit and C89_clear_bit are about their text."
  },
  {
   "property": "C90",
   "status": "proved",
   "theorems": [
    "Asdf.Props.C90_text",
    "Asdf.Props.C90_safe",
    "Asdf.Props.C90_safe_settings",
    "Asdf.Props.C90_host",
    "Asdf.Props.C90_computer_328",
    "Asdf.Props.C90_computer_2560"
   ],
   "note": "main() of the whole text, with the hardware layer of either board, run from reset; the world outside is an arbitrary function of time and an interrupt can come before any access. C90_text is the refinement of the board model; the others carry C75, C78 and C87 over to the text. C90_computer_* also say that the scans fall between the looks that found their ticks (BetweenLooks)."
  },
  {
   "property": "C91",
   "status": "proved",
   "theorems": [
    "Asdf.Props.C91_typed",
    "Asdf.Props.C91_host",
    "Asdf.Props.C91_computer_328",
    "Asdf.Props.C91_computer_2560",
    "Asdf.Props.C91_strokes",
    "Asdf.Props.C91_strokes_computer_328",
    "Asdf.Props.C91_strokes_computer_2560",
    "Asdf.Props.C91_rollover",
    "Asdf.Props.C91_any_text"
   ],
   "note": "C91_typed is for every keymap list; C91_host for the shipped firmware in safe use (C72); C91_computer_* for the C text on the boards. The key stroke theorems have no hypotheses about the keyboard's state: they start at power-up. Non-vacuity: \"Hi!\" with SHIFT, and two overlapping keys that meet the hypotheses of C91_typed."
  },
  {
   "property": "C92",
   "status": "proved",
   "theorems": [
    "Asdf.Props.C92_never",
    "Asdf.Props.C92_never_four",
    "Asdf.Props.C92_exactly"
   ],
   "note": "C92_exactly is about runs of the shipped firmware with DIP switches 2 to 4 open. The converse direction uses C91. The characters are missing from the key tables (C69 lists them per keymap); C92 lifts this to every history."
  },
  {
   "property": "C93",
   "status": "proved",
   "theorems": [
    "Asdf.Props.C93_exact",
    "Asdf.Props.C93_put_get_safe",
    "Asdf.Props.C93_negative_inert"
   ],
   "note": "complements C03: the exact boundary of safe use, negative sizes included"
  },
  {
   "property": "C94",
   "status": "proved",
   "theorems": [
    "Asdf.Props.C94_panel",
    "Asdf.Props.C94_shift",
    "Asdf.Props.C94_ctrl",
    "Asdf.Props.C94_caps",
    "Asdf.Props.C94_lamps"
   ],
   "note": "complements the partial claims C26, C60 and C70: what holds instead of them, exactly. C94_panel also fixes the keymap number"
  },
  {
   "property": "C95",
   "status": "proved",
   "theorems": [
    "Asdf.Props.C95_exact",
    "Asdf.Props.C95_host",
    "Asdf.Props.C95_schedule",
    "Asdf.Props.C95_double_rate"
   ],
   "note": "Exact rule behind C19 and C22; also proves that two held keys with the same code repeat twice as fast."
  },
  {
   "property": "C96",
   "status": "proved",
   "theorems": [
    "Asdf.Props.C96_portable",
    "Asdf.Props.C96_hardware",
    "Asdf.Props.C96_names",
    "Asdf.Props.C96_run",
    "Asdf.Props.C96_safe"
   ],
   "note": "The kernel evaluates a front end for C, written in Lean, on the bytes of 45 source files. asdf_print.c (vfprintf) is not among them; set_bit and clear_bit are single instructions in the run, as in C90 (C89 relates them to their text). The front end covers the part of C that occurs; text it does not understand makes the translation fail."
  },
  {
   "property": "C97",
   "status": "proved",
   "theorems": [
    "Asdf.Props.C97_scope",
    "Asdf.Props.C97_pulses",
    "Asdf.Props.C97_pace"
   ],
   "note": "C97_scope is the complete record; C97_pulses and C97_pace read from it what a host with an edge-triggered input relies on (DIP switch 7 not moved, as in C78). Times are those waited on purpose; instruction times come on top and are not modelled."
  },
  {
   "property": "C98",
   "status": "proved",
   "theorems": [
    "Asdf.Props.C98_output3",
    "Asdf.Props.C98_output1"
   ],
   "note": "Times are what the source waits on purpose; the instructions themselves take time that is not modelled, so they are lower bounds. Hypothesis: the pins are inputs at reset, as on every AVR."
  },
  {
   "property": "C99",
   "status": "proved",
   "theorems": [
    "Asdf.Props.C99_bounce",
    "Asdf.Props.C99_fingers",
    "Asdf.Props.C99_computer_328",
    "Asdf.Props.C99_computer_2560"
   ],
   "note": "Movements of any keys, overlapping, with arbitrary readings of the moving contact during a bounce of up to 9 scans (C99_bounce) or at any times with nothing assumed about a bouncing contact (C99_fingers); for the computer, with the C text on both boards, measured by the scans of that run. The limits are those of the code: ten equal readings, repetition after 525 scans. Modifiers and CAPS LOCK may move while keys are down (C103). Generalises the clean key strokes and the rollover of C91. C99_computer_* also say that the scans fall between the looks that found their ticks (BetweenLooks)."
  }
 ]
}
