{"id": "C01", "title": "Buffers are bounded FIFO queues", "statement": "After any sequence of reserve/put/get calls with non-negative sizes, a get on a buffer returns exactly the oldest code accepted by that buffer and not yet returned, or the 'no code' value 0xA0 if there is none; a put on a buffer holding fewer codes than its size is accepted, and a put on a full buffer is dropped and changes nothing.", "quantifier": "every sequence of buffer operations, every buffer size, every code value, every handle", "why_tests_cant": "Unit tests run a handful of fixed scripts; the claim is about every history of unbounded length. Ring-buffer wrap-around bugs appear only for particular head/tail/size combinations.", "anchors": ["firmware/asdf/src/asdf_buffer.c:asdf_buffer_new", "firmware/asdf/src/asdf_buffer.c:asdf_buffer_put", "firmware/asdf/src/asdf_buffer.c:asdf_buffer_get"]}
{"id": "C02", "title": "Buffers do not interfere", "statement": "An operation on one buffer handle never changes what later gets on another handle return.", "quantifier": "every pair of distinct handles, every operation sequence", "why_tests_cant": "Interference needs a particular interleaving of operations on several buffers sharing one pool.", "anchors": ["firmware/asdf/src/asdf_buffer.c:asdf_buffer_put", "firmware/asdf/src/asdf_buffer.c:asdf_buffer_get", "firmware/asdf/src/asdf_buffer.c:asdf_buffer_new"]}
{"id": "C03", "title": "Buffer memory safety", "statement": "No sequence of buffer operations reads or writes outside the shared pool or the descriptor table, and no division by zero happens, whatever sizes the caller asks for.", "quantifier": "every sequence of buffer operations and every requested size (including zero and negative sizes)", "why_tests_cant": "Out-of-bounds accesses usually do not crash a test on a host; only a proof covers every size and history.", "anchors": ["firmware/asdf/src/asdf_buffer.c:asdf_buffer_new", "firmware/asdf/src/asdf_buffer.c:asdf_buffer_put"]}
{"id": "C04", "title": "Reservation succeeds exactly when it fits", "statement": "Reserving a buffer of non-negative size n succeeds iff fewer than four buffers are reserved and the sizes reserved so far plus n do not exceed the pool; a failed reservation returns the invalid handle and changes nothing; put and get on a handle that was never handed out have no effect and get returns 0xA0.", "quantifier": "every reservation history and every handle value", "why_tests_cant": "Depends on the whole reservation history.", "anchors": ["firmware/asdf/src/asdf_buffer.c:asdf_buffer_new", "firmware/asdf/src/asdf_buffer.c:buffer_handle_valid"]}
{"id": "C05", "title": "Messages go out before keystrokes, each stream in order", "statement": "Asking the keyboard for its next code returns the oldest undelivered message character if there is one, else the oldest undelivered keystroke code, else 'no code'; it removes exactly the code it returns and waits the configured print delay exactly when it returned a message character.", "quantifier": "every buffer content, every message and key code other than the reserved value 0xA0 in messages", "why_tests_cant": "All interleavings of typing and printing are possible.", "anchors": ["firmware/asdf/src/asdf.c:asdf_next_code"]}
{"id": "C06", "title": "Printed text is transmitted verbatim with CR inserted before LF", "statement": "Printing a text appends to the message stream exactly the text with a carriage return inserted before every line feed, provided the expanded text fits in the free space; nothing else of the keyboard state changes.", "quantifier": "every text and every prior message-buffer content", "why_tests_cant": "Every text and every fill level matter; tests print one or two strings.", "anchors": ["firmware/asdf/src/asdf.c:asdf_putc", "firmware/asdf/src/asdf_print.c:asdf_print"]}
{"id": "C07", "title": "Shipped messages always fit an empty message buffer", "statement": "Each message that a shipped keymap can print (keymap identification, Applesoft keyboard test) fits completely in an empty message buffer and is transmitted completely.", "quantifier": "every shipped keymap and every message it can print", "why_tests_cant": "The print path is not compiled into the unit tests at all.", "anchors": ["firmware/asdf/src/Keymaps/asdf_keymap_classic.c:classic_id_message", "firmware/asdf/src/Keymaps/asdf_keymap_apple2_add_map.c:applesoft_keyboard_test"]}
{"id": "C08", "title": "Only real codes reach the host, at most one per tick", "statement": "In every main-loop pass at most one code is sent to the host, it is below 0xA0, and it is the code that was at the front of the message or keystroke stream; reserved and action codes are never sent.", "quantifier": "every state and every matrix input", "why_tests_cant": "Unit tests run a handful of fixed scripts; the claim is about every history of unbounded length.", "anchors": ["firmware/asdf/src/main.c:main", "firmware/asdf/src/asdf.c:asdf_next_code"]}
{"id": "C09", "title": "Buffered keystrokes are all delivered, in typing order", "statement": "If no key event occurs for as many ticks as codes are pending, all pending codes are transmitted, messages first, each stream in order, and the buffers end empty: nothing is lost, duplicated or reordered after it was accepted.", "quantifier": "every pending content of both buffers and every continuation without new events", "why_tests_cant": "Liveness over unbounded executions; tests only check single put/get pairs.", "anchors": ["firmware/asdf/src/main.c:main", "firmware/asdf/src/asdf.c:asdf_next_code", "firmware/asdf/src/asdf_buffer.c:asdf_buffer_get"]}
{"id": "C10", "title": "Debounce counters never wrap", "statement": "In every reachable state each key's debounce count is between 1 and the debounce time, so no decrement ever wraps below zero.", "quantifier": "every reachable state under every sequence of matrix samples", "why_tests_cant": "Unit tests run a handful of fixed scripts; the claim is about every history of unbounded length.", "anchors": ["firmware/asdf/src/asdf.c:asdf_handle_key_press_or_release"]}
{"id": "C11", "title": "Each key is debounced independently of all others", "statement": "The debounced state of a key after any sequence of scans is a function of that key's own samples only; no combination of other keys, modifiers, or keymap switches influences it (n-key rollover).", "quantifier": "every key position scanned by all keymaps, every sequence of scans of the full matrix", "why_tests_cant": "The space of multi-key histories is unbounded.", "anchors": ["firmware/asdf/src/asdf.c:asdf_keyscan", "firmware/asdf/src/asdf.c:asdf_handle_key_press_or_release"]}
{"id": "C12", "title": "A key is reported only after 10 consecutive stable samples", "statement": "A change of a key is accepted only after the key was sampled in its new state in ten consecutive scans; any return to the old state restarts the count.", "quantifier": "every sample history of a key", "why_tests_cant": "Needs a glitch pattern spread over an arbitrarily long history.", "anchors": ["firmware/asdf/src/asdf.c:asdf_handle_key_press_or_release", "firmware/asdf/src/asdf.c:asdf_keyscan", "firmware/asdf/src/asdf_config.h:ASDF_DEBOUNCE_TIME_MS"]}
{"id": "C13", "title": "A steadily held change is always accepted, within ten scans", "statement": "From every reachable state, if a key is sampled in the opposite of its accepted state for ten consecutive scans, the change is accepted during those scans; starting from a freshly accepted state it is accepted exactly in the tenth.", "quantifier": "every reachable state, every key, whatever the other keys do", "why_tests_cant": "Unit tests run a handful of fixed scripts; the claim is about every history of unbounded length.", "anchors": ["firmware/asdf/src/asdf.c:asdf_handle_key_press_or_release", "firmware/asdf/src/asdf_config.h:ASDF_DEBOUNCE_TIME_MS"]}
{"id": "C14", "title": "Presses and releases of a key alternate", "statement": "Along every history the accepted events of one key strictly alternate press, release, press, ... beginning with a press.", "quantifier": "every key and every sequence of scans", "why_tests_cant": "Unit tests run a handful of fixed scripts; the claim is about every history of unbounded length.", "anchors": ["firmware/asdf/src/asdf.c:asdf_keyscan", "firmware/asdf/src/asdf.c:asdf_handle_key_press_or_release"]}
{"id": "C15", "title": "Every accepted press of a code key queues its code exactly once", "statement": "When a press of a key whose current mapping is a code below 0xA0 is accepted and the keystroke buffer is not full, exactly that one code is appended to the keystroke stream; a press of an action key queues no code; a release never queues a code.", "quantifier": "every state, every key position, every mapping", "why_tests_cant": "Every combination of mapping, modifier state and buffer level.", "anchors": ["firmware/asdf/src/asdf.c:asdf_activate_key", "firmware/asdf/src/asdf.c:asdf_deactivate_key"]}
{"id": "C16", "title": "Keys without a function have no effect", "statement": "Pressing, holding and releasing a key mapped to 'nothing' has no effect on what is transmitted or on the repeat behaviour of other keys.", "quantifier": "every state and every 'nothing' key", "why_tests_cant": "Side effects on the repeat timer and on buffer space show only in combination with other keys.", "anchors": ["firmware/asdf/src/asdf.c:asdf_activate_key", "firmware/asdf/src/asdf.c:asdf_handle_key_held_pressed"]}
{"id": "C17", "title": "Scanning is memory safe for every input", "statement": "For every sequence of matrix samples after power-up, with the shipped keymap list, the firmware never accesses an array out of bounds, dereferences a null keymap, or calls a hook through a wrong or null pointer.", "quantifier": "every sequence of matrix samples of any length, every DIP-switch setting", "why_tests_cant": "Out-of-bounds reads are silent in tests; tests never scan keymaps with index above 3 through the lookup path with real tables.", "anchors": ["firmware/asdf/src/asdf.c:asdf_keyscan", "firmware/asdf/src/asdf_keymaps.c:asdf_keymaps_get_code", "firmware/asdf/keymap_list.cmake"]}
{"id": "C18", "title": "Key lookup returns the entry of the active modifier's table", "statement": "For every shipped keymap, every modifier state and every key position, the code used for a key is the entry in that row and column of the table the keymap assigned to that modifier state.", "quantifier": "every shipped keymap, every modifier combination, every position", "why_tests_cant": "Tests use artificial keymaps whose tables all share one shape.", "anchors": ["firmware/asdf/src/asdf_keymaps.c:asdf_keymaps_get_code", "firmware/asdf/src/Keymaps"]}
{"id": "C19", "title": "Autorepeat timing", "statement": "With autorepeat enabled, a code key held alone produces its code once when accepted, again after 525 scans, and then every 66 scans for as long as it is held; nothing in between.", "quantifier": "every duration of the hold, every code key", "why_tests_cant": "Needs exact counts for every hold length; tests check a few thresholds of the timer in isolation.", "anchors": ["firmware/asdf/src/asdf_repeat.c:asdf_repeat", "firmware/asdf/src/asdf.c:asdf_handle_key_held_pressed", "firmware/asdf/src/asdf_config.h:ASDF_AUTOREPEAT_TIME_MS"]}
{"id": "C20", "title": "No repeat when repeat is off", "statement": "While autorepeat is disabled and the repeat key is not active, a held key is queued exactly once no matter how long it is held.", "quantifier": "every hold duration, every code key", "why_tests_cant": "Unbounded duration.", "anchors": ["firmware/asdf/src/asdf_repeat.c:asdf_repeat_auto_off", "firmware/asdf/src/asdf_repeat.c:asdf_repeat"]}
{"id": "C21", "title": "The REPEAT key switches to fast repeat and back", "statement": "While the REPEAT key is active every key press repeats every 66 scans without the autorepeat delay, and releasing REPEAT restores the configured autorepeat mode, whatever happened in between.", "quantifier": "every history of repeat-related events", "why_tests_cant": "Unit tests run a handful of fixed scripts; the claim is about every history of unbounded length. The outcome depends on the timer value at the moment REPEAT is pressed.", "anchors": ["firmware/asdf/src/asdf_repeat.c:asdf_repeat_activate", "firmware/asdf/src/asdf_repeat.c:asdf_repeat_deactivate"]}
{"id": "C22", "title": "Only the most recently pressed key repeats", "statement": "At every moment at most one code repeats: the code of the most recently accepted code-key press, and only while a key mapped to that code is held; releasing the key stops it.", "quantifier": "every history of presses, holds and releases", "why_tests_cant": "Unit tests run a handful of fixed scripts; the claim is about every history of unbounded length.", "anchors": ["firmware/asdf/src/asdf.c:asdf_handle_key_held_pressed", "firmware/asdf/src/asdf.c:asdf_deactivate_key"]}
{"id": "C23", "title": "Modifier precedence", "statement": "The table used for lookup is the CTRL table iff CTRL is active; otherwise the SHIFT table iff shift or shift lock is active; otherwise the CAPS table iff caps lock is active; otherwise the plain table; the lookup index is always one of the four.", "quantifier": "every reachable modifier state", "why_tests_cant": "Must hold for all reachable combinations, not just the eight a test enumerates by API calls.", "anchors": ["firmware/asdf/src/asdf_modifiers.c:asdf_modifier_index"]}
{"id": "C24", "title": "Modifier state is determined by the history of modifier events", "statement": "After every history of modifier events: CTRL is active iff the last CTRL event was a press; caps lock is active iff the number of caps presses is odd; shift-lock follows the last shift/lock events: a SHIFT press or release clears it, lock-on sets it, lock-toggle flips it; shift is active between SHIFT press and release.", "quantifier": "every finite history of modifier events", "why_tests_cant": "Unit tests run a handful of fixed scripts; the claim is about every history of unbounded length.", "anchors": ["firmware/asdf/src/asdf_modifiers.c:asdf_modifier_shift_activate", "firmware/asdf/src/asdf_modifiers.c:asdf_modifier_capslock_activate", "firmware/asdf/src/asdf_modifiers.c:asdf_modifier_shiftlock_toggle_activate"]}
{"id": "C25", "title": "Lock LEDs follow the lock states", "statement": "Every output assigned to the caps-lock indicator was last driven with the caps-lock state after every caps-lock change, every output assigned to the shift-lock indicator with the shift-lock state after every shift event, and no modifier event drives any other output.", "quantifier": "every assignment of outputs, every history of modifier events", "why_tests_cant": "Depends on the whole assignment and event history.", "anchors": ["firmware/asdf/src/asdf_modifiers.c:asdf_modifier_set_shift_state", "firmware/asdf/src/asdf_modifiers.c:asdf_modifier_set_caps_state"]}
{"id": "C26", "title": "The caps LED always shows the caps-lock state", "statement": "At every moment after power-up, also after keymap switches, the output assigned to the caps-lock indicator is driven to the current caps-lock state.", "quantifier": "every history including keymap switches", "why_tests_cant": "Only particular sequences of caps presses and keymap switches expose a mismatch.", "anchors": ["firmware/asdf/src/asdf_virtual.c:asdf_virtual_assign", "firmware/asdf/src/asdf_virtual.c:asdf_virtual_sync", "firmware/asdf/src/asdf_keymaps.c:asdf_keymaps_switch"]}
{"id": "C27", "title": "No stuck modifiers in shipped keymaps", "statement": "In every shipped keymap the SHIFT, CTRL, CAPS and REPEAT keys sit at the same positions in all modifier tables, so that releasing a held modifier key always ends its effect, whatever other modifiers changed in between.", "quantifier": "every shipped keymap, every table, every position", "why_tests_cant": "Needs an exhaustive cross-check of all tables and the interaction with lookups at release time.", "anchors": ["firmware/asdf/src/Keymaps", "firmware/asdf/src/asdf.c:asdf_deactivate_key"]}
{"id": "C28", "title": "Every physical output belongs to at most one virtual output", "statement": "After every sequence of assignments, each physical output is either unassigned or assigned to exactly one virtual output, exactly once; the set of outputs is never lost or duplicated, and walking the outputs of a virtual output always terminates.", "quantifier": "every sequence of assignments with arbitrary (also invalid) device numbers", "why_tests_cant": "Linked-list corruption shows only for particular assignment orders.", "anchors": ["firmware/asdf/src/asdf_virtual.c:asdf_virtual_assign", "firmware/asdf/src/asdf_physical.c:asdf_physical_allocate"]}
{"id": "C29", "title": "An impossible assignment changes nothing", "statement": "Assigning an invalid virtual output, an invalid physical output, or a physical output that is already in use leaves the complete device configuration unchanged.", "quantifier": "every state and every argument", "why_tests_cant": "Every state and argument combination.", "anchors": ["firmware/asdf/src/asdf_virtual.c:asdf_virtual_assign", "firmware/asdf/src/asdf_physical.c:asdf_physical_allocate"]}
{"id": "C30", "title": "Activating a virtual output drives exactly its own outputs", "statement": "Activating a virtual output (set, clear, toggle, pulse) drives every physical output assigned to it, in most-recently-assigned-first order, with the value required by its function, and drives no other output.", "quantifier": "every configuration reachable by assignments, every virtual output and function", "why_tests_cant": "Every configuration matters.", "anchors": ["firmware/asdf/src/asdf_virtual.c:asdf_virtual_action", "firmware/asdf/src/asdf_virtual.c:asdf_virtual_map_function"]}
{"id": "C31", "title": "A pulse is one inversion, one delay, one restoration", "statement": "A pulse on a virtual output inverts each assigned output once, waits the short or long pulse time once, then drives each output back to its previous logic level, in every configuration and from every level.", "quantifier": "every configuration, every prior output level", "why_tests_cant": "All levels and list lengths.", "anchors": ["firmware/asdf/src/asdf_virtual.c:asdf_virtual_action", "firmware/asdf/src/asdf_physical.c:asdf_physical_toggle"]}
{"id": "C32", "title": "Initial output values take effect", "statement": "After a keymap is selected, every output the keymap configures is driven with the initial value given for it.", "quantifier": "every shipped keymap and every configured output", "why_tests_cant": "The unit tests call the synchronisation step explicitly; the firmware's own call graph decides the claim.", "anchors": ["firmware/asdf/src/asdf_virtual.c:asdf_virtual_sync", "firmware/asdf/src/asdf_keymaps.c:asdf_keymaps_switch", "firmware/asdf/src/asdf_physical.c:asdf_physical_allocate"]}
{"id": "C33", "title": "Hooks behave as a finite map with guarded ids", "statement": "Assigning a function to a valid hook makes exactly that hook use it until reassigned or the keymap changes; assigning or executing an invalid hook id has no effect.", "quantifier": "every sequence of hook operations, every id", "why_tests_cant": "Unit tests run a handful of fixed scripts; the claim is about every history of unbounded length.", "anchors": ["firmware/asdf/src/asdf_hook.c:asdf_hook_assign", "firmware/asdf/src/asdf_hook.c:asdf_hook_get", "firmware/asdf/src/asdf_hook.c:asdf_hook_init"]}
{"id": "C34", "title": "Selecting an invalid or the current keymap changes nothing", "statement": "Selecting a keymap number that is not in the keymap list, or the number already selected, leaves the whole keyboard state and all outputs untouched.", "quantifier": "every state, every keymap number 0..255, every keymap list", "why_tests_cant": "256 values times every state.", "anchors": ["firmware/asdf/src/asdf_keymaps.c:asdf_keymaps_select", "firmware/asdf/src/asdf_keymaps.c:asdf_keymaps_switch"]}
{"id": "C35", "title": "Switching keymaps leaves no residue of the old keymap", "statement": "After switching to a valid keymap, the tables, hooks and output assignments depend only on the new keymap, not on the keymap or assignments before; pending output, debounce state and modifier state of held keys are kept.", "quantifier": "every pair of prior states, every valid keymap", "why_tests_cant": "Residue depends on the arbitrary history before the switch.", "anchors": ["firmware/asdf/src/asdf_keymaps.c:asdf_keymaps_switch", "firmware/asdf/src/asdf_keymaps.c:asdf_keymaps_reset"]}
{"id": "C36", "title": "The keymap follows the DIP switches", "statement": "Whenever the debounced DIP switches 0-3 form the number of an existing keymap, that keymap is the selected one, whatever order the switches were moved in.", "quantifier": "every history of DIP-switch movements", "why_tests_cant": "Order dependence shows only for particular multi-step histories.", "anchors": ["firmware/asdf/src/asdf_keymaps.c:asdf_keymaps_map_select_0_set", "firmware/asdf/src/asdf_keymaps.c:asdf_keymaps_select", "firmware/asdf/src/asdf.c:asdf_activate_action"]}
{"id": "C37", "title": "DIP switches set before power-up select the keymap", "statement": "If the DIP switches are constant from power-up and no key is pressed, then after ten scans the selected keymap is the one whose number is set on the switches if it exists.", "quantifier": "every DIP-switch setting", "why_tests_cant": "Whole-system execution over the boot phase for every setting.", "anchors": ["firmware/asdf/src/asdf.c:asdf_init", "firmware/asdf/src/asdf.c:asdf_keyscan", "firmware/asdf/src/Keymaps/asdf_keymap_defs_dipswitch.h"]}
{"id": "C38", "title": "DIP switches never type", "statement": "No position or movement of a DIP switch ever queues a code for the host.", "quantifier": "every DIP switch in every shipped table", "why_tests_cant": "Requires a check over all tables plus the lookup and queue logic.", "anchors": ["firmware/asdf/src/Keymaps/asdf_keymap_defs_dipswitch.h", "firmware/asdf/src/asdf.c:asdf_activate_key"]}
{"id": "C39", "title": "Shipped tables are well formed", "statement": "Every table of every shipped keymap has exactly the declared number of rows and columns, within the scanner's limits, and each entry is a transmittable code or a defined action; the DIP-switch row is identical in all tables and at the row the hardware reads it.", "quantifier": "every entry of every shipped table", "why_tests_cant": "Exhaustive check over all tables and dimensions.", "anchors": ["firmware/asdf/src/Keymaps", "firmware/asdf/src/asdf_keymaps.c:asdf_keymaps_add_map"]}
{"id": "C40", "title": "Keymap identification is unambiguous", "statement": "The identification message printed by a shipped keymap differs from that of every other shipped keymap.", "quantifier": "every pair of shipped keymaps", "why_tests_cant": "Cross-product over keymaps; not compiled in tests.", "anchors": ["firmware/asdf/src/Keymaps/asdf_keymap_classic.c:classic_id_message", "firmware/asdf/src/Keymaps/asdf_keymap_classic_caps.c:classic_caps_id_message"]}
{"id": "C41", "title": "328P row read returns the pressed columns", "statement": "On the ATmega328P board, reading a row returns a byte whose bit i is 1 iff the key in column i of that row is closed, for every row number, and disturbs no LED, output or strobe pin.", "quantifier": "every row number, every key state, every prior port state", "why_tests_cant": "Needs the hardware; cannot run on a host.", "anchors": ["firmware/asdf/src/Arch/asdf_arch_atmega328p.c:asdf_arch_read_row"]}
{"id": "C42", "title": "2560 row read drives one row and returns the pressed columns", "statement": "On the ATmega2560 board, reading row r < 16 pulls exactly row line r low and returns a byte whose bit i is 1 iff column i reads low.", "quantifier": "every row number and key state", "why_tests_cant": "Needs the hardware.", "anchors": ["firmware/asdf/src/Arch/asdf_arch_atmega2560.c:asdf_arch_read_row"]}
{"id": "C43", "title": "Sending a code strobes exactly once in the configured polarity", "statement": "In the default optimised build, sending a code puts exactly that code on the data port before the strobe leaves its idle level, produces exactly one strobe pulse, returns the strobe to the idle level set by the last polarity selection, and changes no other pin.", "quantifier": "every code, every prior port state, both polarities, both AVR boards", "why_tests_cant": "Needs the hardware and every port state.", "anchors": ["firmware/asdf/src/Arch/asdf_arch_atmega328p.c:asdf_arch_send_code", "firmware/asdf/src/Arch/asdf_arch_atmega2560.c:asdf_arch_send_code"]}
{"id": "C44", "title": "Open-drain and open-source outputs never drive the forbidden level", "statement": "An open-high output never drives its pin high and an open-low output never drives its pin low, not even transiently between the port writes; every output setter affects only its own pin.", "quantifier": "every port state, every value, every write boundary, both AVR boards", "why_tests_cant": "Transient levels between two register writes are invisible to any host test.", "anchors": ["firmware/asdf/src/Arch/asdf_arch_atmega328p.c:asdf_arch_out1_open_hi_set", "firmware/asdf/src/Arch/asdf_arch_atmega328p.c:asdf_arch_out1_open_lo_set", "firmware/asdf/src/Arch/asdf_arch_atmega2560.c:asdf_arch_out2_open_hi_set"]}
{"id": "C45", "title": "Tick handling under every interrupt timing", "statement": "Under every interleaving of the timer interrupt with the main loop, the keyboard never scans more often than ticks occurred, never answers the same tick with two scans, and every tick leads to a scan.", "quantifier": "every interleaving of interrupt and main loop", "why_tests_cant": "Interleavings at instruction boundaries cannot be enumerated by tests.", "anchors": ["firmware/asdf/src/Arch/asdf_arch_atmega328p.c:asdf_arch_tick", "firmware/asdf/src/Arch/asdf_arch_atmega328p.c:TIMER0_COMPA_vect", "firmware/asdf/src/main.c:main"]}
{"id": "C46", "title": "The test pulse detector recognises exactly pulses", "statement": "The pulse detector of the test board reports a high (low) pulse exactly when the last events on an output were: a change to high (low), one delay, a change back; and reports an error state forever after an ill-formed delay.", "quantifier": "every event sequence", "why_tests_cant": "Unbounded event sequences.", "anchors": ["firmware/asdf/src/Arch/asdf_arch_test.c:pulse_detect"]}
{"id": "C47", "title": "Power-up state is fully defined", "statement": "Initialisation from the reset memory image always succeeds: the first keymap is selected, the keystroke and message buffers get distinct handles with sizes 16 and 128 exactly filling the pool, both are empty, all keys are considered released, autorepeat is on.", "quantifier": "every keymap list whose first keymap is well formed", "why_tests_cant": "Tests re-initialise a running image; the claim is about the reset image and any keymap 0.", "anchors": ["firmware/asdf/src/asdf.c:asdf_init"]}
{"id": "C48", "title": "Typing end to end", "statement": "With a shipped keymap 0-3 selected and no other key active, holding a code key for n scans transmits to the host exactly the code mapped to it under the current modifier state: once at the tick after acceptance, then at the autorepeat instants, and nothing else, for every n.", "quantifier": "every shipped keymap 0-3, every code-key position, every modifier state, every hold duration", "why_tests_cant": "End-to-end property over unbounded time, all tables and all modifier states.", "anchors": ["firmware/asdf/src/main.c:main", "firmware/asdf/src/asdf.c:asdf_keyscan", "firmware/asdf/src/asdf_repeat.c:asdf_repeat", "firmware/asdf/src/Keymaps"]}
{"id": "C49", "title": "Sending a code touches only the data port and strobe in every build", "statement": "Also when the compiler emits the strobe's read-modify-write of the pin register literally, as an unoptimised debug build does, sending a code produces one strobe pulse and changes no pin other than data and strobe.", "quantifier": "every code, every prior port state and external pin level, both AVR boards, optimised and literal code generation", "why_tests_cant": "The difference is between instruction sequences the compiler may choose; host tests never run either.", "anchors": ["firmware/asdf/src/Arch/asdf_arch_atmega328p.c:asdf_arch_send_code", "firmware/asdf/src/Arch/asdf_arch_atmega328p.c:set_bit", "firmware/asdf/src/Arch/asdf_arch_atmega2560.c:asdf_arch_send_code"]}
{"id": "C50", "title": "Strobe polarity follows its DIP switch", "statement": "At every moment after power-up, the strobe's polarity is the one selected by the debounced state of the strobe DIP switch: positive pulses (resting low) if it is closed, negative pulses (resting high) if it is open.", "quantifier": "every sequence of switch and key events from power-up, including keymap switches", "why_tests_cant": "The level depends on the whole order of switch changes and keymap selections.", "anchors": ["firmware/asdf/src/asdf_keymaps.c:asdf_keymaps_switch", "firmware/asdf/src/Arch/asdf_arch_atmega328p.c:asdf_arch_init", "firmware/asdf/src/asdf.c:asdf_activate_action", "firmware/asdf/src/asdf.c:asdf_deactivate_action", "firmware/asdf/src/Keymaps/asdf_keymap_defs_dipswitch.h:ASDF_KEYMAP_DIP_SWITCHES"]}
{"id": "C51", "title": "One tick per millisecond", "statement": "After the board is initialised, whatever the clock and timer registers contained at reset, the tick interrupt fires once per millisecond of the oscillator frequency the firmware is built for, and nothing the firmware does later changes that.", "quantifier": "every register contents at reset, every later firmware operation, both AVR boards", "why_tests_cant": "Host tests do not run the timer; fuse settings change the reset contents of the clock register.", "anchors": ["firmware/asdf/src/Arch/asdf_arch_atmega328p.c:asdf_arch_init_clock", "firmware/asdf/src/Arch/asdf_arch_atmega328p.c:asdf_arch_tick_timer_init", "firmware/asdf/src/Arch/asdf_arch_atmega328p.h:TICK_COUNT", "firmware/asdf/src/Arch/asdf_arch_atmega2560.c:asdf_arch_init_clock"]}
{"id": "C52", "title": "The test board reports the values set", "statement": "On the simulated test board, each output reports the value last set on it, whichever of its plain and open-drain setters was used.", "quantifier": "every sequence of output operations", "why_tests_cant": "Unbounded operation sequences; the test suite relies on this board to be right.", "anchors": ["firmware/asdf/src/Arch/asdf_arch_test.c:asdf_arch_out1_open_hi_set", "firmware/asdf/src/Arch/asdf_arch_test.c:asdf_arch_check_output"]}
{"id": "C53", "title": "The test board keeps outputs apart", "statement": "On the simulated test board, what one output's pulse detector reports does not depend on operations on other outputs.", "quantifier": "every sequence of output operations", "why_tests_cant": "Unbounded operation sequences.", "anchors": ["firmware/asdf/src/Arch/asdf_arch_test.c:asdf_arch_pulse_delay_short", "firmware/asdf/src/Arch/asdf_arch_test.c:pulse_detect"]}
{"id": "C54", "title": "Autorepeat follows its DIP switch", "statement": "At every moment after power-up, autorepeat is enabled exactly if the autorepeat DIP switch is closed (as debounced).", "quantifier": "every sequence of switch and key events from power-up, including keymap switches", "why_tests_cant": "The mode depends on the whole order of switch changes, REPEAT presses and keymap selections.", "anchors": ["firmware/asdf/src/asdf.c:asdf_activate_action", "firmware/asdf/src/asdf.c:asdf_deactivate_action", "firmware/asdf/src/asdf_repeat.c:asdf_repeat_auto_on", "firmware/asdf/src/asdf_repeat.c:asdf_repeat_init", "firmware/asdf/src/Keymaps/asdf_keymap_defs_dipswitch.h:ASDF_KEYMAP_DIP_SWITCHES"]}
{"id": "C55", "title": "The firmware is the keyboard of its specification", "statement": "From power-up, everything the keyboard does to its hardware (codes sent, output pins, pauses, strobe polarity, in order) and everything it holds back (waiting keystrokes, waiting message characters, selected keymap, accepted keys, current code of each key) is exactly what a simple abstract keyboard does that has one debouncer per key, three modifiers, one repeat timer, two queues and one list of outputs per output code; each action code has the effect its name says.", "quantifier": "every finite sequence of matrix readings from power-up, for every configuration whose reachable keymaps are complete (the shipped keymaps 0 to 3, third DIP switch open)", "why_tests_cant": "It relates every history of key changes to the exact sequence of hardware effects; the state space is unbounded.", "anchors": ["firmware/asdf/src/main.c:main", "firmware/asdf/src/asdf.c:asdf_keyscan", "firmware/asdf/src/asdf.c:asdf_activate_action", "firmware/asdf/src/asdf.c:asdf_deactivate_action", "firmware/asdf/src/asdf_keymaps.c:asdf_keymaps_select"]}
{"id": "C56", "title": "Output keys pulse their output exactly once per press", "statement": "Each accepted press of a key mapped to a pulsed output makes exactly one complete pulse on that output, starting from and returning to its resting level, and the output is never driven in any other way (RESET: a short low pulse on output 3 open-high; output code 2: a long high pulse on output 1 open-low).", "quantifier": "every finite sequence of matrix readings from power-up, including keymap switches; every keymap list in which the output has one owner", "why_tests_cant": "A half pulse or a wrong resting level may appear after any combination of presses, modifiers and keymap switches.", "anchors": ["firmware/asdf/src/asdf.c:asdf_activate_action", "firmware/asdf/src/asdf_virtual.c:asdf_virtual_activate", "firmware/asdf/src/asdf_virtual.c:asdf_virtual_action", "firmware/asdf/src/Keymaps/asdf_keymap_classic.c", "firmware/asdf/src/Keymaps/asdf_keymap_apple2.c"]}
{"id": "C57", "title": "Letter keys type their letter, capital or control code", "statement": "A letter key types its letter; the capital under SHIFT or caps lock; the corresponding control code (letter mod 32) under CTRL, whatever other modifiers are active. Each keymap has every letter exactly once. Exceptions are SHIFT-P (@) and SHIFT-N (^) on the upper-case Apple II keymap.", "quantifier": "all keys of all six keymaps under all modifier states; at run time every moment of every run with keymaps 0 to 3", "why_tests_cant": "The code typed depends on the whole history of modifier presses, and the tables are too many to enumerate by hand.", "anchors": ["firmware/asdf/src/Keymaps/asdf_keymap_classic_add_map.c", "firmware/asdf/src/Keymaps/asdf_keymap_apple2_add_map.c", "firmware/asdf/src/Keymaps/asdf_keymap_sol.c", "firmware/asdf/src/Keymaps/asdf_keymap_ace1000.c", "firmware/asdf/src/asdf_keymaps.c:asdf_keymaps_get_code"]}
{"id": "C58", "title": "Nothing typed is lost, doubled, invented or reordered", "statement": "The keystrokes the host has received, followed by those still waiting, are exactly the codes typed (by accepted presses and by repeats), in order; the message characters received and waiting are exactly the messages printed.", "quantifier": "every finite sequence of matrix readings from power-up", "why_tests_cant": "Losses depend on the number of keys accepted while earlier codes or a message are waiting, over unbounded histories.", "anchors": ["firmware/asdf/src/main.c:main", "firmware/asdf/src/asdf.c:asdf_next_code", "firmware/asdf/src/asdf.c:asdf_putc", "firmware/asdf/src/asdf_buffer.c:asdf_buffer_put"]}
{"id": "C59", "title": "The keyboard on its board: contacts in, wires out", "statement": "On either AVR board, whatever the port registers contain at power-up and whenever key contacts change, the firmware reads exactly the keys closed at each row read, and the host, reading the data port at every leading strobe edge, receives exactly the codes the keyboard decided to send, in order; reading rows, switching lamps and outputs and switching keymaps produce no additional code and disturb no other pin.", "quantifier": "both boards, every initial register content, every sequence of contact states (changing at every row read), every fit keymap list", "why_tests_cant": "It needs the real ports; spurious edges may come from any interleaving of row reads, outputs and keymap switches.", "anchors": ["firmware/asdf/src/main.c:main", "firmware/asdf/src/asdf.c:asdf_keyscan", "firmware/asdf/src/Arch/asdf_arch_atmega328p.c:asdf_arch_read_row", "firmware/asdf/src/Arch/asdf_arch_atmega2560.c:asdf_arch_read_row", "firmware/asdf/src/Arch/asdf_arch_atmega328p.c:asdf_arch_send_code"]}
{"id": "C60", "title": "The caps-lock lamp is lit exactly when caps lock is on", "statement": "After a reset and any typing, on either board, the LED assigned to caps lock (shift lock) is lit exactly when caps lock (shift lock) is on.", "quantifier": "both boards, every sequence of contact states, every keymap list", "why_tests_cant": "Depends on the port level left by the reset, the polarity of each LED, and on all later port accesses.", "anchors": ["firmware/asdf/src/Arch/asdf_arch_atmega2560.c:asdf_arch_led3_set", "firmware/asdf/src/Arch/asdf_arch_atmega328p.c:asdf_arch_led1_set", "firmware/asdf/src/asdf_virtual.c:asdf_virtual_action", "firmware/asdf/src/asdf_modifiers.c:asdf_modifier_capslock_activate"]}
{"id": "C61", "title": "What is typed arrives at the host's wires", "statement": "With the strobe switch left alone and no message printed, the codes a host has latched from the wires since power-up, followed by the codes waiting, are exactly the codes typed.", "quantifier": "both boards, every initial register content, every sequence of contact states", "why_tests_cant": "Unbounded typing histories through queue, strobe and row reader.", "anchors": ["firmware/asdf/src/main.c:main", "firmware/asdf/src/asdf.c:asdf_activate_key", "firmware/asdf/src/asdf_buffer.c:asdf_buffer_put"]}
{"id": "C62", "title": "Any uniform keymap list builds a safe keyboard", "statement": "A firmware built with any list of at most four keymaps of the same number of rows and columns behaves as described for every key and switch setting and never leaves its tables.", "quantifier": "every keymap list with numbers below four and equal dimensions, every sequence of readings without restriction", "why_tests_cant": "Ranges over all builds and all histories.", "anchors": ["firmware/asdf/keymap_list.cmake:keymap_list", "firmware/asdf/src/CMakeLists.txt:create_keymap_setups", "firmware/asdf/src/asdf_keymap_setup.c.in:asdf_keymap_setup", "firmware/asdf/src/asdf_keymaps.c:asdf_keymaps_select"]}
{"id": "C63", "title": "Codes wait only for their turn", "statement": "While no message is being printed, every keyboard scan sends the next waiting item to the host, messages before keystrokes, whatever keys are operated meanwhile. A waiting keystroke is therefore sent after at most as many scans as items are ahead of it, never more than 128 + 16, and once typing stops everything typed has arrived after 144 scans.", "quantifier": "every run of key readings followed by every further run in which no message is printed", "why_tests_cant": "A latency bound over all queue contents and all continuations.", "anchors": ["firmware/asdf/src/main.c:main", "firmware/asdf/src/asdf.c:asdf_next_code", "firmware/asdf/src/asdf_buffer.c:asdf_buffer_get"]}
{"id": "C64", "title": "Contact noise and released keys have no effect", "statement": "Closures of a key in fewer than ten scans altogether change nothing at all, whatever the other keys do; an untouched keyboard sends nothing; once no key is closed any more the keyboard falls silent for ever after at most 144 scans.", "quantifier": "every pair of runs that differ only in noise on any set of keys; every run followed by scans with all keys open, of any length", "why_tests_cant": "Compares all pairs of unbounded histories.", "anchors": ["firmware/asdf/src/asdf.c:asdf_handle_key_press_or_release", "firmware/asdf/src/asdf.c:asdf_keyscan", "firmware/asdf/src/asdf_repeat.c:asdf_repeat"]}
{"id": "C65", "title": "The whole program works under every interrupt timing", "statement": "With the millisecond interrupt arriving between any two steps of the main loop, the program never fails and is, at every moment, the abstract keyboard after exactly the matrix readings its scans took.", "quantifier": "every interleaving of interrupts and main loop steps, every sequence of readings", "why_tests_cant": "Ranges over all interrupt schedules.", "anchors": ["firmware/asdf/src/main.c:main", "firmware/asdf/src/Arch/asdf_arch_atmega328p.c:asdf_arch_tick", "firmware/asdf/src/Arch/asdf_arch_atmega2560.c:asdf_arch_tick"]}
{"id": "C66", "title": "Only characters of the keymaps are sent", "statement": "Every keystroke the host receives is the character of some key, under some modifiers, in one of the keymaps; every message character belongs to one of the keymaps' messages. With keymaps 0 to 3 all of them are seven bit ASCII codes.", "quantifier": "every configuration, every run of key readings", "why_tests_cant": "Excludes stray codes in all histories, including internal action codes reaching the host.", "anchors": ["firmware/asdf/src/asdf.c:asdf_activate_key", "firmware/asdf/src/asdf.c:asdf_putc", "firmware/asdf/src/main.c:main"]}
{"id": "C67", "title": "Message lines end with CR LF", "statement": "Every line feed of a message directly follows a carriage return of a message in what the host receives; no keystroke comes between them.", "quantifier": "every configuration, every run of key readings", "why_tests_cant": "Concerns the interleaving of messages, keystrokes and buffer overflow in all histories.", "anchors": ["firmware/asdf/src/asdf.c:asdf_putc", "firmware/asdf/src/asdf.c:asdf_next_code", "firmware/asdf/src/asdf_print.c:asdf_print"]}
{"id": "C68", "title": "Caps lock changes letters only", "statement": "Caps lock turns small letters into capitals and changes no other key; it changes nothing while SHIFT or CTRL is in force.", "quantifier": "every key of every keymap; every moment of every run", "why_tests_cant": "Quantifies over all tables and over all histories that lead to caps lock.", "anchors": ["firmware/asdf/src/asdf_modifiers.c:asdf_modifier_index", "firmware/asdf/src/Keymaps/asdf_keymap_defs_apple2.h:APPLE_CAPS_MAP"]}
{"id": "C69", "title": "Every ASCII character can be typed", "statement": "For every ASCII code and every keymap there is a key and a choice of modifiers that sends it, in every state with that keymap and those modifiers.", "quantifier": "every keymap, every code below 128, every reachable state", "why_tests_cant": "Completeness of all tables, and typing from every reachable state.", "anchors": ["firmware/asdf/src/Keymaps/asdf_keymap_classic.h", "firmware/asdf/src/Keymaps/asdf_keymap_defs_apple2.h", "firmware/asdf/src/asdf_keymaps.c:asdf_keymaps_get_code"]}
{"id": "C70", "title": "SHIFT works while any SHIFT key is held", "statement": "The shifted characters are typed exactly while at least one SHIFT key is held (or shift lock is on).", "quantifier": "every configuration, every run of key readings", "why_tests_cant": "Depends on the order of presses and releases of several keys in an unbounded history.", "anchors": ["firmware/asdf/src/asdf_modifiers.c:asdf_modifier_shift_activate", "firmware/asdf/src/asdf_modifiers.c:asdf_modifier_shift_deactivate"]}
{"id": "C71", "title": "Every message has a key", "statement": "Each message a keymap defines (identification, keyboard test) can be called with a key of that keymap.", "quantifier": "every keymap, every function number, every key and modifier", "why_tests_cant": "A statement about absence over whole tables.", "anchors": ["firmware/asdf/src/Keymaps/asdf_keymap_apple2_caps.h:APPLESOFT_KEYBOARD_TEST", "firmware/asdf/src/asdf_hook.c:asdf_hook_execute"]}
{"id": "C72", "title": "Exactly which DIP switch use is safe", "statement": "The shipped keyboard can be used forever without leaving its tables exactly when the closing of DIP switch 2 is never accepted while switch 1 is open; until then it behaves in every respect like the firmware without keymaps 4 and 5, in the keymap set on switches 0 and 1. With switches that stay as they are, settings 4, 5, 12 and 13 are unsafe and all others are safe. Once the condition is met, a table is overrun within ten scans whatever the user does.", "quantifier": "every finite and infinite sequence of readings of the whole matrix", "why_tests_cant": "A necessary and sufficient condition over endless histories; the failure is a silent read outside of an array.", "anchors": ["firmware/asdf/src/asdf_keymaps.c:asdf_keymaps_get_code", "firmware/asdf/src/asdf_keymaps.c:asdf_keymaps_select", "firmware/asdf/src/asdf.c:asdf_keyscan"]}
{"id": "C73", "title": "Exactly what the strobe and autorepeat switches select", "statement": "In every safe run of the shipped keyboard the strobe is negative exactly if DIP switch 6 was seen to open, is open since, and the keymap switches have not moved since; autorepeat is off exactly if switch 7 is open and was closed at some time since power-up. In particular the positions of switches that are never moved while the keyboard is on have no effect.", "quantifier": "every finite sequence of readings of the whole matrix in which the closing of DIP switch 2 is never accepted while switch 1 is open", "why_tests_cant": "The rule refers to the order of switch movements in an unbounded history.", "anchors": ["firmware/asdf/src/asdf.c:asdf_activate_action", "firmware/asdf/src/asdf.c:asdf_deactivate_action", "firmware/asdf/src/asdf_keymaps.c:asdf_keymaps_switch", "firmware/asdf/src/asdf_repeat.c:asdf_repeat_auto_off"]}
{"id": "C74", "title": "The whole machine under every interrupt timing", "statement": "On both boards, whatever the registers hold at power-up, whatever the key contacts do from row read to row read, and whenever the timer interrupt comes, the keyboard does not fail, carries out exactly the actions prescribed for the keys closed at each row read, one reading of the matrix per scan started, and the host receives at the strobe's edges exactly the codes sent (until negative strobe polarity is selected).", "quantifier": "both boards, every initial register content, every sequence of contact states, every interleaving of interrupts and main loop steps", "why_tests_cant": "Interrupt timing, register contents and contact behaviour are unbounded and adversarial.", "anchors": ["firmware/asdf/src/main.c:main", "firmware/asdf/src/Arch/asdf_arch_atmega328p.c:asdf_arch_tick", "firmware/asdf/src/Arch/asdf_arch_atmega328p.c:asdf_arch_read_row", "firmware/asdf/src/Arch/asdf_arch_atmega2560.c:asdf_arch_read_row", "firmware/asdf/src/asdf.c:asdf_keyscan"]}
{"id": "C75", "title": "Safe use of the shipped firmware on its boards", "statement": "The shipped firmware on either board, with any interrupt timing and any DIP switch use, does not fail and does what the keyboard with keymaps 0 to 3 does, down to every register, as long as the closing of DIP switch 2 is never accepted while switch 1 is open; once it is, the firmware reads outside of a table within ten scans.", "quantifier": "both boards, every initial register content, every sequence of contact states, every interleaving of interrupts and main loop steps", "why_tests_cant": "An exact safety condition over unbounded histories at register level.", "anchors": ["firmware/asdf/src/asdf_keymaps.c:asdf_keymaps_get_code", "firmware/asdf/src/asdf.c:asdf_keyscan", "firmware/asdf/src/main.c:main"]}
{"id": "C76", "title": "Reading an OSI keyboard", "statement": "The row reader for OSI keyboards on the ATmega2560 board, called for a row below 8, selects exactly that row in the keyboard whatever was selected before, returns exactly the closed keys of the row, reads with its side of the bus switched to input, and touches no pin but the bus and the two control lines; for rows from 8 on it is the ordinary row reader. (It also drives the bus for a moment while the keyboard already does, and leaves the column pull-ups switched off, both for every row and register content.)", "quantifier": "every row, every register content with the control lines driven, every previous selection, every set of closed keys", "why_tests_cant": "Intermediate register states and the contents of the keyboard's latch are not visible to a unit test.", "anchors": ["firmware/asdf/src/Arch/asdf_arch_atmega2560.c:asdf_arch_osi_read_row"]}
{"id": "C77", "title": "Exactly what is lost on the way to the host", "statement": "After every run, what the host has received, in order, what is waiting and what was lost is exactly what two queues of 16 keystrokes and 128 message characters with one output per scan, messages first, make of what was typed and printed in each scan. Every code typed has been received, is waiting or was lost for want of room, exactly once; delivery is complete exactly when nothing was lost for want of room.", "quantifier": "every keymap list that passes the static check, every sequence of readings; for the shipped firmware every safe use", "why_tests_cant": "The state of the queues depends on the whole history of typing and printing.", "anchors": ["firmware/asdf/src/asdf.c:asdf_putc", "firmware/asdf/src/asdf.c:asdf_next_code", "firmware/asdf/src/asdf_buffer.c:asdf_buffer_put", "firmware/asdf/src/main.c:main"]}
{"id": "C78", "title": "Exactly what the computer reads", "statement": "On both boards, from any register contents at power-up and under every interrupt timing, a computer that takes the data at every rising edge, or at every falling edge, of the strobe reads each code sent exactly once, in order, in either strobe polarity, and one byte more for each change of the polarity that moves the strobe in that direction. If the strobe switch is not moved it reads exactly what the queues let through of what was typed and printed.", "quantifier": "both boards, both edges, every register content, every behaviour of the key contacts, every interleaving of the timer interrupt", "why_tests_cant": "Edges on the strobe depend on every intermediate register state of the whole run.", "anchors": ["firmware/asdf/src/Arch/asdf_arch_atmega328p.c:asdf_arch_send_code", "firmware/asdf/src/Arch/asdf_arch_atmega328p.c:asdf_arch_set_neg_strobe", "firmware/asdf/src/Arch/asdf_arch_atmega2560.c:asdf_arch_send_code", "firmware/asdf/src/main.c:main"]}
{"id": "C79", "title": "Exactly which timer ticks are lost", "statement": "At every moment of every run the timer ticks so far are exactly the scans started, the ticks lost and the ticks waiting (at most two). A tick is lost only in three ways: it comes while an earlier one has not been taken, it comes between the main loop's reading of the flag as 0 and its clearing it, or it is waiting when a keymap change initialises the hardware.", "quantifier": "both boards, every keymap list, every register content at power-up, every behaviour of the key contacts, every interleaving of the timer interrupt", "why_tests_cant": "The interleaving of an interrupt with single machine steps of the main loop cannot be scheduled by a unit test.", "anchors": ["firmware/asdf/src/main.c:main", "firmware/asdf/src/Arch/asdf_arch_atmega328p.c:asdf_arch_tick", "firmware/asdf/src/Arch/asdf_arch_atmega328p.c:TIMER0_COMPA_vect"]}
{"id": "C80", "title": "The printed circuit boards read exactly the keys that are closed", "statement": "On the keyboard and interface boards as drawn (classic and Sol-20 keyboards with the ATmega328P or ATmega2560 interface, and the Sol-20 board with its own ATmega2560), a column line is low exactly when a switch of the selected row and that column is closed. No combination of closed switches makes another key appear (no ghost keys), connects a low row line to a high one, or is influenced by what is pulled low on the other plugs. The row reader's key matrix is the one on the boards, every switch has one position, and no two share one.", "quantifier": "every board of the nine assemblies, with the jumper tracks cut or not, every set of closed switches, every controller pin state with the row pins as outputs, every set of low lines on the other plugs", "why_tests_cant": "There are 2^71 to 2^93 combinations of switches, and the firmware's unit tests use no netlist at all.", "anchors": ["hardware/keyboard-classic/kbd-classic.kicad_pcb", "hardware/keyboard-sol/kbd-sol.kicad_pcb", "hardware/interface-ascii/interface-ascii.kicad_pcb", "hardware/interface-ascii-atmega2560/interface-ascii-2560.kicad_pcb", "hardware/keyboard-sol-integrated/kbd-sol.kicad_pcb", "firmware/asdf/src/Arch/asdf_arch_atmega328p.c:asdf_arch_read_row", "firmware/asdf/src/Arch/asdf_arch_atmega2560.c:asdf_arch_read_row"]}
{"id": "C81", "title": "The keys type what their labels on the board say", "statement": "On the classic keyboard every key labelled with a character types it (keymap 0; capitals on keymap 1), with SHIFT the shifted character, with caps lock capitals for the letters only; the keys labelled with a function have it with any modifiers; the DIP switches have their functions on all keymaps; the remaining keys do nothing. The same for the Sol-20 keyboard on its keymap. From power-up, a labelled key held alone for 11 to 535 scans makes the computer receive its character exactly once, and with SHIFT held before, the shifted one.", "quantifier": "every key of both keyboards and every label; both interfaces, every register content at power-up, every duration of holding SHIFT", "why_tests_cant": "The unit tests use their own test keymaps and no labels: a key table shifted by one column passes them.", "anchors": ["firmware/asdf/src/Keymaps/asdf_keymap_classic.c", "firmware/asdf/src/Keymaps/asdf_keymap_classic_caps.c", "firmware/asdf/src/Keymaps/asdf_keymap_sol.c", "hardware/keyboard-classic/kbd-classic.kicad_pcb", "hardware/keyboard-sol/kbd-sol.kicad_pcb"]}
{"id": "C82", "title": "The sockets for the computers carry the keyboard's signals", "statement": "On the boards as drawn, every line of the Apple 2, Apple 1, Sol-20 and output sockets is connected to the signal the socket is documented to carry: the supply pins to the supply, and each data, strobe and output line is low (driven high) exactly when the firmware's pin for that signal drives it low (high), taking the inverter behind OUT2 into account, whatever the keys, the registers and the other wires do. At every pass of every run, the data lines of every socket carry the last code bit by bit.", "quantifier": "both AVR boards and the Apple encoder, the classic and Sol-20 keyboards with and without row diodes, every socket line, every register contents, every state of the switches, every level on the other wires; every run and keymap list for the code", "why_tests_cant": "The boards are drawings; the unit tests do not know the sockets, and the claim is about all register contents and switch states.", "anchors": ["hardware/interface-ascii", "hardware/interface-ascii-atmega2560", "hardware/keyboard-sol-integrated", "firmware/asdf/src/Arch/asdf_arch_atmega328p.c:asdf_arch_send_code", "firmware/asdf/src/Arch/asdf_arch_atmega2560.c:asdf_arch_send_code"]}
{"id": "C83", "title": "The lamps on the boards are lit when the firmware switches them on", "statement": "On the boards as drawn, each LED and each lamp in a key (Power Light, Caps Lock, Line Feed and @ of the classic keyboard, Upper Case, Local and Shift Lock of the Sol-20) is lit exactly when the pin of its LED has the level the firmware uses for on; no lamp is left out. At every pass of every run, a lamp that was ever switched is lit exactly when it was switched on last, whatever keys are closed.", "quantifier": "both AVR boards and the Apple encoder, the classic and Sol-20 keyboards with and without row diodes, every lamp, every register contents and every state of the switches; every run and keymap list", "why_tests_cant": "The polarity of a lamp is fixed by the copper, the inverters and the firmware together; the unit tests see none of the boards.", "anchors": ["hardware/keyboard-classic", "hardware/keyboard-sol", "hardware/interface-ascii", "hardware/interface-ascii-atmega2560", "firmware/asdf/src/Arch/asdf_arch_atmega328p.c:asdf_arch_led1_set", "firmware/asdf/src/Arch/asdf_arch_atmega2560.c:asdf_arch_led1_set"]}
{"id": "C84", "title": "Every key of the Franklin ACE 1000 keyboard reaches the interface", "statement": "On the Franklin ACE 1000 keyboard plugged into either interface board, every key can be read: there are lines that the interface can drive low so that closing the key, and nothing else, makes another line of the interface low.", "quantifier": "all keys of the board, both interface boards, all sets of driven lines, all settings of the DIP switches", "why_tests_cant": "The firmware tests have no board; whether current can flow through a key depends on every part on the way, and a bench test only shows the lines that were tried.", "anchors": ["hardware/keyboard-franklin-ace-1000/franklin-ace-1000-keyboard.kicad_pcb", "hardware/interface-ascii/interface-ascii.kicad_pcb", "hardware/interface-ascii-atmega2560/interface-ascii-2560.kicad_pcb"]}
{"id": "C85", "title": "The adapter connects each signal of a keyboard socket to the same signal of every computer socket", "statement": "On the multi-keyboard adapter as drawn, two lines of the Apple 2, Apple 1, output and Sol-20 sockets are connected exactly when they are the same signal. So with a cable from a socket of either interface to the adapter and a computer on another of its sockets, each line of the computer is connected to the keyboard's line for the same signal if there is one, and to no line with another signal.", "quantifier": "all pairs of sockets and lines of the adapter; all interface boards, keyboards and sockets of C82", "why_tests_cant": "The unit tests have no boards; a bench test with one computer shows one pair of sockets.", "anchors": ["hardware/multi-kbd-adapter/multi-adapter.kicad_pcb"]}
{"id": "C86", "title": "A computer reads the keys through the OSI interface", "statement": "On the OSI interface as drawn, with the classic keyboard: a write with the keyboard selected at the first address stores the byte in the row latch and at the second address in the sound latch, and no other bus cycle changes a latch. The interface drives the data lines only in a read with the keyboard selected at the first address. After a byte has been written to the first address and any further cycles but such a write, bit i of a read is 1 exactly when some pressed key (or the shift lock) is in column i and in a row whose bit in the byte is 1; no set of pressed keys makes another key appear.", "quantifier": "all bytes, all sequences of bus cycles, all sets of pressed keys, with and without the row diodes", "why_tests_cant": "There is no test of the board; the claim is about all key sets, bytes and bus histories.", "anchors": ["hardware/interface-osi/interface-osi.kicad_pcb", "hardware/interface-osi/README.md", "hardware/keyboard-classic/kbd-classic.kicad_pcb"]}
{"id": "C87", "title": "The computer at the socket reads what the key switches typed", "statement": "A computer is plugged into one of the keyboard's sockets, watches the strobe line and takes the data lines at one edge of it, rising or falling. From the end of the hardware initialisation on, whatever switches are opened and closed, whatever the timer interrupt does, and whatever else is connected to the keyboard, it reads exactly the codes that the message and keystroke queues let through of what the closed switches typed and printed, bit for bit, in order, none twice. (Shipped firmware; safe use in the sense of C72; strobe polarity switch not moved. For every other firmware configuration it reads the sequence of C78 as far as the socket has lines for the bits.)", "quantifier": "all thirteen keyboard and interface combinations, all their computer sockets, both edges, all register contents at power-up, all interleavings with the timer interrupt, all switch positions at every row read, all levels a computer may see on lines that are not driven", "why_tests_cant": "The unit tests run neither the architecture code nor the boards; this quantifies over all switch histories, interleavings, board assemblies and register contents.", "anchors": ["firmware/asdf/src/main.c: main", "firmware/asdf/src/asdf.c: asdf_keyscan", "firmware/asdf/src/Arch/asdf_arch_atmega328p.c: asdf_arch_send_code", "firmware/asdf/src/Arch/asdf_arch_atmega328p.c: asdf_arch_init_ascii_output", "firmware/asdf/src/Arch/asdf_arch_atmega2560.c: asdf_arch_send_code", "hardware/interface-ascii", "hardware/interface-ascii-atmega2560", "hardware/keyboard-classic"]}
{"id": "C88", "title": "The C text itself keeps the promises", "statement": "The text of the firmware, as it stands in the C files and given the meaning of C on the AVR, started at reset: for every sequence of answers of the timer and every reading of the switches in each millisecond that is safe in the sense of C72, it never accesses memory outside an object, never calls through a wrong pointer, never overflows a signed integer and never loops forever inside a pass; its hardware effects (codes sent, lamps, output lines, strobe, delays) are, in order, exactly those of the abstract keyboard; and what the host receives is what C77 says. Conversely, once the use is not safe the C text reads outside an array within ten more scans: it can run forever without undefined behaviour exactly when the use is safe.", "quantifier": "all sequences of timer polls of any length, all switch readings (safe in the sense of C72), all larger bounds on loop turns and call depth", "why_tests_cant": "The unit tests run single functions on chosen values; this is about every run of main() from reset, and it removes the transcription by hand between the C text and the model of the other properties.", "anchors": ["firmware/asdf/src/main.c: main", "firmware/asdf/src/asdf.c: asdf_keyscan", "firmware/asdf/src/asdf_keymaps.c: asdf_keymaps_get_code", "firmware/asdf/src/asdf_buffer.c: asdf_buffer_put", "firmware/asdf/src/asdf_virtual.c: asdf_virtual_action", "firmware/asdf/src/Keymaps"]}
{"id": "C89", "title": "The C text of the two hardware layers does what the boards' model says", "statement": "Every function of the hardware layer that the portable firmware calls (initialisation, output lines, lamps, strobe polarity, pulse delays, millisecond delay, sending a code, reading a row), taken as the text of the C file for the ATmega328P or the ATmega2560 and executed on the registers of the controller, makes exactly the register accesses and delays, in order, that the model of the board lists, and nothing else; the row readers return what the model returns for the keys closed at one moment during the call, or have no defined result in the same cases. This holds whatever the keys, the other pins and the timer interrupt do between any two accesses. The text of the one-bit helpers set_bit and clear_bit does to an output or direction register what the single instruction does that the compiler makes of it.", "quantifier": "all register contents, all argument values, all behaviours over time of keys, other pins and timer interrupt, both boards, all key matrices", "why_tests_cant": "The hardware layers are not compiled in the unit tests at all (the tests use the test architecture), and an interrupt can come between any two accesses.", "anchors": ["firmware/asdf/src/Arch/asdf_arch_atmega328p.c: asdf_arch_init, asdf_arch_send_code, asdf_arch_read_row, set_bit, clear_bit", "firmware/asdf/src/Arch/asdf_arch_atmega2560.c: asdf_arch_init, asdf_arch_send_code, asdf_arch_read_row, asdf_arch_osi_read_row"]}
{"id": "C90", "title": "The complete C text, from the switches to the computer", "statement": "The complete text of the firmware, portable part, shipped keymaps and hardware layer, started at reset on either board with anything in the registers: whatever the key switches, the other pins and the timer do at every moment, as long as the use is safe (C72) the run never has undefined behaviour; the registers go through exactly the states of the model of the board, one scan of the matrix for each time the timer flag is found set, each row read at one moment of its scan; and a computer at any socket of any of the keyboards, whichever edge of the strobe it uses, has read exactly what C77 and C78 say for what the switches typed and printed. The use is safe whatever happens if DIP switches 1 and 2 are not moved and switch 2 is open or switch 1 closed.", "quantifier": "all behaviours over time of switches, pins and timer interrupt (safe in the sense of C72), all register contents at reset, runs of any length, both controllers, all thirteen keyboards and all their sockets, both strobe edges", "why_tests_cant": "It is a statement about the whole program with interrupts at any point, over unbounded time, and about the board around it; no test runs the whole text.", "anchors": ["firmware/asdf/src/main.c: main", "firmware/asdf/src/Arch/asdf_arch_atmega328p.c: asdf_arch_tick, ISR(TIMER0_COMPA_vect)", "firmware/asdf/src/Arch/asdf_arch_atmega2560.c: asdf_arch_tick, ISR(TIMER0_COMPA_vect)", "firmware/asdf/src/asdf.c: asdf_keyscan, asdf_next_code", "hardware"]}
{"id": "C91", "title": "Text typed key by key arrives as it was typed", "statement": "Somebody types neatly: modifier keys are pressed and released while no character key is down, no two keys with the same character are down together, no character key is held longer than the delay before repetition, and only modifiers and character keys are used. Then, whatever happened before (as long as no code is due for repetition and only switches and modifiers are down), the text the keyboard types is exactly the characters of the keys pressed, each under the modifiers in force at its press, in the order of the scans in which the presses are accepted, however many keys overlap; nothing is repeated, lost or printed. If nothing was waiting and no two keys are accepted in one scan, the computer receives exactly that text. In particular, on the classic keyboard with the DIP switches open, every text of key strokes of at least 10 scans, with or without SHIFT or CTRL, arrives at a computer at any socket as it was typed; so do two overlapping keys; and every text of ASCII characters other than ^, _, 0x1E and 0x1F can be typed that way.", "quantifier": "all histories before, all sequences of matrix readings of a neat typist, of any length; all texts; all keymap lists for the typed text, the shipped keymaps and both boards' C text for the computer", "why_tests_cant": "Tests type a few keys; rollover, modifiers, debouncing, repetition and the two queues interact differently for every interleaving of unboundedly many key presses.", "anchors": ["firmware/asdf/src/asdf.c: asdf_keyscan, asdf_handle_key_press_or_release, asdf_handle_key_held_pressed", "firmware/asdf/src/asdf_repeat.c", "firmware/asdf/src/asdf_modifiers.c", "firmware/asdf/src/asdf_buffer.c", "firmware/asdf/src/Keymaps/asdf_keymap_classic_add_map.c"]}
{"id": "C92", "title": "Exactly which ASCII characters can be typed", "statement": "On the classic keyboard with the classic keymaps a character can reach the computer as a keystroke if and only if it is an ASCII character other than ^, _ and the control characters 0x1E and 0x1F. On keymaps 0 to 3 the control characters 0x1E and 0x1F can never be typed.", "quantifier": "all sequences of matrix readings of any length that leave the keymap switches in that range; all characters", "why_tests_cant": "That no combination of keys and modifiers, in any history, ever produces a character is a statement about all histories.", "anchors": ["firmware/asdf/src/Keymaps/asdf_keymap_classic_add_map.c", "firmware/asdf/src/Keymaps/asdf_keymap_apple2_add_map.c", "firmware/asdf/src/asdf.c: asdf_keyscan, asdf_next_code"]}
{"id": "C93", "title": "Exactly which reservations are unsafe", "statement": "A sequence of buffer operations, with any sizes a caller can pass, has undefined behaviour if and only if at some point a buffer is granted although the sizes granted since the last initialisation add up to less than zero. Putting and getting are safe after every run without undefined behaviour, for any handle. A buffer of zero or negative size accepts nothing and always gives the invalid code.", "quantifier": "all sequences of buffer operations of any length, all 16-bit sizes, all handles, all codes", "why_tests_cant": "The exact boundary between safe and unsafe use depends on the sum of all sizes granted so far in a history of unbounded length.", "anchors": ["firmware/asdf/src/asdf_buffer.c: asdf_buffer_init, asdf_buffer_new, asdf_buffer_put, asdf_buffer_get"]}
{"id": "C94", "title": "Exactly which modifiers are in force and what the lamps show", "statement": "In every safe use of the shipped keyboard the modifiers and the two lamps are a simple function of the accepted movements of keys and switches: SHIFT is in force exactly if the last movement of either SHIFT key was a press; CTRL exactly while its key is down; shift lock never; caps lock changes with every press of CAPS (whose place depends on the keymap) and with every selection of keymap 2, and nothing else; LED 3 is switched only by a change of caps lock while keymap 0 is in use, LED 1 only by one while keymap 2 is in use, and each then shows caps lock. With keymap 0 alone caps lock is on exactly after an odd number of presses of CAPS, and LED 3 shows it from the first press on. On both boards the LED pins are at the level this prescribes; an LED never switched keeps the level its port had at power-up.", "quantifier": "all sequences of matrix readings of any length without the unsafe use of DIP switch 2 (C72); both boards, all register contents at power-up", "why_tests_cant": "The state depends on the whole history of movements, including overlapping SHIFT keys and keymap switches; the rule must hold after every one of infinitely many histories.", "anchors": ["firmware/asdf/src/asdf_modifiers.c", "firmware/asdf/src/asdf.c: asdf_keyscan, asdf_activate_action, asdf_deactivate_action", "firmware/asdf/src/asdf_keymaps.c: asdf_keymaps_dip_switch_on", "firmware/asdf/src/asdf_virtual.c", "firmware/asdf/src/Keymaps"]}
{"id": "C95", "title": "Exactly how often held keys repeat", "statement": "After any history, as long as no press or release is accepted, what is typed is repetitions of the code typed last, and their number is an explicit function of the delay left and of the number of samples in which a held key with that code was read as closed: the first repetition when the delay has run out, the others every 66 such samples. So two held keys with the same code repeat it twice as fast. If nothing was waiting and at most 66 held keys have the code, the host receives exactly these repetitions and no message.", "quantifier": "all keymap lists that pass the static check, all histories, all later sequences of readings without an accepted change, bouncing included; for the host part all safe uses of the shipped firmware", "why_tests_cant": "The schedule has to hold for holds of every length, after every history and for every set of keys held together.", "anchors": ["firmware/asdf/src/asdf_repeat.c", "firmware/asdf/src/asdf.c: asdf_keyscan, asdf_activate_key"]}
{"id": "C96", "title": "The source files, read byte by byte, are the programs that were verified", "statement": "Translating the text of the source files by the rules of C (tokens, preprocessing with the headers for either controller, the file that CMake generates, grammar, types, constants, initialisers) succeeds for every file, and defines exactly the functions and static variables that C88, C89 and C90 are about, each exactly once, with the same bodies and the same initial values. Different names never stand for the same thing. So the run of the source files from reset on either board is the run C90 is about, and in a safe world the host reads what the abstract keyboard says.", "quantifier": "every function, every static variable, both controllers; for the run: all outside worlds, register contents at reset and lengths of the run", "why_tests_cant": "A test runs the output of one compiler on some inputs; here every function in the text is compared with the verified program as a whole.", "anchors": ["firmware/asdf/src/*.c", "firmware/asdf/src/*.h", "firmware/asdf/src/Keymaps/*", "firmware/asdf/src/Arch/asdf_arch_atmega328p.c", "firmware/asdf/src/Arch/asdf_arch_atmega2560.c", "firmware/asdf/keymap_list.cmake", "firmware/asdf/src/asdf_keymap_setup.c.in", "firmware/asdf/src/CMakeLists.txt"]}
{"id": "C97", "title": "What an oscilloscope on the strobe and the data lines shows", "statement": "The source files, run from reset on either board: for every code sent, the code is put on the data lines while the strobe is idle, the strobe is inverted for 10 microseconds and then restored, and the data lines keep the code at both edges and in between; nothing else moves the strobe or the data lines except initialisation and a change of polarity, and the other hardware events take exactly the waiting time of the source. If DIP switch 7 is not moved, the strobe is high exactly once for each code the host is sent, for 10 microseconds, and a host that takes the data when the strobe rises finds at least 40 ms before each character of a message.", "quantifier": "all behaviours of keys, other pins and timer in which every use is safe; all register contents at reset, lengths of the run, both boards", "why_tests_cant": "The order and width of the signals must be right for every code, at every point of every run; the test board has no strobe and no time.", "anchors": ["firmware/asdf/src/Arch/asdf_arch_atmega328p.c: asdf_arch_send_code, asdf_arch_delay_ms, asdf_arch_pulse_delay_short, asdf_arch_pulse_delay_long", "firmware/asdf/src/Arch/asdf_arch_atmega2560.c: asdf_arch_send_code, asdf_arch_delay_ms", "firmware/asdf/src/asdf.c: asdf_next_code, asdf_set_print_delay"]}
{"id": "C98", "title": "What an oscilloscope on the output pins shows", "statement": "The source files, run from reset on either board with the output pins as inputs at reset: output 3 (RESET line, open high) is pulled low once for each accepted press of a key for output code 1, each time for at least 10 microseconds, and output 1 (open low) is driven high once for each accepted press of a key for output code 2, each time for at least 50 ms. The pulses are complete, the pins are released otherwise, and they are never driven to the opposite level, not even for the time of one access.", "quantifier": "all behaviours of keys, other pins and timer in which every use is safe; all register contents at reset with the pins as inputs, lengths of the run, both boards", "why_tests_cant": "A spurious or missing reset pulse, or a moment in which the pin is driven against the other devices on the line, can come at any point of any run; the test board has no pins and no time.", "anchors": ["firmware/asdf/src/Arch/asdf_arch_atmega328p.c: asdf_arch_out3_open_hi_set, asdf_arch_out1_open_lo_set, asdf_arch_pulse_delay_short, asdf_arch_pulse_delay_long", "firmware/asdf/src/Arch/asdf_arch_atmega2560.c: asdf_arch_out3_open_hi_set, asdf_arch_out1_open_lo_set", "firmware/asdf/src/asdf_virtual.c: asdf_virtual_action", "firmware/asdf/src/asdf_physical.c: asdf_physical_set"]}
{"id": "C99", "title": "Text typed on contacts that bounce arrives as typed", "statement": "On the classic keyboard, DIP switches open, whatever keys are pressed and released after power-up, overlapping as they like, SHIFT, CTRL and CAPS LOCK included, and however the contacts bounce at each press and release: if a bounce is over before ten scans have seen it, ten scans pass between two movements, CTRL is used with letters, @, [, \\ and ] only, no character is typed twice in a row with its key released in between under other modifiers, no other key that is down has the character typed last and no key is held for more than 525 scans, the computer reads exactly the characters of the keys pressed, in the order in which they were pressed, and nothing else.", "quantifier": "all sequences of key movements of any length, all times of movements and scans, all behaviours of the contacts while they bounce; for the computer also all register contents at power-up, timers, both boards and all sockets", "why_tests_cant": "The bounce of a contact is different at each press, and falls differently on the scans; a double character or a lost one needs a particular pattern with a particular history of other keys. Tests use clean presses of single keys.", "anchors": ["firmware/asdf/src/asdf.c: asdf_handle_key_press_or_release, asdf_keyscan", "firmware/asdf/src/asdf_config.h: ASDF_DEBOUNCE_TIME_MS", "firmware/asdf/src/asdf_repeat.c", "firmware/asdf/src/Keymaps/asdf_keymap_classic_add_map.c", "hardware: key matrix of the classic keyboard"]}
{"id": "C100", "title": "The main loop never hangs, and each scan answers one timer interrupt", "statement": "Read byte by byte on either board, the firmware looks at the timer flag again and again for ever: whatever the registers contain at power-up, whatever the pins do and whenever the timer fires, it never hangs in a loop and never does something that C leaves undefined, as long as the keys that are pressed are allowed. A look that finds the flag set makes exactly one scan; one that finds it clear makes none and changes no register. The flag is found set exactly if an interrupt came since it was last cleared, so with a timer that keeps asking there is no limit to the number of scans. An interrupt that falls between looking at the flag and clearing it is lost.", "quantifier": "all register contents at power-up, all levels of the pins at all times, all timers, all numbers of looks, both boards", "why_tests_cant": "The interrupt can come between any two accesses to registers; whether the loop can hang, or can miss a tick for ever, depends on the whole history. A test runs the functions without an interrupt.", "anchors": ["firmware/asdf/src/main.c: main", "firmware/asdf/src/Arch/asdf_arch_atmega328p.c: ISR(TIMER0_COMPA_vect), asdf_arch_tick", "firmware/asdf/src/Arch/asdf_arch_atmega2560.c: ISR(TIMER0_COMPA_vect), asdf_arch_tick"]}
{"id": "C101", "title": "Every text can be typed", "statement": "On the classic keyboard, in any electrical state at power-up, with a timer that does not stop and anything at the other pins: for every text of ASCII characters other than ^, _, 0x1E and 0x1F, of any length, there are times at which to press and release its keys one after the other so that from some time on the computer at the socket has read exactly this text, and it stays so.", "quantifier": "all texts of any length, all timers that do not stop, all register contents at power-up, all levels of the other pins, both boards, all sockets", "why_tests_cant": "There are unboundedly many texts, and the scans on which the keys must move depend on the timer and on the whole run before; a test types a few characters with simulated scans.", "anchors": ["firmware/asdf/src/main.c: main", "firmware/asdf/src/asdf.c: asdf_keyscan", "firmware/asdf/src/Keymaps/asdf_keymap_classic_add_map.c", "firmware/asdf/src/Arch/asdf_arch_atmega328p.c", "firmware/asdf/src/Arch/asdf_arch_atmega2560.c", "hardware: key matrix and sockets of the classic keyboard"]}
{"id": "C102", "title": "Exactly when the complete program leaves its memory objects", "statement": "On either board, started at reset with anything in the registers, and whatever the keys, the other pins and the timer do at every moment: the complete text of the firmware either comes to its next look at the timer flag or accesses memory outside of the object it uses. It never hangs and never does anything else that C leaves undefined. The only cause of the bad access is that the closing of DIP switch 2 (counted from 0) is accepted while switch 1 is open. With a timer that does not stop and switches 1 and 2 that are not moved, the program runs for ever without undefined behaviour exactly if switch 2 is open or switch 1 is closed; otherwise it does not get further than its nineteenth scan, whatever else is typed.", "quantifier": "all behaviours over time of keys, pins and timer interrupt, all register contents at reset, runs of any length, both boards", "why_tests_cant": "The absence of every other kind of undefined behaviour must hold for every history of keys and interrupts; and that the bad access comes for every way of typing cannot be seen by trying some.", "anchors": ["firmware/asdf/src/main.c: main", "firmware/asdf/src/asdf.c: asdf_keyscan", "firmware/asdf/src/asdf_keymaps.c: asdf_keymaps_map_select_set, asdf_keymaps_get_code", "firmware/asdf/src/Arch/asdf_arch_atmega328p.c", "firmware/asdf/src/Arch/asdf_arch_atmega2560.c"]}
{"id": "C103", "title": "Text arrives as typed although modifiers move at any time", "statement": "Somebody types without care for the modifiers: SHIFT, CTRL and the locks are pressed and released at any time, also while keys with characters are down, and keys overlap as they like. If no character is typed twice in a row with its key released in between under other modifiers, no other key that is held has the character typed last, and no key is held longer than the delay before repetition, then, whatever happened before (as long as no code is due for repetition), the text is exactly the characters of the keys pressed, each under the modifiers in force at its press; nothing is repeated, lost or printed, and the computer receives that text. The first condition is needed: the letter a typed twice in that way arrives three times.", "quantifier": "all histories before, all sequences of matrix readings of such a typist, of any length; all keymap lists for the typed text, the shipped keymaps and both boards' C text for the computer", "why_tests_cant": "Fast typists release SHIFT a moment before or after the letter; whether that costs or adds a character depends on the order of the two changes, on the scan in which each is accepted and on what was typed before. Tests press and release modifiers around single keys.", "anchors": ["firmware/asdf/src/asdf.c: asdf_activate_key, asdf_deactivate_key, asdf_keyscan", "firmware/asdf/src/asdf_modifiers.c", "firmware/asdf/src/asdf_repeat.c", "firmware/asdf/src/asdf_keymaps.c: asdf_keymaps_get_code"]}
{"id": "C104", "title": "Text arrives as typed on any matrix with each of the keymaps 0 to 3", "statement": "The DIP switches select one of the keymaps 0 to 3 (switches 2 to 4 open, 5 to 7 as they like) and are not moved. After the first ten scans, keys of the matrix are pressed and released, overlapping as they like, modifiers and locks at any time, on contacts that bounce for up to 9 scans and are then steady for at least 10; no key with a character is held for more than 525 scans, and the typist observes the rule of C103. Then the host receives exactly the codes of the keys that were pressed, in the selected keymap and under the modifiers of that moment (caps lock is on at first with keymap 2), and nothing is left waiting. With each of these keymaps every text of the ASCII characters on its keys can be typed, at every pace from 10 to 525 scans between movements. The computer at a connector of any of the boards reads that text.", "quantifier": "all 32 settings of the DIP switches, all sequences of movements of that kind, of any length, all texts of the characters of a keymap, all boards, all electrical states at power-up", "why_tests_cant": "Each keymap has its own tables, modifiers and initial state, which are installed by the scan that accepts the DIP switches, after the keyboard has started with keymap 0; a test types some characters with one keymap and settled contacts.", "anchors": ["firmware/asdf/src/asdf_keymaps.c: asdf_keymaps_select, asdf_keymaps_map_select_0_set", "firmware/asdf/src/Keymaps", "firmware/asdf/src/asdf.c: asdf_keyscan", "firmware/asdf/src/asdf_modifiers.c"]}
{"id": "C105", "title": "Text typed in real time on any board, with each of the keymaps 0 to 3, arrives as typed", "statement": "On every keyboard, with the DIP switches set to one of the keymaps 0 to 3: whatever keys of the board are pressed and released, at any times after the first ten scans, overlapping as they like, modifiers and locks at any time, and however the contacts bounce at each press and release: if a bounce is over before ten scans have seen it, ten scans pass between two movements, no key with a character is held for more than 525 scans and the typist observes the rule of C103, the computer at the connector reads exactly the codes of the keys that were pressed, in the selected keymap and under the modifiers of that moment, and nothing else.", "quantifier": "all keyboards and interfaces, all 32 settings of the DIP switches, all sequences of key movements of any length, all times of movements and scans, all behaviours of the contacts while they bounce, all register contents at power-up, all timers", "why_tests_cant": "The times of movements, bounces and of the scans of each row are unbounded and interleave; the setting of the DIP switches is itself read through the same scans and debounced; a test fixes a few.", "anchors": ["firmware/asdf/src/asdf.c: asdf_keyscan", "firmware/asdf/src/asdf_keymaps.c", "firmware/asdf/src/Keymaps", "firmware/asdf/src/Arch/asdf_arch_atmega328p.c", "firmware/asdf/src/Arch/asdf_arch_atmega2560.c", "hardware/keyboard-classic", "hardware/keyboard-sol"]}
{"id": "C106", "title": "On every board every text that is on its keys can be typed, and nothing else", "statement": "On every keyboard, in any electrical state at power-up, with the DIP switches set to one of the keymaps 0 to 3, with a timer that does not stop and anything at the other pins: for every text each of whose characters some key of this board gives under some modifiers, of any length, there are times at which to press and release keys one after the other so that from some time on the computer at the connector has read exactly this text, and it stays so. However keys are moved with care, every character that is typed is on a key of the board.", "quantifier": "all keyboards and interfaces, all connectors, all 32 settings of the DIP switches, all texts of any length, all timers that do not stop, all register contents at power-up, all levels of the other pins", "why_tests_cant": "There are unboundedly many texts, and the times at which keys must move depend on the run of the firmware, which depends on what was typed before.", "anchors": ["firmware/asdf/src/main.c: main", "firmware/asdf/src/Keymaps", "firmware/asdf/src/Arch/asdf_arch_atmega328p.c", "firmware/asdf/src/Arch/asdf_arch_atmega2560.c", "hardware/keyboard-classic", "hardware/keyboard-sol"]}
{"id": "C107", "title": "A key that is held repeats its character exactly so often at the computer", "statement": "On every keyboard, with the DIP switches set to one of the keymaps 0 to 3, keys with a character are pressed and released one after the other, each held as long as one likes, modifiers move in between, and contacts bounce at each press and release for fewer than ten scans: a key that is read as closed in n scans of its press gives its character once, once more when 525 further readings after the tenth found it closed, and from then on once more for every 66. The computer at the connector reads exactly this text, nothing is left waiting, and readings during a bounce count like any others.", "quantifier": "all keyboards and interfaces, all connectors, all 32 settings of the DIP switches, all sequences of strokes and modifier movements of any length, all durations, all behaviours of bouncing contacts, all times of the scans, all register contents at power-up, all timers", "why_tests_cant": "The number of repetitions depends on every reading while the key is held, including those during bounces; durations and numbers of strokes are unbounded.", "anchors": ["firmware/asdf/src/asdf.c: asdf_keyscan, asdf_handle_key_held_pressed", "firmware/asdf/src/asdf_repeat.c", "firmware/asdf/src/asdf_config.h: ASDF_AUTOREPEAT_TIME_MS", "firmware/asdf/src/Arch/asdf_arch_atmega328p.c", "firmware/asdf/src/Arch/asdf_arch_atmega2560.c"]}
{"id": "C108", "title": "Exactly how often the tick comes, for every setting of the system clock at reset", "statement": "If the system clock is divided by 2^p at reset (p from 0 to 8), the tick interrupt comes exactly every 2^p milliseconds after the board is initialised, whatever the other registers contained and whatever the firmware does later; with a reserved divider value the datasheet gives no frequency. So the tick is a millisecond exactly if the clock is not divided at reset.", "quantifier": "every register contents at reset with the clock change window shut, every later sequence of hardware operations and row reads, both AVR boards", "why_tests_cant": "The divider at reset is set by fuses, which a host test does not have, and the claim is about all register contents and all later operations.", "anchors": ["firmware/asdf/src/Arch/asdf_arch_atmega328p.c: asdf_arch_init_clock, asdf_arch_tick_timer_init", "firmware/asdf/src/Arch/asdf_arch_atmega2560.c: asdf_arch_init_clock, asdf_arch_tick_timer_init"]}
{"id": "C109", "title": "Exactly what a build without optimisation does to the other pins when a code is sent", "statement": "When a build without optimisation sends a code, every output of the strobe's port other than the strobe goes low with the strobe and stays low; every input of that port that reads high has its pull-up inverted during the pulse; pins of other ports, apart from the data lines, do not change. So the other pins keep their levels exactly if all other outputs of that port are low already and all its inputs read low.", "quantifier": "every code, every register contents, every level the outside world puts on the pins, every pin, both AVR boards", "why_tests_cant": "It depends on the code the compiler generates and on pin levels; a host test has neither.", "anchors": ["firmware/asdf/src/Arch/asdf_arch_atmega328p.c: asdf_arch_send_code, set_bit", "firmware/asdf/src/Arch/asdf_arch_atmega2560.c: asdf_arch_send_code", "firmware/asdf/cmake/generic-gcc-avr.cmake"]}
{"id": "C110", "title": "The computer reads each message complete, where its key was pressed in the text", "statement": "On every keyboard, with the DIP switches set to one of the keymaps 0 to 3, text is typed one key at a time, and in between keys are pressed that print a message (identification, keyboard test), switch an output or have no meaning; contacts bounce at each press and release for fewer than ten scans, and after the press of such a key there are as many scans as its message has characters before the next key moves. The computer at the connector reads exactly the characters of the text, each as often as its key repeats, and each message once, complete, at the place in the text where its key was pressed, however long that key is held. Nothing is left waiting.", "quantifier": "all keyboards and interfaces, all connectors, all 32 settings of the DIP switches, all sequences of strokes, function keys and modifier movements of any length, all durations, all behaviours of bouncing contacts, all times of the scans, all register contents at power-up, all timers", "why_tests_cant": "It holds for texts of any length with any mixture of messages, for every bounce and every scan time; a test sees one sequence.", "anchors": ["firmware/asdf/src/asdf.c: asdf_keyscan", "firmware/asdf/src/asdf_print.c", "firmware/asdf/src/asdf_hook.c", "firmware/asdf/src/asdf_repeat.c", "firmware/asdf/src/Keymaps", "firmware/asdf/src/Arch/asdf_arch_atmega328p.c", "firmware/asdf/src/Arch/asdf_arch_atmega2560.c"]}
{"id": "C111", "title": "Exactly which keymaps share an identification and which messages have no key", "statement": "Two shipped keymaps print the same identification exactly if they are the same or are classic and classic caps. A message that a shipped keymap defines can be called with one of its keys exactly if it is not the keyboard test of keymap 3, the identification of keymap 4, or one of the two messages of keymap 5.", "quantifier": "every pair of shipped keymaps; every shipped keymap and function number", "why_tests_cant": "It compares all keymaps, all tables and all keys under all modifiers.", "anchors": ["firmware/asdf/src/Keymaps", "firmware/asdf/src/asdf_keymaps.c", "firmware/asdf/src/asdf_hook.c"]}
{"id": "C112", "title": "Exactly what selecting a keymap does to the output pins", "statement": "Selecting a keymap initialises the board and then carries out exactly the output and strobe statements of its setup function, whatever was selected before. For the shipped keymaps, on both boards and from all register contents: the three output lines never move, not even for one access; afterwards all lamps are driven, each at the level it had, except that keymaps 2, 4 and 5 turn caps lock over and light its lamp exactly if caps lock is on then; the data lines carry 0 and the strobe is at its rest level, low, with keymap 4 high.", "quantifier": "every keymap list and prior state; every shipped keymap, both caps-lock states, both boards, all register contents and every moment of the selection", "why_tests_cant": "The tests run on a simulated board without registers and look at recorded levels; what happens to the pins depends on all prior register contents and on each access of the initialisation.", "anchors": ["firmware/asdf/src/asdf_keymaps.c:asdf_keymaps_switch", "firmware/asdf/src/asdf_modifiers.c:asdf_modifier_capslock_activate", "firmware/asdf/src/Arch/asdf_arch_atmega328p.c:asdf_arch_init", "firmware/asdf/src/Arch/asdf_arch_atmega2560.c:asdf_arch_init"]}
{"id": "C113", "title": "Exactly what the simulated board of the unit tests reports", "statement": "After every sequence of events the simulated board reports for each output the value last set since it was initialised, where settings of all six open outputs count for output 1 open-high, and the other five open outputs report 0 for ever; so an output can be trusted exactly if it is not an open one. The pulse detectors follow the same events: a pulse is reported exactly after a change, one delay and the change back, an error exactly after an ill-formed delay. A code is reported as sent exactly until the board is initialised or the code is read, and reading gives the last code sent.", "quantifier": "all sequences of hardware events and readings, all outputs", "why_tests_cant": "The tests are written on top of this board and take its reports for the truth.", "anchors": ["firmware/asdf/src/Arch/asdf_arch_test.c", "firmware/asdf/src/Arch/asdf_arch_test.h"]}
{"id": "C114", "title": "Exactly how a newly pressed key repeats", "statement": "After every history of the REPEAT key, the autorepeat switch and held keys, a newly pressed key that is held repeats every 66 scans if at some moment since REPEAT was last released REPEAT was pressed while no repetition was due within 66 scans; otherwise after 525 scans and then every 66 if autorepeat is enabled; otherwise never. In every case pressing REPEAT makes the held key repeat within 66 scans.", "quantifier": "every history of repeat-related events, every duration of the hold", "why_tests_cant": "The rule depends on the whole history, on the scan in which REPEAT was pressed and on how long the key is held.", "anchors": ["firmware/asdf/src/asdf_repeat.c"]}
{"id": "C115", "title": "Changing the keymap while typing loses nothing and adds nothing", "statement": "On every keyboard, set to one of the keymaps 0 to 3 at first, text is typed one key at a time and messages are called as in C110, and between any two strokes the DIP switches 0 and 1 are moved, in any order and as often as wanted, with bouncing contacts and with modifier keys held. The computer reads exactly the text and the messages, each key in the keymap that the two switches spell when it is pressed and with the modifiers that are active then. Moving the switches sends nothing, keeps SHIFT, CTRL and their locks, and changes caps lock only when keymap 2 is reached: there it is turned over. Nothing is left waiting.", "quantifier": "all keyboards and interfaces, all connectors, all 32 initial settings of the DIP switches, all sequences of strokes, function keys, modifier movements and keymap switch movements of any length, all durations, all behaviours of bouncing contacts, all times of the scans, all register contents at power-up, all timers", "why_tests_cant": "The state that a change of keymap leaves behind shows only later, in any of the keys and after any number of further changes.", "anchors": ["firmware/asdf/src/asdf_keymaps.c", "firmware/asdf/src/asdf_modifiers.c", "firmware/asdf/src/asdf.c", "hardware"]}
{"id": "C116", "title": "Keys may overlap and be held as long as one likes: exactly what repeats, with REPEAT and the autorepeat switch", "statement": "On every keyboard, with the DIP switches at one of the keymaps 0 to 3, keys are pressed and released in any order, several at once, each held as long as one likes; modifiers, the REPEAT key and the autorepeat switch move at any time, as long as the rule of C103 is observed. The computer reads exactly: the code of each key that is pressed, in the order of the presses, and the repetitions of the key pressed last, while it is down and has the code that it had when it was pressed. The first repetition comes after 525 closed readings since the press, after 66 if REPEAT is in force, never if autorepeat is off; each further one after 66. Pressing REPEAT or moving the switch starts the delay again unless, with REPEAT, a repetition is due within 66 readings anyway. Other keys that are held do not repeat, releasing a key that was not the last one changes nothing, and after the last one is released none repeats. At most two characters are waiting to be sent at any end of the run, and none when no key can repeat. With autorepeat switched off, each key that is pressed gives its code once, however long it is held.", "quantifier": "all keyboards and interfaces, all connectors, all 32 settings of the DIP switches for the keymaps 0 to 3, all sequences of presses and releases, REPEAT and the autorepeat switch included, of any length that observe the rule of C103, one movement at a time with contacts that are steady for ten scans after it, all durations, all behaviours of contacts that bounce for at most nine scans, all times of the scans, all register contents at power-up", "why_tests_cant": "Which key repeats and when depends on the whole history of overlapping presses, modifier movements and contact bounces; tests cover a few patterns.", "anchors": ["firmware/asdf/src/asdf.c", "firmware/asdf/src/asdf_repeat.c", "firmware/asdf/src/asdf_modifiers.c", "hardware"]}
{"id": "C117", "title": "Calls are nested at most 23 deep", "statement": "On either board, whatever the registers contain at power-up and whatever the keys, the pins and the timer do at every moment, the calls of functions in the text of the firmware are never nested deeper than 23 levels. main is the first level; calls through hooks, output handlers and other function pointers count, and so do the interrupt routine, wherever it comes, and each access to the hardware. So there is no recursion that could use up the stack.", "quantifier": "all behaviours over time of keys, pins and timer interrupt, all register contents at reset, runs of any length, both boards, and everything a deeper call could do", "why_tests_cant": "The functions behind the pointers depend on the keymap, the key pressed and the switches, and an interrupt can come at any access; a test follows one path of calls.", "anchors": ["firmware/asdf/src/main.c: main", "firmware/asdf/src/asdf.c: asdf_keyscan", "firmware/asdf/src/asdf_hook.c: asdf_hook_execute", "firmware/asdf/src/asdf_keymaps.c: asdf_keymaps_select", "firmware/asdf/src/asdf_virtual.c: asdf_virtual_map_function", "firmware/asdf/src/asdf_physical.c: asdf_physical_set", "firmware/asdf/src/Arch/asdf_arch_atmega328p.c: ISR(TIMER0_COMPA_vect)"]}
{"id": "C118", "title": "Exactly how long the keyboard waits on purpose", "statement": "At every moment of a run in which the keymap switches are used safely (C75), the time that the firmware has waited on purpose since reset is exactly: 10 microseconds for each code that the host was sent, 40 milliseconds for each of them that is a character of a message, 10 microseconds for each press of a key that pulses the first output (a short pulse), 50 milliseconds for each press of a key that pulses the second (a long pulse), and on the ATmega2560 72 microseconds for each scan of the matrix (none on the ATmega328P). So while keys are typed and no message and no pulse is put out, a scan waits at most 10 microseconds, on the ATmega2560 at most 82, and each character of a message takes the keyboard away from its keys for 40 milliseconds.", "quantifier": "all behaviours over time of keys, pins and timer interrupt with safe use of the keymap switches, all register contents at reset, runs of any length, both boards", "why_tests_cant": "A delay anywhere in the code that is reached only by some sequence of keys would go unnoticed; the sum over all runs of any length has to be known.", "anchors": ["firmware/asdf/src/Arch/asdf_arch_atmega2560.c: asdf_arch_read_row", "firmware/asdf/src/Arch/asdf_arch_atmega328p.c: asdf_arch_read_row", "firmware/asdf/src/Arch/asdf_arch_atmega328p.c: asdf_arch_send_code", "firmware/asdf/src/Arch/asdf_arch_atmega328p.c: asdf_arch_delay_ms", "firmware/asdf/src/Arch/asdf_arch_atmega328p.c: asdf_arch_pulse_delay_long", "firmware/asdf/src/main.c: main"]}
{"id": "C119", "title": "A keyboard without diodes: exactly when ghost keys appear, and what the row diodes are for", "statement": "The interface boards also support keyboards without diodes at the keys, if the diodes of the rows (D1 to D16) are installed. For the classic and the Sol-20 keyboard with wires in place of the key diodes, whatever switches are closed: a column line is low exactly when closed switches join it to a selected row, and no output that drives a row is pulled low by another one. The keys are read exactly as closed, for every selected row, if and only if no three closed switches are at corners of a rectangle whose fourth corner is open, the middle one having no diode of its own. Two closed switches, or one key and any DIP switches, never show a ghost. Without the row diodes, two closed keys of a column connect the outputs that drive their rows. A keyboard without diodes on which no such rectangle ever occurs sends the computer exactly what a keyboard with diodes sends for the same switches.", "quantifier": "classic and Sol-20 keyboards on the ATmega328P and ATmega2560 interface and encoder boards, every set of closed switches, every controller pin state with the row pins as outputs, every set of low lines on the other plugs", "why_tests_cant": "There are 2^70 and more sets of closed switches, and current can take detours over any number of them; a test presses a few.", "anchors": ["hardware/interface-ascii/README.md: Diodes D1-D16", "hardware/keyboard-classic/kbd-classic.kicad_pcb", "hardware/keyboard-sol/kbd-sol.kicad_pcb", "hardware/interface-ascii/interface-ascii.kicad_pcb", "hardware/interface-ascii-atmega2560/interface-ascii-2560.kicad_pcb", "hardware/apple2-encoder", "firmware/asdf/src/Arch/asdf_arch_atmega328p.c:asdf_arch_read_row", "firmware/asdf/src/Arch/asdf_arch_atmega2560.c:asdf_arch_read_row"]}
