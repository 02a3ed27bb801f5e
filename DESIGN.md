# Formal model of the unified_retro_keyboard (ASDF) firmware

## 1. What is modelled

The Lean 4 project in `lean/` contains an executable model of the keyboard
firmware in `/repo/firmware/asdf/src`, function by function.  Every definition
of the model cites the file and the lines it models.

| Lean module | C source |
|---|---|
| `Verif/Model/Basic.lean` | C arrays, undefined behaviour, constants of `asdf.h`, `asdf_config.h` |
| `Verif/Model/Buffer.lean` | `asdf_buffer.c` |
| `Verif/Model/Repeat.lean` | `asdf_repeat.c` |
| `Verif/Model/Device.lean` | `asdf_physical.c`, `asdf_virtual.c` |
| `Verif/Model/Hook.lean` | `asdf_hook.c` (table part) |
| `Verif/Model/State.lean` | all static variables of the firmware in one record |
| `Verif/Model/Modifiers.lean` | `asdf_modifiers.c` |
| `Verif/Model/Keymaps.lean` | `asdf_keymaps.c`, `asdf_keymap_setup.c.in` |
| `Verif/Model/KeymapData.lean` | generated from `Keymaps/*.c` by `tools/gen_keymaps.py` |
| `Verif/Model/Shipped.lean` | the setup functions in `Keymaps/*.c`, `keymap_list.cmake` |
| `Verif/Model/Core.lean` | `asdf.c`, `asdf_print.c` |
| `Verif/Model/Main.lean` | `main.c` |
| `Verif/Model/Avr.lean` | AVR ports, timer 0 and clock prescaler |
| `Verif/Model/Arch328p.lean` | `Arch/asdf_arch_atmega328p.c/.h` (ports, strobe, row reader) |
| `Verif/Model/Arch2560.lean` | `Arch/asdf_arch_atmega2560.c/.h` |
| `Verif/Model/ArchTest.lean` | `Arch/asdf_arch_test.c` |
| `Verif/Model/Whole.lean` | `main.c` running on the ports of a board: the portable part, the row readers and the output code on the same registers |
| `Verif/Model/Build.lean` | `keymap_list.cmake`, the generator in `src/CMakeLists.txt`, `asdf_keymap_setup.c.in` |
| `Verif/Model/Tick.lean` | timer interrupt, `asdf_arch_tick`, main loop interleaving |
| `Verif/Model/Machine.lean` | `main.c` on the ports of a board with the timer interrupt |
| `Verif/Model/Pcb.lean`, `Verif/Model/Circuit.lean` | parts, plugs and pins of the boards in `/repo/hardware`, and the boards plugged together |
| `Verif/Model/OsiBoard.lean` | the logic chips of the OSI interface, its latches and a read of the computer's bus |
| `Verif/Model/CLang.lean` | the part of C that the firmware is written in: syntax and meaning on the AVR |
| `Verif/Model/CNames.lean`, `Verif/Model/CSource.lean` | the text of `main.c`, `asdf.c`, `asdf_{buffer,repeat,physical,virtual,hook,modifiers,keymaps}.c`, `asdf_keymap_setup.c.in` and `Keymaps/*.c`, generated by `tools/c2lean.py` |
| `Verif/Model/CProg.lean` | the functions that text calls but does not contain; the whole program |
| `Verif/Model/CArch328.lean`, `Verif/Model/CArch2560.lean` | the text of `Arch/asdf_arch_atmega328p.c` and `Arch/asdf_arch_atmega2560.c`, generated by `tools/c2lean.py` |
| `Verif/Model/CHw.lean` | registers, interrupt and circuit that this text runs on; the complete program |
| `Verif/Model/CText.lean`, `CTokens.lean`, `CNameTable.lean` | the source files byte by byte, their tokens, the names in them; generated by `tools/ctext.py` |
| `Verif/Model/CLex.lean`, `CParse.lean`, `CUnits.lean` | the part of C that the firmware is written in, as text: tokens, preprocessor, grammar; the system headers; the files, and the one that CMake generates |
| `Verif/Model/BoardData.lean` | generated from the `.kicad_pcb` files by `tools/gen_boards.py` |

`Verif/Spec/*` holds the small specifications that the property theorems refer
to, `Verif/Lemmas/*` the helper lemmas, `Verif/Props/*` the property theorems
(`C01` ... ) with their non-vacuity examples.

### Modelling decisions

* **Undefined behaviour is an outcome.**  Every model function that touches an
  array, a pointer or a function pointer returns `Except UB α`.  Reading or
  writing outside an array, reading through a null table pointer, calling a
  null or wrongly typed hook, `% 0` and signed overflow are distinct errors.
* **C integers.**  `uint8_t`/`uint16_t` are `UInt8`/`UInt16` (wrap-around as in
  C); `int16_t` sizes and handles are `Int` with explicit range checks; enum
  values used as indices are `Nat`.
* **Observable effects** of the hardware independent part are collected in an
  event trace: `out device value`, the delays, strobe polarity selection,
  `archInit`, and `send code`.  The architecture models interpret these events
  as register writes.
* **Input.**  One main loop pass gets one function `row ↦ byte`: the value the
  row reader returns for each row in this scan.  A scan reads a row at most
  once, so this is fully general.
* **Keymaps** are deep-embedded setup scripts (`SetupCmd`).  The scan engine is
  parameterised by a `Config` (the `valid` switch and the `setup` switch
  generated by CMake) and the shipped configuration is one instance.
* **Loops** with a changing bound (`keyscan`, list walks) take fuel; running out
  of fuel is the error `diverge`, and the theorems show it does not occur.
* **Hooks** are a closed type: null pointer, the null function, the default row
  reader, the default output function, `asdf_keyscan`, and "print this text"
  (the only hooks the shipped keymaps install).  Calling a hook with the wrong
  signature is `badCall`.  Re-entering the scanner from inside a scan is the
  separate error `reentry`.

### Not modelled

* the timing of instructions and delays (a delay is an event; the clock prescaler
  and timer 0 are modelled as in `Model/Avr.lean` and `Spec/Clock.lean`);
  electrical behaviour apart from the simple pin model in `Arch*.lean` and the
  low/high levels on the netlists of C80;
* `vfprintf`: the shipped messages contain no `%`, so `asdf_print` is modelled
  as `asdf_putc` on every character;
* the USART and timer-1 macros;
* the unit test harness in `firmware/asdf/test` (the test *architecture*
  `Arch/asdf_arch_test.c` is modelled);
* files that are not compiled: `Keymaps/asdf_keymap_apple2_matrix.c`,
  `asdf_keymap_defs_apple2.h`, `asdf_keymap_defs_test*.h`;
* of the boards: capacitors, crystals, the supply, the traces themselves (the nets of
  the pads are taken from the board files), the schematics; the
  sound generator, the RESET delay and the shift-lock toggle of `interface-osi`; the
  board `interface-osi/addon`; of `apple2-encoder` its socket J8 for the matrix of an
  Apple II keyboard.

## 2. Trusted base

* Lean 4.33.0's kernel, and the axioms `propext`, `Classical.choice`,
  `Quot.sound` (`AXIOMS.txt`, written by `tools/axioms.py`, lists them for each
  theorem).
  No `native_decide`, no `bv_decide`, no own axioms.
* The reading of the C sources.  The model is hand-written (the key tables are
  extracted by a script); the code is not executed here.  For the portable part and the
  shipped keymaps C88 shows that the text of the C files, run with the meaning of C given
  in `Model/CLang.lean`, does what the hand-written model does.  What is trusted there is
  `Model/CLang.lean` and `Model/CProg.lean`.  The parser `tools/c2lean.py` that wrote the programs
  is not trusted: C96 shows that they are what the text of the files means.  What is trusted
  instead is that `Model/CText.lean` is a copy of the files (each line is a number whose digits,
  base 256, are its bytes; `tools/ctext.py` writes it) and that the front end in
  `Model/CLex.lean`, `CParse.lean` and `CUnits.lean` reads C as a compiler does, including what
  it takes from the system headers (types, register names, five bit numbers, `ISR`).  C89 and C90 do the same
  for the two hardware layers that are compiled for the boards and for the complete program;
  trusted there are `Model/CHw.lean` (what `PORTx`, `PINx`, `cli`, the delays and an interrupt
  do) and that the compiler makes one instruction of each `set_bit` and `clear_bit`.  For the
  test architecture, the unit test keymaps and the boards the hand-written model is trusted.
* AVR facts used by the arch models: writing a one to a `PINx` bit toggles the
  `PORTx` bit (SBI semantics: only the addressed bit), a pin with `DDR=1` drives
  `PORT`, a pin with `DDR=0` is high impedance (with pull-up if `PORT=1`).
* Facts about parts used by the board models (C80 on): the pin numbers of ATmega328P
  (DIP), ATmega2560 (TQFP), 74LS138, 74LS166 and 74LS04 and their function tables
  (`Model/Circuit.lean`, `Spec/Circuit.lean`); pad 1 of a diode is the cathode; a line
  is low if something pulls it low through closed switches and diodes in their forward
  direction, otherwise its pull-up keeps it high; resistors do not pull a line low.
* `int` is 16 bit (AVR) where this matters (overflow in `asdf_buffer_new`).

## 3. Plan per property

(The full English statements are in `properties.jsonl`.)

| Id | Model part | Proof |
|---|---|---|
| C01 | Buffer | refinement of the ring buffers to `List`-queues, induction over operation lists |
| C02 | Buffer | corollary of the refinement: the abstract queues are separate by construction |
| C03 | Buffer | invariant (disjoint regions in the pool); false for negative sizes: witness + `_partial` |
| C04 | Buffer | decision logic of `new` via the refinement; invalid handles |
| C05 | Core | refinement of `next_code` to two queues |
| C06 | Core | induction over the text against a recursive spec `expand` |
| C07 | Core+Shipped | finite table of messages + C06 |
| C08 | Main | case analysis of `tick` |
| C09 | Main | induction over pending length |
| C10 | Core | invariant by induction over scans |
| C11 | Core | scan = fold over keys; per-key projection commutes with a one-key debouncer |
| C12 | Core | false: a cumulative counter; witness + `_partial` (never reported after fewer than 10 samples; 10 consecutive always suffice) |
| C13 | Core | one-key debouncer, induction on remaining count |
| C14 | Core | history of events of the one-key debouncer |
| C15 | Core | case analysis of `activate_key` composed with the buffer refinement |
| C16 | Core | false (NOTHING is queued, takes a buffer slot and steals repeat): witness + `_partial` |
| C17 | all | false for keymaps 4 and 5 (`keymaps[4]` indexed by keyboard number): witness + `_partial` with DIP switch 2 open |
| C18 | Keymaps+Shipped | lookup equation from the setup scripts, finite tables |
| C19 | Repeat+Core | closed form of the timer by induction on hold duration |
| C20 | Repeat+Core | timer stays 0 |
| C21 | Repeat | "restores" true; "every press repeats fast" false when the timer is already ≤ 66: witness + `_partial` |
| C22 | Core | invariant on last_key; stale repeat when a modifier changes: witness + `_partial` |
| C23 | Modifiers | case analysis + invariant |
| C24 | Modifiers | refinement to a history function |
| C25 | Modifiers+Device | trace equation |
| C26 | whole | false: witness; `_partial` between keymap switches |
| C27 | Shipped | SHIFT/CTRL/CAPS true by finite tables + lookup theorem; REPEAT false: witness + `_partial` |
| C28 | Device | invariant: free list and virtual lists partition the devices |
| C29 | Device | case analysis |
| C30 | Device | list walk = abstract list |
| C31 | Device | trace and shadow equations |
| C32 | Shipped | false: no drive event after selection; witness + `_partial` (shadow has the value) |
| C33 | Hook | finite map laws |
| C34 | Keymaps | case analysis |
| C35 | Keymaps | determinism: result depends only on the setup script |
| C36 | whole | false (order dependent): witness + `_partial` |
| C37 | whole | boot run for every DIP setting; UB for 4..5 (after selection): `_partial` |
| C38 | Shipped+Core | false (switch 4 types NUL): witness + `_partial` |
| C39 | Shipped | finite tables by kernel evaluation |
| C40 | Shipped | false (classic and classic_caps print the same text): witness + `_partial` |
| C41 | Arch328p | shift register model, bit-level lemmas |
| C42 | Arch2560 | bit-level lemmas |
| C43 | both | register trace |
| C44 | both | all intermediate register states |
| C45 | Tick | LTS invariants; "every tick leads to a scan" false: witness + `_partial` |
| C46 | ArchTest | automaton vs. history spec |
| C47 | Core | symbolic boot |
| C48 | whole | scan fold + timer closed form + buffer refinement |
| C49 | both boards | register trace of the strobe: SBI build vs. literal read-modify-write; witness + `_partial` |
| C50 | whole | history of the strobe switch; false at power-up and after a keymap switch: witness + `_partial` |
| C51 | clock, timer | register values and prescaler arithmetic; false with the CKDIV8 fuse: witness + `_partial` |
| C52 | ArchTest | automaton; false for the open-drain setters: witness + `_partial` |
| C53 | ArchTest | automaton; false (a delay advances every detector): witness + `_partial` |
| C54 | whole | history of the autorepeat switch; false at power-up: witness + `_partial` |
| C55 | whole | refinement of `boot` and `run` to the abstract keyboard `Spec/Machine.lean` by forward simulation |
| C56 | whole | invariant of the abstract keyboard (resting level, sole owner), carried over by C55 |
| C57 | Shipped + whole | finite tables by kernel evaluation, run time by C55 |
| C58 | whole | log of the abstract keyboard; false (17 keys at once): witness; subsequence for every run, equality while there is room: `_partial` |
| C59 | whole + both boards | the portable run and the register run move in step (`Model/Whole.lean`); path of register states, no strobe edge outside `send` |
| C60 | whole + both boards | invariant of the LED pins along the path, combined with C26; false after a reset of the ATmega2560: witness + `_partial` |
| C61 | whole + both boards | C58 and C59 with "the strobe switch is never moved, so negative polarity is never selected"; false (17 keys at once): witness + `_partial` |
| C62 | keymap list generator | every uniform list satisfies the conditions of C55 without excluded keys |
| C63 | core + Kb | the abstract keyboard's output queue shrinks by one per pass; C55 carries it to the firmware |
| C64 | core + Kb | two abstract keyboards that differ only in debounce counters below ten stay alike; C55 on both sides |
| C65 | interrupt interleaving (Tick) | induction over steps, C55 at every scan; `scanned` lists the readings taken |
| C66 | core + Kb | invariant of the abstract keyboard: everything sent or waiting comes from a table or a message; C55 |
| C67 | core + Kb | invariant: no line feed without its carriage return in what was sent and waits; C55 |
| C68 | keymap tables | kernel computation over all keys; run-time form through C55; false for two keys, exact rule for all in `C68_exact` |
| C69 | keymap tables | exact character sets by kernel computation; typing through C48 |
| C70 | core + Kb | invariant: the held flag equals the accepted state of the only SHIFT key used; false for two |
| C71 | keymap tables, hooks | kernel computation; false for keymaps 3, 4, 5 |
| C72 | all | the shipped and the four-keymap firmware agree key by key until the switch closes; afterwards every lookup fails and the count of switch 2 goes down with every scan |
| C73 | all | effect of every key on polarity and repeat mode, scan split at the switches, induction over the readings; transferred by C72 |
| C74 | whole machine | the board under an interleaving is the board after the passes made; C59 |
| C75 | whole machine | row by row agreement of the two firmwares on the registers, as C72; C74 |
| C76 | OSI row reader | the pin states after each access, one pin at a time; a separate model of the keyboard's latch |
| C77 | exact loss rule | the two queues as a function of the typing log; induction over the passes, transfer by C55 and C72 |
| C78 | what the computer reads | strobe and data lines after each register access; induction over the path of events and row reads; composed with C74 and C77 |
| C79 | exact account of ticks | a sum over the interleaving of the ticks lost; induction over the steps of the machine with the interrupt |
| C80 | Pcb, BoardData, Circuit | low levels as an inductive reachability relation on the netlists; each net gets a role (row, column, switch node, …) closed under the links, checked for the whole netlist by the kernel; the rest by case analysis |
| C81 | Shipped, BoardData | finite tables of labels and codes checked for all keys; end to end by C48 and C75 from computed quiet states |
| C82 | Circuit, BoardData, Arch328p, Arch2560, Whole | finite check that each socket net has one driver and nothing connected to it; what the driver means from the register model; the last code by induction over the events |
| C83 | Circuit, BoardData, Arch328p, Arch2560, Whole | closed sets of nets around each cathode with one driver; what was switched last by C60 |
| C84 | the nets of the ACE 1000 board with both interfaces, closed keys as switches, diodes as one-way links | false: from every row line current only leaves, so a key joins its column line only to a net from which nothing else can be reached (a map of nets that every link respects, decided over the whole list of links); with the diodes of the keys turned round, a way for each of keys 1 to 72 |
| C85 | BoardData (adapter) | the nets of all pairs of lines compared by the kernel over the whole board; the keyboard's side from C82 |
| C86 | BoardData (osi), OsiBoard, Circuit | the logic chips evaluated on the netlist by case analysis of the control lines with the data lines symbolic; the latches by induction over the bus cycles; the matrix by roles of nets as for C80 |
| C87 | A socket's lines seen by a computer (`Spec/Computer.lean`), the closed switches of a board for every row read | Composition: closed switches to rows read (C80), the machine with interrupts (C75), what an edge-triggered host reads (C78), lines of the sockets (C82); invariant that strobe and data pins stay outputs after initialisation. |
| C88 | The C text of the portable firmware, translated by a parser (`tools/c2lean.py`) into the syntax of `Model/CLang.lean`, which also gives its meaning on the AVR (16-bit `int`, conversions, pointers, undefined behaviour); `main` is run from reset against the answers of the hardware (`Model/CProg.lean`) | Refinement function by function: a relation between the static variables of the C program and the state of the model (`Spec/CSource.lean`), one lemma for each of the C functions, loop invariants by induction, calls through pointers by the hook table; then C72 and C77 are carried over |
| C89 | The text of `asdf_arch_atmega328p.c` and `asdf_arch_atmega2560.c`, translated by the same parser (`Model/CArch328.lean`, `Model/CArch2560.lean`), executed on the registers, the shift register and the timer interrupt of `Model/CHw.lean`; an interrupt may come before any access | One lemma per C function for every state, loop invariants for the row reader and the delay; `Serves` in `Spec/CHw.lean` says that text and board model agree; the text of `set_bit`/`clear_bit` against the instructions by the table of all bytes and bits |
| C90 | The whole text (C88 and C89 together) from reset on either board with an arbitrary outside world (`Outside`) | A general simulation theorem for the interpreter carries each function of C88 over to the board; the scan and the main loop by induction, the main loop on the number of looks at the timer flag; then C75, C78, C87 are carried over |
| C91 | The abstract keyboard of C55 against a typist (`Spec/Typist.lean`) who knows only which keys are down and which modifiers are in force | Invariant over the keys of a scan and over the scans: the code due for repetition is that of a key that has been down for a time that, with what is left of the delay, makes up the delay; then C77 and C90. Key strokes (`Spec/Strokes.lean`): phases of constant readings, then induction on the strokes |
| C92 | The key tables of keymaps 0 to 3 and the run of C66 | `decide +kernel` over all entries, all modifiers and all codes; C66 for the runs; C91 for the converse |
| C93 | The buffer model of C01-C03 with every 16-bit size, against the list of sizes granted (`Spec/Pool.lean`) | Invariant: descriptors follow the list of granted sizes, each with a positive size lies in the pool; undefined behaviour exactly at a grant below a negative sum |
| C94 | The abstract keyboard of C55 against a panel (`Spec/Locks.lean`) that knows only accepted movements and the positions of SHIFT, CTRL, CAPS and two switches | Simulation key by key: `decide +kernel` over every entry of every table shows that all other keys leave the panel alone, and what selecting each keymap does; then C72 for the firmware, C60 and C75 for the boards |
| C95 | The abstract keyboard of C55 during readings without accepted change; the number of repetitions as arithmetic (`repsIn`) | Induction over the keys of a scan and over the scans, with the delay left as the state; the queues stay at one code at most |
| C96 | The text of 45 files of the firmware, byte by byte (`Model/CText.lean`), and a front end for the part of C they are written in: tokens (`Model/CLex.lean`), preprocessor, grammar and initialisers (`Model/CParse.lean`), system headers, CMake substitution and the list of files (`Model/CUnits.lean`) | The kernel evaluates the front end on the whole text of every file, for both controllers, and compares the result with the programs of C88 and C89; linking by cases on the name; then C90 is carried over |
| C97 | The record of the run of C96: the registers after each access, with the microseconds waited on purpose (`Model/CHw.lean`); what it shows on strobe and data lines (`Spec/Timing.lean`). The time of the instructions themselves is not modelled, so the times are lower bounds | The simulation of C90 keeps the whole record: it is put together of hardware events and row reads; induction over it, with the effect of each event on the wires (C78) and the pauses of the abstract keyboard (C05) |
| C98 | The record of the run of C96 on one pin and the periods in which it is in a given state (`Spec/OutputTiming.lean`); times are lower bounds as in C97 | Induction over the record with the phases of a pulse (C56), and an invariant of the abstract keyboard: an output without an owner is not driven, so nothing else acts on the pin |
| C99 | Movements of keys with a bounce of up to 9 scans (`Spec/Bounce.lean`) and the same in the time of the outside world, with nothing assumed about a contact while it bounces (`Spec/Fingers.lean`); the text is read off the legends of the keys | The debouncer accepts each change exactly once, in the steady part; induction over the movements with the keys that are down, CAPS LOCK and the character typed last gives `Tidy` and `Brief` of C103; the scans of a run find exactly such movements because each row is read in order of time; then C77, C90 |
| C100 | The looks of the main loop at the timer flag, as states of the hardware under the C interpreter (`Spec/Looks.lean`) | Runs of the interpreter do not depend on its bounds unless these are hit (`run_bounds`), and the run up to a look does not depend on what the world does later (`run_alike`); one turn of the loop from look to look (`head_step`), induction over the looks |
| C101 | Keys moved one after the other, each right after the look that finds 20 more scans done; the world is built up key by key | By C100 the next 20 scans come in every world, and the part of the run before a movement does not change when the movement is added; then C99 for the finished world |
| C102 | Runs of the text that end in an error, with the errors of the interpreter told apart (`Spec/Faults.lean`) | The refinement of C90 extended to failing runs: the two programs fail together with the same error (`ORel`, `hw_rows`, `head_step`); two kinds of states are closed under passes (`Sane`, `life_sane`); a failing run is the same for all larger bounds (`run_bounds`); C75 for the board model |
| C103 | The typist of C91 with the character typed last and its key as part of the state (`Spec/Loose.lean`); the movements of C99 follow the same rule | Invariant over the keys of a scan: the code recorded as last is the typist's last character, and if its key is down the delay started when it was accepted; the condition is shown to be needed by a run of the model (42 scans by the kernel, then C48) |
| C104 | The typist of C103 on positions of the matrix, with the keymap and the closed DIP switches as parameters (`Spec/Movers.lean`); the keys of each character by search (`Spec/Keystrokes.lean`) | The state after the first ten scans is computed by the kernel for all 32 settings; from there C103; that each character of each keymap has keys is decided over the whole tables, and the DIP switches that stay closed are shown to make no difference |
| C105 | Keys of any board moving in time, over closed DIP switches (`Spec/AnyBoard.lean`) | As for C99: the readings of the scans are those of movements scan by scan, a bouncing position giving the bit that was read; then C104, and C90 for the boards |
| C106 | Which characters are on the keys of a board (`Spec/AnyText.lean`) | That each of them has keys on the board is decided over both place lists, the four keymaps and all codes; the world with the keys is built along the run as for C101; then C105 |
| C107 | Strokes that are held, scan by scan and in time (`Spec/Repeats.lean`, `Spec/SpotDeeds.lean`) | The log of each scan in which only one key is held is empty or its code; the repeat counter is followed through press, hold and release bounce with the arithmetic of C95; strokes in time are strokes in scans as for C105; then C77, and C90 for the boards |
| C108 | clock, timer (as C51) | the clock prescaler of reset is kept by every later operation; the timer's period times the prescaler, for all 16 values |
| C109 | both boards (as C49) | bit by bit: the literal read-modify-write of PINB toggles what reads high, twice |
| C110 | Acts: modifiers, strokes, function keys, scan by scan and in time (`Spec/Calls.lean`) | As C107; a function key changes neither modifiers nor the last code, prints in the scan of its press and nothing at its release; a message leaves the queue with one character in each scan; then C77, and C90 for the boards |
| C111 | keymap tables | complete enumeration in the kernel |
| C112 | keymap selection, both boards (as C32, C44) | events by induction over the setup statements; each pin separately, all its states |
| C113 | simulated board (as C46, C52, C53) | the events as the board takes them; induction over the events |
| C114 | repeat timer (as C19-C21) | induction over the history; the mode is fast exactly if such a press exists |
| C115 | C110 with movements of the two keymap switches (`Spec/Swaps.lean`) | As C110, with the keymap as part of the session; the setup lists of the keymaps 0 to 3 keep every modifier except caps lock, and every modifier key keeps its meaning; DIP switch 2 stays open, so C77 and C90 apply |
| C116 | C104 without a limit for the time that keys are held, with REPEAT and the autorepeat switch (`Spec/Rolls.lean`): the closed readings of the key that repeats, before and after each movement takes effect | The effect of one movement on the repeat timer, with the order in which keys are read within the scan; the queue holds at most two characters; induction over the movements, then C77 and C90 |
| C117 | An interpreter of the C text in which a call above level `n` does something arbitrary (`Spec/Depth.lean`) | With 23 levels the result does not depend on it: an interpreter that fails there is matched step by step (`Lemmas/Depth.lean`), and by C102 it does not fail |
| C118 | The record of the waits in a run of the C text, its sum, and the codes of C77 (`Spec/Waits.lean`) | The run is a sequence of hardware events and row reads with known waits; the number of row reads follows from the number of register accesses, nine reads in each scan (`Lemmas/Waits.lean`); as many delays of pulses as presses by induction over the run (`Lemmas/PulseCount.lean`) |
| C119 | The nets of C80 with wires in place of the key diodes; lines joined by closed switches (`Spec/Ghosts.lean`) | A role for every net, checked over all links of each board in the kernel, makes the nets refine the row and column lines; rectangles by induction on the way of the current (`Lemmas/Ghosts.lean`); nothing of the keyboard is connected to the lines of the sockets (`Lemmas/GhostText.lean`), and C90 |

## 4. Findings about the code

Each finding is a theorem about the model (named in brackets) or follows from
reading the code while modelling it (marked *read*).

Keymaps and tables

* The code tables live in `keymaps[4]`, indexed by keyboard number.  The two
  keymaps numbered 4 and 5 are selected without their tables being stored; the
  next key lookup reads outside the array (C17_false, C17_out_of_bounds,
  C18_false, C37_false, C37_next_scan_fails).  It happens exactly when switch 2
  is accepted as closed while switch 1 is open, within ten scans (C72_exact,
  C72_unsafe); settings 6, 7, 14 and 15 are safe and act as keymaps 2 and 3.
  So the setting meant for the Sol and Franklin ACE keymaps (DIP 3 closed, DIP 2 open)
  does not work on any keyboard; it is the only way to make the complete program
  leave its memory objects (C102_only, C102_keyboards).
* The keymap depends on the order in which DIP switches are operated: a switch
  ignored because the number it spells does not exist is never looked at again
  (C36_false).
* DIP switch 4 has code 0 and types NUL, with autorepeat (C38_false); closed at power-up
  it makes the keyboard send NULs as long as no key is pressed (C38_nul_stream).
* `classic` and `classic_caps` print the same identification (C40_false).
* The identification function is out of reach in some keymaps (`apple2_caps`
  USER_9, `sol` and `ace1000` USER_10) *read*.
* REPEAT sits in only some tables of the apple2 and Sol keymaps; releasing CTRL
  first leaves fast repeat on (C27_false, C27_stuck_repeat).
* A keymap switch keeps the state of the debouncers, queues and modifiers, but
  calls the hardware initialisation again: a millisecond tick may be lost
  (C45_lost_at_switch) and the strobe polarity is reset (C50_lost_at_switch).

Switches and outputs at power-up

* An open strobe-polarity or autorepeat switch has no effect until it has been
  closed once (C50_false, C54_false); the firmware acts on movements of these
  switches only, so positions set before power-up never count (C73_unmoved).
* Initial values of outputs are recorded but never driven: `asdf_virtual_sync` is
  never called (C32_false, C32_nothing_driven).
* Setups that "activate" caps lock in fact toggle it, and a setup that does not
  touch it leaves an indicator that was never driven (C26_false).
* `asdf_modifiers_init` and `asdf_apply_all_actions` are never called *read*.

Keys

* Debouncing counts samples cumulatively; ten bouncing samples suffice
  (C12_false).
* A NOTHING key is queued as 0xA0, delays other keys by a pass and stops their
  repetition (C16_delays_other_keys, C16_stops_repeat).
* A key released under another modifier leaves its code recorded as last pressed;
  the next press of that code does not restart the repeat delay (C19_false). So a letter typed twice can
  arrive three times although no key is held for long (C103_condition_needed).
* REPEAT is ignored when a repetition is due within 66 scans
  (C21_repeat_key_can_be_ignored).
* Two held keys with the same code advance the repeat timer twice per scan
  (C95_double_rate: CTRL with M and RETURN).
* Two SHIFT keys share one flag: releasing one ends the shift of the other
  (C70_false).
* Keymap 2: caps lock disables the DEL key and turns the `^` key into REPEAT
  (C68_false).
* No keymap can type all ASCII codes; the classic keymaps have no `^` and `_`
  (C69_false, exact lists in `Spec.missing`).  NUL on keymaps 2, 3 and 5 is only
  found under a DIP switch.  In no history do the classic keymaps type `^`, `_`, 0x1E
  or 0x1F (C92_exactly); keymaps 0 to 3 never type 0x1E or 0x1F (C92_never_four).
* Keymap 3 assigns the Applesoft test to function 9, which has no key there (keymap
  2 uses function 3); keymaps 4 and 5 define messages without keys (C71_false).
* Function code 11 does nothing *read*.

Buffers and messages

* `asdf_buffer_new` accepts a negative size (C02_negative_size_interferes,
  C03_negative_size_unsafe).
* `asdf_putc` may store the CR of a line end and drop the LF: the computer then gets a
  message without its line feed (C77_line_end_cut).
* Keystrokes wait while a message is sent.
* Seventeen keys accepted in one scan: the seventeenth code is lost (C58_false).

AVR boards

* The strobe is toggled by `PINB |= bit`.  As a single SBI instruction this
  toggles the strobe only; as a read-modify-write it toggles every high pin of
  the port (C49_false, C49_led_goes_out).
* Selecting the strobe polarity makes an edge that a host may take for a
  keystroke (C43_polarity_selection_is_seen).
* `CLKPR` is written with a bit number instead of a bit mask, so the prescaler is
  never changed; with the CKDIV8 fuse a "millisecond" is eight (C51_false).
* ATmega2560: the LEDs are lit by a low pin and a reset leaves the pins low, so all
  lamps are lit until they are first switched; the caps-lock lamp is lit after a
  reset although caps lock is off (C60_false, C60_witness).
* The tick flag is read and then cleared; an interrupt in between is lost
  (C45_false).
* ATmega2560: two row lines are low for a moment while a row is selected
  (C42_transient_two_lines); rows from 31 are an undefined shift
  (C42_row_31_undefined).
* Test board: all open-drain setters write the same output (C52_false); a delay
  is seen by all pulse detectors (C53_false).
* ATmega2560, OSI row reader (installed by no shipped keymap): the controller still
  drives the bus when the keyboard starts to (C76_contention), and the column
  pull-ups stay off afterwards, so that the DIP switches and other rows from 8 on
  float (C76_pullups).
* Moving the strobe polarity switch while the keyboard is on makes an edge-triggered
  computer read a character that was not typed: the code sent last is still on the
  data lines when the strobe moves to its new idle level; a keymap change that resets
  the polarity gives a NUL (C78_reads, C78_extra_character).
* The repository's own unit tests leave defined behaviour: with keymaps 4 to 10
  selected, two tests of `test_asdf_keymaps.c` and one of `test_asdf_hook.c` read past
  the end of `keymaps[4]` (Tests.dip_switch_tests_read_out_of_bounds,
  Tests.each_scan_test_reads_out_of_bounds); their passing says nothing.
* The Franklin ACE 1000 board as drawn: the diode of each key (D1 to D74) and the diode
  of its row (D75 to D82, D84) have their anodes together on the row net, so no current
  can flow through any key and none can be read (C84_keys_have_no_effect, C84_false).
  With the diodes of the keys turned round, keys 1 to 72 can be read (C84_turned_partial).
  The row of keys 73 and 74 (net `Row10`) is not on the connector.
* The Apple encoder's socket J8 uses row lines 9 to 11 for some keys of the Apple II
  matrix.  No shipped keymap scans a row above 8, and the keymap for this matrix
  (`asdf_keymap_apple2_matrix.c`) is not compiled.
* The README of `interface-ascii` says that a 74LS07 (not inverting) is typically
  installed as U5.  The lamps and OUT2 of C82 and C83 need the inverting 74LS04 of the
  board; with a 74LS07 they have the opposite sense.  It also says that the serial port
  shares the top two data bits; on the board it is D0 and D1.
* The README of `keyboard-sol-integrated` says that CTRL with MODE SELECT resets the
  computer; in the keymap it is CTRL with REPEAT, and CTRL with MODE SELECT types 0x80.
* `asdf_arch_tick` reads the tick flag and then clears it; an interrupt between the two
  is lost.  A timer whose interrupts all fall there is never heard: the program
  counts them and never scans (C100_lost).  With a real timer a lost tick costs one
  millisecond of a scan interval.
* A keyboard without diodes at the keys, which the README of `interface-ascii` allows:
  the DIP switches share its columns, so with one DIP switch closed two keys can make
  an open one appear closed, and with it select another keymap (C119_dip_ghost).  SHIFT with V and M overlapping
  makes TAB appear pressed (C119_shift_ghost).  The
  row diodes D1 to D16 prevent only that outputs are connected (C119_drivers_328,
  C119_fight).

## 5. Checks of the model against the unit tests

`lean/Verif/Tests/` replays the repository's unit tests on the model, call by call, with
the test keymaps extracted by `tools/gen_testmaps.py`.  These are checks that the model
behaves as the authors of the code expect, not properties; no claim in MANIFEST.json
rests on them.  All tests of `test_asdf_buffer.c`, `test_asdf_repeat.c`,
`test_asdf_modifiers.c`, `test_asdf_virtual.c` and `test_asdf_keymaps.c` hold of the
model, except for the rounds that are undefined (section 4); of `test_asdf_hook.c` the
test that installs functions other than those of `HookFn` is left out; of `test_asdf.c`
(which CMake does not build) the longest three are left out.
