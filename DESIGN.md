# Verification design: xytronic-lf soldering station firmware

The code under study is `/repo/firmware` (C for AVR, int = 16 bit). It is read as
text only. The Lean model is a hand translation; every definition cites the file and
lines it follows and states where it simplifies.

## 1. How C is modelled

* Every C integer is a Lean `Int` (loop counters and indices sometimes `Nat`);
  flag bytes, ports and bit masks are `BitVec 8`.
* A computation that can run into undefined behaviour has type `Option α`;
  **`none` means undefined behaviour** (signed overflow, division by zero, array
  access out of range, call of a missing handler). Signed arithmetic goes through
  `ck16`, `ck24`, `ck32`, which give `none` when the exact result does not fit.
  Unsigned arithmetic and narrowing casts wrap.
* `/` is `Int.tdiv` (truncating), `>>` on a signed value is the floor division
  (GCC arithmetic shift), `x << 6` is `none` when the result does not fit int32
  (GCC defines the shift of negative values).
* Float constants are passed through `FLOAT_TO_FIXPT` at compile time; the model
  uses the rounded integers (none of them is near a rounding tie).
* Build configuration (`CONF_*`, board type, EEPROM size) is a structure `Conf`;
  theorems quantify over it. `CONF_PRESETS` is fixed to 1 (finding F7).
* The whole firmware is a transition system: one event is one main-loop work call
  or one interrupt, in **any** order and number. Sub-statement interleaving of
  interrupts is modelled separately where it matters (timer_now, EEPROM writer);
  elsewhere the code disables interrupts or the shared data is byte sized. That the other
  interrupts may be taken before or after a work function is C79; ticks inside the work
  functions are modelled in `Model/Inside` (C89).

## 2. Trusted base

* the Lean 4 kernel and the axioms `propext`, `Classical.choice`, `Quot.sound`
  (section 6 lists `#print axioms` output per theorem);
* the hand translation from C to Lean (checked by line citations and mutation
  testing, see `seeded/LOG.jsonl`), and the reading of AVR-GCC semantics above;
* hardware behaviour stated in the model comments: ADC results are 0..1023,
  EEPROM address wrap, EEPROM byte programming, CTC period, one interrupt per event; what the
  bits of the configuration registers do (`Spec/Hw`). That fewer than 65536 conversions are
  counted in one averaging window (`possible`) is proved from the rate of the ADC in C84.

* for C70-C76 the speed assumptions of `Spec/Loop`: the watchdog (250 ms) is reset in
  time or else resets the device, a conversion takes at most 1 ms, an EEPROM byte at most
  4 ms; a work function takes effect at one tick (C89 compares this with
  ticks inside; C98 proves C70, C71, C74 and the temperature part of C73 with them, C109 does so for C107). (With debug output the watchdog is
  also reset while waiting for the serial line, there the 250 ms are an assumption.)

`Tests/Repo` evaluates on the model all 242 checks of the repository's own C tests
(firmware/tests/*.c); they agree. These are tests of the translation, not proofs.

Not modelled: electrical behaviour, ADC multiplexer settling,
UART bit timing, GCC code generation, `#if 0` branches, the version of the macros for other
FIXPT sizes.

## 3. Properties

For each: what is modelled, how it is to be proved.

| id | model | method |
|----|-------|--------|
| C01 C02 C03 C05 C06 C09 | `Model/Fixpt` (fixpt.c, fixpt.h) | exact equation with a rational/integer spec, linear arithmetic |
| C04 | same | false of the code: exact result proved, negation by witness, `_partial` |
| C07 C08 | `Model/Util` | loop invariant; case split on signs |
| C10 C11 C12 | `Model/Scale` | closed form for `mul_div`, then rounding bounds and monotonicity of rounding |
| C13 | `Model/PwmCurrent` | instance of C11 |
| C14 C15 | `Model/Ring`, `Model/Bitmap` | modular arithmetic, induction over operation lists |
| C16 C17 | `Model/Filter` | invariant over input lists; convergence measure |
| C18 C19 C20 | `Model/Timer` | modular arithmetic; induction over poll lists |
| C21 | `Model/TimerAtomic`: byte-wise reads as micro steps with interrupts in between | invariant over all interleavings |
| C22 C23 | `Model/Pid` | invariant over operation lists; equation with the formula |
| C24 C28 | `Model/Settings` byte image and writer ISR | induction over the 64 bytes |
| C25 C26 | `Model/Settings` boot scan, ring of slots, crash | ring invariant "serials are consecutive up to the newest slot", preserved by every store and every crash |
| C27 | same, timer | induction over schedules |
| C29 | same | false of the code: witness; the claim for undisturbed stores, and the claim byte by byte, proved as `_partial` |
| C30 | `Model/Presets` | finite ring, frame lemmas |
| C31-C34 | `Model/Measure` | ghost list of samples as invariant; step relation |
| C35-C42, C56, C57 | `Model/ContrCurr`, `Model/ContrTemp` inside `Model/Sys` | inductive invariants of the transition system |
| C43-C46 | `Model/Menu` inside `Model/Sys` | inductive invariants; finite case analysis of screens |
| C47-C49 | `Model/Menu` rendering | characters as lists with an explicit buffer length, decimal digit lemmas |
| C50 | `Model/Buttons` | invariant over sample lists |
| C51-C53 | `Model/Sseg`, `Model/Display` with a trace of port writes | invariant over the trace |
| C54 C58 | `Model/Debug` | invariant; digit bound |
| C55 | `Model/Sys` | total-correctness (no `none`) version of the invariant |
| C59 | `Model/Sys` boot | computation over symbolic EEPROM |
| C60 | `Model/Filter` | false of the code: witness, exact behaviour as `_partial` |
| C61 C62 | `Model/Menu`, `Model/Display` | invariants of the transition system |
| C63 | `Model/Measure` inside `Model/Sys` | ghost time of the window start, invariant |
| C64 C65 | `Model/ContrTemp`, `Model/ContrCurr`, `Model/Pid` inside `Model/Sys` | effect lemma of an evaluation, composed with C23, C41, C56, C57; `Proofs/Memory`: what keeps the memory between the runs |
| C66 | `Model/Settings`, `Model/Presets`, `Model/Menu` inside `Model/Sys` | effect lemma of every event on the settings, ring invariant carried through reboots |
| C67 C68 C69 | `Model/Menu`, `Model/Buttons`, `Model/Presets` inside `Model/Sys` | effect of each button block of a sample on screen, ramp, settings and debug switch, composed; invariant tying the waiting ramp to the history of the pins |
| C70-C76 | `Model/Loop`: the order of main_loop_once, real time, interrupts in between | invariants bounding when each statement, conversion and store comes next; the timers cannot be misread in the meantime |
| C77 | `Model/Settings` inside `Model/Sys` and `Model/Loop` | the invariant of the EEPROM ring (as for C66) carried through every event and reboot, with the limits of the settings |
| C78 | `Model/Loop`, controllers | invariant: while the controller is on and the sensor is not lost, its last run is not older than the last evaluation; C71 and C56_partial |
| C79 | all | each function of the menu, buttons and display path commutes with replacing the interrupts' data; `measure_work` commutes with replacing the state of the settings module |
| C80 | `Model/Loop`, `Model/Pid`, `Model/ContrTemp` | induction over the runs with the law of C64: bounds for the integral and the previous error; ghost time of the channel selection for the spacing |
| C81 | `Model/Loop`, `Model/Settings` | invariant over the list of programmed bytes: number of stores since, counted round the ring, and start of the latest store |
| C82 | `Model/Debug`, `Model/Host` | induction over the operations; lemmas about the Python string functions on words without white space |
| C83 | `Model/Hw` | invariant which ties the registers to the state of the measurement; arithmetic on C13 |
| C84 | `Model/Loop`, `Model/Main` | induction over the execution; count bounded by the rate times the time since the channel was selected |
| C85 | `Model/ScaleAlt` | closed forms with rounded division; ties by a shift lemma; complete tables for the shipped constants |
| C86 | `Model/Loop`, `Model/Menu` | history of temperatures along the loop; view invariant (C61) between two calls of `menu_work`; C73 for the error |
| C87 | `Model/Serial`, `Model/Debug`, `Model/Hw` | outstanding work of the transmitter as a potential; compare flag as a one-place buffer for ticks |
| C88 | `Model/Reports` (the controllers and the measurement with their reports), `Model/Debug`, `Model/Host` | erasure of the reports; invariant over the operations on the debug interface |
| C89 | `Model/Inside` (the work functions with ticks before every reading of the timer) | simulation: times at most the ticks apart, the rest equal; invariant closed under changes of times |
| C90 | `Model/Int24` (the 24-bit classes of the tests) | operator by operator against exact integer arithmetic |
| C91 | `Model/SimSensor` (sensors and heater of the simulator) with `Model/Measure*`, `Model/PwmCurrent` | rational intervals |
| C92 | `Model/SimUart` (UART and debug reader of the simulator) | induction over the chunks; a text is divided into lines in only one way |
| C93 | `Spec/MenuDoc` (the diagram), whole system | invariant over the samples: who ramps in the temperature or preset screen has held the button for a second |
| C94 | `Spec/ContrDoc` (the diagram), whole system | system invariant; witnesses by computed runs |
| C95 | `Spec/AnyEeprom` (running with any EEPROM), whole system | part of the system invariant that does not depend on the settings, with partial correctness; witnesses by computed runs |
| C96 | `Spec/Settings` (history of stores) | invariant of the single place: bytes below the offset are new, the others old; witnesses by computed runs |
| C97 | `Spec/SimIrq` (steps of the two threads) | invariant of the handshake by cases; a count of the steps left until the I/O thread publishes the request |
| C98 | `Model/LoopIn`, `Spec/LoopIn`: main_loop_once with ticks inside the work functions and conversions that follow them | the invariants of C70-C74 with deadlines widened by the ticks of one call, a call with ticks inside being one at an instant with times at most that far off (C89) |
| C99 | `Model/ContrCurr`: contrcurr_set_enabled | unfolding; the percentages by the complete table of a `uint8_t` |
| C100 | `Model/SimSettings`, `Spec/SimSettings`: simulator_setting_access | the invariant of the running firmware is kept by every read and by every write within the limits |
| C101 | `Spec/IronAlt`: contrtemp_button_handler, the build variants | idle mode as a function of the samples taken since boot |
| C102 | `Spec/LoopMux`: display_work in the main loop, with the history of lightings | each digit is lit in time, in turn, whatever else happens |
| C103 | `Spec/LoopIron`: the modes the samples of the iron button require, in the main loop | idle mode is entered in time, once per press, and boost advanced on release, with no assumption on wrapping times |
| C104 | `Spec/Cold`: the main loop while the iron stays too cold | the integral winds up in time and the demand follows |
| C105 | `Spec/NoDemand`: the main loop while the set point of the current controller is 0 | at most 0.5 A within a period; off when the integral has drained |
| C106 | `Spec/LoopRamp`: the value of a held button as a function of the time since the ramp began, in the main loop | the value follows the schedule of the steps, is never ahead, and lags only as far as the loop does |
| C107 | `Spec/Ui`: the whole user interface as a machine of button samples and calls of `menu_work`, with unbounded times | the firmware agrees with the machine at every moment, for every combination of buttons |
| C108 | `simulator/circuits`: RC network, voltage divider, sine and PWM generators, over the real numbers | the steps solve the differential equation exactly, the outputs are the signals at the total time |
| C109 | the machine of C107 beside the loop with ticks inside the work functions (`Spec/UiIn`): each thing happens at some time during the call, in the order of the code | the firmware agrees with it at every moment; with no tick inside it is C107 |
| C110 | the storing of the settings (C72) in the loop with ticks inside the work functions; the writer's steps carry their own times (`Spec/StoreIn`) | started 1000 ms to 1000 ms + 2W after the last change, one store at a time, everything stored after 1000 ms + 2W + 128B of quiet |
| C111 | the lost current measurement (C32, C73) in the loop with ticks inside the work functions | flag and heater off after 3000 ms + 2 periods + 4W of implausible currents, no flag within 3000 ms - 2W of a plausible one |
| C112 | the sampling of the buttons (C75) and the limited screens (C76) in the loop with ticks inside the work functions | sample k within 10k … 10k + 2W ms, the last sample remembered; screens, waits and steps of C109 at most 2W late |
| C113 | the time steps of the controllers (C78) in the loop with ticks inside the work functions | time step from a moment of the previous run's call to a moment of this one, less than a period apart |
| C114 | the control laws (C64, C65) and the spacing of the evaluations in the loop with ticks inside the work functions | the laws, with time steps as in C113; 55 ms between evaluations of a channel |
| C115 | the heater without demand (C105) in the loop with ticks inside the work functions | at most 0.5 A after a period; off after as many runs as the integral needs |
| C116 | an iron too hot or too cold (C80, C104) in the loop with ticks inside the work functions | no current, or at least that for P and I, after as many runs as the integral needs |
| C117 | the turns of the digits (C102) in the loop with ticks inside the work functions | a digit each millisecond, in order, none missing |
| C118 | the display and the age of the temperature shown (C61, C86) in the loop with ticks inside the work functions | up to date within two watchdog periods |
| C119 | the iron button (C103) in the loop with ticks inside the work functions | idle mode after 1000 ms, at most 1010 ms and three iterations |
| C120 | the wear of the EEPROM (C81) in the loop with ticks inside the work functions; the writer's steps carry their own times | the same bounds as in C81 |
| C121 | the number of conversions (C84) in the loop with ticks inside the work functions | the same bounds as in C84; discharges the assumption about the counter in `Model/LoopIn` |
| C122 | `Spec/RampIn`: the value of a held button (C106) in the loop with ticks inside the work functions | the button is down while it changes; the wait; the schedule of the steps, at most two iterations late; the limit |

## 4. Findings (code and property disagree)

* **F1** `FIXPTBIG_MAX`/`FIXPTBIG_MIN` are cast to the 24-bit type, so they are -1 and 1;
  `fixpt_div(a,0)` gives -1/64 for a >= 0 and 1/64 for a < 0 (C04).
* **F2** `settings_init` scans with max index `ARRAY_SIZE + 1`, so it may read past the
  slot array; harmless only because EEPROM addresses wrap (C26).
* **F3** changing settings while they are being written, then losing power, loads a
  mixture of two versions (C29_false: 307 C changed to 308 C loads 311 C).
* **F4** EEPROM content is not validated; an active preset index >= 6 is an
  out-of-range access at boot (C95_boot; so an erased EEPROM is undefined behaviour, C95_erased);
  a decay factor below 1.0 or a wrong factor can overflow `pid_run` (C95_decay,
  C95_defined_false). C55/C59 assume a valid image; C95 says what holds without it.
* **F5** filters are initialised with the plain value instead of the scaled accumulator
  (C60: the measured current starts 16 times too low after the first value). The same
  holds for the current model when it takes over at 1.8 A. A side effect: an over-range
  first reading is followed by plausible ones (1023 is then smoothed to 123), which
  delays the 3 s timeout.
* **F6** the time step of the controllers wraps when a controller was not run for more
  than 32.767 s, which a temperature-sensor emergency makes possible (C56_false: after
  35.9 s without sensor the step is -29.6 s and the integral falls to -30 C although the
  iron is 85 C too cold).
* **F7** `CONF_PRESETS=0` does not link (`presets_store` undefined).
* **F8** the temperature-sensor emergency only zeroes the current set point; the command
  may stay above zero because of the integrator, up to 0.5 A (C39_false). The tuning
  screens have the same effect; with a measured current of 0 it lasts (examples of C105).
* **F9** `OCR0A = 125` in CTC mode gives a period of 126 counts, i.e. 1.008 ms per tick.
* **F10** `DEFINE_BITMAP` truncates sizes that are not multiples of 8 (C15 assumes multiples).
* **F11** `debug_enable(false)` gives the display its pins back before the transmitter is
  switched off (debug_uart.c:224-229).
* **F12** `sseg_exit` writes port D while a digit driver is on (sseg.c:225-238,
  display.c:186-190; C51_false).
* **F13** a reading above 500 C is implausible, so the over-temperature shut-off does not
  see it: the controller continues with the last plausible value until the 3 s timeout.
  In the same way a sensor that is missing at boot leaves the feedback at 0 C and the
  heater at up to 2 A for 3 s.
* **F14** button debouncing: samples missed while the main loop was busy are made up at
  once, so "three samples 10 ms apart" can be three samples within one call
  (buttons.c:101-103; C50_false).
* **F15** debug lines are sent with interrupts disabled (debug_uart.c:84-109, 1.144 ms per
  character), so timer ticks are lost: every printed value takes at least seven ticks, of
  which at most one is counted (C87_lost). While debugging is on, all times are longer than
  the firmware believes. A value that changes while debugging
  is off is not reported when debugging is switched on.
* **F16** over-temperature is not checked while the temperature controller is disabled
  (in the tuning screens).
* **F17** intervals below 8 ms are rounded to a time step of 0: the I and D terms of such
  a run are dropped (C23_zero_dt).
* **F18** `fixpt_get_dec_fract` with one digit can give 10 (C06_one_digit_false).
* **F19** releasing the iron button does not stop a running ramp; only the buttons plus
  and minus are looked at.
* **F20** a consequence of F3: changing the adjustment from -1 C to 0 C when two of its three
  bytes have been written, then losing power before the follow-up store has finished, leaves
  an adjustment of 1023 C (C77_needed); the menu only allows -99 C to 99 C (menu.c:464-473).
  With it the shipped builds take readings that stand for less than 1003 C for implausible,
  and the full-scale reading 1023, about 1485 C, for a plausible 462 C (C77_blind).
* **F21** (minor) the values remembered by `debug_report_...` are updated while debugging is
  off and are not reset when it is switched on (debug_uart.c:155-231), but the host tool
  starts every column with 0 when it receives "st" (dumpcurves.py).  After switching debugging
  off and on again with the buttons a value that does not change stays 0 in the table
  (C88_false).  Likewise the boost mode (tb) is printed only when it is set.
* **F22** (minor) the controllers read the timer twice, for the time step and to remember the
  time (controller_temp.c:138-140, controller_current.c:93-95). A tick between the two readings
  is in no time step; the I term misses a millisecond (C89_lost_temp, C89_lost_curr).
* **F23** (tests only) the classes that imitate the 24-bit types on the host
  (tests/fake/int24.h) convert the right operand to 24 bits before an operation or comparison,
  and wrap where the target has undefined behaviour (C90_wide_false, C90_overflow).  So no unit
  test can notice an overflow of `fixpt_t`.
* **F24** (simulator only) below -195 C the simulated ADC reading is negative and wraps to a
  16-bit value no ADC yields, e.g. 65535 (C91_temp_low).
* **F25** (simulator only) the reader of the debug interface handles at most one line for each
  pass of the main loop, and none if nothing new was transmitted
  (xytronic_simulator.py:129-139, 205-208).  With two lines per pass what it shows gets ever
  older (C92_lag).  If 4096 bytes are transmitted in one pass all of them are lost
  (C92_ring_lost).
* **F26** (minor, documentation) two ways through the menu are not in its diagram doc/menu.dia:
  holding plus or minus leads from the selection of the preset to its change too
  (C93_select_hold), and plus or minus released in the same sample as SET opens the selection
  when SET leads to the temperature (C93_both).  The arrow that leaves the debug box is not
  followed while debugging is on (C93_debug).
* **F27** (documentation) the factors of both controllers in doc/controller.dia are not those of
  the program (C94_current_factors, C94_temp_factors); the temperature feedback and the control
  errors leave the ranges given there (C94_feedback_false, C94_difference_false).
* **F28** the temperature adjustment is not validated either: with one wrong byte in the EEPROM
  (300 C, e.g. after a power failure while it was written) the shut-off above 480 C acts on a
  temperature 300 C too low; a sensor at 544 C is heated with 5 A and no flag is set (C95_adjustment).
* **F29** without CONF_EERING (not the default) the only copy of the settings is overwritten in
  place: a power failure while another preset is being stored can make booting undefined for good
  (C96_unbootable), one while a set point is being stored can leave 1020 C (C96_hot).
* **F30** (minor, simulator) the I/O thread looks at the request of the main thread only, not at
  bit I of SREG: handlers can run during the initialisation, before interrupts are enabled, until
  the first call that disables them (C97_early).
* **F31** (latent, no code does so) `contrcurr_set_enabled(false, p)` does not look at the emergency
  flags: it switches the heater on during an emergency (C99_in_emergency).  Percentages above 100 are
  not rejected: the compare value is out of range, and from 229 % on its computation overflows
  (C99_over).
* **F32** (simulator) reading settings is not free of effects: reading any controller factor clears
  integral and previous deviation of the temperature controller (C100_read_factor), reading the idle
  set point requests a store (C100_read_idle).  Writing does not check limits: selecting a preset that
  does not exist is undefined (C100_no_preset), any set point is put in force (C100_no_limit).
* **F33** (minor) the periods of the button sampling, of the multiplexing and of the steps of a held
  button are kept by adding 10 ms, 1 ms and (from the fifth step on) 25 ms to a timer, so
  time lost in slow iterations is owed.  Afterwards the function runs in every iteration until the debt is paid (the samples then come without the 10 ms between them, see C50), and
  a debt of more than 32.7 s puts the 16-bit timer out of range: the display then stands still on one
  digit for 32 s (example beside C102, iterations of 250 ms, which the watchdog allows), and a held
  button stops changing its value (example beside C106).
* **F34** (minor, simulator) `PWMGenerator.calc` changes its output at most once per step, and it warns only
  when a step goes beyond the end of the next period.  A step that is longer than the pause or the
  pulse, but shorter than a period, gives a wrong output without the warning (`C108_pwm_lost`:
  two steps of 8 ms at 100 Hz and a duty of one half).

## 5. Layout

* `lean/Verif/CSem.lean` C semantics
* `lean/Verif/Model/*` the model, one file per C file (`Model/Host`: the tool dumpcurves.py;
  `Model/Hw`: the configuration registers; `Model/Serial`: the debug interface in clock
  cycles; `Model/Reports`: the controllers and the measurement with their debug reports;
  `Model/Inside`: the work functions with ticks inside; `Model/LoopIn`: the main loop with them;
  `Model/Int24`: the 24-bit types of the
  tests; `Model/SimSensor`, `Model/SimUart`, `Model/SimIrq`, `Model/Circuits`: the simulator)
* `lean/Verif/Spec/*` independent specifications used by the theorem statements
* `lean/Verif/Proofs/*` helper lemmas and the invariant of the transition system. Files ending in
  `In` (also under `Spec` and `Props`) are about the main loop with ticks inside the work functions;
  `Proofs/Once` reduces one of its steps to a step at one instant, up to the times stored
* `lean/Verif/Props/*` the property theorems `Cxx_...` with examples
* `lean/Verif/Tests/Repo.lean` the repository's tests, evaluated on the model
* `MANIFEST.json` property -> theorems; `properties.jsonl` the properties in English
* `seeded/LOG.jsonl` wrong programs the theorems were tested against

## 6. Axioms

Output of `#print axioms` for every theorem named in `MANIFEST.json` (names without the prefix
`Verif.Props.`), grouped by result.

* no axioms:
  C04_div_zero_false C06_one_digit_false C12_mono_general_false C13_endpoints C41_zero
  C48_temp_limit C97_save C99_on_again
* `propext`:
  C23_reset C23_factors C30_cycle C50_events C58_same C88_kept C89_lost_curr C90_wide_false
  C97_exclusive C97_flag C97_restore C99_emergency
* `Quot.sound, propext`:
  C14_step C14_range C14_inverse C14_iterate C15_init C15_size C15_size_truncated_false
  C21_needs_cli C23_keeps C28_skips_equal C29_false C30_ring C46_distance C52_numerals C60_false
  C83_uart C85_rescale_zero C87_byte C88_idle C88_sent C89_lost_temp C97_early C97_clock C99_holds
  C99_on C99_over C100_unknown C106_fast C106_slow C109_instant_work
* `Classical.choice, Quot.sound, propext`:
  C01_add C01_sub C02_mul C03_div C03_unique C04_div_zero_partial C05_to_int C05_from_int
  C06_int_part C06_dec_fract C07_pow_int C08_sdiv_round_up C08_sdiv_round C08_udiv_round_up
  C08_udiv_round C08_round_up C09_neg C09_neg_neg C09_abs C09_clamp C09_clamp_macro C09_add_limited
  C10_line C10_defined C10_endpoints C10_mono C10_shipped C11_rounding C11_endpoints C11_range
  C11_error C11_mono C11_defined C11_shipped C12_defined C12_shipped C12_error C12_endpoints
  C12_mono C13_defined C13_antitone C14_turn C15_bits C16_bounded C16_lower C16_settles C17_bounded
  C17_settles C18_expired C19_ms_since C20_no_drift C20_count C21_atomic C22_limits C22_defined
  C23_law C23_zero_dt C24_roundtrip C24_injective C25_no_ub C25_power_failure C26_reboot
  C27_schedule C27_spacing C27_burst C28_writer C29_bytes_partial C29_active_partial C29_partial
  C31_sum C31_mean C32_current C32_temperature C32_temp C32_feedback C33_current_lost C33_channel
  C33_sensor_lost C34_switch C34_alternate C34_separate C35_heater_range C36_off C36_resume
  C37_trips C37_reading C37_holds C37_clears C38_cold C38_always_cold C38_exact C39_demand
  C39_recovery C39_current_partial C39_false C40_setpoint C41_map C41_monotone C41_used C42_sample
  C42_otherwise C43_enabled C43_no_demand C44_release C44_back C44_exists C44_timeout C45_limits
  C46_steps C46_else C46_held C46_release C47_compose C47_temp C47_fixpt C47_show C48_text C48_temp
  C48_factor C49_flags C49_stops C49_shows C50_sample C50_no_sample C50_due C50_spacing_partial
  C50_false C51_one C51_round C51_partial C51_no_debug C51_false C52_glyphs C52_unknown C53_steps
  C53_operations C53_pins C54_debug_on C54_debug_off C54_no_multiplex C55_boot C55_step C56_partial
  C56_false C57_boot C57_select C57_kept C57_band C57_thresholds C57_resync C58_change C58_history
  C59_boot C60_partial C61_work C61_between C61_glows C62_heating C62_dot C63_window C63_only
  C64_law C64_memory C64_clears C64_boot C65_law C65_memory C65_boot C66_kept C66_pending C66_served
  C66_only C66_ends C67_select C67_opens C67_else C68_press C68_hold C68_waits C68_starts C69_boot
  C69_switch C69_else C69_screen C70_running C70_calls C71_period C72_life C72_stored
  C73_sensor_lost C73_sensor_ok C73_current_lost C73_current_ok C74_overheat C75_samples C76_left
  C77_valid C77_life C77_needed C77_blind C78_temperature C78_current C79_starts C79_needed
  C79_blind C79_adc C79_adc_measure C79_eeDone C79_eeIsr C80_spacing C80_runs C80_time C80_lost
  C81_wear C81_range C81_shipped C82_table C82_start C83_adc C83_follows C83_tick C83_pwm C84_count
  C85_scale C85_shipped C85_unscale C85_pwm C85_rescale C85_amps C86_pending C86_shows C86_age
  C86_recent C87_sent C87_line C87_else C87_lost C88_same C88_current C88_temp C88_curr_run
  C88_temp_run C88_true C88_possible C88_table C88_columns C88_false C89_atOnce C89_clock
  C89_defined C89_safe C89_resume C90_convert C90_signed C90_unsigned C90_compare C90_bits
  C90_overflow C90_wide C90_functions C90_filter C91_temp C91_temp_low C91_feedback C91_curr C91_pwm
  C91_pwm_running C91_float C91_fixpt C92_ring C92_ring_lost C92_lines C92_silent C92_lag C92_values
  C92_up_to_date C93_moves C93_set C93_short C93_timeout C93_hold C93_debug C93_select_hold C93_both
  C94_signals C94_output C94_feedback C94_feedback_false C94_difference_false C94_current_factors
  C94_temp_factors C95_boot C95_erased C95_covers C95_range C95_off C95_feedback C95_trips C95_holds
  C95_cold C95_lost C95_defined_false C95_decay C95_adjustment C96_idle C96_torn C96_unbootable
  C96_hot C96_ring C97_wait C98_safe C98_calls C98_period C98_overheat C98_sensor_lost C98_sensor_ok
  C99_off C99_in_emergency C100_read C100_read_pure C100_read_factor C100_read_idle C100_write
  C100_read_back C100_safe C100_covers C100_no_preset C100_no_limit C100_gui C101_hold C101_toggle
  C101_boost C101_absent C102_rate C102_turns C102_each C103_idle C103_held C103_up C103_boost
  C104_runs C104_time C105_step C105_time C105_tuning C105_lost C105_off C106_wait C106_begin
  C106_value C106_limit C107_follows C107_any C108_rc C108_rc_steps C108_rc_between C108_rc_error
  C108_rc_init C108_divider C108_sine C108_sine_off C108_pwm C108_pwm_off C108_pwm_clamp
  C108_pwm_lost C109_follows C109_instant_sample C110_one C110_delay C110_begins C110_stored
  C111_current C111_current_lost C111_current_ok C111_current_back C112_samples C112_last
  C112_prompt C113_temperature C113_current C114_spacing C114_temperature C114_current
  C114_temp_memory C114_curr_memory C115_step C115_time C115_tuning C115_lost C115_off C116_hot
  C116_hot_time C116_cold C116_cold_time C117_rate C117_turns C117_each C118_screen C118_pending
  C118_shows C118_age C118_recent C119_held C119_otherwise C119_boost C120_wear C120_range
  C120_shipped C121_count C122_held C122_start C122_wait C122_begin C122_value C122_limit
