{"id": "C01", "title": "Fixed-point addition and subtraction saturate", "statement": "fixpt_add(a,b) and fixpt_sub(a,b) return the exact sum/difference when it lies within +-FIXPT_MAX and otherwise the nearest end of that symmetric range; they never overflow.", "quantifier": "every pair of 24-bit fixpt_t values", "why_tests_cant": "2^48 argument pairs; the interesting ones sit on the saturation boundary, incl. the asymmetric value -2^23", "anchors": ["firmware/fixpt.c:fixpt_add", "firmware/fixpt.c:fixpt_sub", "firmware/fixpt.c:fixpt_deflate", "firmware/fixpt.h:FIXPT_MAX"]}
{"id": "C02", "title": "Fixed-point multiplication rounds to nearest and is defined exactly while the product fits 32 bit", "statement": "fixpt_mul(a,b) is a*b/64 rounded to the nearest step (halves towards +infinity), saturated to +-FIXPT_MAX; it is free of signed overflow exactly when the raw product plus the rounding constant fits int32.", "quantifier": "every pair of fixpt_t values", "why_tests_cant": "overflow of the 32-bit intermediate is undefined behaviour, which a passing test cannot exclude for the untested pairs", "anchors": ["firmware/fixpt.c:fixpt_mul", "firmware/fixpt.c:fixpt_big_mul"]}
{"id": "C03", "title": "Fixed-point division rounds to nearest and never overflows", "statement": "For b != 0, fixpt_div(a,b) is a*64/b rounded to nearest (halves away from zero), saturated to +-FIXPT_MAX, and no intermediate overflows.", "quantifier": "every dividend and every non-zero divisor", "why_tests_cant": "sign combinations, exact halves and the extreme values form too large a space to enumerate", "anchors": ["firmware/fixpt.c:fixpt_div", "firmware/fixpt.c:fixpt_big_div"]}
{"id": "C04", "title": "Fixed-point division by zero saturates with the sign of the dividend", "statement": "fixpt_div(a,0) returns +FIXPT_MAX for a >= 0 and -FIXPT_MAX for a < 0 (the code comment says 'Handle it gracefully').", "quantifier": "every dividend", "why_tests_cant": "a claim about all 2^24 dividends; also shows the code's actual value differs from the intended one", "anchors": ["firmware/fixpt.c:fixpt_big_div", "firmware/fixpt.h:FIXPTBIG_MAX", "firmware/fixpt.h:FIXPTBIG_MIN"]}
{"id": "C05", "title": "Integer/fixed-point conversions round-trip and round to nearest", "statement": "fixpt_to_int rounds to the nearest integer (halves away from zero); int_to_fixpt followed by fixpt_to_int is the identity on every representable integer and saturates outside.", "quantifier": "every fixpt_t value and every int32 in the shiftable range", "why_tests_cant": "full range of values on both sides of zero", "anchors": ["firmware/fixpt.c:fixpt_to_int", "firmware/fixpt.c:_do_int32_to_fixpt", "firmware/fixpt.h:INT_TO_FIXPT_BIG"]}
{"id": "C06", "title": "Integer part and decimal fraction reconstruct a fixed-point value", "statement": "fixpt_get_int_part truncates towards zero; for 2..7 digits fixpt_get_dec_fract is the magnitude's fraction rounded to that many decimals, always has at most that many digits, and together they reconstruct |value| within half a unit of the last digit.", "quantifier": "every fixpt_t value (for the fraction: other than -2^23, whose magnitude is not representable) and every digit count 2..7", "why_tests_cant": "needs all 2^24 values times the digit counts; a carry to 100 would corrupt the display", "anchors": ["firmware/fixpt.c:fixpt_get_int_part", "firmware/fixpt.c:fixpt_get_dec_fract"]}
{"id": "C07", "title": "pow_int computes exact powers", "statement": "pow_int(b,e) returns b^e whenever that fits int32, and no intermediate overflows in that case.", "quantifier": "every int16 base and uint8 exponent with representable power", "why_tests_cant": "square-and-multiply loop: correctness needs an induction over the exponent's bits", "anchors": ["firmware/util.c:pow_int"]}
{"id": "C08", "title": "Rounding-division macros", "statement": "sdiv_round_up is the ceiling of x/d, sdiv_round the nearest integer (halves away from zero), udiv_round_up and udiv_round likewise for unsigned operands, round_up the least multiple of s that is >= n.", "quantifier": "every dividend and non-zero divisor for which the intermediate sum does not overflow", "why_tests_cant": "four sign combinations times every remainder", "anchors": ["firmware/util.h:sdiv_round_up", "firmware/util.h:sdiv_round", "firmware/util.h:udiv_round_up", "firmware/util.h:udiv_round", "firmware/util.h:round_up"]}
{"id": "C09", "title": "Negation, absolute value, clamping and limited addition", "statement": "fixpt_neg negates with saturation (and twice is the identity except at -2^23), fixpt_abs is never negative, fixpt_clamp returns the nearest value of [lo,hi], fixpt_add_limited always lands in [lo,hi].", "quantifier": "every fixpt_t value and every lo <= hi", "why_tests_cant": "the asymmetric minimum value is easily missed by sampling", "anchors": ["firmware/fixpt.c:fixpt_neg", "firmware/fixpt.c:fixpt_abs", "firmware/fixpt.c:fixpt_clamp", "firmware/fixpt.c:fixpt_add_limited"]}
{"id": "C10", "title": "scale() is the correctly rounded straight line through its two calibration points", "statement": "Whenever no intermediate overflows, scale(raw,raw_lo,raw_hi,phys_lo,phys_hi) is phys_lo plus the nearest step to (phys_hi-phys_lo)*(raw-raw_lo)/(raw_hi-raw_lo), saturated; it hits both calibration points exactly and is monotone in raw.", "quantifier": "every raw value and every calibration (also inverted ones) inside the overflow-free domain; in particular every 10-bit ADC value for the two shipped calibrations", "why_tests_cant": "five-argument function; monotonicity relates pairs of inputs", "anchors": ["firmware/scale.c:scale"]}
{"id": "C11", "title": "unscale() hits the end points, is monotone and is within one count of the straight line", "statement": "Whenever no intermediate overflows, unscale maps phys_lo to raw_lo and phys_hi to raw_hi exactly; between them (phys_lo < phys_hi) it is monotone, stays in the range and differs from the exact line by at most 1/2 + 1/128 count.", "quantifier": "every physical value and calibration inside the overflow-free domain; in particular every current for the duty cycle", "why_tests_cant": "double rounding makes the error bound a universal claim", "anchors": ["firmware/scale.c:unscale"]}
{"id": "C12", "title": "rescale() is the rounded straight line between two physical ranges", "statement": "Whenever no intermediate overflows, rescale stays within the rounding error of the exact line; it hits both end points exactly when the source range spans more than 64 steps (1.0), and it is monotone when the target range contains 0 (as for every use in the firmware).", "quantifier": "every physical value and pair of ranges inside the overflow-free domain; in particular every output of the temperature controller", "why_tests_cant": "five-argument function with three roundings", "anchors": ["firmware/scale.c:rescale"]}
{"id": "C13", "title": "PWM compare value is a decreasing, in-range image of the requested current", "statement": "pwmcurr_set(c) for 0 A <= c <= 5 A programs a compare value in 0..0x1FFF; 0 A gives 0x1FFF (no current), 5 A gives 0 (full current), more current never gives a larger value, and the value is within one count of the exact line.", "quantifier": "every fixed-point current in the actuator range", "why_tests_cant": "a wrong corner would mean heater full on; monotonicity is a relation over all pairs", "anchors": ["firmware/pwm_current.c:pwmcurr_set", "firmware/scale.c:unscale"]}
{"id": "C14", "title": "Ring index arithmetic", "statement": "ring_next/ring_prev stay in 0..max, are inverse to each other on that range, and n applications of ring_next from i give (i+n) mod (max+1), so every slot is visited once per turn; out-of-range input is pulled back into range.", "quantifier": "every uint8 index, every max_index and every number of steps", "why_tests_cant": "arbitrary iteration counts and uint8 wrap-around", "anchors": ["firmware/ring.c:ring_next", "firmware/ring.c:ring_prev"]}
{"id": "C15", "title": "Bitmap behaves like a set of bits", "statement": "After any sequence of bm_set_bit/bm_clear_bit/bm_write_bit, bm_get_bool(n) returns the last value written to bit n, other bits are unaffected, and no byte outside the map is touched for n below the declared size (a multiple of 8).", "quantifier": "every operation sequence, bitmap size and bit number", "why_tests_cant": "arbitrary operation histories", "anchors": ["firmware/bitmap.h:bm_set_bit", "firmware/bitmap.h:bm_clear_bit", "firmware/bitmap.h:bm_write_bit", "firmware/bitmap.h:bm_get_bit", "firmware/bitmap.h:bm_get_bool", "firmware/bitmap.c:_bit_to_mask8"]}
{"id": "C16", "title": "Integer low-pass filter stays between its inputs, never overflows and settles exactly", "statement": "For any input history the filter output never exceeds the largest input (or start value) seen, the 24-bit accumulator never overflows, and under a constant input the output becomes and stays exactly that input after finitely many runs.", "quantifier": "every input sequence of any length and every shift 0..8", "why_tests_cant": "unbounded input histories", "anchors": ["firmware/filter.c:lp_filter_u16_run", "firmware/filter.h:lp_filter_u16_set"]}
{"id": "C17", "title": "Fixed-point low-pass filter is bounded by its inputs", "statement": "For any history of inputs in [0,M] the fixed-point filter's output stays in [0,M], with no saturation or overflow of its accumulator for whole-number divisors such as those used by the firmware, and under a constant input the output becomes and stays exactly that input after finitely many runs.", "quantifier": "every input sequence", "why_tests_cant": "unbounded histories with rounding feedback", "anchors": ["firmware/filter.c:lp_filter_fixpt_run"]}
{"id": "C18", "title": "An armed timer expires exactly after its delay, across counter wrap-around", "statement": "After timer_arm(t, ms) with 0 <= ms <= 32767, timer_expired(t) is false for exactly the next ms ticks and true for the 32768 ticks from then on, whatever the 16-bit counter value at arming; afterwards it reads false again for 32768 ticks.", "quantifier": "every arming instant, delay and query instant", "why_tests_cant": "wrap-around at every counter value times every delay", "anchors": ["firmware/timer.c:timer_arm", "firmware/timer.c:timer_expired", "firmware/timer.c:_timer_ms_to_count"]}
{"id": "C19", "title": "timer_ms_since reports signed elapsed milliseconds", "statement": "timer_ms_since returns the number of ticks since the timer's instant, exact for -32768..32767 ms and modulo 65536 ms beyond.", "quantifier": "every pair of instants", "why_tests_cant": "wrap-around at every counter value", "anchors": ["firmware/timer.c:timer_ms_since", "firmware/timer.c:_timer_count_since", "firmware/timer.c:_timer_count_to_ms"]}
{"id": "C20", "title": "Periodic work scheduled with timer_add does not drift", "statement": "A loop that polls timer_expired and calls timer_add(period) on expiry fires the n-th time no earlier than start + n*period, and after any polling history the number of firings equals the number of elapsed periods unless polling itself lags; lateness of one firing never delays the deadlines after it.", "quantifier": "every polling schedule with gaps below half the counter range", "why_tests_cant": "quantifies over all polling schedules", "anchors": ["firmware/timer.c:timer_add", "firmware/timer.c:timer_expired", "firmware/buttons.c:buttons_work", "firmware/display.c:display_work"]}
{"id": "C21", "title": "timer_now is atomic with respect to the tick interrupt", "statement": "timer_now returns a value the 16-bit tick counter really had between call and return, however tick interrupts interleave with its byte-wise reads, and restores the caller's interrupt-enable state.", "quantifier": "every interleaving of tick interrupts with the byte-wise reads, with interrupts initially on or off", "why_tests_cant": "interrupt schedules cannot be enumerated by unit tests", "anchors": ["firmware/timer.c:timer_now", "firmware/timer.c:TIMER0_COMPA_vect", "firmware/util.h:irq_disable_save", "firmware/util.h:irq_restore"]}
{"id": "C22", "title": "PID output and integral stay inside their limits for every history", "statement": "From pid_init on, after any sequence of set-point changes, factor changes, resets and runs, each pid_run result lies in [y_neglim,y_poslim] and the integral in [i_neglim,i_poslim] (given lo <= 0 <= hi), so a long error never winds the integral up beyond its limit.", "quantifier": "every operation history, every time step (including negative and zero) and every factor set for which the arithmetic is defined", "why_tests_cant": "unbounded histories", "anchors": ["firmware/pid.c:pid_run", "firmware/pid.c:pid_reset", "firmware/pid.c:pid_set_factors", "firmware/pid.c:pid_init"]}
{"id": "C23", "title": "PID computes the documented P+I+D law", "statement": "pid_run returns clamp(P+I+D) where P = kp*e, I = clamp(I' + ki*e*dt), D = (e - e'/decay)*kd/dt with each product/quotient rounded and saturated to fixed point, and stores I and e/decay for the next run; with dt = 0 (a time step rounded to zero) the D term is one step, +-1/64 (the division by zero of finding F1), and the integral stays; set point, factors and limits are not changed by a run; after pid_reset the memory terms are zero.", "quantifier": "every state and input for which the 32-bit intermediates do not overflow", "why_tests_cant": "exact equality with an independent formula over all states", "anchors": ["firmware/pid.c:pid_run", "firmware/pid.c:pid_reset"]}
{"id": "C24", "title": "Settings serialisation is lossless", "statement": "The 64-byte EEPROM image of the settings determines them: decoding the image of any settings gives the same settings back, and the serial number is the last byte written.", "quantifier": "every settings value", "why_tests_cant": "24-bit little-endian two's complement fields over their entire range", "anchors": ["firmware/settings.h:struct settings", "firmware/settings.c:ee_read_block", "firmware/settings.c:EE_READY_vect"]}
{"id": "C25", "title": "A power failure during a store never mixes old and new settings (ring mode)", "statement": "With the EEPROM ring enabled and the cached settings not modified while they are being written, cutting power at any moment of a store (including in the middle of programming a byte, which may leave that byte with any value) and rebooting yields the settings values from before the store or the new ones, never a mixture.", "quantifier": "every number of earlier stores, every crash point, every value the interrupted byte may be left with, 512- and 1024-byte EEPROM", "why_tests_cant": "crash points times histories", "anchors": ["firmware/settings.c:settings_work", "firmware/settings.c:EE_READY_vect", "firmware/settings.c:settings_init"]}
{"id": "C26", "title": "After a reboot the most recently stored settings are found", "statement": "Starting from the shipped EEPROM image, after any number of completed stores (serial number wrapping any number of times) settings_init selects the slot written last and loads exactly the settings stored last.", "quantifier": "every number of stores and every settings value stored", "why_tests_cant": "needs more than 256 stores to exercise the serial wrap, in all alignments; an invariant covers all", "anchors": ["firmware/settings.c:settings_init", "firmware/settings.c:settings_work"]}
{"id": "C27", "title": "Store requests are coalesced and delayed", "statement": "settings_work starts writing only when a request is pending and at least 1000 ms (and fewer than 33768 ms) passed since the latest store_settings; any burst of requests leads to exactly one write start.", "quantifier": "every schedule of requests and polls", "why_tests_cant": "timing schedules", "anchors": ["firmware/settings.c:store_settings", "firmware/settings.c:settings_work"]}
{"id": "C28", "title": "The EEPROM writer copies the cache into the chosen slot, touches no other slot and skips equal bytes", "statement": "After a store starts, each EEPROM-ready interrupt handles one byte; after exactly 64 of them the slot equals the cached settings, the interrupt is off, no byte of another slot changed, and a byte already equal was not programmed.", "quantifier": "every EEPROM content and settings value", "why_tests_cant": "all contents", "anchors": ["firmware/settings.c:EE_READY_vect"]}
{"id": "C29", "title": "A store is atomic even if the user changes settings while it is being written", "statement": "If the settings are changed while a store is in progress and power fails before the follow-up store completes, reboot still yields settings that existed at some instant.", "quantifier": "every interleaving of changes with the byte writer and every crash point", "why_tests_cant": "interleavings of an interrupt with main-loop writes plus a crash", "anchors": ["firmware/settings.c:EE_READY_vect", "firmware/settings.c:get_settings", "firmware/presets.c:presets_set_active_value"]}
{"id": "C30", "title": "Presets form a ring of six independent values", "statement": "presets_next/prev cycle the active index through 0..5 (six nexts or a next and a prev are the identity), presets_set_active_value changes only the active preset and reading it back gives the value written; the index never leaves 0..5.", "quantifier": "every history of preset operations", "why_tests_cant": "arbitrary operation sequences", "anchors": ["firmware/presets.c:presets_next", "firmware/presets.c:presets_prev", "firmware/presets.c:presets_set_active_value", "firmware/presets.c:presets_get_active_value"]}
{"id": "C31", "title": "A measurement result is the mean of the samples taken since the channel was selected", "statement": "The raw result equals the truncated mean of exactly the ADC samples taken since the channel was selected, lies between the smallest and the largest of them, there is never a division by zero, and no accumulator overflows while a window has fewer than 65536 samples.", "quantifier": "every sample sequence and interrupt schedule", "why_tests_cant": "unbounded sequences of samples and interrupt timings", "anchors": ["firmware/measure.c:ADC_vect", "firmware/measure.c:measure_handle_result", "firmware/measure.c:adc_trigger_next_chan"]}
{"id": "C32", "title": "Values handed to the controllers are always inside the plausible range", "statement": "Whatever the ADC delivers and however the user adjusted the offset, the value of a reading is the linear scaling of the mean of the samples (for the current: of the smoothed mean readings since boot; for the temperature: minus the adjustment); if it lies within the channel's plausible range it becomes the controller's feedback unchanged, any other value leaves the feedback as it is.", "quantifier": "every raw value 0..1023, every adjustment and both board calibrations", "why_tests_cant": "all raw values times all adjustments", "anchors": ["firmware/measure.c:measure_handle_result", "firmware/measure_temp.c:meastemp_config", "firmware/measure_current.c:meascurr_config"]}
{"id": "C33", "title": "Implausible readings raise a timeout exactly after three seconds without a plausible one", "statement": "A channel reports 'timeout' on a reading exactly if readings have been implausible since at least 3000 ms (no plausible one since); the first plausible reading clears it at once; shorter disturbances never raise it. The sensor emergencies of the controllers are on exactly while the latest reading of their channel was a timeout.", "quantifier": "every sequence of readings and reading times with gaps below half the counter range", "why_tests_cant": "timing histories", "anchors": ["firmware/measure.c:measure_handle_result"]}
{"id": "C34", "title": "The two measurement channels alternate strictly", "statement": "Each result handed out belongs to the channel selected when its samples were taken, and results alternate temperature, current, temperature, ... for ever.", "quantifier": "every interleaving of interrupts and main loop", "why_tests_cant": "schedules", "anchors": ["firmware/measure.c:adc_trigger_next_chan", "firmware/measure.c:measure_work", "firmware/measure.c:measure_start"]}
{"id": "C35", "title": "The heater command is always inside the actuator range", "statement": "From boot on, in every reachable state the PWM compare register holds a value in 0..0x1FFF that corresponds to a current between 0 and 5 A.", "quantifier": "every event history from every valid EEPROM", "why_tests_cant": "unbounded event histories through the whole firmware", "anchors": ["firmware/controller_current.c:contrcurr_run", "firmware/pwm_current.c:pwmcurr_set"]}
{"id": "C36", "title": "While a current-controller emergency is active the heater is off", "statement": "Whenever any emergency flag of the current controller is set, the PWM register holds the no-current value 0x1FFF, until the flag is cleared and the controller runs again.", "quantifier": "every event history", "why_tests_cant": "safety invariant over unbounded histories", "anchors": ["firmware/controller_current.c:contrcurr_set_emerg", "firmware/controller_current.c:contrcurr_run", "firmware/measure_current.c:meascurr_result_handler"]}
{"id": "C37", "title": "Over-temperature switches the heater off at once", "statement": "A temperature feedback above 480 C processed by the enabled temperature controller sets the high-temperature emergency, so the heater is off before the call returns and stays off until a feedback of at most 480 C is processed; processing such a feedback without a sensor emergency clears the flag again.", "quantifier": "every state and every feedback value", "why_tests_cant": "all states and histories", "anchors": ["firmware/controller_temp.c:contrtemp_run", "firmware/controller_current.c:contrcurr_set_emerg"]}
{"id": "C38", "title": "A cold iron gets at most 2 A", "statement": "The 2 A restriction is in force exactly after boot and while the latest plausible temperature was below 100 C; while it is in force every current programmed by the current controller is at most 2 A.", "quantifier": "every event history", "why_tests_cant": "safety invariant over histories", "anchors": ["firmware/measure_temp.c:meastemp_result_handler", "firmware/controller_current.c:contrcurr_set_restricted", "firmware/controller_current.c:contrcurr_run"]}
{"id": "C39", "title": "Loss of the temperature sensor removes the heating demand", "statement": "While the temperature emergency is active the requested current set point is 0 A and nothing but recovery of plausible readings or entering/leaving a disabling menu touches it; the programmed current is then never above the integral limit of 0.5 A, and it is 0.", "quantifier": "every event history", "why_tests_cant": "safety invariant over histories; the last clause turns out to be false of the code", "anchors": ["firmware/controller_temp.c:contrtemp_set_emerg", "firmware/controller_temp.c:contrtemp_run", "firmware/measure_temp.c:meastemp_result_handler"]}
{"id": "C40", "title": "The regulated set point always follows the settings and the idle state", "statement": "In every reachable state the temperature controller's set point equals the active preset, or the idle set point if idle mode is on and that is lower.", "quantifier": "every history of button, menu and preset operations", "why_tests_cant": "unbounded histories across several modules", "anchors": ["firmware/controller_temp.c:contrtemp_update_setpoint", "firmware/presets.c:presets_store", "firmware/controller_temp.c:contrtemp_set_idle_setpoint", "firmware/controller_temp.c:contrtemp_button_handler"]}
{"id": "C41", "title": "Temperature demand maps monotonically to current demand", "statement": "The controller output 0..480 C maps to 0..5 A: 0 C to 0 A, 250 C and above to 5 A, linear (1/50 A per degree, nearest step) in between, monotone, always inside the actuator limits.", "quantifier": "every controller output", "why_tests_cant": "relation over all pairs of outputs", "anchors": ["firmware/controller_temp.c:temp_to_amps", "firmware/scale.c:rescale"]}
{"id": "C42", "title": "Iron button: short press cycles boost, long press enters idle, any press leaves idle", "statement": "With boost and idle enabled: a press released before 1000 ms advances the boost mode by exactly one and does not touch idle; a press held for at least 1000 ms enters idle exactly once and does not change boost; a press in idle leaves idle at once and does nothing else until released.", "quantifier": "every press duration and poll schedule", "why_tests_cant": "timing schedules and arbitrary press sequences", "anchors": ["firmware/controller_temp.c:contrtemp_button_handler"]}
{"id": "C43", "title": "Regulation is switched off exactly in the calibration and tuning menus", "statement": "In every reachable state the temperature controller is enabled exactly if the menu is not in one of the adjustment/K-configuration screens.", "quantifier": "every history of menu events", "why_tests_cant": "unbounded histories", "anchors": ["firmware/menu.c:menu_set_state", "firmware/menu.c:next_menu_state", "firmware/controller_temp.c:contrtemp_set_enabled"]}
{"id": "C44", "title": "The menu cannot trap the user", "statement": "From every menu screen finitely many SET releases (when debugging is off) lead back to the temperature display, each screen disabled by configuration is never entered, and the preset/idle/announce screens leave by themselves when their timeout has passed.", "quantifier": "every screen, every build configuration", "why_tests_cant": "all configurations and histories", "anchors": ["firmware/menu.c:next_menu_state", "firmware/menu.c:menu_button_handler", "firmware/menu.c:menu_work"]}
{"id": "C45", "title": "User-adjustable values stay inside their limits", "statement": "Starting from settings inside the limits, in every reachable state all presets and the idle set point are within 0..480 C, the adjustment within +-99 C, kp and kd within 0..99, ki within 0..9.", "quantifier": "every event history", "why_tests_cant": "unbounded histories of ramping", "anchors": ["firmware/menu.c:do_ramp_temp", "firmware/menu.c:do_ramp_k", "firmware/menu.c:settemp_ramp_handler", "firmware/menu.c:idletemp_ramp_handler", "firmware/menu.c:adj_ramp_handler"]}
{"id": "C46", "title": "Button auto-repeat accelerates from 400 ms to 25 ms and stops on release", "statement": "While ramping, steps are due at times 0, 400, 600, 700, 750, 775, ... ms after the start (period halving down to 25 ms, never shorter); the first call of menu_work when a step is due (less than 32.8 s late) changes the value by one unit in the pressed direction, within the limits of the value, and no other call changes it; a ramp up or down goes on only while plus or minus is down, and releasing any of the three panel buttons stops it.", "quantifier": "every number of steps and poll schedule", "why_tests_cant": "unbounded step counts", "anchors": ["firmware/menu.c:start_ramping", "firmware/menu.c:menu_work", "firmware/menu.c:stop_ramping"]}
{"id": "C47", "title": "Rendering never writes or reads outside the display text buffer", "statement": "For every menu state and every value, composing the text stays inside the 6-character buffer, the text is NUL terminated, and display_show never reads past the terminator.", "quantifier": "every menu state, value, symbol and configuration", "why_tests_cant": "memory safety for all values", "anchors": ["firmware/menu.c:int_to_ascii_align_right", "firmware/menu.c:menu_put_temp", "firmware/menu.c:menu_put_fixpt", "firmware/menu.c:menu_update_display", "firmware/display.c:display_show"]}
{"id": "C48", "title": "The displayed number is the value", "statement": "The three temperature digits read back as the temperature rounded to whole degrees and limited to -99..999; the factor screens read back as the value's integer part and rounded decimals.", "quantifier": "every temperature and factor value", "why_tests_cant": "decimal rendering round trip for all values", "anchors": ["firmware/menu.c:int_to_ascii_align_right", "firmware/menu.c:menu_put_temp", "firmware/menu.c:menu_put_fixpt"]}
{"id": "C49", "title": "Error indication follows the emergency state", "statement": "After each menu_work the displayed error number has bit 0 set exactly if the current feedback is in plausibility emergency and bit 1 exactly if the temperature is, any change stops ramping and refreshes the display, and the temperature screen shows 'Err n' exactly if n is not 0.", "quantifier": "every reachable state", "why_tests_cant": "all states", "anchors": ["firmware/menu.c:menu_work", "firmware/menu.c:menu_update_display"]}
{"id": "C50", "title": "Button events are well formed", "statement": "For every history of pin samples each button's events are strictly alternating press/release edges starting with a press, 'pressed' is reported exactly in the samples in which the button is down and only after its press edge, and samples are taken at most every 10 ms.", "quantifier": "every pin history", "why_tests_cant": "unbounded histories, all combinations of buttons", "anchors": ["firmware/buttons.c:buttons_work", "firmware/buttons.c:buttons_get_raw"]}
{"id": "C51", "title": "The display multiplexer lights at most one digit and never changes segments of a lit digit", "statement": "In every reachable state at most one digit driver is on; every write to the segment port happens with all digit drivers off; the digits are driven round-robin.", "quantifier": "every event history", "why_tests_cant": "invariant at every intermediate port write", "anchors": ["firmware/display.c:display_work", "firmware/sseg.c:sseg_multiplex", "firmware/sseg.c:mux_write", "firmware/sseg.c:segment_write"]}
{"id": "C52", "title": "Glyphs: the lit segments are those of the character", "statement": "After display_show and multiplexing, the pins of the digit drive low exactly the segments of the character's 7-segment shape plus the decimal point if requested; unknown characters are blank; the ten numerals are pairwise distinguishable.", "quantifier": "every character, decimal-point setting and digit position", "why_tests_cant": "all 256 characters on both wirings", "anchors": ["firmware/sseg.c:sseg_digit_set", "firmware/sseg.c:segment_write", "firmware/display.c:display_show"]}
{"id": "C53", "title": "Display and button code leave unrelated port pins alone", "statement": "Display operations change no bit of the shared ports outside their segment and digit-driver masks (in particular the heater PWM pin PB1 and the button inputs on port B).", "quantifier": "every port content and operation", "why_tests_cant": "all contents", "anchors": ["firmware/sseg.c:mux_write", "firmware/sseg.c:segment_write", "firmware/sseg.c:sseg_init", "firmware/sseg.c:sseg_exit"]}
{"id": "C54", "title": "Display and debug UART never own the shared pins together", "statement": "In every reachable state, if debugging is enabled the display is disabled (pins released) and no multiplexing happens; disabling debugging re-enables the display.", "quantifier": "every event history", "why_tests_cant": "invariant over histories", "anchors": ["firmware/debug_uart.c:debug_enable", "firmware/display.c:display_enable"]}
{"id": "C55", "title": "No undefined behaviour in the running firmware", "statement": "From every EEPROM whose settings are inside the documented limits, no reachable state performs a signed overflow, a division by zero, an out-of-range array access or a null handler call.", "quantifier": "every interleaving of interrupts, button presses and ADC values", "why_tests_cant": "undefined behaviour cannot be excluded by observing good runs", "anchors": ["firmware/main.c:main", "firmware/main.c:main_loop_once", "firmware/fixpt.c", "firmware/scale.c", "firmware/pid.c", "firmware/measure.c", "firmware/menu.c"]}
{"id": "C56", "title": "The controllers' time step equals the time since their previous run", "statement": "The dt used by a controller run is the elapsed time rounded to 1/64 s and is never negative.", "quantifier": "every time between two runs", "why_tests_cant": "true below 32.768 s only; the counterexample needs a >32 s emergency", "anchors": ["firmware/controller_temp.c:contrtemp_run", "firmware/controller_current.c:contrcurr_run", "firmware/timer.c:timer_ms_since"]}
{"id": "C57", "title": "Feedback selection of the current controller has hysteresis and re-synchronises", "statement": "Measured feedback is used until it reaches 1.8 A, then a model is used until the measurement is at most 1.7 A, then the model is slewed to the measurement until within 0.1 A; between 1.7 A and 1.8 A the mode never changes because of the measurement except by completing a resync.", "quantifier": "every feedback history", "why_tests_cant": "unbounded histories", "anchors": ["firmware/controller_current.c:contrcurr_run"]}
{"id": "C58", "title": "Debug reports are emitted exactly on change", "statement": "debug_report_* transmits a line exactly if debugging is enabled and the value differs from the previously reported one, remembers it either way, and its number buffer is large enough for every value.", "quantifier": "every value history", "why_tests_cant": "unbounded histories", "anchors": ["firmware/debug_uart.c:debug_report_int16", "firmware/debug_uart.c:debug_report_fixpt", "firmware/debug_uart.c:debug_print_int32", "firmware/debug_uart.c:debug_print_str3"]}
{"id": "C59", "title": "Boot is safe and settings take effect", "statement": "After main()'s initialisation from any EEPROM with settings inside the limits: the heater is off, the current controller is enabled but restricted to 2 A, no emergency is set, the set point is the stored active preset, the stored adjustment is in force and the first channel measured is the temperature.", "quantifier": "every EEPROM content within limits and every configuration", "why_tests_cant": "all EEPROM contents", "anchors": ["firmware/main.c:main", "firmware/controller_current.c:contrcurr_init", "firmware/controller_temp.c:contrtemp_init", "firmware/measure_temp.c:meastemp_init", "firmware/settings.c:settings_init"]}
{"id": "C60", "title": "The current measurement filter starts at the first sample", "statement": "After the first current reading x, further readings of x keep the filtered value at x.", "quantifier": "every reading", "why_tests_cant": "false of the code for x > 0: the accumulator is loaded unscaled", "anchors": ["firmware/measure_current.c:meascurr_filter_handler", "firmware/filter.h:lp_filter_u16_set"]}
{"id": "C61", "title": "The display always shows what belongs to the screen, or an update is pending", "statement": "At every moment in the main loop either a display update has been requested (and the next menu_work will serve it) or the four digits hold exactly the text that belongs to the present screen and values: the measured temperature with the unit of the mode, 'Err' and the number of the displayed error, the preset, the idle temperature, the adjustment, the tuning factors or 'DBG'. After each menu_work no update is pending. When no update is pending each digit, when it is switched on, glows exactly in the segments of its character.", "quantifier": "for all boots, all input histories, all reachable states", "why_tests_cant": "a forgotten menu_request_display_update in any handler leaves a stale display only for particular sequences of presses, samples and timeouts; tests sample few of them", "anchors": ["firmware/menu.c:menu_update_display", "firmware/menu.c:menu_work", "firmware/menu.c:menu_request_display_update", "firmware/controller_temp.c:contrtemp_set_feedback", "firmware/display.c:display_work"]}
{"id": "C62", "title": "The heating point tells whether the iron is below its set point", "statement": "After each menu_work the decimal point of the third digit is on if and only if the temperature the controller works with is below its set point and the screen is one of those with the indicator (temperature without error, preset, idle temperature, debug); on every other screen it is off.", "quantifier": "for all boots, all input histories, all reachable states", "why_tests_cant": "depends on the forced decimal point surviving every change of screen, error and mode in any order", "anchors": ["firmware/menu.c:menu_update_display", "firmware/menu.c:menu_work", "firmware/display.c:display_force_dp"]}
{"id": "C63", "title": "Each channel is averaged over its own time", "statement": "An averaging window of the temperature measurement lasts 50 ms and one of the current measurement 5 ms: counted from the evaluation that started it, a window is completed by the first conversion at or after that time and by no earlier one, and nothing but an evaluation starts a window.", "quantifier": "every event history, every reading", "why_tests_cant": "timing over all interleavings of conversions, ticks and main loop work", "anchors": ["firmware/measure.c:adc_trigger_next_chan", "firmware/measure.c:ADC_vect", "firmware/measure_temp.c:meastemp_config", "firmware/measure_current.c:meascurr_config"]}
{"id": "C64", "title": "The temperature controller implements its control law", "statement": "Every run of the temperature controller computes, with the PID factors set for the present boost mode, the PID law on the difference between the wanted temperature (active preset, or idle temperature in idle mode) and the measured one, with the time since its previous run as time step, integral limited to -30..80 C and output limited to 0..480 C; the current demand becomes the current for that output, or 0 A above 480 C. Between runs the controller memory is kept or cleared as a whole; it is clear at boot. It is cleared by switching the controller on or off and by a change of the boost mode, and by nothing else while the controller stays on: not by a new set point, a preset, the idle mode, a time-out of the menu or an emergency.", "quantifier": "every event history, every reading, every setting; time since the previous run 8..32767 ms", "why_tests_cant": "the equation must hold with every factor, mode and history", "anchors": ["firmware/controller_temp.c:contrtemp_run", "firmware/controller_temp.c:contrtemp_set_feedback", "firmware/pid.c:pid_run", "firmware/controller_temp.c:contrtemp_set_boost_mode", "firmware/controller_temp.c:contrtemp_set_enabled"]}
{"id": "C65", "title": "The current controller implements its control law", "statement": "Every run of the current controller computes the PID law with P = 1.8, I = 2, D = 0 on the difference between the demanded current and the selected feedback, with the time since its previous run as time step, integral limited to -0.5..0.5 A and output limited to 0..5 A; the result, limited to 2 A under the cold restriction, is what is programmed at the heater output. Between runs its memory is kept and the heater output is kept or switched off; at boot the memory is clear and the heater off.", "quantifier": "every event history, every reading; time since the previous run 8..32767 ms", "why_tests_cant": "the equation must hold over every history", "anchors": ["firmware/controller_current.c:contrcurr_run", "firmware/pwm_current.c:pwmcurr_set", "firmware/pid.c:pid_run"]}
{"id": "C66", "title": "Changed settings get stored and survive switching off", "statement": "Over the whole life of the device, from the first boot with the shipped EEPROM through any events, power failures and reboots: whenever no store is pending or in progress, switching off and on gives exactly the current settings back. Every change of a setting leaves a store pending; settings_work, and nothing else, starts it, exactly if the latest change or request is at least 1000 ms old (and less than 33.768 s), without altering a setting; a store ends after at most 128 EEPROM events.", "quantifier": "every event history including power failures at any moment", "why_tests_cant": "arbitrary many stores, wrap-arounds of the ring and of the serial number, and power failures in any order", "anchors": ["firmware/settings.c:settings_work", "firmware/settings.c:store_settings", "firmware/settings.c:settings_init", "firmware/settings.c:EE_READY_vect", "firmware/presets.c:presets_set_active_value", "firmware/menu.c:menu_button_handler"]}
{"id": "C67", "title": "Preset selection by plus and minus", "statement": "In the preset screen the release of plus selects the next preset and the release of minus the previous one, in a circle of six, and changes no other setting; in every other screen a sample of the buttons changes no setting (if at most one panel button is released in the sample). The release of plus or minus in the temperature screen opens the preset screen. No other event except the menu's work function changes a setting.", "quantifier": "every event history, every button input", "why_tests_cant": "arbitrary interleavings of samples, ticks and work calls before the release", "anchors": ["firmware/menu.c:menu_button_handler", "firmware/presets.c:presets_next", "firmware/presets.c:presets_prev", "firmware/ring.c:ring_next", "firmware/buttons.c:buttons_work"]}
{"id": "C68", "title": "A ramp starts with a press, in the temperature and preset screens after one second", "statement": "A press of plus or minus alone starts a ramp in its direction at once in the screens of a value, starts a waiting ramp in the temperature and preset screens, and starts nothing in the other screens; samples without a press or release of plus and minus or a release of SET do not touch the ramp. A waiting ramp always has its button down, without interruption; the menu's work function sets it going exactly if the button has been down for at least 1000 ms (and less than 33.768 s), or ends it because the screen or the displayed error changed.", "quantifier": "every event history, every button input", "why_tests_cant": "depends on the full sample history and on the wrapping 16-bit tick counter", "anchors": ["firmware/menu.c:menu_button_handler", "firmware/menu.c:menu_work", "firmware/buttons.c:buttons_work"]}
{"id": "C69", "title": "The debug switch", "statement": "At boot debugging is on exactly if the build has it and SET is down, and then the debug screen is shown, otherwise the temperature screen. In the debug screen a press of plus switches it on and a press of minus off; nothing else switches it; while it is on the debug screen stays.", "quantifier": "every boot input, every event history", "why_tests_cant": "universal over histories and builds", "anchors": ["firmware/menu.c:menu_init", "firmware/menu.c:menu_button_handler", "firmware/debug_uart.c:debug_enable"]}
{"id": "C70", "title": "The main loop calls every work function in time", "statement": "Every state of the main loop is a state of the event system all other properties are about. From any moment on each of the five work functions is called again within two watchdog periods (500 ms as shipped).", "quantifier": "every execution of the main loop (work functions in the order of main_loop_once, interrupts anywhere between them) that meets the speed assumptions: watchdog reset at least every W ms, a conversion at least every A ms while the ADC is on, an EEPROM step at least every B ms while the writer is busy", "why_tests_cant": "universal over all interleavings and loop durations", "anchors": ["firmware/main.c:main_loop_once", "firmware/main.c:main"]}
{"id": "C71", "title": "Temperature and current are evaluated again within a fixed period", "statement": "From any moment on the temperature is evaluated within 5 + 50 + 2A + 4W ms, and so is the current (1057 ms in the worst case the watchdog allows, as shipped); the averaging windows of both channels always finish.", "quantifier": "every execution of the main loop (work functions in the order of main_loop_once, interrupts anywhere between them) that meets the speed assumptions: watchdog reset at least every W ms, a conversion at least every A ms while the ADC is on, an EEPROM step at least every B ms while the writer is busy", "why_tests_cant": "liveness; depends on the wrapping tick counter and all interleavings", "anchors": ["firmware/measure.c:measure_work", "firmware/measure.c:measure_handle_result", "firmware/main.c:main_loop_once"]}
{"id": "C72", "title": "Changed settings are stored in time", "statement": "In the main loop a store has always finished before the next one starts. Once nothing has been changed or requested for 1000 ms + 2W + 128B (2012 ms as shipped) nothing is pending or in progress and switching off and on gives back exactly the current settings; this holds over the whole life of the device, with power failures at any moment.", "quantifier": "every execution of the main loop (work functions in the order of main_loop_once, interrupts anywhere between them) that meets the speed assumptions: watchdog reset at least every W ms, a conversion at least every A ms while the ADC is on, an EEPROM step at least every B ms while the writer is busy; every sequence of power failures (settings found at boot within the limits)", "why_tests_cant": "unbounded life of the device and EEPROM ring", "anchors": ["firmware/settings.c:settings_work", "firmware/settings.c:ISR(EE_READY_vect)", "firmware/settings.c:settings_init"]}
{"id": "C73", "title": "Lost sensors lead to an emergency in time, and only they", "statement": "If all temperatures evaluated for 3000 ms and two evaluation periods were implausible, the temperature emergency is active and no current is requested; if all currents were, the heater is off. If a temperature (current) evaluated in the last 3000 ms was plausible, the corresponding emergency is not active.", "quantifier": "every execution of the main loop (work functions in the order of main_loop_once, interrupts anywhere between them) that meets the speed assumptions: watchdog reset at least every W ms, a conversion at least every A ms while the ADC is on, an EEPROM step at least every B ms while the writer is busy", "why_tests_cant": "histories of arbitrary length in real time, wrapping 16-bit timers", "anchors": ["firmware/measure_temp.c:meastemp_result_handler", "firmware/measure_current.c:meascurr_result_handler", "firmware/util.c", "firmware/timer.h"]}
{"id": "C74", "title": "Overheating switches the heater off within one evaluation period", "statement": "If all temperatures evaluated for one evaluation period were above 480 C (and at most 500 C), outside the calibration and tuning screens, the heater is off.", "quantifier": "every execution of the main loop (work functions in the order of main_loop_once, interrupts anywhere between them) that meets the speed assumptions: watchdog reset at least every W ms, a conversion at least every A ms while the ADC is on, an EEPROM step at least every B ms while the writer is busy", "why_tests_cant": "universal over states and loop timing", "anchors": ["firmware/measure_temp.c:meastemp_result_handler", "firmware/controller_temp.c:contrtemp_run", "firmware/pwm_current.c:pwmcurr_set"]}
{"id": "C75", "title": "The buttons are sampled every 10 ms", "statement": "If an iteration of the main loop takes at most 10 ms, sample number k of the buttons is taken at 10 k ms or at most two iterations later, none is left out, and consecutive samples are 10 ms apart give or take two iterations. (With slower iterations, which the watchdog allows, the sampling falls behind without bound: shown by an example.)", "quantifier": "every execution of the main loop (work functions in the order of main_loop_once, interrupts anywhere between them) that meets the speed assumptions: watchdog reset at least every W ms, a conversion at least every A ms while the ADC is on, an EEPROM step at least every B ms while the writer is busy", "why_tests_cant": "unbounded number of samples, wrapping 16-bit timer", "anchors": ["firmware/buttons.c:buttons_work", "firmware/timer.h", "firmware/main.c:main_loop_once"]}
{"id": "C76", "title": "Screens with limited time are left in time", "statement": "A screen that lasts 3000 ms (presets, idle temperature; since the last touch of a button) or 1500 ms (announcement of a menu entry) is never shown longer than that plus two watchdog periods.", "quantifier": "every execution of the main loop (work functions in the order of main_loop_once, interrupts anywhere between them) that meets the speed assumptions: watchdog reset at least every W ms, a conversion at least every A ms while the ADC is on, an EEPROM step at least every B ms while the writer is busy", "why_tests_cant": "arbitrary histories of touches, wrapping 16-bit timer", "anchors": ["firmware/menu.c:menu_work", "firmware/menu.c:menu_set_state", "firmware/menu.c:menu_button_handler"]}
{"id": "C77", "title": "Settings not changed during a store are valid at every boot", "statement": "With the EEPROM ring (as shipped), over the whole life of the device, with power failures at any moment and the byte being programmed left with any value: if no setting is changed while a store is in progress, the settings found at the next boot are within their limits and the device boots. So nothing has to be assumed about the EEPROM after the first boot. (If a setting is changed during a store, this fails: an adjustment of -1 C changed to 0 C can be found as 1023 C.)", "quantifier": "every sequence of events and power failures, every value of the byte being programmed", "why_tests_cant": "unbounded life of the device; any instant of a power failure", "anchors": ["firmware/settings.c:settings_init", "firmware/settings.c:settings_work", "firmware/settings.c:EE_READY_vect", "firmware/measure_temp.c:meastemp_adjust_set"]}
{"id": "C78", "title": "In the main loop the controllers' time step is the time since their previous run", "statement": "Every run of the temperature controller, except one with which it comes back from a lost sensor, takes place less than an evaluation period (1057 ms as shipped) after its previous run or the moment it was switched on, and uses the time since then, to the nearest 1/64 s, as its time step; in particular the time step is never negative. The same holds for every run of the current controller that follows a run (or boot) with no evaluation of the current in between.", "quantifier": "every execution of the main loop that meets the speed assumptions (as for C70)", "why_tests_cant": "universal over all interleavings, loop durations and run lengths", "anchors": ["firmware/controller_temp.c:contrtemp_run", "firmware/controller_current.c:contrcurr_run", "firmware/main.c:main_loop_once", "firmware/timer.c:timer_ms_since"]}
{"id": "C79", "title": "Interrupts and work functions do not disturb each other, except for changes of settings being stored", "statement": "menu_work, display_work and buttons_work neither use nor change anything that the interrupts of the ADC and the EEPROM write; whatever is found there, they do the same. An ADC interrupt may therefore come before or after a call of them or of settings_work with the same result, and while the ADC can interrupt, measure_work has nothing to evaluate and changes nothing. The end of an EEPROM write may come before or after any work function. The EEPROM interrupt may come before or after any work function that does not change the settings and does not start a store, and in the main loop a store starts only when the one before has finished. For a work function that does change a setting the order matters (finding F3).", "quantifier": "all builds, all states of the running firmware (for the last-but-one statement: all executions of the main loop that meet the speed assumptions), all sample values and button levels", "why_tests_cant": "races between interrupts and the main program show only for particular moments of the interrupt; tests cannot place an interrupt at every moment in every state", "anchors": ["firmware/measure.c:ADC_vect", "firmware/settings.c:EE_READY_vect", "firmware/main.c:main_loop_once", "firmware/measure.c:measure_work", "firmware/menu.c:menu_work", "firmware/buttons.c:buttons_work", "firmware/settings.c:settings_work"]}
{"id": "C80", "title": "An iron that stays too hot gets no current", "statement": "In the main loop: while regulation is on with the same wanted temperature and factors, and the measured temperature stays at least d above the wanted one and does not fall, the integral of the temperature controller, as long as it is positive, falls with every run by at least what Ki gives for d and a time step of 1/16 s; once it has had the time to fall from its limit of 80 C to the size of the proportional part, no current is demanded any more (with the shipped factors: 55 C too hot, after one further run; 10 C too hot, after 347 further runs). A run follows the one before after at least 55 ms and less than an evaluation period, which turns this into a time. Errors so small that Ki times the error times the time step rounds to zero are not integrated at all (with the shipped factors up to 0.4 C at the fastest rate).", "quantifier": "all builds, all executions of the main loop that meet the speed assumptions, all wanted temperatures, factors and excess temperatures d >= 0, all sequences of measured temperatures", "why_tests_cant": "the number of runs depends on the wound-up integral, the factors and the rounding of two fixed-point products; the worst case takes hundreds of runs", "anchors": ["firmware/pid.c:pid_run", "firmware/controller_temp.c:contrtemp_run", "firmware/measure.c:adc_trigger_next_chan", "firmware/main.c:main_loop_once"]}
{"id": "C81", "title": "EEPROM wear is bounded", "statement": "While the device is powered, two writes of the same EEPROM byte are at least as many seconds apart as there are places for the settings (1, 8 or 16), less the longest duration of a store (128 byte times); the device as shipped writes a byte at most once in 7.488 s, however the buttons are used. Bytes outside the places of the settings are never written.", "quantifier": "all builds, all executions of the main loop that meet the speed assumptions, over any number of power failures before, all button presses", "why_tests_cant": "the distance between two writes follows from the store timer, the ring of places, the write-if-different rule and the duration of a store together; a test sees one pattern of button presses", "anchors": ["firmware/settings.c:settings_work", "firmware/settings.c:store_settings", "firmware/settings.c:ISR(EE_READY_vect)", "firmware/ring.c:ring_next", "firmware/main.c:main_loop_once"]}
{"id": "C82", "title": "The host tool reads back what the firmware reports", "statement": "Whatever values the firmware prints on the debug interface, in any order and interleaved with switching debugging on and off: its text buffers suffice, and the table which dumpcurves.py makes of the transmitted text has exactly one row for every printed value with one name since debugging was switched on last, with the time stamp and the latest value of every column, currents in amperes (raw/640) and temperatures in degrees (raw/64); the terms of the PID controllers, printed with two names, leave the table alone. Whatever the tool has received before, for example half a line, switching debugging on makes it start with an empty table.", "quantifier": "all sequences of debug operations with the eleven names used by the firmware, all 32 bit values and 16 bit times; all contents received before", "why_tests_cant": "a round trip of two programs in different languages over unbounded sequences of texts; no test of the project covers either side", "anchors": ["firmware/debug_uart.c:debug_print_str3", "firmware/debug_uart.c:debug_print_int32", "firmware/debug_uart.c:debug_enable", "firmware/dumpcurves.py"]}
{"id": "C83", "title": "The hardware is configured for what the program assumes", "statement": "In every reachable state either a result is waiting for the main loop and the ADC is switched off, or the ADC is converting free-running, with its interrupt, the input of the active channel (current at ADC2, temperature at ADC1) against AREF, right adjusted, with a clock of 125 kHz and with the digital input of that pin disabled. A tick of the timer is 8064 clock cycles (1.008 ms), longer than any conversion. For a current command of 0 the PWM pin never goes low; for every command from 0 to 5 A the fraction of time in which it is low is that fraction of 5 A up to 1 mA. The UART uses the format which the host tool opens (8 bits, no parity, 2 stop bits) with a bit rate within 0.2 % of 9600.", "quantifier": "all reachable states, i.e. all sequences of interrupts, work functions and inputs from all valid EEPROM contents; all current commands 0-5 A", "why_tests_cant": "the tests of the project do not cover registers; the input multiplexer must match the active channel after every interleaving of the ADC interrupt and the main loop, and the duty cycle has to be right for every command", "anchors": ["firmware/measure.c:adc_trigger", "firmware/measure.c:adc_disable", "firmware/measure.c:measure_init", "firmware/timer.c:timer_init", "firmware/pwm_current.c:pwmcurr_init", "firmware/debug_uart.c:debug_uart_init"]}
{"id": "C84", "title": "The conversions of a measurement are counted without overflow", "statement": "If the ADC finishes at most N conversions in a tick (any N up to 1310; by C83 the real number is below 10), then in the main loop in real time the firmware never counts more than N per millisecond of averaging (5 for the current, 50 for the temperature) and one more. So the 16-bit counter cannot wrap, and the assumption about the conversions under which everything else is proved always holds.", "quantifier": "all executions of the main loop in real time, all rates up to 1310 conversions per tick, all ADC values", "why_tests_cant": "a statement about every interleaving of conversions, ticks and main loop; an overflow of the counter would be a rare wrong mean or a division by zero", "anchors": ["firmware/measure.c:ISR(ADC_vect)", "firmware/measure.c:adc_trigger_next_chan", "firmware/main.c:main_loop_once"]}
{"id": "C85", "title": "The alternative implementations of the scaling functions", "statement": "The implementations which scale.c offers by SCALE_IMPL 1, UNSCALE_IMPL 2 and RESCALE_IMPL 2 can replace the compiled ones: scale and (inside the calibrated range) unscale differ by at most one count, and only if the exact value is half way between two; for the shipped calibrations scale is the same for every ADC value, and the duty cycle is the same for every current except one, where it differs by one count. The alternative rescale is closer to the exact line (1/2 + 32/d instead of 1/2 + 64/d, where d is the width of the source range), and is the same when the target range starts at 0, as in the temperature controller.", "quantifier": "all arguments for which no overflow occurs; all ADC values, all currents", "why_tests_cant": "ties between two roundings are rare: among the 3201 currents there is one; and the arguments are three to five integers", "anchors": ["firmware/scale.c:scale", "firmware/scale.c:unscale", "firmware/scale.c:rescale"]}
{"id": "C86", "title": "The temperature shown is a recent one", "statement": "In the main loop an update of the display that has been requested is made within two watchdog periods. Whenever none is pending, the temperature screen (without an error message) shows the latest plausible temperature that was evaluated, rounded to degrees; this is less than an evaluation period old as long as the readings are plausible, and never older than 3000 ms, two evaluation periods and two watchdog periods: by then an error is shown instead.", "quantifier": "all executions of the main loop with any timing of its statements, interrupts and conversions within the assumed speed; all ADC values, button presses and EEPROM contents within the limits", "why_tests_cant": "a missed request for an update, or a lost error, would show only with the right interleaving of measurement, menu and timeouts", "anchors": ["firmware/main.c:main", "firmware/menu.c:menu_work", "firmware/menu.c:menu_update_display", "firmware/controller_temp.c:contrtemp_set_feedback", "firmware/measure_temp.c:meastemp_result_handler"]}
{"id": "C87", "title": "Debug output is complete, and stops the clock", "statement": "The debug interface in cycles of the system clock: however long the firmware takes between its polls of the transmitter, no byte is lost or overtaken; what has been sent is always the beginning of the text that was printed, and all of it two frames later. A line of n bytes keeps the interrupts disabled for at least n - 2 frames of 9152 cycles and at most n frames plus the firmware's own delays, and during it at most one tick of the clock is counted: every value the firmware prints takes at least seven ticks of which at least six are lost. Otherwise, and when debugging is switched on, no tick is lost.", "quantifier": "all histories of waiting, switching debugging on and printing lines; all texts; all delays of the polling loop", "why_tests_cant": "the loss depends on the phase of the timer and of the transmitter; a byte would be lost only for some delays; the simulator has neither UART timing nor interrupts", "anchors": ["firmware/debug_uart.c:debug_uart_tx", "firmware/debug_uart.c:debug_uart_tx_string", "firmware/debug_uart.c:debug_print_str3", "firmware/debug_uart.c:debug_uart_init", "firmware/timer.c:TIMER0_COMPA_vect"]}
{"id": "C88", "title": "The debug reports tell what the firmware does", "statement": "With its debug reports the evaluation of a measurement computes exactly what it computes without them. It reports: for a current the mean of the samples (mc), the smoothed mean (fc), the measured current if it has changed (cr1), and if the current controller runs the source of the feedback (rs), the feedback used (cr2), the five terms of the control law and the current set (cy); for a temperature the mean (mt), the temperature if it has changed (tr), and if the temperature controller runs the terms, the output (ty1) and the current demanded (ty2). A report prints the value with its name and the time exactly if it differs from the one reported before. The values reported last for the measured current, the current set, the memory of the current controller and the measured temperature are at all times those in force; no text buffer is overrun; and while debugging is on, a column of the table of the host tool holds the value reported last, provided that it has been printed since debugging was switched on.", "quantifier": "all states of the running firmware; all sequences of events; all switching of the debug interface", "why_tests_cant": "the claim is about every value of every controller run, and about switching debugging on and off at any time; a report that is stale or has a wrong name looks plausible", "anchors": ["firmware/controller_current.c:contrcurr_run", "firmware/controller_current.c:contrcurr_set_feedback", "firmware/controller_temp.c:contrtemp_run", "firmware/controller_temp.c:contrtemp_set_feedback", "firmware/measure.c:measure_handle_result", "firmware/measure_current.c:meascurr_filter_handler", "firmware/pid.c:pid_run", "firmware/debug_uart.c:debug_report_fixpt", "firmware/debug_uart.c:debug_enable", "firmware/dumpcurves.py"]}
{"id": "C89", "title": "Ticks of the timer inside the work functions change nothing but times", "statement": "The timer interrupt may come while a work function runs. With fewer than 1000 ticks (one second) inside a call, wherever they come, the call has the same effect as a call during which the time stands still, from a state that differs only in the times remembered, each by at most these ticks; afterwards the times remembered differ by at most these ticks, too. The timer advances by the ticks taken. No call is undefined. In every state of the running firmware with ticks inside its work functions: the heater is programmed for 0..5 A, it is off while a flag of the current controller is set, and only the evaluation of a measured current that leaves no flag set switches it on; the demand is zero in an emergency of the temperature controller; the set point is that of the settings; regulation is off exactly in the calibration and tuning screens; the settings are within their limits; the screen exists in the build; at most one digit is driven, and none while debugging. The ticks between the two readings of the timer in a controller run belong to no time step.", "quantifier": "all states; all work functions; all distributions of fewer than 1000 ticks over the readings of the timer; all sequences of interrupts and calls", "why_tests_cant": "the instant of an interrupt inside a function cannot be controlled by a test; the claim is about every place where the timer is read and every combination of ticks before them", "anchors": ["firmware/timer.c:timer_now", "firmware/measure.c:measure_handle_result", "firmware/controller_temp.c:contrtemp_run", "firmware/controller_current.c:contrcurr_run", "firmware/menu.c:menu_work", "firmware/buttons.c:buttons_work", "firmware/display.c:display_work", "firmware/settings.c:settings_work"]}
{"id": "C90", "title": "The 24-bit types of the tests compute what those of the target compute", "statement": "The unit tests and the simulator run on a host without 24-bit types; two classes imitate them. Conversion to such a class takes an integer to the value equal to it modulo 2^24. Signed sum, difference, product and quotient are those of the target wherever the target has a result; unsigned ones agree modulo 2^24; comparisons with an operand of at most 24 bits agree; the bitwise operators act on each of the 24 bits. The functions deflate, negate, absolute value, clamp and decimal fraction of the fixed-point arithmetic and the filter of 16-bit values give on the host what they give on the target. Two differences: where a signed sum or difference overflows (undefined on the target) the host goes on with the value modulo 2^24; and an operand of 32 bits on the right is cut to 24 bits before the operation, so 0 < 8388608 is false, 1 + 16777216 is 1 and 1 / 16777216 divides by zero on the host.", "quantifier": "all operands, all operators", "why_tests_cant": "these classes are what the tests run on; a difference to the target invalidates tests without being seen by them, and the operands are 2^24 or 2^32 each", "anchors": ["firmware/tests/fake/int24.h:Int24", "firmware/tests/fake/int24.h:UInt24", "firmware/fixpt.c:fixpt_deflate", "firmware/fixpt.c:fixpt_get_dec_fract", "firmware/filter.c:lp_filter_u16_run"]}
{"id": "C91", "title": "The sensors and the heater of the simulator have the scales of the firmware", "statement": "A temperature from -194 to 1484 degrees set in the simulator becomes an ADC reading of 0..1023 which the firmware of an SMD build takes for that temperature, up to 0.83 degrees; below -195 degrees the reading wraps (-200 degrees is the reading 65535). In the running firmware, a temperature measurement all samples of which are this reading gives the temperature controller this temperature less the adjustment, up to 0.83 degrees, if that is from -19 to 499 degrees. A current from 0 to 17 A becomes a reading which the firmware takes for that current, up to 0.01 A. The current which the simulator reads back from the PWM is the one the heater is programmed for, up to 0.0004 A, and from 0 to 5 A. A setting written by the simulator is rounded to the nearest 1/64; read back it is exact, and writing what was read changes nothing.", "quantifier": "all temperatures and currents (rational numbers) in the stated ranges; all states of the running firmware; all 24-bit settings", "why_tests_cant": "the simulator is the only test of the closed loop; that its physics and the firmware agree for every temperature and current cannot be seen by running it", "anchors": ["firmware/simulator/xytronic_simulator.py:Simulator.adc_temp_set", "firmware/simulator/xytronic_simulator.py:Simulator.pwm_current_get", "firmware/simulator/simulator.cxx:simulator_adc_set", "firmware/measure_temp.c:meastemp_result_handler", "firmware/measure_current.c:meascurr_result_handler", "firmware/pwm_current.c:pwmcurr_set"]}
{"id": "C92", "title": "The simulator shows what the firmware reported, but possibly long ago", "statement": "The simulator takes what the firmware transmitted out of a ring of 4096 bytes after every pass of the main loop: it gets these bytes in order if they are fewer than 4096, and of n bytes the last n mod 4096 (none of exactly 4096). The reader handles the lines in the order in which they were transmitted and loses none, but at most one for each pass, and none in a pass in which nothing was transmitted, however many are waiting. Whatever the firmware reports with the names it uses, no text buffer overruns, and the 21 variables of the simulator are the values reported last up to some earlier moment, since debugging was switched on last, in amperes and degrees; if every pass transmits at most one report they are up to date. If every pass transmits two lines then n lines are waiting after n passes, so what is shown gets ever older.", "quantifier": "all sequences of reports with 32-bit values and 16-bit times; all ways in which the text falls into passes", "why_tests_cant": "a test looks at the variables after passes with few reports; the lag appears only with several reports per pass and grows without bound", "anchors": ["firmware/simulator/simulator.cxx:UDR0_write_hook", "firmware/simulator/simulator.cxx:simulator_uart_get_tx", "firmware/simulator/xytronic_simulator.py:Simulator.__uart_tx_get_line", "firmware/simulator/xytronic_simulator.py:Simulator.__handle_debuginterface", "firmware/debug_uart.c:debug_print_int32", "firmware/debug_uart.c:debug_enable"]}
{"id": "C93", "title": "The menu follows its documented diagram", "statement": "The boxes of the menu diagram (doc/menu.dia) that are in the build, with the boxes not in the build passed along their SET arrow, are entered and left as the diagram says. Every change of the box has the reason written at its arrow: SET was released, plus or minus was released (short press), the time of the box was over, or plus or minus had been held for at least one second; and every arrow is followed when its reason occurs: SET while debugging is off and no other panel button is released in the same sample (while the name of a value is displayed, SET leads to the value within the box), a short press on release, the timeout after 3 s without a touch, the hold arrow with the first step of the ramp. Only two moves are not in the diagram: holding plus or minus leads from the preset selection to the preset change too, and if plus or minus is released in the same sample as a SET that leads to the temperature, the preset selection opens at once. While debugging is on nothing leads out of the debug box.", "quantifier": "all builds (with presets), all reachable states of the menu, all samples of the buttons and times", "why_tests_cant": "the moves depend on the build, the box, the edges of three buttons in a sample and several times; the undocumented moves need two releases within one 10 ms sample or a hold in the right box", "anchors": ["doc/menu.dia", "firmware/menu.c:next_menu_state", "firmware/menu.c:menu_button_handler", "firmware/menu.c:menu_work", "firmware/menu.c:settemp_ramp_handler"]}
{"id": "C94", "title": "The controllers and their documented diagram", "statement": "In the diagram of the controllers (doc/controller.dia) the temperature set point and the output of the temperature controller are documented with 0..480 C, the current set point, the current feedback and the output of the current controller with 0..5 A, the PWM value with 0..0x1FFF and the ADC values with 0..0x3FF: the firmware never leaves these ranges. The temperature feedback, documented with 0..480 C, is between -20 C and 500 C, and is outside of the documented range at times; so are the differences between set points and feedback. The documented factors are not those of the program: not those of the current controller in any state, and not those of the temperature controller in the shipped settings of any boost mode.", "quantifier": "all reachable states of all builds; all boost modes of the shipped settings", "why_tests_cant": "ranges of internal signals over all histories of readings", "anchors": ["doc/controller.dia", "firmware/controller_temp.c:contrtemp_run", "firmware/controller_current.c:contrcurr_run", "firmware/controller_temp.h", "firmware/controller_current.h", "firmware/pwm_current.c:pwmcurr_set"]}
{"id": "C95", "title": "The firmware with any content of the EEPROM", "statement": "For any content of the EEPROM the firmware finds a slot to load, and booting is free of undefined behaviour exactly if that slot selects one of the six presets; with an erased EEPROM it is undefined. Whatever the settings contain, as long as nothing undefined happens: the heater command is between 0 and 5 A; it is 0 A while an emergency flag of the current controller is set; the temperature in use is between -20 C and 500 C; when the enabled temperature controller processes a temperature above 480 C, the flag is set and the heater is off, until a temperature of at most 480 C is processed; while the temperature is below 100 C at most 2 A are programmed; while the temperature emergency lasts no current is demanded and at most 0.5 A are programmed. Not guaranteed is the absence of undefined behaviour (one wrong byte in a controller factor, or a small decay factor, overflows the controller) and the relation of the temperature in use to the sensor (with one wrong byte in the adjustment a sensor at 544 C is heated with 5 A).", "quantifier": "all builds, all contents of the EEPROM, all sequences of events", "why_tests_cant": "256^512 or 256^1024 contents of the EEPROM", "anchors": ["firmware/settings.c:settings_init", "firmware/presets.c:presets_get_active_value", "firmware/controller_temp.c:contrtemp_init", "firmware/controller_temp.c:contrtemp_run", "firmware/controller_current.c:contrcurr_run", "firmware/measure.c:measure_handle_result", "firmware/measure_temp.c:meastemp_result_handler"]}
{"id": "C96", "title": "Power failures without the EEPROM ring", "statement": "In a build with CONF_EERING off, the settings not being changed while they are written: while no store is in progress, a power failure and reboot yield exactly the settings stored last. During a store they yield a beginning of the new settings, then at most one byte of any value (the one being programmed), then the end of the old ones. So the values are not protected: selecting another preset can leave a number of 255, with which booting is undefined from then on, and raising the set point from 350 C to 352 C can leave 1020 C. With the ring the selected preset and the set points found are those stored last or those being stored.", "quantifier": "all builds without (resp. with) the ring, every history of changes, stores, power failures and reboots, every crash point, every value of the interrupted byte", "why_tests_cant": "crash points times histories; the interrupted byte may have any value", "anchors": ["firmware/settings.c:settings_work", "firmware/settings.c:EE_READY_vect", "firmware/settings.c:settings_init", "firmware/presets.c:presets_get_active_value"]}
{"id": "C97", "title": "Interrupts in the simulator", "statement": "The simulator runs the interrupt handlers of the firmware in a second thread. From the return of a function that disables interrupts to the call of one that enables them no handler runs, whatever the order of the steps of the two threads; bit I of SREG tells which is the case; saving and restoring leaves the interrupts as they were. The handshake cannot block: while the main program waits, the I/O thread can go on, and ten of its steps end the wait. Unlike on the device, a handler can run before the interrupts are enabled for the first time (until they are first disabled). At most as many timer interrupts are requested as milliseconds have passed, exactly as many if the simulated timer looks at the clock at least every millisecond; otherwise ticks are lost.", "quantifier": "every interleaving of the steps of the two threads, every sequence of calls and of interrupt requests, every sequence of clock readings", "why_tests_cant": "interleavings of two threads", "anchors": ["firmware/simulator/simulator.cxx:sim_irq_disable", "firmware/simulator/simulator.cxx:sim_irq_enable", "firmware/simulator/simulator.cxx:sim_irq_disable_save", "firmware/simulator/simulator.cxx:sim_irq_restore", "firmware/simulator/simulator.cxx:io_thread_func", "firmware/simulator/simulator.cxx:simulate_timer0"]}
{"id": "C98", "title": "The main loop in real time with time spent inside the work functions", "statement": "Timer and ADC interrupts may come inside the work functions, which may take any time the watchdog allows. Then still: the heater is driven with 0 to 5 A, it is off while an emergency flag is set, no current is requested in the temperature emergency, and no work function is undefined. Each work function is called again within two watchdog periods W. Temperature and current are evaluated again within 5 + 50 + 2A + 4W ms. If all temperatures evaluated for that long were above 480 C (and at most 500 C), outside the calibration and tuning screens, the heater is off. If all temperatures evaluated for 3000 ms, two evaluation periods and 3W were implausible, the temperature emergency is active. A plausible temperature rules the emergency out for 3000 ms - 2W.", "quantifier": "every execution of the main loop with ticks at any reading of the timer inside the work functions, that meets the speed assumptions: watchdog reset at least every W < 1000 ms, a conversion at least every A ms while the ADC is on", "why_tests_cant": "universal over all interleavings, loop durations and run lengths; wrapping 16-bit timers read at different moments of one call", "anchors": ["firmware/main.c:main_loop_once", "firmware/measure.c:measure_work", "firmware/measure.c:measure_handle_result", "firmware/measure_temp.c:meastemp_result_handler", "firmware/timer.h:timer_expired"]}
{"id": "C99", "title": "Switching the current controller off and on", "statement": "contrcurr_set_enabled(off, p) with p from 0 to 100 sets the heater to p percent of 5 A. If the controller was on it forgets its integral and previous deviation and the selection of the feedback starts anew; set point, factors, limits, emergency flags and all else stay. While the controller is off a measured current changes nothing but the remembered feedback, and a new emergency still switches the heater off. Switching on again switches the heater off and starts without a past; switching on a controller that is on does nothing. The emergency flags are not looked at when switching off, and percentages above 100 are not rejected (F31).", "quantifier": "every state of the firmware, every percentage (uint8_t), every measured current", "why_tests_cant": "universal over all controller states; no code of the firmware calls the function with off, so that no run of the program reaches it", "anchors": ["firmware/controller_current.c:contrcurr_set_enabled", "firmware/controller_current.c:contrcurr_run", "firmware/controller_current.c:contrcurr_set_emerg", "firmware/pwm_current.c:pwmcurr_set"]}
{"id": "C100", "title": "Reading and writing settings in the simulator", "statement": "Reading a setting in the simulator yields it and leaves settings, heater and current controller alone. Writing a setting changes it only, to what is left of the number in its type, and requests a store; what is written within the limits is read back. While settings are read, and written within their limits, at any time, the properties of the firmware hold: nothing is undefined, the heater gets 0 to 5 A and is off in an emergency, and set point, controller factors and adjustment in force are those of the settings. The graphical program's temperature (0 to 480 C) becomes the set point of the selected first preset. Reading a controller factor however clears the past of the temperature controller, reading the idle set point requests a store, and limits are not checked on writing (F32).", "quantifier": "every state of the simulated firmware reached by any sequence of interrupts, work calls, reads and writes; every name and every number", "why_tests_cant": "universal over all states and all interleavings of accesses with the firmware", "anchors": ["firmware/simulator/simulator.cxx:simulator_setting_access", "firmware/simulator/pyxytronic.cxx:xy_simulator_setting_write", "firmware/simulator/pyxytronic.cxx:xy_simulator_setting_read", "firmware/simulator/xytronic_simulator_gui.py:__updateValues", "firmware/controller_temp.c:contrtemp_update_pid_config"]}
{"id": "C101", "title": "The iron button in builds without boost or without idle mode", "statement": "With idle mode alone: without CONF_IDLETOGGLE the iron is at any time in idle mode exactly if its button was down when last sampled (also when it was down from the start); with CONF_IDLETOGGLE exactly if the button has been pressed an odd number of times since boot. With boost mode alone every press advances the boost mode by one of three at once, however long it is held, and nothing else changes it except the reset by a release of SET. Without a mode the iron is never in it.", "quantifier": "every state reached by any sequence of interrupts and work calls, every sequence of samples, every build that does not have both modes", "why_tests_cant": "universal over all histories of samples of unbounded length, in builds that are not the shipped ones", "anchors": ["firmware/controller_temp.c:contrtemp_button_handler", "firmware/buttons.c:buttons_work"]}
{"id": "C102", "title": "The digits are lit in turn, one each millisecond", "statement": "If an iteration of the main loop takes at most 1 ms, then while the display is on (since boot, or since debugging was last switched off) lighting number k comes k ms after it was switched on or at most two iterations later, none is left out, each lighting is of the digit after the previous one, only the digit last lit is on, and so every digit has its turn every 4 ms give or take two iterations. (With slower iterations, which the watchdog allows, the multiplexing falls behind until the 16-bit timer is out of range and then one digit stays lit for 32 s: shown by an example.)", "quantifier": "every execution of the main loop (work functions in the order of main_loop_once, interrupts anywhere between them) that meets the speed assumptions, any use of the buttons, debugging switched on and off at any time", "why_tests_cant": "unbounded number of lightings, wrapping 16-bit timer, all placements of interrupts and all button sequences", "anchors": ["firmware/display.c:display_work", "firmware/display.c:display_enable", "firmware/debug_uart.c:debug_enable", "firmware/main.c:main_loop_once"]}
{"id": "C103", "title": "The iron button in real time", "statement": "In builds with boost and idle mode, if an iteration of the main loop takes at most 10 ms, then idle mode is at all times exactly what the samples of the iron button since boot require: a press begun in idle mode leaves it at once and does not enter it again however long the button is held; any other press does not enter idle mode before the button has been held for 1000 ms and has entered it once it has been held for 1010 ms and two iterations; while the button is up idle mode stays as it was. The sample that sees the button released advances the boost mode by one of three exactly if the press was not begun in idle mode and has not entered it. (Only the release of SET can reset the boost mode.)", "quantifier": "every execution of the main loop (work functions in the order of main_loop_once, interrupts anywhere between them) that meets the speed assumptions, any sequence of presses of any length", "why_tests_cant": "presses of any length and at any time after boot, wrapping 16-bit timer, all placements of interrupts; the conclusion holds without any assumption on how long a press is left without a sample, which follows from the speed of the loop", "anchors": ["firmware/controller_temp.c:contrtemp_button_handler", "firmware/buttons.c:buttons_work", "firmware/main.c:main_loop_once"]}
{"id": "C104", "title": "An iron that stays too cold gets current", "statement": "In the main loop: while regulation is on with the same wanted temperature and factors and the memory of the controller is not cleared (a change of the boost mode clears it), and the measured temperature stays at least d below the wanted one and does not rise, the integral of the temperature controller rises with every run by at least what Ki gives for d and a time step of 1/16 s until it is at its limit of 80 C, and every run demands at least the current that belongs to the proportional part for d plus the integral so reached. After as many runs (or evaluation periods) as it takes from -30 C to 80 C the demand is at least the current for the proportional part plus 80 C (with the shipped factors: 120 C too cold, the full 5 A after 50 runs). The demand is that of the temperature controller; below 100 C the current controller limits it to 2 A (C38).", "quantifier": "all builds, all executions of the main loop that meet the speed assumptions, all wanted temperatures, factors and deficits d >= 0, all sequences of measured temperatures", "why_tests_cant": "the number of runs depends on the integral left from before, the factors and the rounding of two fixed-point products; the worst case takes hundreds of runs", "anchors": ["firmware/pid.c:pid_run", "firmware/controller_temp.c:contrtemp_run", "firmware/controller_temp.c:temp_to_amps", "firmware/main.c:main_loop_once"]}
{"id": "C105", "title": "The heater while no current is demanded", "statement": "While the set point of the current controller is 0 (temperature too high, sensor lost, calibration and tuning screens), a step leaves the heater command as it is or programs at most 0.5 A, and in the main loop the command is at most 0.5 A from one evaluation period (1057 ms with iterations of 250 ms) after the demand became 0; in particular from one period after a tuning screen was entered and after the temperature sensor was declared lost. While the controller uses the measured current and that is at least d, its integral falls with every run by at least what Ki gives for d and a time step of 1/16 s, and the heater is off after as many runs as it takes from 0.5 A to the proportional part for d (0.4 A measured: one run; 0.05 A: 66 runs). With a measured current of 0 the heater stays on at the command left in the integral (example, finding F8).", "quantifier": "all builds, all executions of the main loop that meet the speed assumptions, all sequences of measured currents and temperatures, all lower bounds d >= 0 of the current", "why_tests_cant": "the worst case needs an integral at its limit when the demand ends, and the number of runs depends on the rounding of two fixed-point products; at a small current dozens of runs are needed", "anchors": ["firmware/controller_current.c:contrcurr_run", "firmware/pid.c:pid_run", "firmware/controller_temp.c:contrtemp_set_enabled", "firmware/controller_temp.c:contrtemp_set_emerg", "firmware/main.c:main_loop_once"]}
{"id": "C106", "title": "A value changed by a held button, in real time", "statement": "In the main loop, holding plus or minus on a screen with a value (or, where the temperature or a preset is displayed, holding it for one second, give or take two iterations of the loop) starts a ramp. From then on, as long as the ramp goes on, the value is the one it began with moved by k whole steps (1 C, 1/32 or 1/64) within its limits, where k is never ahead of the schedule 0, 400, 600, 700, 750, 775, ... ms after the start, and behind it only by two iterations, plus one iteration for every step that is due in less than an iteration. So the limit is reached after a time that can be stated in advance. If an iteration takes at most 25 ms the schedule itself is kept for any length of time; for slower loops this holds for 32.7 s, because the 16-bit timer of the ramp then falls behind.", "quantifier": "every execution of the main loop (work functions in the order of main_loop_once, interrupts anywhere between them) that meets the speed assumptions, all value screens, all builds, any starting value, ramps of any length", "why_tests_cant": "ramps of any length, with any placement of interrupts and any wrap of the 16-bit timers; the lag depends on all iterations since the start", "anchors": ["firmware/menu.c:menu_work", "firmware/menu.c:start_ramping", "firmware/menu.c:do_ramp_temp", "firmware/main.c:main_loop_once"]}
{"id": "C107", "title": "The user interface as a machine of its own", "statement": "At every moment of the main loop, the displayed screen, the change of a value by a held button, the settings and the debug switch are what a small machine makes of two kinds of events: the samples of the buttons, and the times of the calls of menu_work with the failures present then. In a sample SET comes first, then minus, then plus; each button that is down or changes extends the screens that last 3 s; one that goes down begins to change a value (at once or after one second) or switches debugging; one that goes up ends any change, and leads to the next screen (SET) or to another preset. menu_work leaves a screen whose time is over, ends a change when a failure comes or goes, and makes one step of a change when it is due. Nothing else moves the user interface, and no combination of buttons is left out.", "quantifier": "every execution of the main loop (work functions in the order of main_loop_once, interrupts anywhere between them) that meets the speed assumptions, with iterations of at most 25 ms; every sequence of samples, with any buttons going down and up together; all builds; any length of time", "why_tests_cant": "all sequences of button samples and all times, including the wraps of the 16-bit timers; the machine is followed for any length of time", "anchors": ["firmware/menu.c:menu_button_handler", "firmware/menu.c:menu_work", "firmware/menu.c:menu_set_state", "firmware/menu.c:start_ramping", "firmware/buttons.c:buttons_work", "firmware/main.c:main_loop_once"]}
{"id": "C108", "title": "The circuits of the simulator", "statement": "A step of RCNet.calc of any length is what the circuit does in that time: the voltage of the capacitor begins where it was, the current is the one through the resistor, and it is the rate at which the charge of the capacitor grows; with a constant input any number of steps is as good as a single one of their total length; the voltage moves towards the input and never beyond it. The two voltages of the VoltageDivider add up to the input, in the ratio of the resistors. The voltage of the SineGenerator is the sine at the total time of the steps. The output of the PWMGenerator is the pulse-width modulated signal at the total time, without a message, as long as no step is longer than the pause or the pulse.", "quantifier": "all real component values, inputs, charges and step lengths (rational ones for the PWM), every number of steps; rounding of the floating-point numbers is left out", "why_tests_cant": "all step lengths and component values; the solution of a differential equation; step sequences of any length", "anchors": ["firmware/simulator/circuits/rcnet.py:RCNet", "firmware/simulator/circuits/voltagedivider.py:VoltageDivider", "firmware/simulator/circuits/sine.py:SineGenerator", "firmware/simulator/circuits/pwm.py:PWMGenerator"]}
{"id": "C109", "title": "The user interface, with interrupts inside the work functions", "statement": "Also when the timer ticks inside the work functions, between any two of their readings of the time, the machine of C107 runs beside the firmware and agrees with it at every moment: in a call of buttons_work that finds the debouncing time over, each button does what it does in C107 at some time during the call, in the order SET, minus, plus; in a call of menu_work the screen is left, the failure is shown and the change goes on at successive times during the call; nothing else moves the user interface. With no tick inside a call it is exactly the machine of C107.", "quantifier": "every finite execution of the main loop with any number of ticks before each reading of the timer inside the work functions and with ADC interrupts anywhere, that meets the speed assumptions, with iterations of at most 25 ms; every sequence of samples; all builds; any length of time", "why_tests_cant": "all places at which interrupts can come, all sequences of button samples and all times, including the wraps of the 16-bit timers", "anchors": ["firmware/menu.c:menu_button_handler", "firmware/menu.c:menu_work", "firmware/menu.c:start_ramping", "firmware/buttons.c:buttons_work", "firmware/timer.c:TIMER0_COMPA_vect", "firmware/main.c:main_loop_once"]}
{"id": "C110", "title": "The settings are stored in time, with interrupts inside the work functions", "statement": "Also when the timer ticks and the EEPROM writer steps inside the work functions: after a change of a setting (or a repeated request) the store starts not earlier than 1000 ms after it and not later than 1000 ms and two watchdog periods after it, unless something else is changed meanwhile; a store starts only when the one before has finished; and when nothing has been changed or requested for 1000 ms, two watchdog periods and the time for 128 steps of the EEPROM writer, nothing is pending or in progress, and switching off and on gives the settings back exactly as they are.", "quantifier": "every life of the device from the shipped EEPROM on, with power failures and reboots at any moment, as executions of the main loop with any number of ticks before each reading of the timer inside the work functions, ADC interrupts anywhere, and EEPROM interrupts that come inside work functions and are up to one call late in the model; speed assumptions W < 1000, 128 B + W < 1000; all builds", "why_tests_cant": "all places at which the interrupts can come, all contents of the EEPROM ring and all times, including the wraps of the 16-bit timer and of the serial number", "anchors": ["firmware/settings.c:store_settings", "firmware/settings.c:settings_work", "firmware/settings.c:EE_READY_vect", "firmware/timer.c:TIMER0_COMPA_vect", "firmware/main.c:main_loop_once"]}
{"id": "C111", "title": "A lost current measurement, with interrupts inside the work functions", "statement": "Also when the timer ticks inside the work functions: each evaluated current is that of the smoothed mean reading; a value from 0 A to 5 A becomes the feedback of the current controller, any other leaves it as it is. When all currents whose evaluation began in the last 3000 ms, two evaluation periods and four watchdog periods were implausible, the emergency flag for the current is set and the heater is off. A plausible current within the last 3000 ms less two watchdog periods keeps the flag away, and the evaluation of a plausible current removes it.", "quantifier": "every execution of the main loop from boot with any valid EEPROM, with any number of ticks before each reading of the timer inside the work functions and ADC interrupts anywhere; all speeds with W < 1000 and an evaluation period of at most 29000 ms; all builds", "why_tests_cant": "all places at which the tick can come between the readings of the time, all histories of readings and smoothing, and the wraps of the 16-bit timer", "anchors": ["firmware/measure_current.c:meascurr_filter_handler", "firmware/measure_current.c:meascurr_result_handler", "firmware/measure.c:measure_work", "firmware/controller_current.c:contrcurr_set_emerg", "firmware/timer.c:TIMER0_COMPA_vect"]}
{"id": "C112", "title": "The buttons are sampled every 10 ms and the screens are served in time, with interrupts inside the work functions", "statement": "Also when the timer ticks inside the work functions: if an iteration of the main loop takes at most 10 ms, sample number k of the buttons is taken at 10 k ms or at most two iterations later, none is left out, consecutive samples are 10 ms apart give or take two iterations, and what the firmware remembers of the buttons is the last sample. If an iteration takes at most 25 ms, the user interface of C109 is served in time: a screen with limited time is left, a wait becomes a change and a step of a change is made at most two iterations after it is due.", "quantifier": "every execution of the main loop from boot with any valid EEPROM, with any number of ticks before each reading of the timer inside the work functions and ADC interrupts anywhere, that meets the speed assumptions; every sequence of pins; all builds; any length of time", "why_tests_cant": "all places at which the tick can come inside the work functions, unbounded number of samples, the wraps of the 16-bit timer", "anchors": ["firmware/buttons.c:buttons_work", "firmware/menu.c:menu_work", "firmware/timer.h", "firmware/timer.c:TIMER0_COMPA_vect", "firmware/main.c:main_loop_once"]}
{"id": "C113", "title": "The controllers' time step is the time since their previous run, with interrupts inside the work functions", "statement": "Also when the timer ticks inside the work functions: every run of the temperature controller, except one with which it comes back from a lost sensor, begins less than an evaluation period (1057 ms as shipped) after the end of the call in which it ran before or was switched on, and its time step is a time from some moment of that call to some moment of this one, to the nearest 1/64 s; in particular it is never negative. The same holds for every run of the current controller that follows a run (or boot) with no evaluation of the current in between.", "quantifier": "every execution of the main loop from boot with any valid EEPROM, with any number of ticks before each reading of the timer inside the work functions and ADC interrupts anywhere, that meets the speed assumptions; every sequence of pins; all builds; any length of time", "why_tests_cant": "all places at which the tick can come inside the work functions, in particular between the two readings of the timer in a run; unbounded number of runs; the wraps of the 16-bit timer", "anchors": ["firmware/controller_temp.c:contrtemp_run", "firmware/controller_temp.c:do_set_enabled", "firmware/controller_current.c:contrcurr_run", "firmware/main.c:main_loop_once", "firmware/timer.c:timer_ms_since"]}
{"id": "C114", "title": "The control laws hold with interrupts inside the work functions", "statement": "Also when the timer ticks inside the work functions: from the end of an evaluation of the temperature (or of the current) to the beginning of the next one it takes at least 55 ms. Every run of the temperature controller that begins at least 8 ms after its previous run or switch, except one with which it comes back from a lost sensor, applies the PID law with the factors of the boost mode to the difference between the temperature wanted and measured, with a time from some moment of the previous run to some moment of this one as time step, and demands the current for the output (0 A above 480 C). Every run of the current controller that follows a run (or boot) with no evaluation of the current in between applies the law with P = 1.8, I = 2 to the difference between demand and selected feedback with such a time step, and programs the output, limited to 2 A while the restriction is in force. Between the runs the memories are kept; that of the temperature controller is cleared when the controller is switched or the boost mode changes.", "quantifier": "every execution of the main loop from boot with any valid EEPROM, with any number of ticks before each reading of the timer inside the work functions and ADC interrupts anywhere, that meets the speed assumptions; every sequence of pins and of measurements; all builds; any length of time", "why_tests_cant": "all places at which the tick can come inside the work functions, in particular between the two readings of the timer in a run; unbounded number of runs; all values of the controllers' memories", "anchors": ["firmware/controller_temp.c:contrtemp_run", "firmware/controller_current.c:contrcurr_run", "firmware/pid.c:pid_run", "firmware/measure.c:measure_work", "firmware/main.c:main_loop_once"]}
{"id": "C115", "title": "The heater while no current is demanded, with interrupts inside the work functions", "statement": "Also when the timer ticks inside the work functions: while the set point of the current controller is 0, a step leaves the heater command as it is or programs at most 0.5 A, and the command is at most 0.5 A from one evaluation period (1057 ms as shipped) after the demand became 0; in particular from one period after a tuning screen was entered and after the temperature sensor was declared lost. While the controller uses the measured current and that is at least d, its integral falls with every run by at least what Ki gives for d and a time step of 1/16 s, and the heater is off after as many runs as it takes from 0.5 A to the proportional part for d.", "quantifier": "every execution of the main loop from boot with any valid EEPROM, with any number of ticks before each reading of the timer inside the work functions and ADC interrupts anywhere, that meets the speed assumptions; every sequence of pins and of measurements; all builds; any length of time; all lower bounds d >= 0 of the current", "why_tests_cant": "all places at which the tick can come inside the work functions; all histories before the demand became 0; unbounded time afterwards", "anchors": ["firmware/controller_current.c:contrcurr_run", "firmware/controller_temp.c:contrtemp_set_enabled", "firmware/controller_temp.c:contrtemp_set_emerg", "firmware/main.c:main_loop_once"]}
{"id": "C116", "title": "An iron that stays too hot or too cold, with interrupts inside the work functions", "statement": "Also when the timer ticks inside the work functions: while regulation is on with the same wanted temperature and factors and the measured temperature stays at least d above the wanted one and does not fall, the integral falls with every run by at least what Ki gives for d and a time step of 1/16 s, and once it has had the runs to fall from 80 C to the size of the proportional part, no current is demanded; in time, after as many times (and one) the sum of an evaluation period and a watchdog period. While it stays at least d below the wanted one and does not rise, and the memory is not cleared, every run demands at least the current that belongs to the proportional part for d plus the integral so reached, and from as many times that sum as runs from -30 C to 80 C need, at least the current for the proportional part plus 80 C.", "quantifier": "every execution of the main loop from boot with any valid EEPROM, with any number of ticks before each reading of the timer inside the work functions and ADC interrupts anywhere, that meets the speed assumptions; every sequence of pins and of measurements; all builds; all factors, differences d >= 0 and any length of time", "why_tests_cant": "all places at which the tick can come inside the work functions; all histories of the controller before; hundreds of runs for small differences; all settings", "anchors": ["firmware/controller_temp.c:contrtemp_run", "firmware/pid.c:pid_run", "firmware/measure.c:measure_work", "firmware/main.c:main_loop_once"]}
{"id": "C117", "title": "The digits take their turns in time, with interrupts inside the work functions", "statement": "Also when the timer ticks inside the work functions, and an iteration of the main loop takes at most 1 ms: while the display is on, lighting number k (from 0) of a digit comes k ms after the display came on (boot, or a time during the call of buttons_work that ended debugging), or at most two iterations later, and none is missing; the digits follow one another in order, the last one lit is the only one that is on, and each has its turn every 4 ms, give or take two iterations.", "quantifier": "every execution of the main loop from boot with any valid EEPROM in which an iteration takes at most 1 ms, with a tick before any reading of the timer inside the work functions and ADC interrupts anywhere; every sequence of pins and of measurements; all builds; any length of time", "why_tests_cant": "all places at which the tick can come inside the work functions; all executions of any length, across wraps of the 16-bit timer and switching of debugging at any time", "anchors": ["firmware/display.c:display_work", "firmware/display.c:display_enable", "firmware/sseg.c:sseg_multiplex", "firmware/menu.c:menu_button_handler", "firmware/main.c:main_loop_once"]}
{"id": "C118", "title": "The display keeps up with the measurements, with interrupts inside the work functions", "statement": "Also when the timer ticks inside the work functions: whenever no update of the display is pending, the digits hold the text that belongs to the screen and the present values; an update is pending for at most two watchdog periods. Without an error the temperature screen then shows the latest plausible temperature, whose evaluation began less than 3000 ms, two evaluation periods and six watchdog periods ago; when there has been none for that long, an error is shown instead. The evaluation of the latest temperature, plausible or not, began less than an evaluation period and a watchdog period ago.", "quantifier": "every execution of the main loop from boot with any valid EEPROM, with any number of ticks before each reading of the timer inside the work functions and ADC interrupts anywhere, that meets the speed assumptions; every sequence of pins and of measurements; all builds; any length of time", "why_tests_cant": "all places at which the tick can come inside the work functions; all executions of any length, across wraps of the 16-bit timer; all sequences of readings and of button presses", "anchors": ["firmware/menu.c:menu_work", "firmware/menu.c:menu_update_display", "firmware/menu.c:menu_request_display_update", "firmware/display.c:display_show", "firmware/measure.c:measure_handle_result", "firmware/main.c:main_loop_once"]}
{"id": "C119", "title": "The iron button keeps its times with interrupts inside the work functions", "statement": "In the builds with boost and idle mode, with a main loop that takes at most 10 ms, also when the timer ticks inside the work functions: a press of the iron button in idle mode leaves idle mode at once and does not enter it again; any other press does not enter idle mode before the button has been held for 1000 ms, and has entered it when it has been held for 1010 ms and three iterations. The sample which sees the button released advances the boost mode by one of three, unless the press was begun in idle mode or has entered it. Nothing but a sample of the buttons changes idle or boost mode, and a sample with the button up leaves idle mode as it is.", "quantifier": "every execution of the main loop from boot with any valid EEPROM, with any number of ticks before each reading of the timer inside the work functions and ADC interrupts anywhere, that meets the speed assumptions with at most 10 ms an iteration; every sequence of pins; all builds with boost and idle mode; any length of time", "why_tests_cant": "all places at which the tick can come inside the work functions; all executions of any length, across wraps of the 16-bit timer; all sequences of presses of all buttons", "anchors": ["firmware/controller_temp.c:contrtemp_button_handler", "firmware/controller_temp.c:contrtemp_do_idle", "firmware/buttons.c:buttons_work", "firmware/timer.c:timer_expired", "firmware/main.c:main_loop_once"]}
{"id": "C120", "title": "The EEPROM does not wear out faster with interrupts inside the work functions", "statement": "While the device is powered, also when the timer ticks and the EEPROM writer runs inside the work functions: two writes of the same byte of the EEPROM are at least as many seconds apart as there are places for the settings (8 in 512 bytes, 16 in 1024 bytes, 1 without the ring), less the time which a store may take (128 byte times). Only the places of the settings are written. The station as shipped writes a byte at most once in 7.488 s.", "quantifier": "every execution of the main loop over the life of the device (boots, power failures at any byte, reboots into valid settings), with any number of ticks before each reading of the timer and the writer's interrupts anywhere, that meets the speed assumptions; all sequences of stores; all builds; any length of time", "why_tests_cant": "a bound on the distance of all pairs of writes over an unbounded time; all moments at which the writer's interrupt can come; every position in the ring", "anchors": ["firmware/settings.c:settings_work", "firmware/settings.c:store_settings", "firmware/settings.c:ISR(EE_READY_vect)", "firmware/ring.c:ring_next", "firmware/main.c:main_loop_once"]}
{"id": "C121", "title": "The conversions of a measurement are counted without overflow with interrupts inside the work functions", "statement": "Also when the timer and the ADC interrupt inside the work functions: if the ADC finishes at most N conversions in a tick (any N up to 1310; by C83 the real number is below 10), then in the main loop in real time the firmware never counts more than N per millisecond of averaging (5 for the current, 50 for the temperature) and one more. So the 16-bit counter cannot wrap, and the assumption about the conversions under which everything else about this loop is proved always holds.", "quantifier": "every execution of the main loop from boot with any valid EEPROM, with any number of ticks before each reading of the timer inside the work functions and ADC interrupts anywhere, that meets the speed assumptions; every N up to 1310; every sequence of ADC values; all builds; any length of time", "why_tests_cant": "all places of the interrupts, also inside an evaluation which starts the next averaging late; all executions of any length across wraps of the 16-bit timer", "anchors": ["firmware/measure.c:ISR(ADC_vect)", "firmware/measure.c:adc_trigger_next_chan", "firmware/main.c:main_loop_once"]}
{"id": "C122", "title": "A value changed by a held button, in real time, with interrupts inside the work functions", "statement": "Also when the timer interrupts inside the work functions, if an iteration of the main loop takes at most 25 ms: a value is changed, or a change waits, only while the button for it was down in the latest sample, and begins only in the sample in which that button goes down. Where the change has to wait it begins not before its button has been held for one second, and the wait is over one second and two iterations later. From then on, as long as the change goes on, the value is the one it began with moved by k whole steps (1 C, 1/32 or 1/64) within its limits; k is never ahead of the schedule 0, 400, 600, 700, 750, 775, ... ms and at most two iterations behind it, counted from the call in which the change began. So the limit is reached after a time that can be stated in advance.", "quantifier": "every execution of the main loop from boot with any valid EEPROM, with any number of ticks before each reading of the timer inside the work functions, that meets the speed assumptions with iterations of at most 25 ms; all value screens, all builds, any starting value, changes of any length", "why_tests_cant": "changes of any length, with ticks at every place inside the calls (also between the check whether a step is due and the arming of the next one) and across wraps of the 16-bit timers", "anchors": ["firmware/menu.c:menu_work", "firmware/menu.c:start_ramping", "firmware/menu.c:do_ramp_temp", "firmware/main.c:main_loop_once"]}
