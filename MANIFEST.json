{
 "claims": [
  {
   "property": "C01",
   "status": "proved",
   "theorems": [
    "Verif.Props.C01_add",
    "Verif.Props.C01_sub"
   ],
   "note": ""
  },
  {
   "property": "C02",
   "status": "proved",
   "theorems": [
    "Verif.Props.C02_mul"
   ],
   "note": ""
  },
  {
   "property": "C03",
   "status": "proved",
   "theorems": [
    "Verif.Props.C03_div",
    "Verif.Props.C03_unique"
   ],
   "note": ""
  },
  {
   "property": "C04",
   "status": "partial",
   "theorems": [
    "Verif.Props.C04_div_zero_partial",
    "Verif.Props.C04_div_zero_false"
   ],
   "note": "The property is false for this code: FIXPTBIG_MAX/MIN are cast to the 24-bit type and become -1/+1 (finding F1). C04_div_zero_partial proves what is returned, C04_div_zero_false refutes the stated property."
  },
  {
   "property": "C05",
   "status": "proved",
   "theorems": [
    "Verif.Props.C05_to_int",
    "Verif.Props.C05_from_int"
   ],
   "note": ""
  },
  {
   "property": "C06",
   "status": "proved",
   "theorems": [
    "Verif.Props.C06_int_part",
    "Verif.Props.C06_dec_fract",
    "Verif.Props.C06_one_digit_false"
   ],
   "note": "Stated for 2..7 digits; C06_one_digit_false shows that one digit can yield 10."
  },
  {
   "property": "C07",
   "status": "proved",
   "theorems": [
    "Verif.Props.C07_pow_int"
   ],
   "note": ""
  },
  {
   "property": "C08",
   "status": "proved",
   "theorems": [
    "Verif.Props.C08_sdiv_round_up",
    "Verif.Props.C08_sdiv_round",
    "Verif.Props.C08_udiv_round_up",
    "Verif.Props.C08_udiv_round",
    "Verif.Props.C08_round_up"
   ],
   "note": ""
  },
  {
   "property": "C09",
   "status": "proved",
   "theorems": [
    "Verif.Props.C09_neg",
    "Verif.Props.C09_neg_neg",
    "Verif.Props.C09_abs",
    "Verif.Props.C09_clamp",
    "Verif.Props.C09_clamp_macro",
    "Verif.Props.C09_add_limited"
   ],
   "note": ""
  },
  {
   "property": "C10",
   "status": "proved",
   "theorems": [
    "Verif.Props.C10_line",
    "Verif.Props.C10_defined",
    "Verif.Props.C10_endpoints",
    "Verif.Props.C10_mono",
    "Verif.Props.C10_shipped"
   ],
   "note": ""
  },
  {
   "property": "C11",
   "status": "proved",
   "theorems": [
    "Verif.Props.C11_rounding",
    "Verif.Props.C11_endpoints",
    "Verif.Props.C11_range",
    "Verif.Props.C11_error",
    "Verif.Props.C11_mono",
    "Verif.Props.C11_defined",
    "Verif.Props.C11_shipped"
   ],
   "note": ""
  },
  {
   "property": "C12",
   "status": "proved",
   "theorems": [
    "Verif.Props.C12_defined",
    "Verif.Props.C12_shipped",
    "Verif.Props.C12_error",
    "Verif.Props.C12_endpoints",
    "Verif.Props.C12_mono",
    "Verif.Props.C12_mono_general_false"
   ],
   "note": "Monotonicity and exact end points hold under the stated side conditions; C12_mono_general_false shows the condition is needed."
  },
  {
   "property": "C13",
   "status": "proved",
   "theorems": [
    "Verif.Props.C13_defined",
    "Verif.Props.C13_antitone",
    "Verif.Props.C13_endpoints"
   ],
   "note": ""
  },
  {
   "property": "C14",
   "status": "proved",
   "theorems": [
    "Verif.Props.C14_step",
    "Verif.Props.C14_range",
    "Verif.Props.C14_inverse",
    "Verif.Props.C14_iterate",
    "Verif.Props.C14_turn"
   ],
   "note": ""
  },
  {
   "property": "C15",
   "status": "proved",
   "theorems": [
    "Verif.Props.C15_bits",
    "Verif.Props.C15_init",
    "Verif.Props.C15_size",
    "Verif.Props.C15_size_truncated_false"
   ],
   "note": ""
  },
  {
   "property": "C16",
   "status": "proved",
   "theorems": [
    "Verif.Props.C16_bounded",
    "Verif.Props.C16_lower",
    "Verif.Props.C16_settles"
   ],
   "note": ""
  },
  {
   "property": "C17",
   "status": "proved",
   "theorems": [
    "Verif.Props.C17_bounded",
    "Verif.Props.C17_settles"
   ],
   "note": ""
  },
  {
   "property": "C18",
   "status": "proved",
   "theorems": [
    "Verif.Props.C18_expired"
   ],
   "note": ""
  },
  {
   "property": "C19",
   "status": "proved",
   "theorems": [
    "Verif.Props.C19_ms_since"
   ],
   "note": ""
  },
  {
   "property": "C20",
   "status": "proved",
   "theorems": [
    "Verif.Props.C20_no_drift",
    "Verif.Props.C20_count"
   ],
   "note": ""
  },
  {
   "property": "C21",
   "status": "proved",
   "theorems": [
    "Verif.Props.C21_atomic",
    "Verif.Props.C21_needs_cli"
   ],
   "note": ""
  },
  {
   "property": "C22",
   "status": "proved",
   "theorems": [
    "Verif.Props.C22_limits",
    "Verif.Props.C22_defined"
   ],
   "note": ""
  },
  {
   "property": "C23",
   "status": "proved",
   "theorems": [
    "Verif.Props.C23_law",
    "Verif.Props.C23_zero_dt",
    "Verif.Props.C23_keeps",
    "Verif.Props.C23_reset",
    "Verif.Props.C23_factors"
   ],
   "note": ""
  },
  {
   "property": "C24",
   "status": "proved",
   "theorems": [
    "Verif.Props.C24_roundtrip",
    "Verif.Props.C24_injective"
   ],
   "note": ""
  },
  {
   "property": "C25",
   "status": "proved",
   "theorems": [
    "Verif.Props.C25_no_ub",
    "Verif.Props.C25_power_failure"
   ],
   "note": "Assumes that a store starts only after the previous one has finished; C27_spacing shows that starts are at least 1000 ms apart (a store takes at most 64 programming times of a few ms)."
  },
  {
   "property": "C26",
   "status": "proved",
   "theorems": [
    "Verif.Props.C26_reboot"
   ],
   "note": ""
  },
  {
   "property": "C27",
   "status": "proved",
   "theorems": [
    "Verif.Props.C27_schedule",
    "Verif.Props.C27_spacing",
    "Verif.Props.C27_burst"
   ],
   "note": ""
  },
  {
   "property": "C28",
   "status": "proved",
   "theorems": [
    "Verif.Props.C28_writer",
    "Verif.Props.C28_skips_equal"
   ],
   "note": ""
  },
  {
   "property": "C29",
   "status": "partial",
   "theorems": [
    "Verif.Props.C29_bytes_partial",
    "Verif.Props.C29_active_partial",
    "Verif.Props.C29_partial",
    "Verif.Props.C29_false"
   ],
   "note": "False for this code (finding F3): C29_false gives a run in which a preset changed during the write is found torn after reboot. C29_partial proves the claim for runs in which the settings are not changed while being written; C29_bytes_partial proves for all runs that every single byte found existed at some instant, C29_active_partial that the selected preset did."
  },
  {
   "property": "C30",
   "status": "proved",
   "theorems": [
    "Verif.Props.C30_ring",
    "Verif.Props.C30_cycle"
   ],
   "note": ""
  },
  {
   "property": "C31",
   "status": "proved",
   "theorems": [
    "Verif.Props.C31_sum",
    "Verif.Props.C31_mean"
   ],
   "note": ""
  },
  {
   "property": "C32",
   "status": "proved",
   "theorems": [
    "Verif.Props.C32_current",
    "Verif.Props.C32_temperature",
    "Verif.Props.C32_temp",
    "Verif.Props.C32_feedback"
   ],
   "note": ""
  },
  {
   "property": "C33",
   "status": "proved",
   "theorems": [
    "Verif.Props.C33_current_lost",
    "Verif.Props.C33_channel",
    "Verif.Props.C33_sensor_lost"
   ],
   "note": ""
  },
  {
   "property": "C34",
   "status": "proved",
   "theorems": [
    "Verif.Props.C34_switch",
    "Verif.Props.C34_alternate",
    "Verif.Props.C34_separate"
   ],
   "note": ""
  },
  {
   "property": "C35",
   "status": "proved",
   "theorems": [
    "Verif.Props.C35_heater_range"
   ],
   "note": ""
  },
  {
   "property": "C36",
   "status": "proved",
   "theorems": [
    "Verif.Props.C36_off",
    "Verif.Props.C36_resume"
   ],
   "note": ""
  },
  {
   "property": "C37",
   "status": "proved",
   "theorems": [
    "Verif.Props.C37_trips",
    "Verif.Props.C37_reading",
    "Verif.Props.C37_holds",
    "Verif.Props.C37_clears"
   ],
   "note": ""
  },
  {
   "property": "C38",
   "status": "proved",
   "theorems": [
    "Verif.Props.C38_cold",
    "Verif.Props.C38_always_cold",
    "Verif.Props.C38_exact"
   ],
   "note": ""
  },
  {
   "property": "C39",
   "status": "partial",
   "theorems": [
    "Verif.Props.C39_demand",
    "Verif.Props.C39_recovery",
    "Verif.Props.C39_current_partial",
    "Verif.Props.C39_false"
   ],
   "note": "False for this code (finding F8): C39_false gives a run in which current still flows during an emergency. C39_demand, C39_recovery and C39_current_partial prove what holds; C39_Full is the full claim."
  },
  {
   "property": "C40",
   "status": "proved",
   "theorems": [
    "Verif.Props.C40_setpoint"
   ],
   "note": ""
  },
  {
   "property": "C41",
   "status": "proved",
   "theorems": [
    "Verif.Props.C41_map",
    "Verif.Props.C41_zero",
    "Verif.Props.C41_monotone",
    "Verif.Props.C41_used"
   ],
   "note": ""
  },
  {
   "property": "C42",
   "status": "proved",
   "theorems": [
    "Verif.Props.C42_sample",
    "Verif.Props.C42_otherwise"
   ],
   "note": "C42_sample assumes that a press is sampled again before the 16-bit time wraps (33.7 s); the main loop samples every 10 ms."
  },
  {
   "property": "C43",
   "status": "proved",
   "theorems": [
    "Verif.Props.C43_enabled",
    "Verif.Props.C43_no_demand"
   ],
   "note": ""
  },
  {
   "property": "C44",
   "status": "proved",
   "theorems": [
    "Verif.Props.C44_release",
    "Verif.Props.C44_back",
    "Verif.Props.C44_exists",
    "Verif.Props.C44_timeout"
   ],
   "note": ""
  },
  {
   "property": "C45",
   "status": "proved",
   "theorems": [
    "Verif.Props.C45_limits"
   ],
   "note": ""
  },
  {
   "property": "C46",
   "status": "proved",
   "theorems": [
    "Verif.Props.C46_steps",
    "Verif.Props.C46_distance",
    "Verif.Props.C46_else",
    "Verif.Props.C46_held",
    "Verif.Props.C46_release"
   ],
   "note": ""
  },
  {
   "property": "C47",
   "status": "proved",
   "theorems": [
    "Verif.Props.C47_compose",
    "Verif.Props.C47_temp",
    "Verif.Props.C47_fixpt",
    "Verif.Props.C47_show"
   ],
   "note": ""
  },
  {
   "property": "C48",
   "status": "proved",
   "theorems": [
    "Verif.Props.C48_text",
    "Verif.Props.C48_temp",
    "Verif.Props.C48_factor",
    "Verif.Props.C48_temp_limit"
   ],
   "note": "C48_temp covers every value a temperature can have up to 32767 degrees; beyond, int_to_ascii's int would wrap (C48_temp_limit), which no reachable value does."
  },
  {
   "property": "C49",
   "status": "proved",
   "theorems": [
    "Verif.Props.C49_flags",
    "Verif.Props.C49_stops",
    "Verif.Props.C49_shows"
   ],
   "note": ""
  },
  {
   "property": "C50",
   "status": "partial",
   "theorems": [
    "Verif.Props.C50_sample",
    "Verif.Props.C50_no_sample",
    "Verif.Props.C50_events",
    "Verif.Props.C50_due",
    "Verif.Props.C50_spacing_partial",
    "Verif.Props.C50_false"
   ],
   "note": "Everything but the minimum distance of two samples is proved; a sample is due every 10 ms, but missed samples are made up for at once (C50_false, DESIGN.md finding F14)."
  },
  {
   "property": "C51",
   "status": "partial",
   "theorems": [
    "Verif.Props.C51_one",
    "Verif.Props.C51_round",
    "Verif.Props.C51_partial",
    "Verif.Props.C51_no_debug",
    "Verif.Props.C51_false"
   ],
   "note": "False in builds with the debug interface (finding F12): C51_false gives a run in which pressing PLUS in the debug screen writes port D with a digit driver on. C51_partial proves the claim for every other event, C51_no_debug for the other builds; C51_one and C51_round hold everywhere."
  },
  {
   "property": "C52",
   "status": "proved",
   "theorems": [
    "Verif.Props.C52_glyphs",
    "Verif.Props.C52_numerals",
    "Verif.Props.C52_unknown"
   ],
   "note": ""
  },
  {
   "property": "C53",
   "status": "proved",
   "theorems": [
    "Verif.Props.C53_steps",
    "Verif.Props.C53_operations",
    "Verif.Props.C53_pins"
   ],
   "note": ""
  },
  {
   "property": "C54",
   "status": "proved",
   "theorems": [
    "Verif.Props.C54_debug_on",
    "Verif.Props.C54_debug_off",
    "Verif.Props.C54_no_multiplex"
   ],
   "note": ""
  },
  {
   "property": "C55",
   "status": "proved",
   "theorems": [
    "Verif.Props.C55_boot",
    "Verif.Props.C55_step"
   ],
   "note": ""
  },
  {
   "property": "C56",
   "status": "partial",
   "theorems": [
    "Verif.Props.C56_partial",
    "Verif.Props.C56_false"
   ],
   "note": "False for this code (finding F6): C56_false gives a run in which the sensor is lost for 35.9 s and the next time step is negative. C56_partial proves the claim for references at most 32767 ms ago; C56_Full is the full claim."
  },
  {
   "property": "C57",
   "status": "proved",
   "theorems": [
    "Verif.Props.C57_boot",
    "Verif.Props.C57_select",
    "Verif.Props.C57_kept",
    "Verif.Props.C57_band",
    "Verif.Props.C57_thresholds",
    "Verif.Props.C57_resync"
   ],
   "note": ""
  },
  {
   "property": "C58",
   "status": "proved",
   "theorems": [
    "Verif.Props.C58_change",
    "Verif.Props.C58_same",
    "Verif.Props.C58_history"
   ],
   "note": ""
  },
  {
   "property": "C59",
   "status": "proved",
   "theorems": [
    "Verif.Props.C59_boot"
   ],
   "note": ""
  },
  {
   "property": "C60",
   "status": "partial",
   "theorems": [
    "Verif.Props.C60_false",
    "Verif.Props.C60_partial"
   ],
   "note": "False for this code (finding F5): C60_false refutes it with constant readings of 65; C60_partial proves that the first value is exact, later ones never exceed it and they become exact after finitely many readings."
  },
  {
   "property": "C61",
   "status": "proved",
   "theorems": [
    "Verif.Props.C61_work",
    "Verif.Props.C61_between",
    "Verif.Props.C61_glows"
   ],
   "note": ""
  },
  {
   "property": "C62",
   "status": "proved",
   "theorems": [
    "Verif.Props.C62_heating",
    "Verif.Props.C62_dot"
   ],
   "note": ""
  },
  {
   "property": "C63",
   "status": "proved",
   "theorems": [
    "Verif.Props.C63_window",
    "Verif.Props.C63_only"
   ],
   "note": ""
  },
  {
   "property": "C64",
   "status": "proved",
   "theorems": [
    "Verif.Props.C64_law",
    "Verif.Props.C64_memory",
    "Verif.Props.C64_clears",
    "Verif.Props.C64_boot"
   ],
   "note": "Stated for 8..32767 ms since the previous run: C56_partial/C56_false and the zero-time-step theorem of C23 cover what happens outside. C64_clears: while the controller is switched off the memory does not matter, because switching on clears it."
  },
  {
   "property": "C65",
   "status": "proved",
   "theorems": [
    "Verif.Props.C65_law",
    "Verif.Props.C65_memory",
    "Verif.Props.C65_boot"
   ],
   "note": "115/64 is the fixed-point value of 1.8. Stated for 8..32767 ms since the previous run (see C56)."
  },
  {
   "property": "C66",
   "status": "proved",
   "theorems": [
    "Verif.Props.C66_kept",
    "Verif.Props.C66_pending",
    "Verif.Props.C66_served",
    "Verif.Props.C66_only",
    "Verif.Props.C66_ends"
   ],
   "note": "Assumes that a store has ended before the next one starts (starts are at least 1000 ms apart by C27) and, as in finding F4, that the EEPROM found at a reboot after a power failure holds settings within the limits."
  },
  {
   "property": "C67",
   "status": "proved",
   "theorems": [
    "Verif.Props.C67_select",
    "Verif.Props.C67_opens",
    "Verif.Props.C67_else"
   ],
   "note": "Two panel buttons released within one sample of 10 ms are excluded by hypothesis."
  },
  {
   "property": "C68",
   "status": "proved",
   "theorems": [
    "Verif.Props.C68_press",
    "Verif.Props.C68_hold",
    "Verif.Props.C68_waits",
    "Verif.Props.C68_starts"
   ],
   "note": "The start is stated for a sample in which no other panel button changes."
  },
  {
   "property": "C69",
   "status": "proved",
   "theorems": [
    "Verif.Props.C69_boot",
    "Verif.Props.C69_switch",
    "Verif.Props.C69_else",
    "Verif.Props.C69_screen"
   ],
   "note": "A release of SET that leads into the debug screen within the same sample as a press of plus or minus is excluded by hypothesis."
  },
  {
   "property": "C70",
   "status": "proved",
   "theorems": [
    "Verif.Props.C70_running",
    "Verif.Props.C70_calls"
   ],
   "note": "Speed assumptions W, A, B are parameters of the theorem; a work function happens at one tick. Times are those of the firmware's clock, which loses ticks while debug lines are sent (F15, C87)."
  },
  {
   "property": "C71",
   "status": "proved",
   "theorems": [
    "Verif.Props.C71_period"
   ],
   "note": "Speed assumptions W, A, B are parameters of the theorem; a work function happens at one tick."
  },
  {
   "property": "C72",
   "status": "proved",
   "theorems": [
    "Verif.Props.C72_life",
    "Verif.Props.C72_stored"
   ],
   "note": "Speed assumptions W, A, B are parameters of the theorem; a work function happens at one tick. Discharges the assumption of C66 that a store has finished before the next one. Settings found at a reboot are assumed to be within the limits (F4)."
  },
  {
   "property": "C73",
   "status": "proved",
   "theorems": [
    "Verif.Props.C73_sensor_lost",
    "Verif.Props.C73_sensor_ok",
    "Verif.Props.C73_current_lost",
    "Verif.Props.C73_current_ok"
   ],
   "note": "Speed assumptions W, A, B are parameters of the theorem; a work function happens at one tick. Current emergency flag here is the one for implausible readings (bit 0)."
  },
  {
   "property": "C74",
   "status": "proved",
   "theorems": [
    "Verif.Props.C74_overheat"
   ],
   "note": "Speed assumptions W, A, B are parameters of the theorem; a work function happens at one tick."
  },
  {
   "property": "C75",
   "status": "proved",
   "theorems": [
    "Verif.Props.C75_samples"
   ],
   "note": "Speed assumptions W, A, B are parameters of the theorem; a work function happens at one tick. For iterations of at most 10 ms; falls behind otherwise (example)."
  },
  {
   "property": "C76",
   "status": "proved",
   "theorems": [
    "Verif.Props.C76_left"
   ],
   "note": "Speed assumptions W, A, B are parameters of the theorem; a work function happens at one tick."
  },
  {
   "property": "C77",
   "status": "proved",
   "theorems": [
    "Verif.Props.C77_valid",
    "Verif.Props.C77_life",
    "Verif.Props.C77_needed",
    "Verif.Props.C77_blind"
   ],
   "note": "C77_life carries it over to the main loop, where a store has always finished before the next one starts (speed assumptions as in C70). C77_needed gives a run with a change during a store (finding F20)."
  },
  {
   "property": "C78",
   "status": "proved",
   "theorems": [
    "Verif.Props.C78_temperature",
    "Verif.Props.C78_current"
   ],
   "note": "The runs excluded are those of finding F6 (C56_false). Speed assumptions W, A, B are parameters of the theorem; a work function happens at one tick."
  },
  {
   "property": "C79",
   "status": "proved",
   "theorems": [
    "Verif.Props.C79_starts",
    "Verif.Props.C79_needed",
    "Verif.Props.C79_blind",
    "Verif.Props.C79_adc",
    "Verif.Props.C79_adc_measure",
    "Verif.Props.C79_eeDone",
    "Verif.Props.C79_eeIsr"
   ],
   "note": "C79_blind: for any contents of the interrupt data, not only reachable ones. The timer interrupt is not covered: a work function is taken to happen at one tick. C79_needed: the order matters when menu_work changes a setting during a store."
  },
  {
   "property": "C80",
   "status": "proved",
   "theorems": [
    "Verif.Props.C80_spacing",
    "Verif.Props.C80_runs",
    "Verif.Props.C80_time",
    "Verif.Props.C80_lost"
   ],
   "note": "About the current demanded, i.e. the set point of the current controller; the heater output itself can stay at up to 0.5 A (finding F8). C80_runs: number of runs; C80_time: time; C80_spacing: at least 55 ms between evaluations of a channel; C80_lost: the dead band of the integral."
  },
  {
   "property": "C81",
   "status": "proved",
   "theorems": [
    "Verif.Props.C81_wear",
    "Verif.Props.C81_range",
    "Verif.Props.C81_shipped"
   ],
   "note": "Within one power-on period: a power failure may be followed by a store to the same place. C81_wear: distance; C81_range: addresses; C81_shipped: the shipped build and speed."
  },
  {
   "property": "C82",
   "status": "proved",
   "theorems": [
    "Verif.Props.C82_table",
    "Verif.Props.C82_start"
   ],
   "note": "Python floats are modelled as exact rationals. C82_table: the round trip; C82_start: synchronisation."
  },
  {
   "property": "C83",
   "status": "proved",
   "theorems": [
    "Verif.Props.C83_adc",
    "Verif.Props.C83_follows",
    "Verif.Props.C83_tick",
    "Verif.Props.C83_pwm",
    "Verif.Props.C83_uart"
   ],
   "note": "C83_adc: registers of the ADC beside the running firmware (C83_follows: they exist for every run); C83_tick, C83_pwm, C83_uart: timers and UART. What the register bits do is taken from the data sheet (Spec/Hw)."
  },
  {
   "property": "C84",
   "status": "proved",
   "theorems": [
    "Verif.Props.C84_count"
   ],
   "note": "C84_count: discharges the assumption on avgCount in `possible`."
  },
  {
   "property": "C85",
   "status": "proved",
   "theorems": [
    "Verif.Props.C85_scale",
    "Verif.Props.C85_shipped",
    "Verif.Props.C85_unscale",
    "Verif.Props.C85_pwm",
    "Verif.Props.C85_rescale",
    "Verif.Props.C85_rescale_zero",
    "Verif.Props.C85_amps"
   ],
   "note": "C85_scale, C85_unscale, C85_rescale: general; C85_shipped, C85_pwm, C85_rescale_zero, C85_amps: the uses in the firmware."
  },
  {
   "property": "C86",
   "status": "proved",
   "theorems": [
    "Verif.Props.C86_pending",
    "Verif.Props.C86_shows",
    "Verif.Props.C86_age",
    "Verif.Props.C86_recent"
   ],
   "note": "C86_pending: requested updates are made; C86_shows: what is shown; C86_age: bound of its age; C86_recent: the age of the latest reading."
  },
  {
   "property": "C87",
   "status": "proved",
   "theorems": [
    "Verif.Props.C87_byte",
    "Verif.Props.C87_sent",
    "Verif.Props.C87_line",
    "Verif.Props.C87_else",
    "Verif.Props.C87_lost"
   ],
   "note": "C87_sent: nothing is lost; C87_line: duration and clock during a line; C87_lost: the firmware's lines (finding F15); C87_else: no loss otherwise. The transmitter and the compare flag follow the data sheet (Model/Serial)."
  },
  {
   "property": "C88",
   "status": "proved",
   "theorems": [
    "Verif.Props.C88_same",
    "Verif.Props.C88_idle",
    "Verif.Props.C88_current",
    "Verif.Props.C88_temp",
    "Verif.Props.C88_curr_run",
    "Verif.Props.C88_temp_run",
    "Verif.Props.C88_sent",
    "Verif.Props.C88_kept",
    "Verif.Props.C88_true",
    "Verif.Props.C88_possible",
    "Verif.Props.C88_table",
    "Verif.Props.C88_columns",
    "Verif.Props.C88_false"
   ],
   "note": "C88_same: the reports do not disturb; C88_current, C88_temp, C88_curr_run, C88_temp_run: what is reported; C88_sent, C88_kept: what is printed; C88_true, C88_possible, C88_table, C88_columns: the running firmware with its debug interface; C88_false: the columns are wrong until the value is printed again after switching debugging off and on (finding F21)."
  },
  {
   "property": "C89",
   "status": "proved",
   "theorems": [
    "Verif.Props.C89_atOnce",
    "Verif.Props.C89_clock",
    "Verif.Props.C89_defined",
    "Verif.Props.C89_safe",
    "Verif.Props.C89_resume",
    "Verif.Props.C89_lost_temp",
    "Verif.Props.C89_lost_curr"
   ],
   "note": "C89_atOnce: a call with ticks inside compared to a call at one instant; C89_clock: the time; C89_defined, C89_safe, C89_resume: the running firmware with ticks inside; C89_lost_temp, C89_lost_curr: the ticks between the two readings of a controller (finding F22)."
  },
  {
   "property": "C90",
   "status": "proved",
   "theorems": [
    "Verif.Props.C90_convert",
    "Verif.Props.C90_signed",
    "Verif.Props.C90_unsigned",
    "Verif.Props.C90_compare",
    "Verif.Props.C90_bits",
    "Verif.Props.C90_overflow",
    "Verif.Props.C90_wide",
    "Verif.Props.C90_wide_false",
    "Verif.Props.C90_functions",
    "Verif.Props.C90_filter"
   ],
   "note": "C90_convert, C90_signed, C90_unsigned, C90_compare, C90_bits: the operators; C90_functions, C90_filter: the functions; C90_overflow, C90_wide, C90_wide_false: the differences (finding F23)."
  },
  {
   "property": "C91",
   "status": "proved",
   "theorems": [
    "Verif.Props.C91_temp",
    "Verif.Props.C91_temp_low",
    "Verif.Props.C91_feedback",
    "Verif.Props.C91_curr",
    "Verif.Props.C91_pwm",
    "Verif.Props.C91_pwm_running",
    "Verif.Props.C91_float",
    "Verif.Props.C91_fixpt"
   ],
   "note": "C91_temp, C91_temp_low, C91_curr: readings; C91_feedback: in the running firmware; C91_pwm, C91_pwm_running: the heater; C91_float, C91_fixpt: settings (finding F24). Python floats are exact rational numbers in the model."
  },
  {
   "property": "C92",
   "status": "proved",
   "theorems": [
    "Verif.Props.C92_ring",
    "Verif.Props.C92_ring_lost",
    "Verif.Props.C92_lines",
    "Verif.Props.C92_silent",
    "Verif.Props.C92_lag",
    "Verif.Props.C92_values",
    "Verif.Props.C92_up_to_date"
   ],
   "note": "C92_ring, C92_ring_lost: the ring; C92_lines, C92_silent, C92_lag: the lines (finding F25); C92_values, C92_up_to_date: the variables."
  },
  {
   "property": "C93",
   "status": "proved",
   "theorems": [
    "Verif.Props.C93_moves",
    "Verif.Props.C93_set",
    "Verif.Props.C93_short",
    "Verif.Props.C93_timeout",
    "Verif.Props.C93_hold",
    "Verif.Props.C93_debug",
    "Verif.Props.C93_select_hold",
    "Verif.Props.C93_both"
   ],
   "note": "C93_moves: every move has a documented reason, except the two of C93_select_hold and C93_both (finding F26); C93_set, C93_short, C93_timeout, C93_hold: the arrows are followed; C93_debug: while debugging is on."
  },
  {
   "property": "C94",
   "status": "proved",
   "theorems": [
    "Verif.Props.C94_signals",
    "Verif.Props.C94_output",
    "Verif.Props.C94_feedback",
    "Verif.Props.C94_feedback_false",
    "Verif.Props.C94_difference_false",
    "Verif.Props.C94_current_factors",
    "Verif.Props.C94_temp_factors"
   ],
   "note": "C94_signals, C94_output: the ranges kept; C94_feedback, C94_feedback_false, C94_difference_false: the ranges not kept; C94_current_factors, C94_temp_factors: the factors (finding F27)."
  },
  {
   "property": "C95",
   "status": "proved",
   "theorems": [
    "Verif.Props.C95_boot",
    "Verif.Props.C95_erased",
    "Verif.Props.C95_covers",
    "Verif.Props.C95_range",
    "Verif.Props.C95_off",
    "Verif.Props.C95_feedback",
    "Verif.Props.C95_trips",
    "Verif.Props.C95_holds",
    "Verif.Props.C95_cold",
    "Verif.Props.C95_lost",
    "Verif.Props.C95_defined_false",
    "Verif.Props.C95_decay",
    "Verif.Props.C95_adjustment"
   ],
   "note": "C95_boot, C95_erased: booting; C95_range, C95_off, C95_feedback, C95_trips, C95_holds, C95_cold, C95_lost: what holds for any settings; C95_covers: the states of the other properties are a case of these; C95_defined_false, C95_decay, C95_adjustment: what is not guaranteed (findings F4, F28)."
  },
  {
   "property": "C96",
   "status": "proved",
   "theorems": [
    "Verif.Props.C96_idle",
    "Verif.Props.C96_torn",
    "Verif.Props.C96_unbootable",
    "Verif.Props.C96_hot",
    "Verif.Props.C96_ring"
   ],
   "note": "C96_idle, C96_torn: what is found; C96_unbootable, C96_hot: what that can be (finding F29); C96_ring: the contrast with the ring."
  },
  {
   "property": "C97",
   "status": "proved",
   "theorems": [
    "Verif.Props.C97_exclusive",
    "Verif.Props.C97_flag",
    "Verif.Props.C97_restore",
    "Verif.Props.C97_save",
    "Verif.Props.C97_wait",
    "Verif.Props.C97_early",
    "Verif.Props.C97_clock"
   ],
   "note": "Shared variables are read and written one after the other. C97_exclusive: no handler while disabled; C97_flag, C97_save, C97_restore: the flag; C97_wait: no deadlock; C97_early: before the first call (finding F30); C97_clock: the timer."
  },
  {
   "property": "C98",
   "status": "proved",
   "theorems": [
    "Verif.Props.C98_safe",
    "Verif.Props.C98_calls",
    "Verif.Props.C98_period",
    "Verif.Props.C98_overheat",
    "Verif.Props.C98_sensor_lost",
    "Verif.Props.C98_sensor_ok"
   ],
   "note": "C70, C71, C73 (temperature) and C74 without the assumption that a work function takes no time. C98_safe: every state; C98_calls, C98_period: the calls; C98_overheat, C98_sensor_lost, C98_sensor_ok: the emergencies. An interrupt of the ADC inside a work function is taken after it, with the time at which it came (no work function but measure_work looks at the measurement, C79, and while it evaluates one the ADC is off)."
  },
  {
   "property": "C99",
   "status": "proved",
   "theorems": [
    "Verif.Props.C99_on_again",
    "Verif.Props.C99_off",
    "Verif.Props.C99_holds",
    "Verif.Props.C99_emergency",
    "Verif.Props.C99_on",
    "Verif.Props.C99_in_emergency",
    "Verif.Props.C99_over"
   ],
   "note": "C99_off, C99_on, C99_on_again: the calls; C99_holds, C99_emergency: what follows while it is off; C99_in_emergency, C99_over: finding F31. The initialisation switches the controller on and nothing switches it off, so this is a contract of the function."
  },
  {
   "property": "C100",
   "status": "proved",
   "theorems": [
    "Verif.Props.C100_unknown",
    "Verif.Props.C100_read",
    "Verif.Props.C100_read_pure",
    "Verif.Props.C100_read_factor",
    "Verif.Props.C100_read_idle",
    "Verif.Props.C100_write",
    "Verif.Props.C100_read_back",
    "Verif.Props.C100_safe",
    "Verif.Props.C100_covers",
    "Verif.Props.C100_no_preset",
    "Verif.Props.C100_no_limit",
    "Verif.Props.C100_gui"
   ],
   "note": "C100_read, C100_read_pure: reading; C100_write: writing, in any state; C100_read_back, C100_safe, C100_covers, C100_gui: within the limits; C100_read_factor, C100_read_idle, C100_no_preset, C100_no_limit: finding F32; C100_unknown: other names."
  },
  {
   "property": "C101",
   "status": "proved",
   "theorems": [
    "Verif.Props.C101_hold",
    "Verif.Props.C101_toggle",
    "Verif.Props.C101_boost",
    "Verif.Props.C101_absent"
   ],
   "note": "C101_hold, C101_toggle: idle mode alone, as an invariant over the history of samples; C101_boost: boost mode alone; C101_absent: builds without a mode."
  },
  {
   "property": "C102",
   "status": "proved",
   "theorems": [
    "Verif.Props.C102_rate",
    "Verif.Props.C102_turns",
    "Verif.Props.C102_each"
   ],
   "note": "C102_rate: the times; C102_turns: the order and that only the last one is lit; C102_each: every digit every 4 ms. Speed assumptions are parameters of the theorem; a work function happens at one tick. For iterations of at most 1 ms; falls behind otherwise (example)."
  },
  {
   "property": "C103",
   "status": "proved",
   "theorems": [
    "Verif.Props.C103_idle",
    "Verif.Props.C103_held",
    "Verif.Props.C103_up",
    "Verif.Props.C103_boost"
   ],
   "note": "C103_idle: idle mode as a function of the samples; C103_held: the times while the button is down; C103_up: while it is up; C103_boost: the boost mode. Speed assumptions are parameters of the theorem; a work function happens at one tick."
  },
  {
   "property": "C104",
   "status": "proved",
   "theorems": [
    "Verif.Props.C104_runs",
    "Verif.Props.C104_time"
   ],
   "note": "C104_runs: the demand of every run; C104_time: the same after a time. Counterpart of C80. That the memory is not cleared is assumed in Spec/Cold (a cleared memory starts the count again)."
  },
  {
   "property": "C105",
   "status": "proved",
   "theorems": [
    "Verif.Props.C105_step",
    "Verif.Props.C105_time",
    "Verif.Props.C105_tuning",
    "Verif.Props.C105_lost",
    "Verif.Props.C105_off"
   ],
   "note": "C105_step, C105_time: at most 0.5 A; C105_tuning, C105_lost: the two screens/failures of C43 and C39; C105_off: when the heater is off. Sharpens the bound of C39 with a time; the examples show that 0.38 A and 0.5 A are really reached and kept with a measured current of 0."
  },
  {
   "property": "C106",
   "status": "proved",
   "theorems": [
    "Verif.Props.C106_wait",
    "Verif.Props.C106_begin",
    "Verif.Props.C106_value",
    "Verif.Props.C106_fast",
    "Verif.Props.C106_slow",
    "Verif.Props.C106_limit"
   ],
   "note": "C106_wait, C106_begin: when a ramp starts; C106_value: the value at any time; C106_fast, C106_slow: the schedule; C106_limit: the limit is reached. An example shows that the bound of 32.7 s is needed for slow loops (finding F33). Speed assumptions are parameters of the theorem; a work function happens at one tick."
  },
  {
   "property": "C107",
   "status": "proved",
   "theorems": [
    "Verif.Props.C107_follows",
    "Verif.Props.C107_any"
   ],
   "note": "C107_follows: the firmware agrees with the machine of Spec/Ui at every moment; C107_any: every execution has such a machine beside it. The machine has its own state (times in ms since boot, without wrap) and reads only the samples, the times, the failures and the boost mode. Iterations longer than 25 ms are excluded, since ramps then fall behind (F33, C106)."
  },
  {
   "property": "C108",
   "status": "proved",
   "theorems": [
    "Verif.Props.C108_rc",
    "Verif.Props.C108_rc_steps",
    "Verif.Props.C108_rc_between",
    "Verif.Props.C108_rc_error",
    "Verif.Props.C108_rc_init",
    "Verif.Props.C108_divider",
    "Verif.Props.C108_sine",
    "Verif.Props.C108_sine_off",
    "Verif.Props.C108_pwm",
    "Verif.Props.C108_pwm_off",
    "Verif.Props.C108_pwm_clamp",
    "Verif.Props.C108_pwm_lost"
   ],
   "note": "C108_rc (with the derivative of Mathlib), C108_rc_steps, C108_rc_between, C108_rc_error, C108_rc_init; C108_divider; C108_sine, C108_sine_off; C108_pwm, C108_pwm_off, C108_pwm_clamp. C108_pwm_lost is the witness of finding F34: with steps longer than the pause or the pulse the output is wrong without a message."
  },
  {
   "property": "C109",
   "status": "proved",
   "theorems": [
    "Verif.Props.C109_follows",
    "Verif.Props.C109_instant_sample",
    "Verif.Props.C109_instant_work"
   ],
   "note": "C109_follows: for every finite run of Model/LoopIn there is a run of the machine beside it, which starts as at boot, moves as Spec/UiIn says and always agrees. C109_instant_sample, C109_instant_work: with no tick inside, the moves are those of C107 and nothing else."
  },
  {
   "property": "C110",
   "status": "proved",
   "theorems": [
    "Verif.Props.C110_one",
    "Verif.Props.C110_delay",
    "Verif.Props.C110_begins",
    "Verif.Props.C110_stored"
   ],
   "note": "C110_stored is C72_stored for Model/LoopIn; C110_delay and C110_begins bound the time from a request to the start of the store from below and above (the request itself is made at some time inside its call); C110_one: a store starts only when the one before is over. The writer's steps are taken after the call they came in, with the tick at which they came (Spec/StoreIn)."
  },
  {
   "property": "C111",
   "status": "proved",
   "theorems": [
    "Verif.Props.C111_current",
    "Verif.Props.C111_current_lost",
    "Verif.Props.C111_current_ok",
    "Verif.Props.C111_current_back"
   ],
   "note": "C73_current_lost/_ok and C32_current for Model/LoopIn. Times in the history are those at which the evaluation begins; the timer of the channel is armed and read at some later time inside the call, hence the additional watchdog periods."
  },
  {
   "property": "C112",
   "status": "proved",
   "theorems": [
    "Verif.Props.C112_samples",
    "Verif.Props.C112_last",
    "Verif.Props.C112_prompt"
   ],
   "note": "C75_samples and C76_left for Model/LoopIn, with the waits and steps of the ramp. The time of a sample is the one read inside the call: the time of the call plus the ticks before its first reading. C112_prompt bounds the times of the machine of C109."
  },
  {
   "property": "C113",
   "status": "proved",
   "theorems": [
    "Verif.Props.C113_temperature",
    "Verif.Props.C113_current"
   ],
   "note": "C78 for Model/LoopIn. A run reads the timer twice (F22): for the time step and to remember the time, so the time step can be off by the length of the two calls, not more."
  },
  {
   "property": "C114",
   "status": "proved",
   "theorems": [
    "Verif.Props.C114_spacing",
    "Verif.Props.C114_temperature",
    "Verif.Props.C114_current",
    "Verif.Props.C114_temp_memory",
    "Verif.Props.C114_curr_memory"
   ],
   "note": "C64, C65 and the spacing of C80 for Model/LoopIn, with the time steps of C113. In contrast to C64/C65 nothing is assumed about the time since the previous run of the current controller: C114_spacing gives at least 55 ms, C98_period at most a period."
  },
  {
   "property": "C115",
   "status": "proved",
   "theorems": [
    "Verif.Props.C115_step",
    "Verif.Props.C115_time",
    "Verif.Props.C115_tuning",
    "Verif.Props.C115_lost",
    "Verif.Props.C115_off"
   ],
   "note": "C105 for Model/LoopIn; C115_off uses C114_current and C114_spacing."
  },
  {
   "property": "C116",
   "status": "proved",
   "theorems": [
    "Verif.Props.C116_hot",
    "Verif.Props.C116_hot_time",
    "Verif.Props.C116_cold",
    "Verif.Props.C116_cold_time"
   ],
   "note": "C80 and C104 for Model/LoopIn, from the law of C114. The time bounds have a watchdog period more per run than those of C80/C104, because a period counts from the end of an evaluation to the beginning of the next one."
  },
  {
   "property": "C117",
   "status": "proved",
   "theorems": [
    "Verif.Props.C117_rate",
    "Verif.Props.C117_turns",
    "Verif.Props.C117_each"
   ],
   "note": "C102 for Model/LoopIn. The time at which the display came on is only known to lie within the call that switched it on."
  },
  {
   "property": "C118",
   "status": "proved",
   "theorems": [
    "Verif.Props.C118_screen",
    "Verif.Props.C118_pending",
    "Verif.Props.C118_shows",
    "Verif.Props.C118_age",
    "Verif.Props.C118_recent"
   ],
   "note": "C61 and C86 for Model/LoopIn. The bound for the age has four watchdog periods more than that of C86, since the times of an evaluation and of the sensor's timeout are only known to lie within their calls."
  },
  {
   "property": "C119",
   "status": "proved",
   "theorems": [
    "Verif.Props.C119_held",
    "Verif.Props.C119_otherwise",
    "Verif.Props.C119_boost"
   ],
   "note": "C103 for Model/LoopIn. The 1000 ms run from a reading of the timer inside the handler, at most one iteration after the sample, which costs one iteration in the upper bound."
  },
  {
   "property": "C120",
   "status": "proved",
   "theorems": [
    "Verif.Props.C120_wear",
    "Verif.Props.C120_range",
    "Verif.Props.C120_shipped"
   ],
   "note": "C81 for Model/LoopIn. The writer's steps carry the ticks at which they came (Spec/StoreIn), so the times are those of the interrupts and not of the ends of the calls."
  },
  {
   "property": "C121",
   "status": "proved",
   "theorems": [
    "Verif.Props.C121_count"
   ],
   "note": "C84 for Model/LoopIn; it discharges the assumption in `possible` about the counter for the executions with interrupts inside the work functions."
  },
  {
   "property": "C122",
   "status": "proved",
   "theorems": [
    "Verif.Props.C122_held",
    "Verif.Props.C122_start",
    "Verif.Props.C122_wait",
    "Verif.Props.C122_begin",
    "Verif.Props.C122_value",
    "Verif.Props.C122_limit"
   ],
   "note": "C106 for Model/LoopIn, proved from the user interface that runs beside the firmware (C109)."
  }
 ]
}