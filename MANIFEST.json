{"claims": [
{"property": "C01", "status": "proved", "theorems": ["Verif.C01_output_in_limits", "Verif.C01_output_in_limits_noslew", "Verif.C01_loop_output_in_limits"], "note": ""},
{"property": "C02", "status": "proved", "theorems": ["Verif.C02_integral_in_limits", "Verif.C02_loop_integral_in_limits"], "note": ""},
{"property": "C03", "status": "proved", "theorems": ["Verif.C03_slew", "Verif.C03_first_not_slewed"], "note": ""},
{"property": "C04", "status": "proved", "theorems": ["Verif.C04_memoryless", "Verif.C04_two_histories", "Verif.C04_needs_finite"], "note": "C04_needs_finite is a finding: a NaN or infinite error makes the derivative part NaN even with a zero derivative coefficient."},
{"property": "C05", "status": "proved", "theorems": ["Verif.C05_monotone"], "note": ""},
{"property": "C06", "status": "proved", "theorems": ["Verif.C06_textbook"], "note": ""},
{"property": "C07", "status": "proved", "theorems": ["Verif.C07_no_new_nan", "Verif.C07_nan_reading", "Verif.C07_poisoned_forever", "Verif.C07_recovers"], "note": "C07_poisoned_forever is a finding: one NaN reading poisons the integral for good."},
{"property": "C08", "status": "proved", "theorems": ["Verif.C08_above", "Verif.C08_below", "Verif.C08_between", "Verif.C08_outputs", "Verif.C08_outputs_slew", "Verif.C08_slew_below_minimum"], "note": "C08_slew_below_minimum is a finding: with set-point hysteresis and slew limiting the output can stay below the lower output limit."},
{"property": "C09", "status": "proved", "theorems": ["Verif.C09_latched_reading"], "note": ""},
{"property": "C10", "status": "proved", "theorems": ["Verif.C10_zero_hysteresis_transparent"], "note": ""},
{"property": "C11", "status": "proved", "theorems": ["Verif.C11_lookup"], "note": ""},
{"property": "C12", "status": "proved", "theorems": ["Verif.C12_from_table", "Verif.C12_monotone"], "note": ""},
{"property": "C13", "status": "proved", "theorems": ["Verif.C13_hysteresis", "Verif.C13_change_only_on_leaving"], "note": ""},
{"property": "C14", "status": "proved", "theorems": ["Verif.C14_ceiling", "Verif.C14_setpoint"], "note": ""},
{"property": "C15", "status": "proved", "theorems": ["Verif.C15_hottest", "Verif.C15_all_nan", "Verif.C15_order", "Verif.C15_is_a_reading"], "note": ""},
{"property": "C16", "status": "proved", "theorems": ["Verif.C16_absolute", "Verif.C16_margin", "Verif.C16_summation", "Verif.C16_order"], "note": ""},
{"property": "C17", "status": "proved", "theorems": ["Verif.C17_neutral"], "note": ""},
{"property": "C18", "status": "proved", "theorems": ["Verif.C18_conversion", "Verif.C18_tjmax_error"], "note": ""},
{"property": "C19", "status": "proved", "theorems": ["Verif.C19_leader"], "note": ""},
{"property": "C20", "status": "proved", "theorems": ["Verif.C20_slowest", "Verif.C20_order"], "note": ""},
{"property": "C21", "status": "proved", "theorems": ["Verif.C21_direction"], "note": ""},
{"property": "C22", "status": "proved", "theorems": ["Verif.C22_failsafe_floor", "Verif.C22_nan_not_floored"], "note": "C22_nan_not_floored is a finding: a NaN fan PID output is commanded as it is, without the failsafe floor."},
{"property": "C23", "status": "proved", "theorems": ["Verif.C23_arbitration", "Verif.C23_total", "Verif.C23_cycle"], "note": ""},
{"property": "C24", "status": "proved", "theorems": ["Verif.C24_order", "Verif.C24_cycle"], "note": ""},
{"property": "C25", "status": "proved", "theorems": ["Verif.C25_accumulated", "Verif.C25_totals", "Verif.C25_order_dependent"], "note": "C25_order_dependent is a finding: the request is the largest running sum, so negative contributions make the set point depend on the order of the loops."},
{"property": "C26", "status": "proved", "theorems": ["Verif.C26_disabled_submission", "Verif.C26_disabled_dropped", "Verif.C26_cycle", "Verif.C26_ceiling_not_disabled", "Verif.C26_switch"], "note": "C26_ceiling_not_disabled is a finding: ceilings ignore the enable flag of their loop."},
{"property": "C27", "status": "proved", "theorems": ["Verif.C27_no_leak"], "note": ""},
{"property": "C28", "status": "proved", "theorems": ["Verif.C28_membership", "Verif.C28_passes", "Verif.C28_entry", "Verif.C28_cached", "Verif.C28_total"], "note": ""},
{"property": "C29", "status": "proved", "theorems": ["Verif.C29_members", "Verif.C29_mode"], "note": ""},
{"property": "C30", "status": "proved", "theorems": ["Verif.C30_start", "Verif.C30_until_first_tick"], "note": ""},
{"property": "C31", "status": "proved", "theorems": ["Verif.C31_never_failed", "Verif.C31_never_failsafe", "Verif.C31_marking"], "note": ""},
{"property": "C32", "status": "proved", "theorems": ["Verif.C32_none", "Verif.C32_selection", "Verif.C32_nan_poisons"], "note": ""},
{"property": "C33", "status": "proved", "theorems": ["Verif.C33_maximum", "Verif.C33_order"], "note": ""},
{"property": "C34", "status": "partial", "theorems": ["Verif.C34_nan_ignored_partial", "Verif.C34_nan_first", "Verif.C34_violated"], "note": "Holds unless the first submitted ceiling is NaN; C34_nan_first and C34_violated prove that the code breaks the full statement then."},
{"property": "C35", "status": "proved", "theorems": ["Verif.C35_requester", "Verif.C35_accumulating", "Verif.C35_ceiling_unnamed"], "note": ""},
{"property": "C36", "status": "proved", "theorems": ["Verif.C36_override", "Verif.C36_blank_file", "Verif.C36_off"], "note": "C36_blank_file is a finding: a blank set point file leads to a read of an uninitialised value."},
{"property": "C37", "status": "proved", "theorems": ["Verif.C37_schedule", "Verif.C37_count", "Verif.C37_fast_thermals", "Verif.C37_loop"], "note": "C37_fast_thermals covers a thermal interval not longer than the fan interval: no pass on the first tick, one pass on every later tick."},
{"property": "C38", "status": "proved", "theorems": ["Verif.C38_no_drift"], "note": ""},
{"property": "C39", "status": "proved", "theorems": ["Verif.C39_frozen"], "note": ""},
{"property": "C40", "status": "proved", "theorems": ["Verif.C40_forced_once"], "note": ""},
{"property": "C41", "status": "proved", "theorems": ["Verif.C41_stops", "Verif.C41_aborted", "Verif.C41_not_started"], "note": ""},
{"property": "C42", "status": "proved", "theorems": ["Verif.C42_failing_sensor"], "note": ""},
{"property": "C43", "status": "proved", "theorems": ["Verif.C43_no_crash", "Verif.C43_run", "Verif.C43_start"], "note": "The remaining failure is the conversion of a fan command to an integer, which is undefined for NaN and huge commands."},
{"property": "C44", "status": "proved", "theorems": ["Verif.C44_same_tick"], "note": ""},
{"property": "C45", "status": "proved", "theorems": ["Verif.C45_range", "Verif.C45_ends", "Verif.C45_monotone"], "note": ""},
{"property": "C46", "status": "proved", "theorems": ["Verif.C46_sent_iff"], "note": ""},
{"property": "C47", "status": "proved", "theorems": ["Verif.C47_target", "Verif.C47_sent", "Verif.C47_not_retried", "Verif.C47_sysfs"], "note": "C47_not_retried is a finding: a failed bus call is not repeated while the commanded value stays the same."},
{"property": "C48", "status": "proved", "theorems": ["Verif.C48_reading", "Verif.C48_last_finite", "Verif.C48_bad_only", "Verif.C48_unavailable"], "note": "Over every message history of a sensor made by createDbusPassive (Setup): reading, time and unscaled value. C48_last_finite and C48_unavailable give the two clauses of the statement, C48_bad_only the effect of a single non-finite update."},
{"property": "C49", "status": "proved", "theorems": ["Verif.C49_decision"], "note": "The decision is stated on the history of messages (Setup.ShouldFail), not on the object's fields."},
{"property": "C50", "status": "partial", "theorems": ["Verif.C50_both_reported_partial", "Verif.C50_violated", "Verif.C50_warning_clears"], "note": "The full statement is C50_statement; C50_violated refutes it for the code (low and high alarm in separate messages) and C50_warning_clears shows a second way. C50_both_reported_partial proves it when messages report both alarms and warnings are not used as failures. Missing: the cases the counterexamples show, where the code does not do it."},
{"property": "C51", "status": "proved", "theorems": ["Verif.C51_sticky", "Verif.C51_recovers"], "note": "C51_sticky: failed until a finite value; C51_recovers: a finite value ends it."},
{"property": "C52", "status": "proved", "theorems": ["Verif.C52_truthful"], "note": "Reasons listed independently in Setup.reasons."},
{"property": "C53", "status": "proved", "theorems": ["Verif.C53_unscaled", "Verif.C53_ends", "Verif.C53_monotone", "Verif.C53_unit", "Verif.C53_wide_range", "Verif.C53_nan_limits"], "note": "For every FloatModel, using gradual underflow for the strictly positive width. The maximum maps to 1 if max - min does not overflow (C53_wide_range shows that this is needed); C53_nan_limits records that NaN limits are not treated as unusable."},
{"property": "C54", "status": "proved", "theorems": ["Verif.C54_starts", "Verif.C54_last_status", "Verif.C54_outsider", "Verif.C54_overlap"], "note": "Members of an object are taken as fixed. The daemon starts whatever the bus answers first (C54_starts). C54_overlap shows that the groups must not overlap."},
{"property": "C55", "status": "proved", "theorems": ["Verif.C55_reads_last", "Verif.C55_failed", "Verif.C55_rejects_commands"], "note": "Over every history of writes to a sensor made by createTemp."},
{"property": "C56", "status": "proved", "theorems": ["Verif.C56_off", "Verif.C56_on", "Verif.C56_unexempted", "Verif.C56_built"], "note": "C56_built: the build keeps the configured exemption except for external sensors, which lose it."},
{"property": "C57", "status": "proved", "theorems": ["Verif.C57_last_state", "Verif.C57_other_messages", "Verif.C57_missed_before_start"], "note": "Includes starting and stopping of monitoring; C57_missed_before_start records that changes before startMonitoring are lost."},
{"property": "C58", "status": "proved", "theorems": ["Verif.C58_distinct", "Verif.C58_smallest", "Verif.C58_answered"], "note": "Over every sequence of set/get requests whose answers are in int64 (Numbered). The search is proved to terminate and to return the smallest free number; the wrap at the largest int64 is excluded because the table would need 2^63 names."},
{"property": "C59", "status": "proved", "theorems": ["Verif.C59_entries", "Verif.C59_roundtrip"], "note": "C59_entries describes every entry independently; C59_roundtrip is the round trip."},
{"property": "C60", "status": "proved", "theorems": ["Verif.C60_json", "Verif.C60_json_given", "Verif.C60_json_default", "Verif.C60_negative", "Verif.C60_dbus", "Verif.C60_dbus_given", "Verif.C60_dbus_default", "Verif.C60_dbus_undefined"], "note": "JSON and D-Bus: at least one, given whole numbers used as they are (D-Bus up to 2^53), default otherwise. Findings: negative numbers in a file wrap to huge intervals (C60_negative), 2^64 or more on the bus is an undefined cast (C60_dbus_undefined)."},
{"property": "C61", "status": "proved", "theorems": ["Verif.C61_entry", "Verif.C61_error", "Verif.C61_sensors", "Verif.C61_all"], "note": "Parsing as an equivalence with a key-by-key relation, for an entry and for the whole section; errors are exceptions except for undefined casts of huge fractions (C61_error). The JSON text parser is not modelled."},
{"property": "C62", "status": "proved", "theorems": ["Verif.C62_entry", "Verif.C62_error", "Verif.C62_zone", "Verif.C62_zone_total", "Verif.C62_zones", "Verif.C62_missing_name", "Verif.C62_list_ignored", "Verif.C62_fraction_dropped"], "note": "As C61, for loops and zones. Findings: missing id or name is undefined behaviour instead of an error (C62_missing_name), stepwise tables given as lists are ignored (C62_list_ignored), the failsafe percentage loses its fraction (C62_fraction_dropped)."},
{"property": "C63", "status": "proved", "theorems": ["Verif.C63_validate", "Verif.C63_accepts_undefined"], "note": "Equivalence with an independent description. Finding: files without zones or with zones lacking a number are accepted (C63_accepts_undefined)."},
{"property": "C64", "status": "proved", "theorems": ["Verif.C64_zone", "Verif.C64_zones", "Verif.C64_builds", "Verif.C64_unknown_dropped", "Verif.C64_from_json"], "note": "Full for pid/builder.cpp: each zone satisfies NewZone (loops, inputs, processes, percentages), zones are built exactly if all details and inputs are there, and errors are exceptions. C64_from_json connects it to the configuration file. Finding: loops of unknown type are dropped silently (C64_unknown_dropped). D-Bus registration (object path errors) is not modelled."},
{"property": "C65", "status": "proved", "theorems": ["Verif.C65_read", "Verif.C65_write", "Verif.C65_built"], "note": "Classes as inductive predicates over substring relations; C65_built links them to the reader and writer objects."},
{"property": "C66", "status": "proved", "theorems": ["Verif.C66_rejected", "Verif.C66_get", "Verif.C66_set", "Verif.C66_set_reply_length", "Verif.C66_missing_property"], "note": "For zone numbers up to 127 (C67 is about the others). C66_set_reply_length: the length of the reply of a set request is that of the request although nothing is stored; C66_missing_property: a missing property is reported as off."},
{"property": "C67", "status": "partial", "theorems": ["Verif.C67_small_partial", "Verif.C67_large", "Verif.C67_violated", "Verif.C67_separate"], "note": "The full statement is C67_statement; C67_violated refutes it for the code and C67_large shows that it fails for every zone number from 128. C67_small_partial proves it for the numbers up to 127. Missing: nothing else, the remaining cases are false in the code."},
{"property": "C68", "status": "proved", "theorems": ["Verif.C68_rate", "Verif.C68_program", "Verif.C68_clock_set_back", "Verif.C68_silent_counts"], "note": "C68_rate for one logger, C68_program for the whole program. C68_clock_set_back shows that the clock proviso is needed; C68_silent_counts: attempts that print nothing use up the limit."},
{"property": "C69", "status": "proved", "theorems": ["Verif.C69_once", "Verif.C69_line", "Verif.C69_printed", "Verif.C69_joined"], "note": "C69_printed adds that nothing new within the limit is suppressed. C69_joined: texts are compared after joining them."},
{"property": "C70", "status": "proved", "theorems": ["Verif.C70_exact", "Verif.C70_unlogged"], "note": "Over every interleaving of calls of all loops; clock readings different from zero."},
{"property": "C71", "status": "proved", "theorems": ["Verif.C71_names", "Verif.C71_distinct", "Verif.C71_opened"], "note": "C71_names: names are the letters and digits of the loop name; C71_distinct: no file is opened twice once a loop has its files; C71_opened: a loop does get its files."},
{"property": "C72", "status": "partial", "theorems": ["Verif.C72_one_zone_partial", "Verif.C72_one_attempt_partial", "Verif.C72_violated", "Verif.C72_survives"], "note": "The full statement is C72_statement; C72_violated refutes it for the code by a schedule with two zones and two restarts ready at once, and C72_survives shows that such a loop is never stopped. C72_one_zone_partial (at most one zone) and C72_one_attempt_partial (at most one attempt ready at any time) prove it under these provisos. Missing: nothing else, the remaining case is false in the code."},
{"property": "C73", "status": "proved", "theorems": ["Verif.C73_failed", "Verif.C73_detects", "Verif.C73_one_pending", "Verif.C73_not_forgotten", "Verif.C73_second_completes", "Verif.C73_first_fails"], "note": "Timer delays are not modelled: a pending retry may expire at any time. C73_first_fails (finding): the first attempt to restart running loops always fails, so every reload waits for the retry delay; C73_second_completes: the next attempt then completes."},
{"property": "C74", "status": "proved", "theorems": ["Verif.C74_nothing", "Verif.C74_written", "Verif.C74_zone", "Verif.C74_percentage", "Verif.C74_total", "Verif.C74_sysfs_undefined"], "note": "C74_nothing: without the option nothing is written; C74_written: with it every fan of the loop is written; C74_percentage: with the percentage the zone reports; C74_total: no failure when fans accept writes; C74_sysfs_undefined: a sysfs fan with a percentage whose raw value does not fit the integer type is undefined behaviour."},
{"property": "C75", "status": "proved", "theorems": ["Verif.C75_routed"], "note": "Zone numbers distinct (keys of the zone map). The clock readings within one call are equal."},
{"property": "C76", "status": "proved", "theorems": ["Verif.C76_no_influence", "Verif.C76_line"], "note": "C76_no_influence, C76_line."},
{"property": "C77", "status": "proved", "theorems": ["Verif.C77_set_get", "Verif.C77_failsafe", "Verif.C77_only"], "note": "The bus is modelled by the paths at which zones are offered; zone numbers up to 127 for C77_set_get and C77_failsafe, all requests for C77_only."},
{"property": "C78", "status": "proved", "theorems": ["Verif.C78_sysfs_fresh", "Verif.C78_text_is_zero", "Verif.C78_missing_undefined"], "note": "Negative timeouts are excluded. The read is stamped with the time of the polling pass (a simplification; the code reads the clock again). C78_text_is_zero and C78_missing_undefined are findings."},
{"property": "C79", "status": "proved", "theorems": ["Verif.C79_runs", "Verif.C79_empty_fan_loop"], "note": "Combines C64 with C43. Finding: C79_empty_fan_loop."},
{"property": "C80", "status": "proved", "theorems": ["Verif.C80_failsafe", "Verif.C80_hist"], "note": "Combines C64 with C42; C80_hist shows that a history starts for every built zone. Tuning must be off."},
{"property": "C81", "status": "proved", "theorems": ["Verif.C81_profiles", "Verif.C81_total"], "note": "Model/DbusInit applyProfiles."},
{"property": "C82", "status": "proved", "theorems": ["Verif.C82_distinct", "Verif.C82_settings", "Verif.C82_index", "Verif.Ex.C82_shifted", "Verif.Ex.C82_integer_ignored"], "note": "Findings: C82_shifted, C82_integer_ignored."},
{"property": "C83", "status": "proved", "theorems": ["Verif.C83_loops", "Verif.C83_present", "Verif.C83_loop", "Verif.C83_search_name", "Verif.Ex.C83_fan_not_lenient"], "note": "C83_loops (nothing else), C83_present (nothing missing), C83_loop (the settings). Regular expressions and threshold values are parameters of the model. Finding: C83_fan_not_lenient."},
{"property": "C84", "status": "proved", "theorems": ["Verif.C84_present", "Verif.C84_loop", "Verif.Ex.C84_stops", "Verif.Ex.C84_percent_ignored"], "note": "Findings: C84_stops, C84_percent_ignored."},
{"property": "C85", "status": "proved", "theorems": ["Verif.C85_inputs", "Verif.C85_fits", "Verif.C85_sensor_name", "Verif.Ex.C85_collision"], "note": "Finding: C85_collision."},
{"property": "C86", "status": "proved", "theorems": ["Verif.C86_builds", "Verif.C86_usable", "Verif.Ex.C86_unknown_zone"], "note": "Uses C64. Finding: C86_unknown_zone."},
{"property": "C87", "status": "partial", "theorems": ["Verif.C87_margins_partial", "Verif.Ex.C87_violated", "Verif.C87_position"], "note": "Proved if every name stands for exactly one sensor on the bus. False otherwise: Ex.C87_violated (a missing sensor shifts the margins of those behind it). C87_position says for every case which margin a sensor gets: the one at its position among awaited sensors (which all come first) and found sensors. Missing: nothing else, where the positions differ the code does not do what the statement says."},
{"property": "C88", "status": "proved", "theorems": ["Verif.C88_runs"], "note": "Combines C85, C86 and C79."},
{"property": "C89", "status": "proved", "theorems": ["Verif.C89_table", "Verif.Ex.C89_comma"], "note": "Text of the log file against a table specification; number formatting is abstract. Finding C89_comma."},
{"property": "C90", "status": "proved", "theorems": ["Verif.C90_remembered", "Verif.C90_first_row", "Verif.C90_later_rows", "Verif.Ex.C90_sysfs"], "note": "Finding C90_sysfs: raw output of sysfs fans is always shown as -1."},
{"property": "C91", "status": "proved", "theorems": ["Verif.C91_tick", "Verif.C91_history", "Verif.C91_possible"], "note": "The logging tick projected to its state is the plain tick; histories correspond in both directions."},
{"property": "C92", "status": "proved", "theorems": ["Verif.C92_decision", "Verif.C92_reading", "Verif.C92_nothing_early", "Verif.C92_alarm_overwritten"], "note": "Decision and reading with messages before and after the answers of the bus. Finding C92_alarm_overwritten."},
{"property": "C93", "status": "proved", "theorems": ["Verif.C93_signals", "Verif.C93_new_configuration"], "note": "Signals other than PropertiesChanged carry a valid object path (D-Bus guarantees it). Finding C93_new_configuration."},
{"property": "C94", "status": "proved", "theorems": ["Verif.C94_one_per_burst", "Verif.C94_waits", "Verif.C94_not_forgotten", "Verif.C94_bus", "Verif.C94_hangup"], "note": "The timer as a state machine with queued handlers; the same machine for both delays."},
{"property": "C95", "status": "proved", "theorems": ["Verif.C95_created", "Verif.C95_start", "Verif.C95_missing", "Verif.C95_no_value"], "note": "Bus answers are arbitrary. Findings C95_missing, C95_no_value."},
{"property": "C96", "status": "proved", "theorems": ["Verif.C96_history", "Verif.C96_possible", "Verif.C96_reported", "Verif.C96_failing", "Verif.C96_recovered"], "note": "Histories of the zone extended by the calls to the failsafe log."},
{"property": "C97", "status": "partial", "theorems": ["Verif.C97_messages_partial", "Verif.C97_own_failure", "Verif.C97_other_failed", "Verif.Ex.C97_violated", "Verif.Ex.C97_flapping"], "note": "C97_statement is the full claim, Ex.C97_violated refutes it; the partial theorem covers messages about zones and sensor messages in the cases named there. Findings C97_other_failed, C97_flapping."},
{"property": "C98", "status": "proved", "theorems": ["Verif.C98_all_or_nothing", "Verif.C98_as_configured", "Verif.C98_types", "Verif.C98_unknown_dropped", "Verif.C98_empty_path", "Verif.C98_can_make"], "note": "Findings C98_unknown_dropped, C98_empty_path; one sensor that cannot be made keeps all from being built (C98_all_or_nothing)."},
{"property": "C99", "status": "proved", "theorems": ["Verif.C99_launches", "Verif.C99_keeps_running"], "note": "The daemon as sensors, zones and events; casts that are undefined in C++ are errors of the model."},
{"property": "C100", "status": "proved", "theorems": ["Verif.C100_failsafe", "Verif.C100_alarm_fails", "Verif.C100_silent_fails", "Verif.C100_alarm"], "note": "C100_failsafe for any failure; C100_alarm_fails and C100_silent_fails for two ways a D-Bus sensor fails; C100_alarm combines them. Requires that no percentage is NaN and tuning is off."},
{"property": "C101", "status": "proved", "theorems": ["Verif.C101_alone", "Verif.Ex.C101_shared"], "note": "Two executions of the whole daemon are compared. Finding Ex.C101_shared: zones that share a fan disturb each other."},
{"property": "C102", "status": "proved", "theorems": ["Verif.C102_zone", "Verif.C102_recovery"], "note": "C102_zone for histories of one zone, C102_recovery for the whole daemon. The counterpart of C100."},
{"property": "C103", "status": "proved", "theorems": ["Verif.C103_hot_sensor"], "note": "C103_hot_sensor is about the whole daemon. A fan loop that cannot write any fan is left out, as in C100."},
{"property": "C104", "status": "proved", "theorems": ["Verif.C104_hot_sensor"], "note": "C104_hot_sensor is about the whole daemon. Loops with integral parts are covered by C117, margins, sums of powers and slew rates by C118."},
{"property": "C105", "status": "proved", "theorems": ["Verif.C105_read", "Verif.C105_write", "Verif.C105_second_glob", "Verif.C105_missing_directory"], "note": "Which entry of a directory comes first is up to the system."},
{"property": "C106", "status": "proved", "theorems": ["Verif.C106_told", "Verif.C106_alarm"], "note": "C106_told adds to any bound of the form FansAtLeast; C106_alarm is the composition with C100_alarm. When a call to the fan service fails, C47 says what is lost."},
{"property": "C107", "status": "proved", "theorems": ["Verif.C107_collected", "Verif.C107_profiles", "Verif.C107_no_answer", "Verif.C107_no_modes", "Verif.C107_without_manager", "Verif.C107_sensors", "Verif.C107_configured", "Verif.C107_two_managers"], "note": "C107_collected is the heart: the list dbusInit starts from is a permutation of the configuration objects. C107_without_manager and C107_two_managers are findings."},
{"property": "C108", "status": "proved", "theorems": ["Verif.C108_source", "Verif.C108_file", "Verif.C108_bad_file", "Verif.C108_unacceptable", "Verif.C108_file_runs", "Verif.C108_bus", "Verif.C108_bus_suits", "Verif.C108_bus_runs", "Verif.C108_given_removed"], "note": "C108_bus_runs assumes that reading the configuration succeeds and that missing objects are not handled (the default build). C108_given_removed is a finding."},
{"property": "C109", "status": "proved", "theorems": ["Verif.C109_reads", "Verif.C109_needs", "Verif.C109_order", "Verif.C109_runs", "Verif.C109_stops"], "note": "C109_reads also assumes that thresholds that are asked for are known, and fewer than 2^62 zones with numbers below 2^62. C109_stops is a finding."},
{"property": "C110", "status": "proved", "theorems": ["Verif.C110_goes", "Verif.C110_usage", "Verif.C110_switches", "Verif.C110_log_path", "Verif.C110_log_there", "Verif.C110_given", "Verif.C110_zone_files", "Verif.C110_core_alone", "Verif.C110_not_a_directory", "Verif.C110_needs_temp"], "note": "C110_core_alone, C110_not_a_directory and C110_needs_temp are findings. The command line parser is an external library; only its two checks of paths are modelled."},
{"property": "C111", "status": "proved", "theorems": ["Verif.C111_rate", "Verif.C111_ticks", "Verif.C111_alarm", "Verif.C111_silent", "Verif.C111_hot", "Verif.C111_hot_loop"], "note": "The lateness of the event loop is an assumption (Served). C111_hot has the provisos of C103, C111_hot_loop those of C104. Fans that another zone also commands are excluded (OnlyZone)."},
{"property": "C112", "status": "proved", "theorems": ["Verif.C112_quiet", "Verif.C112_told", "Verif.C112_time"], "note": "C112_quiet: cycles and commands; C112_told: the numbers written; C112_time: times, with the assumption on lateness of C111. Loops kept down by a table must have finite readings, as the code can take the last output for NaN. Zones that add up set points are excluded."},
{"property": "C113", "status": "proved", "theorems": ["Verif.C113_timers", "Verif.C113_alarm", "Verif.C113_silent", "Verif.C113_hot"], "note": "C113_timers: the daemon that runs from a file has exactly one set of timers; C113_alarm, C113_silent, C113_hot: the three causes. Fan limits in the file must be integers between 0 and 2^53; lateness as in C111."},
{"property": "C114", "status": "proved", "theorems": ["Verif.C114_flags", "Verif.C114_controls", "Verif.C114_agreed", "Verif.C114_order", "Verif.C114_fans"], "note": "C114_flags: the options are those of a configuration that uses the sensor; C114_agreed: of all, if they agree. C114_controls: sensors that are fans, or are written, come from a fan configuration that applies and are written through its control. Findings: C114_order (two configurations that differ: the order of a hash map decides), C114_fans (the options of fan loops are not kept)."},
{"property": "C115", "status": "proved", "theorems": ["Verif.C115_timers", "Verif.C115_alarm", "Verif.C115_hot"], "note": "C115_timers: the timers are determined by the configuration on the bus; C115_alarm, C115_hot: the two chains from objects on the bus to what a fan was told last. Support for missing objects is assumed not to be compiled in (the default); C113_silent has no counterpart because sensors configured over D-Bus have no timeout."},
{"property": "C116", "status": "proved", "theorems": ["Verif.C116_attempt", "Verif.C116_pending", "Verif.C116_second"], "note": "In the event queue model of C72/C73. Timer delays are not modelled: a pending retry may expire at any time, and that it does expire is a matter of fairness that is not stated."},
{"property": "C117", "status": "proved", "theorems": ["Verif.C117_hot_input", "Verif.C117_time", "Verif.C117_one_sensor", "Verif.C117_one_margin", "Verif.C117_one_power", "Verif.C117_hot_sensor", "Verif.C117_sooner_or_later"], "note": "C117_hot_input: cycles and commands; C117_time: times, with the assumption on lateness of C111; C117_one_sensor, C117_one_margin, C117_one_power: one sensor is enough; C117_hot_sensor: the case of one hot temperature; C117_sooner_or_later: when a loop winds up at all. Zones that add up set points or have ceilings are excluded, as for C104."},
{"property": "C118", "status": "proved", "theorems": ["Verif.C118_hot_input", "Verif.C118_time", "Verif.C118_sooner_or_later"], "note": "C118_hot_input: cycles and commands; C118_time: times, with the assumption on lateness of C111; C118_sooner_or_later: when a loop reaches its target at all. With slew rate 0 and N = 0 this extends C104 to margins and sums of powers. Loops with slew rates and an integral part, and the provisos of C104, are excluded."},
{"property": "C119", "status": "proved", "theorems": ["Verif.C119_slow_fans", "Verif.C119_all_fans", "Verif.C119_set_points", "Verif.C119_hot_sensor", "Verif.C119_time"], "note": "C119_slow_fans: one fan loop; C119_all_fans: all fan loops of a zone; C119_set_points: bounds of the set point; C119_hot_sensor: from a hot sensor of a speed table to commands; C119_time: times, with the assumption on lateness of C111. How fans answer to commands is not modelled: that they are too slow is a hypothesis about their readings. Fan loops with slew rates or hysteresis, zones that add up set points and ceilings are excluded."},
{"property": "C120", "status": "proved", "theorems": ["Verif.C120_change", "Verif.C120_drowned", "Verif.C120_same", "Verif.C120_possible", "Verif.C120_launch", "Verif.C120_rate", "Verif.C120_shown"], "note": "C120_same, C120_possible, C120_launch: the daemon with loggers does what it does without; C120_rate: the limit; C120_change: one logger; C120_shown: the running daemon; C120_drowned: the finding, for any number of cycles. The calls of one tick are taken to happen in the same millisecond. Messages about fan sensors themselves reach no logger, because zones report their thermal inputs only."},
{"property": "C121", "status": "proved", "theorems": ["Verif.C121_set", "Verif.C121_objects", "Verif.C121_answer", "Verif.C121_ipmi", "Verif.C121_ipmi_read", "Verif.C121_freeze", "Verif.C121_release", "Verif.C121_setsensor"], "note": "C121_set: one call in any state; C121_objects, C121_answer: the daemon of a configuration; C121_ipmi, C121_ipmi_read, C121_freeze, C121_release: the IPMI commands; C121_setsensor: the finding. Host sensors are assumed to have different paths. That a value must have the type of its property is the check sd-bus makes."},
{"property": "C122", "status": "proved", "theorems": ["Verif.C122_free", "Verif.C122_output", "Verif.C122_stepwise", "Verif.C122_explains", "Verif.C122_always"], "note": "C122_free: any writes to what is shown; C122_output, C122_explains, C122_always: the daemon of a configuration; C122_stepwise: the finding. The switch of a loop is not among the shown properties here (it is C121)."},
{"property": "C123", "status": "proved", "theorems": ["Verif.C123_restart", "Verif.C123_reloads", "Verif.C123_outcomes", "Verif.C123_life", "Verif.C123_forgets", "Verif.C123_fresh", "Verif.C123_hold", "Verif.C123_offline", "Verif.C123_end", "Verif.C123_silent", "Verif.C123_some", "Verif.C123_alarm", "Verif.C123_host_stuck"], "note": "C123_life, C123_restart, C123_reloads: the state after reloads is that of a started daemon and conversely; C123_forgets, C123_fresh, C123_alarm: what follows; C123_hold, C123_offline, C123_end, C123_silent: what fans are told (C74_percentage says which percentage); C123_some: zones that cannot be started; C123_outcomes: what a reload without a configuration or with a bad one comes to; C123_host_stuck: the finding, under the assumption that the bus refuses a second object with the same interface at a path, which is a parameter of the model. Stopping is taken to be complete (C73) and time stands still during a reload."},
{"property": "C124", "status": "proved", "theorems": ["Verif.C124_commands", "Verif.C124_told", "Verif.C124_sensors", "Verif.C124_same", "Verif.C124_world", "Verif.Ex.C124_hysteresis"], "note": "C124_commands for the commanded fractions, C124_told for the numbers fans are told, C124_sensors, C124_same and C124_world lead back the hypothesis on inputs to the sensors. For zones that take the largest set point, without ceilings, with fan loops that hand their set point on, without tuning and strict failsafe, PID inputs of moderate size. Verif.Ex.C124_hysteresis is the counterexample with hysteresis."},
{"property": "C125", "status": "proved", "theorems": ["Verif.C125_exact", "Verif.C125_unique", "Verif.C125_forgets", "Verif.C125_told"], "note": "C125_exact for the percentages, C125_told for the numbers fans are told, C125_unique and C125_forgets for the independence of the past. For zones that take the largest set point, fan loops that hand their set point on, without tuning, PID inputs of moderate size."},
{"property": "C126", "status": "proved", "theorems": ["Verif.C126_exact", "Verif.C126_unique", "Verif.C126_told", "Verif.Ex.C126_strict"], "note": "C126_exact for the percentages, C126_unique, C126_told for the numbers fans are told. Conditions as for C125. Verif.Ex.C126_strict shows that strict failsafe can slow the fans when a sensor fails."},
{"property": "C127", "status": "proved", "theorems": ["Verif.C127_exact", "Verif.C127_unique", "Verif.C127_totals", "Verif.C127_told", "Verif.Ex.C127_names"], "note": "C127_exact for the percentages, C127_unique, C127_totals, C127_told for the numbers fans are told. Conditions as for C125. Verif.Ex.C127_names shows that with negative outputs the names of the loops decide how fast the fans run."},
{"property": "C128", "status": "proved", "theorems": ["Verif.C128_told", "Verif.C128_file"], "note": "C128_told for given configuration maps, C128_file from the configuration file. Conditions as for C125; time is measured as in C111."},
{"property": "C129", "status": "proved", "theorems": ["Verif.C129_range", "Verif.C129_told", "Verif.C129_stop", "Verif.C129_file", "Verif.Ex.C129_above"], "note": "C129_range for every number sent, C129_told for the last one, C129_stop when zones are stopped, C129_file from the configuration file. A NaN command sends nothing (its conversion is undefined, C99). Ex.C129_above: a limit of 120 percent makes 306 of 255."},
{"property": "C130", "status": "proved", "theorems": ["Verif.C130_never_stops", "Verif.C130_launches", "Verif.Ex.C130_huge"], "note": "C130_never_stops for every run of a launched daemon, C130_launches with the launch. Tuning off. Removes the escape clauses of C99 (casts and wrongly typed messages). Ex.C130_huge: one finite absurd fan speed makes the cast undefined."},
{"property": "C131", "status": "proved", "theorems": ["Verif.C131_commands", "Verif.C131_same_world", "Verif.C131_told", "Verif.C131_raise", "Verif.C131_add", "Verif.Ex.C131_lower"], "note": "C131_same_world for commanded fractions, C131_told for numbers, C131_commands when the second world is also hotter; C131_raise and C131_add are the changes of configurations that ask for more cooling. For zones that take the largest set point, without ceilings, with fan loops that hand their set point on, without tuning and strict failsafe; both daemons survive. Ex.C131_lower: the condition on failsafe percentages is needed."},
{"property": "C132", "status": "proved", "theorems": ["Verif.C132_any_order", "Verif.C132_survives", "Verif.C132_swap", "Verif.C132_trans", "Verif.Ex.C132_alarms"], "note": "C132_any_order; C132_survives: both or neither; C132_swap and C132_trans say which sequences are meant. A timer keeps its place relative to all sensors, also those its zone does not read (see C133). Ex.C132_alarms: alarms and warnings of a sensor cannot be told apart."},
{"property": "C133", "status": "proved", "theorems": ["Verif.C133_own_part"], "note": "C133_own_part, for runs both daemons survive (another zone may bring its daemon down). Generalises C101, where only other zones are left out. Fans shared between zones: Ex.C101_shared."},
{"property": "C134", "status": "proved", "theorems": ["Verif.C134_same", "Verif.Ex.C134_repeated", "Verif.Ex.C134_misspelt"], "note": "C134_same. Of two files that cannot be used one may end the process with a message where the other is undefined (C62). Findings: Ex.C134_repeated (repeated names are not reported and the later entry counts), Ex.C134_misspelt (misspelt optional settings are not reported)."},
{"property": "C135", "status": "proved", "theorems": ["Verif.C135_order", "Verif.C135_same", "Verif.Ex.C135_two_zones", "Verif.Ex.C135_unnumbered", "Verif.Ex.C135_same_name"], "note": "C135_order for what init is given, C135_same for the bus and the start. Support for missing objects must not be compiled in. Findings where the order does decide: Ex.C135_unnumbered (zones without a number), Ex.C135_same_name (loops of the same name)."},
{"property": "C136", "status": "proved", "theorems": ["Verif.C136_drift", "Verif.C136_fan", "Verif.Ex.C136_thirty_years", "Verif.Ex.C136_hysteresis"], "note": "C136_drift and C136_fan, for binary64. Ex.C136_thirty_years is the case of percentages. Hysteresis is excluded because there rounding can decide whether the loop acts (finding Ex.C136_hysteresis)."},
{"property": "C137", "status": "proved", "theorems": ["Verif.C137_date", "Verif.C137_date_end", "Verif.C137_no_timeouts", "Verif.Ex.C137_fifty_years", "Verif.Ex.C137_set_ahead", "Verif.Ex.C137_set_back"], "note": "C137_date, C137_date_end and C137_no_timeouts on whole lives (Model/Whole). What happens with timeouts when the clock is set while the daemon runs is shown by the findings Ex.C137_set_ahead and Ex.C137_set_back. Timers use the steady clock and are not part of it."},
{"property": "C138", "status": "proved", "theorems": ["Verif.C138_written", "Verif.C138_exactly", "Verif.C138_again", "Verif.C138_same", "Verif.C138_loops", "Verif.Ex.C138_kept", "Verif.Ex.C138_bare_zone"], "note": "C138_written (round trip), C138_exactly (which configurations), C138_again (file to file), C138_same (bus to file, whole attempts), C138_loops. The text of a JSON file is not modelled; Json.Real says what a text can hold. HoldsInts (64-bit integers are finite doubles) is proved for binary64."},
{"property": "C139", "status": "proved", "theorems": ["Verif.C139_fan", "Verif.C139_failed", "Verif.C139_group", "Verif.C139_alarm", "Verif.C139_excused", "Verif.C139_off"], "note": "C139_fan (a failing fan, same cycle), C139_failed (exactly when a D-Bus sensor counts as failed), C139_group, C139_alarm (host running), C139_excused and C139_off (host off). Model/Watched puts the host monitor and the redundancy groups next to the daemon; reloading is left out there."},
{"property": "C140", "status": "proved", "theorems": ["Verif.C140_not_forgotten", "Verif.C140_keeps", "Verif.C140_waits", "Verif.C140_starts", "Verif.C140_starts_anyhow", "Verif.C140_apart", "Verif.C140_pause", "Verif.C140_restart", "Verif.C140_stopped_again", "Verif.C140_life"], "note": "C140_not_forgotten, C140_starts, C140_starts_anyhow, C140_keeps, C140_apart, C140_waits, C140_restart, C140_life; findings C140_pause and C140_stopped_again. Model/Retry adds time and the retry timer to Model/Whole; handlers waiting in the queue are left out (they are the subject of C72 and C73)."},
{"property": "C141", "status": "proved", "theorems": ["Verif.C141_listens", "Verif.C141_takes_effect", "Verif.C141_by_itself", "Verif.C141_until", "Verif.C141_usually", "Verif.C141_file"], "note": "C141_takes_effect, C141_usually, C141_until, C141_by_itself, C141_file, C141_listens. Model/Reloading puts the two timers that wait for a quiet moment around Model/Retry; a signal never meets an expiry that is due and not yet run (that case is in C94)."},
{"property": "C142", "status": "proved", "theorems": ["Verif.C142_ends", "Verif.C142_final", "Verif.C142_at_once", "Verif.C142_leaves"], "note": "C142_at_once, C142_leaves, C142_ends, C142_final. Model/Ending puts tryTerminateControlLoops with its time around Model/Reloading; that the first attempt fails exactly when loops run is as in Model/Retry (C113 and C116 have the details)."},
{"property": "C143", "status": "proved", "theorems": ["Verif.C143_range", "Verif.C143_life", "Verif.C143_file", "Verif.C143_bus"], "note": "C143_range (reloads and the end), C143_life (with timers and signals), C143_file (from the files), C143_bus (from the bus, or now and then from files). Config.Tables in C143_range and C143_life says that names occur once; it is derived for configurations from files and from the bus."},
{"property": "C144", "status": "proved", "theorems": ["Verif.C144_unbroken", "Verif.C144_all_or_none"], "note": "C144_unbroken (no breakdown, and an orderly end), C144_all_or_none (all zones of the last configuration or none). Tuning is off, as in C130. Speeds of fans are assumed to be below about a million when a timer expires (needed: Ex.C130_huge). That fans are controlled over D-Bus under the failsafe option is needed: C74_sysfs_undefined."},
{"property": "C145", "status": "proved", "theorems": ["Verif.C145_no_gap", "Verif.C145_alarm_fails", "Verif.C145_reload", "Verif.C145_broken_forgotten"], "note": "C145_no_gap (any failing sensor, at a start), C145_alarm_fails (an alarm shown by the object is such a failure), C145_reload (both, after any life). Tuning is off and percentages are numbers, as in C100. What the claim does not cover is a sensor whose failure is not visible when it is made: C145_broken_forgotten proves that the operational status is lost at a reload."},
{"property": "C146", "status": "proved", "theorems": ["Verif.C146_unattended", "Verif.C146_end", "Verif.C146_frozen"], "note": "C146_unattended (after a reload that leaves no zone), C146_end (at the end of the process), C146_frozen (finding: without the option the fans keep their last speed). The claim is about fans that have their path for themselves, with limits that are in order, whose writes succeed. It assumes that ending the zones does not break down; for fans written through sysfs it does in the model, because the destructor reads a variable that such a write does not set."},
{"property": "C147", "status": "proved", "theorems": ["Verif.C147_last", "Verif.C147_guarded", "Verif.Ex.C147_overruled"], "note": "C147_last (the zone that ran last decides), C147_guarded (when all zones that turn the fan depend on the failing sensor), Ex.C147_overruled (finding: an alarm in one zone is overruled by the other in every second cycle). About fans that have their path for themselves, with limits that are in order, whose writes succeed."},
{"property": "C148", "status": "proved", "theorems": ["Verif.C148_held", "Verif.C148_end"], "note": "C148_held (at every moment of the life), C148_end (when the process ends). It is assumed that after every reload either all zones run or none (C144 says when), that no zone is put into manual mode, that the fan has its path for itself in every configuration, with the same limits, and that writes to it succeed."},
{"property": "C149", "status": "proved", "theorems": ["Verif.C149_table", "Verif.C149_proportional", "Verif.C149_reload", "Verif.Ex.C149_forgotten"], "note": "C149_table, C149_proportional (a launched daemon), C149_reload (a reload in any life, for stepwise loops); Ex.C149_forgotten (finding: the integral is lost at a reload). About zones that take the largest request, fan loops that hand their set point on, tables that rise, loops that stay switched on, and a fan interval of at least 1 ms."},
{"property": "C150", "status": "proved", "theorems": ["Verif.C150_reload", "Verif.C150_across"], "note": "C150_reload (after the first cycle since the reload), C150_across (from before the reload on). About fans that have their path for themselves, with limits that are in order, whose writes succeed; zones as in C149 or C154."},
{"property": "C151", "status": "proved", "theorems": ["Verif.C151_file"], "note": "C151_file. About fans that only one zone has, with a path of their own and limits that are in order, whose writes succeed; the zone takes the largest request, or all its thermal loops are stepwise with rising tables without outputs below zero; none of its stepwise loops is a ceiling, and the loop stays switched on."},
{"property": "C152", "status": "proved", "theorems": ["Verif.C152_file"], "note": "C152_file. About fans that only one zone has, with a path of their own and limits that are in order, whose writes succeed; sensors that count as failed when unavailable, whether the host is on or not; failsafe percentages that are not negative."},
{"property": "C153", "status": "proved", "theorems": ["Verif.C153_alarm", "Verif.C153_hot"], "note": "C153_alarm, C153_hot. As for C115: the objects answer consistently and missing objects are not supported; fans of one zone, with a path of their own, whose writes succeed; loops of the zone with different names and without thresholds. C153_hot: zones that take the largest request, or whose thermal loops are all stepwise without outputs below zero; rising tables, no ceilings, fan loops that hand their set points on."},
{"property": "C154", "status": "proved", "theorems": ["Verif.C154_hot_sensor", "Verif.C154_warm"], "note": "C154_hot_sensor, C154_warm. Zones whose thermal loops are all stepwise, without ceilings; fan loops that hand their set points on. An example shows the claim failing with a negative output."}
]}
