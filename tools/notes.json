{
 "C04": {
  "note": "C04_needs_finite is a finding: a NaN or infinite error makes the derivative part NaN even with a zero derivative coefficient."
 },
 "C07": {
  "note": "C07_poisoned_forever is a finding: one NaN reading poisons the integral for good."
 },
 "C08": {
  "note": "C08_slew_below_minimum is a finding: with set-point hysteresis and slew limiting the output can stay below the lower output limit."
 },
 "C22": {
  "note": "C22_nan_not_floored is a finding: a NaN fan PID output is commanded as it is, without the failsafe floor."
 },
 "C25": {
  "note": "C25_order_dependent is a finding: the request is the largest running sum, so negative contributions make the set point depend on the order of the loops."
 },
 "C26": {
  "note": "C26_ceiling_not_disabled is a finding: ceilings ignore the enable flag of their loop."
 },
 "C34": {
  "note": "Holds unless the first submitted ceiling is NaN; C34_nan_first and C34_violated prove that the code breaks the full statement then."
 },
 "C36": {
  "note": "C36_blank_file is a finding: a blank set point file leads to a read of an uninitialised value."
 },
 "C37": {
  "note": "C37_fast_thermals covers a thermal interval not longer than the fan interval: no pass on the first tick, one pass on every later tick."
 },
 "C43": {
  "note": "The remaining failure is the conversion of a fan command to an integer, which is undefined for NaN and huge commands."
 },
 "C47": {
  "note": "C47_not_retried is a finding: a failed bus call is not repeated while the commanded value stays the same."
 },
 "C48": {
  "note": "Over every message history of a sensor made by createDbusPassive (Setup): reading, time and unscaled value. C48_last_finite and C48_unavailable give the two clauses of the statement, C48_bad_only the effect of a single non-finite update."
 },
 "C49": {
  "note": "The decision is stated on the history of messages (Setup.ShouldFail), not on the object's fields."
 },
 "C50": {
  "note": "The full statement is C50_statement; C50_violated refutes it for the code (low and high alarm in separate messages) and C50_warning_clears shows a second way. C50_both_reported_partial proves it when messages report both alarms and warnings are not used as failures. Missing: the cases the counterexamples show, where the code does not do it.",
  "status": "partial"
 },
 "C51": {
  "note": "C51_sticky: failed until a finite value; C51_recovers: a finite value ends it."
 },
 "C52": {
  "note": "Reasons listed independently in Setup.reasons."
 },
 "C53": {
  "note": "For every FloatModel, using gradual underflow for the strictly positive width. The maximum maps to 1 if max - min does not overflow (C53_wide_range shows that this is needed); C53_nan_limits records that NaN limits are not treated as unusable."
 },
 "C54": {
  "note": "Members of an object are taken as fixed. The daemon starts whatever the bus answers first (C54_starts). C54_overlap shows that the groups must not overlap."
 },
 "C55": {
  "note": "Over every history of writes to a sensor made by createTemp."
 },
 "C56": {
  "note": "C56_built: the build keeps the configured exemption except for external sensors, which lose it."
 },
 "C57": {
  "note": "Includes starting and stopping of monitoring; C57_missed_before_start records that changes before startMonitoring are lost."
 },
 "C65": {
  "note": "Classes as inductive predicates over substring relations; C65_built links them to the reader and writer objects."
 },
 "C58": {
  "note": "Over every sequence of set/get requests whose answers are in int64 (Numbered). The search is proved to terminate and to return the smallest free number; the wrap at the largest int64 is excluded because the table would need 2^63 names."
 },
 "C59": {
  "note": "C59_entries describes every entry independently; C59_roundtrip is the round trip."
 },
 "C74": {
  "note": "C74_nothing: without the option nothing is written; C74_written: with it every fan of the loop is written; C74_percentage: with the percentage the zone reports; C74_total: no failure when fans accept writes; C74_sysfs_undefined: a sysfs fan with a percentage whose raw value does not fit the integer type is undefined behaviour."
 },
 "C66": {
  "note": "For zone numbers up to 127 (C67 is about the others). C66_set_reply_length: the length of the reply of a set request is that of the request although nothing is stored; C66_missing_property: a missing property is reported as off."
 },
 "C67": {
  "note": "The full statement is C67_statement; C67_violated refutes it for the code and C67_large shows that it fails for every zone number from 128. C67_small_partial proves it for the numbers up to 127. Missing: nothing else, the remaining cases are false in the code.",
  "status": "partial"
 },
 "C68": {
  "note": "C68_rate for one logger, C68_program for the whole program. C68_clock_set_back shows that the clock proviso is needed; C68_silent_counts: attempts that print nothing use up the limit."
 },
 "C69": {
  "note": "C69_printed adds that nothing new within the limit is suppressed. C69_joined: texts are compared after joining them."
 },
 "C70": {
  "note": "Over every interleaving of calls of all loops; clock readings different from zero."
 },
 "C71": {
  "note": "C71_names: names are the letters and digits of the loop name; C71_distinct: no file is opened twice once a loop has its files; C71_opened: a loop does get its files."
 },
 "C75": {
  "note": "Zone numbers distinct (keys of the zone map). The clock readings within one call are equal."
 },
 "C76": {
  "note": "C76_no_influence, C76_line."
 },
 "C77": {
  "note": "The bus is modelled by the paths at which zones are offered; zone numbers up to 127 for C77_set_get and C77_failsafe, all requests for C77_only."
 },
 "C72": {
  "status": "partial",
  "note": "The full statement is C72_statement; C72_violated refutes it for the code by a schedule with two zones and two restarts ready at once, and C72_survives shows that such a loop is never stopped. C72_one_zone_partial (at most one zone) and C72_one_attempt_partial (at most one attempt ready at any time) prove it under these provisos. Missing: nothing else, the remaining case is false in the code."
 },
 "C73": {
  "note": "Timer delays are not modelled: a pending retry may expire at any time. C73_first_fails (finding): the first attempt to restart running loops always fails, so every reload waits for the retry delay; C73_second_completes: the next attempt then completes."
 },
 "C78": {
  "note": "Negative timeouts are excluded. The read is stamped with the time of the polling pass (a simplification; the code reads the clock again). C78_text_is_zero and C78_missing_undefined are findings."
 },
 "C60": {
  "note": "JSON and D-Bus: at least one, given whole numbers used as they are (D-Bus up to 2^53), default otherwise. Findings: negative numbers in a file wrap to huge intervals (C60_negative), 2^64 or more on the bus is an undefined cast (C60_dbus_undefined)."
 },
 "C61": {
  "note": "Parsing as an equivalence with a key-by-key relation, for an entry and for the whole section; errors are exceptions except for undefined casts of huge fractions (C61_error). The JSON text parser is not modelled."
 },
 "C62": {
  "note": "As C61, for loops and zones. Findings: missing id or name is undefined behaviour instead of an error (C62_missing_name), stepwise tables given as lists are ignored (C62_list_ignored), the failsafe percentage loses its fraction (C62_fraction_dropped)."
 },
 "C63": {
  "note": "Equivalence with an independent description. Finding: files without zones or with zones lacking a number are accepted (C63_accepts_undefined)."
 },
 "C64": {
  "note": "Full for pid/builder.cpp: each zone satisfies NewZone (loops, inputs, processes, percentages), zones are built exactly if all details and inputs are there, and errors are exceptions. C64_from_json connects it to the configuration file. Finding: loops of unknown type are dropped silently (C64_unknown_dropped). D-Bus registration (object path errors) is not modelled."
 },
 "C79": {
  "note": "Combines C64 with C43. Finding: C79_empty_fan_loop."
 },
 "C80": {
  "note": "Combines C64 with C42; C80_hist shows that a history starts for every built zone. Tuning must be off."
 },
 "C81": {
  "note": "Model/DbusInit applyProfiles."
 },
 "C82": {
  "note": "Findings: C82_shifted, C82_integer_ignored."
 },
 "C83": {
  "note": "C83_loops (nothing else), C83_present (nothing missing), C83_loop (the settings). Regular expressions and threshold values are parameters of the model. Finding: C83_fan_not_lenient."
 },
 "C84": {
  "note": "Findings: C84_stops, C84_percent_ignored."
 },
 "C85": {
  "note": "Finding: C85_collision."
 },
 "C86": {
  "note": "Uses C64. Finding: C86_unknown_zone."
 },
 "C87": {
  "note": "Proved if every name stands for exactly one sensor on the bus. False otherwise: Ex.C87_violated (a missing sensor shifts the margins of those behind it). C87_position says for every case which margin a sensor gets: the one at its position among awaited sensors (which all come first) and found sensors. Missing: nothing else, where the positions differ the code does not do what the statement says.",
  "status": "partial"
 },
 "C88": {
  "note": "Combines C85, C86 and C79."
 },
 "C89": {
  "note": "Text of the log file against a table specification; number formatting is abstract. Finding C89_comma."
 },
 "C90": {
  "note": "Finding C90_sysfs: raw output of sysfs fans is always shown as -1."
 },
 "C91": {
  "note": "The logging tick projected to its state is the plain tick; histories correspond in both directions."
 },
 "C92": {
  "note": "Decision and reading with messages before and after the answers of the bus. Finding C92_alarm_overwritten."
 },
 "C93": {
  "note": "Signals other than PropertiesChanged carry a valid object path (D-Bus guarantees it). Finding C93_new_configuration."
 },
 "C94": {
  "note": "The timer as a state machine with queued handlers; the same machine for both delays."
 },
 "C95": {
  "note": "Bus answers are arbitrary. Findings C95_missing, C95_no_value."
 },
 "C96": {
  "note": "Histories of the zone extended by the calls to the failsafe log."
 },
 "C97": {
  "note": "C97_statement is the full claim, Ex.C97_violated refutes it; the partial theorem covers messages about zones and sensor messages in the cases named there. Findings C97_other_failed, C97_flapping."
 },
 "C98": {
  "note": "Findings C98_unknown_dropped, C98_empty_path; one sensor that cannot be made keeps all from being built (C98_all_or_nothing)."
 },
 "C99": {
  "note": "The daemon as sensors, zones and events; casts that are undefined in C++ are errors of the model."
 },
 "C100": {
  "note": "C100_failsafe for any failure; C100_alarm_fails and C100_silent_fails for two ways a D-Bus sensor fails; C100_alarm combines them. Requires that no percentage is NaN and tuning is off."
 },
 "C101": {
  "note": "Two executions of the whole daemon are compared. Finding Ex.C101_shared: zones that share a fan disturb each other."
 },
 "C102": {
  "note": "C102_zone for histories of one zone, C102_recovery for the whole daemon. The counterpart of C100."
 },
 "C103": {
  "note": "C103_hot_sensor is about the whole daemon. A fan loop that cannot write any fan is left out, as in C100."
 },
 "C104": {
  "note": "C104_hot_sensor is about the whole daemon. Loops with integral parts are covered by C117, margins, sums of powers and slew rates by C118."
 },
 "C105": {
  "note": "Which entry of a directory comes first is up to the system."
 },
 "C106": {
  "note": "C106_told adds to any bound of the form FansAtLeast; C106_alarm is the composition with C100_alarm. When a call to the fan service fails, C47 says what is lost."
 },
 "C107": {
  "note": "C107_collected is the heart: the list dbusInit starts from is a permutation of the configuration objects. C107_without_manager and C107_two_managers are findings."
 },
 "C108": {
  "note": "C108_bus_runs assumes that reading the configuration succeeds and that missing objects are not handled (the default build). C108_given_removed is a finding."
 },
 "C109": {
  "note": "C109_reads also assumes that thresholds that are asked for are known, and fewer than 2^62 zones with numbers below 2^62. C109_stops is a finding."
 },
 "C110": {
  "note": "C110_core_alone, C110_not_a_directory and C110_needs_temp are findings. The command line parser is an external library; only its two checks of paths are modelled."
 },
 "C111": {
  "note": "The lateness of the event loop is an assumption (Served). C111_hot has the provisos of C103, C111_hot_loop those of C104. Fans that another zone also commands are excluded (OnlyZone)."
 },
 "C112": {
  "note": "C112_quiet: cycles and commands; C112_told: the numbers written; C112_time: times, with the assumption on lateness of C111. Loops kept down by a table must have finite readings, as the code can take the last output for NaN. Zones that add up set points are excluded."
 },
 "C113": {
  "note": "C113_timers: the daemon that runs from a file has exactly one set of timers; C113_alarm, C113_silent, C113_hot: the three causes. Fan limits in the file must be integers between 0 and 2^53; lateness as in C111."
 },
 "C114": {
  "note": "C114_flags: the options are those of a configuration that uses the sensor; C114_agreed: of all, if they agree. C114_controls: sensors that are fans, or are written, come from a fan configuration that applies and are written through its control. Findings: C114_order (two configurations that differ: the order of a hash map decides), C114_fans (the options of fan loops are not kept)."
 },
 "C115": {
  "note": "C115_timers: the timers are determined by the configuration on the bus; C115_alarm, C115_hot: the two chains from objects on the bus to what a fan was told last. Support for missing objects is assumed not to be compiled in (the default); C113_silent has no counterpart because sensors configured over D-Bus have no timeout."
 },
 "C116": {
  "note": "In the event queue model of C72/C73. Timer delays are not modelled: a pending retry may expire at any time, and that it does expire is a matter of fairness that is not stated."
 },
 "C117": {
  "note": "C117_hot_input: cycles and commands; C117_time: times, with the assumption on lateness of C111; C117_one_sensor, C117_one_margin, C117_one_power: one sensor is enough; C117_hot_sensor: the case of one hot temperature; C117_sooner_or_later: when a loop winds up at all. Zones that add up set points or have ceilings are excluded, as for C104."
 },
 "C118": {
  "note": "C118_hot_input: cycles and commands; C118_time: times, with the assumption on lateness of C111; C118_sooner_or_later: when a loop reaches its target at all. With slew rate 0 and N = 0 this extends C104 to margins and sums of powers. Loops with slew rates and an integral part, and the provisos of C104, are excluded."
 },
 "C119": {
  "note": "C119_slow_fans: one fan loop; C119_all_fans: all fan loops of a zone; C119_set_points: bounds of the set point; C119_hot_sensor: from a hot sensor of a speed table to commands; C119_time: times, with the assumption on lateness of C111. How fans answer to commands is not modelled: that they are too slow is a hypothesis about their readings. Fan loops with slew rates or hysteresis, zones that add up set points and ceilings are excluded."
 },
 "C120": {
  "note": "C120_same, C120_possible, C120_launch: the daemon with loggers does what it does without; C120_rate: the limit; C120_change: one logger; C120_shown: the running daemon; C120_drowned: the finding, for any number of cycles. The calls of one tick are taken to happen in the same millisecond. Messages about fan sensors themselves reach no logger, because zones report their thermal inputs only."
 },
 "C121": {
  "note": "C121_set: one call in any state; C121_objects, C121_answer: the daemon of a configuration; C121_ipmi, C121_ipmi_read, C121_freeze, C121_release: the IPMI commands; C121_setsensor: the finding. Host sensors are assumed to have different paths. That a value must have the type of its property is the check sd-bus makes."
 },
 "C122": {
  "note": "C122_free: any writes to what is shown; C122_output, C122_explains, C122_always: the daemon of a configuration; C122_stepwise: the finding. The switch of a loop is not among the shown properties here (it is C121)."
 },
 "C123": {
  "note": "C123_life, C123_restart, C123_reloads: the state after reloads is that of a started daemon and conversely; C123_forgets, C123_fresh, C123_alarm: what follows; C123_hold, C123_offline, C123_end, C123_silent: what fans are told (C74_percentage says which percentage); C123_some: zones that cannot be started; C123_outcomes: what a reload without a configuration or with a bad one comes to; C123_host_stuck: the finding, under the assumption that the bus refuses a second object with the same interface at a path, which is a parameter of the model. Stopping is taken to be complete (C73) and time stands still during a reload."
 },
 "C124": {
  "note": "C124_commands for the commanded fractions, C124_told for the numbers fans are told, C124_sensors, C124_same and C124_world lead back the hypothesis on inputs to the sensors. For zones that take the largest set point, without ceilings, with fan loops that hand their set point on, without tuning and strict failsafe, PID inputs of moderate size. Verif.Ex.C124_hysteresis is the counterexample with hysteresis."
 },
 "C125": {
  "note": "C125_exact for the percentages, C125_told for the numbers fans are told, C125_unique and C125_forgets for the independence of the past. For zones that take the largest set point, fan loops that hand their set point on, without tuning, PID inputs of moderate size."
 },
 "C126": {
  "note": "C126_exact for the percentages, C126_unique, C126_told for the numbers fans are told. Conditions as for C125. Verif.Ex.C126_strict shows that strict failsafe can slow the fans when a sensor fails."
 },
 "C127": {
  "note": "C127_exact for the percentages, C127_unique, C127_totals, C127_told for the numbers fans are told. Conditions as for C125. Verif.Ex.C127_names shows that with negative outputs the names of the loops decide how fast the fans run."
 },
 "C128": {
  "note": "C128_told for given configuration maps, C128_file from the configuration file. Conditions as for C125; time is measured as in C111."
 },
 "C129": {
  "note": "C129_range for every number sent, C129_told for the last one, C129_stop when zones are stopped, C129_file from the configuration file. A NaN command sends nothing (its conversion is undefined, C99). Ex.C129_above: a limit of 120 percent makes 306 of 255."
 },
 "C130": {
  "note": "C130_never_stops for every run of a launched daemon, C130_launches with the launch. Tuning off. Removes the escape clauses of C99 (casts and wrongly typed messages). Ex.C130_huge: one finite absurd fan speed makes the cast undefined."
 },
 "C131": {
  "note": "C131_same_world for commanded fractions, C131_told for numbers, C131_commands when the second world is also hotter; C131_raise and C131_add are the changes of configurations that ask for more cooling. For zones that take the largest set point, without ceilings, with fan loops that hand their set point on, without tuning and strict failsafe; both daemons survive. Ex.C131_lower: the condition on failsafe percentages is needed."
 },
 "C132": {
  "note": "C132_any_order; C132_survives: both or neither; C132_swap and C132_trans say which sequences are meant. A timer keeps its place relative to all sensors, also those its zone does not read (see C133). Ex.C132_alarms: alarms and warnings of a sensor cannot be told apart."
 },
 "C133": {
  "note": "C133_own_part, for runs both daemons survive (another zone may bring its daemon down). Generalises C101, where only other zones are left out. Fans shared between zones: Ex.C101_shared."
 },
 "C134": {
  "note": "C134_same. Of two files that cannot be used one may end the process with a message where the other is undefined (C62). Findings: Ex.C134_repeated (repeated names are not reported and the later entry counts), Ex.C134_misspelt (misspelt optional settings are not reported)."
 },
 "C135": {
  "note": "C135_order for what init is given, C135_same for the bus and the start. Support for missing objects must not be compiled in. Findings where the order does decide: Ex.C135_unnumbered (zones without a number), Ex.C135_same_name (loops of the same name)."
 },
 "C136": {
  "note": "C136_drift and C136_fan, for binary64. Ex.C136_thirty_years is the case of percentages. Hysteresis is excluded because there rounding can decide whether the loop acts (finding Ex.C136_hysteresis)."
 },
 "C137": {
  "note": "C137_date, C137_date_end and C137_no_timeouts on whole lives (Model/Whole). What happens with timeouts when the clock is set while the daemon runs is shown by the findings Ex.C137_set_ahead and Ex.C137_set_back. Timers use the steady clock and are not part of it."
 },
 "C138": {
  "note": "C138_written (round trip), C138_exactly (which configurations), C138_again (file to file), C138_same (bus to file, whole attempts), C138_loops. The text of a JSON file is not modelled; Json.Real says what a text can hold. HoldsInts (64-bit integers are finite doubles) is proved for binary64."
 },
 "C139": {
  "note": "C139_fan (a failing fan, same cycle), C139_failed (exactly when a D-Bus sensor counts as failed), C139_group, C139_alarm (host running), C139_excused and C139_off (host off). Model/Watched puts the host monitor and the redundancy groups next to the daemon; reloading is left out there."
 },
 "C140": {
  "note": "C140_not_forgotten, C140_starts, C140_starts_anyhow, C140_keeps, C140_apart, C140_waits, C140_restart, C140_life; findings C140_pause and C140_stopped_again. Model/Retry adds time and the retry timer to Model/Whole; handlers waiting in the queue are left out (they are the subject of C72 and C73)."
 },
 "C141": {
  "note": "C141_takes_effect, C141_usually, C141_until, C141_by_itself, C141_file, C141_listens. Model/Reloading puts the two timers that wait for a quiet moment around Model/Retry; a signal never meets an expiry that is due and not yet run (that case is in C94)."
 },
 "C142": {
  "note": "C142_at_once, C142_leaves, C142_ends, C142_final. Model/Ending puts tryTerminateControlLoops with its time around Model/Reloading; that the first attempt fails exactly when loops run is as in Model/Retry (C113 and C116 have the details)."
 },
 "C143": {
  "note": "C143_range (reloads and the end), C143_life (with timers and signals), C143_file (from the files), C143_bus (from the bus, or now and then from files). Config.Tables in C143_range and C143_life says that names occur once; it is derived for configurations from files and from the bus."
 },
 "C144": {
  "note": "C144_unbroken (no breakdown, and an orderly end), C144_all_or_none (all zones of the last configuration or none). Tuning is off, as in C130. Speeds of fans are assumed to be below about a million when a timer expires (needed: Ex.C130_huge). That fans are controlled over D-Bus under the failsafe option is needed: C74_sysfs_undefined."
 },
 "C145": {
  "note": "C145_no_gap (any failing sensor, at a start), C145_alarm_fails (an alarm shown by the object is such a failure), C145_reload (both, after any life). Tuning is off and percentages are numbers, as in C100. What the claim does not cover is a sensor whose failure is not visible when it is made: C145_broken_forgotten proves that the operational status is lost at a reload."
 },
 "C146": {
  "note": "C146_unattended (after a reload that leaves no zone), C146_end (at the end of the process), C146_frozen (finding: without the option the fans keep their last speed). The claim is about fans that have their path for themselves, with limits that are in order, whose writes succeed. It assumes that ending the zones does not break down; for fans written through sysfs it does in the model, because the destructor reads a variable that such a write does not set."
 },
 "C147": {
  "note": "C147_last (the zone that ran last decides), C147_guarded (when all zones that turn the fan depend on the failing sensor), Ex.C147_overruled (finding: an alarm in one zone is overruled by the other in every second cycle). About fans that have their path for themselves, with limits that are in order, whose writes succeed."
 },
 "C148": {
  "note": "C148_held (at every moment of the life), C148_end (when the process ends). It is assumed that after every reload either all zones run or none (C144 says when), that no zone is put into manual mode, that the fan has its path for itself in every configuration, with the same limits, and that writes to it succeed."
 },
 "C149": {
  "note": "C149_table, C149_proportional (a launched daemon), C149_reload (a reload in any life, for stepwise loops); Ex.C149_forgotten (finding: the integral is lost at a reload). About zones that take the largest request, fan loops that hand their set point on, tables that rise, loops that stay switched on, and a fan interval of at least 1 ms."
 },
 "C150": {
  "note": "C150_reload (after the first cycle since the reload), C150_across (from before the reload on). About fans that have their path for themselves, with limits that are in order, whose writes succeed; zones as in C149 or C154."
 },
 "C151": {
  "note": "C151_file. About fans that only one zone has, with a path of their own and limits that are in order, whose writes succeed; the zone takes the largest request, or all its thermal loops are stepwise with rising tables without outputs below zero; none of its stepwise loops is a ceiling, and the loop stays switched on."
 },
 "C152": {
  "note": "C152_file. About fans that only one zone has, with a path of their own and limits that are in order, whose writes succeed; sensors that count as failed when unavailable, whether the host is on or not; failsafe percentages that are not negative."
 },
 "C153": {
  "note": "C153_alarm, C153_hot. As for C115: the objects answer consistently and missing objects are not supported; fans of one zone, with a path of their own, whose writes succeed; loops of the zone with different names and without thresholds. C153_hot: zones that take the largest request, or whose thermal loops are all stepwise without outputs below zero; rising tables, no ceilings, fan loops that hand their set points on."
 },
 "C154": {
  "note": "C154_hot_sensor, C154_warm. Zones whose thermal loops are all stepwise, without ceilings; fan loops that hand their set points on. An example shows the claim failing with a negative output."
 }
}