{"id": "C01", "title": "PID output stays inside the configured output limits", "statement": "Starting from a freshly configured loop, after any sequence of PID computations with any readings, set points and any (possibly changing) feedback, every output is inside [out_limit_min, out_limit_max] (or is NaN, which only a NaN/overflowing intermediate can cause), also when slew limiting is on with slew_neg <= 0 <= slew_pos and a positive sample period.", "quantifier": "every parameter set with min <= max, every finite sequence of (reading, set point) pairs, every rounding behaviour of double arithmetic", "why_tests_cant": "The bound is an invariant over unbounded histories that interacts with slew limiting (which overwrites the clamped output) and with floating-point rounding; a test only samples some histories.", "anchors": ["pid/ec/pid.cpp: pid, clamp", "pid/ec/pid.hpp: pid_info_t"]}
{"id": "C02", "title": "Anti-windup: the accumulated integral stays inside the integral limits", "statement": "After every PID computation the stored integral term is inside [i_limit_min, i_limit_max] (or NaN), even when the slew limiter rewrites the integral from the limited output.", "quantifier": "every parameter set with min <= max, every previous state (reachable or not), every reading and set point", "why_tests_cant": "The integral is rewritten on two different paths (normal and slew limited) and carried across calls forever.", "anchors": ["pid/ec/pid.cpp: pid, clamp"]}
{"id": "C03", "title": "Slew-rate limit between consecutive outputs", "statement": "With slew_neg <= 0 <= slew_pos and a sample period that is not negative: from the second computation on, when a positive slew rate is configured the new output is at most the previous output plus slew_pos*ts, and when a negative slew rate is configured it is at least the previous output plus slew_neg*ts; the first computation is not slew limited.", "quantifier": "every parameter set, every initialized state, every reading and set point", "why_tests_cant": "Relates two consecutive outputs for all states; tests fix a handful of states.", "anchors": ["pid/ec/pid.cpp: pid"]}
{"id": "C04", "title": "A proportional/feed-forward loop has no memory", "statement": "With integral and derivative coefficients zero and slew limiting off, the output for a reading and set point does not depend on anything that happened before, as long as the error rates involved stay finite (a NaN or infinite earlier reading is remembered through the derivative part even when its coefficient is zero).", "quantifier": "every pair of histories, every reading and set point", "why_tests_cant": "Non-interference between the whole past and the present output is a relation over pairs of histories.", "anchors": ["pid/ec/pid.cpp: pid"]}
{"id": "C05", "title": "A hotter reading never asks for less cooling", "statement": "For a cooling loop (coefficients <= 0, positive sample period) and one fixed controller state, a higher reading never gives a lower output, with limits, slew limiting and rounding included, as long as no NaN arises.", "quantifier": "every state, every pair of readings, every monotone rounding", "why_tests_cant": "Monotonicity of the composed clamp/slew/rounding pipeline over all pairs of readings.", "anchors": ["pid/ec/pid.cpp: pid"]}
{"id": "C06", "title": "The integral term is the accumulated error", "statement": "With exact arithmetic, no slew limiting and limits that are never hit, the integral after n computations is the initial integral plus ki*ts times the sum of the n errors, and the output is the textbook discrete PID sum P + I + D + FF.", "quantifier": "every history of any length", "why_tests_cant": "A closed form over unbounded histories.", "anchors": ["pid/ec/pid.cpp: pid"]}
{"id": "C07", "title": "A non-NaN computation cannot become NaN in the limiter", "statement": "If the unlimited PID sum is not NaN and the limits and (when in use) the slew bounds are not NaN, the output is not NaN; and a NaN reading always produces a NaN output and poisons the loop only through stored state that the integral limits do not repair.", "quantifier": "every parameter set and state", "why_tests_cant": "NaN propagation must be tracked through every branch and comparison.", "anchors": ["pid/ec/pid.cpp: pid, clamp"]}
{"id": "C08", "title": "Set-point hysteresis switches the loop in three regions", "statement": "With check-hysteresis-with-setpoint enabled: a reading above set point + positive hysteresis runs the PID; a reading below set point - negative hysteresis gives output 0 and a cleared integral; in between the previous output is repeated exactly. Consequently without slew limiting every output over any history is 0, the initial last output, or a value inside the output limits; with slew limiting it stays in the hull of 0 and the output limits, and can lie below the lower output limit.", "quantifier": "every state, reading, set point and hysteresis pair; every history", "why_tests_cant": "Holding behaviour is a property of histories: the held value must stay what it was for as long as the reading stays in the band.", "anchors": ["pid/pidcontroller.cpp: PIDController::calPIDOutput, PIDController::process"]}
{"id": "C09", "title": "Plain hysteresis: the loop always computes on a reading close to the real one", "statement": "With a nonzero hysteresis, at every step of every history of finite readings the reading actually used is either the current reading or an earlier one from which the current reading differs by no more than the positive hysteresis upwards and the negative hysteresis downwards, and it is left unchanged while that holds.", "quantifier": "every history of finite readings, every hysteresis pair", "why_tests_cant": "Invariant linking a latched value to the current one over unbounded histories.", "anchors": ["pid/pidcontroller.cpp: PIDController::calPIDOutput"]}
{"id": "C10", "title": "Zero hysteresis is transparent", "statement": "With both hysteresis values zero and the set-point check off, a loop's output sequence over any history equals the sequence the bare PID computation produces.", "quantifier": "every history", "why_tests_cant": "Equality of two state machines over all input sequences.", "anchors": ["pid/pidcontroller.cpp: PIDController::calPIDOutput"]}
{"id": "C11", "title": "Stepwise table lookup", "statement": "For a table whose readings increase, the stepwise output is the output listed for the largest listed reading not above the input, and the first listed output when the input is below all of them; unlisted (NaN) entries end the table.", "quantifier": "every table of up to 20 points, every input including infinities and NaN", "why_tests_cant": "Must hold for every table length and every input position including boundaries.", "anchors": ["pid/ec/stepwise.cpp: stepwise"]}
{"id": "C12", "title": "Stepwise output comes from the table and is monotone", "statement": "The output is always one of the configured outputs; if the configured outputs never decrease then a higher input never gives a lower output.", "quantifier": "every table, every pair of inputs", "why_tests_cant": "Relation over all pairs of inputs and all tables.", "anchors": ["pid/ec/stepwise.cpp: stepwise"]}
{"id": "C13", "title": "Stepwise hysteresis", "statement": "For a table whose outputs are numbers, at every step of any history, the emitted value is the table value of some reference reading, the current reading is within the positive/negative hysteresis of that reference, and the emitted value changes only when the reading leaves that band.", "quantifier": "every history of readings, every table with NaN-free outputs, every hysteresis pair", "why_tests_cant": "Invariant over unbounded histories.", "anchors": ["pid/stepwisecontroller.cpp: StepwiseController::process"]}
{"id": "C14", "title": "Ceiling tables never request fan speed", "statement": "A stepwise controller configured as a ceiling only ever adds a ceiling to its zone and never a set point; one not so configured only adds a set point under its own name and never a ceiling.", "quantifier": "every controller, zone state and value", "why_tests_cant": "Exclusivity has to hold on every execution.", "anchors": ["pid/stepwisecontroller.cpp: StepwiseController::outputProc"]}
{"id": "C15", "title": "Stepwise input is the hottest available sensor", "statement": "A stepwise controller's input is the largest of its non-NaN cached readings and the lowest finite double, whatever the order of the inputs; so it is the lowest finite double when every reading is NaN, and one of the readings whenever one of them is finite or +inf.", "quantifier": "every set of inputs, every cache content, every order of inputs", "why_tests_cant": "Order independence and NaN skipping for arbitrary lists.", "anchors": ["pid/stepwisecontroller.cpp: StepwiseController::inputProc"]}
{"id": "C16", "title": "Thermal input aggregation", "statement": "A thermal loop's input is the smallest usable reading for margin loops, the largest for temperature/power loops and the running sum for power-sum loops; NaN and infinite readings are ignored; for minimum/maximum the order of the inputs does not matter. (Margins are compared after conversion; a conversion that overflows to +inf counts only if there is another one.)", "quantifier": "every list of inputs and every cache content", "why_tests_cant": "Quantifies over arbitrary lists with arbitrary mixes of invalid readings.", "anchors": ["pid/thermalcontroller.cpp: ThermalController::inputProc"]}
{"id": "C17", "title": "A thermal loop with no usable reading is neutral", "statement": "When no input of a thermal loop has a finite reading, the loop's input is its own set point, so its proportional error is exactly zero.", "quantifier": "every loop whose inputs are all non-finite", "why_tests_cant": "Quantifies over all combinations of invalid readings.", "anchors": ["pid/thermalcontroller.cpp: ThermalController::inputProc"]}
{"id": "C18", "title": "Temperature-to-margin conversion", "statement": "An input marked for conversion contributes (Tjmax - temperature) instead of the temperature, other inputs are used as they are; a conversion without a finite Tjmax raises an error instead of producing a number.", "quantifier": "every input list, cache content and Tjmax value", "why_tests_cant": "Mixed converted/unconverted inputs in arbitrary order.", "anchors": ["pid/thermalcontroller.cpp: ThermalController::inputProc", "util.cpp: spliceInputs"]}
{"id": "C19", "title": "Reported leader sensor", "statement": "The leader reported for a thermal loop is, after each input computation that finds a usable reading other than the extreme doubles, an input whose (converted) value equals the loop's input (minimum/maximum loops whose inputs have names).", "quantifier": "every input list and cache content", "why_tests_cant": "Attribution must be right for every list and tie.", "anchors": ["pid/thermalcontroller.cpp: ThermalController::inputProc"]}
{"id": "C20", "title": "Fan loop feedback is the slowest spinning fan", "statement": "The feedback of a fan loop is the smallest finite tach reading above zero among its fans, and 0 when there is none; order of fans does not matter.", "quantifier": "every list of fans and readings including NaN, infinities and negative values", "why_tests_cant": "Arbitrary lists and invalid readings.", "anchors": ["pid/fancontroller.cpp: FanController::inputProc"]}
{"id": "C21", "title": "Fan speed direction", "statement": "After each cycle the reported direction is up/down/neutral exactly as the new set point is above/below/neither compared to the previous one.", "quantifier": "every history of set points", "why_tests_cant": "History property.", "anchors": ["pid/fancontroller.cpp: FanController::setptProc"]}
{"id": "C22", "title": "Failsafe floor on every fan command", "statement": "While the zone is in failsafe mode and tuning is off, every fan command of every fan loop is at least the zone's failsafe percentage (exactly it with strict failsafe), provided the loop's output and the percentage are numbers; out of failsafe, or with tuning on, the command is the loop's own output. All fans of one loop get the same command.", "quantifier": "every zone state, every loop output, every list of fans, both build settings", "why_tests_cant": "Safety property over all states and outputs, including NaN outputs.", "anchors": ["pid/fancontroller.cpp: FanController::outputProc", "pid/zone.cpp: DbusPidZone::getFailSafePercent"]}
{"id": "C23", "title": "Zone set point arbitration", "statement": "After a thermal cycle the zone's set point is the largest requested set point (at least 0), capped by the lowest ceiling, and never below the configured minimum thermal output. (Provided that no ceiling is NaN and tuning is off.)", "quantifier": "every list of requests and ceilings, in every order", "why_tests_cant": "Order-independent extremum over arbitrary lists, interaction of three limits.", "anchors": ["pid/zone.cpp: DbusPidZone::addSetPoint, addRPMCeiling, determineMaxSetPointRequest, clearSetPoints, clearRPMCeilings"]}
{"id": "C24", "title": "Arbitration does not depend on the order of the loops", "statement": "Permuting the order in which loops submit set points and ceilings changes neither the resulting zone set point (non-accumulating zone) nor the failsafe decision. (Provided that no ceiling is NaN and tuning is off.)", "quantifier": "every permutation of every list of submissions", "why_tests_cant": "Quantifies over permutations.", "anchors": ["pid/zone.cpp: DbusPidZone::addSetPoint, determineMaxSetPointRequest"]}
{"id": "C25", "title": "Accumulated set points", "statement": "In an accumulating zone the set points of loops sharing a profile suffix are added up per profile (exact arithmetic), and the zone request is the maximum over profiles of the running sums. (Provided that no ceiling is NaN and tuning is off.)", "quantifier": "every list of submissions", "why_tests_cant": "Arbitrary number of loops and profiles.", "anchors": ["pid/zone.cpp: DbusPidZone::addSetPoint"]}
{"id": "C26", "title": "Disabled loops do not influence the fans", "statement": "A set point submitted by a loop whose control process is disabled leaves the zone's requests unchanged.", "quantifier": "every zone state and every submission", "why_tests_cant": "Frame property over all states.", "anchors": ["pid/zone.cpp: DbusPidZone::addSetPoint, isPidProcessEnabled"]}
{"id": "C27", "title": "Requests do not leak into the next cycle", "statement": "The set point produced by a thermal cycle depends only on the submissions of that cycle, not on submissions or ceilings of earlier cycles.", "quantifier": "every pair of earlier histories", "why_tests_cant": "Non-interference over histories.", "anchors": ["pid/pidloop.cpp: processThermals", "pid/zone.cpp: clearSetPoints, clearRPMCeilings"]}
{"id": "C28", "title": "Failsafe membership follows the last poll of each sensor", "statement": "After a polling pass, each polled sensor that is not allowed to be missing is listed as failed exactly when it reported failure or its last update is at least its timeout (in whole seconds, nonzero) old; sensors outside the pass keep their status.", "quantifier": "every set of sensors, every combination of failures, ages and timeouts", "why_tests_cant": "Arbitrary sensor populations and clock values.", "anchors": ["pid/zone.hpp: DbusPidZone::processSensorInputs, updateThermalInputs/updateFanTelemetry", "pid/zone.cpp: markSensorMissing"]}
{"id": "C29", "title": "Failsafe mode over any history", "statement": "At every moment after initialisation the zone reports failsafe mode exactly when at least one of its sensors that may not be missing was failed or stale at its most recent poll (or was never polled).", "quantifier": "every history of polls", "why_tests_cant": "Invariant over unbounded histories.", "anchors": ["pid/zone.cpp: getFailSafeMode, initializeCache, markSensorMissing", "pid/zone.hpp: processSensorInputs"]}
{"id": "C30", "title": "Start-up is in failsafe", "statement": "Before anything has been polled, a zone with at least one input that may not be missing is in failsafe mode and every cached reading is NaN.", "quantifier": "every zone configuration", "why_tests_cant": "All configurations.", "anchors": ["pid/zone.cpp: DbusPidZone::initializeCache"]}
{"id": "C31", "title": "Acceptably missing sensors never cause failsafe", "statement": "A sensor configured as acceptably missing is never in the failed set, whatever it reports.", "quantifier": "every history", "why_tests_cant": "Invariant over histories.", "anchors": ["pid/zone.cpp: DbusPidZone::markSensorMissing"]}
{"id": "C32", "title": "Failsafe percentage selection", "statement": "The failsafe percentage of a zone is the largest of the percentages of the currently failed sensors (a sensor without its own percentage counts with the zone's), and the zone's own percentage when no sensor is failed. (Provided that these percentages are numbers.)", "quantifier": "every failed set and percentage table", "why_tests_cant": "Arbitrary sets.", "anchors": ["pid/zone.cpp: DbusPidZone::getFailSafePercent, markSensorMissing, addPidFailSafePercent"]}
{"id": "C33", "title": "Per-sensor failsafe percentage is the maximum over the loops using it", "statement": "After building a zone, the failsafe percentage of each sensor is the maximum over all loops that list it as an input. (Provided that these percentages are numbers.)", "quantifier": "every list of loops with arbitrary overlapping input lists, in any order", "why_tests_cant": "Arbitrary overlaps.", "anchors": ["pid/zone.cpp: DbusPidZone::addPidFailSafePercent", "pid/builder.cpp: buildZones"]}
{"id": "C34", "title": "A NaN ceiling disables nothing but itself", "statement": "A ceiling that is not a number has no influence on the zone set point. (The code breaks this when the NaN ceiling is submitted first.)", "quantifier": "every list of ceilings", "why_tests_cant": "Order dependent NaN comparison.", "anchors": ["pid/zone.cpp: DbusPidZone::determineMaxSetPointRequest, addRPMCeiling", "pid/stepwisecontroller.cpp: outputProc"]}
{"id": "C35", "title": "The zone names the loop that determined its set point", "statement": "After arbitration the reported requester is 'Minimum' when the minimum applies and otherwise, in a zone that does not accumulate, 'Ceiling' when a ceiling caps and else the first loop whose submitted set point equals the zone set point. In an accumulating zone the loops of the profile whose running sum was the first to reach the zone set point are listed. (A ceiling that caps an accumulating zone is shown as an empty name.) (Provided that no ceiling is NaN and tuning is off.)", "quantifier": "every list of submissions and ceilings", "why_tests_cant": "Attribution must match for all lists and ties.", "anchors": ["pid/zone.cpp: DbusPidZone::addSetPoint, determineMaxSetPointRequest"]}
{"id": "C36", "title": "Tuning override", "statement": "With tuning enabled a set point file holding an integer above 100 replaces the arbitrated set point, a per-zone file wins over the global one, and any other readable integer leaves it alone; with tuning off files are never consulted.", "quantifier": "every file content and arbitrated set point", "why_tests_cant": "All contents.", "anchors": ["pid/zone.cpp: fileParseRpm, determineMaxSetPointRequest"]}
{"id": "C37", "title": "Thermal loops run at their configured rate", "statement": "With fan interval F and thermal interval T (1 <= F <= T), after n automatic ticks exactly floor((n-1)*F/T) thermal passes have run (besides the initial one), and fans are driven on each of the n ticks.", "quantifier": "every F, T and n", "why_tests_cant": "Closed form over unbounded runs and all interval pairs.", "anchors": ["pid/pidloop.cpp: pidControlLoop"]}
{"id": "C38", "title": "No timer drift", "statement": "The deadline of the k-th tick is the start time plus k fan intervals, however long the handlers take.", "quantifier": "every run length, every handler latency", "why_tests_cant": "Unbounded runs.", "anchors": ["pid/pidloop.cpp: pidControlLoop"]}
{"id": "C39", "title": "Manual mode freezes the zone", "statement": "While a zone is in manual mode, ticks read no sensors, write no fans and change no zone state, and the schedule phase is preserved.", "quantifier": "every zone state, any number of ticks", "why_tests_cant": "Frame property over arbitrarily many ticks.", "anchors": ["pid/pidloop.cpp: pidControlLoop", "pid/zone.cpp: manual, setManualMode"]}
{"id": "C40", "title": "Leaving manual mode rewrites every fan once", "statement": "In the first automatic tick after manual mode is switched off every fan of the zone is written even if its value has not changed, and following ticks are not forced until manual mode is left again.", "quantifier": "every history of mode switches and ticks", "why_tests_cant": "History property.", "anchors": ["pid/zone.cpp: setManualMode, processFans, getRedundantWrite", "pid/fancontroller.cpp: outputProc", "dbus/dbuswrite.cpp: write"]}
{"id": "C41", "title": "Cancelled loops stop", "statement": "Once cancellation is requested, at most the tick already due still runs and no further tick is ever scheduled.", "quantifier": "every schedule of ticks and cancellation", "why_tests_cant": "Schedules.", "anchors": ["pid/pidloop.cpp: pidControlLoop", "main.cpp: stopControlLoops"]}
{"id": "C42", "title": "End to end: a failing sensor drives the fans to failsafe", "statement": "If a thermal sensor that may not be missing reports failure (or becomes stale) and stays so, then within a bounded number of automatic ticks (at most ceil(T/F)+1), and on every one after, every fan command of the zone is at least that sensor's failsafe percentage: the largest configured for a loop that reads it, the zone's if none is. (Provided that the percentages are numbers and tuning is off.)", "quantifier": "every zone, every prior state, every behaviour of the other sensors", "why_tests_cant": "Liveness and safety over all schedules and environments.", "anchors": ["pid/pidloop.cpp: pidControlLoop", "pid/zone.hpp: processSensorInputs", "pid/fancontroller.cpp: outputProc"]}
{"id": "C43", "title": "A well-formed zone never crashes the loop", "statement": "For a zone built from a configuration in which every loop has inputs, every input names a known sensor with a working reader, and margin conversions have a finite Tjmax, no tick raises an exception or dereferences a null pointer; the only thing that can still go wrong is the conversion of a fan command that is not in integer range.", "quantifier": "every such configuration and every history of readings", "why_tests_cant": "Absence of errors on all executions.", "anchors": ["pid/builder.cpp: buildZones", "pid/zone.cpp", "pid/pidloop.cpp"]}
{"id": "C44", "title": "Fans use the set point of the same tick", "statement": "In a tick that runs the thermal loops, the fan loops of that tick are driven by the set point computed in that tick, from the readings polled in that tick.", "quantifier": "every zone state and reading", "why_tests_cant": "Ordering on all executions.", "anchors": ["pid/pidloop.cpp: processThermals, pidControlLoop", "pid/fancontroller.cpp: setptProc"]}
{"id": "C45", "title": "Fan command to raw PWM conversion", "statement": "For a command between 0 and 1 and 0 <= min <= max (below 2^53), the raw value sent is between min and max, is min at 0 and max at 1, never decreases when the command increases, and the numeric conversions involved are all defined.", "quantifier": "every command, every limit pair, every rounding", "why_tests_cant": "All real-valued commands, rounding included.", "anchors": ["dbus/dbuswrite.cpp: DbusWritePercent::write", "sysfs/sysfswrite.cpp: SysFsWritePercent::write"]}
{"id": "C46", "title": "Redundant writes are suppressed, changed or forced writes are not", "statement": "Over any history of commands to a D-Bus fan, a message is sent exactly when the command is forced or the raw value differs from the previous command's raw value (the first one always sends unless it is -1).", "quantifier": "every history of (command, force)", "why_tests_cant": "Histories.", "anchors": ["dbus/dbuswrite.cpp: DbusWritePercent::write, DbusWrite::write"]}
{"id": "C47", "title": "A fan ends up at its commanded value", "statement": "After any history of commands, the fan's target equals the last commanded raw value, provided the bus call for the last changed value succeeded. (Without that proviso the code breaks it: a failed call is not retried.)", "quantifier": "every history of commands and bus failures", "why_tests_cant": "Histories with failures at any point.", "anchors": ["dbus/dbuswrite.cpp: DbusWritePercent::write, DbusWrite::write"]}
{"id": "C48", "title": "Bad readings never replace good ones", "statement": "Over any history of D-Bus value updates, the reading returned is the scaled value of the last finite update, stamped with its arrival time; non-finite updates only mark the sensor bad until the next finite update. A loss of availability makes the reading NaN.", "quantifier": "every history of updates", "why_tests_cant": "Histories.", "anchors": ["dbus/dbuspassive.cpp: DbusPassive::updateValue, handleSensorValue, setValue"]}
{"id": "C49", "title": "Sensor failure decision", "statement": "A D-Bus sensor is reported failed exactly by the documented precedence: redundancy failure, missing object, ignorable unavailability, bad reading, hot margin, threshold alarm, unavailability, not functional.", "quantifier": "every sensor state", "why_tests_cant": "All combinations of eight conditions.", "anchors": ["dbus/dbuspassive.cpp: DbusPassive::getFailed"]}
{"id": "C50", "title": "A sensor stays failed while a critical alarm is asserted", "statement": "After any history of alarm signals a sensor is failed while at least one of its critical alarms is asserted. (The code breaks this when low/high alarms arrive in separate messages.)", "quantifier": "every history of alarm signals", "why_tests_cant": "Histories of partial updates.", "anchors": ["dbus/dbuspassive.cpp: handleSensorValue, setFailed"]}
{"id": "C51", "title": "Unavailability is sticky until a good reading", "statement": "After a sensor became unavailable and available again it remains failed until a finite reading arrives (unless unavailability is configured not to be a failure and it is still unavailable).", "quantifier": "every history", "why_tests_cant": "Histories.", "anchors": ["dbus/dbuspassive.cpp: handleSensorValue, updateValue, getFailed"]}
{"id": "C52", "title": "Failure reasons are truthful", "statement": "If a sensor is reported failed and not through redundancy, the reason text names a condition that holds, the first in the documented order.", "quantifier": "every sensor state", "why_tests_cant": "All combinations.", "anchors": ["dbus/dbuspassive.cpp: DbusPassive::getFailReason, getFailed"]}
{"id": "C53", "title": "Reading scaling", "statement": "A reading is rescaled only when max > 0 and max > min; then min maps to 0, max to 1, readings between stay between 0 and 1 and order is preserved.", "quantifier": "every reading and limit pair", "why_tests_cant": "All real values, rounding included.", "anchors": ["dbus/dbusutil.cpp: scaleSensorReading"]}
{"id": "C54", "title": "Redundancy failures follow the last status of each group", "statement": "For redundancy groups that do not overlap, a fan is considered failed exactly when the last status reported for its group contains 'Failed'. (Overlapping groups break it.)", "quantifier": "every history of group status signals", "why_tests_cant": "Histories.", "anchors": ["dbus/dbuspassiveredundancy.cpp: DbusPassiveRedundancy, populateFailures"]}
{"id": "C55", "title": "Host sensor failure and freshness", "statement": "A host-written sensor reads back the last value written with the time it was written, is failed exactly when that value is not finite and the host-off exemption does not apply, and rejects fan-style writes.", "quantifier": "every history of writes", "why_tests_cant": "Histories.", "anchors": ["sensors/host.cpp: HostSensor"]}
{"id": "C56", "title": "Host-off exemption", "statement": "A sensor configured to ignore failures while the host is off is never reported failed while the host is not running, and behaves as unexempted while it runs. (External sensors built from configuration do not get the exemption.)", "quantifier": "every sensor and host state", "why_tests_cant": "All states.", "anchors": ["sensors/pluggable.cpp: PluggableSensor::getFailed", "sensors/host.cpp: getFailed", "sensors/builder.cpp: buildSensors"]}
{"id": "C57", "title": "Host power state tracking", "statement": "After any history of signals the host is considered on exactly when the last reported host state ends in '.Running'; messages without a host state change nothing.", "quantifier": "every history of signals", "why_tests_cant": "Histories.", "anchors": ["hoststatemonitor.hpp: HostStateMonitor"]}
{"id": "C58", "title": "Zone numbering", "statement": "Zone numbers handed out over any sequence of requests are distinct for distinct names, never change once assigned, and each is the smallest free number not below the requested one.", "quantifier": "every sequence of (name, requested index)", "why_tests_cant": "Unbounded sequences; search must terminate for every occupied set.", "anchors": ["dbus/dbusutil.cpp: setZoneIndex, getZoneIndex"]}
{"id": "C59", "title": "Input lists survive splicing", "statement": "Combining input names with margin data and missing-acceptable names and splitting the names back gives the original names in order; each input carries exactly its own margin value and flags; surplus margin entries are ignored.", "quantifier": "every list of names, margins and acceptable names", "why_tests_cant": "Arbitrary lists.", "anchors": ["util.cpp: spliceInputs, splitNames"]}
{"id": "C60", "title": "Cycle times are at least one millisecond", "statement": "Whatever the configuration contains, the fan and thermal intervals in effect are at least 1, and a configured value of at least 1 is used as given.", "quantifier": "every configuration value of every type", "why_tests_cant": "All values.", "anchors": ["pid/buildjson.cpp: getCycleTimeSetting, buildPIDsFromJson", "dbus/dbusconfiguration.cpp: getCycleTimeSetting"]}
{"id": "C61", "title": "Sensor configuration parsing", "statement": "Parsing a sensor entry either raises an error (a required key missing or of the wrong type) or yields exactly the configured values with the documented defaults.", "quantifier": "every JSON value", "why_tests_cant": "All JSON documents.", "anchors": ["sensors/buildjson.cpp: from_json, buildSensorsFromJson"]}
{"id": "C62", "title": "Loop configuration parsing", "statement": "Parsing a loop entry either raises an error or yields exactly the configured values, with unlisted stepwise points left unset and limits/coefficients taken from their own keys.", "quantifier": "every JSON value", "why_tests_cant": "All JSON documents.", "anchors": ["pid/buildjson.cpp: from_json, buildPIDsFromJson"]}
{"id": "C63", "title": "Configuration file validation", "statement": "A configuration file is accepted exactly when it has sensors and zones sections, at least one sensor and in each zone a nonempty pids list.", "quantifier": "every JSON value", "why_tests_cant": "All documents.", "anchors": ["buildjson/buildjson.cpp: validateJson"]}
{"id": "C64", "title": "Zone construction", "statement": "Building zones creates, for every configured zone, exactly the supported loops with their own inputs and settings in name order, registers every thermal/stepwise loop as a control process, and lists each thermal input once; a zone without details is an error.", "quantifier": "every configuration", "why_tests_cant": "All configurations.", "anchors": ["pid/builder.cpp: buildZones", "pid/zone.cpp: addThermalInput, addFanInput"]}
{"id": "C65", "title": "Interface classification", "statement": "Every read or write path is classified as documented: external sensors before D-Bus before sysfs for reading; empty or 'None' means no writer.", "quantifier": "every string", "why_tests_cant": "All strings.", "anchors": ["sensors/build_utils.cpp: getReadInterfaceType, getWriteInterfaceType"]}
{"id": "C66", "title": "IPMI request validation", "statement": "Every request shorter than two bytes, with an unknown sub-command, or a set request without a mode byte is rejected without touching the bus and without storing a reply; valid get requests ask the named zone once and get replies of one byte, valid set requests write the manual property of the named zone once.", "quantifier": "every request buffer", "why_tests_cant": "All byte strings.", "anchors": ["ipmi/manualcmds.cpp: manualModeControl, getFanCtrlProperty/setManualModeState"]}
{"id": "C67", "title": "IPMI addressing reaches the requested zone", "statement": "The zone object addressed by a request is the one carrying the requested zone number. (The code breaks this for zone numbers above 127.)", "quantifier": "every zone byte", "why_tests_cant": "All bytes, sign conversion.", "anchors": ["ipmi/dbus_mode.cpp: getControlPath", "ipmi/control.cpp"]}
{"id": "C68", "title": "Failsafe log rate limit", "statement": "With a clock that never goes backwards, in any one-second window a zone prints at most the configured number of failsafe messages.", "quantifier": "every history of log attempts", "why_tests_cant": "Sliding window over unbounded histories.", "anchors": ["failsafeloggers/failsafe_logger.cpp: FailsafeLogger::outputFailsafeLog"]}
{"id": "C69", "title": "Failsafe log deduplication", "statement": "Between two changes of a zone's failsafe state the same location and reason is printed at most once, every message printed while the state is unchanged is about entering failsafe, and a message about being in or leaving failsafe that is new and within the limit is printed.", "quantifier": "every history of log attempts", "why_tests_cant": "Histories.", "anchors": ["failsafeloggers/failsafe_logger.cpp: FailsafeLogger::outputFailsafeLog"]}
{"id": "C70", "title": "Core log throttling", "statement": "A core log line is written exactly for the first computation of a controller, whenever anything logged changed from the previous computation or is not a number, and whenever a minute passed since the last written line; a loop without log files writes nothing.", "quantifier": "every history of computations", "why_tests_cant": "Histories.", "anchors": ["pid/ec/logging.cpp: LogContext"]}
{"id": "C71", "title": "Core log files are distinct", "statement": "Two different loops never share a core log file, and file names contain only safe characters.", "quantifier": "every sequence of loop names", "why_tests_cant": "All names.", "anchors": ["pid/ec/logging.cpp: StrClean, LogInit"]}
{"id": "C72", "title": "Stopping leaves no loop behind", "statement": "After a stop completes no loop of the previous configuration ever ticks again. (A schedule with several zones breaks this because only one zone is checked.)", "quantifier": "every schedule of timers, handlers and stop attempts", "why_tests_cant": "Schedules.", "anchors": ["main.cpp: stopControlLoops, restartControlLoops, tryRestartControlLoops", "pid/pidloop.cpp: pidControlLoop"]}
{"id": "C73", "title": "Restart retries until the old loops are gone", "statement": "A restart that finds loops still alive changes no zone and is retried after the delay; repeated failures never stack several pending retries.", "quantifier": "every schedule", "why_tests_cant": "Schedules.", "anchors": ["main.cpp: tryRestartControlLoops, tryTerminateControlLoops"]}
{"id": "C74", "title": "Offline failsafe", "statement": "With the offline-failsafe build option every fan of a fan loop that goes away is written with the failsafe percentage; without it nothing is written.", "quantifier": "every loop and zone state", "why_tests_cant": "All states.", "anchors": ["pid/fancontroller.cpp: FanController::~FanController"]}
{"id": "C75", "title": "Failsafe messages reach the zones concerned", "statement": "Every failsafe message about a sensor is handled once by the logger of each zone that uses the sensor and by no other; a message about a zone only by the zone's logger; and the lines printed for a zone are exactly those of its logger.", "quantifier": "every set of zones, every interleaving of messages about sensors and zones", "why_tests_cant": "Arbitrary topologies and interleavings.", "anchors": ["failsafeloggers/builder.cpp: buildFailsafeLoggers", "failsafeloggers/failsafe_logger_utility.hpp: outputFailsafeLogWithSensor, outputFailsafeLogWithZone"]}
{"id": "C76", "title": "Core logging does not influence control and tells the truth", "statement": "Output and state of a PID computation are the same with and without core logging, whatever files can be opened, and a written line contains the input, set point, error, output and integral of the computation it belongs to.", "quantifier": "every controller state, input, log state", "why_tests_cant": "All states of controller and log.", "anchors": ["pid/ec/pid.cpp: pid", "pid/ec/logging.cpp: LogInit, LogContext"]}
{"id": "C77", "title": "IPMI manual mode round trip", "statement": "Setting manual mode of a zone by an IPMI request changes the manual mode of exactly that zone and a following get request returns it; the failsafe request tells whether the zone has failed sensors; no request changes anything else.", "quantifier": "every set of zones, every request", "why_tests_cant": "All byte strings and zone states.", "anchors": ["ipmi/manualcmds.cpp: manualModeControl", "ipmi/dbus_mode.cpp: getFanCtrlProperty, setFanCtrlProperty", "pid/zone.cpp: DbusPidZone::manual, DbusPidZone::failSafe"]}
{"id": "C78", "title": "Fans read from sysfs are never stale", "statement": "A fan whose tachometer is read from a sysfs file is never reported as failed or stale after it was polled, whatever its timeout (0 or more), and the number in the file is the reading used. (Text that is no number counts as 0 without a failure; a missing or empty file makes the code use an unset value.)", "quantifier": "every zone, every file content, every polling time", "why_tests_cant": "All file contents and all times; a unit test reads one file once.", "anchors": ["sysfs/sysfsread.cpp: SysFsRead::read", "sensors/pluggable.cpp: read, getFailed", "pid/zone.hpp: processSensorInputs"]}
{"id": "C79", "title": "Configured zones run", "statement": "A zone built from a configuration in which every fan loop has fans and the margin settings are finite starts whenever its sensors can be read, and afterwards no tick throws or uses a null pointer as long as its sensors can be read and its fans have writers, whatever happened before; only the conversion of a fan command to an integer can still go wrong. (A fan loop without fans is accepted, but the zone crashes in its first automatic tick.)", "quantifier": "every configuration, every history of sensor readings, mode switches and loop switches", "why_tests_cant": "All configurations together with all later executions; a unit test builds one zone and runs it for a few ticks.", "anchors": ["pid/builder.cpp: buildZones", "pid/fancontroller.cpp: createFanPid", "pid/pidloop.cpp: pidControlLoop", "pid/zone.cpp: processFans"]}
{"id": "C80", "title": "Failsafe as configured", "statement": "In a zone built from a configuration: when a sensor that some loop computing a set point uses, and that no loop accepts as missing, keeps failing, then after at most ceil(updateThermalsTimeMS / cycleIntervalTimeMS) automatic ticks every further one commands every fan it can write at least the configured percentage: the largest FailSafePercent of the loops using the sensor or, if that is absent or zero, the zone's failsafePercent. (Provided that the percentages are numbers and tuning is off.)", "quantifier": "every configuration with numeric percentages, every earlier history, every way of failing", "why_tests_cant": "It connects the text of the configuration to the fan commands of an unbounded execution.", "anchors": ["pid/buildjson.cpp: buildPIDsFromJson", "pid/builder.cpp: buildZones", "pid/zone.cpp: getFailSafePercent, addPidFailSafePercent", "pid/fancontroller.cpp: outputProc"]}
{"id": "C81", "title": "Profiles select configurations", "statement": "When thermal profiles are selected, a configuration on D-Bus takes effect exactly if it lists no profile, or an empty list, or one of the selected profiles; when none is selected every configuration takes effect. Reading fails only if some Profiles attribute is not a list of strings.", "quantifier": "every set of objects and attributes, every list of selected profiles", "why_tests_cant": "All combinations of configurations and profiles; tests cover a few.", "anchors": ["dbus/dbusconfiguration.cpp: init"]}
{"id": "C82", "title": "Zones over D-Bus", "statement": "From a D-Bus configuration, zones with different names get different numbers; if the configured ZoneIndex values do not conflict every zone gets the one configured for it; and (names being distinct) the settings kept under a number are exactly those of the zone configuration with that name: MinThermalOutput, FailSafePercent without fraction (0 if absent), cycle times (100 and 1000 ms unless a number of at least 1 is given), AccumulateSetPoint. (If two zones ask for one number a third may be displaced from its own; a ZoneIndex that is not a double is ignored.)", "quantifier": "every set of configuration objects in every order", "why_tests_cant": "Zone numbering depends on all objects and their order.", "anchors": ["dbus/dbusconfiguration.cpp: init, getCycleTimeSetting", "dbus/dbusutil.cpp: setZoneIndex, getZoneIndex"]}
{"id": "C83", "title": "PID loops over D-Bus", "statement": "Every loop of every zone comes from a configuration that applies and names that zone, with all coefficients, limits, set point and inputs as configured; every PID configuration that applies and has inputs gives its loop (or, with SetPointOffset, one loop per input whose set point has the sensor's threshold added) in every zone it names. Inputs are the sensors matching the configured names, a fan loop's inputs are pairs of fan and control: one control for all fans or one each. (MissingIsAcceptable has no effect on fans.)", "quantifier": "every set of configuration objects, every set of sensors on the bus", "why_tests_cant": "All configurations and all bus contents.", "anchors": ["dbus/dbusconfiguration.cpp: init, populatePidInfo", "dbus/dbusutil.cpp: findSensors"]}
{"id": "C84", "title": "Stepwise loops over D-Bus", "statement": "Every stepwise configuration that applies and has inputs gives its loop in every zone it names, with the configured table of 1 to 20 points, hysteresis and kind (ceiling or floor). With support for missing objects its inputs are all matching sensors plus those awaited; without it, those before the first name that is not found. (FailSafePercent of a stepwise configuration is not read.)", "quantifier": "every set of configuration objects, every set of sensors on the bus", "why_tests_cant": "All configurations and all bus contents.", "anchors": ["dbus/dbusconfiguration.cpp: init"]}
{"id": "C85", "title": "Every input has a sensor", "statement": "After reading a D-Bus configuration every input of every loop has sensor settings, and all settings fit: the read path is that of a sensor on the bus with that name or of an awaited one, fans also have a control on the bus as write path with the range 0 to 255, and thermal sensors are not scaled and never time out. (Of two sensors with the same last path segment one is read twice and the other never.)", "quantifier": "every set of configuration objects, every set of sensors on the bus", "why_tests_cant": "All configurations and all bus contents; an input without sensor would throw at run time.", "anchors": ["dbus/dbusconfiguration.cpp: init"]}
{"id": "C86", "title": "D-Bus configuration can be built", "statement": "The zones of a D-Bus configuration can be built exactly if every zone named by a loop configuration that applies is configured itself; no loop without inputs is ever passed on. The configuration is reported usable exactly if there is a zone configuration and a loop configuration naming a zone. (So one loop naming an unknown zone keeps all zones from being built although the configuration is reported usable.)", "quantifier": "every set of configuration objects, every set of sensors on the bus", "why_tests_cant": "All configurations and all bus contents.", "anchors": ["dbus/dbusconfiguration.cpp: init", "pid/builder.cpp: buildZones"]}
{"id": "C87", "title": "Margins belong to the sensor listed at their position", "statement": "The k-th value of TempToMargin in a D-Bus configuration is applied to the sensor of the k-th name of Inputs.", "quantifier": "every configuration, every set of sensors on the bus", "why_tests_cant": "Depends on which sensors are on the bus when the configuration is read.", "anchors": ["dbus/dbusconfiguration.cpp: init", "util.cpp: spliceInputs"]}
{"id": "C88", "title": "Zones configured over D-Bus run", "statement": "A zone built from a D-Bus configuration with finite margins starts whenever its sensors can be read, and afterwards no tick throws or uses a null pointer as long as its sensors can be read and its fans have writers; only the conversion of a fan command to an integer can still go wrong. In particular a fan loop without fans, which JSON allows, cannot come from D-Bus.", "quantifier": "every set of configuration objects, every set of sensors, every later history", "why_tests_cant": "All configurations together with all later executions.", "anchors": ["dbus/dbusconfiguration.cpp: init", "pid/builder.cpp: buildZones", "pid/pidloop.cpp: pidControlLoop"]}
{"id": "C89", "title": "The zone log is a table", "statement": "The log file of a zone is a table: a header line with the column titles and one line per automatic tick with exactly as many cells. A line shows the time in milliseconds, the set point in force and the name of the loop that asked for it, for every fan its reading of this tick and its remembered output, for every thermal input its latest reading, and 1 or 0 for failsafe mode after the tick. Manual ticks leave no line. (Provided that names of sensors and loops hold no comma or line break; a comma in the name of the leading loop shifts all further columns.)", "quantifier": "every zone, every history of ticks, mode switches and sensor readings, every number formatting without commas", "why_tests_cant": "All histories, and all combinations of fans, inputs and loops.", "anchors": ["pid/zone.cpp: initializeLog", "pid/zone.cpp: updateFanTelemetry", "pid/zone.hpp: processSensorInputs", "pid/pidloop.cpp: pidControlLoop"]}
{"id": "C90", "title": "Outputs shown in the zone log", "statement": "In the first line of the log the output of every fan is NaN. In every later line the output shown for a fan is the one commanded in the tick of the line before by the last of the fan loops that drive it; the raw output shown is the number a D-Bus fan was told. (Fans on sysfs always show raw output -1, whatever was written to their file.)", "quantifier": "every zone, every history", "why_tests_cant": "Relates lines of the file to commands of earlier ticks.", "anchors": ["pid/zone.cpp: setOutputCache", "pid/fancontroller.cpp: outputProc", "sensors/pluggable.cpp: write"]}
{"id": "C91", "title": "Logging does not influence control", "statement": "A zone that writes a log reads the same sensors, reaches the same state and gives the same fan commands as one that does not: every history without logging is also one with logging and the other way round.", "quantifier": "every zone, every history", "why_tests_cant": "Equality of all executions of two configurations.", "anchors": ["pid/zone.cpp: updateFanTelemetry", "pid/zone.hpp: processSensorInputs"]}
{"id": "C92", "title": "Messages during creation of a sensor", "statement": "If a message about availability or operational status of a D-Bus sensor is handled after the sensor object listens but before the answers of the bus are stored, the message wins over the answer. Reading and alarm state come from the answer and from messages after it only. (So an alarm or a value signalled in between is forgotten.)", "quantifier": "every sensor, every sequence of messages before and after the answers", "why_tests_cant": "All interleavings of messages with the creation.", "anchors": ["dbus/dbuspassive.cpp: createDbusPassive", "dbus/dbuspassive.cpp: initFromSettings", "dbus/dbuspassive.cpp: setAvailable", "dbus/dbuspassive.cpp: setAvailableFromProperty"]}
{"id": "C93", "title": "Which bus signals lead to a reload", "statement": "In D-Bus mode a signal on the bus makes the daemon rebuild its loops exactly when it says that a property of a thermal mode, PID, zone or stepwise configuration changed, that a sensor object lost an interface, or that a sensor object gained an interface other than the two association interfaces. (So a configuration object that appears or disappears does not.)", "quantifier": "every signal", "why_tests_cant": "All signals: all paths, interface names and interface lists.", "anchors": ["dbus/dbusconfiguration.cpp: createMatches", "dbus/dbusconfiguration.cpp: eventHandler"]}
{"id": "C94", "title": "A burst of triggers leads to one restart", "statement": "Signals on the bus (delay 2 s) and hang-up signals of the operating system (delay 1 s) restart the loops only after a quiet time: each restart request answers a trigger that no other trigger followed within the delay, there is at most one request per such trigger, and the last trigger of a burst is never forgotten.", "quantifier": "every sequence of triggers, every interleaving of timer expiries and handler runs", "why_tests_cant": "All interleavings of triggers with a timer whose expired handlers are already queued.", "anchors": ["dbus/dbusconfiguration.cpp: eventHandler", "main.cpp: sighupHandler"]}
{"id": "C95", "title": "A sensor starts with what its object shows", "statement": "A D-Bus read sensor is created exactly if its type is known and its object either has an owner and readable properties, or has no owner and the build option for missing objects is set. It starts with the reading, limits, availability and alarm state that the object shows; if several processes own it, the one whose name comes first in the alphabet is asked. A sensor made for a missing object stays failed whatever it hears later. (An object without a Value property is taken to read zero and to be healthy.)", "quantifier": "every object and every answer of the bus, every later sequence of signals", "why_tests_cant": "The tests use a mocked helper; here all answers of the bus are covered.", "anchors": ["dbus/dbushelper.cpp: getService", "dbus/dbushelper.cpp: getProperties", "dbus/dbushelper.cpp: thresholdsAsserted", "dbus/dbuspassive.cpp: createDbusPassive"]}
{"id": "C96", "title": "Changes of failsafe mode are reported", "statement": "In every reachable state the last message to the failsafe log about a zone reports whether the zone is in failsafe mode. Every polled input that fails is reported as missing (with the zone in failsafe mode, or as acceptable), and every input that was failed and works again is reported as recovered.", "quantifier": "every zone, every history", "why_tests_cant": "All histories of sensor failures and recoveries.", "anchors": ["pid/zone.hpp: processSensorInputs", "pid/zone.cpp: markSensorMissing", "pid/zone.cpp: initializeCache"]}
{"id": "C97", "title": "The failsafe log tells the truth", "statement": "A message to the failsafe log says that a zone is in failsafe mode exactly if it is, once the input that caused the message is processed. (This does not hold: each poll of a healthy D-Bus sensor reports the end of failsafe mode for its zones even if another sensor has failed, so the log alternates in every cycle.)", "quantifier": "every zone, every poll of an input", "why_tests_cant": "All states of a zone and its sensors; the tests do not look at the log.", "anchors": ["dbus/dbuspassive.cpp: getFailed", "pid/zone.hpp: processSensorInputs", "failsafeloggers/failsafe_logger_utility.hpp: outputFailsafeLogWithSensor"]}
{"id": "C98", "title": "Sensors are built as configured, or none", "statement": "Building the sensors succeeds exactly if each configured sensor can be made (its object on the bus can be read, the bus control of a fan has an owner). Then every entry of a known type has the sensor described by its entry: read from and written to the configured places, as raw values or scaled to the configured range, with its timeout and host setting; entries of other types have none, and the per-type lists name exactly the sensors of that type.", "quantifier": "every set of sensor configurations, every state of the bus", "why_tests_cant": "All combinations of types, paths and ranges; tests build one or two sensors.", "anchors": ["sensors/builder.cpp: buildSensors", "sensors/build_utils.cpp: getReadInterfaceType", "sensors/manager.hpp: addSensor"]}
{"id": "C99", "title": "A consistent configuration starts and keeps running", "statement": "If the sensors suit the zones (every loop has inputs, all of them readable sensors, those of fan loops not set by the host), every sensor can be made and the files can be read, then the daemon starts all zones. From then on, whatever sequence of messages, host writes, mode changes and timer expiries happens, no event ends the daemon, except a message with a property of the wrong type, or a fan value that does not fit the type it is written as.", "quantifier": "every configuration, every sequence of events of the whole daemon", "why_tests_cant": "All interleavings of messages and cycles of several zones that share sensors.", "anchors": ["main.cpp: restartControlLoops", "sensors/builder.cpp: buildSensors", "pid/builder.cpp: buildZones", "pid/pidloop.cpp: pidControlLoop"]}
{"id": "C100", "title": "From a failing sensor to fast fans", "statement": "In a running daemon, let a thermal input of a zone that may not be missing fail at each cycle from some point on (for instance because a D-Bus sensor reported a critical alarm that it has not withdrawn, or has been silent for its timeout). After ceil(T/F) automatic cycles of that zone, each automatic cycle commands all its fan loops at least the percentage configured for that input, whatever else happens in between. (Provided that the percentages are numbers and tuning is off.)", "quantifier": "every configuration, every sequence of events of the whole daemon before and after the failure", "why_tests_cant": "Spans configuration, messages, sensors, zones and fans over unbounded executions with several zones.", "anchors": ["dbus/dbuspassive.cpp: handleSensorValue", "pid/zone.hpp: processSensorInputs", "pid/fancontroller.cpp: outputProc", "pid/pidloop.cpp: pidControlLoop"]}
{"id": "C101", "title": "Zones are independent", "statement": "A zone whose fans no other zone uses behaves as if it were the only zone. If the whole configuration starts, the configuration with only that zone starts as well, and the same events lead to the same state of the zone and the same writes to its fans. Zones may share temperature sensors. (Zones that share a fan write over each other.)", "quantifier": "every configuration, every zone, every sequence of events of the whole daemon", "why_tests_cant": "Compares two executions of the whole daemon for every interleaving of the cycles of several zones.", "anchors": ["main.cpp: restartControlLoops", "pid/builder.cpp: buildZones", "pid/pidloop.cpp: pidControlLoop", "pid/fancontroller.cpp: outputProc"]}
{"id": "C102", "title": "Recovery from failures", "statement": "In a running daemon, let none of the inputs of a zone that may not be missing fail at any cycle from some point on, whatever failed before. After ceil(T/F) automatic cycles of that zone, each automatic cycle leaves the zone's FailSafe property false and commands every fan loop exactly what its PID computation gives, without any failsafe floor, whatever else happens in between.", "quantifier": "every configuration, every sequence of events of the whole daemon before and after the recovery", "why_tests_cant": "Needs every history of failures before, and every interleaving with other zones and messages after.", "anchors": ["pid/zone.hpp: processSensorInputs", "pid/zone.cpp: getFailSafeMode", "pid/fancontroller.cpp: outputProc", "pid/pidloop.cpp: pidControlLoop"]}
{"id": "C103", "title": "From a hot sensor to the fans", "statement": "In a running daemon, take a stepwise loop whose table has rising readings and outputs that do not fall, in a zone that does not add up set points and has no ceiling tables, and whose fan loops hand their set point on (feed forward only). If at every cycle from some point on some sensor of the loop has a reading that has passed the reading of a point of the table (by more than the positive hysteresis, if there is one) and the loop is switched on, then after ceil(T/F) automatic cycles of the zone every automatic cycle commands every fan loop that can write a fan at least the output of that point, whatever else happens in between. Tuning and strict failsafe PWM are off.", "quantifier": "every configuration of that form, every sequence of events of the whole daemon before and after", "why_tests_cant": "Needs every history of readings (the hysteresis has state), every interleaving of events, and every other loop of the zone.", "anchors": ["pid/stepwisecontroller.cpp: process", "pid/ec/stepwise.cpp: stepwise", "pid/zone.cpp: addSetPoint, determineMaxSetPointRequest", "pid/fancontroller.cpp: outputProc", "pid/pidloop.cpp: pidControlLoop"]}
{"id": "C104", "title": "From a hot sensor to the fans, proportional loops", "statement": "In a running daemon, take a temperature or power loop with a proportional part that is not positive and a feed-forward constant, without integral and derivative parts, slew rates and hysteresis, in a zone that does not add up set points and has no ceiling tables, and whose fan loops hand their set point on. If at every cycle from some point on some sensor of the loop has a finite reading of at least x and the loop is switched on, then after ceil(T/F) automatic cycles of the zone every automatic cycle commands every fan loop that can write a fan at least what the loop asks for at reading x, whatever else happens in between. Settings and all finite readings of the loop are at most 2^20 in size and the sample period is at least 1/1024 s. Tuning and strict failsafe PWM are off.", "quantifier": "every configuration of that form, every sequence of events of the whole daemon before and after, every floating-point format", "why_tests_cant": "Needs every history of readings and every interleaving; the derivative part with coefficient zero can still turn the output into NaN, so the bounds have to hold for all histories.", "anchors": ["pid/ec/pid.cpp: pid", "pid/thermalcontroller.cpp: inputProc", "pid/zone.cpp: addSetPoint, determineMaxSetPointRequest", "pid/fancontroller.cpp: outputProc", "pid/pidloop.cpp: pidControlLoop"]}
{"id": "C105", "title": "What a path with asterisks stands for", "statement": "A sensor read from a file, and a fan written through one, uses during the whole life of the daemon the file its configured path stood for at launch: the path itself, or with '**' in it the path through the first entry of the directory named before the first '**'. A second '**' stays in the path. If the directory does not exist for any configured sensor, the daemon controls nothing.", "quantifier": "every configuration, every content of the directories, every sequence of events of the daemon", "why_tests_cant": "A test looks at one path and one moment; the claim is about every path, and about all later states of sensors that are rewritten on every message and every write.", "anchors": ["sysfs/util.cpp: FixupPath", "sysfs/sysfsread.hpp", "sysfs/sysfswrite.hpp", "sensors/builder.cpp: buildSensors"]}
{"id": "C106", "title": "What the fans are actually told", "statement": "In a running daemon whose fan services answer, whenever the loops of a zone command their fans at least a fraction v (as in C100, C103 and C104), every fan they write that has its path for itself and sane limits has, after that cycle, been told at least the number that stands for v: the last number that reached its D-Bus object or its file is not smaller, although D-Bus writes of an unchanged number are skipped. In particular, while a sensor reports a critical alarm the numbers the fans have got stand for at least the percentage configured for the sensor.", "quantifier": "every configuration, every sequence of events since the launch, every zone, every floating-point format", "why_tests_cant": "The writer remembers the last number and skips repeated ones; that this never leaves a fan at an older, lower number needs all histories of writes by all zones.", "anchors": ["dbus/dbuswrite.cpp: DbusWritePercent::write, DbusWrite::write", "sysfs/sysfswrite.cpp", "pid/fancontroller.cpp: outputProc", "pid/pidloop.cpp: pidControlLoop"]}
{"id": "C107", "title": "All configurations on the bus are read", "statement": "If every service with configurations has one object manager above all of them and no two configurations share a path, reading the configuration over D-Bus starts from exactly the configuration objects on the bus, each once, in whatever order the mapper, the services and the hash maps list them. So every zone on the bus for the thermal modes selected is configured with its settings, every loop in each of its zones, and nothing else; inputs are looked up in exactly the sensors and fan controls on the bus. The profiles selected are the thermal modes of all objects that have one; if one cannot be asked the reading fails and is repeated. A service with configurations and no object manager makes every reading fail; of two object managers of one service only one is asked, and which one depends on a hash order.", "quantifier": "every set of objects on the bus, every order of all answers and hash maps", "why_tests_cant": "init talks to a real bus and has no unit test; the result depends on hash orders, of which a run shows one.", "anchors": ["dbus/dbusconfiguration.cpp: init", "dbus/dbusconfiguration.cpp: getSelectedProfiles"]}
{"id": "C108", "title": "From the files and the bus to a running daemon", "statement": "Where the configuration comes from is determined: the file given with -c, else the config.json in the first of three directories that has one, else D-Bus. With a file, the daemon runs from exactly what is written in it, whatever is configured on the bus, and it runs if the sensors in it suit its zones and can be made. A file that cannot be parsed or is not acceptable ends the process: neither another file nor the bus is tried instead, and there is no second attempt. Without a file, the daemon waits while no usable configuration is on the bus, tries again after any other failure, and never exits; a configuration on the bus that makes sense (zones with different names, loops for zones that exist, finite margins, sensors at sensor paths) makes it run, if every sensor can be made. If the file given with -c is removed, a reload silently takes the configuration from the bus.", "quantifier": "every state of the files, every set of objects on the bus in every hash order, every option", "why_tests_cant": "The start-up code is in main and has no tests; that it runs for every sensible configuration needs all configurations.", "anchors": ["main.cpp: restartControlLoops", "main.cpp: searchConfigurationPath", "main.cpp: tryRestartControlLoops", "buildjson/buildjson.cpp: parseValidateJson"]}
{"id": "C109", "title": "Which configurations on the bus are read", "statement": "A configuration on the bus is read, without an exception, exactly if every configuration object that applies is complete: every zone has a name, numbers where numbers are expected and a number that fits; every loop has the properties its class requires, of types that convert, search terms that are valid patterns, and as many set point offsets and flags as its inputs need. Whether it is read does not depend on the order in which sensors and configurations are listed. A complete configuration that makes sense therefore makes the daemon run in every hash order. One incomplete loop or zone object that applies makes reading fail as a whole: no zone starts, not even those that have nothing to do with it, and the daemon tries again.", "quantifier": "every set of configuration objects with every property values, every set of sensors, every profile, every hash order", "why_tests_cant": "The set of configurations is unbounded and the reading code interleaves searching, checking and storing; the hash orders cannot be chosen in a test.", "anchors": ["dbus/dbusconfiguration.cpp: init", "dbus/dbusconfiguration.cpp: populatePidInfo", "dbus/dbusutil.cpp: findSensors", "main.cpp: restartControlLoops"]}
{"id": "C110", "title": "The switches of the daemon", "statement": "The daemon refuses a command line exactly if -c does not name an existing file or -l does not name an existing directory. Tuning, debugging and core logging are on exactly if the option is given or the file in /etc/thermal.d is there; zone logging exactly if -l is given or /etc/thermal.d/logging can be opened. Where log files go is determined: the first line of that file if there is something at the path it names, else the directory given with -l, else the directory for temporary files; there is something at that path. Log files of different zones are different and differ from those of loops. With -c, the first start reads that file. With core logging alone the files go to the root directory; if the file in /etc names a file instead of a directory nothing is logged, although -l names a directory; without -l a directory for temporary files is needed even if nothing is logged.", "quantifier": "every command line, every state of the file system", "why_tests_cant": "main has no tests; the combinations of options, files and their contents are unbounded.", "anchors": ["main.cpp: main", "pid/tuning.hpp: loggingPath", "pid/zone.hpp: DbusPidZone", "pid/ec/logging.cpp: LogInit"]}
{"id": "C111", "title": "Response times", "statement": "Suppose the event loop never serves a timer earlier than its expiry nor later than some lateness L. Then the timer of every zone keeps its rate: when anything happens, k calls of its handler lie behind with between k and k+1 fan intervals (plus L) since the start. From the moment a D-Bus sensor that counts as failed reports a critical alarm, or has been silent for its timeout, or a sensor of a stepwise loop reads beyond a point of the table, at most one thermal interval, two fan intervals and L pass until every fan of the zone has been told at least the configured failsafe percentage (or the output of the table), and this stays so at every later moment while the cause lasts and the zone is in automatic mode.", "quantifier": "every configuration, every history of timed events of any length, any number of zones, any lateness", "why_tests_cant": "tests run single cycles of a mocked zone without timers; the bound is about all interleavings of timers and messages of all zones over unbounded time.", "anchors": ["pid/pidloop.cpp: pidControlLoop", "main.cpp: restartControlLoops", "pid/zone.cpp: DbusPidZone", "dbus/dbuspassive.cpp: handleSensorValue", "pid/fancontroller.cpp: FanController::outputProc"]}
{"id": "C112", "title": "Quiet fans", "statement": "Suppose from some moment on every input a zone needs works and every reading of its loops is cool for a demand of y percent: clear of the next point of a stepwise table by more than its hysteresis, or below the reading at which a proportional loop asks for y, or whatever, if the loop's limits end at y. Suppose also the zone does not add up set points and its minimum is at most y. Then at most one thermal interval, two fan intervals and the lateness of the event loop later every fan of the zone whose loop hands its set point on has been told at most the number that stands for y percent, and this stays so, whatever alarms, failures and temperatures there were before and whatever happens to other zones. No fan keeps running fast for a cause that has gone.", "quantifier": "every configuration, every history of events of any length, any y", "why_tests_cant": "tests check single outputs of a controller; that no state of earlier cycles (integrals, hysteresis, failsafe entries, set points, ceilings, cached values) holds the fans up needs every earlier history.", "anchors": ["pid/zone.cpp: DbusPidZone::determineMaxSetPointRequest, clearSetPoints, updateSensors", "pid/stepwisecontroller.cpp: StepwiseController::process", "pid/ec/stepwise.cpp: stepwise", "pid/ec/pid.cpp: pid", "pid/thermalcontroller.cpp: ThermalController::outputProc", "pid/fancontroller.cpp: FanController::outputProc"]}
{"id": "C113", "title": "From the configuration file to the fans", "statement": "Suppose the program runs from a JSON file. If the file has a zone with a sensor it cannot do without, a fan with integer limits that no other entry writes, and a failsafe percentage p demanded for the sensor (by the loops that use it, or else by the zone), then whenever the sensor reports a critical alarm that is not withdrawn, or is silent for longer than its timeout, and the zone is in automatic mode, the number last written to the fan's path is at least what stands for p percent between the limits in the file, once the thermal interval of the file, twice its fan interval and the lateness of the event loop have passed; and if all sensors of a rising stepwise table in the file have passed one of its points, the zone neither adds up nor caps set points, and its fan loops hand the set point on, the fan is told at least the output of this point in the same time. Everything is said in terms of the text of the file: which entries of the same name count, which defaults apply, which path names a sensor on the bus or a fan.", "quantifier": "every configuration file, every startup from it, every history of events of any length", "why_tests_cant": "unit tests cover the parsing of single entries, the construction of single objects and single controllers separately; that a file makes the running daemon drive the hardware needs all of them together, over all files and histories.", "anchors": ["main.cpp: main, tryRestartControlLoops", "sensors/buildjson.cpp: buildSensorsFromJson", "pid/buildjson.cpp: buildPIDsFromJson", "sensors/builder.cpp: buildSensors", "pid/builder.cpp: buildZones", "pid/pidloop.cpp: pidControlLoop", "pid/zone.cpp: DbusPidZone"]}
{"id": "C114", "title": "When sensors configured over D-Bus count as failed", "statement": "Every sensor configured over D-Bus other than a fan is an input of a configuration that applies, has the type that configuration is for, and its two options are those of that configuration: whether it counts as failed while unavailable (yes unless said otherwise) and whether failures are ignored while the host is off (no unless said otherwise). If all configurations that use the sensor agree, the order in which they are read does not matter.", "quantifier": "every set of configuration objects, every order, every selection of profiles, every set of sensors on the bus", "why_tests_cant": "there are no unit tests of the D-Bus configuration; the options are copied at four places into a map shared by all loops, and which copy wins depends on all objects and their order.", "anchors": ["dbus/dbusconfiguration.cpp: init", "conf.hpp: conf::SensorConfig"]}
{"id": "C115", "title": "From the configuration over D-Bus to the fans", "statement": "Let the daemon run with the configuration it found on the bus. If a sensor that a zone configured there cannot do without reports a critical alarm that is not withdrawn, then, once the zone's UpdateThermalsTimeMS, twice its CycleIntervalTimeMS and the lateness of the event loop have passed, every fan of the zone has last been told at least the FailSafePercent demanded there. If a sensor of a Stepwise configuration reads beyond a point of its table throughout that time, every fan has last been told at least the output of that point. All provisos (the zone stays in automatic mode, the loop names differ, no fan is shared, fan loops hand their set point on in the second case) are stated in terms of the configuration.", "quantifier": "every set of objects on the bus that makes sense as a configuration, every order of the hash maps, every history of events of any length, every lateness", "why_tests_cant": "unit tests replace the D-Bus configuration by hand-made structures; the claim joins discovery, configuration, start, timers, zone, loops and fan writes over histories of any length.", "anchors": ["dbus/dbusconfiguration.cpp: init", "main.cpp: tryRestartControlLoops, restartControlLoops", "pid/pidloop.cpp: pidControlLoop", "pid/zone.cpp", "pid/fancontroller.cpp", "pid/stepwisecontroller.cpp"]}
{"id": "C116", "title": "Termination is not forgotten and final", "statement": "A request to terminate (SIGTERM) is never forgotten: whatever else happens (ticks, reloads, failed attempts), an attempt is ready or pending until the program has ended. An attempt either completes, and then no loop ticks and no zone is started any more, or fails, leaves the zones as they are and is repeated. If attempts do not overlap, the attempt after a failed one completes.", "quantifier": "every schedule of timers, reloads and terminations", "why_tests_cant": "Schedules of any length; main.cpp has no unit tests.", "anchors": ["main.cpp: tryTerminateControlLoops, stopControlLoops"]}
{"id": "C117", "title": "Heat that lasts reaches the fans through the integral", "statement": "In a running daemon, take a temperature, power, margin or power sum loop whose proportional and integral coefficients make its output grow with heat (not positive; not negative for margins), without derivative part, slew rates and hysteresis, with settings of moderate size. If its input is at least as hot as x at every cycle and N steps at x bring the integral from its lower to its upper limit, then after (N+1)*max(1, ceil(T/F)) automatic cycles every automatic cycle commands all fan loops of the zone at least what the loop asks for at x with its integral at the upper limit, and within one more fan interval and the lateness of the event loop the fans have been told so. One hot sensor makes the input hot, whatever the others read. Every input that makes a step add at least a millionth winds the loop up at last.", "quantifier": "all such configurations, readings, histories of events and event times", "why_tests_cant": "Rounding errors add up over any number of cycles; tests run a few cycles with mocked parts.", "anchors": ["pid/ec/pid.cpp: pid", "pid/thermalcontroller.cpp", "pid/zone.cpp", "pid/pidloop.cpp: processThermals, pidControlLoop", "pid/fancontroller.cpp"]}
{"id": "C118", "title": "A slew rate delays fast fans but does not prevent them", "statement": "In a running daemon, take a temperature, power, margin or power sum loop with a proportional part that makes its output grow with heat and with slew rates, without integral and derivative part and hysteresis, with settings of moderate size. If its input is at least as hot as x at every cycle and N+1 steps of the slew rate lead from the lower limit of the output to what the loop asks for at x, then after (N+1)*max(1, ceil(T/F)) automatic cycles every automatic cycle commands all fan loops of the zone at least that, and within one more fan interval and the lateness of the event loop the fans have been told so. A rate that allows a millionth per step is enough for every output at last; without a rate the first pass is enough.", "quantifier": "all such configurations, readings, histories of events and event times", "why_tests_cant": "Rounding errors add up over any number of cycles; the start of the climb depends on the whole history before.", "anchors": ["pid/ec/pid.cpp: pid", "pid/thermalcontroller.cpp", "pid/zone.cpp", "pid/pidloop.cpp: processThermals, pidControlLoop", "pid/fancontroller.cpp"]}
{"id": "C119", "title": "Fan loops that control the speed drive fans harder as long as they are too slow", "statement": "In a running daemon, take a fan loop with an integral part and coefficients that are not negative, without derivative part, slew rates and hysteresis, with settings, set points and speeds of moderate size. If at every automatic cycle the set point of the zone is at least y and the slowest turning fan of the loop (0 if none turns) is no faster than x, and N steps with that error bring the integral from its lower to its upper limit, then after N automatic cycles every automatic cycle commands the fans of the loop at least what it asks for at y and x with its integral at the upper limit. The set point stays between 0 and any bound that the zone minimum and the tables or output limits of all loops respect. Together: a sensor that stays beyond a point of a rising speed table makes all fans that are too slow be commanded so after ceil(T/F)+N automatic cycles, and be told so within one more fan interval and the lateness of the event loop.", "quantifier": "all such configurations, readings, speeds, histories of events and event times", "why_tests_cant": "The integral depends on the whole history of speeds and set points, rounding errors add up over any number of cycles, and the speeds are those of the slowest turning fan at each of them.", "anchors": ["pid/fancontroller.cpp: inputProc, setptProc, outputProc", "pid/ec/pid.cpp: pid", "pid/zone.cpp", "pid/stepwisecontroller.cpp", "pid/pidloop.cpp: processThermals, pidControlLoop"]}
{"id": "C120", "title": "The failsafe log of the running daemon shows failures, within its limit of lines", "statement": "The failsafe log does not influence what the daemon does. The running daemon prints at most 20 lines about a zone in any second, as long as the clock does not go backwards. If a required sensor that a zone in automatic mode polls is found to have failed, and the calls about this zone and its thermal inputs in the last second, and the last one before, all reported that the zone is not in failsafe mode, with fewer than 20 different texts, then at this tick the log says that the zone is in failsafe mode. Otherwise the limit can hide this for as long as the failure lasts: if at every cycle at least 20 healthy inputs are polled before the one that has failed, the log then says again and again that the zone is not in failsafe mode, and never that it is.", "quantifier": "all configurations, histories of events, times, and all numbers of cycles", "why_tests_cant": "What is printed depends on all the calls of the last second of all sensors of the zone and on what has been printed before, over unbounded histories.", "anchors": ["failsafeloggers/failsafe_logger.cpp: outputFailsafeLog", "failsafeloggers/builder.cpp: buildFailsafeLoggers", "main.cpp: restartControlLoops", "pid/zone.cpp: markSensorMissing, getSensorNames", "pid/zone.hpp: processSensorInputs", "dbus/dbuspassive.cpp: getFailed"]}
{"id": "C121", "title": "Remote control over D-Bus and IPMI reaches exactly the zone, loop or host sensor it names", "statement": "A call to set a property of the running daemon never ends the daemon. It succeeds exactly if it names the mode of a configured zone, the switch of a configured loop other than a fan loop, or the value of an external sensor, with a value of the right type. Then this mode, switch or value is as asked, and all other modes, switches, sensors and everything else stay as they are. The IPMI command to set the mode does this for the zone it names, for zone numbers below 128, and succeeds exactly if there is such a zone; the commands to read the mode and the failsafe state tell that of the zone and change nothing. After a zone has been put into manual mode its timer changes nothing until the mode is set again; after it has been put back, the next expiry of its timer writes all its fans. The program setsensor only ever puts zone 1 into manual mode: its attempt to set a host sensor always fails, and its exit code does not tell.", "quantifier": "all configurations, calls, IPMI requests, states of the running daemon and histories of events", "why_tests_cant": "The effect of a call depends on how the paths of all objects relate for all zone numbers and loop names, and on unbounded histories of events between the calls.", "anchors": ["pid/builder.cpp: getControlPath, getPidControlPath, buildZones", "pid/zone.cpp: manual, failSafe", "pid/zone.cpp: setManualMode", "sensors/host.cpp: value", "sensors/builder.cpp: buildSensors", "ipmi/manualcmds.cpp: setManualModeState, getManualModeState, getFailsafeModeState", "ipmi/dbus_mode.cpp: setFanCtrlProperty, getFanCtrlProperty", "setsensor.cpp: main"]}
{"id": "C122", "title": "What loops show for diagnosis is true and harmless", "statement": "The D-Bus object of a PID loop always shows the configured set point and class, the last output the loop computed, and as leader one of its inputs (or nothing so far). The set point of a zone that does not accumulate and has no stepwise loops can be told from these objects: it is the largest of the outputs shown by the loops that are on, the configured minimum and zero; always if nobody changes a switch, and otherwise again once the thermal loops have run. Whatever anybody stores into the shown properties, at any time, the daemon reads, computes, writes and fails exactly as it would otherwise. The object of a stepwise loop shows no output, input or leader at any time.", "quantifier": "all configurations, histories of events, and writes of shown properties at any times", "why_tests_cant": "The claim is about all later behaviour after any writes, and about the agreement of several loops' objects with the zone's set point after any history.", "anchors": ["pid/zone.cpp: addPidControlProcess, updateThermalPowerDebugInterface, addSetPoint, determineMaxSetPointRequest", "pid/thermalcontroller.cpp: inputProc, outputProc", "pid/stepwisecontroller.cpp: outputProc", "pid/builder.cpp: buildZones"]}
{"id": "C123", "title": "A daemon that was reloaded behaves like one that was just started", "statement": "Whatever happened before — any number of reloads, failed attempts and changes of the configuration — when all zones run, the daemon is exactly where a daemon would be that was started at the last reload and saw the events since, except that what was written to fans before comes first. In particular a reload forgets all readings, failures, integral sums and modes: two daemons with different pasts reloaded with the same configuration in the same surroundings become the same, every zone is automatic and every loop switched on, and a critical alarm raises the fans after any life. Without the option for it, a reload or the end of the process writes nothing to any fan; with it, every fan of every zone is commanded the failsafe percentage of its zone. While no zone runs nothing is written. A configuration in which one zone cannot be started leaves those before it running, and another attempt follows.", "quantifier": "all lives: sequences of events, reloads, configurations and surroundings", "why_tests_cant": "The claim compares whole executions with arbitrarily many reloads and configurations; leftovers of any kind of state would break it.", "anchors": ["main.cpp: stopControlLoops, restartControlLoops, tryRestartControlLoops, tryTerminateControlLoops", "pid/fancontroller.cpp: ~FanController", "pid/builder.cpp: buildZones", "sensors/builder.cpp: buildSensors", "pid/pidloop.cpp: pidControlLoop"]}
{"id": "C124", "title": "Hotter sensors never slow the fans", "statement": "Two daemons with the same zones and loops run side by side; the same is ordered for a zone (mode, switches of loops) and its timer expires as often. Everything else may differ: when sensors report, the clocks, other zones, even the sensors behind the names. If at the launch and at every expiry of the timer no loop input of the zone is cooler in the second run, and every sensor that fails in the first fails in the second, then at every expiry in automatic mode no fan loop of the second run commands a smaller fraction, and no fan with a D-Bus object or file of its own is told a smaller number. In particular a sensor that fails in addition never slows the fans below what the hotter loops ask for, and hotter or equal readings of all sensors make every input hotter: larger temperatures and powers, smaller margins. This holds for stepwise loops with rising tables and without hysteresis, PIDs with a proportional part and slew rates, and PIDs with proportional and integral part whose coefficients face the heat; other loops have to see the same inputs in both runs. With hysteresis it is false: 69 and then 70 degrees can leave the fans slower than 68 and then 70.", "quantifier": "all configurations of this kind, all pairs of runs, readings, orders and failures", "why_tests_cant": "The claim compares arbitrary pairs of whole executions with state (integral sums, slew limits, failed sensors) carried along; a test sees single runs.", "anchors": ["pid/ec/pid.cpp: pid", "pid/thermalcontroller.cpp: inputProc, setptProc, outputProc", "pid/stepwisecontroller.cpp", "pid/zone.cpp: addSetPoint, determineMaxSetPointRequest, updateSensors, getFailSafePercent", "pid/fancontroller.cpp: outputProc", "pid/pidloop.cpp: pidControlLoop", "dbus/dbuswrite.cpp", "sysfs/sysfswrite.cpp"]}
{"id": "C125", "title": "In the steady state the fans get exactly what the configuration says, whatever happened before", "statement": "A launched daemon has run for any time with anything happening: heat, alarms, failed sensors, manual mode, loops switched off. From then on the switches of the loops of a zone stay as they are, every loop that has a say sees the same input at every expiry of the timer, and nothing that the zone needs fails. Once ceil(T/F) automatic cycles have passed (T the thermal, F the fan period), every further automatic cycle commands every fan loop exactly one percentage: the largest output of the loops that are switched on (at least 0), capped by the lowest ceiling, not below the minimum of the zone, within the limits of the fan loop; an output is what the table of the loop or its proportional part says for the input. A fan with a D-Bus object or file of its own is told exactly the number that its configuration makes of this percentage. There is only one such percentage, so two daemons with the same zone in the same steady state command the same whatever their past, their board and their other zones are. This holds for loops without memory: PIDs with a proportional part and constants only, and stepwise loops without hysteresis, ceilings included. With hysteresis the past does matter (C124).", "quantifier": "all configurations of this kind, all pasts, all steady states", "why_tests_cant": "The claim is about every possible past of the daemon; a test has one.", "anchors": ["pid/zone.cpp: determineMaxSetPointRequest, addSetPoint, addRPMCeiling, updateSensors", "pid/pidloop.cpp: pidControlLoop", "pid/thermalcontroller.cpp", "pid/stepwisecontroller.cpp", "ec/stepwise.cpp", "ec/pid.cpp: pid", "pid/fancontroller.cpp: outputProc", "pid/controller.cpp: process"]}
{"id": "C126", "title": "With failed sensors the fans get exactly the configured failsafe percentage", "statement": "As C125, but in the steady state a fixed set of sensors of the zone fails (reports a failure or is too old) at every expiry of the timer, and the others do not. Once ceil(T/F) automatic cycles have passed every further automatic cycle commands every fan loop exactly this: the percentage of C125, raised to the largest failsafe percentage that the configuration sets for one of the failed sensors that may not be missing (the largest of the loops that use the sensor, or the one of the zone if that is zero). With the build option for strict failsafe it is replaced by that percentage, even by a smaller one. If none of the failed sensors has to be there nothing is raised. A fan with a D-Bus object or file of its own is told exactly the number its configuration makes of it. What failed before, and in which order, does not matter. (Percentages are numbers, and not negative for the number a fan is told.)", "quantifier": "all configurations of this kind, all pasts, all sets of failed sensors", "why_tests_cant": "All pasts and all sets of failed sensors; the list of failed sensors is kept over cycles and filled by two polling passes with different periods.", "anchors": ["pid/zone.cpp: markSensorMissing, getFailSafePercent, addPidFailSafePercent", "pid/zone.hpp: processSensorInputs", "pid/fancontroller.cpp: outputProc", "pid/pidloop.cpp: pidControlLoop", "pid/builder.cpp: buildZones"]}
{"id": "C127", "title": "Zones that add up set points: what the fans get in the steady state", "statement": "As C126, for a zone that is configured to accumulate set points. Once ceil(T/F) automatic cycles have passed in a steady state every further automatic cycle commands every fan loop exactly this: the outputs of the loops that are switched on are added up per profile (the part of the name of the loop after the first underscore, or the whole name) in the order of the configuration, the largest sum on the way counts (at least 0), capped by the lowest ceiling, raised to the minimum of the zone, limited by the fan loop, and raised to the largest failsafe percentage of a failed sensor. If no loop asks for less than 0, these are the totals of the profiles. A fan with a D-Bus object or file of its own is told exactly the number its configuration makes of it. The past does not matter.", "quantifier": "all configurations of this kind, all pasts, all sets of failed sensors", "why_tests_cant": "All pasts, all numbers of loops and profiles, all inputs.", "anchors": ["pid/zone.cpp: addSetPoint, addRPMCeiling, determineMaxSetPointRequest", "pid/zone.cpp: markSensorMissing, getFailSafePercent", "pid/fancontroller.cpp: outputProc", "pid/pidloop.cpp: pidControlLoop", "pid/builder.cpp: buildZones"]}
{"id": "C128", "title": "The time until the fans get exactly what the configuration says", "statement": "Suppose that from some moment on a zone is in automatic mode, the switches of its loops stay as they are, its loops see the same inputs at every expiry of the timer, and the same sensors fail. Once the thermal interval plus two fan intervals plus the lateness of the event loop have passed, every fan of the zone that has a D-Bus object or file for itself and is listed by one fan loop has been told exactly the number that its configuration makes of the percentage C125 to C127 describe, and this is so at every later moment, whatever happened before. The same holds for a daemon started from the configuration file, with the zone, the loops and the fan described by the entries of the file.", "quantifier": "all configurations of this kind, all pasts, all event sequences, all delays up to the lateness", "why_tests_cant": "All histories with all timings; the bound is a statement about every moment in every run.", "anchors": ["pid/pidloop.cpp: pidControlLoop", "pid/zone.cpp: addSetPoint, addRPMCeiling, determineMaxSetPointRequest, getFailSafePercent", "pid/fancontroller.cpp: outputProc", "pid/builder.cpp: buildZones", "pid/buildjson.cpp: buildPIDsFromJson", "main.cpp: restartControlLoops"]}
{"id": "C129", "title": "No fan is ever told a number outside its configured range", "statement": "Take a fan with limits that no other fan shares its D-Bus object or file with. Let the output limits of the fan loops that list it and the failsafe percentages of their zones be between 0 and 100, the limits in order and the slew rates of the right sign. Then every number the daemon ever sends to the fan lies between the fan's limits, also those of calls that fail, and also those sent when the zones are stopped. This holds for any number of zones and loops with the fan, in every run: with readings of any size, missing or failing sensors, switches to manual mode and back, loops switched on and off, failing writes, and with tuning on or off. The same holds for a daemon that runs from a configuration file, with the limits and percentages of the file. An output limit above 100 is accepted and does take a fan out of its range.", "quantifier": "all configurations of this kind, all event sequences, all readings", "why_tests_cant": "A safety property of every number in every run; a test sees the numbers of one run.", "anchors": ["pid/fancontroller.cpp: outputProc, ~FanController", "pid/ec/pid.cpp: pid", "pid/pidcontroller.cpp: calPIDOutput, process", "pid/zone.cpp: getFailSafePercent", "dbus/dbuswrite.cpp: DbusWritePercent::write", "sysfs/sysfswrite.cpp: SysFsWritePercent::write", "main.cpp: stopControlLoops"]}
{"id": "C130", "title": "The daemon never brings itself down", "statement": "Let the sensors suit the zones, as the configuration code makes them. Let the limits of the fans be in order. Let the set points of each zone, which takes the largest one and has no ceilings, be bounded by the tables and output limits of its loops. Let the fan loops have settings of moderate size and output limits between 0 and 100, using any part of the controller. Then the daemon launches if every sensor can be made, and every sequence of events runs to its end without an uncaught exception or an undefined conversion, however long it is: sensors fail, recover and report any number or none, hosts are switched on and off, zones go to manual mode and back, loops are switched on and off, writes fail. All that is asked of the world is that files of sensors can be read, alarms are booleans, and no fan claims to turn faster than about a million. A single finite but absurd fan speed can break the daemon otherwise.", "quantifier": "all configurations of this kind, all event sequences of any length, all readings", "why_tests_cant": "Freedom from crashes in every run of every length; a test runs a few seconds of one story.", "anchors": ["pid/pidloop.cpp: pidControlLoop", "pid/zone.cpp: processFans, processThermals", "pid/fancontroller.cpp: inputProc, outputProc", "pid/pidcontroller.cpp: process", "pid/ec/pid.cpp: pid", "sysfs/sysfswrite.cpp: SysFsWritePercent::write", "dbus/dbuswrite.cpp: DbusWritePercent::write", "dbus/dbuspassive.cpp: handleSensorValue"]}
{"id": "C131", "title": "A configuration that asks for more cooling never slows the fans", "statement": "Start the daemon twice on the same machine, let the same happen to both, and give the second one a configuration for a zone that asks for more cooling: further loops that compute set points, a larger lowest set point, larger failsafe percentages. Then at every expiry of the zone's timer, after any events, no fan loop of the zone is commanded a smaller fraction of full speed by the second daemon, and no fan that has its object or file for itself is told a smaller number. The loops may be of any kind, with hysteresis, slew rates, derivative and integral parts, except ceilings. It stays true if the second daemon is hotter as well. A new loop must not accept a sensor missing that others need, and a failsafe percentage it gives for such a sensor must not be smaller than the one in force: a loop added with a smaller percentage of its own really lowers the speed of the fans when the sensor fails, because it replaces the percentage of the zone.", "quantifier": "all pairs of configurations, all event sequences, all numbers of loops", "why_tests_cant": "It relates two programs' runs of any length; a test compares one run with one expected number.", "anchors": ["pid/zone.cpp: addSetPoint, determineMaxSetPointRequest, markSensorMissing, getFailSafePercent, addPidFailSafePercent", "pid/buildjson.cpp and pid/builder.cpp: buildZones", "pid/fancontroller.cpp: outputProc", "pid/pidcontroller.cpp: process"]}
{"id": "C132", "title": "Only the order of events about the same thing matters", "statement": "Messages from sensors, orders to zones and loops, changes of the surroundings and timers of zones reach the daemon in an order nobody guarantees. Take two sequences of the same events in which the events about the same thing (the reading with the availability of a sensor, its alarms, its operational state, the mode of a zone, the switch of a loop, the surroundings) come in the same order, and each timer expires at the same place relative to everything except the modes and switches of other zones. Then the daemon ends in exactly the same state, the same numbers were told to the fans in the same order, and it survives one sequence exactly if it survives the other. So between two expiries neither the order in which different sensors report, nor whether a reading or an alarm of a sensor comes first, matters. The critical alarm and the warning of a sensor are the same thing, though: when warnings count as failures, the end of the critical alarm ends a failure the warning began, but only if it comes later.", "quantifier": "all pairs of event sequences of any length, all states of the daemon", "why_tests_cant": "There are exponentially many orders of unrelated events; a test runs a few of them.", "anchors": ["dbus/dbuspassive.cpp: handleSensorValue, updateValue, setFailed, setFunctional, setAvailable", "sensors/host.cpp: value", "pid/zone.cpp: manual, setManualMode", "dbus/dbuspassive.cpp: dbusHandleSignal", "pid/pidloop.cpp: pidControlLoop"]}
{"id": "C133", "title": "A zone depends on nothing but its own part of the configuration and its own sensors", "statement": "Start the daemon twice on the same machine with configurations that have one zone in common: the same loops and settings for it, and the same entries for the sensors and fans its loops name. Everything else may differ: other sensors, other zones, how many and how they are set. No other zone uses the zone's fans. Let anything happen to both, as long as what the zone can notice is the same: messages of the sensors its loops name, orders for it, the expiries of its timer, changes of the surroundings (the clock, the files, the host, failed redundancy). Then the zone ends in the same state in both, and its cycles wrote the same values to the same fans in the same order. In particular no message of another sensor, and no order for or expiry of another zone, ever changes what the fans of a zone get.", "quantifier": "all pairs of configurations and event sequences with the same part for the zone", "why_tests_cant": "It says that unboundedly many things never have an effect; a test tries a few of them.", "anchors": ["pid/zone.cpp: updateFanTelemetry, updateSensors, processSensorInputs", "sensors/manager.cpp: getSensor", "sensors/builder.cpp: buildSensors", "pid/builder.cpp: buildZones", "pid/pidloop.cpp: pidControlLoop"]}
{"id": "C134", "title": "What does not matter in a configuration file", "statement": "Take two configuration files with the same sensors, zones and loops, each with the same values for the settings the daemon knows, and no name used twice in a list. They may list sensors, zones and loops in any order, list settings in any order, contain further settings the daemon does not know (comments, misspelt names), and be at different places. Then either both files cannot be used, or every attempt to start ends the same with both: if the daemon runs, it is the same daemon with the same sensors, zones and loops in the same state.", "quantifier": "all pairs of configuration files with the same entries, all orders, all further content", "why_tests_cant": "The number of orders and of possible further settings is unbounded; a test compares two particular files.", "anchors": ["sensors/buildjson.cpp: buildSensorsFromJson", "pid/buildjson.cpp: buildPIDsFromJson, from_json", "buildjson/buildjson.cpp: validateJson, parseValidateJson", "main.cpp: restartControlLoops"]}
{"id": "C135", "title": "The order in which the bus lists configurations does not matter", "statement": "Take the same objects on the bus, told by the mapper and the object managers in two different orders, and any orders of the hash maps in between. Let the configuration be unambiguous: every zone has a name and a number of its own, loops are for zones that are configured, loops of one zone have different names, loops that use the same sensor or fan say the same about it, no loop is split up by a threshold, no name stands for several sensors, and no object is both a sensor and a control of fans. Then either no order can be read, or every attempt to start ends the same with both: if the daemon runs, it is the same daemon with the same sensors, zones and loops in the same state.", "quantifier": "all sets of objects with an unambiguous configuration, all orders of listing them, all orders of hash maps, all selected profiles", "why_tests_cant": "The number of orders grows with the factorial of the number of objects, and the order of hash maps depends on the library and the platform; a test sees one order.", "anchors": ["dbus/dbusconfiguration.cpp: init, getSelectedProfiles", "dbus/dbushelper.cpp", "dbus/dbusutil.cpp: findSensors, sensorNameToDbusName", "main.cpp: restartControlLoops"]}
{"id": "C136", "title": "Rounding does not add up", "statement": "Doubles round every result, and the integral of a loop carries rounding from cycle to cycle. Take a loop without hysteresis whose settings, readings and set points are such that set points and errors are at most R and each term and each limit is at most K (slew rates of the right sign, period at most 1000 s, at most 2^46 cycles). Then after n+1 cycles its output is within (n+1) K / 2^46 of what exact arithmetic gives for the same history: for percentages and ten cycles a second, less than a fiftieth of a percent after thirty years. And the whole number a fan gets for an output is within one step, plus the error of the output, plus (max+1)/2^50, of the exact place of the percentage in the fan's range.", "quantifier": "all settings of moderate size (integral, derivative, feed forward, limits, slew rates), all histories of readings and set points of moderate size", "why_tests_cant": "Rounding errors depend on every bit of every reading and build up over billions of cycles; a test sees short histories and compares with a tolerance chosen by hand.", "anchors": ["pid/ec/pid.cpp: pid, clamp", "pid/pidcontroller.cpp: calPIDOutput", "dbus/dbuswrite.cpp", "sysfs/sysfswrite.cpp"]}
{"id": "C137", "title": "The date does not matter", "statement": "The daemon measures the age of readings with a clock that shows the date. Its behaviour does not depend on what that clock shows: take any life of the daemon, with starts, reloads, messages, host writes and cycles, and the same life with the clock ahead or behind by any constant. Both end with the same error, or with the same zones in the same state and the same commands to the fans; so do they when they are terminated. And if no configuration that is read gives a sensor a timeout, the clock may show anything at any moment, jump forwards or backwards, and nothing changes.", "quantifier": "all options, worlds, lives (any sequence of reloads and events), all offsets; for lives without timeouts all clocks", "why_tests_cant": "A test runs at one date and cannot show that no path compares a time with anything but another time; dates fifty years ahead, before the epoch or jumping clocks are not tried.", "anchors": ["pid/zone.hpp: processSensorInputs", "pid/zone.cpp: updateFanTelemetry, updateSensors", "dbus/dbuspassive.cpp: setValue", "sensors/host.cpp", "main.cpp: restartControlLoops"]}
{"id": "C138", "title": "A configuration can be kept in a file", "statement": "There is a way to write a configuration down as a file so that nothing is lost: a file with it is read back as exactly the same sensors, loops, inputs, margins, tables, limits and zones. So a configuration found on the bus can be kept in a file instead, and every attempt to start from that file ends as the attempt from the bus, with the same daemon. This works for exactly the configurations that files can express at all (finite numbers, at least one sensor, a loop in every zone, limits for fans only, margins for the first inputs only, cycle times of at least 1 ms); and writing down what was read from any file gives a file that says the same.", "quantifier": "all configurations that can be expressed, all files, all bus contents, options and worlds", "why_tests_cant": "A round trip over all configurations has unboundedly many sensors, zones, loops and numbers; a setting that is dropped, swapped or rounded for some combination only is not found by trying some.", "anchors": ["sensors/buildjson.cpp: from_json, buildSensorsFromJson", "pid/buildjson.cpp: from_json, buildPIDsFromJson", "buildjson/buildjson.cpp: validateJson", "dbus/dbusconfiguration.cpp: init", "main.cpp: restartControlLoops"]}
{"id": "C139", "title": "The host and redundancy groups reach the fans", "statement": "In a running daemon: a fan that fails when the timer of a zone needing it expires makes that very automatic cycle command all fan loops of the zone at least the percentage configured for it. A fan on the bus counts as failed while the last status of its redundancy group contains 'Failed'. A D-Bus sensor that may fail while the host is off counts as failed only while the last reported host state ends in '.Running': with the host off its alarms do not raise the fans (a zone all of whose needed inputs are so excused leaves failsafe mode after ceil(T/F) automatic cycles and commands exactly what its loops compute), and with the host running they do, within the same number of cycles. (Percentages are numbers, tuning is off; groups do not overlap.)", "quantifier": "every configuration, every sequence of events of the daemon interleaved with every sequence of messages from the host and from the redundancy objects", "why_tests_cant": "The effect depends on the interleaving of three sources of messages with the timers of all zones, over unbounded histories.", "anchors": ["sensors/pluggable.cpp: PluggableSensor::getFailed", "dbus/dbuspassive.cpp: DbusPassive::getFailed", "dbus/dbuspassiveredundancy.cpp: DbusPassiveRedundancy", "hoststatemonitor.hpp: HostStateMonitor", "sensors/builder.cpp: buildSensors", "main.cpp: main"]}
{"id": "C140", "title": "A daemon whose loops do not run tries again every ten seconds until they do", "statement": "Whatever happens to the daemon, at any time all zones run, or another attempt is due at the latest ten seconds from then, or the configuration was not on the bus when it was last looked for. From the moment on when what the daemon finds is ready (a start would succeed), all zones run at most ten seconds (and the lateness of the timer) later if none ran, twenty if some did, and from then on until somebody asks for a restart. Attempts nobody asked for are at least ten seconds apart. Without a configuration on the bus the daemon does not look again unless asked. A restart requested while loops run is complete ten seconds later; meanwhile nothing is written to any fan. Whenever all zones run they are in the state a started daemon reaches by what happened since the last attempt.", "quantifier": "every sequence of requests, expiries of the timer, events of the daemon and passing time; every configuration found at each attempt; every lateness of the timer", "why_tests_cant": "Tests cannot wait out all interleavings of requests and a timer with what happens to be on the bus, and the claim is about unbounded time.", "anchors": ["main.cpp: tryRestartControlLoops", "main.cpp: restartControlLoops", "main.cpp: stopControlLoops"]}
{"id": "C141", "title": "A change of the configuration takes effect within seconds", "statement": "After SIGHUP, or after a signal that announces a change (C93) once the daemon has looked for its configuration on the bus, all zones run at the latest 22 seconds (and three times the lateness of a timer) later if nobody asks again and what the daemon finds is ready; then no timer is armed, and the zones are in the state a daemon started from what was found after the signal reaches. In the usual case (all zones run, no timer armed) it takes at most twelve seconds after a signal and eleven after SIGHUP (and twice the lateness), and until two seconds (one second) have passed the zones run on undisturbed. Without being asked, running zones are never restarted. While the configuration comes from a file, only SIGHUP leads to a reload.", "quantifier": "every history of the daemon, every interleaving of signals, expiries of the three timers, events of the daemon and passing time, every configuration found", "why_tests_cant": "Three timers, restarts that need two attempts, and signals at any time interleave; tests cannot cover the schedules or the waiting times.", "anchors": ["dbus/dbusconfiguration.cpp: eventHandler", "dbus/dbusconfiguration.cpp: createMatches", "main.cpp: signalHandler", "main.cpp: tryRestartControlLoops", "main.cpp: restartControlLoops"]}
{"id": "C142", "title": "After SIGTERM the process is gone within a fraction of a second, and the fans are left as configured", "statement": "When no loop runs, SIGTERM ends the process at once. Otherwise, unless a restart happens to be attempted meanwhile, it ends within 50 ms (and the lateness of the timer); from SIGTERM on the loops write nothing, and the process leaves exactly the fans of the zones that ran, commanded to the failsafe percentages of their zones with the option offlineFailsafePwm and untouched without it. Whatever happens meanwhile (restarts that fall into this time, SIGHUP, signals on the bus, further SIGTERMs), it ends within 200 ms and four times the lateness of a timer, provided a timer is less than 200 ms late.", "quantifier": "every state of the daemon with any timers armed, every interleaving of signals, expiries of the four timers, events of the daemon and passing time after SIGTERM", "why_tests_cant": "Termination needs two attempts, and three other timers may start the loops again in between; tests cannot cover the schedules or the time it takes in the worst case.", "anchors": ["main.cpp: tryTerminateControlLoops", "main.cpp: stopControlLoops", "main.cpp: signalHandler", "main.cpp: tryRestartControlLoops", "pid/fancontroller.cpp: FanController::~FanController"]}
{"id": "C143", "title": "In its whole life, through reloads and to its end, the process never tells a fan a number outside its range", "statement": "From its start to its end, through any number of reloads (which may change the configuration each time, succeed, fail or be repeated) and SIGTERM, the process never sends to a fan a number outside the fan's configured minimum and maximum, whoever sends it: loops, people in manual mode, zones stopped for a reload, zones stopped because a reload failed, or zones stopped at the end. It is enough that each configuration found has the fan alone on its path with these limits and percentages in the zones with it (or nobody on that path).", "quantifier": "every sequence of events, ticks, reloads, signals, timer expiries and configurations; any time of timers and signals; all control modes", "why_tests_cant": "The fan is written by several generations of zones and their destructors, in any interleaving with failures; tests exercise one zone at a time.", "anchors": ["main.cpp: restartControlLoops", "main.cpp: tryRestartControlLoops", "main.cpp: tryTerminateControlLoops", "pid/fancontroller.cpp: FanController::outputProc", "pid/fancontroller.cpp: FanController::~FanController", "sysfs/sysfswrite.cpp: SysFsWritePercent::write", "dbus/dbuswrite.cpp: DbusWritePercent::write"]}
{"id": "C144", "title": "However often it is reconfigured, the process never breaks down, and no configuration is in force half", "statement": "Through any number of reloads, each of which may find another sound configuration, none yet, a mapper that does not answer, a sensor that cannot be made yet or an object the bus refuses, and through all messages, host writes, manual and automatic mode and ticks between them, no exception leaves the daemon and nothing undefined is computed. Between any two events either no zone runs or exactly the zones of the last configuration found do. Whenever SIGTERM comes, the zones end in order. A configuration is sound if its sensors suit its zones, the limits of its fans are in order and its zones are bounded; with the option to leave fans at their failsafe percentage the fans must be controlled over D-Bus.", "quantifier": "every sequence of reloads and events of any length, every sound configuration, both values of the option for failsafe percentages, every moment of the end", "why_tests_cant": "Tests start one configuration once. That nothing breaks depends on what the destructors of one generation of zones leave behind for the next, for every sequence of successes and failures.", "anchors": ["main.cpp: restartControlLoops", "main.cpp: tryRestartControlLoops", "main.cpp: tryTerminateControlLoops", "pid/builder.cpp: buildZones", "sensors/builder.cpp: buildSensors", "pid/fancontroller.cpp: FanController::~FanController", "pid/pidloop.cpp: pidControlLoop", "pid/zone.cpp: DbusPidZone"]}
{"id": "C145", "title": "A reload leaves no gap in the failsafe protection", "statement": "If a thermal sensor that must be there already fails when the zones are made, at the start or at any reload, the very first automatic cycle of its zone commands every fan at least the percentage configured for the sensor, and so does every automatic cycle after it as long as the sensor keeps failing. In particular this holds for a D-Bus sensor whose object shows a critical alarm when the configuration is reloaded and has not withdrawn it since.", "quantifier": "every configuration, every life of the process before the reload, every sequence of events after it, every number of cycles", "why_tests_cant": "Unit tests build a zone by hand with sensors of the test's choosing. That the first cycle is already protected depends on what the mapper and the object answer while the sensors are made, on the first poll before the timer is armed, and on the order of both, for every configuration and after every history.", "anchors": ["main.cpp: restartControlLoops", "pid/pidloop.cpp: pidControlLoop", "pid/zone.hpp: processSensorInputs", "pid/zone.cpp: initializeCache", "dbus/dbuspassive.cpp: createDbusPassive", "dbus/dbuspassive.cpp: getFailed", "dbus/dbushelper.cpp: thresholdsAsserted", "dbus/dbushelper.cpp: getProperties"]}
{"id": "C146", "title": "Fans that nobody controls any more are safe, if the daemon is built to leave them so", "statement": "If the daemon is built with offline-failsafe-pwm and zones exist (whether or not all of them could be started), and then a reload comes to nothing (the configuration is gone or cannot be used) or the process ends, every fan the zones controlled was last told at least the number that stands for the smallest failsafe percentage those zones are configured with. It stays so for as long as no zone exists, however many further attempts fail and whatever else happens, and whether the zones were in manual or automatic mode. Without the option the fans stay as they were told last.", "quantifier": "every configuration, every life of the process, every sequence of events, every number of failed attempts", "why_tests_cant": "The unit tests do not run main.cpp, do not reload, and do not look at what destructors write. The claim is about what a fan was told last after any number of failed attempts, for every configuration, and depends on the writers skipping numbers they believe to be written already.", "anchors": ["pid/fancontroller.cpp: ~FanController", "main.cpp: restartControlLoops", "main.cpp: stopControlLoops", "main.cpp: tryTerminateControlLoops", "pid/zone.cpp: getFailSafePercent", "dbus/dbuswrite.cpp: DbusWritePercent::write"]}
{"id": "C147", "title": "A fan that several zones turn obeys the zone that ran last", "statement": "If several zones turn the same fan, then after a cycle of one of them the fan has been told what this zone asked for, whatever the others asked for before, until one of the zones that turn it has its next cycle; cycles of other zones, signals and properties set from outside do not change it. So an alarm in one zone does not protect a fan that another zone turns as well: the fan alternates between the failsafe speed and what the other zone asks for. The fan is protected if every zone that turns it depends on the failing sensor: once all of them had their cycles, it was last told at least the number for the smallest of their failsafe percentages, whichever zone ran last.", "quantifier": "every configuration with any number of zones, every order in which the timers of the zones fire, every history", "why_tests_cant": "The unit tests run one zone with mocked sensors. The claim is about the interleaving of several zones that share one sensor object, and about what was written last over all such interleavings.", "anchors": ["pid/builder.cpp: buildZones", "pid/pidloop.cpp: pidControlLoop", "pid/fancontroller.cpp: FanController::outputProc", "sensors/pluggable.cpp: PluggableSensor::write", "dbus/dbuswrite.cpp: DbusWritePercent::write"]}
{"id": "C148", "title": "An alarm holds a fan for the rest of the life of the process", "statement": "Let a sensor show an alarm when the zones are made from a configuration in which every zone that turns a fan cannot do without the sensor and has no failsafe percentage below v. From the first cycle of such a zone on, until the sensor withdraws the alarm, the fan was last told at least the number for v percent at every moment: while the zones run, whatever other messages come and whatever loops are switched off; while the configuration is gone or cannot be used; between a reload and the first cycle after it; after any number of further reloads with other configurations that tie the fan to the sensor in the same way; and at the end of the process. It does not matter whether the daemon is built to leave fans at their failsafe percentages.", "quantifier": "every configuration, every number of reloads and failed attempts in every order, every sequence of messages and cycles of any number of zones, every moment", "why_tests_cant": "The unit tests neither reload nor look at what a fan was told last across the end of one set of zones and the start of the next. The claim is an invariant of the whole process over unbounded lives, in which sensors, zones and writers are made anew any number of times.", "anchors": ["main.cpp: restartControlLoops", "main.cpp: stopControlLoops", "main.cpp: tryTerminateControlLoops", "pid/pidloop.cpp: pidControlLoop", "pid/zone.hpp: processSensorInputs", "pid/fancontroller.cpp: FanController::outputProc", "pid/fancontroller.cpp: ~FanController", "dbus/dbushelper.cpp: DbusHelper::getProperties", "dbus/dbuswrite.cpp: DbusWritePercent::write"]}
{"id": "C149", "title": "Heat that is there at a start or a reload is answered by the first cycle", "statement": "If a sensor of a stepwise loop has passed a point of its table when the zones are started, and one of the sensors of the loop has whenever the timer of the zone expires, then every automatic cycle of the zone, from the very first one, commands the fans of the zone at least the output of the point. The same holds for a proportional loop over temperatures or powers and what it asks for at a given reading. In particular a reload of the configuration in any life of the process leaves no gap, however short the fan interval is compared with the interval of the thermal loops. This is so because the thermal loops are processed once before the first cycle. It does not hold for a loop with an integral term: a reload forgets the integral, and the fans slow down although it is as hot as before.", "quantifier": "every configuration of a zone that takes the largest request, every table and proportional loop, every life before the reload, every sequence of events after it", "why_tests_cant": "The unit tests never start the timer loop of a zone. The claim ties the processing before the first timer to the command of the first and every later cycle, over all configurations and histories.", "anchors": ["pid/pidloop.cpp: pidControlLoop", "pid/zone.cpp: DbusPidZone::initializeCache, processThermals, determineMaxSetPointRequest", "main.cpp: restartControlLoops", "pid/stepwisecontroller.cpp: StepwiseController::process", "pid/ec/pid.cpp: pid"]}
{"id": "C150", "title": "Heat holds a fan across a reload", "statement": "Let it be hot, from a reload on, in every zone that turns a fan: a sensor of a stepwise loop of the zone has passed a point of its table that asks for at least v percent, when the zones start and at every cycle. If the reload leaves all zones running, then after the first cycle of one of these zones the fan has at every moment been told at least the number for v percent, whichever zone ran last and whatever happened before the reload. If the fan had been told as much before the reload, and the fans are not set to the failsafe percentages when loops end, there is no moment after the reload at which it has been told less, not even before the first cycle.", "quantifier": "every state before the reload, every configuration, every number of zones that turn the fan, every sequence of events after the reload", "why_tests_cant": "The unit tests neither run two zones on one fan nor reload the daemon. The claim is about the last write to the fan at every moment, over all interleavings of cycles and messages.", "anchors": ["main.cpp: restartControlLoops, tryRestartControlLoops", "pid/pidloop.cpp: pidControlLoop", "pid/fancontroller.cpp: FanController::outputProc", "pid/stepwisecontroller.cpp: StepwiseController::process", "sysfs/sysfswrite.cpp: SysFsWritePercent::write"]}
{"id": "C151", "title": "From the table in the configuration file to a fan that stays fast across a reload", "statement": "Let the configuration file that is read at a reload have a zone with a stepwise loop whose table rises, and fan loops that hand their set point on. If the reload leaves all zones running, and some sensor of the loop is beyond a point of the table when the zones have been started and whenever the timer of the zone expires, then from the first cycle of the zone after the reload on the last number written to every fan that only this zone has is at least the one for the output of the point between the limits the file gives for the fan.", "quantifier": "every configuration file, every state of the daemon before the reload, every sequence of events after it", "why_tests_cant": "There is no test from a configuration file to a write; the claim covers all files, all histories before the reload and all events after it.", "anchors": ["main.cpp: restartControlLoops", "pid/buildjson.cpp: buildPIDsFromJson", "sensors/buildjson.cpp: buildSensorsFromJson", "pid/builder.cpp: buildZones", "pid/pidloop.cpp: pidControlLoop", "sysfs/sysfswrite.cpp: SysFsWritePercent::write"]}
{"id": "C152", "title": "From the configuration file to a fan that an alarm holds across a reload", "statement": "Let the configuration file that is read at a reload have a zone that cannot do without a sensor on the bus, and let the object of the sensor show a critical alarm when the daemon looks at it. If the reload leaves all zones running, the alarm is not withdrawn and the zone stays in automatic mode, then from the first cycle of the zone after the reload on the last number written to every fan that only this zone has is at least the one for each failsafe percentage the file demands for the sensor, between the limits the file gives for the fan.", "quantifier": "every configuration file, every state of the daemon before the reload, every sequence of events after it", "why_tests_cant": "There is no test from a configuration file to a write, and none that reloads the daemon; the claim covers all files, all histories and all events.", "anchors": ["main.cpp: restartControlLoops", "dbus/dbuspassive.cpp: DbusPassive::createDbusPassive, getFailed", "pid/buildjson.cpp: buildPIDsFromJson", "sensors/buildjson.cpp: buildSensorsFromJson", "pid/zone.cpp: DbusPidZone::getFailSafePercent", "pid/pidloop.cpp: pidControlLoop"]}
{"id": "C153", "title": "From the configuration over D-Bus to fans that an alarm or heat holds across a reload", "statement": "Let there be no configuration file at a reload, and let the configuration be read from the objects on the bus. If the reload leaves all zones running, then from the first cycle of a zone after it on the last number written to every fan of the zone is at least the one for each failsafe percentage demanded on the bus for a sensor the zone cannot do without, if the object of the sensor shows a critical alarm at the reload that is not withdrawn; and at least the one for the output of a point of the table of a stepwise loop of the zone, if a sensor of the loop is beyond the point when the zones are started and at every cycle. The zone must stay in automatic mode.", "quantifier": "every configuration on the bus, every order in which it is collected, every state of the daemon before the reload, every sequence of events after it", "why_tests_cant": "There is no test from a configuration on the bus to a write, and none that reloads the daemon; the claim covers all configurations, all histories and all events.", "anchors": ["main.cpp: restartControlLoops", "dbus/dbusconfiguration.cpp: init", "dbus/dbuspassive.cpp: DbusPassive::createDbusPassive, getFailed", "pid/zone.cpp: DbusPidZone::getFailSafePercent", "pid/stepwisecontroller.cpp: StepwiseController::process", "pid/pidloop.cpp: pidControlLoop"]}
{"id": "C154", "title": "Heat reaches the fans of a zone that adds up set points", "statement": "Let all loops of a zone that compute set points be stepwise loops with rising tables and no outputs below zero; the zone may add up the set points of a profile or take the largest. If a sensor of one of the loops that is switched on is beyond a point of its table at every cycle, then after one update interval of the thermal loops, counted in automatic cycles, every automatic cycle commands all fan loops of the zone at least the output of the point; from the first cycle on, if the sensor was already beyond the point when the zones started. With negative outputs this fails: a loop earlier in the order of names can take away what a later one of its profile asks for.", "quantifier": "every configuration of the kind, every sequence of events, every order of loops and profiles, every rounding of the sums", "why_tests_cant": "The tests of addSetPoint add two or three constants; the claim covers all tables, profiles, histories and the rounding of the sums, up to the commands to the fans.", "anchors": ["pid/zone.cpp: DbusPidZone::addSetPoint", "pid/stepwisecontroller.cpp: StepwiseController::process", "pid/pidloop.cpp: pidControlLoop, processThermals"]}
