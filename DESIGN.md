# Formal model of phosphor-pid-control: design

Status of each property is in `MANIFEST.json`; this file says what is modelled, how, and what is trusted.

## 1. Layout

| Directory | Content |
| --- | --- |
| `lean/Verif/Base` | doubles (`Dbl`), ordered maps, error outcomes, C++ helper functions |
| `lean/Verif/Model` | the model, one file per group of source files; each definition cites file and lines |
| `lean/Verif/Lemmas` | helper lemmas, not claims |
| `lean/Verif/Spec` | small independent specifications used in the statements |
| `lean/Verif/Props` | the property theorems listed in `MANIFEST.json`, each with a non-vacuity `example` |

## 2. Doubles

`double` is not taken to be the real or rational numbers. `Dbl` is the type with elements NaN, -inf, +inf and
`fin q` for a rational `q` that is representable in the format. Arithmetic on finite values is exact rational
arithmetic followed by the rounding function of a class `FloatModel`; every comparison with NaN is false; overflow
gives infinities; `inf - inf`, `0 * inf`, `0/0` give NaN. The class lists the laws that are used (rounding is
monotone, fixes representable numbers, integers up to 2^53 and the same numbers of 2^-20ths are representable, the format is
symmetric, the difference of distinct representable numbers does not round to zero).
All theorems but those of C136 (binary64 only) hold for every `FloatModel`. Two instances are constructed and their laws proved:

* `binary64`: IEEE-754 double precision with round to nearest, ties to even (this is what the code runs on);
* `exact`: no rounding inside the double range (used for closed forms such as "the integral is the sum of errors").

Simplifications: the two zeros are identified (the only operation of the code that can tell them apart is division by
a zero sample period); the compiler is assumed not to contract `a*b+c` into a fused multiply-add; `std::pow(10, k)` is
an arbitrary nonnegative function of `k` that is 1 at 0.

## 3. Failure outcomes

`Except Err`: C++ exceptions (`Err.exc`) and undefined behaviour (`Err.ub`: null dereference, out-of-range
floating-to-integer conversion, read of an uninitialised variable) are explicit outcomes of the model. An
outcome other than `ok` ends the daemon in the control loop, so no state is returned with it.

## 4. Plan per property

| Id | What is modelled | How it is proved |
| --- | --- | --- |
| C01 | `ec::pid`, `clamp` on `pid_info_t` | invariant "last output inside limits" by induction over call histories |
| C02 | same | case analysis; the final clamp is unconditional |
| C03 | same | case analysis on the two slew branches |
| C04 | same | output as a function of reading and set point only, for any two histories |
| C05 | same | monotonicity lemma per operation, composed |
| C06 | same, exact arithmetic | induction over the history |
| C07 | same | NaN tracking through every branch |
| C08-C10 | `PIDController::calPIDOutput`, `process` | case analysis, induction over histories; C10 is equality of two runs |
| C11, C12 | `ec::stepwise` on 20-entry arrays | loop unfolded to a list recursion, compared with an independent "last listed reading not above the input" specification |
| C13-C15 | `StepwiseController` | induction over histories; folds |
| C16-C19 | `ThermalController::inputProc` | folds over arbitrary input lists against min/max/sum specifications |
| C20-C22 | `FanController` | folds; case analysis on failsafe, strict and tuning |
| C23-C27, C34-C36 | `DbusPidZone` set points, ceilings, arbitration, tuning file | folds over submission lists, permutation lemmas; C34 also has a proved counterexample |
| C28-C33 | `processSensorInputs`, `markSensorMissing`, `initializeCache`, failsafe percentages | induction over the input list; invariant over histories of polls |
| C37-C44 | `pidControlLoop`, `processThermals`, zone step | schedule invariant, run induction; C42 composes zone and fan lemmas; C43 well-formedness invariant |
| C45-C47 | `DbusWritePercent`, `DbusWrite`, sysfs writers | rounding monotonicity; histories; C47 also has a proved counterexample |
| C48-C53 | `DbusPassive`, `scaleSensorReading` | histories of signals; decision table; C50 also has a proved counterexample |
| C54 | `DbusPassiveRedundancy` | histories; counterexample for overlapping groups |
| C55-C57 | `HostSensor`, `PluggableSensor`, `HostStateMonitor` | case analysis, histories |
| C58 | `setZoneIndex`, `getZoneIndex` | termination by a pigeonhole measure, invariant over request sequences |
| C59 | `spliceInputs`, `splitNames` | list induction |
| C60-C63 | JSON values as an inductive type; the `from_json` functions | case analysis over all JSON values |
| C64 | `buildZones` | fold over configuration |
| C65 | path classification | string search specification |
| C66, C67 | IPMI handler on byte lists | case analysis; counterexample for C67 |
| C68, C69 | `FailsafeLogger` | invariant over histories |
| C70, C71 | core logging | histories; injectivity of log names |
| C72, C73 | event-queue model of `main.cpp` and the timers | invariant over schedules, counterexample trace |
| C74 | `~FanController` | case analysis |
| C75 | failsafe logger builder and routing | fold over zones and controllers |
| C76 | `ec::pid` with its log calls | projection of the logging run to the plain run; lines compared with the state |
| C77 | IPMI handlers on a bus of zones | composition of set and get |
| C78 | `SysFsRead` with the zone's staleness check | histories |
| C79, C80 | JSON parser, `buildZones`, zone, loop | composition: built zones satisfy the well-formedness of C43 and the failsafe data of C42 |
| C81-C88 | `dbus_configuration::init` on an arbitrary bus view | folds over configuration objects against specifications of single loops; C85, C86, C88 compose with `buildZones` and the loop; C87 has a proved counterexample |
| C89-C91 | the zone with its log text | text split again into lines and cells; projection of the logging run to the plain run |
| C92 | `createDbusPassive` with messages in between | histories of messages before and after `initFromSettings` |
| C93, C94 | match rules and `eventHandler`; the debounce timer with queued handlers | string prefixes against a specification of paths; invariant over schedules |
| C95 | `DbusHelper` on an arbitrary object | composition with `createDbusPassive` and the histories of C49 |
| C96, C97 | calls to the failsafe log in sensors and zones | histories extended by the calls; C97 has a proved counterexample |
| C98 | `buildSensors` on an arbitrary bus | fold over the entries against a specification of a single sensor |
| C99, C100 | the whole daemon: sensors, zones, messages, host, files and timers as events | invariant over event sequences; composition with C43, C49, C64, C80 and C98 |
| C101 | two executions of the whole daemon, with all zones and with one | relation between the two states (`Agree`), kept by every event |
| C102 | the whole daemon, as for C100 | invariant over event sequences on top of the history invariant of C29 |
| C103 | the whole daemon, as for C100 | invariant over event sequences: configuration, switch, and either the set point or the cycle counter is large enough |
| C104 | the whole daemon, as for C100 | as C103; interval bounds show that no NaN arises |
| C105 | the whole daemon with the content of directories | invariant over event sequences; string search against a specification of paths |
| C106 | the whole daemon, with the effects of all its writes | invariant over event sequences: the value a writer remembers is the last one that arrived |
| C107 | `init` of the D-Bus configuration with the mapper queries; hash orders are a parameter | what is noted of each service in closed form; permutations from equal members without duplicates |
| C108 | one start of the daemon: looking for the file, reading it or the bus, building, starting | composition of C61 to C64, C86, C99 and C107; invariant that all sensors read from the bus have types that exist |
| C109 | reading the configuration from the bus (C81 to C88), collecting it (C107), one start (C108) | every step of reading succeeds if and only if what it needs is there; the specification of what is needed does not mention the order, so permutations are for free |
| C110 | the beginning of `main`: options, files in /etc/thermal.d, directory of the log files | case analysis; what the file system says about a path is a parameter |
| C111 | the daemon of C99 with the timers of C38 (`Model/Timed`); time stamps on all events | the timed daemon runs as the untimed one; expiry after k handlers by induction; counting ticks gives the hypotheses of C100 and C103, C106 turns commands into numbers, and nothing but ticks of the zone changes them |
| C112 | the timed daemon of C111 | each loop keeps a bound on its output (`Keeping`) that holds after any history; the list of set points stays below y once all loops have run; C102 empties the failsafe list and then the fan loops hand the set point on; C106 and C111 turn commands into numbers and times |
| C113 | `attempt` of C108, then the timed daemon of C111 | the specification (`Spec/Written`) reads the JSON text only; `FileMatch` connects each entry that counts with the structure the parsers produce (C59, C60); then C106, C108 and C111 |
| C114 | `dbus_configuration::init` as for C81 to C88 | invariant of the passes over the objects: what is new in the map of sensors is a fan or carries the options of the configuration just read and is among its names |
| C115 | `init` of C81 to C88, discovery of C107, `attempt` of C108, timers of C111 | every loop of a zone comes from one configuration and every configuration with inputs has its loop (C83, C84), fans from C114_controls; then C111 |
| C116 | event-queue model of C72, C73 | case analysis of the steps |
| C117 | the daemon of C104 and the timers of C111 | multiples of 2^-20 are representable, so rounding to nearest never loses what a step adds in such units (`rep_frac`, monotone rounding); counting thermal passes in the cycles of the zone; then as C104 and C111 |
| C118 | same; the input of a loop as a relation (`Sees`) | what `inputProc` returns is related to the readings; a general theorem about passes of a loop whose input stays hot (`passes_reach_fans`, `passes_in_time`), used for C117 and C118; the invariant counts millionths as for C117 |
| C119 | same; the speed a fan loop goes by as a relation (`SlowestOf`, `FanSees`) | the invariant of C117 for fan loops, with a set point that may change between cycles; an upper bound of the set point as an invariant of the zone; `table_tick` at every cycle for the lower bound |
| C120 | the daemon of C99 with the loggers of C68 to C75 and the calls of C96 (`LoggedDaemon`) | the log is a run of the loggers (`deliver_run`), so C68 and C75 apply; the lines of a logger counted by the different texts of one second (`steady_inv`, `quietBurst_inv`) |
| C121 | calls that set properties (Model/Remote.lean) on the daemon of C99, the IPMI commands of C66 answered by this daemon, `setsensor` | paths of zones and loops are injective because numbers contain no slash; a call is one event of the daemon (`accept_iff`), so the theorems about events apply |
| C122 | the objects of the loops (`procs` of Model/Zone.lean) in the daemon of C99, and writes to them between events (Model/Shown.lean) | a relation "equal but for what is shown" is kept by every function; invariants that the objects show the loops' last outputs and that the set point is the largest of them |
| C123 | `restartControlLoops` on a daemon that runs (Model/Whole.lean): stopping with the destructors of C74, reading the configuration as in C108, zones started one after the other up to the first exception | a life is cut at its last reload; starting and running do not look at what was written before (`since_run`), so a reload equals a start; the rest follows from C74, C99 and C100 |
| C124 | two daemons on the model of C99 with the same loops | a relation between the two zones (loops pairwise at least as far, failed sensors included, requested set point larger) that every pass and every event keeps; the fan pass turns it into larger commands; monotonicity of C45 and C106 for what fans are told |
| C125 | a daemon on the model of C99, any run followed by a steady one | an invariant of the loops of the zone (their memory has no influence on what they ask for), the switches as a function of the events, a generic lemma that ceil(T/F) cycles contain a thermal pass, exact arbitration including ceilings; the relational specification of the set point has one solution |
| C126 | same | the zone part of C125; the list of failed sensors is exactly the set of broken ones after ceil(T/F) cycles (generalises C42 and C102); C32 for the percentage |
| C127 | same | C126 with the arbitration rule of C25: the submissions of a pass match the entries of the configuration one by one, so running sums are sums over initial parts of it |
| C128 | same, plus the timers (Model/Timed) | the interval contains enough expiries for C125 to C127 (as in C111); the last one told the fan, and nothing since then changed it; the file version by C113 |
| C129 | Zone, Pid, Daemon, writers, destroyZones | invariant of the run: the last output of each loop with the fan is NaN or a percentage, and all numbers in the trace for the path are in range; outputs by clamping and slewing (C01, C03), failsafe percentages by C32, conversions by C45; the file version by C113 |
| C130 | Daemon, Zone, Pid, writers | C99 leaves casts and wrongly typed messages as the only ways to stop; set points are bounded (C119), so sizes of all intermediate values of the fan loops are bounded (invariant `GoodFan`: integral, last error and last output), commands are fractions (C129) and their casts are defined (C45) |
| C131 | two daemons on the model of C99 with different loops | the relation of C124 holds for two zones built from different configurations (loops of the first are among those of the second, percentages larger); in the same world sensors agree (relation of C101), so the inputs are the same. C124 is the special case of equal configurations |
| C132 | steps of the daemon of C99 | messages about one sensor, and orders for one zone, change the value at one key of a map; changes at different keys commute, and so do those of different fields of one sensor. The first event of one sequence is found in the other one behind unrelated events only, and moves to the front |
| C133 | two daemons on the model of C99 with one zone in common | the zone is the same in both, the sensors it reads show the same and its fans are the same, an invariant kept by events both notice and by events one of them cannot notice; sensors and zones are built from their own entries |
| C134 | pairs of parsed files and the start of C108 | entries depend only on the members they look up; filling a map is independent of the order for different keys, by induction on permutations; so both files give the same tables |
| C135 | pairs of buses with the same objects and the start of C107 and C108 | each object changes only its own entries of the tables, as a list of patches (Lemmas/Patches); patches that agree where they meet commute; by induction on permutations both orders give the same tables, and failures do not depend on the order either |
| C136 | the PID computation of C01 and the writers of C45, with binary64, against a loop over the rationals (Spec/Rounding) | error of one rounding from the definition of binary64; error bounds through each term; limits, largest and smallest do not enlarge errors; induction over the history |
| C137 | whole lives (Model/Whole), twice, with times from two clocks (Spec/Clock) | a relation between worlds that differ only in times whose differences agree (or do not count), kept by polls, writes, messages, building and every event; errors included |
| C138 | configurations written as files (Spec/AsFile), read by Model/Json; attempts (Model/Startup) | induction over sensors, zones, loops, points and inputs in both directions: what was written is read back, and what is read can be written |
| C139 | the daemon with host monitor and redundancy groups (Model/Watched) | every run of it is a run of the daemon; induction over the events for what the monitors say; C100 and C102 for the fans |
| C140 | attempts to start with the retry timer and the time (Model/Retry) around the whole daemon | invariant over steps; first attempt after a moment; C123 for what an attempt comes to |
| C141 | signals, SIGHUP and their timers (Model/Reloading) around the attempts of C140 | projection to the attempts; bounds on pending waits; last or first request, then C140 |
| C142 | SIGTERM and its timer (Model/Ending) around Model/Reloading | number of armed timers that can still start the loops bounds the number of attempts; C123 for what is left |
| C143 | Model/Whole, Model/Retry, Model/Reloading, Model/Ending | invariant of the process: zones that run satisfy the invariant of C129, zones that are kept for destruction command percentages, the trace is in range; every way of building sensors (C66, C129) and every stop keeps it |
| C144 | Model/Whole, Model/Daemon, Model/Build, Model/Startup | induction over the life from its end: either no zone runs, or the daemon was launched by the last reload and ran since (then C130 gives the next step); stops are total because writers for D-Bus report what they wrote (preserved by every step) and failsafe percentages are percentages; building sensors ends in exceptions only, after which no zone runs |
| C145 | Model/Whole, Model/Daemon, Model/Build, Model/Helper, Model/Passive | the first poll happens when the zone starts, so the sensor is listed as failed before the first cycle (C29 for the history of length one); it stays listed while it fails (induction over the cycles); C95 turns what the object shows into the state of the new sensor, C49 that state into the decision |
| C146 | Model/Whole, Model/Zone, Model/Daemon, Model/World | the percentage a zone has is always one of those configured (C32 over the history); ending the zones commands it to each fan (C123), and the invariant of C106 on writers turns the command into the number at the path; while no zone exists nothing is written (induction over the life) |
| C147 | Model/Daemon, Model/Zone, Model/Build, Model/World | the zones that have no fan loop with the fan as input never command it (from C64, kept by every event), so the value at the path is the one from the last cycle of a zone that has (C106, C112); for the failing sensor, take the last such cycle, whichever zone it belongs to, and use C100 for this zone |
| C148 | Model/Whole, Model/Daemon, Model/Zone, Model/World | invariant over the life: the fan was told enough, and the state came from a reload by events that do not withdraw the alarm; cycles of zones that turn the fan keep it by C145, those of other zones leave the value (C147), reloads leave it or command the failsafe percentages (C123, C146), a new writer writes at its first command (C106) |
| C149 | Model/Zone, Model/Daemon, Model/Whole, Model/Stepwise, Model/Pid | the processing before the first timer already raises the largest request to what the loop asks for (warm_start, with the steps of C103/C104); from there the request stays at least as large at every cycle (asks_run), so no cycle has to be waited for; a reload that leaves all zones running is a launch (C123_restart) |
| C150 | Model/Whole, Model/Daemon, Model/Zone, Model/World | take the last cycle of a zone that turns the fan: it commands enough by C149, the number at the path follows by C106, and cycles of other zones and other events leave it (C147); before the first cycle the fan keeps what it was told, since a reload without the offline option writes nothing (C123) |
| C151 | Model/Json, Model/Whole, Model/Builder, Model/Zone, Model/World | a reload that finds the file reads what C113 says of it (FileMatch); C150 for the zone built from it; the number for the percentage between the limits of the file as in C113 |
| C152 | Model/Json, Model/Whole, Model/Passive, Model/Zone, Model/World | a reload that finds the file reads what C113 says of it; the sensor fails from the start (C145_alarm_fails), so the last cycle of the zone commands the percentage (C145_no_gap); the number at the path follows by C106 and stays by C147 |
| C153 | Model/DbusInit, Model/Collect, Model/Whole, Model/Passive, Model/Stepwise, Model/Zone, Model/World | a reload without a file reads what C115 says of the objects; with an alarm the rest is the argument of C152 (alarm_reload), with heat that of C150_reload |
| C154 | Model/Zone, Model/Stepwise, Model/Loop, Model/Daemon | the stored sums of the profiles stay numbers that are not negative within a cycle (Summed), so every request of a loop that is switched on is at most the largest sum; the rest is the argument of C103 and C149, now for both kinds of zones |

A property whose full claim the code does not meet has the claim in view (as `Cxx_statement` or in the comment), a theorem
`Cxx_..._partial` for the part that holds, and `Cxx_violated` with a counterexample: C34, C50, C67, C72, C87, C97.

### Findings

Theorems with executions in which the code does something a user would not expect:

| Theorem | What happens |
| --- | --- |
| `C04_needs_finite` | one NaN reading makes the next output NaN too although only the proportional part is used |
| `C07_poisoned_forever` | with an integral part one NaN reading makes all later outputs NaN |
| `C08_slew_below_minimum` | the set point check combined with slew limiting gives outputs below the minimum |
| `C22_nan_not_floored` | in failsafe a NaN fan output is not replaced by the failsafe percentage |
| `C25_order_dependent` | with negative contributions the accumulated set point depends on the order of the loops |
| `C26_ceiling_not_disabled` | a disabled ceiling loop still caps the zone |
| `C32_nan_poisons` | if the failsafe percentage of the first failed sensor (by name) is NaN, which a configuration on the bus can say, the failsafe mode raises no fan, whatever other failed sensors ask for |
| `C34_nan_first`, `C34_violated` | a NaN ceiling submitted first hides all others |
| `C35_ceiling_unnamed` | a ceiling that caps an accumulating zone is shown as an empty requester |
| `C36_blank_file` | a blank set point file makes the code use an uninitialised value |
| `C37_fast_thermals` | a thermal interval below the fan interval is not reached |
| `C47_not_retried` | a failed D-Bus write is not repeated while the same value is commanded |
| `C50_violated`, `C50_warning_clears` | an alarm is cleared by a message about another alarm |
| `C53_wide_range`, `C53_nan_limits` | scaling gives NaN |
| `C54_overlap` | overlapping redundancy groups clear each other's failures |
| `C57_missed_before_start` | a change of the host state between creation and start of the monitor is missed |
| `C60_negative`, `C60_dbus_undefined` | cycle times that wrap or are undefined casts |
| `C62_missing_name`, `C62_list_ignored`, `C62_fraction_dropped`, `C63_accepts_undefined`, `C64_unknown_dropped` | mistakes in a configuration file that are not reported |
| `C66_set_reply_length`, `C66_missing_property`, `C67_violated`, `C67_large` | IPMI replies; zone numbers from 128 |
| `C68_clock_set_back`, `C68_silent_counts`, `C69_joined` | failsafe messages too many or lost |
| `C72_violated`, `C72_survives` | a restart that leaves an old loop running for good |
| `C73_first_fails` | the first restart attempt always fails, so every reload pauses control for the retry delay |
| `C74_sysfs_undefined`, `C78_text_is_zero`, `C78_missing_undefined` | sysfs fans: uninitialised values, text taken as 0 |
| `C79_empty_fan_loop` | a fan loop without fans is accepted and then no tick completes |
| `C82_shifted`, `C82_integer_ignored` | zone numbers over D-Bus that are not honoured |
| `C83_fan_not_lenient` | a fan that may be missing is not treated so |
| `C84_stops`, `C84_percent_ignored` | stepwise loops lose inputs behind a missing one and ignore their failsafe percentage |
| `C85_collision` | of two sensors with the same last path element one is read twice |
| `C86_unknown_zone` | one loop naming an unknown zone keeps all zones from being built |
| `C87_violated`, `C87_position` | a missing sensor shifts the margins of the others; one that is awaited comes first in the list and takes the first margin, so those before it are shifted too |
| `C89_comma`, `C90_sysfs` | columns of the zone log are shifted; raw outputs of sysfs fans are always -1 |
| `C92_alarm_overwritten` | an alarm signalled while a sensor is created is forgotten |
| `C93_new_configuration` | a configuration object that appears at run time is not noticed |
| `C95_missing` | a sensor made for a missing object stays failed when the object appears; nothing but a reload helps |
| `C95_no_value` | an object without a value is a healthy sensor that reads 0 |
| `C97_other_failed`, `C97_flapping` | the failsafe log says in every cycle that a zone leaves failsafe mode although it does not |
| `C120_drowned` | with 20 healthy inputs polled before one that has failed, the failsafe log says every second that the zone is not in failsafe mode and never that it is |
| `C121_setsensor` | `setsensor` never sets the host sensor, because it sends an integer where the property is a floating-point number; its exit code is 0 nevertheless |
| `C122_stepwise` | the object of a stepwise loop shows output 0, input 0 and no leader whatever the loop asks for, so the set point of such a zone cannot be told from the objects |
| `C123_host_stuck` | the new sensors are made before the old ones go away, so with a bus that refuses a second object at a path a daemon with a host sensor never gets through a reload: its zones are gone and every attempt fails |
| `C123_some`, `C123_fresh` | one zone that cannot be started makes the daemon tear down and restart the good zones at every attempt; a reload silently ends manual mode and switches loops on |
| `Ex.C124_hysteresis` | with hysteresis a hotter history can end in less cooling: after 69 degrees, 70 is within the hysteresis and the loop stays at 60 percent; after 68 degrees, 70 is beyond it and the fans run at full speed |
| `Ex.C126_strict` | with strict failsafe an alarm of a hot sensor slows the fans from 60 to 40 percent |
| `Ex.C127_names` | with negative outputs swapping the names of two loops slows the fans from 60 to 45 percent |
| `Ex.C129_above` | an output limit above 100 percent is accepted, and a fan is told a number above its maximum |
| `Ex.C130_huge` | one finite but absurd fan speed makes a PID loop compute 0 times infinity, and casting the NaN to an integer is undefined |
| `Ex.C131_lower` | adding a loop with a smaller failsafe percentage of its own lowers the speed of the fans when its sensor fails, since it replaces the percentage of the zone |
| `Ex.C132_alarms` | with uncFailsafe, the end of a sensor's critical alarm ends the failure its warning began, and the fans slow down although the warning lasts; in the other order the sensor stays failed |
| `Ex.C134_repeated` | names that repeat in a configuration file are not reported; of two entries for a sensor the later one counts |
| `Ex.C134_misspelt` | a misspelt optional setting is not reported; the default is used |
| `Ex.C135_unnumbered` | zones without ZoneIndex are numbered in the order in which the bus lists them, so the numbers may be swapped after a restart |
| `Ex.C135_same_name` | of two loops of a zone with the same name (spaces and underscores counting as equal) only the one listed last is there, with no report |
| `Ex.C136_hysteresis` | with a hysteresis around the set point, rounding of set point plus hysteresis can decide whether the loop acts |
| `Ex.C137_set_ahead` | ages of readings are measured with `high_resolution_clock`, which can be the settable system clock: setting it ahead makes sensors with a timeout fail |
| `Ex.C137_set_back` | setting the clock back by an hour lets a sensor that has fallen silent be trusted for another hour |
| `Ex.C138_bare_zone` | a zone on the bus whose loops find none of their inputs runs without loops; in a file this is an error |
| `C146_frozen` | unless the daemon is built with offline-failsafe-pwm, a reload that comes to nothing leaves every fan at the speed it was told last, for as long as no attempt succeeds, however hot it gets |
| `Ex.C147_overruled` | two zones may turn the same fan; an alarm that brings one of them into failsafe mode does not hold the fan at the failsafe speed, the other zone writes its own speed in between |
| `Ex.C149_forgotten` | a reload builds all loops anew, so a loop loses its integral: at the same temperature the fans fall from full speed to 40 percent at the first cycle after the reload |
| `C145_broken_forgotten` | a reload forgets that a sensor said it is not functional: the operational status is not read when sensors are made, only heard; until the sensor says it again it counts as working |
| `C140_pause` | a reload while loops run leaves the fans without control for ten seconds |
| `C140_stopped_again` | a request that succeeds does not call off the attempt that is pending, so asking twice stops the loops twice, for ten seconds each |
| `C98_unknown_dropped`, `C98_empty_path`, `C98_all_or_nothing` | a sensor of a misspelt type is dropped; one without a path throws when read; one that cannot be made prevents all others |
| `C105_second_glob`, `C105_missing_directory` | only the first `**` of a path is replaced; a missing directory before `**` prevents all sensors |
| `C107_without_manager`, `C107_two_managers` | one service with configurations but no object manager stops all configuration over D-Bus; with two object managers, which configurations are read depends on a hash order |
| `C114_order`, `C114_fans` | if two configurations over D-Bus use the same sensor with different `InputUnavailableAsFailed` or `IgnoreFailIfHostOff`, the order of a hash map decides which applies; in fan configurations both options have no effect |
| `C108_given_removed`, `C108_unacceptable` | a reload after the file given with `-c` was removed takes the configuration from the bus; a reload with a broken file ends the daemon instead of keeping the loops that run |
| `C109_stops` | one incomplete loop or zone object on the bus keeps every zone from starting, not only the one it belongs to |
| `C110_core_alone`, `C110_not_a_directory`, `C110_needs_temp` | core logging alone writes to the root directory; a file named in /etc/thermal.d/logging makes logging fail although `-l` names a directory; without `-l` the daemon ends if there is no directory for temporary files |
| `Ex.C101_shared` | two zones that share a fan write over each other in every cycle |

## 5. What is modelled and what is not

| Source | Modelled in | Left out |
| --- | --- | --- |
| `pid/ec/pid.*`, `pid/util.cpp`, `pid/pidcontroller.*` | `Model/Pid`, `Model/Zone` | debug dump (`DumpPIDData`) |
| `pid/ec/logging.*` | `Model/CoreLog` | formatting of numbers, stream errors |
| `pid/ec/stepwise.*`, `pid/stepwisecontroller.*` | `Model/Stepwise`, `Model/Zone` | |
| `pid/thermalcontroller.*`, `pid/fancontroller.*`, `pid/fan.hpp` | `Model/Zone` | debug output |
| `pid/zone.*`, `pid/tuning.*` | `Model/Zone`, `Model/ZoneLog` | debug output; errors of the log file; property signals |
| `pid/pidloop.*` | `Model/Loop`, `Model/ZoneLog`, `Model/Lifecycle` | |
| `pid/builder.*` | `Model/Build` | errors when a D-Bus object is registered |
| `pid/buildjson.*`, `sensors/buildjson.*`, `buildjson/*`, `conf.hpp` | `Model/Json`, `Model/Startup` | text parser (what a file parses to is a parameter) |
| `sensors/*` (other) | `Model/World`, `Model/BuildSensors` | |
| `dbus/dbuspassive.*` | `Model/Passive` | D-Bus transport |
| `dbus/dbuspassiveredundancy.*` | `Model/Redundancy`, `Model/Watched` (in the running daemon) | D-Bus transport |
| `dbus/dbuswrite.*`, `sysfs/sysfsread.*`, `sysfs/sysfswrite.*`, `notimpl/*` | `Model/World` | creation of the bus connection |
| `dbus/dbusconfiguration.*` | `Model/Collect`, `Model/DbusConf`, `Model/DbusInit`, `Model/Reload` | D-Bus transport; answers of the mapper and the services are parameters |
| `dbus/dbusutil.*`, `util.cpp` | `Model/Util`, `Model/Passive`, `Model/DbusInit` | `getSensorUnit`, debug output |
| `dbus/dbushelper.*` | `Model/Helper`, `Model/Passive` | D-Bus transport |
| `hoststatemonitor.hpp` | `Model/HostState`, `Model/Watched` (in the running daemon) | |
| `failsafeloggers/*` and the calls to it | `Model/FailsafeLog`, `Model/FailsafeMsgs` | |
| `ipmi/*` | `Model/Ipmi` | registration of the commands |
| `main.cpp` | `Model/Lifecycle` (loops, restart, termination), `Model/Reload` (hang-up signal), `Model/Retry` (repeated attempts, with time), `Model/Reloading` (from signals to attempts, with time), `Model/Ending` (from SIGTERM to the end, with time), `Model/Daemon` (events of the whole daemon), `Model/Timed` (with its timers), `Model/Startup` (from files and bus to the daemon), `Model/Whole` (reloads of a daemon that runs), `Model/Switches` (options and log directory) | parsing of the command line |
| `sysfs/util.cpp` | `Model/BuildSensors` | order of directory entries (a parameter) |
| `setsensor.cpp` | Model/Remote.lean | the two calls, the lines printed and the exit code |

Not modelled at all: D-Bus transport and the sdbusplus bindings, `boost::asio` internals (only a timer and handler queue
run by one thread), the file system beyond "file missing / content" and lists of directory entries.

## 6. Trusted base

* Lean 4.33.0's kernel.
* Axioms: of the theorems in `MANIFEST.json` all depend on at most `propext`, `Classical.choice`, `Quot.sound`. Exactly
  `[propext, Quot.sound]`: `C66_rejected`, `C68_silent_counts`, `C69_once`, `C69_line`, `C69_joined`, `C72_violated`,
  `C110_usage`, `C110_switches`, `C110_log_path`, `C110_log_there`, `C110_core_alone`. Exactly
  `[propext]`: `C66_set`, `C66_set_reply_length`, `C66_missing_property`, `C67_small_partial`, `C68_clock_set_back`. All others
  depend on all three. `tools/axioms.sh` prints them. No axioms of our own, no `sorry`, no `native_decide`, no `bv_decide`.
* The correspondence of the definitions in `lean/Verif/Model` with the cited lines of the source, with the simplifications
  named in their comments and in sections 2, 3 and 5. Mutations of the model that the theorems were tested against are in
  `seeded/LOG.jsonl`.
