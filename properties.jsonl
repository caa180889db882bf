{"id": "C01", "title": "Dependency cycles are rejected, and only cycles", "statement": "load_text/load_file raise DependencyCycle exactly when the dependency relation resolved from `depends_on` and `subtasks` contains a cycle; a project that is returned has an acyclic dependency relation, and an acyclic one (within the index limits) is never rejected for a cycle.", "quantifier": "every dependency graph over every number of tasks (any shape, size and visiting order)", "why_tests_cant": "tests try a handful of graphs; a DFS colour mistake only shows on particular shapes of diamonds, back edges and already-completed subtrees", "anchors": ["src/config/tasks.cpp: depth_first_search, check_for_cycles, parse_tasks"]}
{"id": "C02", "title": "Dependencies are exactly the declared ones", "statement": "In a loaded project the dependencies of a task are exactly: the tasks whose `id` is listed in its `depends_on`, plus its direct `subtasks`; every index is in range, the set is strictly sorted, and naming an unknown id raises TaskNotFound.", "quantifier": "every configuration document (any number and nesting of tasks, forward and backward references)", "why_tests_cant": "two-phase resolution and index bookkeeping while the task array is growing depend on position and nesting; tests fix a few layouts", "anchors": ["src/config/tasks.cpp: parse_task, parse_subtasks, parse_dependencies, parse_dependencies_2nd_phase, find_task_index_by_id"]}
{"id": "C03", "title": "Every task of the document becomes exactly one task, in document order", "statement": "The loaded task list is the document's tasks, subtasks included, listed parent-first in document order, each with its own name, id and duration: nothing is dropped, duplicated or mixed up.", "quantifier": "every configuration document that loads", "why_tests_cant": "nested subtasks of arbitrary depth and width cannot be enumerated", "anchors": ["src/config/tasks.cpp: parse_task, parse_subtasks, parse_tasks"]}
{"id": "C04", "title": "Agents keep identity: one agent per entry, id equals position, names unique", "statement": "The loaded agents are the entries of `agents` in order, agent i has id i, and no two loaded agents share a name; a repeated name raises DuplicateAgentDefinition.", "quantifier": "every `agents` section", "why_tests_cant": "needs all orders and repetitions of names", "anchors": ["src/config/agents.cpp: parse_agents, parse_agent, check_for_duplicates"]}
{"id": "C05", "title": "Group membership is exactly what was written", "statement": "For every loaded agent and task, the names of its groups are exactly the group names listed for it; the project's group table has no duplicates and its indices never change as more groups are added.", "quantifier": "every configuration document that loads", "why_tests_cant": "indices are assigned on first sight across agents and tasks; a wrong index only shows with particular interleavings of group names", "anchors": ["src/config/load.cpp: find_or_insert_group", "src/config/agents.cpp: parse_agent_groups", "src/config/tasks.cpp: parse_task_group, parse_task_groups"]}
{"id": "C06", "title": "Loaded durations and performances are ordered and positive", "statement": "In every loaded project each agent has 0 < performance.min <= performance.max and each task has 0 < duration.min <= duration.max.", "quantifier": "every configuration document that loads", "why_tests_cant": "boundary values (zero, equal bounds, non-numbers) are a countable family that tests sample", "anchors": ["src/config/agents.cpp: parse_agent_performance, validate_performance", "src/config/tasks.cpp: parse_duration"]}
{"id": "C07", "title": "Task ids are unique", "statement": "No two tasks of a loaded project share a non-empty id; a repeated id raises DuplicateTaskDefinition wherever in the nesting it occurs.", "quantifier": "every configuration document", "why_tests_cant": "needs all positions and nestings of repeated ids", "anchors": ["src/config/tasks.cpp: parse_task_id, check_for_duplicates"]}
{"id": "C08", "title": "A task is assigned by at most one mechanism", "statement": "A loaded task that names a dedicated agent has no groups and the named agent exists (the stored index is that agent's); a task combining two or more of agent/group/groups is rejected with InvalidTaskAssignment.", "quantifier": "every configuration document", "why_tests_cant": "combinations of attributes across all tasks", "anchors": ["src/config/tasks.cpp: parse_groups_and_agents, parse_task_agent, find_agent_index_by_name, count_defined"]}
{"id": "C09", "title": "The schema check accepts exactly the documented shape", "statement": "validate_configuration accepts a document exactly when it has the documented shape at every level: known attributes only, no empty or repeated attribute names, required ones present, each value of the right kind, recursively through subtasks.", "quantifier": "every YAML tree of any depth", "why_tests_cant": "the schema is recursive; tests check single violations at fixed places", "anchors": ["src/config/validation.h: scalar, required, optional, sequence, attributes, values, any_of", "src/config/load.cpp: validate_task_list, validate_configuration"]}
{"id": "C10", "title": "Every task of an accepted project can be done by somebody", "statement": "If a project loads without error then every task has at least one agent that may work on it, so scheduling is possible.", "quantifier": "every configuration document that loads", "why_tests_cant": "depends on the interplay of all agents' groups, all tasks' groups and universal agents", "anchors": ["src/config/tasks.cpp: parse_task_group", "src/project.cpp: can_work_on, has_universal_agents", "src/stun/schedule_params.cpp: push_task"]}
{"id": "C11", "title": "Eligibility rule", "statement": "An agent may work on a task exactly when: the task names this agent; or the task names no agent and either the agent has no groups, or the task has groups and all of them are among the agent's groups.", "quantifier": "every agent and every task", "why_tests_cant": "all pairs of group sets", "anchors": ["src/project.cpp: can_work_on, is_universal"]}
{"id": "C12", "title": "Index limits fail loudly, never wrap", "statement": "A project with more tasks, agents or groups than the 8-bit indices can address is never returned: loading raises an error instead of storing a wrapped index.", "quantifier": "every configuration document, of any size", "why_tests_cant": "wrap-around appears only past a size no test uses", "anchors": ["src/common.h: int8", "src/config/tasks.cpp: check_for_cycles, parse_subtasks", "src/config/agents.cpp: parse_agent", "src/config/load.cpp: find_or_insert_group"]}
{"id": "C13", "title": "Malformed configuration is reported as an error, not undefined behaviour", "statement": "For every configuration document, loading either returns a project or raises an exception; it never reaches a violated precondition.", "quantifier": "every YAML tree", "why_tests_cant": "needs every degenerate document (empty names, empty lists, huge numbers)", "anchors": ["src/config/load.cpp: parse_yaml, find_or_insert_group", "src/config/agents.cpp: parse_agent", "src/config/tasks.cpp: parse_dependencies, parse_task_group"]}
{"id": "C14", "title": "Duration text: accepted language and value", "statement": "parse_duration accepts exactly the strings of the documented grammar (number, unit, optional separators or 'and') and returns the sum over all components of number times unit length; everything else raises DurationParseError.", "quantifier": "every string", "why_tests_cant": "an infinite regular language with overlapping prefixes (m/min/minute/month, s/sec/second)", "anchors": ["src/config/parse_duration.rl.cpp: duration_parser, parse_duration"]}
{"id": "C15", "title": "Duration text: components add up and order does not matter", "statement": "Joining two accepted duration texts with a blank or with ' and ' is accepted and means the sum; the order of the two texts does not matter.", "quantifier": "every pair of accepted strings", "why_tests_cant": "infinite family of strings", "anchors": ["src/config/parse_duration.rl.cpp: duration_parser, parse_duration"]}
{"id": "C16", "title": "Verbose durations lose nothing and can be read back", "statement": "The verbose rendering of a duration lists months, days, hours, minutes and seconds that add up to exactly the duration, each in its normal range; for durations under a month the printed text, given back to parse_duration, yields the same duration.", "quantifier": "every non-negative duration", "why_tests_cant": "unbounded integer input; round trip through two unrelated pieces of code", "anchors": ["src/cli/verbose.h: verbose_duration, formatter<verbose>", "src/config/parse_duration.rl.cpp: parse_duration"]}
{"id": "C17", "title": "Humanized durations use the right unit and are accurate to half a unit", "statement": "For durations over five seconds the humanized text names the largest unit to which the duration does not round to zero, and the printed count is the duration rounded to that unit: off by at most half a unit.", "quantifier": "every duration", "why_tests_cant": "unbounded integer input with rounding ties", "anchors": ["src/cli/humanize.h: humanize_duration, formatter<humanize>"]}
{"id": "C18", "title": "Schedule parameters describe the project faithfully", "statement": "to_schedule_params lists, for every task, exactly the eligible agents in ascending order and exactly the task's dependencies in ascending order, and for every agent its average performance.", "quantifier": "every project", "why_tests_cant": "all sizes and group structures; packed storage with variable-length rows", "anchors": ["src/stun/schedule_params.cpp: available_agents, dependencies, agent_performance, to_schedule_params, Vector2D::Vector2D"]}
{"id": "C19", "title": "Duration normalisation is a pure change of unit", "statement": "Normalised task durations add up to the number of agents, and multiplying the normalised makespan of any schedule by duration_multiplier gives the makespan computed from the durations in seconds.", "quantifier": "every project and every schedule (exact arithmetic)", "why_tests_cant": "universally quantified real arithmetic identity", "anchors": ["src/stun/schedule_params.cpp: task_duration", "src/predict.cpp: makespan"]}
{"id": "C20", "title": "Copies of the packed tables are deep and equal", "statement": "A copy of a Vector2D has the same rows as the original, and neither later changes to, nor destruction of, the original affects the copy.", "quantifier": "every table: any number of rows of any length, empty rows included", "why_tests_cant": "aliasing of interior pointers depends on the row layout and on memory reuse", "anchors": ["src/stun/schedule_params.cpp: Vector2D(const Vector2D&), Vector2D(vector&&, span), operator="]}
{"id": "C21", "title": "The initial schedule is valid", "statement": "initial_schedule returns every task exactly once, each after all of its dependencies, each assigned to an agent that may do it.", "quantifier": "every acyclic project in which every task has an eligible agent", "why_tests_cant": "all dependency graphs and visiting orders", "anchors": ["src/stun/schedule_params.cpp: initial_schedule, push_task"]}
{"id": "C22", "title": "Mutation preserves validity", "statement": "Mutating a valid schedule yields a valid schedule: same tasks exactly once, dependencies still first, every agent eligible.", "quantifier": "every valid schedule and every outcome of the random generator", "why_tests_cant": "needs every random choice on every schedule", "anchors": ["src/stun/utils.cpp: Mutator::operator(), try_swap, is_swappable, update_agent"]}
{"id": "C23", "title": "The search space is connected", "statement": "From any valid schedule every other valid schedule of the project can be reached by some sequence of mutations, so no valid schedule is excluded from the search.", "quantifier": "every project with at least one valid schedule, every pair of valid schedules", "why_tests_cant": "reachability over factorially many schedules", "anchors": ["src/stun/utils.cpp: Mutator::operator(), try_swap, update_agent"]}
{"id": "C24", "title": "The makespan is that of a feasible execution", "statement": "For a valid schedule the makespan estimator describes an execution in which each task starts after all of its dependencies have ended, no agent works on two tasks at once, every task runs for its duration divided by the agent's performance, and the result is the time the last task ends.", "quantifier": "every schedule and every rounding of the arithmetic that is monotone", "why_tests_cant": "all schedules, all numeric inputs", "anchors": ["src/stun/utils.cpp: Makespan::operator(), dependencies_done, task_duration"]}
{"id": "C25", "title": "No execution of the same plan is faster", "statement": "No assignment of start times that follows the schedule's agents and order and respects the dependencies finishes any task earlier than the estimator says.", "quantifier": "every schedule and every alternative assignment of start times", "why_tests_cant": "universal quantification over all competing executions", "anchors": ["src/stun/utils.cpp: Makespan::operator()"]}
{"id": "C26", "title": "The estimator has no memory", "statement": "The makespan of a schedule does not depend on which schedules were evaluated before.", "quantifier": "every history of evaluations", "why_tests_cant": "hidden scratch buffers are reused between calls; a leak needs the right previous schedule", "anchors": ["src/stun/utils.cpp: Makespan::operator(), Makespan(const ScheduleParams&)"]}
{"id": "C27", "title": "Makespan bounds", "statement": "The makespan is at least the time needed by each single agent for the tasks assigned to it and at least the length of any dependency chain, and at most the sum of all task times.", "quantifier": "every schedule (exact arithmetic)", "why_tests_cant": "universally quantified inequality", "anchors": ["src/stun/utils.cpp: Makespan::operator()"]}
{"id": "C28", "title": "Longer tasks or slower agents never shorten the makespan", "statement": "With the same schedule, increasing task durations or decreasing agent performances never decreases the makespan.", "quantifier": "every schedule, every pair of parameter sets, every monotone rounding", "why_tests_cant": "scheduling anomalies are the classic counter-intuitive case; absence needs proof", "anchors": ["src/stun/utils.cpp: Makespan::operator()"]}
{"id": "C29", "title": "The reported best schedule is valid and its makespan is the reported one", "statement": "At any time schedule() is a valid schedule and normalized_makespan() is exactly the makespan of that schedule.", "quantifier": "every project, every random stream, every number of updates, resets and copies", "why_tests_cant": "long random histories with in-place buffer swapping", "anchors": ["src/stun/stochastic_tunneling.cpp: update, neighbor_is_better, perform_stun, reset, copy constructor"]}
{"id": "C30", "title": "The best makespan never gets worse and is the best ever evaluated", "statement": "normalized_makespan() never increases during updates and equals the smallest makespan of all schedules evaluated since the last reset, the initial schedule included.", "quantifier": "every random stream and number of updates", "why_tests_cant": "needs all histories", "anchors": ["src/stun/stochastic_tunneling.cpp: update, neighbor_is_better, init_energies"]}
{"id": "C31", "title": "Updates never violate a contract", "statement": "Starting from a valid schedule, no sequence of updates violates any precondition or postcondition: energies are non-negative and ordered, STUN values stay in [0,1], indices stay in range.", "quantifier": "every random stream and number of updates, every monotone rounding, every gamma >= 0 and beta scale up to 33 in exact arithmetic, up to 1/900.03 in single precision (defaults: 2 and 0.001)", "why_tests_cant": "needs all histories; in release builds a violated contract is undefined behaviour", "anchors": ["src/stun/stochastic_tunneling.cpp: stun_fn, neighbor_is_better, perform_stun, get_new_neighbor"]}
{"id": "C32", "title": "A copied optimizer job continues from the same state", "statement": "Copying a stochastic tunneling state yields an equivalent state: same best schedule and makespan, and same current schedule with the current energy belonging to it.", "quantifier": "every reachable state", "why_tests_cant": "the copy re-creates views into a buffer whose roles may have been swapped; depends on the parity of past acceptances", "anchors": ["src/stun/stochastic_tunneling.cpp: StochasticTunneling(const StochasticTunneling&), prepare_schedules", "src/stun/optimizer.cpp: replicate_best_job"]}
{"id": "C33", "title": "The STUN value used in acceptance belongs to the current schedule", "statement": "Whenever a neighbour is accepted or rejected by Monte Carlo sampling, the comparison uses the STUN transform of the current schedule's makespan relative to the best makespan.", "quantifier": "every reachable state", "why_tests_cant": "staleness depends on the history of improvements", "anchors": ["src/stun/stochastic_tunneling.cpp: neighbor_is_better, perform_stun"]}
{"id": "C34", "title": "Temperature stays non-negative", "statement": "The temperature value stays >= 0 for every sequence of STUN values.", "quantifier": "every sequence of non-negative STUN values and every accepted beta scale", "why_tests_cant": "multiplicative update with user-set scale", "anchors": ["src/stun/temperature.cpp: Temperature::update"]}
{"id": "C35", "title": "Temperature volatility restarts every period", "statement": "The damping applied at the n-th update depends only on n modulo the restart period, is 1 at every multiple of the period and decreases within a period; values that are not powers of two are refused.", "quantifier": "every power-of-two period and every update count", "why_tests_cant": "bit-mask arithmetic for all counts", "anchors": ["src/stun/temperature.cpp: Temperature::update, Temperature::Temperature", "src/main.cpp: power_of_2_validator"]}
{"id": "C36", "title": "The progress curve is an exact fit on exact data", "statement": "If all points fed to ExpCurveFitter lie on one exponential curve and at least two have different x, then the fitted curve is that curve: at(x) returns its value at every x; after reset it returns 0.", "quantifier": "every exponential curve and every finite set of points (exact arithmetic)", "why_tests_cant": "universally quantified real identity (weighted least squares)", "anchors": ["src/stun/exp_curve_fitter.cpp: operator(), at, reset"]}
{"id": "C37", "title": "After each round the optimizer reports the best of all jobs", "statement": "After every update(), normalized_makespan() is the minimum over all parallel jobs, all jobs have that makespan, and schedule() is a schedule with it.", "quantifier": "every number of jobs, every random stream, every thread interleaving", "why_tests_cant": "parallel loop followed by replication; depends on which job wins", "anchors": ["src/stun/optimizer.cpp: update, replicate_best_job, best_job"]}
{"id": "C38", "title": "Optimisation terminates", "statement": "The loop `while (!has_converged()) update()` ends after finitely many rounds.", "quantifier": "every project, every random stream, every positive batch size and idle limit", "why_tests_cant": "liveness: no finite number of runs shows termination for all random streams", "anchors": ["src/stun/optimizer.cpp: update, has_converged, estimate_progress", "src/predict.cpp: optimize"]}
{"id": "C39", "title": "Progress is a number from 0 to 1", "statement": "estimated_progress() is always in [0,1], is 0 before five epochs unless converged, and is 1 once has_converged().", "quantifier": "every history of updates (finite arithmetic)", "why_tests_cant": "needs all histories and curve fits", "anchors": ["src/stun/optimizer.cpp: estimated_progress, interpolate_progress, estimate_progress"]}
{"id": "C40", "title": "The final schedule is valid and no worse than the naive one", "statement": "The schedule returned by schedule()/predict() is valid, and its makespan is at most that of the initial schedule and is the one reported.", "quantifier": "every project and random stream", "why_tests_cant": "needs every run", "anchors": ["src/predict.cpp: optimize, makespan", "src/stun/optimizer.cpp"]}
{"id": "C41", "title": "Epochs count improvements; idle iterations count work since the last one", "statement": "current_epoch() grows by one exactly in the rounds where the best makespan differs from the previously recorded one, and has_converged() holds exactly when at least max_idle_iters iterations were made since the last such round.", "quantifier": "every history of updates", "why_tests_cant": "needs all histories", "anchors": ["src/stun/optimizer.cpp: update, estimate_progress, has_converged, current_epoch"]}
{"id": "C42", "title": "Rebinding parameters rebinds the makespan", "statement": "After Optimizer::params(p) / OptimizerJob::params(p), the makespans reported by later updates and resets are computed from p.", "quantifier": "every pair of parameter sets", "why_tests_cant": "a test with equal parameter sets cannot see which one is used", "anchors": ["src/stun/optimizer.cpp: params", "src/stun/optimizer_job.cpp: params, reset"]}
{"id": "C43", "title": "A copied optimizer is independent of the original", "statement": "A copy of an Optimizer uses its own random generators, so using or destroying either one does not affect the other.", "quantifier": "every copy and every later use", "why_tests_cant": "lifetime and aliasing of internal pointers", "anchors": ["src/stun/optimizer.cpp: JobSlot, Optimizer", "src/stun/optimizer_job.cpp: OptimizerJob(const OptimizerJob&)"]}
{"id": "C44", "title": "Event protocol", "statement": "The event queue receives ScheduleOptimizationStart, then one progress event per round, then ScheduleOptimizationComplete with the final makespan, then (predict only) SimulationStart, then Finished, and nothing else.", "quantifier": "every run of predict() and schedule()", "why_tests_cant": "the number of rounds is unbounded", "anchors": ["src/predict.cpp: predict, schedule, optimize"]}
{"id": "C45", "title": "The event consumer handles every event once, in order, and stops", "statement": "For every interleaving of producer and consumer, consume_events passes the events to the handler in order, each exactly once, and returns after Finished.", "quantifier": "every interleaving of the two threads", "why_tests_cant": "thread schedules cannot be enumerated", "anchors": ["src/cli/events.h: consume_events", "src/cli/events.cpp: is_final_event"]}
{"id": "C46", "title": "A failing prediction is reported", "statement": "If the prediction thread fails with an exception, the consumer stops and the exception reaches the caller.", "quantifier": "every failure point", "why_tests_cant": "crash points cannot be enumerated by tests", "anchors": ["src/cli/events.h: consume_events", "src/predict.cpp: predict, schedule", "src/cli/cli.cpp: run_prediction"]}
{"id": "C47", "title": "The optimization log is open before it is written", "statement": "With progress logging on, no event handler call uses the log before it has been opened.", "quantifier": "every event sequence that predict()/schedule() can produce", "why_tests_cant": "depends on event order", "anchors": ["src/cli/events.cpp: EventHandler"]}
{"id": "C48", "title": "Each simulation run is a feasible execution with the sampled values", "statement": "A simulation run returns the truncated end time of an execution of the schedule that respects dependencies and agents, where sampled performances and durations are all positive.", "quantifier": "every project, schedule and random stream for which sampling ends", "why_tests_cant": "all random streams", "anchors": ["src/simulation.cpp: Simulation::operator(), random_agent_performances, random_task_durations"]}
{"id": "C49", "title": "Simulation runs do not influence each other", "statement": "The result of a run depends only on the project, the schedule and the random numbers drawn during this run; with min = max everywhere no randomness is used and every run gives the same result. A simulation can be copied and given another project at any time.", "quantifier": "every history of runs, copies and changes of the project", "why_tests_cant": "shared scratch buffer", "anchors": ["src/simulation.cpp: Simulation::operator(), assign_buffers"]}
{"id": "C50", "title": "Histogram counts are exact", "statement": "After any sequence of insertions, the bin that contains v counts exactly the inserted values in [low, high), bins are listed in ascending order without duplicates or empty ones, bins do not overlap, and the counts add up to the number of insertions, in whatever order they were made.", "quantifier": "every bin size and every sequence of insertions", "why_tests_cant": "unbounded histories", "anchors": ["src/histogram.cpp: Histogram::operator(), to_bin, operator[], size"]}
{"id": "C51", "title": "Percentiles are ordered and conservative", "statement": "stats() returns p25 <= p50 <= p75 <= p95 <= p99, each the middle of an existing bin, and at least the stated fraction of runs lies at or below the bin of each percentile.", "quantifier": "every non-empty histogram", "why_tests_cant": "all histograms", "anchors": ["src/simulation.cpp: stats"]}
{"id": "C52", "title": "Percentiles are exact", "statement": "Each percentile returned by stats() is the middle of the first bin at which the cumulative count reaches the stated fraction.", "quantifier": "every non-empty histogram", "why_tests_cant": "all histograms; scanning state is shared between percentiles", "anchors": ["src/simulation.cpp: stats"]}
{"id": "C53", "title": "Histogram resolution is chosen by project length", "statement": "Without an explicit bin size, bins are one minute below five hours, one hour below thirteen days and one day otherwise; an explicit bin size always wins.", "quantifier": "every makespan of at least a second", "why_tests_cant": "unbounded input with thresholds", "anchors": ["src/simulation.cpp: granularity, parse_granularity"]}
{"id": "C54", "title": "The simulation batch count", "statement": "The returned histogram contains a positive whole number of batches of 10000 runs.", "quantifier": "every project and random stream for which the simulation converges", "why_tests_cant": "the number of batches is unbounded", "anchors": ["src/simulation.cpp: HistogramOp"]}
{"id": "C55", "title": "Schedule JSON is a consistent timetable", "statement": "The JSON lists the schedule's tasks in order with the right task and agent names; each agent's priorities are 0,1,2,... in order; start times are those of a feasible execution at average speeds; no task's start plus duration exceeds the makespan.", "quantifier": "every project and every valid schedule that takes at least a second and less than 2^31 seconds (exact arithmetic); shorter ones violate a contract", "why_tests_cant": "all schedules", "anchors": ["src/cli/schedule.cpp: to_json, TaskDurations, task_duration, dependencies_done"]}
{"id": "C56", "title": "The JSON makespan is the end of the timetable", "statement": "The makespan in the JSON (computed by the optimizer from normalised durations) equals the whole part of the end time of the last task of the timetable (computed from seconds).", "quantifier": "every project and valid schedule (exact arithmetic)", "why_tests_cant": "two independent computations that must agree on all inputs", "anchors": ["src/cli/schedule.cpp: to_json", "src/predict.cpp: makespan", "src/stun/schedule_params.cpp: task_duration"]}
{"id": "C57", "title": "Histogram JSON is complete", "statement": "The histogram JSON lists exactly the non-empty bins with their lower bounds and counts in ascending order.", "quantifier": "every histogram whose values fit an int", "why_tests_cant": "all histograms", "anchors": ["src/cli/cli.cpp: to_json"]}
{"id": "C58", "title": "Exit status and messages of a failed load", "statement": "Unreadable files, YAML syntax errors and every validation error end the program with the failure status and a message on stderr; nothing is written to the output file.", "quantifier": "every configuration file", "why_tests_cant": "all error kinds", "anchors": ["src/cli/cli.cpp: parse_config", "src/main.cpp: main"]}
{"id": "C59", "title": "The cursor is never left hidden by an interrupt", "statement": "If SIGINT or SIGTERM arrives at any moment, the cursor is visible after the program has exited.", "quantifier": "every moment in every sequence of progress bar operations", "why_tests_cant": "crash points cannot be enumerated by tests", "anchors": ["src/cli/terminal.cpp: hide_cursor, show_cursor, at_exit, abort_handler"]}
{"id": "C60", "title": "Quiet mode prints nothing", "statement": "With --quiet, a successful run prints nothing to stdout.", "quantifier": "every project and run", "why_tests_cant": "all runs", "anchors": ["src/cli/utils.h: print, die", "src/cli/cli.cpp: run_prediction", "src/cli/schedule.cpp: json_schedule"]}
{"id": "C61", "title": "The progress curve is the weighted least-squares fit", "statement": "For all points with positive y and at least two different x, the fitted curve a*exp(b*x) minimises the y-weighted squared error of log y over all curves.", "quantifier": "every finite sequence of points (exact arithmetic)", "why_tests_cant": "minimality over all real parameter pairs", "anchors": ["src/stun/exp_curve_fitter.cpp: operator(), at"]}
{"id": "C62", "title": "The schedule command end to end", "statement": "For every document that loads into a schedulable project taking at least a second and less than 2^31 seconds, with valid options and output files that can be written, `angonoka schedule` exits with status 0 whatever the random numbers are, having written the output file exactly once; the file holds a consistent timetable of a valid schedule of the project, and its makespan is the end of that timetable.", "quantifier": "every document, option set, number of threads and sequence of random numbers (exact arithmetic)", "why_tests_cant": "quantifies over all random sequences and documents, and over termination of the optimization", "anchors": ["src/main.cpp: main", "src/cli/cli.cpp: parse_config", "src/cli/schedule.cpp: json_schedule, save_schedule_json", "src/predict.cpp: schedule"]}
{"id": "C63", "title": "Validation messages are true", "statement": "When a document is rejected, the message printed is true of the document: the place, agent, task, id, attribute or text that it names is in the document and has the defect the message describes.", "quantifier": "every document and every validation message, schema messages with their paths included", "why_tests_cant": "the message has to agree with the document for all documents", "anchors": ["src/exceptions.cpp", "src/config/validation.h", "src/config/load.cpp: validate_configuration, validate_task_list", "src/config/tasks.cpp", "src/config/agents.cpp"]}
{"id": "C64", "title": "The prediction end to end", "statement": "For every document that loads into a schedulable project taking at least a second and less than 2^31 seconds, with valid options and output files that can be written, `angonoka` finds a schedule whatever the random numbers are, and then either is still simulating, with no output file written, or has simulated a multiple of 10000 runs until the stopping rule was satisfied for the first time; then it exits with status 0, has printed the five percentiles (unless --quiet is given) and has written the output file exactly once, with the timetable of the schedule, its makespan, the exact histogram of these runs and its percentiles.", "quantifier": "every document, option set, number of threads, sequence of random numbers and stopping rule that does not fail (exact arithmetic)", "why_tests_cant": "quantifies over all random sequences and documents, and over termination of the optimization", "anchors": ["src/main.cpp: main", "src/cli/cli.cpp: run_prediction", "src/predict.cpp: predict", "src/simulation.cpp: histogram, stats"]}
{"id": "C65", "title": "When the simulation stops", "statement": "After each batch of 10000 runs the simulation stops if and only if the five quantiles have changed by at most one percent on average with the last 15 batches (or all, if fewer); so a histogram has at least 160000 runs unless the first quantiles are within 15 percent of one second; and deciding this never violates a contract.", "quantifier": "every sequence of results, every estimator of five quantiles (exact arithmetic)", "why_tests_cant": "concerns all sequences of random results", "anchors": ["src/simulation.cpp: mean_absolute_pct_error, HistogramOp::operator()"]}
{"id": "C66", "title": "Certain projects have certain predictions", "statement": "If all minimums of a project equal the maximums, the prediction terminates, whatever the random numbers are: the histogram has exactly one bin, which contains the makespan of the schedule, with 160000 runs (10000 if the makespan is one second), and all percentiles are the middle of that bin.", "quantifier": "every document without spread, option set, number of threads and sequence of random numbers; in exact arithmetic and in single precision", "why_tests_cant": "termination and equality for all projects and random sequences", "anchors": ["src/simulation.cpp: Simulation::operator(), HistogramOp::operator()", "src/predict.cpp: predict", "src/main.cpp: main"]}
{"id": "C67", "title": "Single precision is precise enough", "statement": "For a project without extreme numbers (durations below 2^62 s, performances between 2^-40 and 2^40) whose exact execution takes between two and 2^30 seconds, the starts, durations and makespan in the schedule JSON, computed in single precision from normalised durations, differ from the exact ones by at most 0.0061 percent (2^-14) plus one second; no task ends later than the makespan by more than twice that.", "quantifier": "every such project with up to 127 tasks and every valid schedule", "why_tests_cant": "rounding errors accumulate over all schedules; tests compare a few values", "anchors": ["src/stun/schedule_params.cpp: task_duration, agent_performance", "src/stun/utils.cpp: Makespan", "src/predict.cpp: makespan", "src/cli/schedule.cpp: TaskDurations"]}
{"id": "C68", "title": "The schedule command in single precision", "statement": "For every document that loads into a schedulable project as in C67, with valid options and output files that can be written, `angonoka schedule` in single precision exits with status 0 whatever the random numbers are, having written the output file exactly once, with the names and priorities of a valid schedule and times that are accurate as in C67.", "quantifier": "every document, option set, number of threads and sequence of random numbers", "why_tests_cant": "quantifies over all random sequences and documents, rounding, and termination of the optimization", "anchors": ["src/main.cpp: main", "src/cli/schedule.cpp: json_schedule, save_schedule_json", "src/predict.cpp: schedule"]}
{"id": "C69", "title": "The visualizer's timeline shows the schedule", "statement": "For the JSON of a valid schedule, the visualizer draws one row per agent that works, sorted by name; the row holds all the agent's tasks in the order of the schedule, each at its start and as wide as its duration relative to the makespan, side by side without overlap and within the timeline. The agent's panel shows its number of tasks, busy and idle times that are not negative and add up to the makespan, and a utilization from 0 to 100 percent.", "quantifier": "every valid schedule of every project with different agent names", "why_tests_cant": "relates two programs through all possible files; the visualizer's tests use two hand-written tasks that do not even fit their makespan", "anchors": ["tools/visualizer/src/components/App.tsx: agentNames, agentTasks, showAgentInfo", "tools/visualizer/src/components/AgentTimeline.tsx", "tools/visualizer/src/components/TaskStrip.tsx", "src/cli/schedule.cpp: to_json"]}
{"id": "C70", "title": "The visualizer's histogram and its labels", "statement": "For the JSON of a prediction, the visualizer draws a bar for every bin from the first to that of the 95th percentile, whose title is the percentage of simulation runs in it and whose height is proportional to them (above 1 percent); a bin without runs is transparent. A bar is labelled with a percentile if and only if the percentile lies in its bin.", "quantifier": "every histogram and its statistics", "why_tests_cant": "relates two programs through all possible files; the visualizer's tests use statistics that the program never writes (lower bounds of bins instead of their middles)", "anchors": ["tools/visualizer/src/components/Histogram.tsx: bins, bin, inlineStyle, title", "src/histogram.cpp: to_bin", "src/simulation.cpp: stats", "src/cli/cli.cpp: to_json"]}
{"id": "C71", "title": "Accepted options are usable", "statement": "If the command line is accepted, its options satisfy every requirement of the optimizer and of the commands, so that no option value makes the program abort; together with C62, `angonoka schedule` then writes a schedule.", "quantifier": "every command line, every text of an option", "why_tests_cant": "the validators and the conversions read the text independently; tests do not run the program's argument parser", "anchors": ["src/main.cpp: power_of_2_validator, optimization_options, schedule_subcommand, default_group", "src/cli/cli.cpp: parse_opt_params", "src/stun/temperature.cpp: Temperature"]}
{"id": "C72", "title": "Options mean what they say", "statement": "Numbers in decimal notation that are in range are accepted, and the optimizer gets exactly these numbers, in the right places, and the documented defaults for options that are not given. Whole numbers that are 0, negative, too large for an int or misspelt, floating-point numbers that are not positive or misspelt, restart periods that are not powers of two, missing input files, and bin sizes for `schedule` are rejected.", "quantifier": "every number and every combination of options", "why_tests_cant": "all numbers and combinations", "anchors": ["src/main.cpp: optimization_options, common_options, schedule_subcommand, default_group", "src/cli/cli.cpp: parse_opt_params", "src/project.h: OptimizationParameters"]}
{"id": "C73", "title": "Groups work as the README says", "statement": "An agent may work on a task if the task names the agent, or names none and either the agent has no groups or the agent has all groups of the task (so that a task without groups can be done by anybody), as the README describes.", "quantifier": "every document, agent and task", "why_tests_cant": "the rule quantifies over all sets of groups of agents and tasks; the tests check a few combinations against the code rather than against the documentation", "anchors": ["README.md: Agents, Groups", "src/project.cpp: can_work_on", "src/config/agents.cpp", "src/config/tasks.cpp"]}
{"id": "C74", "title": "From the document to the schedule file", "statement": "If the command line is accepted and names a document that describes a schedulable project, `angonoka schedule` writes a file in which every task of the document has exactly one entry, with the task's name, the name of an agent that may do it and the whole seconds this agent is expected to need; tasks come after those they depend on; an entry that must wait for another (because of a dependency, or because the same agent does both) does not start before the other ends; all entries end by the makespan and the makespan is not a second later than the last end.", "quantifier": "every document, command line, number of threads and sequence of random numbers; exact arithmetic", "why_tests_cant": "an end-to-end statement about all documents and all random sequences, in terms of the input file and the output file only", "anchors": ["src/main.cpp: main", "src/config/load.cpp", "src/stun/utils.cpp", "src/predict.cpp: schedule", "src/cli/schedule.cpp"]}
{"id": "C75", "title": "From the document to the schedule file in single precision", "statement": "As C74 for the program's single-precision arithmetic: entries, names, order and agents are exactly as in C74, durations are right up to rounding, entries that must wait do not overlap within the first 2^24 seconds, and the makespan is the last end up to rounding.", "quantifier": "every document without extreme numbers, every accepted command line, number of threads and sequence of random numbers", "why_tests_cant": "as C74, with rounding errors that accumulate over all schedules", "anchors": ["src/main.cpp: main", "src/config/load.cpp", "src/stun/utils.cpp: Makespan", "src/predict.cpp: schedule", "src/cli/schedule.cpp"]}
{"id": "C76", "title": "The prediction in single precision", "statement": "With the program's single-precision arithmetic, running it without a command on a document without extreme numbers writes the output file exactly once if the simulation ends: the histogram counts exactly the results of the runs, at least 25, 50, 75, 95 and 99 percent of the runs lie at or below the bins of the percentiles, and starts, durations and makespan are those of the fastest exact execution up to rounding. Every run gives the end of an exact execution of its sampled durations and performances, up to rounding.", "quantifier": "every document without extreme numbers, valid options, sequence of random numbers, number of runs up to 2^24", "why_tests_cant": "rounding errors accumulate over all schedules and samples; tests compare a few runs with recorded values", "anchors": ["src/simulation.cpp", "src/histogram.cpp", "src/predict.cpp: predict", "src/cli/cli.cpp: run_prediction"]}
{"id": "C77", "title": "The prediction ends", "statement": "Every sample uses up at most one nonnegative random number, since a nonnegative one is never rejected. So the program without a command ends, with exit status 0 and the output file written, as soon as the stopping rule is satisfied after some number of batches and the generator has yielded a nonnegative number for every agent and task of every run. The stopping rule is satisfied if none of the last 15 batches changed the quantiles by more than one percent.", "quantifier": "every sound project, valid options, sequence of random numbers, number of batches", "why_tests_cant": "redrawing is an unbounded loop, as is running batches; a test that ends says nothing about other random numbers", "anchors": ["src/stun/random_utils.h", "src/simulation.cpp: normal sampling, HistogramOp", "src/predict.cpp: predict"]}
{"id": "C78", "title": "From the configuration file to the prediction file", "statement": "If the command line without a command is accepted, the document loads and describes a schedulable project, the generator yields enough nonnegative numbers and the stopping rule is satisfied at some point, the program ends with exit status 0 and writes the output file once. The file has a timetable of the document as in C74, and the histogram and percentiles of random runs of this timetable: in a run every agent has a performance drawn from the normal distribution around the middle of its documented bounds with a quarter of their distance as standard deviation (redrawn until positive), every task a duration drawn in the same way, and the result is the whole part of the earliest possible end of the last entry.", "quantifier": "every document, command line, sequence of random numbers and number of batches", "why_tests_cant": "each step between the file and the histogram can be tested on samples; that the whole is a simulation of what the document says, for all documents, cannot", "anchors": ["src/main.cpp", "src/config/load.cpp", "src/predict.cpp: predict", "src/simulation.cpp", "src/cli/schedule.cpp: json_schedule"]}
{"id": "C79", "title": "Durations fit the type that holds them", "statement": "Neither adding up the components of a duration text nor averaging the minimum and maximum of a task's duration overflows the 64-bit count of seconds, whatever the document says.", "quantifier": "every duration text, document and task", "why_tests_cant": "the texts that come near the limit are long; no finite set of texts shows that a bound holds for all of a given length", "anchors": ["src/config/parse_duration.rl.cpp", "src/project.cpp: Task::Duration::average", "src/config/tasks.cpp"]}
{"id": "C80", "title": "The page shows what the program has written", "statement": "The visualizer's page reads the files that `angonoka schedule` and the prediction write and shows the timetable of the document: a row for each agent with work, with one strip for each of the agent's tasks, from left to right without overlap, at the place and with the width that start and duration have in the makespan, nothing sticking out. For the prediction it shows the results of the simulations as a histogram.", "quantifier": "every document, accepted command line and sequence of random numbers; exact arithmetic", "why_tests_cant": "an end-to-end statement from the configuration file across two programs in two languages; the tests of the visualizer use fixed projects", "anchors": ["tools/visualizer/src/components/App.tsx", "tools/visualizer/src/components/AgentTimeline.tsx", "tools/visualizer/src/components/Histogram.tsx", "tools/visualizer/src/types.ts", "src/cli/schedule.cpp: json_schedule"]}
{"id": "C81", "title": "The page shows the project that was opened last", "statement": "Whatever the user does on the visualizer's page: the project that is shown is the one the page started with or one the user pasted or uploaded; a project that is pasted or uploaded is shown until another one is; text that is not JSON leaves the project as it is, and the dialog says so, whether pasted or uploaded, and says so only then.", "quantifier": "every sequence of events on the page, every text", "why_tests_cant": "sequences of events are unbounded, and reading a file ends at an arbitrary time between other events", "anchors": ["tools/visualizer/src/components/OpenDialog.tsx", "tools/visualizer/src/components/ProjectPaste.tsx", "tools/visualizer/src/components/ProjectUpload.tsx", "tools/visualizer/src/components/App.tsx"]}
{"id": "C82", "title": "The information panel tells the truth", "statement": "A click on an agent's name or on a strip opens the panel of this agent or task, and a panel that is shown is about an agent or a task of the project that is shown: an agent's number of tasks, busy and idle time and utilization, a task's duration and priority. A panel that has been closed stays closed until the next such click.", "quantifier": "every project and every sequence of events on the page", "why_tests_cant": "the panel is state that outlives other events; only some orders of events show that it can be out of date", "anchors": ["tools/visualizer/src/components/App.tsx", "tools/visualizer/src/components/InfoPanel.tsx"]}
{"id": "C83", "title": "The estimates that decide when to stop", "statement": "However many results there are and whatever they are, the five estimates of quantiles that the stopping rule looks at are in ascending order and between the least and the greatest result, and exactly the common result if all are equal; they belong to markers that aim at the positions of the 25, 50, 75, 95 and 99 percent quantiles between the least result at position 1 and the greatest at position n. So if every run takes at least a second, the rule never divides by zero, and the prediction ends as in C77 and C78 as soon as the estimates have changed by at most one percent on average during the last 15 batches.", "quantifier": "every sequence of at least 13 results, in exact arithmetic and in single precision; every document and command line as in C78", "why_tests_cant": "the estimator is a state machine with 13 markers whose formulas extrapolate; that no sequence of results drives an estimate out of order or out of range needs an invariant over all sequences and all roundings", "anchors": ["src/simulation.cpp: HistogramOp", "src/predict.cpp: predict"]}
{"id": "C84", "title": "The optimization log", "statement": "If the program, with or without a command, is run with --log-optimization-progress and ends successfully, it has written one log. Its progress column has numbers from 0 to 1 and ends with 1; the epoch starts at 0 or 1, never decreases and goes up by one at a time; the makespan never increases and changes only together with the epoch; and the makespan in the last line is the one in the output file. Without that option there is no log, however the program ends.", "quantifier": "every sound project, valid options, sequence of random numbers, number of threads; any rounding", "why_tests_cant": "the number of lines depends on when the random search converges and is unbounded; the log is written by one thread from events of another, and compared here with a file that is written after both", "anchors": ["src/cli/events.cpp", "src/predict.cpp: optimize", "src/stun/optimizer.cpp", "src/cli/cli.cpp: run_prediction", "src/cli/schedule.cpp: json_schedule"]}
{"id": "C85", "title": "The tuner of the optimizer's parameters", "statement": "Whatever parameters tools/hyperparameters/hyperparameters.py tries, the program accepts the command line with exactly these numbers (rounded to float) and the optimizer can work with them. With the tasks.yml beside the script the program then exits successfully, which the script asserts, whatever the random numbers are; the makespan that the script takes from the log is the one in the output file. A run with a shorter makespan in less time never gets a higher value.", "quantifier": "every trial that the script can suggest, every sequence of random numbers, any number of threads; the last sentence for every monotone rounding", "why_tests_cant": "the search space is large and each trial is a random search of unbounded length; the script relies on a program in another language through texts of numbers, an exit code and the last line of a log", "anchors": ["tools/hyperparameters/hyperparameters.py", "tools/hyperparameters/tasks.yml", "src/main.cpp: main", "src/cli/events.cpp", "src/cli/cli.cpp: run_prediction"]}
{"id": "C86", "title": "A file that cannot be opened ends the program with a message", "statement": "If one of the files that a run needs cannot be opened - the input for reading, the output for writing or, if it was asked for, the optimization log for writing - the program says so on the standard error stream and exits with the failure status; it has not written an output file. A log that is not going to be written does not matter.", "quantifier": "every document, command, options, random numbers, number of threads and rounding", "why_tests_cant": "the failure happens in the middle of a run whose length depends on random numbers, and a test would have to take away permissions at that moment", "anchors": ["src/cli/events.cpp", "src/cli/cli.cpp: save_prediction_json", "src/cli/schedule.cpp: save_schedule_json", "src/cli/cli.cpp: parse_config", "src/main.cpp: main"]}
{"id": "C87", "title": "Success means that the result has been written", "statement": "The program exits with the success status if and only if it has written the output file, once, completely and under the name that was asked for; otherwise it leaves no output file.", "quantifier": "every document, command, options, random numbers, number of threads and rounding", "why_tests_cant": "scripts rely on the exit status in all runs, also in those that fail for reasons that a test does not produce, such as a full disk", "anchors": ["src/cli/cli.cpp: save_prediction_json", "src/cli/schedule.cpp: save_schedule_json", "src/main.cpp: main"]}
{"id": "C88", "title": "The progress display", "statement": "Without colour, progress is shown as text: whenever updates come, lines are at least a second apart, of every update something is shown that is less than a second old, and every line shows the progress of an update at that moment to the nearest hundredth of a percent, from 0.00% to 100.00%. With colour there is a bar that leaves nine columns of the terminal (of 50 columns if the width is not known), on every terminal.", "quantifier": "every sequence of updates and of clock readings; every width of the terminal", "why_tests_cant": "updates come from another thread at arbitrary times, unboundedly many; tests run without a terminal", "anchors": ["src/cli/progress.cpp", "src/cli/progress.h", "src/cli/cli.cpp: run_prediction", "src/cli/schedule.cpp: json_schedule"]}
{"id": "C89", "title": "Mutation favours no schedule", "statement": "The random step of the optimizer is as likely to lead from one valid schedule to another as back. So if every valid schedule is equally likely before a step, every valid schedule is equally likely after it: no order of the tasks and no choice of agents is preferred unless it makes the project shorter.", "quantifier": "every sound project, every pair of valid schedules; the random numbers are drawn with equal chances", "why_tests_cant": "chances are no observation of a single run, the number of schedules grows faster than exponentially with the tasks, and a bias between rare schedules would not show in any feasible sample", "anchors": ["src/stun/utils.cpp: Mutator", "src/stun/random_utils.cpp: uniform_int"]}
{"id": "C90", "title": "The output file is JSON", "statement": "Whatever the names of tasks and agents are, the text that the program writes to the output file is JSON (RFC 8259) and stands for exactly the numbers and names that were computed. Every reader of JSON gets them back, and the text can be pasted into the visualizer's page, which then shows the timetable.", "quantifier": "every value that can be written, with strings of any characters and arrays and objects of any size and depth; every conforming reader", "why_tests_cant": "names are arbitrary strings, in which quotation marks, backslashes, line breaks and control characters have to be written differently; nesting and sizes are unbounded", "anchors": ["src/cli/schedule.cpp: save_schedule_json", "src/cli/cli.cpp: save_prediction_json", "tools/visualizer/src/components/ProjectPaste.tsx"]}
{"id": "C91", "title": "A best schedule can be found", "statement": "No timetable is out of the optimizer's reach. From its first schedule a best one is at most n(n+3)/2 random steps away for n tasks, so if it may try as often without an improvement (it may with the default options, for every project that loads), there are random numbers with which the program writes the timetable of a best plan: no way to assign agents and times to the tasks that respects the document ends earlier.", "quantifier": "every document that can be scheduled, all options with a large enough limit, every number of threads; compared with all plans, whatever their times are", "why_tests_cant": "the number of plans is infinite and the best one is not known; a test sees what one run found and not what the search could find", "anchors": ["src/stun/utils.cpp: Mutator", "src/stun/stochastic_tunneling.cpp: StochasticTunneling::update", "src/stun/optimizer.cpp: Optimizer", "src/stun/optimizer_job.cpp: OptimizerJob", "src/predict.cpp: schedule"]}
{"id": "C92", "title": "No plan is left out", "statement": "A schedule is only an order of the tasks with an agent for each, but nothing is lost by that: every plan (agents and starting times for all tasks, such that everybody may do what they do, nobody does two tasks at once and tasks wait for their dependencies) is an execution of some valid schedule, and every execution of a valid schedule is a plan. So no plan ends before the makespan of the best schedule.", "quantifier": "every project whose parameters are well formed, every plan with arbitrary starting times and pauses", "why_tests_cant": "plans have arbitrary times, so there are infinitely many, and the schedule has to be found for each", "anchors": ["src/stun/utils.cpp: Makespan", "src/stun/schedule_params.h: ScheduleParams", "src/stun/schedule.h: ScheduleItem"]}
{"id": "C93", "title": "The threads do not disturb each other", "statement": "The optimizer updates its jobs in parallel. The jobs refer to their parts and to random generators by pointers that are copied and set anew after each round, but a step of one job never reads or writes anything of another job, so there is no data race; every step of every job can be made without violating a contract, every round ends, and what the optimizer finds, and after how many rounds it stops, depends on the seeds of the generators only and not on the order in which the threads run.", "quantifier": "every schedulable project, all valid options, any number of jobs, every random generator and seeds, any number of rounds, every interleaving of the threads' steps", "why_tests_cant": "which interleavings happen in a test depends on the machine, and there are more of them than can be tried; a pointer to another job's generator does no visible harm in most runs", "anchors": ["src/stun/optimizer.cpp: Optimizer::update, Impl::replicate_best_job", "src/stun/optimizer_job.cpp: OptimizerJob copy, assignment, params", "src/stun/stochastic_tunneling.cpp: StochasticTunneling::update"]}
{"id": "C94", "title": "The rolling mean is the mean of the window", "statement": "The temperature follows the average of the last stun_window STUN values, and the simulation stops by the average of its last 15 errors: what was given before the window has no influence. So the prediction of a project without spread ends after 16 batches.", "quantifier": "every sequence of samples, every window; exact arithmetic and single precision", "why_tests_cant": "the error of the incremental formula depends on all earlier samples; most makespans leave a residue that is too small to see", "anchors": ["src/stun/temperature.cpp: Temperature::update, average_stun", "src/stun/temperature.h: acc", "src/simulation.cpp: HistogramOp, rolling_error"]}
{"id": "C95", "title": "The makespan can be checked by hand", "statement": "The makespan that the program writes is never less than the critical path (the times of tasks that depend on each other, each done by the fastest agent that may do it), never less than all the work divided by the performance of all agents, and never more than the times of all tasks, each done by the slowest agent that may do it.", "quantifier": "every document that can be scheduled, every chain of dependencies, all options that are accepted, all random numbers", "why_tests_cant": "the bounds hold for whatever schedule a random search has found; tests see a few of them", "anchors": ["src/predict.cpp: schedule", "src/stun/utils.cpp: Makespan", "src/stun/schedule_params.h: ScheduleParams", "src/config/load.cpp: load_file"]}
{"id": "C96", "title": "More help never hurts", "statement": "If the document is changed so that there is less to do or more to do it with (agents are added or get faster, tasks get shorter or are dropped, dependencies are removed), then whatever makespan the program has written before, it can now find a timetable with a makespan no greater. List scheduling is known for anomalies where this fails.", "quantifier": "every pair of such documents, whatever the numbers of agents and tasks are before and after, all options with a large enough limit of idle iterations", "why_tests_cant": "compares best timetables of infinitely many pairs of documents", "anchors": ["src/predict.cpp: schedule", "src/stun/optimizer.cpp: Optimizer", "src/stun/utils.cpp: Makespan, Mutator", "src/project.cpp: can_work_on"]}
{"id": "C97", "title": "A best schedule is found by chance", "statement": "Provided the limit of idle iterations is at least n(n+3)/2 for n tasks (8255 is enough for every project that can be loaded, the default is 100000), the probability that the optimizer, and with it the command schedule, ends with a best schedule is positive: no part of the search space is cut off from the random search, and no exactly matched random number is needed for accepting a worse schedule on the way.", "quantifier": "every loaded project, all options with a large enough limit, every number of threads, every distribution of the random numbers in which they are independent between iterations and all of them are possible", "why_tests_cant": "a statement about a probability; a test sees a few outcomes and cannot tell a small probability from zero", "anchors": ["src/stun/optimizer.cpp: Optimizer", "src/stun/stochastic_tunneling.cpp: StochasticTunneling::update, Impl::perform_stun", "src/stun/utils.cpp: Mutator", "src/predict.cpp: schedule"]}
{"id": "C98", "title": "A nearly best timetable in single precision", "statement": "With the single-precision arithmetic the program really uses, the search can still reach the best: with positive probability the command schedule writes a timetable whose makespan is greater than the end of no plan of the document by more than 0.0061 % and a second. Whatever it writes, the makespan is close to the end of some plan of the document. More help (C96) hurts at most by rounding.", "quantifier": "every document without extreme numbers that takes from 2 to 2^30 seconds, all options with a large enough limit of idle iterations, every number of threads, every distribution of independent random numbers as in C97", "why_tests_cant": "compares the written makespan with infinitely many plans under every rounding of intermediate results, and speaks of a probability", "anchors": ["src/predict.cpp: schedule, makespan", "src/stun/optimizer.cpp: Optimizer", "src/stun/schedule_params.cpp: task_duration", "src/stun/utils.cpp: Makespan, Mutator"]}
{"id": "C99", "title": "The makespan is optimistic", "statement": "The makespan assumes that every task takes its mean duration. If the agents' performances are certain, every simulated run reaches or exceeds this makespan with a probability of at least one half: the planned makespan is never above the median of the estimation. In general, a run takes with a probability of at least one half at least as long as the schedule would with the performances sampled in this run and mean durations.", "quantifier": "every project that can be scheduled, every valid schedule (hence every one that is written), every run, however many came before it with the same generator; independent random numbers with any symmetric distribution, normal or not", "why_tests_cant": "a statement about a probability over infinitely many random numbers, for all projects; a test sees the frequency in a few runs of a few projects", "anchors": ["src/simulation.cpp: Simulation::operator(), random_agent_performances, random_task_durations", "src/stun/random_utils.cpp: RandomUtils::normal", "src/stun/schedule_params.cpp: task_duration", "src/predict.cpp: makespan"]}
{"id": "C100", "title": "Runs of the simulation are independent and end", "statement": "If the random numbers are independent, have the same law and are not all negative, then the results of successive runs of the simulation are independent and have the same law: the numbers that one run rejects, and how many it uses, do not influence the next one. With probability one every run ends in spite of the unbounded loop that redraws negative values, and the share of the first n runs that take at most x seconds converges to the probability that a run takes at most x seconds, for every x: the histogram converges to the true distribution.", "quantifier": "every sound project, every valid schedule, every arithmetic (rounded or not), every law of the random numbers, any number of runs", "why_tests_cant": "independence, probability one and limits are not observable in finitely many runs", "anchors": ["src/simulation.cpp: Simulation::operator(), random_agent_performances, random_task_durations, HistogramOp", "src/stun/random_utils.h: RandomUtils::normal"]}
{"id": "C101", "title": "In the long run at least half of the runs are late", "statement": "If the agents' performances are certain, then with probability one the share of the simulated runs that take at least as long as the makespan in the file written by the command schedule converges to a number that is one half or greater.", "quantifier": "every document that can be scheduled, all options that are accepted, all random numbers of the optimizer; independent random numbers with the same symmetric law (such as normal ones) in the simulation", "why_tests_cant": "a limit over infinitely many runs, for whatever schedule a random search has found", "anchors": ["src/predict.cpp: schedule", "src/simulation.cpp: Simulation::operator(), random_agent_performances, random_task_durations", "src/stun/schedule_params.cpp: task_duration"]}
{"id": "C102", "title": "Percentiles converge", "statement": "With probability one, when the histogram has sufficiently many runs, no percentile is below the bin that contains the true quantile of the running time, the 25th percentile is the middle of the bin that contains the true quantile, and so are all five if these are five different bins.", "quantifier": "every sound project, every valid schedule, every bin size, every law of the random numbers as in C100; true quantiles that are not at the border of a bin", "why_tests_cant": "a limit over infinitely many runs", "anchors": ["src/simulation.cpp: stats, HistogramOp, Simulation::operator()", "src/histogram.cpp: Histogram"]}
{"id": "C103", "title": "Patience never hurts", "statement": "When the limit of idle iterations is raised and everything else, including the random numbers, stays the same, the optimization goes on at least as long, the makespans and epochs it reports begin with those of the run with the lower limit, and the makespan that is returned and written is no greater. The same is not promised of the number of threads: a second thread can make the result worse.", "quantifier": "every project, every optimizer option, every number of threads, every sequence of random numbers, every pair of limits for which both runs end", "why_tests_cant": "it relates two runs of different lengths for all random sequences; a test sees one pair", "anchors": ["src/predict.cpp: optimize", "src/stun/optimizer.cpp: update, has_converged", "src/stun/optimizer_job.cpp: update"]}
{"id": "C104", "title": "Patience finds the best", "statement": "With probability one there is a limit of idle iterations from which on, given the same random numbers, the optimizer ends with a best schedule, whatever the batch size and the number of threads. For n tasks, n(n+3)/2+1 iterations are an attempt (a batch has room for at least one with the default of 10000 iterations for every project that can be loaded); the probability that the optimizer, and with it the command schedule, misses the best decreases exponentially with the number of attempts in a batch times the number of threads times the number of batches the limit has room for. This is so although the temperature may fall without bound, because the generator can return zero.", "quantifier": "every loaded project, all valid options, every number of threads, every generator with countably many outputs that are independent and that give each combination of small integers and a zero with at least some fixed probability", "why_tests_cant": "a statement about the limit of probabilities over infinitely many searches of unbounded length", "anchors": ["src/stun/optimizer.cpp: update, has_converged, replicate_best_job", "src/stun/stochastic_tunneling.cpp: StochasticTunneling::update, Impl::perform_stun", "src/stun/utils.cpp: Mutator", "src/stun/random_utils.cpp: uniform_01, uniform_int", "src/predict.cpp: schedule"]}
{"id": "C105", "title": "The prediction that is returned estimates the true distribution", "statement": "With probability one histogram() returns as soon as the stopping rule is satisfied, and what it returns is the histogram of the first runs, all different, whose frequencies converge to the true distribution of the running time. If the rule is patient enough, the share of each bin is the true probability up to any tolerance, no percentile is below the bin of the true quantile, the 25th percentile is the middle of this bin, and so are all five if these are five different bins.", "quantifier": "every sound project, every valid schedule, every bin size, every makespan, every stopping rule that does not fail, every law of the random numbers as in C100", "why_tests_cant": "a limit over infinitely many runs; a simulation that used the same random numbers again for later runs would pass all tests with one run", "anchors": ["src/simulation.cpp: histogram, HistogramOp, stats, Simulation::operator()", "src/histogram.cpp: Histogram"]}
{"id": "C106", "title": "Predictions stay within the bounds in the document", "statement": "Every simulated run takes at least as long as in the best case (all tasks take their min duration, all agents have their max performance) and at most as long as in the worst case. So a prediction for a project whose worst case is less than 2^31 seconds always ends with an output file.", "quantifier": "every sound project, every valid schedule, every number of runs, all normally distributed random numbers", "why_tests_cant": "runs far outside of the bounds are rare; a test with some thousand runs of a small project will hardly see one", "anchors": ["src/stun/random_utils.cpp: RandomUtils::normal", "src/simulation.cpp: random_agent_performances, random_task_durations", "src/cli/cli.cpp: to_json(Histogram)", "README.md: performance, duration"]}
{"id": "C107", "title": "Without OpenMP the program is the program with one thread", "statement": "A build with the option openmp disabled behaves exactly like a build with OpenMP that runs one thread: given the same random numbers every update leads to the same optimizer, the same events are reported, and the program prints the same text, writes the same files and ends with the same exit code. So everything promised for any number of threads is promised for this build.", "quantifier": "every state an optimizer with one job can reach, every number of rounds, every document, both commands, all valid options, all random numbers", "why_tests_cant": "it compares two builds of the program for all inputs; the test suite is built one way at a time", "anchors": ["src/stun/optimizer.cpp: Optimizer::Optimizer, Optimizer::update, replicate_best_job (ANGONOKA_OPENMP)", "src/predict.cpp: optimize, schedule, predict", "src/main.cpp: main", "meson_options.txt: openmp"]}
{"id": "C108", "title": "Names can be any text", "statement": "The README says that a task's name can be any text. Whatever bytes the names of tasks and agents consist of, a document that loads and can be scheduled gets its schedule written to the output file, and the bytes of the file stand for the same names.", "quantifier": "every sequence of bytes as a name, every document, all random numbers", "why_tests_cant": "tests use ASCII names; whether a text can be written depends on every byte of it, and the failure comes after the whole optimization", "anchors": ["src/cli/schedule.cpp: to_json, save_schedule_json", "src/cli/cli.cpp: save_prediction_json", "src/main.cpp: main", "README.md: name"]}
{"id": "C109", "title": "The order of the document does not matter", "statement": "Two documents that differ only in the order in which things are listed (agents, tasks, subtasks, their properties, groups, dependencies) mean the same: one loads if and only if the other does, they have the same defects and the same plans, and the best makespan that `angonoka schedule` can write is the same for both, although agents, groups and tasks are numbered in the order of the document and everything is done with these numbers.", "quantifier": "every pair of documents that can be turned into each other by exchanging neighbours, at any depth, any number of times", "why_tests_cant": "there are as many orders of a document as permutations; the tests have each document in one order", "anchors": ["src/config/load.cpp: load, find_or_insert_group", "src/config/agents.cpp: parse_agents", "src/config/tasks.cpp: parse_tasks, parse_subtasks, parse_dependencies_2nd_phase", "src/stun/schedule_params.cpp: to_schedule_params", "src/cli/schedule.cpp: schedule"]}
{"id": "C110", "title": "Names do not matter", "statement": "Other names change nothing but names: if agents, groups and ids get other names (different ones stay different) and tasks any other names, then the document loads or fails as before, and both commands end in the same way and write the same output file, number for number, with the other names in it. For example nothing is sorted or chosen by name.", "quantifier": "every document, every renaming, both commands, all options, all random numbers, any arithmetic including single precision", "why_tests_cant": "a test compares two runs with two sets of names; the claim is about all names and all runs", "anchors": ["src/config/agents.cpp: parse_agents", "src/config/tasks.cpp: parse_tasks", "src/config/load.cpp: find_or_insert_group", "src/stun/schedule_params.cpp: to_schedule_params", "src/cli/schedule.cpp: to_json", "src/simulation.cpp: Simulation", "src/predict.cpp: predict, schedule"]}
{"id": "C111", "title": "The unit of time does not matter", "statement": "If every task takes k times as long, the plan stays the same: with the same random numbers `angonoka schedule` writes the same tasks in the same order for the same agents, and all times in the file are k times as long up to rounding down to whole seconds; simulated runs take k times as long. Mean durations have to be whole seconds, since the program rounds them down.", "quantifier": "every project, every factor k, all options, all random numbers, any number of simulated runs", "why_tests_cant": "a test compares two runs of an optimization of some project; a constant in seconds hidden in the optimizer would show only for some durations", "anchors": ["src/stun/schedule_params.cpp: task_duration, to_schedule_params", "src/stun/optimizer.cpp: Optimizer::update", "src/predict.cpp: makespan, optimize", "src/cli/schedule.cpp: TaskDurations, to_json", "src/simulation.cpp: Simulation::operator(), random_task_durations"]}
{"id": "C112", "title": "Short and long forms mean the same", "statement": "The README gives several ways to write the same thing: one duration or min and max, one performance or min and max, `group` or a list `groups` with one element, one dependency or a list with one element, durations in any units, attributes in any order, attributes with the default value left out or written. Whichever way is chosen, the program does exactly the same: the same messages, the same output file, the same way to end.", "quantifier": "every two documents that say the same about every agent and every task, at any depth; both commands, all options, all random numbers, any arithmetic including single precision", "why_tests_cant": "every combination of notations at every place is a different document; tests check each form once and do not compare", "anchors": ["src/config/tasks.cpp: parse_duration, parse_groups_and_agents, parse_dependencies, parse_task", "src/config/agents.cpp: parse_agent_performance, parse_agent", "src/config/load.cpp: validate_configuration, parse_yaml", "README.md: Agent, Task"]}
{"id": "C113", "title": "Documented defaults can be written out", "statement": "Writing out the default value that the README documents for an attribute (performance 1.0, groups [], subtasks [], id \"\", group \"\", depends_on \"\") is the same as leaving the attribute out.", "quantifier": "every document, every agent and task in it", "why_tests_cant": "tests leave attributes out; the claim is about documents in which they are written", "anchors": ["README.md: Agent, Task", "src/config/tasks.cpp: parse_task_group, parse_task_id, validate_task_id, parse_task", "src/config/agents.cpp: parse_agent"]}
{"id": "C114", "title": "More pessimistic estimates never shorten a simulated run", "statement": "If tasks are estimated to take at least as long and agents to work at most as fast (estimates that were certain stay certain, the others uncertain), then with the same schedule and the same random numbers every simulated run takes at least as long as before.", "quantifier": "every pair of such projects, every valid schedule, any number of runs, all random numbers", "why_tests_cant": "a test sees random results and could not tell a wrong direction from chance; the claim compares runs for all projects and all random numbers", "anchors": ["src/stun/random_utils.cpp: RandomUtils::normal", "src/simulation.cpp: Simulation::operator(), random_agent_performances, random_task_durations", "README.md: performance, duration"]}
{"id": "C115", "title": "Only relative performance matters", "statement": "If all agents are k times as fast, the plans are the same and everything takes the k-th part of the time: a plan is a plan for the one document if and only if it is one for the other with all times divided by k, the least makespan that `angonoka schedule` can write is the k-th part rounded down, and every simulated run with the same schedule and random numbers takes the k-th part of the time rounded down.", "quantifier": "every project, every factor, every plan, all options, any number of simulated runs, all random numbers", "why_tests_cant": "the best makespan is a minimum over all schedules and random numbers; a test can compare single runs only", "anchors": ["src/stun/schedule_params.cpp: agent_performance, task_duration, to_schedule_params", "src/stun/utils.cpp: Makespan::operator()", "src/cli/schedule.cpp: to_json", "src/simulation.cpp: Simulation::operator(), random_agent_performances", "README.md: performance"]}
{"id": "C116", "title": "Dependencies that follow from others need not be written", "statement": "Whether a dependency that follows from other dependencies or from subtasks is also written makes no difference to what is planned: the same schedules are valid, each has the same makespan, from the same schedule the optimizer makes the same steps with the same random numbers, simulated runs of a schedule take the same time, the plans of the document are the same, and so is the least makespan that `angonoka schedule` can write.", "quantifier": "every two projects or documents in which every task depends, directly or indirectly, on the same tasks; every schedule, all random numbers, any number of steps and of simulated runs", "why_tests_cant": "the code looks only at direct dependencies, and the optimizer swaps tasks if there is no direct dependency between them; that this is enough holds for an invariant of all reachable schedules, not for single cases", "anchors": ["src/stun/utils.cpp: Mutator::Impl::is_swappable, Mutator::Impl::try_swap, Makespan::Impl::dependencies_done", "src/simulation.cpp: Simulation::operator()", "src/stun/schedule_params.cpp: dependencies", "src/config/tasks.cpp: parse_dependencies, parse_subtasks"]}
{"id": "C117", "title": "Independent teams can be planned together or apart", "statement": "If a project consists of two parts with different agents and no dependencies between them, then plans of the parts put together are plans of the project, and the least makespan that `angonoka schedule` can write for the project is the greater of the two for the parts.", "quantifier": "every document, every way to divide it into two such parts, in any order of the tasks and agents, all options", "why_tests_cant": "the best makespan is a minimum over all schedules; a test can compare single runs of single projects only", "anchors": ["src/stun/schedule_params.cpp: available_agents, dependencies, to_schedule_params", "src/stun/utils.cpp: Makespan::operator(), Mutator::operator()", "src/cli/schedule.cpp: schedule"]}
{"id": "C118", "title": "One agent, or enough of them", "statement": "For a single agent the makespan that `angonoka schedule` writes is the sum of all durations divided by the agent's performance, whatever the random numbers are. If every task has an agent of its own and nobody is faster, the least makespan that can be written is the length of the critical path, a longest chain of tasks that depend on each other.", "quantifier": "every document with one agent, every document with enough agents, all options, all random numbers", "why_tests_cant": "these are two of the few cases in which the best makespan is known in advance, but for any number of tasks and any dependencies", "anchors": ["src/stun/utils.cpp: Makespan::operator(), dependencies_done", "src/stun/optimizer.cpp: Optimizer", "src/cli/schedule.cpp: schedule, to_json"]}
{"id": "C119", "title": "Only agents, tasks, dependencies, and who may do what matter", "statement": "If two configuration files that load agree about the agents' names and performances, the tasks' names and durations in the order they are written, which task directly depends on which, and who may do what, the program does exactly the same with both: it prints the same, writes the same output file, and ends in the same way. So it does not matter whether a dependency is a subtask or an id in `depends_on`, what the ids are, or whether a task is for somebody because of groups, because it names them, or because they are the only ones without groups.", "quantifier": "all pairs of documents that load, both commands, all options, all random numbers, any arithmetic", "why_tests_cant": "a test compares a few pairs of files, but that nothing else of the document has any effect is a statement about all pairs and all random numbers", "anchors": ["src/config/tasks.cpp: parse_task, parse_subtasks, parse_dependencies_2nd_phase, parse_groups_and_agents", "src/project.cpp: can_work_on", "src/stun/schedule_params.cpp: to_schedule_params, available_agents", "src/simulation.cpp: Simulation", "src/cli/schedule.cpp: to_json", "src/cli/cli.cpp: run_prediction"]}
{"id": "C120", "title": "The prediction contains the schedule", "statement": "If the program run without a command succeeds, the command `schedule` with the same configuration, options and random numbers succeeds as well. Both print the same up to the end of the search for the schedule, and the prediction's output file has the very same `makespan` and `tasks` as the schedule's, with `stats` and `histogram` added. What happens in the simulation, the size of the bins and the name of the output file have no influence on the schedule.", "quantifier": "all documents, options, outcomes of the search, random numbers for search and simulation; any arithmetic, single precision in particular", "why_tests_cant": "a test compares two runs; that nothing of the simulation reaches the schedule is about all documents and random numbers", "anchors": ["src/predict.cpp: predict, schedule", "src/cli/cli.cpp: run_prediction", "src/cli/schedule.cpp: json_schedule, to_json", "src/cli/events.cpp: consume_events"]}
{"id": "C121", "title": "What is displayed does not change the result", "statement": "`--quiet`, `--verbose`, colours and the optimization log change what is displayed, never the result: two successful runs that differ only in these write the same output file. And a successful run stays successful with any other choice of them, if the log can be opened when it is asked for and the progress bar fits the terminal.", "quantifier": "all documents, both commands, all options, all random numbers; any arithmetic", "why_tests_cant": "a test compares a few combinations of options for one document; that nothing of the display reaches the result, and that displaying cannot fail, is about all runs", "anchors": ["src/cli/cli.cpp: run_prediction, parse_config", "src/cli/schedule.cpp: json_schedule", "src/cli/events.cpp: EventHandler", "src/cli/utils.h: print"]}
{"id": "C122", "title": "The bin size is only a resolution", "statement": "Two successful predictions that differ only in `--bin-size` (or in whether it is given) are about the same simulated runs: there is one list of values that both histograms describe exactly, each with its own bins. Schedule and makespan are the same. If one size is a multiple of the other, the count of each wide bin is the sum of the counts of the narrow bins inside it.", "quantifier": "all documents, options, bin sizes, random numbers and stopping rules; any arithmetic", "why_tests_cant": "a test compares two histograms of one project with mocked random numbers; that the number of runs and their results never depend on the bins is about all of them", "anchors": ["src/simulation.cpp: histogram, HistogramOp, parse_granularity", "src/histogram.cpp: Histogram::operator()", "src/cli/cli.cpp: run_prediction, to_json"]}
{"id": "C123", "title": "When the search stops", "statement": "With `--max-idle-iters N` and `--batch-size B` the optimization of a successful `schedule` or `predict` ends exactly with the first round after which the epoch number in the progress reports has stayed the same for N/B rounds, rounded up; no round more, none fewer. The column of epochs in the optimization log shows it.", "quantifier": "all projects, options, random numbers and numbers of threads; any arithmetic", "why_tests_cant": "a test runs a mock or one optimization with one limit; that idle rounds are counted from the last new epoch and with the right unit is about all runs of any length", "anchors": ["src/stun/optimizer.cpp: Optimizer::update, has_converged, Impl::interpolate_progress, Impl::estimate_progress", "src/predict.cpp: optimize", "src/project.h: OptimizationParameters"]}
{"id": "C124", "title": "Splitting a task never hurts", "statement": "If tasks are split into parts that the same agents may do, that together take them as long, and of which each depends on no more than the whole did and on earlier parts of the same task, the least makespan `schedule` can write is no greater than before. It can be less, even if all parts of a task have to be done in order.", "quantifier": "all documents the program can schedule, and all ways to split any of their tasks into any numbers of parts; exact arithmetic, and single precision up to 0.0061 % and a second", "why_tests_cant": "a test compares two documents with one seed; that no finer document is worse is about all documents and the best of all schedules", "anchors": ["src/stun/schedule_params.cpp: available_agents, dependencies, to_schedule_params", "src/stun/utils.cpp: Makespan::operator(), Mutator::operator()", "src/cli/schedule.cpp: schedule"]}
{"id": "C125", "title": "One phase after the other", "statement": "If every task of a project belongs to one of two phases, and every task of the second depends, directly or not, on every task of the first, then the least makespan that `schedule` can write for the project is the sum of the two for the phases alone (up to one second, since makespans are written in whole seconds). The same agents may work in both.", "quantifier": "every document, every way to divide it into two such phases, in any order of the tasks and agents, all options; exact arithmetic, and single precision up to 0.0061 % and a second", "why_tests_cant": "the best makespan is a minimum over all schedules; a test can compare single runs of single projects only", "anchors": ["src/stun/schedule_params.cpp: available_agents, dependencies, to_schedule_params", "src/stun/utils.cpp: Makespan::operator(), Mutator::operator()", "src/cli/schedule.cpp: schedule"]}
