{
 "claims": [
  {
   "property": "C01",
   "status": "proved",
   "theorems": [
    "Angonoka.Props.cycles_rejected",
    "Angonoka.Props.cycle_check_exact",
    "Angonoka.Props.dependsOn_iff",
    "Angonoka.Props.cyclic_predicted"
   ],
   "note": "For every document. A document with several defects may get the error of another one, so the error itself is pinned down when the cycle is the only defect; a cyclic document is never returned. cyclic_only/cyclic_predicted show a document that meets the hypotheses."
  },
  {
   "property": "C02",
   "status": "proved",
   "theorems": [
    "Angonoka.Props.dependencies_declared",
    "Angonoka.Props.unknown_dependency"
   ],
   "note": ""
  },
  {
   "property": "C03",
   "status": "proved",
   "theorems": [
    "Angonoka.Props.tasks_in_order",
    "Angonoka.Props.document_order"
   ],
   "note": ""
  },
  {
   "property": "C04",
   "status": "proved",
   "theorems": [
    "Angonoka.Props.agents_keep_identity"
   ],
   "note": ""
  },
  {
   "property": "C05",
   "status": "proved",
   "theorems": [
    "Angonoka.Props.groups_written",
    "Angonoka.Props.group_indices_stable"
   ],
   "note": ""
  },
  {
   "property": "C06",
   "status": "partial",
   "theorems": [
    "Angonoka.Props.bounds_partial",
    "Angonoka.Props.zero_duration_accepted",
    "Angonoka.Props.nan_performance_accepted"
   ],
   "note": "False as stated: '0s' and a NaN performance are accepted (witnesses). Proved: no bound is negative, bounds are ordered, finite performances are positive."
  },
  {
   "property": "C07",
   "status": "proved",
   "theorems": [
    "Angonoka.Props.task_ids_unique"
   ],
   "note": ""
  },
  {
   "property": "C08",
   "status": "proved",
   "theorems": [
    "Angonoka.Props.assignment_exclusive"
   ],
   "note": ""
  },
  {
   "property": "C09",
   "status": "proved",
   "theorems": [
    "Angonoka.Props.schema_exact",
    "Angonoka.Props.schema_error_iff"
   ],
   "note": "Against an inductive description of the documented shape."
  },
  {
   "property": "C10",
   "status": "partial",
   "theorems": [
    "Angonoka.Props.assignable_partial",
    "Angonoka.Props.ungrouped_task_accepted",
    "Angonoka.Props.split_groups_accepted"
   ],
   "note": "False as stated: two documents are accepted in which nobody can do a task (witnesses). Proved for tasks with an agent or exactly one group, and for every task if some agent has no groups."
  },
  {
   "property": "C100",
   "status": "proved",
   "theorems": [
    "Angonoka.Props.runs_independent"
   ],
   "note": "For every arithmetic. What is assumed of the random numbers is stated in RandomNumbers; shown for standard normal numbers (normals_random) and for a die."
  },
  {
   "property": "C101",
   "status": "proved",
   "theorems": [
    "Angonoka.Props.late_frequency",
    "Angonoka.Props.written_late_frequency"
   ],
   "note": "Exact arithmetic. The limit exists with probability one and is the probability of C99."
  },
  {
   "property": "C102",
   "status": "proved",
   "theorems": [
    "Angonoka.Props.percentiles_converge"
   ],
   "note": "Exact arithmetic: single precision counts at most 2^24 runs exactly. That the five bins are different is needed because of C52."
  },
  {
   "property": "C103",
   "status": "proved",
   "theorems": [
    "Angonoka.Props.patience_never_hurts",
    "Angonoka.Props.patience_never_hurts_written",
    "Angonoka.Props.more_threads_can_hurt"
   ],
   "note": "The second sentence of the claim is the witness more_threads_can_hurt."
  },
  {
   "property": "C104",
   "status": "proved",
   "theorems": [
    "Angonoka.Props.patience_finds_best",
    "Angonoka.Props.patience_pays",
    "Angonoka.Props.document_patience_pays",
    "Angonoka.Props.float_document_patience_pays"
   ],
   "note": "Generator states what is assumed of the random numbers; example_generator shows that fair dice meet it. patience_finds_best and patience_pays hold for any arithmetic. The bound for the command is for exact arithmetic and for single precision; in the latter case the timetable is best up to rounding, see C98."
  },
  {
   "property": "C105",
   "status": "proved",
   "theorems": [
    "Angonoka.Props.histogram_estimates",
    "Angonoka.Props.estimates_converge"
   ],
   "note": "histogram_estimates is for any arithmetic, estimates_converge for exact arithmetic; quantiles at the border of a bin are left out, as in C102."
  },
  {
   "property": "C106",
   "status": "partial",
   "theorems": [
    "Angonoka.Props.runs_within_partial",
    "Angonoka.Props.worst_case_fits_partial",
    "Angonoka.Props.runs_within_float_partial",
    "Angonoka.Props.worst_case_fits_float_partial",
    "Angonoka.Props.worst_case_to_page_float_partial",
    "Angonoka.Props.overlong_run_aborts",
    "Angonoka.Props.runs_unbounded",
    "Angonoka.Props.prediction_may_abort",
    "Angonoka.Props.abort_probability",
    "Angonoka.Props.Month.month_aborts",
    "Angonoka.Props.float_overlong_run_aborts",
    "Angonoka.Props.float_abort_probability",
    "Angonoka.Props.Month.float_month_aborts"
   ],
   "note": "Proved as long as the random numbers are between -2 and 2 standard deviations. The full statement is false: min and max are only at two standard deviations from the mean, samples are rejected only if they are not positive, so runs are unbounded (runs_unbounded); a run of more than 2^31 seconds makes the conversion of its bin to int throw, after the whole simulation, and the program aborts with no output file (overlong_run_aborts), with a positive probability for every document with an uncertain duration (prediction_may_abort). abort_probability bounds this probability from below by that of one overlong run in 10000; Month.month_aborts: at least 6 of 1000 predictions for an agent with the performance in the README and a task of 30 days (5 of 1000 in single precision, Month.float_month_aborts). The theorems whose names do not contain float are for exact arithmetic; in single precision, the best and worst case hold up to 0.2 % and a second if no greatest duration or performance is more than 256 times the least one."
  },
  {
   "property": "C107",
   "status": "proved",
   "theorems": [
    "Angonoka.Props.serial_update",
    "Angonoka.Props.serial_rounds",
    "Angonoka.Props.serial_optimize",
    "Angonoka.Props.serial_schedule",
    "Angonoka.Props.serial_predict",
    "Angonoka.Props.serial_program"
   ],
   "note": "For any arithmetic. Options are valid if the command line accepts them, see accepted_options_partial."
  },
  {
   "property": "C108",
   "status": "partial",
   "theorems": [
    "Angonoka.Props.text_bytes",
    "Angonoka.Props.file_bytes",
    "Angonoka.Props.written_iff_utf8",
    "Angonoka.Props.bytes_program",
    "Angonoka.Props.document_names_partial",
    "Angonoka.Props.float_document_names_partial",
    "Angonoka.Props.prediction_names_partial",
    "Angonoka.Props.float_prediction_names_partial",
    "Angonoka.Props.names_not_any_text"
   ],
   "note": "Fails: names that are not UTF-8 abort the program after the optimization, and the result is lost (names_not_any_text: a task named Büro in ISO 8859-1). Proved: a result can be written if and only if all its texts are UTF-8; then the program is the one of the other properties, and the bytes of the file are the encoding of the text of C90. From the document for both commands, in exact arithmetic and in single precision; bytes_program is for both commands and any arithmetic. nlohmann/json is not in the repository, its decoder is written from knowledge of the library, as is that yaml-cpp copies bytes."
  },
  {
   "property": "C109",
   "status": "proved",
   "theorems": [
    "Angonoka.Props.order_defects",
    "Angonoka.Props.order_loads",
    "Angonoka.Props.order_plans",
    "Angonoka.Props.order_does_not_matter",
    "Angonoka.Props.order_float"
   ],
   "note": "order_does_not_matter for exact arithmetic, under the conditions of C91; order_float for single precision, under those of C98: there both makespans are the same least one up to 0.0061 % and a second. Which of several defects is reported does depend on the order."
  },
  {
   "property": "C11",
   "status": "proved",
   "theorems": [
    "Angonoka.Props.eligibility"
   ],
   "note": "For index sets with the invariant of flat_set (strictly ascending)."
  },
  {
   "property": "C110",
   "status": "proved",
   "theorems": [
    "Angonoka.Props.names_load",
    "Angonoka.Props.names_output",
    "Angonoka.Props.names_do_not_matter"
   ],
   "note": "For any arithmetic. Names are texts without invalid characters, see C108; messages about documents that do not load may contain names and are only said to be of the same kind."
  },
  {
   "property": "C111",
   "status": "proved",
   "theorems": [
    "Angonoka.Props.unit_of_time",
    "Angonoka.Props.unit_of_time_document",
    "Angonoka.Props.unit_of_time_float",
    "Angonoka.Props.unit_of_time_document_float",
    "Angonoka.Props.simulated_unit",
    "Angonoka.Props.simulations_unit"
   ],
   "note": "Exact arithmetic for all factors; the files of `schedule` also in single precision for powers of two (unit_of_time_float, unit_of_time_document_float, see C75), where the runs agree bit by bit. unit_of_time assumes that both runs are successful, unit_of_time_document derives this from the documents, see C74. The prediction's histogram has bins of a width in seconds that is not proportional; what is shown are the simulated times it is made of."
  },
  {
   "property": "C112",
   "status": "proved",
   "theorems": [
    "Angonoka.Props.notation_load",
    "Angonoka.Props.notation_does_not_matter"
   ],
   "note": "For any arithmetic. Both documents have the documented shape (IsConfiguration, decided by C09), and no more than 128 tasks; with more than 127 tasks no document loads, and which error is reported may differ. Durations have to be well-formed and performances readable, otherwise the texts do not mean anything."
  },
  {
   "property": "C113",
   "status": "partial",
   "theorems": [
    "Angonoka.Props.default_performance",
    "Angonoka.Props.default_groups",
    "Angonoka.Props.default_subtasks",
    "Angonoka.Props.default_texts_rejected",
    "Angonoka.Props.Sample.default_group_aborts"
   ],
   "note": "Proved for performance, groups of agents, and subtasks: with C112 the program does the same. False for id, group and depends_on: no document in which one of these is the empty text loads (default_texts_rejected); an empty group even violates a contract (Sample.default_group_aborts)."
  },
  {
   "property": "C114",
   "status": "partial",
   "theorems": [
    "Angonoka.Props.gloomier_runs_partial",
    "Angonoka.Props.gloomier_run",
    "Angonoka.Props.gloomier_document_partial",
    "Angonoka.Props.gloomier_runs_float_partial",
    "Angonoka.Props.Gloom.gloomier_not_longer"
   ],
   "note": "Proved if all random numbers are between -2 and 2 standard deviations: in exact arithmetic (gloomier_document_partial in terms of the document), and in single precision (gloomier_runs_float_partial, likewise) up to 0.4 % and three seconds, if no greatest duration or performance is more than 256 times the least one and no task takes more than 194 days. The full statement is false (Gloom.gloomier_not_longer): further out, a longer shortest duration makes the distribution narrower and the run shorter, and so does a longer longest duration on the other side; and a number that was rejected before may be accepted, which also shifts the numbers of all following runs."
  },
  {
   "property": "C115",
   "status": "proved",
   "theorems": [
    "Angonoka.Props.plans_faster",
    "Angonoka.Props.pace_does_not_matter",
    "Angonoka.Props.simulated_faster",
    "Angonoka.Props.simulations_faster",
    "Angonoka.Props.pace_float"
   ],
   "note": "Exact arithmetic. plans_faster for every positive rational factor, the others for whole factors. pace_float is the claim about `schedule` in single precision for every positive rational factor, up to 0.0061 % and a second. Which schedule the optimizer finds with given random numbers is not claimed to be the same: normalised makespans do depend on the pace, and with them the acceptance of worse schedules."
  },
  {
   "property": "C116",
   "status": "proved",
   "theorems": [
    "Angonoka.Props.implied_schedules",
    "Angonoka.Props.implied_reset",
    "Angonoka.Props.implied_update",
    "Angonoka.Props.implied_search",
    "Angonoka.Props.implied_simulation",
    "Angonoka.Props.implied_plans",
    "Angonoka.Props.implied_do_not_matter",
    "Angonoka.Props.implied_float",
    "Angonoka.Props.Site.initial_differs"
   ],
   "note": "For any arithmetic, implied_do_not_matter for exact arithmetic under the conditions of C91, implied_float for single precision up to 0.0061 % and a second. The schedule the search begins with may differ (Site.initial_differs), so a run with given random numbers may find another schedule: what is the same is every step from the same schedule, and what can be found."
  },
  {
   "property": "C117",
   "status": "proved",
   "theorems": [
    "Angonoka.Props.teams_plan",
    "Angonoka.Props.part_plan",
    "Angonoka.Props.teams_independent",
    "Angonoka.Props.teams_float"
   ],
   "note": "Exact arithmetic, teams_independent under the conditions of C91; teams_float for single precision up to 0.0061 % and a second. More than two teams by repetition."
  },
  {
   "property": "C118",
   "status": "proved",
   "theorems": [
    "Angonoka.Props.one_agent",
    "Angonoka.Props.enough_agents",
    "Angonoka.Props.one_agent_float",
    "Angonoka.Props.enough_agents_float"
   ],
   "note": "Exact arithmetic; one_agent under the conditions of C74, enough_agents under those of C91. In single precision (one_agent_float, enough_agents_float) up to 0.0061 % and a second."
  },
  {
   "property": "C119",
   "status": "proved",
   "theorems": [
    "Angonoka.Props.only_essence_matters"
   ],
   "note": "Any arithmetic, any random numbers. Both documents have to load: whether one loads can depend on more, e.g. on ids used twice."
  },
  {
   "property": "C12",
   "status": "proved",
   "theorems": [
    "Angonoka.Props.index_limits"
   ],
   "note": "127 tasks, 128 agents, 128 groups."
  },
  {
   "property": "C120",
   "status": "proved",
   "theorems": [
    "Angonoka.Props.prediction_contains_schedule"
   ],
   "note": "Any arithmetic. `room` says there is enough disk space for the output file; without it the file is cut off unnoticed, see C87."
  },
  {
   "property": "C121",
   "status": "proved",
   "theorems": [
    "Angonoka.Props.display_does_not_matter",
    "Angonoka.Props.display_never_fails"
   ],
   "note": "Any arithmetic. The bar does not fit terminals with 5 to 8 columns, see C88."
  },
  {
   "property": "C122",
   "status": "proved",
   "theorems": [
    "Angonoka.Props.bin_size_is_resolution",
    "Angonoka.Props.wider_bins"
   ],
   "note": "Any arithmetic. The percentiles are not compared: they are middles of bins, and by C52 can be bins away from the exact ones."
  },
  {
   "property": "C123",
   "status": "proved",
   "theorems": [
    "Angonoka.Props.search_stops",
    "Angonoka.Props.predict_search_stops",
    "Angonoka.Props.log_stops"
   ],
   "note": "Any arithmetic. That the optimization does end is C38."
  },
  {
   "property": "C124",
   "status": "proved",
   "theorems": [
    "Angonoka.Props.split_plan",
    "Angonoka.Props.splitting_never_hurts",
    "Angonoka.Props.splitting_float",
    "Angonoka.Props.Walls.splitting_can_help"
   ],
   "note": "The least makespan over all random numbers, under the conditions of C91 (C98 in single precision) for both documents."
  },
  {
   "property": "C125",
   "status": "proved",
   "theorems": [
    "Angonoka.Props.phases_plan",
    "Angonoka.Props.phases_add",
    "Angonoka.Props.phases_float"
   ],
   "note": "The least makespan over all random numbers, under the conditions of C91 (C98 in single precision) for all three documents. More than two phases by repetition."
  },
  {
   "property": "C13",
   "status": "partial",
   "theorems": [
    "Angonoka.Props.load_safe_partial",
    "Angonoka.Props.load_errors",
    "Angonoka.Props.load_iff",
    "Angonoka.Props.load_unsafe",
    "Angonoka.Props.degenerate_unsafe"
   ],
   "note": "False as stated: four kinds of degenerate text violate preconditions (witnesses; load_unsafe: so does every document with such a text and no other defect). Proved for all other documents. load_iff: the documents that load are exactly those without a defect and without such a text."
  },
  {
   "property": "C14",
   "status": "partial",
   "theorems": [
    "Angonoka.Props.duration_language_partial",
    "Angonoka.Props.duration_undefined_iff",
    "Angonoka.Props.duration_total",
    "Angonoka.Props.duration_unambiguous",
    "Angonoka.Props.duration_huge_number",
    "Angonoka.Props.duration_overflow",
    "Angonoka.Props.duration_short",
    "Angonoka.Props.documented_example_rejected"
   ],
   "note": "Accepted language and value are characterised by an independent inductive grammar for all strings. Not 'everything else raises': numbers beyond INT_MAX are undefined behaviour in std::atoi (witness), and sums of 2^63 seconds or more overflow (witness, over 11000 characters); all other texts raise DurationParseError (duration_total). The example in the header comment is not in the language (witness)."
  },
  {
   "property": "C15",
   "status": "proved",
   "theorems": [
    "Angonoka.Props.durations_add"
   ],
   "note": "For sums that fit 64 bits. For every separator of the grammar, in particular a blank and ' and '."
  },
  {
   "property": "C16",
   "status": "proved",
   "theorems": [
    "Angonoka.Props.verbose_exact",
    "Angonoka.Props.verbose_zero",
    "Angonoka.Props.verbose_roundtrip",
    "Angonoka.Props.verbose_month_unreadable"
   ],
   "note": "Round trip below a month for every duration; from a month on the text is unreadable (witness), as the statement excludes."
  },
  {
   "property": "C17",
   "status": "proved",
   "theorems": [
    "Angonoka.Props.humanize_accurate"
   ],
   "note": "All integers; ties to even included."
  },
  {
   "property": "C18",
   "status": "proved",
   "theorems": [
    "Angonoka.Props.params_faithful",
    "Angonoka.Props.params_performance_between",
    "Angonoka.Props.params_wellFormed"
   ],
   "note": "params_wellFormed: a sound project yields parameters that satisfy the hypothesis of the scheduling theorems."
  },
  {
   "property": "C19",
   "status": "proved",
   "theorems": [
    "Angonoka.Props.normalised_sum",
    "Angonoka.Props.normalised_makespan"
   ],
   "note": "Exact arithmetic; every schedule, valid or not."
  },
  {
   "property": "C20",
   "status": "proved",
   "theorems": [
    "Angonoka.Props.tables_are_values"
   ],
   "note": "Refinement of the memory-level model to plain lists for every sequence of operations. Not covered: the constructor from arbitrary spans, which only tests use."
  },
  {
   "property": "C21",
   "status": "proved",
   "theorems": [
    "Angonoka.Props.initialSchedule_valid"
   ],
   "note": ""
  },
  {
   "property": "C22",
   "status": "proved",
   "theorems": [
    "Angonoka.Props.mutate_valid"
   ],
   "note": ""
  },
  {
   "property": "C23",
   "status": "proved",
   "theorems": [
    "Angonoka.Props.mutate_connected"
   ],
   "note": ""
  },
  {
   "property": "C24",
   "status": "proved",
   "theorems": [
    "Angonoka.Props.makespan_feasible"
   ],
   "note": "For every monotone rounding and every estimator history."
  },
  {
   "property": "C25",
   "status": "proved",
   "theorems": [
    "Angonoka.Props.makespan_minimal"
   ],
   "note": "The recurrence is the pointwise least execution."
  },
  {
   "property": "C26",
   "status": "proved",
   "theorems": [
    "Angonoka.Props.makespan_history_free"
   ],
   "note": "For every history of evaluations and copies and every schedule, valid or not."
  },
  {
   "property": "C27",
   "status": "proved",
   "theorems": [
    "Angonoka.Props.makespan_lower_bounds",
    "Angonoka.Props.makespan_upper_bound",
    "Angonoka.Props.makespan_bounds_exact"
   ],
   "note": "Float sums for any rounding, ordinary sums in exact arithmetic."
  },
  {
   "property": "C28",
   "status": "proved",
   "theorems": [
    "Angonoka.Props.makespan_monotone"
   ],
   "note": ""
  },
  {
   "property": "C29",
   "status": "proved",
   "theorems": [
    "Angonoka.Props.tunneling_best_valid"
   ],
   "note": ""
  },
  {
   "property": "C30",
   "status": "proved",
   "theorems": [
    "Angonoka.Props.tunneling_monotone",
    "Angonoka.Props.tunneling_best_ever"
   ],
   "note": ""
  },
  {
   "property": "C31",
   "status": "proved",
   "theorems": [
    "Angonoka.Props.tunneling_no_violation",
    "Angonoka.Props.tunneling_ranges"
   ],
   "note": "For gamma >= 0 and beta scales with 0.03 * beta <= 1, in single precision 900.03 * beta <= 1 (the defaults are 2 and 0.001); beyond it the temperature may become negative, see C34."
  },
  {
   "property": "C32",
   "status": "partial",
   "theorems": [
    "Angonoka.Props.tunneling_copy_partial",
    "Angonoka.Props.tunneling_copy_after_reset_partial",
    "Angonoka.Props.tunneling_copy_exchanges"
   ],
   "note": "False as stated: tunneling_copy_exchanges is a reachable counterexample. Proved: best schedule and makespan are kept, the current schedule stays valid, and everything is kept right after a reset."
  },
  {
   "property": "C33",
   "status": "partial",
   "theorems": [
    "Angonoka.Props.stun_value_exact_partial",
    "Angonoka.Props.stun_value_stale",
    "Angonoka.Props.stun_stale_decision"
   ],
   "note": "False as stated: stun_value_stale and stun_stale_decision are reachable counterexamples. Proved: exact after a reset and preserved by every update that does not find something better than the current schedule."
  },
  {
   "property": "C34",
   "status": "partial",
   "theorems": [
    "Angonoka.Props.temperature_nonneg_partial",
    "Angonoka.Props.temperature_negative"
   ],
   "note": "Holds for beta scales with 0.03 * beta <= 1 in exact arithmetic, with 900.03 * beta <= 1 in single precision (the default is 0.001); temperature_negative shows that it fails for larger accepted ones."
  },
  {
   "property": "C35",
   "status": "proved",
   "theorems": [
    "Angonoka.Props.temperature_update_rule",
    "Angonoka.Props.temperature_update_exact",
    "Angonoka.Props.volatility_shape",
    "Angonoka.Props.volatility_strict",
    "Angonoka.Props.temperature_new_iff"
   ],
   "note": "temperature_update_rule for every rounding, with the rolling mean as the program computes it (limited from below, see C94); temperature_update_exact in exact arithmetic with the average of the window."
  },
  {
   "property": "C36",
   "status": "proved",
   "theorems": [
    "Angonoka.Props.curve_exact",
    "Angonoka.Props.curve_no_fit"
   ],
   "note": "Exact real arithmetic. curve_no_fit: the fitted curve is 0 before two points and after a reset."
  },
  {
   "property": "C37",
   "status": "proved",
   "theorems": [
    "Angonoka.Props.optimizer_best_of_jobs",
    "Angonoka.Props.optimizer_interleaving",
    "Angonoka.Props.optimizer_interleaving_progress"
   ],
   "note": "The parallel loop is an arbitrary interleaving of job updates; every one ends in the same state as the sequential loop."
  },
  {
   "property": "C38",
   "status": "proved",
   "theorems": [
    "Angonoka.Props.optimizer_terminates"
   ],
   "note": ""
  },
  {
   "property": "C39",
   "status": "proved",
   "theorems": [
    "Angonoka.Props.optimizer_progress"
   ],
   "note": "For finite float arithmetic: inf/NaN from exp underflow in interpolate_progress are outside the model."
  },
  {
   "property": "C40",
   "status": "proved",
   "theorems": [
    "Angonoka.Props.optimizer_result",
    "Angonoka.Props.optimizer_monotone"
   ],
   "note": ""
  },
  {
   "property": "C41",
   "status": "proved",
   "theorems": [
    "Angonoka.Props.optimizer_epochs",
    "Angonoka.Props.optimizer_epoch_step"
   ],
   "note": ""
  },
  {
   "property": "C42",
   "status": "partial",
   "theorems": [
    "Angonoka.Props.rebind_partial",
    "Angonoka.Props.rebind_reports_old",
    "Angonoka.Props.rebind_uses_old_times"
   ],
   "note": "False as stated: the makespan estimator is never rebound, so makespans keep being computed from the old durations (witnesses). Proved for parameter sets with the same times."
  },
  {
   "property": "C43",
   "status": "partial",
   "theorems": [
    "Angonoka.Props.copy_independent_partial",
    "Angonoka.Props.copy_shares_generators",
    "Angonoka.Props.copy_dangles"
   ],
   "note": "False as stated: a copy draws from the generators of the original (witness), and dangles when the original is destroyed (for any number of threads). Proved when each copy is followed by params() before use."
  },
  {
   "property": "C44",
   "status": "proved",
   "theorems": [
    "Angonoka.Props.schedule_events",
    "Angonoka.Props.predict_events",
    "Angonoka.Props.schedule_returns",
    "Angonoka.Props.predict_returns"
   ],
   "note": "Every run that returns; schedule_returns shows that they do for sound projects and valid options."
  },
  {
   "property": "C45",
   "status": "proved",
   "theorems": [
    "Angonoka.Props.consumer_in_order",
    "Angonoka.Props.consumer_returns",
    "Angonoka.Props.predict_consumed",
    "Angonoka.Props.schedule_consumed"
   ],
   "note": "Every interleaving of the atomic queue operations; returning needs a fair one."
  },
  {
   "property": "C46",
   "status": "partial",
   "theorems": [
    "Angonoka.Props.failed_prediction_hangs",
    "Angonoka.Props.failed_schedule_hangs",
    "Angonoka.Props.consumer_hangs",
    "Angonoka.Props.short_prediction_fails",
    "Angonoka.Props.failure_not_reported",
    "Angonoka.Props.quiet_failure_reported_partial"
   ],
   "note": "False: the consumer waits for Finished, which a failing thread never enqueues, so it never stops, for every failure point and interleaving (short_prediction_fails: such failures occur); failure_not_reported says so for the whole program. Proved in part: with --quiet the exception ends the program."
  },
  {
   "property": "C47",
   "status": "proved",
   "theorems": [
    "Angonoka.Props.log_open_before_use",
    "Angonoka.Props.log_rows"
   ],
   "note": "Also: the log's rows are exactly the progress events. Failure to open the file is C86."
  },
  {
   "property": "C48",
   "status": "proved",
   "theorems": [
    "Angonoka.Props.simulation_feasible",
    "Angonoka.Props.drawn_bounds"
   ],
   "note": "For every rounding; also the execution is the fastest one."
  },
  {
   "property": "C49",
   "status": "proved",
   "theorems": [
    "Angonoka.Props.simulation_history_free",
    "Angonoka.Props.simulation_reusable",
    "Angonoka.Props.simulation_local",
    "Angonoka.Props.simulation_deterministic"
   ],
   "note": ""
  },
  {
   "property": "C50",
   "status": "proved",
   "theorems": [
    "Angonoka.Props.histogram_exact",
    "Angonoka.Props.histogram_order",
    "Angonoka.Props.histogram_index"
   ],
   "note": "Also after clear()."
  },
  {
   "property": "C51",
   "status": "proved",
   "theorems": [
    "Angonoka.Props.percentiles_ordered",
    "Angonoka.Props.percentiles_conservative",
    "Angonoka.Props.percentiles_fraction"
   ],
   "note": "Order and existing bins for every rounding; the fraction for up to 2^24 runs (CountsExact: every number of runs is a float), which is when stats() does not throw."
  },
  {
   "property": "C52",
   "status": "partial",
   "theorems": [
    "Angonoka.Props.percentiles_exact_partial",
    "Angonoka.Props.percentiles_located",
    "Angonoka.Props.percentiles_wrong"
   ],
   "note": "False as stated (witness: 99 runs in the first bin, 1 in the second, the median reported is the second bin). Proved: p25 is exact; all are if the five right bins differ; percentiles_located says which bins are reported otherwise."
  },
  {
   "property": "C53",
   "status": "proved",
   "theorems": [
    "Angonoka.Props.resolution",
    "Angonoka.Props.resolution_short"
   ],
   "note": ""
  },
  {
   "property": "C54",
   "status": "proved",
   "theorems": [
    "Angonoka.Props.histogram_batches",
    "Angonoka.Props.histogram_safe"
   ],
   "note": "For every stopping rule (the quantile estimation that decides is a parameter)."
  },
  {
   "property": "C55",
   "status": "proved",
   "theorems": [
    "Angonoka.Props.schedule_json",
    "Angonoka.Props.schedule_json_exact",
    "Angonoka.Props.short_schedule_violates"
   ],
   "note": "For schedules that end before 2^31 seconds and take at least a second; beyond these the conversion to int is undefined or a contract is violated (short_schedule_violates is a witness for the latter). Names, priorities and times for every rounding, 'no task exceeds the makespan' for exact arithmetic."
  },
  {
   "property": "C56",
   "status": "proved",
   "theorems": [
    "Angonoka.Props.json_makespan",
    "Angonoka.Props.schedule_json_exact"
   ],
   "note": "Exact arithmetic, ends before 2^63 seconds."
  },
  {
   "property": "C57",
   "status": "proved",
   "theorems": [
    "Angonoka.Props.histogram_json"
   ],
   "note": ""
  },
  {
   "property": "C58",
   "status": "proved",
   "theorems": [
    "Angonoka.Props.failed_load_reported",
    "Angonoka.Props.oversized_project_aborts"
   ],
   "note": "For unreadable files, YAML syntax errors and all validation errors; the one other exception of the loader (too large a project) is reported but aborts the program (oversized_project_aborts)."
  },
  {
   "property": "C59",
   "status": "partial",
   "theorems": [
    "Angonoka.Props.cursor_restored_partial",
    "Angonoka.Props.cursor_visible_at_end",
    "Angonoka.Props.cursor_left_hidden"
   ],
   "note": "False as stated, two witnesses: show_cursor clears the flag while its escape sequence is still in the output buffer, which quick_exit discards; and the handler may run on another thread while the main thread hides the cursor. Proved for handling on the main thread when no order to show the cursor is waiting in the buffer."
  },
  {
   "property": "C60",
   "status": "proved",
   "theorems": [
    "Angonoka.Props.quiet_prints_nothing"
   ],
   "note": "For every run, successful or not."
  },
  {
   "property": "C61",
   "status": "proved",
   "theorems": [
    "Angonoka.Props.curve_least_squares"
   ],
   "note": "Exact real arithmetic, all point sequences with positive y and at least two different x."
  },
  {
   "property": "C62",
   "status": "proved",
   "theorems": [
    "Angonoka.Props.schedule_command",
    "Angonoka.Props.schedule_command_general",
    "Angonoka.Props.moderate_executions"
   ],
   "note": "Exact arithmetic."
  },
  {
   "property": "C63",
   "status": "partial",
   "theorems": [
    "Angonoka.Props.messages_true_partial",
    "Angonoka.Props.rejection_explained",
    "Angonoka.Props.message_names_group",
    "Angonoka.Props.message_zero_negative"
   ],
   "note": "False for two messages, with witnesses: NoSuitableAgent is given the name of the group instead of the task, and the performance 0 is called negative. All other messages are true, including the paths in schema messages."
  },
  {
   "property": "C64",
   "status": "proved",
   "theorems": [
    "Angonoka.Props.predict_command"
   ],
   "note": "Exact arithmetic; all results and their number must fit an int for the file to be written."
  },
  {
   "property": "C65",
   "status": "partial",
   "theorems": [
    "Angonoka.Props.stopping_rule_partial",
    "Angonoka.Props.stopping_rule_fails",
    "Angonoka.Props.enough_runs",
    "Angonoka.Props.first_change",
    "Angonoka.Props.stops_if_equal",
    "Angonoka.Props.short_runs_fail"
   ],
   "note": "Exact arithmetic; stops_if_equal_float (C66) and endless_prediction (C94) say what is left of it in single precision. The rule and the minimal number of runs are proved. The last part is false: a zero quantile makes the next comparison divide 0 by 0 and violate a contract (stopping_rule_fails), which happens for sound projects (short_runs_fail)."
  },
  {
   "property": "C66",
   "status": "partial",
   "theorems": [
    "Angonoka.Props.certain_prediction_partial",
    "Angonoka.Props.float_certain_prediction_partial",
    "Angonoka.Props.stops_if_equal_float",
    "Angonoka.Props.histogram_constant",
    "Angonoka.Props.deterministic_value",
    "Angonoka.Props.endless_prediction"
   ],
   "note": "Proved in exact arithmetic (for every estimator whose quantiles of equal values are that value; C83 has it for the program's own) and in single precision for projects of less than 25 hours, where the makespan and the common result of the runs are right up to 2^-14 and a second. False in single precision for a project of 30 days: the prediction never ends (endless_prediction, see C94)."
  },
  {
   "property": "C67",
   "status": "proved",
   "theorems": [
    "Angonoka.Props.makespan_rounding",
    "Angonoka.Props.timetable_rounding",
    "Angonoka.Props.float_json",
    "Angonoka.Props.float_makespan_early"
   ],
   "note": "IEEE binary32, round to nearest even, subnormals included (Binary32.round); without -ffast-math reassociation. float_makespan_early: the makespan can be a whole second earlier than the end of the last task in the same file (22 instead of 23 for tasks of 20, 1 and 2 seconds), so the tolerance of one second is needed and C56 fails in single precision."
  },
  {
   "property": "C68",
   "status": "proved",
   "theorems": [
    "Angonoka.Props.float_schedule_command"
   ],
   "note": "As C67."
  },
  {
   "property": "C69",
   "status": "partial",
   "theorems": [
    "Angonoka.Props.timeline_exact",
    "Angonoka.Props.agent_info_exact",
    "Angonoka.Props.loaded_names",
    "Angonoka.Props.timeline_float_partial",
    "Angonoka.Props.strip_sticks_out",
    "Angonoka.Props.strips_overlap"
   ],
   "note": "Proved for exact arithmetic in both programs. In single precision (of the main program) rows and order are right and strips do not overlap for executions within 2^24 seconds (timeline_float_partial); but strips can stick out at the end (strip_sticks_out) and overlap beyond 2^24 seconds (strips_overlap)."
  },
  {
   "property": "C70",
   "status": "partial",
   "theorems": [
    "Angonoka.Props.bars_true",
    "Angonoka.Props.labels_right_partial",
    "Angonoka.Props.labels_wrong"
   ],
   "note": "Bars are right (bars_true). Labels are false for every bin size but 1 and every histogram: they are on the bar after the right one, because the program writes middles of bins and the visualizer compares lower bounds (labels_wrong)."
  },
  {
   "property": "C71",
   "status": "partial",
   "theorems": [
    "Angonoka.Props.accepted_options_partial",
    "Angonoka.Props.command_line_schedules",
    "Angonoka.Props.octal_period",
    "Angonoka.Props.tiny_beta",
    "Angonoka.Props.nan_accepted",
    "Angonoka.Props.empty_output"
   ],
   "note": "Uses the documented behaviour of CLI11 2.1.1 (the version in conan.lock; not in the repository). False for --restart-period 016 (checked as 16, used as octal 14), --beta-scale 1e-50 (0 as a float), nan, and an empty output name; all with witnesses. Beta scales above 33 are accepted too (temperature_negative). Proved for all other command lines."
  },
  {
   "property": "C72",
   "status": "proved",
   "theorems": [
    "Angonoka.Props.options_as_given",
    "Angonoka.Props.options_rejected",
    "Angonoka.Props.optimizer_gets",
    "Angonoka.Props.predict_optimizer_gets"
   ],
   "note": "Uses the documented behaviour of CLI11 2.1.1; supposes that strtold reads decimal numbers correctly."
  },
  {
   "property": "C73",
   "status": "partial",
   "theorems": [
    "Angonoka.Props.eligible_document",
    "Angonoka.Props.documented_eligibility_partial",
    "Angonoka.Props.documented_eligibility_sound",
    "Angonoka.Props.coffee_not_documented"
   ],
   "note": "False as documented: an agent with groups may not do a task without groups, and the README's own example says the opposite (coffee_not_documented). The program's rule is eligible_document; it agrees with the README for agents without groups and tasks with groups or a named agent (documented_eligibility_partial), and never allows more (documented_eligibility_sound)."
  },
  {
   "property": "C74",
   "status": "proved",
   "theorems": [
    "Angonoka.Props.document_to_schedule",
    "Angonoka.Props.schedulable_sound",
    "Angonoka.Props.sound_schedulable",
    "Angonoka.Props.document_waits"
   ],
   "note": "Exact arithmetic; uses the documented behaviour of CLI11 and of the YAML reader as C71 and C04."
  },
  {
   "property": "C75",
   "status": "proved",
   "theorems": [
    "Angonoka.Props.document_to_schedule_float"
   ],
   "note": "As C67 and C74."
  },
  {
   "property": "C76",
   "status": "proved",
   "theorems": [
    "Angonoka.Props.float_predict_command",
    "Angonoka.Props.document_to_prediction_float",
    "Angonoka.Props.simulated_float_of_call",
    "Angonoka.Props.percentiles_float",
    "Angonoka.Props.simulation_rounding"
   ],
   "note": "As C67; document_to_prediction_float begins with the command line and the document, and describes the random runs in terms of the document (Spec/SimulatedFloat). At most 127 tasks, at most 2^24 runs, results that fit an int. simulation_rounding is for samples between 2^-40 and 2^40 (performances) and 2^-62 and 2^62 (durations)."
  },
  {
   "property": "C77",
   "status": "proved",
   "theorems": [
    "Angonoka.Props.prediction_ends",
    "Angonoka.Props.float_prediction_ends",
    "Angonoka.Props.histogram_completes",
    "Angonoka.Props.run_completes",
    "Angonoka.Props.stable_stops"
   ],
   "note": "The stopping rule is a parameter that must not fail (see C65; C83 for the program's own) and must be satisfied at some point; stable_stops gives a condition for the program's own rule in exact arithmetic; in single precision there are projects for which it is never satisfied (endless_prediction, C94). That the generator yields nonnegative numbers again and again is a hypothesis on its output."
  },
  {
   "property": "C78",
   "status": "proved",
   "theorems": [
    "Angonoka.Props.document_to_prediction",
    "Angonoka.Props.simulated_of_call",
    "Angonoka.Props.simulations_of_runs"
   ],
   "note": "Exact arithmetic; defects of accepted command lines as in C74. The stopping rule is a parameter, as in C77. Results have to fit an int."
  },
  {
   "property": "C79",
   "status": "partial",
   "theorems": [
    "Angonoka.Props.duration_short",
    "Angonoka.Props.duration_62",
    "Angonoka.Props.short_durations",
    "Angonoka.Props.average_fits_partial",
    "Angonoka.Props.average_overflow"
   ],
   "note": "Proved for texts of at most 5000 characters (11000 for a single duration). False for longer ones: duration_overflow and average_overflow are witnesses."
  },
  {
   "property": "C80",
   "status": "proved",
   "theorems": [
    "Angonoka.Props.read_schedule",
    "Angonoka.Props.read_prediction",
    "Angonoka.Props.timelines_timetable",
    "Angonoka.Props.document_to_page",
    "Angonoka.Props.document_to_predicted_page",
    "Angonoka.Props.document_to_page_float",
    "Angonoka.Props.prediction_to_page_float"
   ],
   "note": "Exact arithmetic; conditions as in C74 and C78. document_to_page_float (command schedule) and prediction_to_page_float (prediction) are for single precision and files with a makespan of at most 16000000 seconds: there the last strips may stick out a little, because times and makespan are rounded differently. JSON.parse and React are not modelled: the file's content is a JSON value, and the page is the values that its components are given."
  },
  {
   "property": "C81",
   "status": "partial",
   "theorems": [
    "Angonoka.Props.project_source",
    "Angonoka.Props.paste_opens",
    "Angonoka.Props.paste_rejected",
    "Angonoka.Props.message_shown_partial",
    "Angonoka.Props.upload_opens",
    "Angonoka.Props.upload_cancelled",
    "Angonoka.Props.upload_silent"
   ],
   "note": "False for files that are not JSON: nothing happens and there is no message (upload_silent). Proved for pasted text and, if the dialog stays open until the file has been read, for files with a project; a file is dropped if the dialog is closed before (upload_cancelled)."
  },
  {
   "property": "C82",
   "status": "partial",
   "theorems": [
    "Angonoka.Props.click_opens",
    "Angonoka.Props.panel_true_partial",
    "Angonoka.Props.panel_closed",
    "Angonoka.Props.panel_stale"
   ],
   "note": "False after another project is opened, since the panel stays (panel_stale). Proved for panels that were opened since. Exact arithmetic; humanize and toFixed are parameters."
  },
  {
   "property": "C83",
   "status": "proved",
   "theorems": [
    "Angonoka.Props.quantiles_bounds",
    "Angonoka.Props.estimates_aim",
    "Angonoka.Props.psquare_constant",
    "Angonoka.Props.rule_answers",
    "Angonoka.Props.stopping_rule_seconds",
    "Angonoka.Props.document_to_estimates",
    "Angonoka.Props.float_estimates_end",
    "Angonoka.Props.certain_estimates",
    "Angonoka.Props.short_runs_estimates"
   ],
   "note": "quantiles_bounds, rule_answers and float_estimates_end also in single precision; the others in exact arithmetic. Boost's extended_p_square is not in the repository; the model is written from knowledge of Boost and of the published algorithm, and could not be compared with the source."
  },
  {
   "property": "C84",
   "status": "partial",
   "theorems": [
    "Angonoka.Props.log_file_partial",
    "Angonoka.Props.log_only_if_asked",
    "Angonoka.Props.log_quiet",
    "Angonoka.Props.log_missing"
   ],
   "note": "False with --quiet: no log is written at all although it was asked for (log_quiet for every run, log_missing is a successful run). Proved without --quiet. The log is the list of its rows; there must be room for the output file (C87), and writing the log does not fail once it has been opened (C86)."
  },
  {
   "property": "C85",
   "status": "proved",
   "theorems": [
    "Angonoka.Props.tuner_accepted",
    "Angonoka.Props.tuner_reads_makespan",
    "Angonoka.Props.tuner_run",
    "Angonoka.Props.float_tuner_run",
    "Angonoka.Props.score_mono",
    "Angonoka.Props.objective_mono",
    "Angonoka.Props.objective_exact"
   ],
   "note": "tuner_run: with exact arithmetic in the program; float_tuner_run: in single precision, if the rolling mean of STUN values does not fall below -0.9 (C94 proves this for three million samples); tuner_reads_makespan: for every sound project and also in single precision. The log file is assumed to hold the text of the log of this run only. Numbers that strtold reads are within a relative error of 2^-60. The value of a trial is the sum of its runs (objective_mono, objective_exact; added from the left, as Python did before 3.12). Optuna and the storage are not modelled."
  },
  {
   "property": "C86",
   "status": "partial",
   "theorems": [
    "Angonoka.Props.failed_load_reported",
    "Angonoka.Props.unwritable_output_reported",
    "Angonoka.Props.unused_log_ignored",
    "Angonoka.Props.unopened_log_aborts"
   ],
   "note": "False for the log: the exception of fmt::output_file is not caught, so the program is aborted without a message of its own after it has hidden the cursor (unopened_log_aborts, for every run that would have been successful). Proved for input and output file."
  },
  {
   "property": "C87",
   "status": "partial",
   "theorems": [
    "Angonoka.Props.success_has_result_partial",
    "Angonoka.Props.failure_has_no_result",
    "Angonoka.Props.success_without_result"
   ],
   "note": "False if the disk is full: the state of the output stream is never checked, so the program exits with the success status and its usual message (success_without_result, for every run that would have been successful). Proved if there is room for the output file; conversely, without success there is no output file at all."
  },
  {
   "property": "C88",
   "status": "partial",
   "theorems": [
    "Angonoka.Props.text_progress",
    "Angonoka.Props.bar_width_partial",
    "Angonoka.Props.bar_none",
    "Angonoka.Props.narrow_terminal_aborts"
   ],
   "note": "False on terminals of 5 to 8 columns: the width of the bar is negative, the conversion throws and the program is aborted (narrow_terminal_aborts, for every run that would have been successful on another terminal). Proved for all other widths and for text. How the library draws the bar is not modelled."
  },
  {
   "property": "C89",
   "status": "proved",
   "theorems": [
    "Angonoka.Props.mutation_symmetric",
    "Angonoka.Props.chances_complete",
    "Angonoka.Props.uniform_preserved",
    "Angonoka.Props.valid_finite",
    "Angonoka.Props.even_exists",
    "Angonoka.Props.project_mutation_symmetric"
   ],
   "note": "Chances are counted: a draw from k numbers is the remainder of one of L equally likely raw numbers, where k divides L. The generator itself is not modelled."
  },
  {
   "property": "C90",
   "status": "proved",
   "theorems": [
    "Angonoka.Props.file_is_json",
    "Angonoka.Props.json_unambiguous",
    "Angonoka.Props.file_determines",
    "Angonoka.Props.reader_exists",
    "Angonoka.Props.file_read",
    "Angonoka.Props.text_to_page",
    "Angonoka.Props.text_to_predicted_page",
    "Angonoka.Props.document_to_page_float",
    "Angonoka.Props.prediction_to_page_float"
   ],
   "note": "nlohmann/json is not in the repository; its serializer is modelled from knowledge of the library. Strings are Unicode; for bytes see C108. text_to_page for the command schedule, text_to_predicted_page for the prediction, both in exact arithmetic; document_to_page_float and prediction_to_page_float in single precision."
  },
  {
   "property": "C91",
   "status": "proved",
   "theorems": [
    "Angonoka.Props.mutations_needed",
    "Angonoka.Props.best_reachable",
    "Angonoka.Props.best_schedule_written",
    "Angonoka.Props.document_best_schedule",
    "Angonoka.Props.document_best_float"
   ],
   "note": "mutations_needed and best_reachable for every rounding; the command in exact arithmetic, and in single precision, where the timetable is best up to 0.0061 % and a second (document_best_float). The random numbers are chosen: for the acceptance always 0, the least number uniform_01 returns. How likely a best schedule is to be found is not stated."
  },
  {
   "property": "C92",
   "status": "proved",
   "theorems": [
    "Angonoka.Props.plan_has_schedule",
    "Angonoka.Props.execution_is_plan",
    "Angonoka.Props.best_bounds_plans",
    "Angonoka.Props.plan_document"
   ],
   "note": "For every rounding (plan_document in exact arithmetic). Tasks take some time: for tasks of length 0 the converse direction execution_is_plan still holds."
  },
  {
   "property": "C93",
   "status": "proved",
   "theorems": [
    "Angonoka.Props.threads_do_not_matter",
    "Angonoka.Props.threads_converge",
    "Angonoka.Props.threads_no_violation",
    "Angonoka.Props.threads_separate",
    "Angonoka.Props.threads_finish"
   ],
   "note": "A step is one of four parts of an iteration (mutate, evaluate, compare, accept). That other jobs' memory is not touched in between follows from threads_separate, which holds for any contents of the other slots. The read-only parameters are shared. For optimizers that are constructed and updated; copies of optimizers do share generators (C43)."
  },
  {
   "property": "C94",
   "status": "partial",
   "theorems": [
    "Angonoka.Props.rolling_mean_exact_partial",
    "Angonoka.Props.averageStun_exact",
    "Angonoka.Props.temperature_update_exact",
    "Angonoka.Props.optimizer_samples",
    "Angonoka.Props.rolling_mean_near_partial",
    "Angonoka.Props.rolling_mean_thousand",
    "Angonoka.Props.averageStun_float",
    "Angonoka.Props.rolling_mean_residue",
    "Angonoka.Props.endless_prediction"
   ],
   "note": "Proved in exact arithmetic. In single precision the rolling mean is near the average as long as there are not too many samples (rolling_mean_near_partial). The full statement is false in single precision: a residue of old samples stays for ever (rolling_mean_residue), and the prediction for a task of 30 days never ends (endless_prediction). Boost's accumulators are not in the repository: rolling_mean is modelled as immediate_rolling_mean of Boost 1.77, from knowledge of Boost."
  },
  {
   "property": "C95",
   "status": "proved",
   "theorems": [
    "Angonoka.Props.document_makespan_bounds",
    "Angonoka.Props.document_makespan_bounds_float",
    "Angonoka.Props.plan_chain",
    "Angonoka.Props.plan_work"
   ],
   "note": "In exact arithmetic the file has the whole part of such a makespan; in single precision it is such a makespan up to 0.0061 % and a second."
  },
  {
   "property": "C96",
   "status": "proved",
   "theorems": [
    "Angonoka.Props.more_help_never_hurts",
    "Angonoka.Props.eased_plan",
    "Angonoka.Props.help_float",
    "Angonoka.Props.more_help_float"
   ],
   "note": "Exact arithmetic; help_float and more_help_float in single precision up to rounding. A group is not always help: an agent that gets its first group may no longer do tasks without groups (C11)."
  },
  {
   "property": "C97",
   "status": "proved",
   "theorems": [
    "Angonoka.Props.best_with_chance",
    "Angonoka.Props.document_best_with_chance"
   ],
   "note": "The optimizer for every arithmetic, the command for exact arithmetic. What is assumed of the random numbers is stated in RandomDraws and shown to hold for fair dice (example_random). No bound on how small the probability is."
  },
  {
   "property": "C98",
   "status": "proved",
   "theorems": [
    "Angonoka.Props.document_near_best",
    "Angonoka.Props.document_plan_float",
    "Angonoka.Props.more_help_float",
    "Angonoka.Props.writes_about"
   ],
   "note": "Single precision, under the conditions of C75. As C97 for the random numbers."
  },
  {
   "property": "C99",
   "status": "proved",
   "theorems": [
    "Angonoka.Props.late_runs",
    "Angonoka.Props.late_given_performance",
    "Angonoka.Props.makespan_optimistic"
   ],
   "note": "Exact arithmetic. The random numbers are independent and symmetric (SymmetricNumbers), which is shown for independent standard normal numbers (normals_symmetric). That boost::random::normal_distribution yields such numbers is assumed."
  }
 ]
}
