import Verif.Props.Attempts
import Verif.Props.Bars
import Verif.Props.Best
import Verif.Props.BestFloat
import Verif.Props.Bounds
import Verif.Props.BoundsFloat
import Verif.Props.Bytes
import Verif.Props.Certain
import Verif.Props.Chance
import Verif.Props.Cli
import Verif.Props.CommandLine
import Verif.Props.Completes
import Verif.Props.Contains
import Verif.Props.Curve
import Verif.Props.Display
import Verif.Props.Documented
import Verif.Props.DocumentedFloat
import Verif.Props.DocumentedRun
import Verif.Props.Drift
import Verif.Props.Duration
import Verif.Props.Endless
import Verif.Props.Essence
import Verif.Props.Estimate
import Verif.Props.Events
import Verif.Props.Eventually
import Verif.Props.Extremes
import Verif.Props.Files
import Verif.Props.FloatCertain
import Verif.Props.FloatCommand
import Verif.Props.FloatPredict
import Verif.Props.Histogram
import Verif.Props.Implied
import Verif.Props.Json
import Verif.Props.JsonText
import Verif.Props.Limits
import Verif.Props.LimitsFloat
import Verif.Props.Loading
import Verif.Props.LoadingExamples
import Verif.Props.Log
import Verif.Props.LongRun
import Verif.Props.Makespan
import Verif.Props.Median
import Verif.Props.Messages
import Verif.Props.Month
import Verif.Props.Names
import Verif.Props.NearBest
import Verif.Props.Notation
import Verif.Props.Optimizer
import Verif.Props.Order
import Verif.Props.Overflow
import Verif.Props.PSquare
import Verif.Props.Pace
import Verif.Props.Page
import Verif.Props.PageFloat
import Verif.Props.Params
import Verif.Props.Patience
import Verif.Props.Pessimism
import Verif.Props.PessimismFloat
import Verif.Props.Phases
import Verif.Props.PredictCommand
import Verif.Props.PredictedPageFloat
import Verif.Props.Progress
import Verif.Props.Repeated
import Verif.Props.Resolution
import Verif.Props.Rounding
import Verif.Props.Schedule
import Verif.Props.Serial
import Verif.Props.ShortRuns
import Verif.Props.Simulation
import Verif.Props.Slots
import Verif.Props.Split
import Verif.Props.Stopping
import Verif.Props.Stops
import Verif.Props.Symmetry
import Verif.Props.Teams
import Verif.Props.Temperature
import Verif.Props.Terminal
import Verif.Props.Threads
import Verif.Props.Tuner
import Verif.Props.TunerRun
import Verif.Props.Tunneling
import Verif.Props.Units
import Verif.Props.Vector2D
import Verif.Props.Visualizer
import Verif.Props.WorstPageFloat
import Lean.Elab.Command
import Lean.Util.CollectAxioms

/-!
# Axioms of the property theorems

The build fails if a theorem listed in `MANIFEST.json` depends on an axiom other than Lean's three standard ones.
-/

namespace Angonoka
open Lean Elab Command

/-- The theorems listed in `MANIFEST.json` -/
def auditedTheorems : List Name := [
  ``Angonoka.Props.cycles_rejected,
  ``Angonoka.Props.cycle_check_exact,
  ``Angonoka.Props.dependsOn_iff,
  ``Angonoka.Props.cyclic_predicted,
  ``Angonoka.Props.dependencies_declared,
  ``Angonoka.Props.unknown_dependency,
  ``Angonoka.Props.tasks_in_order,
  ``Angonoka.Props.document_order,
  ``Angonoka.Props.agents_keep_identity,
  ``Angonoka.Props.groups_written,
  ``Angonoka.Props.group_indices_stable,
  ``Angonoka.Props.bounds_partial,
  ``Angonoka.Props.zero_duration_accepted,
  ``Angonoka.Props.nan_performance_accepted,
  ``Angonoka.Props.task_ids_unique,
  ``Angonoka.Props.assignment_exclusive,
  ``Angonoka.Props.schema_exact,
  ``Angonoka.Props.schema_error_iff,
  ``Angonoka.Props.assignable_partial,
  ``Angonoka.Props.ungrouped_task_accepted,
  ``Angonoka.Props.split_groups_accepted,
  ``Angonoka.Props.runs_independent,
  ``Angonoka.Props.late_frequency,
  ``Angonoka.Props.written_late_frequency,
  ``Angonoka.Props.percentiles_converge,
  ``Angonoka.Props.patience_never_hurts,
  ``Angonoka.Props.patience_never_hurts_written,
  ``Angonoka.Props.more_threads_can_hurt,
  ``Angonoka.Props.patience_finds_best,
  ``Angonoka.Props.patience_pays,
  ``Angonoka.Props.document_patience_pays,
  ``Angonoka.Props.float_document_patience_pays,
  ``Angonoka.Props.histogram_estimates,
  ``Angonoka.Props.estimates_converge,
  ``Angonoka.Props.runs_within_partial,
  ``Angonoka.Props.worst_case_fits_partial,
  ``Angonoka.Props.runs_within_float_partial,
  ``Angonoka.Props.worst_case_fits_float_partial,
  ``Angonoka.Props.worst_case_to_page_float_partial,
  ``Angonoka.Props.overlong_run_aborts,
  ``Angonoka.Props.runs_unbounded,
  ``Angonoka.Props.prediction_may_abort,
  ``Angonoka.Props.abort_probability,
  ``Angonoka.Props.Month.month_aborts,
  ``Angonoka.Props.float_overlong_run_aborts,
  ``Angonoka.Props.float_abort_probability,
  ``Angonoka.Props.Month.float_month_aborts,
  ``Angonoka.Props.serial_update,
  ``Angonoka.Props.serial_rounds,
  ``Angonoka.Props.serial_optimize,
  ``Angonoka.Props.serial_schedule,
  ``Angonoka.Props.serial_predict,
  ``Angonoka.Props.serial_program,
  ``Angonoka.Props.text_bytes,
  ``Angonoka.Props.file_bytes,
  ``Angonoka.Props.written_iff_utf8,
  ``Angonoka.Props.bytes_program,
  ``Angonoka.Props.document_names_partial,
  ``Angonoka.Props.float_document_names_partial,
  ``Angonoka.Props.prediction_names_partial,
  ``Angonoka.Props.float_prediction_names_partial,
  ``Angonoka.Props.names_not_any_text,
  ``Angonoka.Props.order_defects,
  ``Angonoka.Props.order_loads,
  ``Angonoka.Props.order_plans,
  ``Angonoka.Props.order_does_not_matter,
  ``Angonoka.Props.order_float,
  ``Angonoka.Props.eligibility,
  ``Angonoka.Props.names_load,
  ``Angonoka.Props.names_output,
  ``Angonoka.Props.names_do_not_matter,
  ``Angonoka.Props.unit_of_time,
  ``Angonoka.Props.unit_of_time_document,
  ``Angonoka.Props.unit_of_time_float,
  ``Angonoka.Props.unit_of_time_document_float,
  ``Angonoka.Props.simulated_unit,
  ``Angonoka.Props.simulations_unit,
  ``Angonoka.Props.notation_load,
  ``Angonoka.Props.notation_does_not_matter,
  ``Angonoka.Props.default_performance,
  ``Angonoka.Props.default_groups,
  ``Angonoka.Props.default_subtasks,
  ``Angonoka.Props.default_texts_rejected,
  ``Angonoka.Props.Sample.default_group_aborts,
  ``Angonoka.Props.gloomier_runs_partial,
  ``Angonoka.Props.gloomier_run,
  ``Angonoka.Props.gloomier_document_partial,
  ``Angonoka.Props.gloomier_runs_float_partial,
  ``Angonoka.Props.Gloom.gloomier_not_longer,
  ``Angonoka.Props.plans_faster,
  ``Angonoka.Props.pace_does_not_matter,
  ``Angonoka.Props.simulated_faster,
  ``Angonoka.Props.simulations_faster,
  ``Angonoka.Props.pace_float,
  ``Angonoka.Props.implied_schedules,
  ``Angonoka.Props.implied_reset,
  ``Angonoka.Props.implied_update,
  ``Angonoka.Props.implied_search,
  ``Angonoka.Props.implied_simulation,
  ``Angonoka.Props.implied_plans,
  ``Angonoka.Props.implied_do_not_matter,
  ``Angonoka.Props.implied_float,
  ``Angonoka.Props.Site.initial_differs,
  ``Angonoka.Props.teams_plan,
  ``Angonoka.Props.part_plan,
  ``Angonoka.Props.teams_independent,
  ``Angonoka.Props.teams_float,
  ``Angonoka.Props.one_agent,
  ``Angonoka.Props.enough_agents,
  ``Angonoka.Props.one_agent_float,
  ``Angonoka.Props.enough_agents_float,
  ``Angonoka.Props.only_essence_matters,
  ``Angonoka.Props.index_limits,
  ``Angonoka.Props.prediction_contains_schedule,
  ``Angonoka.Props.display_does_not_matter,
  ``Angonoka.Props.display_never_fails,
  ``Angonoka.Props.bin_size_is_resolution,
  ``Angonoka.Props.wider_bins,
  ``Angonoka.Props.search_stops,
  ``Angonoka.Props.predict_search_stops,
  ``Angonoka.Props.log_stops,
  ``Angonoka.Props.split_plan,
  ``Angonoka.Props.splitting_never_hurts,
  ``Angonoka.Props.splitting_float,
  ``Angonoka.Props.Walls.splitting_can_help,
  ``Angonoka.Props.phases_plan,
  ``Angonoka.Props.phases_add,
  ``Angonoka.Props.phases_float,
  ``Angonoka.Props.load_safe_partial,
  ``Angonoka.Props.load_errors,
  ``Angonoka.Props.load_iff,
  ``Angonoka.Props.load_unsafe,
  ``Angonoka.Props.degenerate_unsafe,
  ``Angonoka.Props.duration_language_partial,
  ``Angonoka.Props.duration_undefined_iff,
  ``Angonoka.Props.duration_total,
  ``Angonoka.Props.duration_unambiguous,
  ``Angonoka.Props.duration_huge_number,
  ``Angonoka.Props.duration_overflow,
  ``Angonoka.Props.duration_short,
  ``Angonoka.Props.documented_example_rejected,
  ``Angonoka.Props.durations_add,
  ``Angonoka.Props.verbose_exact,
  ``Angonoka.Props.verbose_zero,
  ``Angonoka.Props.verbose_roundtrip,
  ``Angonoka.Props.verbose_month_unreadable,
  ``Angonoka.Props.humanize_accurate,
  ``Angonoka.Props.params_faithful,
  ``Angonoka.Props.params_performance_between,
  ``Angonoka.Props.params_wellFormed,
  ``Angonoka.Props.normalised_sum,
  ``Angonoka.Props.normalised_makespan,
  ``Angonoka.Props.tables_are_values,
  ``Angonoka.Props.initialSchedule_valid,
  ``Angonoka.Props.mutate_valid,
  ``Angonoka.Props.mutate_connected,
  ``Angonoka.Props.makespan_feasible,
  ``Angonoka.Props.makespan_minimal,
  ``Angonoka.Props.makespan_history_free,
  ``Angonoka.Props.makespan_lower_bounds,
  ``Angonoka.Props.makespan_upper_bound,
  ``Angonoka.Props.makespan_bounds_exact,
  ``Angonoka.Props.makespan_monotone,
  ``Angonoka.Props.tunneling_best_valid,
  ``Angonoka.Props.tunneling_monotone,
  ``Angonoka.Props.tunneling_best_ever,
  ``Angonoka.Props.tunneling_no_violation,
  ``Angonoka.Props.tunneling_ranges,
  ``Angonoka.Props.tunneling_copy_partial,
  ``Angonoka.Props.tunneling_copy_after_reset_partial,
  ``Angonoka.Props.tunneling_copy_exchanges,
  ``Angonoka.Props.stun_value_exact_partial,
  ``Angonoka.Props.stun_value_stale,
  ``Angonoka.Props.stun_stale_decision,
  ``Angonoka.Props.temperature_nonneg_partial,
  ``Angonoka.Props.temperature_negative,
  ``Angonoka.Props.temperature_update_rule,
  ``Angonoka.Props.temperature_update_exact,
  ``Angonoka.Props.volatility_shape,
  ``Angonoka.Props.volatility_strict,
  ``Angonoka.Props.temperature_new_iff,
  ``Angonoka.Props.curve_exact,
  ``Angonoka.Props.curve_no_fit,
  ``Angonoka.Props.optimizer_best_of_jobs,
  ``Angonoka.Props.optimizer_interleaving,
  ``Angonoka.Props.optimizer_interleaving_progress,
  ``Angonoka.Props.optimizer_terminates,
  ``Angonoka.Props.optimizer_progress,
  ``Angonoka.Props.optimizer_result,
  ``Angonoka.Props.optimizer_monotone,
  ``Angonoka.Props.optimizer_epochs,
  ``Angonoka.Props.optimizer_epoch_step,
  ``Angonoka.Props.rebind_partial,
  ``Angonoka.Props.rebind_reports_old,
  ``Angonoka.Props.rebind_uses_old_times,
  ``Angonoka.Props.copy_independent_partial,
  ``Angonoka.Props.copy_shares_generators,
  ``Angonoka.Props.copy_dangles,
  ``Angonoka.Props.schedule_events,
  ``Angonoka.Props.predict_events,
  ``Angonoka.Props.schedule_returns,
  ``Angonoka.Props.predict_returns,
  ``Angonoka.Props.consumer_in_order,
  ``Angonoka.Props.consumer_returns,
  ``Angonoka.Props.predict_consumed,
  ``Angonoka.Props.schedule_consumed,
  ``Angonoka.Props.failed_prediction_hangs,
  ``Angonoka.Props.failed_schedule_hangs,
  ``Angonoka.Props.consumer_hangs,
  ``Angonoka.Props.short_prediction_fails,
  ``Angonoka.Props.failure_not_reported,
  ``Angonoka.Props.quiet_failure_reported_partial,
  ``Angonoka.Props.log_open_before_use,
  ``Angonoka.Props.log_rows,
  ``Angonoka.Props.simulation_feasible,
  ``Angonoka.Props.drawn_bounds,
  ``Angonoka.Props.simulation_history_free,
  ``Angonoka.Props.simulation_reusable,
  ``Angonoka.Props.simulation_local,
  ``Angonoka.Props.simulation_deterministic,
  ``Angonoka.Props.histogram_exact,
  ``Angonoka.Props.histogram_order,
  ``Angonoka.Props.histogram_index,
  ``Angonoka.Props.percentiles_ordered,
  ``Angonoka.Props.percentiles_conservative,
  ``Angonoka.Props.percentiles_fraction,
  ``Angonoka.Props.percentiles_exact_partial,
  ``Angonoka.Props.percentiles_located,
  ``Angonoka.Props.percentiles_wrong,
  ``Angonoka.Props.resolution,
  ``Angonoka.Props.resolution_short,
  ``Angonoka.Props.histogram_batches,
  ``Angonoka.Props.histogram_safe,
  ``Angonoka.Props.schedule_json,
  ``Angonoka.Props.schedule_json_exact,
  ``Angonoka.Props.short_schedule_violates,
  ``Angonoka.Props.json_makespan,
  ``Angonoka.Props.histogram_json,
  ``Angonoka.Props.failed_load_reported,
  ``Angonoka.Props.oversized_project_aborts,
  ``Angonoka.Props.cursor_restored_partial,
  ``Angonoka.Props.cursor_visible_at_end,
  ``Angonoka.Props.cursor_left_hidden,
  ``Angonoka.Props.quiet_prints_nothing,
  ``Angonoka.Props.curve_least_squares,
  ``Angonoka.Props.schedule_command,
  ``Angonoka.Props.schedule_command_general,
  ``Angonoka.Props.moderate_executions,
  ``Angonoka.Props.messages_true_partial,
  ``Angonoka.Props.rejection_explained,
  ``Angonoka.Props.message_names_group,
  ``Angonoka.Props.message_zero_negative,
  ``Angonoka.Props.predict_command,
  ``Angonoka.Props.stopping_rule_partial,
  ``Angonoka.Props.stopping_rule_fails,
  ``Angonoka.Props.enough_runs,
  ``Angonoka.Props.first_change,
  ``Angonoka.Props.stops_if_equal,
  ``Angonoka.Props.short_runs_fail,
  ``Angonoka.Props.certain_prediction_partial,
  ``Angonoka.Props.float_certain_prediction_partial,
  ``Angonoka.Props.stops_if_equal_float,
  ``Angonoka.Props.histogram_constant,
  ``Angonoka.Props.deterministic_value,
  ``Angonoka.Props.endless_prediction,
  ``Angonoka.Props.makespan_rounding,
  ``Angonoka.Props.timetable_rounding,
  ``Angonoka.Props.float_json,
  ``Angonoka.Props.float_makespan_early,
  ``Angonoka.Props.float_schedule_command,
  ``Angonoka.Props.timeline_exact,
  ``Angonoka.Props.agent_info_exact,
  ``Angonoka.Props.loaded_names,
  ``Angonoka.Props.timeline_float_partial,
  ``Angonoka.Props.strip_sticks_out,
  ``Angonoka.Props.strips_overlap,
  ``Angonoka.Props.bars_true,
  ``Angonoka.Props.labels_right_partial,
  ``Angonoka.Props.labels_wrong,
  ``Angonoka.Props.accepted_options_partial,
  ``Angonoka.Props.command_line_schedules,
  ``Angonoka.Props.octal_period,
  ``Angonoka.Props.tiny_beta,
  ``Angonoka.Props.nan_accepted,
  ``Angonoka.Props.empty_output,
  ``Angonoka.Props.options_as_given,
  ``Angonoka.Props.options_rejected,
  ``Angonoka.Props.optimizer_gets,
  ``Angonoka.Props.predict_optimizer_gets,
  ``Angonoka.Props.eligible_document,
  ``Angonoka.Props.documented_eligibility_partial,
  ``Angonoka.Props.documented_eligibility_sound,
  ``Angonoka.Props.coffee_not_documented,
  ``Angonoka.Props.document_to_schedule,
  ``Angonoka.Props.schedulable_sound,
  ``Angonoka.Props.sound_schedulable,
  ``Angonoka.Props.document_waits,
  ``Angonoka.Props.document_to_schedule_float,
  ``Angonoka.Props.float_predict_command,
  ``Angonoka.Props.document_to_prediction_float,
  ``Angonoka.Props.simulated_float_of_call,
  ``Angonoka.Props.percentiles_float,
  ``Angonoka.Props.simulation_rounding,
  ``Angonoka.Props.prediction_ends,
  ``Angonoka.Props.float_prediction_ends,
  ``Angonoka.Props.histogram_completes,
  ``Angonoka.Props.run_completes,
  ``Angonoka.Props.stable_stops,
  ``Angonoka.Props.document_to_prediction,
  ``Angonoka.Props.simulated_of_call,
  ``Angonoka.Props.simulations_of_runs,
  ``Angonoka.Props.duration_62,
  ``Angonoka.Props.short_durations,
  ``Angonoka.Props.average_fits_partial,
  ``Angonoka.Props.average_overflow,
  ``Angonoka.Props.read_schedule,
  ``Angonoka.Props.read_prediction,
  ``Angonoka.Props.timelines_timetable,
  ``Angonoka.Props.document_to_page,
  ``Angonoka.Props.document_to_predicted_page,
  ``Angonoka.Props.document_to_page_float,
  ``Angonoka.Props.prediction_to_page_float,
  ``Angonoka.Props.project_source,
  ``Angonoka.Props.paste_opens,
  ``Angonoka.Props.paste_rejected,
  ``Angonoka.Props.message_shown_partial,
  ``Angonoka.Props.upload_opens,
  ``Angonoka.Props.upload_cancelled,
  ``Angonoka.Props.upload_silent,
  ``Angonoka.Props.click_opens,
  ``Angonoka.Props.panel_true_partial,
  ``Angonoka.Props.panel_closed,
  ``Angonoka.Props.panel_stale,
  ``Angonoka.Props.quantiles_bounds,
  ``Angonoka.Props.estimates_aim,
  ``Angonoka.Props.psquare_constant,
  ``Angonoka.Props.rule_answers,
  ``Angonoka.Props.stopping_rule_seconds,
  ``Angonoka.Props.document_to_estimates,
  ``Angonoka.Props.float_estimates_end,
  ``Angonoka.Props.certain_estimates,
  ``Angonoka.Props.short_runs_estimates,
  ``Angonoka.Props.log_file_partial,
  ``Angonoka.Props.log_only_if_asked,
  ``Angonoka.Props.log_quiet,
  ``Angonoka.Props.log_missing,
  ``Angonoka.Props.tuner_accepted,
  ``Angonoka.Props.tuner_reads_makespan,
  ``Angonoka.Props.tuner_run,
  ``Angonoka.Props.float_tuner_run,
  ``Angonoka.Props.score_mono,
  ``Angonoka.Props.objective_mono,
  ``Angonoka.Props.objective_exact,
  ``Angonoka.Props.unwritable_output_reported,
  ``Angonoka.Props.unused_log_ignored,
  ``Angonoka.Props.unopened_log_aborts,
  ``Angonoka.Props.success_has_result_partial,
  ``Angonoka.Props.failure_has_no_result,
  ``Angonoka.Props.success_without_result,
  ``Angonoka.Props.text_progress,
  ``Angonoka.Props.bar_width_partial,
  ``Angonoka.Props.bar_none,
  ``Angonoka.Props.narrow_terminal_aborts,
  ``Angonoka.Props.mutation_symmetric,
  ``Angonoka.Props.chances_complete,
  ``Angonoka.Props.uniform_preserved,
  ``Angonoka.Props.valid_finite,
  ``Angonoka.Props.even_exists,
  ``Angonoka.Props.project_mutation_symmetric,
  ``Angonoka.Props.file_is_json,
  ``Angonoka.Props.json_unambiguous,
  ``Angonoka.Props.file_determines,
  ``Angonoka.Props.reader_exists,
  ``Angonoka.Props.file_read,
  ``Angonoka.Props.text_to_page,
  ``Angonoka.Props.text_to_predicted_page,
  ``Angonoka.Props.mutations_needed,
  ``Angonoka.Props.best_reachable,
  ``Angonoka.Props.best_schedule_written,
  ``Angonoka.Props.document_best_schedule,
  ``Angonoka.Props.document_best_float,
  ``Angonoka.Props.plan_has_schedule,
  ``Angonoka.Props.execution_is_plan,
  ``Angonoka.Props.best_bounds_plans,
  ``Angonoka.Props.plan_document,
  ``Angonoka.Props.threads_do_not_matter,
  ``Angonoka.Props.threads_converge,
  ``Angonoka.Props.threads_no_violation,
  ``Angonoka.Props.threads_separate,
  ``Angonoka.Props.threads_finish,
  ``Angonoka.Props.rolling_mean_exact_partial,
  ``Angonoka.Props.averageStun_exact,
  ``Angonoka.Props.optimizer_samples,
  ``Angonoka.Props.rolling_mean_near_partial,
  ``Angonoka.Props.rolling_mean_thousand,
  ``Angonoka.Props.averageStun_float,
  ``Angonoka.Props.rolling_mean_residue,
  ``Angonoka.Props.document_makespan_bounds,
  ``Angonoka.Props.document_makespan_bounds_float,
  ``Angonoka.Props.plan_chain,
  ``Angonoka.Props.plan_work,
  ``Angonoka.Props.more_help_never_hurts,
  ``Angonoka.Props.eased_plan,
  ``Angonoka.Props.help_float,
  ``Angonoka.Props.more_help_float,
  ``Angonoka.Props.best_with_chance,
  ``Angonoka.Props.document_best_with_chance,
  ``Angonoka.Props.document_near_best,
  ``Angonoka.Props.document_plan_float,
  ``Angonoka.Props.writes_about,
  ``Angonoka.Props.late_runs,
  ``Angonoka.Props.late_given_performance,
  ``Angonoka.Props.makespan_optimistic]

run_cmd
  for n in auditedTheorems do
    unless (← getEnv).find? n matches some (.thmInfo _) do
      throwError "{n} is not a theorem"
    for a in ← liftCoreM (collectAxioms n) do
      unless [``propext, ``Classical.choice, ``Quot.sound].contains a do
        throwError "{n} depends on the axiom {a}"
  logInfo m!"{auditedTheorems.length} theorems depend on propext, Classical.choice and Quot.sound at most"

end Angonoka
