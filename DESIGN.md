# Formal model of angonoka: design

`/repo` is a C++20 program that loads a YAML project (agents, tasks, groups,
dependencies), searches for a short schedule by stochastic tunneling on
several threads, and estimates the project length by Monte-Carlo simulation.
This directory contains a Lean 4 model of that code and machine-checked
proofs about it. The properties are listed in `properties.jsonl`; the theorem
that settles each of them is listed in `MANIFEST.json`.

## Layout

* `lean/Verif/Base` - outcome monad, floating-point environments, IEEE single precision.
* `lean/Verif/Model` - the code, function by function. Every definition cites
  the file and lines it models and says where it simplifies.
* `lean/Verif/Spec` - small, independent definitions used in theorem statements
  (valid schedule, feasible execution, grammar of durations, ...). Specs
  use the data types of the API, not the model's helper functions.
* `lean/Verif/Proof` - helper lemmas.
* `lean/Verif/Props` - the property theorems, each next to a concrete example
  that satisfies its hypotheses.
* `lean/Verif/Audit.lean` - makes the build fail if a theorem listed in `MANIFEST.json` depends on
  an unexpected axiom.
* `seeded/LOG.jsonl` - record of wrong models tried against the theorems.

## Trusted base

* Lean 4.33.0's kernel and the axioms `propext`, `Classical.choice`,
  `Quot.sound` (Lean's standard ones). No axioms are added, there is no `sorry`
  and no `native_decide`/`bv_decide`. `Verif/Audit.lean` checks the axioms of
  every theorem in `MANIFEST.json` during the build.
* The correspondence of the model with the C++ text, which was established by
  reading: the sandbox can neither build nor run the project.
* The semantics given below to things outside the code.

## Modelling decisions

**Outcomes.** A computation ends in `ok value`, `throws error` (a C++
exception) or `ub site` (a violated gsl contract, an out-of-range access or
another undefined behaviour). In debug builds violated contracts throw, in release builds the compiler
assumes that they hold (`meson.build:21-32`). Theorems that say "never violates a contract" say
that the outcome is not `ub`.

**Integers.** `int8` is `boost::safe_numerics::safe<std::int_fast8_t>`: leaving
-128..127 throws. Indices are modelled as `Nat` with an explicit range check
wherever the code converts to `int8`. Seconds are `Int`. `int32`
(`int_fast32_t`, 64 bits on the supported platform) is modelled as unbounded
`Int`; durations are checked
(`parse_duration` and `Duration::average` are `ub` from 2^63 on), overflow of other 64-bit counts is not modelled. Conversions of `float` to integers are checked: out of range is `ub`.

**Floating point.** A `float` is an element of an ordered field `K` (rationals or reals); an operation is the
exact operation followed by `rnd`. A `FloatEnv K` consists of `rnd`, any monotone, idempotent, odd function that fixes
1 and twice any value in its range; `exp` (nonnegative, at most 1 for nonpositive arguments); `log`; and `slack`, at most 900
and 0 in exact arithmetic: how far Boost's incremental rolling mean of nonnegative values may fall below zero through rounding (the rolling mean
itself is computed step by step with `rnd`, see `Temperature.averageStun`). Theorems quantified over all `FloatEnv`s hold for exact arithmetic (`rnd = id`) and for IEEE
binary32 with rounding to nearest even, subnormals included. `Base/Binary32.lean` constructs that instance
(`FloatEnv.binary32`; `FloatEnv.float` on the reals with the real `exp` and `log`), proves its laws, that integers up to 2^24 are exact, and that the
relative error is at most 2^-24 from 2^-126 on. `Base/RealEnv.lean` has exact real arithmetic.
Overflow to infinity is not modelled: the largest results of the code are products of durations and multipliers, and theorems about `float`s
have hypotheses that keep results far from 2^128. Infinities and NaN
appear in the loader, where the configuration can introduce them, and as `ub` where the code divides 0 by 0;
elsewhere finiteness is a hypothesis. `-ffast-math` (release builds) permits reassociation and reciprocals, which are not
modelled. Where a property is an algebraic identity (normalisation, curve fit, makespan in seconds) it is stated for exact
arithmetic; C67 and C68 say how far single precision deviates.

**Randomness.** Random generators are arbitrary oracles: every theorem holds for
every sequence of drawn values that respects the range of the drawing function. Loops that redraw until a value is acceptable may
use up any finite list of numbers; the model says so (`none`) and theorems treat it as "still running".

**Threads.** The parallel loop over jobs: `Model/Optimizer` runs the jobs one after the other, each with its own random numbers. `Model/Threads` has the
slots with their pointers and generators, and a step of any job at any time; C93 shows that it comes to the same (`Props/Slots` is about the generators
of copied optimizers). The prediction
thread and the main thread share one queue; they are modelled as arbitrary interleavings of atomic steps (`Model/Events`). Signals may arrive
between any two steps, on any thread (`Model/Terminal`). `Model/Optimizer` has the branches with `ANGONOKA_OPENMP`; those without it, and all callers of them up to `main`, are in
`Model/Serial`, and C107 shows that they are the case of one thread.

**YAML.** yaml-cpp's parser is not modelled: the loader starts from a finite
tree of null/scalar/sequence/map nodes. Anchors that make a tree cyclic, tags
and undefined nodes are outside the model. Conversion of scalar text to
`float` is a parameter (`ReadFloat`); theorems about rounding suppose that it returns `float`s (`FloatsIn`).

**Recursion and loops.** Recursive C++ functions are modelled by well-founded recursion or by a
depth bound that is proved sufficient. Loops that need not end have `fuel`; theorems say what holds for every amount of fuel, and that some amount
suffices where the loop terminates. Stack overflow is not modelled.

**Command line.** CLI11 2.1.1 (the version in `conan.lock`) is not in the repository. What the model uses of it is listed at the top of
`Model/CommandLine`: `int` options are read by `strtoll` with base 0, `float` options by `strtold` (a parameter, `ReadReal`), and
`PositiveNumber` is a range of `double`s.

**Boost's rolling mean.** `rolling_mean` is `immediate_rolling_mean` (`Base/RollingMean`): it is corrected with every sample and rounded every time. It is written down from
knowledge of Boost 1.77, since the source is not in the repository; reassociation by `-ffast-math` is not modelled. One simplification: in `Temperature`, the mean
does not fall below `-slack`, a number of the floating-point environment (0 in exact arithmetic, 900 for `binary32`). `averageStun_exact` and `averageStun_float` say that this makes no
difference in exact arithmetic, nor in single precision for the first 83 million iterations since a reset.

**Boost's quantile estimator.** `extended_p_square` is a parameter of `Stopping`; `PSquare` is Raatikainen's algorithm as Boost implements it,
written down from knowledge of Boost, since its source is not in the repository. Actual positions of markers are whole numbers; the code has
`float`s, which is the same for up to 2^24 results (with more, the last position stays at 2^24).

**JavaScript.** Numbers of the visualizer are integers where they come from the program's file; divisions are rounded by an arbitrary
function `D`, and theorems say for which `D` they hold.

**Printing.** `Model/Cli` is a list of effects (texts to stdout and stderr, the progress bar, the log, the output file with
a JSON tree). `Model/JsonText` is the text of a JSON tree, from knowledge of nlohmann/json's serializer; names are Unicode strings. `Model/Bytes` has
names of bytes, from knowledge of nlohmann/json's UTF-8 decoder and of yaml-cpp, which copies the bytes of a file (C108).

## Which parts of the code are modelled

| code | model | not modelled |
|------|-------|--------------|
| `config/load.cpp`, `validation.h`, `agents.cpp`, `tasks.cpp` | `Validation`, `Agents`, `Tasks`, `Cycles`, `Load` | reading the file |
| `config/parse_duration.rl.cpp` | `Duration` (the automaton that the Ragel grammar denotes) | `std::atoi` beyond `INT_MAX` is `ub`, as is a sum of 2^63 seconds or more |
| `project.{h,cpp}` | `Project` | |
| `stun/schedule_params`, `schedule.h` | `Schedule`, `Vector2D` (addresses) | constructor from arbitrary spans (tests only) |
| `stun/utils` (Makespan, Mutator), `random_utils` | `Makespan`, `Mutator` | the generators themselves |
| `stun/stochastic_tunneling`, `temperature`, `exp_curve_fitter` | `Stun`, `Temperature`, `ExpCurve`, `Base/RollingMean` | |
| `stun/optimizer`, `optimizer_job` | `Optimizer`, `Slots`, `Threads` (pointers, steps of threads in any order), `Serial` (the build without OpenMP) | the memory of copies and resets of optimizers in `Threads` |
| `simulation.cpp`, `histogram.cpp` | `Simulation`, `Histogram`, `HistogramOp`, `Stats`, `Stopping`, `PSquare` | Boost's source of `extended_p_square` is not in the repository (see below) |
| `predict.cpp` | `Predict` | thread creation |
| `cli/events`, `cli.cpp`, `schedule.cpp`, `utils.h`, `exceptions.cpp`, `main.cpp` | `Events`, `Cli`, `Json`, `JsonText`, `Bytes`, `CommandLine` | how CLI11 splits arguments into options, its messages; spdlog |
| `cli/terminal.cpp`, `progress.cpp` | `Terminal`, `Progress` | indicators library |
| `cli/verbose.h`, `humanize.h` | `Format` | |
| `tools/visualizer` (`App.tsx`, `AgentTimeline.tsx`, `TaskStrip.tsx`, `Histogram.tsx`) | `Visualizer` | reading JSON text, number formatting, React, style sheets |
| `tools/visualizer` (`OpenDialog.tsx`, `ProjectPaste.tsx`, `ProjectUpload.tsx`, `InfoPanel.tsx`, state of `App.tsx`, `types.ts`) | `Page` (handlers as steps of a state machine) | `JSON.parse` (any function that reads every JSON text, C90), dayjs and `toFixed` (parameters); when React renders |
| `tools/hyperparameters` (Python) | `Tuner` (the command line of a trial, reading the log, the value of a run and of a trial); `tasks.yml` is a literal in `Props/TunerRun` | Optuna, the storage, the clock; that the log file holds nothing but this run's log |

## What was found

Properties that the code does not have; each has a witness theorem, and what does hold is proved as `..._partial`.

* C06: `0s` and NaN performances are accepted.
* C10: documents are accepted in which nobody can do a task: a task without groups when all agents have groups, and a task whose
  groups no single agent has.
* C13: empty texts in four places violate preconditions instead of being reported.
* C14: the header's own example `1h 15min` is rejected (`15min` is not in the grammar); numbers beyond `INT_MAX` are undefined
  behaviour. `verbose` prints months as `mo`, which cannot be read back.
* C14, C79: a duration of more than 11000 characters can overflow 64 bits although all its numbers fit an `int`
  (`duration_overflow`), and one of more than 5000 can be accepted but overflow `Duration::average` (`average_overflow`).
* C32, C33: copying `StochasticTunneling` after an odd number of swaps exchanges schedules; the acceptance test uses the STUN value of another
  schedule after an improvement.
* C34: the temperature becomes negative for accepted beta scales above 1/0.03.
* C42, C43: `params(...)` does not reach the makespan estimator; copies of an optimizer draw from the original's generators.
* C46: a failing prediction thread never enqueues `Finished`, the main thread waits forever.
* C52: `stats` advances to the next bin after every percentile, so a percentile can be reported one or more bins too high.
* C55: a project that takes less than a second has makespan 0, which violates a contract of `to_json`, `granularity` and others.
* C58 (caveat): a project with too many tasks ends in an unexpected exception, which is rethrown and aborts.
* C59: the cursor stays hidden when the signal arrives between clearing the flag and flushing.
* C63: `NoSuitableAgent` names the group instead of the task (`config/tasks.cpp:66`); performance 0 is called negative.
* C65: a zero quantile makes the next comparison 0/0, violating a contract.
* C67: in single precision the JSON makespan can be a second earlier than the end of the last task in the same file.
* C69: in single precision, strips in the visualizer can stick out at the end of the timeline, and overlap beyond 2^24 seconds.
* C70: the visualizer's percentile labels are on the bar after the percentile's bin, for every bin size but 1.
* C71: `--restart-period 016` passes the check for powers of two as 16 and is used as octal 14; `--beta-scale 1e-50` is 0 as a `float`;
  `nan` passes as a positive number; `-o ""` is accepted. All of these end in violated contracts.
* C73: the README says that agents with groups can do tasks without groups ("All 3 agents can Make coffee"); the program allows it only for
  agents without groups.
* C81: in the visualizer, a file that is not JSON is ignored without a message, unlike pasted text; a file is also ignored if the dialog is closed
  before it has been read.
* C82: the information panel stays when another project is opened, and is about the old one.
* C84: with `--quiet`, `--log-optimization-progress` writes no log (`log_quiet`, `log_missing`), since the events are not consumed.
* C86: if the optimization log cannot be opened, `std::system_error` is not caught: the program aborts after it has hidden the cursor, without
  the message and status that an input or output file would get (`unopened_log_aborts`).
* C87: writing the output file is not checked (the stream catches the exception of its buffer and sets a flag, its destructor ignores
  failures), so with a full disk the program says that the result is saved and exits with status 0 (`success_without_result`). This
  rests on the documented behaviour of output streams and of Boost.Iostreams' destructor, whose sources are not part of the repository.
* C88: `terminal_width` accepts 5 to 8 columns, from which nine are subtracted; the negative width of the bar is an exception that nobody
  catches (`narrow_terminal_aborts`). That the conversion to `size_t` is checked is what Boost's safe numbers are documented to do.
* C94: the rolling means of the temperature and of the stopping rule keep rounding errors for ever. The mean of non-negative numbers can be negative
  (`rolling_mean_residue`). The first error of the stopping rule is the makespan in seconds less one; for about a quarter of the makespans between nine days and five weeks (computed, not proved) its residue
  is above the limit of 0.01 when all runs are equal. So the prediction for one task of 30 days never ends (`endless_prediction`). Below 25 hours it does end (`float_certain_prediction_partial`).
* C106: min and max of durations and performances are not limits: they are two standard deviations from the mean, and samples are only rejected if they are not positive. A
  performance can be arbitrarily near 0, so runs are unbounded (`runs_unbounded`). If a run takes more than 2³¹ seconds and a bin, the conversion of the start of its bin to
  `int` throws in `to_json`, which nobody catches: the program aborts after the whole simulation and after printing the estimation, without an output file (`overlong_run_aborts`,
  `prediction_may_abort`). For one agent with performance 0.5 to 1.5 (as in the README) and a task of 30 days, this happens in at least 6.46 of ten million runs, and a
  prediction has at least ten thousand runs: at least 6 of 1000 predictions abort (`abort_probability`, `Month.month_aborts`);
  in single precision at least 5 (`float_abort_probability`, `Month.float_month_aborts`).
* C114: for random numbers beyond two standard deviations a more pessimistic estimate can make a simulated run shorter, since the standard deviation is a quarter of the distance of
  min and max, and since numbers that were rejected before may be accepted (`Gloom.gloomier_not_longer`).
* C108: a name that is not UTF-8 (a document in ISO 8859-1 with a task named "Büro") aborts the program after the whole optimization, with an exception of nlohmann/json that
  is not a `std::runtime_error` and that nobody catches; the output file has been truncated (`names_not_any_text`).
* C103: more threads can give a worse makespan with the same random numbers for the first thread (`more_threads_can_hurt`), since the best job of each
  round is copied over all the others and their search states are lost. This may well be intended.

Observations that are not theorems:

* The help text of `--log-optimization-progress` (`main.cpp:101`) says `optimization.csv`, but the file is `optimization_log.csv`
  (`cli/events.cpp:24`).
* yaml-cpp passes bytes of a name on unchecked. If they are not UTF-8 (a file in Latin-1, say), nlohmann/json's serializer throws `type_error` 316
  when the finished result is saved (`cli/schedule.cpp:202`, `cli/cli.cpp:171`). This is not a `std::runtime_error`, so nobody catches it and the program aborts.


## Wrong models

`seeded/LOG.jsonl` records edits of the model that a realistic bug would make, and what the build said. An entry is weaker than it looks: a build that fails shows
that a proof script no longer works, not that the statement it proves has become false. `failed_theorems` are the declarations with errors;
`claim_theorems_lost` and `property_theorems_lost` are computed from the dependencies between theorems, so they name everything that uses a failed lemma,
whether or not it is still true. The field `evidence` tells the cases apart:

* `refuted`: the negation of a claimed statement was proved for the edited model.
* `proof of claim failed`: an error in the proof of a theorem that the manifest lists for the property.
* `example failed`: no such error, but a concrete case beside the theorems no longer holds.
* `helper proof only`: only proofs of helper lemmas failed. Nothing was shown about the claimed statement; it may still hold for the edited model.
* `helper proof only, claim still true`: as before, and it was found that the claim does hold, so the edit had in fact survived (m288, now excluded by `panel_closed`).
* `harmless`: the edit does not break the claim.
* `none`: nothing failed.

Of the 535 entries, 36 are `refuted`, 100 `proof of claim failed`, 30 `example failed`, 352 `helper proof only`, 1 `helper proof only, claim still true`, 5 `harmless`, 1 `edited model did not compile`, 10 `none`. For most of the log there is hence no direct evidence at the level of the claims. The field was added afterwards; `survived` in older entries only says whether
the build failed.

## Plan per property

| id | what is modelled | how it is proved |
|----|------------------|------------------|
| C01 | `depth_first_search`, `check_for_cycles` on task lists | DFS invariant (black vertices closed and acyclic, grey vertices form a path); soundness and completeness against `Relation.TransGen` |
| C02 | `parse_task*`, second phase | functional correctness of the loader against a pre-order numbering of the document |
| C03 | same | same |
| C04 | `parse_agents` | induction over the agent list |
| C05 | `find_or_insert_group` and its callers | table extension order, induction |
| C06 | `validate_performance`, `parse_duration(node)` | partial: the code accepts `0s` and NaN; negation with witnesses |
| C07 | `parse_task_id` | invariant over the parse |
| C08 | `parse_groups_and_agents` | invariant over the parse |
| C09 | `validation.h` combinators and the schema | equivalence with an inductive predicate on trees |
| C10 | whole loader + `can_work_on` | false: witnesses; partial with the exact extra condition |
| C11 | `can_work_on` | equivalence with a set-theoretic rule |
| C12 | int8 checks in the loader | bounds on the result of any successful load |
| C13 | whole loader with contracts | false: witnesses; partial: no contract violation for documents without the listed degenerate texts; exactly the documents without these and without defects load |
| C14 | Ragel grammar as a nondeterministic automaton / recogniser | equivalence of a deterministic parser with an inductive grammar; unique value |
| C15 | same | from the grammar |
| C16 | `verbose_duration`, formatter | arithmetic; round trip through the parser |
| C17 | `humanize_duration` | arithmetic on ties-to-even rounding |
| C18 | `to_schedule_params`, `Vector2D` | row extraction lemmas |
| C19 | `task_duration` normalisation | exact field arithmetic; scaling lemma for the makespan recurrence |
| C20 | `Vector2D` with addresses | heap-level model with block identities |
| C21 | `push_task`, `initial_schedule` | induction on the recursion; topological order invariant |
| C22 | `Mutator` incl. binary search | preservation proof for every oracle |
| C23 | `Mutator` | bubble-sort argument on linear extensions |
| C24-C28 | `Makespan` with persistent buffers | invariant of the recurrence; comparison with any feasible execution |
| C29-C31 | `StochasticTunneling` with one buffer and three views | state invariant |
| C32, C33 | same | negation with witnesses, partials |
| C34, C35 | `Temperature` | invariant; mask = modulo |
| C36 | `ExpCurveFitter` | weighted least squares algebra |
| C37-C41 | `Optimizer`, `OptimizerJob` | invariants, well-founded measure for termination |
| C42, C43 | parameter/RNG pointers as identities | negation with witnesses, partial |
| C44-C47 | `predict`, `consume_events`, `EventHandler` | trace equality; transition system of two threads |
| C48, C49 | `Simulation` | same recurrence lemmas as C24 |
| C50-C54 | `Histogram`, `stats`, `granularity`, `HistogramOp` | refinement to counting; C52 is false (witness) |
| C55-C57 | JSON output | recurrence lemmas, scaling |
| C58, C60 | `parse_config`, `print` | case analysis |
| C59 | `terminal.cpp` as a transition system with an interrupt at any step | invariant |
| C61 | `ExpCurveFitter` | quadratic minimisation over all parameter pairs |
| C62 | `main`, `parse_config`, `json_schedule`, `schedule` | composition of loading, optimization, recurrence and output theorems; termination by C38 |
| C63 | messages of `exceptions.cpp`, schema paths | inductive predicate of true messages over the document; case analysis of every error of the loader |
| C64 | `run_prediction`, `predict`, `histogram`, `stats` | composition, invariant over batches |
| C65 | `mean_absolute_pct_error`, stopping rule | closed form of the rule over the list of all results; quantile estimator a parameter; last part false (witness) |
| C66 | C64 with `Simulation` without spread | every run gives the same value; the stopping rule is evaluated in closed form. In single precision the residue of the first error in the rolling mean (C94) is bounded by 5/3 · 2^-24 times the makespan, which is less than 0.01 below 100000 seconds; beyond, `endless_prediction` is a counterexample |
| C67 | `task_duration`, `Makespan`, `TaskDurations` in binary32 | rounded and exact recurrences side by side, counting factors of 1 + 2^-23; witness by evaluation |
| C68 | as C62, in binary32 | composition with C67 |
| C69 | `App.tsx`, `AgentTimeline.tsx`, `TaskStrip.tsx` on the entries of `to_json` | priorities of an agent's entries ascend, so sorting keeps the order; whole parts of disjoint intervals are disjoint; two witnesses in single precision |
| C70 | `Histogram.tsx` on the output of `to_json` and `stats` | keys are the multiples of the bin size; the labels are shown to be one bar off, for all histograms |
| C71, C72 | options of `main.cpp`, `stoi`, CLI11's conversions | character-level models of the two ways of reading a number; they agree unless the text starts with 0; witnesses by evaluation; the optimizer's parts are followed through the constructors (`Props/Stops.lean`) |
| C73 | `can_work_on`, `agents.cpp`, `tasks.cpp` | group sets of the loaded project are those of the document; README's example as witness |
| C74, C75 | everything from `main` to the output file | composition of C62/C68/C71 with the faithfulness of loading; statement in `Spec/Documented.lean` uses only document and file |
| C76 | C64 for `Binary32` | composition as for C64; thresholds of multiples of 10000 up to 2²⁴ are exact enough; relative error of an execution as for C67 |
| C77 | `Simulation`, `HistogramOp`, `predict` | a nonnegative number is never rejected (monotone rounding); induction over samples, runs and batches with the count of nonnegative numbers left |
| C78 | everything from `main` to the output file | runs of the simulation are restated on entries of the timetable (`Verif/Spec/DocumentedRun.lean`): samples with the numbers they take, executions by entry instead of by task; combined with C64, C74 and C77 |
| C79 | `parse_duration`, `Duration::average` | partial: by induction on the grammar, each character of a text is worth at most a seventh of `INT_MAX` months, which bounds the value by the length of the text; witnesses for longer texts |
| C80 | C74, C75, C78 with `types.ts`, C69 and C70 | the JSON tree of the file is read back field by field; composition |
| C81 | `OpenDialog.tsx`, `ProjectPaste.tsx`, `ProjectUpload.tsx` | partial: induction over the events; case analysis of a step; a dialog that is closed does not come back; silent upload as witness |
| C82 | `showAgentInfo`, `showTaskInfo`, `InfoPanelState` | partial: invariant "the panel describes the project" over events that bring no project; witness for the others |
| C83 | `PSquare` with C65, C66, C77, C78 | invariant of the markers: positions strictly ascending, heights ascending, between the extremes and representable; the linear formula stays between neighbours since a rounded half of a difference is at most the difference (`Halves`); induction over results |
| C84 | `EventHandler`, `optimize`, `Optimizer`, both commands | partial: events of a run are the rounds up to the first converged one; invariant of the optimizer at every round; conversion to seconds is monotone for monotone rounding; inversion of a successful run; a successful quiet run as witness |
| C85 | `hyperparameters.py`, `tasks.yml`, `main`, the log | the suggested numbers in decimal notation (`Verif/Spec/Tuner.lean`) are read back with C72; the document is loaded by evaluation, has no spread, so C66 applies; the last line of the log text is the last row of C84; the value is monotone for monotone rounding |
| C86 | `EventHandler`, `save_schedule_json`, `save_prediction_json`, `main` | partial: a run with the file closed is compared with the run of the same machine with the file open, which is assumed to be successful; everything before the file is opened is the same function of the rest; witness for the log |
| C87 | `main`, both commands | partial: nothing before saving writes the output file (a property of all effects); case analysis of saving; full disk as witness |
| C88 | `ProgressText`, `ProgressBar`, `terminal_width` | partial: induction over the updates with the time of the last line; linear arithmetic for the width; narrow terminal as witness in a run |
| C89 | `Mutator`, `uniform_int` | double counting: an attempted swap is its own inverse on valid schedules, and the number of draws that change one agent is symmetric and invariant under the swap |
| C90 | `output << std::setw(4) << json` | structural induction over values for the grammar; unambiguity by a reader that is proved to understand every text of the grammar |
| C91 | `Mutator`, `StochasticTunneling`, `Optimizer` | induction over the tasks of the goal: the next task is moved to its place by swaps and gets its agent with two steps; the draws are put together for the jobs; an acceptance draw of 0 accepts every step; in single precision the best schedule is compared with plans as for C98 |
| C92 | `Makespan` (`Execution`) | the tasks are sorted by their starts; the sort is a valid schedule since a task that takes time starts before those that wait for it |
| C93 | `Optimizer::update` with pointers (`Threads`) | invariant: all pointers point into the own slot; steps of different slots are then independent, each job's steps are those of `Job.step`, and a deterministic relation has one end; a measure bounds the number of steps |
| C94 | `rolling_mean` in `Temperature` and `Stopping` (`Base/RollingMean`) | induction over the samples: exactly the average without rounding; with single precision the distance grows by a factor of 1 + 2^-24 and four units with each sample. A sample equal to the one that leaves the window changes nothing, hence the residue; with it the rule is followed batch by batch for 30 days |
| C95 | the command `schedule` | the written execution is a plan of the document (C92). Chains: induction along the chain. Work: tasks of an agent do not overlap, induction over the task that starts last; sum over agents. Upper bound: C27; in single precision by C75 (`Props/BoundsFloat`) |
| C96 | the command `schedule` for two documents (`Doc.Eases`) | a plan of the first document, with the same starting times, is one of the second; C91 finds a best plan of the second, which is no longer |
| C97 | `Optimizer::update`, `perform_stun`, the command `schedule`; the random numbers are functions on a probability space (`RandomDraws`) | the draws of C91 are relaxed: integers less than 128, and an interval of positive length or a possible value for the acceptance; numbers within these bounds in finitely many rounds suffice (`best_draws_within`); independence makes a finite product of positive probabilities |
| C98 | the command `schedule` in single precision | the best value the optimizer finds is a best one in rounded arithmetic; every plan is an execution of a schedule (C92), whose rounded makespan is close to the exact one (C67), and truncation and scaling are monotone; so the program writes about the least time of the document (`Spec/BestEnd`, `writes_about`) |
| C99 | `Simulation::operator()` with a stream of random numbers on a probability space (`SymmetricNumbers`), the command `schedule` | the accepted numbers of the durations are negated where the negated number would be accepted too: for a given pattern of rejections this keeps the law of the stream (`map_mirror`, product measure); the recurrence is convex, so the two makespans are on average at least the one with mean durations (`makespanValue_half`); the patterns are countable and disjoint, and sampling ends with probability 1 by the second Borel-Cantelli lemma |
| C100 | a run of the simulation as a function of an infinite stream of random numbers (`runStreams`), the next run continues with the rest of the stream | `Proof/Restart`: which numbers are used is decided by these numbers alone, so what follows is independent of them and has the same law (product measure); sum over the countably many cases; the second Borel-Cantelli lemma for the end of runs; the strong law of large numbers for indicators. Rounding is monotone and hence measurable, so any arithmetic will do |
| C101 | as C100, and the command `schedule` | C99 bounds the limit of C100 from below |
| C102 | as C100, `Histogram`, `stats` | the cumulative counts are frequencies, so the first bin that reaches a threshold is eventually the right one; then C51 and C52 |
| C103 | `Optimizer`, `optimize`, `schedule`, `predict`, the program body | two optimizers that differ only in the limit stay equal in everything else (`Twin`), the makespan never increases from round to round, and convergence for the greater limit implies convergence for the lesser one; the witness for threads is evaluated by the kernel |
| C104 | `Optimizer`, `perform_stun`, `replicate_best_job`, the command `schedule`; a generator with countably many independent outputs (`Generator`) | from every state of the optimizer there are numbers for the first job that lead it to a best schedule (`compass`); another job that finds something better sets it back, but only once for each makespan (`guide`); numbers that depend on the past are hit with probability at least `ε ^ batch` in each round (`Adaptive.hit`), so the probability of missing the best decreases geometrically (`missed_bound`). For the bounds each batch of each job is divided into attempts of `n (n + 3) / 2 + 1` iterations, which are enough for the whole way from wherever the job is (`job_attempt`); in the order of rounds, jobs and iterations each attempt fails with probability at most `1 - ε ^ (n (n + 3) / 2 + 1)` given all earlier ones (`missed_attempts`) |
| C105 | `histogram`, `HistogramOp`, `stats`, `Simulation`; any stopping rule; random numbers as in C100 | the results of successive runs are determined by the stream of random numbers (`runs_result`), so the histogram that is returned is that of the first results of C100 (`histogram_batches`); it is returned because infinitely many numbers are nonnegative; then C100 and C102 |
| C106 | `Simulation`, `RandomUtils::normal`, `to_json` of a histogram, the program without a command | a sample is linear in its random number, so numbers between -2 and 2 give samples between the bounds, and the recurrence is monotone (C28); the full statement fails: intervals of random numbers that make a run exceed any time (`overlong_cylinder`) have a positive probability by independence, and an overlong run aborts the program (`predict_command_full`); the probability of aborting is bounded by the law of the runs (C100) and, in the example, by the density of the normal distribution near -4; in single precision the error of a sample is bounded operation by operation, and an execution is compared with that of the best or worst case, scaled |
| C107 | the branches of `Optimizer` without `ANGONOKA_OPENMP` and everything that depends on them up to `main` (`Model/Serial`) | in a reachable state with one job, `replicate_best_job` compares the job with a copy of itself, whose makespan is equal, and changes nothing (`replicate_one`); so updates agree, and by induction rounds, the loop of `optimize` and the whole program; for any arithmetic |
| C108 | `dump_escaped` and `decode` of nlohmann/json on bytes, saving the result (`Model/Bytes`) | partial: the automaton accepts a sequence of bytes if and only if it is the encoding of characters (its table is checked for all states and bytes, the arithmetic of code points by cases on the length of a character); induction over JSON values; the program with bytes is the other one up to saving; negation with a document in ISO 8859-1 |
| C109 | exchanging neighbours anywhere in a document (`Spec/Order`); the loader and `schedule` as they are | proved: induction over the exchanges gives a permutation of every list and map, by induction over tasks a renumbering of the tree of tasks; all of `Spec/Loading` and `Spec/Documented` is invariant under it; the command with C96 in both directions; in single precision: the least time of a document (`Spec/BestEnd`) has nothing to do with arithmetic, is compared exactly, and by C98 the program writes about it |
| C110 | new names for agents, tasks, ids and groups in a document and in the output (`Spec/Names`); loader, scheduling, simulation and output as they are | proved: each function of the loader, run on the renamed input, gives the renamed result (`Follows`), by induction over the document; everything after loading does not look at names; the timetable is the renamed one |
| C111 | projects with all durations multiplied by `k`, times that are `k` times as long up to rounding down (`Spec/Units`); parameters, optimizer, timetable and simulation as they are | proved: the parameters differ only in the multiplier, which the optimizer never looks at (`Proof/Retimed`, function by function); the exact times of the timetable and of a simulation are multiplied by `k` (`Proof/Units`, `Proof/UnitsSim`); for the timetable any arithmetic will do in which rounding commutes with multiplication by `k` (`FloatEnv.Scales`), as single precision does for powers of two |
| C112 | documents that say the same about each agent and task, whatever the notation (`Spec/Notation`); the loader as it is | proved: each function of the loader gives the same result on both documents, by induction over the tree of tasks (`Proof/Notation`); the size of the tree bounds the indices that subtasks need |
| C113 | as C112 | partial: three defaults are instances of C112; the three empty texts are shown to be rejected in every document, which is a defect of the code or the documentation |
| C114 | `Simulation`, `RandomUtils::normal` | partial: for random numbers between -2 and 2 nothing is rejected and a sample grows with both bounds, then the makespan is monotone (`makespanValue_slower`); induction over the runs. In single precision the error of a sample is bounded as for C106, the same random numbers are used by both, and the executions are compared, one of them scaled. The full statement is false, with three witnesses |
| C115 | as C91 and C48 | the parameters differ by a factor in all performances; plans of documents are plans of these parameters (C92) and scale; the least written makespan by C91 in both directions; samples are linear in their bounds, so runs by induction; in single precision: the least time of a document (`Spec/BestEnd`) has nothing to do with arithmetic, is compared exactly, and by C98 the program writes about it |
| C116 | as C91 and C48 | in a valid schedule neighbours are directly dependent as soon as they are dependent at all, so the mutator decides by the transitive closure; completion times increase along dependencies, so the maximum over direct dependencies is that over all; steps by induction; documents by C92 and C91 in both directions; in single precision: the least time of a document (`Spec/BestEnd`) has nothing to do with arithmetic, is compared exactly, and by C98 the program writes about it |
| C117 | as C91 | a plan of the document, restricted to the tasks of a part, is a plan of the part; two plans of the parts are put together task by task; the least makespans by C91; in single precision: the least time of a document (`Spec/BestEnd`) has nothing to do with arithmetic, is compared exactly, and by C98 the program writes about it |
| C118 | as C91, C95 | one agent: both bounds of C95 are the same number; enough agents: tasks start as soon as their longest chain of dependencies permits (induction on the acyclic dependencies), which is a plan, and no plan is shorter by C95; in single precision: the least time of a document (`Spec/BestEnd`) has nothing to do with arithmetic, is compared exactly, and by C98 the program writes about it |
| C119 | loader and both commands as in C110 | what a loaded project is (it says what the document says, `load_faithful`), apart from groups, ids and assignments, is determined by the document's essence; the parameters for the optimizer only use who can work on what; simulations and the timetable do not use groups, ids and assignments at all |
| C120 | both commands as in C110 | a successful prediction's events are the schedule's, with the start of the simulation before the last one, and the latter prints nothing; the future's value has the schedule's makespan and timetable; the fields added to the object do not overwrite others |
| C121 | both commands as in C110 | a result is a function of the document, the optimizer's options and the random numbers: the file's content is read off a successful run, and the display's options do not occur in it; the handler accepts all events of a run (`log_rows`, C47), whatever the options |
| C122 | both predictions as in C110 | a histogram is that of the runs the random numbers lead to, up to the first time the rule says stop (C54), and neither depends on the bins; runs are determined by the random numbers (C49); wide bins are sums by counting values in disjoint bins |
| C123 | the rounds of the optimizer and what is reported about them, as in C84 and C110 | invariant over the rounds: idle iterations are batch size times the rounds since the epoch last went up, and the epoch never goes down; the limit is reached when these rounds are at least the limit divided by the batch size, rounded up |
| C124 | as C91 and C98; documents with split tasks (`Spec/Split`) | each plan of the whole tasks gives one of the parts: the same agent does them at the same time, one after the other; then C91, C98. That it can help by an example, for which the least time is determined |
| C125 | as C91 and C98; phases (`Spec/Teams`) | plans of the phases, one after the other, are a plan of the document; in a plan of the document nothing of the second phase starts before the first is over, so it can be moved to the beginning and is a plan of the second phase; then C91, C98 |
