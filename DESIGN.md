# Formal model of HPWHsim in Lean 4 — design

The property list is `properties.jsonl` (C01…). This file says, for each
property, what is modelled and how it is proved; it also states the trusted
base and the places where the code and the property disagree.

## 1. Modelling conventions

* **Numbers.** A C++ `double` is modelled by an exact rational (`ℚ`); every
  finite double is a rational.  Rounding, overflow, infinities and NaN are *not*
  modelled, with one exception: the inversion-mixing loop (C01) is modelled over
  an arbitrary linear order with an arbitrary averaging operation, so its
  termination and its result do not depend on exact arithmetic.
  Divisions whose divisor can be zero in the code are guarded: either the model
  returns an explicit `nan`/`ub` outcome or the theorem carries the
  (code-relevant) hypothesis and a separate theorem/witness covers the zero case.
* **Transcendental functions.** `exp`, `log`, cube roots and `pow(x, 1/N)` enter
  as explicit function parameters; the hypotheses used about them
  (for instance "exp is positive") appear in the theorem statements.
* **Node vectors.** A tank with `n+1` nodes holds its temperatures in
  `Fin (n+1) → ℚ`; index 0 is the bottom. An access in the model therefore
  carries a proof that it is in range. Where the code can leave the range the
  model has an explicit `ub` outcome. A tank without nodes is not modelled.
* **Errors.** `send_error` throws (default courier). It is an explicit `error`
  outcome (`Except`).
* **Mutation** becomes a function returning the new state; **loops** become
  structural recursion, or recursion on fuel with an explicit outcome `diverge`
  for "fuel exhausted". Termination theorems show that it does not occur (C01,
  C17, C18, C24) or, for the lower-limit case of C18, that it always does.
  Results about `runOneStep` and the tests are about runs that return.
  `C18_bound_step` and `C18_bound_run` show that a step or a run that returns
  (or fails otherwise) within some fuel gives the same result with any more.
* **External code.** Btwxt interpolation is an arbitrary performance function
  `(air temperature, water temperature) → (input, output, COP)`; where a grid
  is exported it is a parameter assumed exact at grid points
  (`Spec.ExactAtPoints`). JSON text, logging text and the numbers of the
  performance tables of built-in models are not modelled.

## 2. Layout

* `Verif/Model/*.lean` – model of the code, each definition citing file:lines.
* `Verif/Spec/*.lean` – small specifications written without reference to the
  model's helpers.
* `Verif/Lemmas/*.lean` – helper lemmas.
* `Verif/Props/*.lean` – the property theorems with a satisfiability example
  beside each, and negative theorems (witnesses) where the code violates the
  property.

## 3. Plan per property

| Id | What is modelled | How it is proved |
|----|------------------|------------------|
| C01 | `mixInversions` over any linear order, any averaging | induction on sweeps: after sweep p the lowest p+1 nodes are sorted |
| C02 | same, exact ℚ instance | sum/min/max invariants of one merge, lifted over sweep and loop |
| C03, C04 | `updateNodes` draw part incl. two inlets, increments ≤ 1 node | per-sweep telescoping sum; convex-combination closed form of the sweep; induction on increments |
| C05 | heat-exchanger branch | induction over nodes |
| C06, C07 | losses and conduction | sum identities; convexity for tau ≤ 1/2; witness for 1/2 < tau ≤ 1 |
| C08, C09 | `updateNodes` whole | composition |
| C10–C12 | `addHeatAboveNode`, `addExtraHeatAboveNode` | loop invariant "first num nodes equal" |
| C13–C15 | `heat`, `Resistance::addHeat`, `Condenser::addHeat` | induction over nodes |
| C16–C18 | external single/multi-pass loops as step functions | telescoping shift; induction over passes; measure for termination; divergence witness |
| C19–C21 | `getResampledValue`, `resample`, `resampleExtensive`, thermocouples | refinement to an integral-of-step-function spec |
| C22, C23 | `WeightedDistribution`, weighted averages | refinement to an integral spec |
| C24, C25 | `normalize`, `calcThermalDist`, `findLowestNode` | count of positive entries decreases |
| C26 | `defrostDerate` | case analysis + linear interpolation bounds |
| C27 | lock-out state machine | case analysis, induction on ambient sequences |
| C28 | `shouldHeat`, `shutsOff` | list induction to ∃/∀ statements |
| C29–C37, C56, C58 | `runOneStep` control flow over any finite set of sources with links | invariants threaded through the two loops |
| C38, C39 | SoC fraction and logics | sum monotonicity |
| C40–C42 | inlet heights, sizes, units | arithmetic |
| C43–C45 | data-model `from`/`to` | round trip; witnesses where it fails |
| C46, C47 | `swapGridAxes`, grid vectors | mixed-radix index lemma; list lemmas |
| C48, C49 | capacity setters/getters | algebra |
| C50, C51 | draw patterns, 24-h scheduler | finite table by kernel evaluation; scheduler invariant |
| C52 | secant / fit | contract; witness |
| C53 | copying | heap model with shared references; witness |
| C54 | `addExtraHeat`, `modifyHeatDistribution` | composition of C12, C20, C25 |
| C55 | sizing fractions | algebra |
| C57 | polynomial performance | algebra |
| C59 | `calcDerivedHeatingValues`, `mapResRelativePosToHeatSources` | fold invariants over the heat sources |
| C60, C68–C72 | `HPWH::to`/`from` for integrated and central systems over a typed schema (`Model/Schema`, `Export`, `Import`) | round trip field by field; witnesses where it fails; export ∘ import ∘ export |
| C61 | `checkInputs` | equivalence with a list of readable conditions (`Spec.Accepted`), and what they imply |
| C62 | logic constructors over nodes and fractions | refinement to the integral spec of C22 |
| C63 | draw part of `updateNodes` | closed form of the displacement; exact plug flow for whole nodes |
| C64–C66, C73, C74 | `prepareForTest`, `run24hrTest`, `findFirstHourRating` | trace specification (list of simulated minutes), induction over minutes; automaton to run a complete example in the kernel |
| C67 | `makeGenericEF/UEF` | fold over the performance points |
| C75 | CSV headings and rows as lists of tokens | rows and headings as joined cells; a table of names and values as the specification |
| C76 | `setTankFromMeasured` over lists of characters | the character that is searched for is never found at the place required: every file fails |
| C77 | unit-tagged read-outs | algebra; case analysis on unit and index |
| C78 | `readSchedule` | induction over the exceptions; equivalence with "last exception, else default" |
| C79 | command `run`: control file, preparation, loop | induction over the minutes, with the step theorems C31 and C33 for the checks |
| C80 | daily sums of `run` | invariant on the day, the minute of the day and the sums; a 350-day test of a concrete system for the hypotheses |
| C81 | `initResistanceTank`, `initResistanceTankGeneric`, the defaults they start from and `Resistance::setup` | acceptance from C61 for arbitrary numbers; placement by evaluation of the distribution; independence of the past: the initialiser commutes with clearing the outputs |
| C82 | the control part of `runOneStep` for heaters with resistance elements only | an invariant through selection, lock-outs, running and handing over: at most one source is on, and the run times add up to at most the step; induction over the steps of a run. Proved. |
| C83 | complete steps and runs | draw (C04, C05), losses (C07), room (C37) and heat sources (C11, C15, C16) each keep the range; a second inlet without water has no influence; induction over the run. Proved; external multi-pass heat pumps only keep the lower limit (`C83_multipass_overheats`). |
| C84 | `initGeneric` | acceptance by the two quantities the code divides by or compares; contents through `finish_same` (what deriving values changes); positivity of interpolated quadratics on ranges by a checker proved sound (`PolySet.posOn_pos`); runs by C83. Proved. |
| C85 | `initLegacy`, `getPresetNumberFromName`, `getPresetNameFromNumber` | each branch is a record in `Verif.Model.PresetTable`; a check of a record is proved to imply acceptance and delivery for all previous states and power functions, and evaluated by the kernel on the whole table; names by bijectivity of the table. Proved. |
| C86 | the same, with `PerformancePolySet`, the regressions of central systems and `runOneStep` | positivity on boxes of temperatures by checkers on the coefficients (polynomials: C84; regressions: a function linear in each temperature below them, at the corners), evaluated on the whole table; tables under the hypothesis that Btwxt returns positive values; runs by C83. Partial: within stated limits, runs without multi-pass systems; counterexamples at the edges of the models' own ranges. |
| C87 | `runOneStep`, `runNSteps`, `calcDerivedValues`, export, import, `initResistanceTank` | simulation relation between heaters that are written differently (`Spec.Alike`), preserved by every function a step calls; the round-trip theorems C43, C44, C68 show that a heater and its re-reading are related; `initResistanceTank` meets the hypotheses. |
| C88 | the control file and the preparation in `run`, `Tank::setProfileTs_C` | reading by induction over the lines against `Spec.StandsFor`; the preparation stage by stage against `Spec.SetUp`. Btwxt is a parameter. |
| C89 | choosing model, file, profile and conditions in `measure`, `convert`, `run`; the course of `measure` | texts as lists of characters against `Spec.IsStem`, `Spec.ProfileName`, `Spec.Conditions`; the course against the tests of C20 and C74 |
| C90 | `initFromJSON` with the adjustments of `configure` by name | what is read, adjusted and derived, stage by stage, for all descriptions; the conditions on model numbers compared with the table of built-in models by evaluation of the whole table |
| C91 | the choice of heat sources and the heating loop of `runOneStep` | a set closed under the links contains everything that is on or has run: induction over both loops |
| C92 | the same for resistance elements | invariant of the heating loop: everything is off, or the elements have run up to now and the one on is still to be visited, or the step is over; energy balance (C83) and losses (C06) summed over steps |
| C93 | `make`, `makeGenericEF` on the simulator, the search with a metric that changes its state | history of evaluations by induction over the passes of the secant search; tests keep all settings (C89), so the only change is the heat pump's performance |
| C94 | `makeGenericUEF`, `makeGenericE50_UEF_E95` on the simulator | at the temperature of a performance point only that point matters (C57); each fit changes the one point of its own test (C93) |
| C95 | steps without draw and heating (`runOneStep`, `updateNodes`) | each node becomes a mean of old temperatures and the air's with a weight of at least the wall's share on the air; mixing keeps bounds (C02); induction over steps |
| C96 | two runs of unheated steps side by side (`runOneStep`, `updateNodes`, `mixInversions`) | order of the nodes is kept by every part of a step: the mixing of inversions is the lower convex hull of the sums of heat (C02), which is monotone; draws and losses are means with nonnegative weights; induction over steps |
| C97 | heat added by each kind of source (`addHeat`, `addHeatExternal`, `addExtraHeat`) and `runOneStep` | each kind raises every node, so does the loop over the sources (`HeatInduction`); with C96 induction over steps; witnesses for multi-pass and for single-pass below the top of the tank |
| C98 | `Tank::getAverageNodeT_C` by a list of weights and by a distribution, `getInletHeight` | closed form from C19 (`resample_spec`); range, order and plain average by sums over layers; the distribution by exchanging the sums over nodes and layers |
| C99 | `runOneStep`, `runNSteps` | the reset at the start of a step makes equal states equal (`runOneStep_congr`); the accumulators of a run are shifted by those of an earlier part (`runLoop_shift`, `runLoop_append`) |
| C100 | `runOneStep`, `runNSteps` | progress: every part of a step returns (`Returns`: the same result with every large enough bound on the passes of external heating); the temperatures stay between the limits (C83), which carries it over runs; single-pass heating ends by C18; the built-in models by checkers evaluated on the whole table, with a proof that their polynomials are bounded (tables under the hypothesis that Btwxt returns positive and bounded values) |
| C101 | control and heating phases of `runOneStep`, resistance elements | invariant of the control phase (what is on was on, or is not told to shut off) and of the heating phase (an element is on, or there is a reason for none to be); heat spread evenly is left over only if all water above the lowest heated node is at the setpoint (`heatLoop_full`) |
| C102 | `makeCondenserPerformance` for its three kinds of polynomials (src/HPWH.cc:1813-1832); the old grid, which the object keeps for export only, is not part of the model | what changes is given by `DifferIn`, a relation between simulators; the laws of an assignment (only this, the last one counts, what was there is forgotten); the value read back from the definition of `getPerformance` and C57; a concrete heater with two heat pumps for the finding |
| C103 | the sums kept by the loops of external heating (src/Condenser.cc:1048-1164, 1175-1277) and their division by the run time, as part of `externalAddHeat` | a separate specification of portions of water (`Spec/Passes.lean`); an invariant of both loops: the sums are those of a list of portions that grows by one in each pass; what may be read off the report is proved about lists of portions alone; for a step: with one heat source without backup `addHeat` is called at most once |
| C104 | the whole step and run as already modelled | a specification of the larger heater (`Spec/Scale.lean`); every function of the step commutes with enlarging, proved function by function, by induction for the loops; then for runs by induction over the inputs |
| C105 | `socFract`, `spLoop`, control of a heater with one heat source, as already modelled | a pass moves at most the fraction the logic asks for; a bound on the useful heat after moving a fraction of a node (the lowest useful node and the one below it); invariant over the passes; for the step a lemma that one heat source runs only if it is not shut off |
| C106 | control of a heater with one heat source, `addHeatParent`, condensers, as already modelled | a heat source without backup and follower that is on after the loop has run for the whole step; the invariant of the passes (C16, C17) also bounds the output energy by the power; energy balance (C83) and losses (C06) summed over steps as in C92 |
| C107 | a whole step and a whole run, as already modelled | equality of two executions, function by function: with resistance elements only, no function of the control reads the air temperature; the sweep of a draw is the same for inlets that add the same water |
| C108 | `processDraw` and `mixBottom`, as already modelled | the draw computes the same without the setting; mixing of the lowest nodes has the given effect, by sums over the nodes |
| C109 | control of a step, as already modelled | each turn of a heat source switches nothing on but the backup in the place of the heat pump; at the turn of the heat pump case analysis of locks and of the end of the run; induction over the turns and the steps |
| C110 | control of a step, as already modelled | after the choice only the element with priority is on, whatever was on before, by induction over the heat sources; its turn either lasts the whole step or ends with hot water, which later turns do not cool |
| C111 | control of a step, as already modelled | each hand-over switches off what was on before it switches on something; induction over the heat sources in the choice and in the heating loop, then over the steps |

## 4. Trusted base

* Lean 4.33.0's kernel; the axioms `propext`, `Classical.choice`, `Quot.sound`
  (nothing else; no `sorry`, no `native_decide`, no `bv_decide`). Theorems about
  finite tables use `decide +kernel`, which adds no axiom. Each property's
  theorems depend on at most these three axioms (`#print axioms`).
* The reading of the C++ source into the model (hand-made; every definition cites
  its source lines).
* The abstraction double → ℚ described above.
* The default courier: `send_error` throws. With a courier that does not throw
  the error loop of `checkInputs` would not end; this is outside the model.

### Modelled

* `HPWH.cc`: `runOneStep`, `runNSteps`, `addHeatParent`, the engage and
  lock-out decisions, demand response and top-off, setpoint and maximum setpoint,
  state of charge, room-temperature depression, energy-balance check,
  `addExtraHeat`, derived values, `checkInputs`, sizing fractions, unit-tagged
  setters and getters, capacity setters and getters, `to`/`from`, the standard
  tests and their figures, parameter fitting, `makeGeneric`, copying, CSV
  output, measured temperatures.
* `Tank.cc`: node update (draw, exchanger, losses, conduction, inversion mixing),
  adding heat, sizes, ports, averages, thermocouples, copying, `to`/`from`.
* `HPWHHeatSource.cc`, `Resistance.cc`, `Condenser.cc`: control logics, heat
  distribution, adding heat, defrost derate, single- and multi-pass external
  heating, performance polynomials and grids, `to`/`from`.
* `HPWHHeatingLogic.cc`, `HPWHUtils.cc`: all of the logics; resampling,
  normalisation, weighted distributions, units.
* `HPWHpresets.cc`: `initResistanceTank`, `initResistanceTankGeneric`,
  `initGeneric`, with `setAllDefaults` of simulator and tank; `initLegacy`
  with all 108 built-in models and the 113 names and numbers
  (performance tables for Btwxt are a parameter).
* `src/hpwh/run.cpp`: schedules, control file, preparation, loop, output. Files
  are taken as already split into words and numbers.
* `src/hpwh/measure.cpp`, `convert.cpp`: arguments, choice of model and files,
  course of `measure` and of `make`.

### Not modelled

* The numbers of the performance tables in `HPWHpresets.cc` and the presets
  stored as JSON text; `HPWHversion.cc`.
* JSON text ↔ description (nlohmann/json); the typed description is modelled.
* Btwxt's interpolation between grid points, `std::exp`, `std::log`, `std::pow`.
* `FirstHourRating::report`, `TestSummary::report` (formatted text), logging.
* Floating-point rounding, overflow, NaN propagation, memory management and
  concurrent use.
* Copy constructors beyond what C53 says.

### Wrong programs

`seeded/LOG.jsonl` has one line per edit of the model: what was edited, the claim
it breaks, what failed. Two limits on reading it:

* Most builds were stopped soon after the first error, so `failed` lists what
  failed first, often a lemma that the claim's theorem rests on, and not all that
  would fail.
* A failed lemma shows that the proof as written no longer goes through. Only
  where a failed `example`, witness or theorem of the claim itself is listed is it
  shown that its statement is tied to the edit.

## 5. Findings: where the code does not do what the property says

Each line names the theorem that proves it of the model.

* **Tank.** Conduction can create a new extreme for 1/2 < tau ≤ 1
  (`C07_extreme_created`). With a heat exchanger a node can be cooled below the
  inlet (`C05_nodes_can_undershoot`). A mixing fraction outside 0…1 is accepted
  (`C09_mix_fraction_out_of_range`). Adding heat to an inverted profile creates
  energy (`C10_inverted_creates_energy`).
* **Heat sources.** Zero power divides by zero (`C14_zero_power_undefined`).
  Negative output is miscounted (`C15_negative_output_miscounted`). An external
  outlet above the inlet loses energy (`C16_outlet_above_inlet_loses_energy`).
  Multi-pass heating exceeds the setpoint (`C17_multi_pass_exceeds_setpoint`).
  Single-pass heating with a lower-limit shut-off never returns
  (`C18_lower_limit_never_returns`, `C18_lower_limit_runs_backwards`), and makes
  no progress at zero heating (`C18_stuck_without_progress`). A second defrost
  set-up is ignored (`C26_second_setup_ignored`). A backup element can be run
  twice in a step (`C58_backup_exceeds_rating`).
* **Distributions.** A valid distribution can give 0/0
  (`C23_valid_but_undefined`). Negative entries break normalisation
  (`C24_negative_entry_breaks_sum`); so does a fourteenth entry
  (`C24_too_many_entries`). A narrow heat distribution is accepted with a
  negative spread (`C61_narrow_heat_negative_spread`). Non-adjacent twelfths are
  merged (`C62_separate_twelfths_merged`); node number 13 gives an invalid logic
  (`C62_top_node_number_invalid`).
* **Simulator.** A second inlet together with an exchanger fails the energy check
  (`C32_exchanger_second_inlet_rejected`). A run without draws divides by zero
  (`C34_no_draw_undefined`). A storage tank accepts any setpoint up to 100 °C
  (`C35_storage_tank_limit`). A fixed setpoint above the low-temperature limit
  makes the step fail (`C36_fixed_setpoint_step_fails`). Mains at or above the
  minimum useful temperature make the state of charge undefined
  (`C38_warm_mains_undefined`). Negative hysteresis is accepted
  (`C39_negative_hysteresis_accepted`). Negative extra heat is ignored
  (`C54_negative_extra_heat_not_applied`). The usable fraction can be negative
  (`C55_usable_negative`).
* **Units.** Temperature differences converted as temperatures or in the wrong
  direction: `C42_depression_difference_wrong`, `C42_radius_in_feet_wrong`,
  `C42_entering_water_difference_wrong`, `C65_annual_consumption_understated`.
* **Performance data.** Incomplete tables (`C46_incomplete_undefined`), a single
  polynomial point (`C57_single_entry_fails`).
* **Fitting.** A fit that has not converged is accepted
  (`C52_not_converged_accepted`), or the neighbour's value is returned
  (`C52_neighbour_not_kept`).
* **Copies** share tank and heat sources with the original: `C53_tank_shared`,
  `C53_not_independent`, `C53_sources_taken`, `C53_settings_missed`,
  `C53_copy_switches_original`, `C53_tank_assignment_misses`.
* **Export and import.** `C44_soc_lost`, `C44_marks_lost`, `C45_single_lost`,
  `C60_grid_overwrites_setpoint`, `C68_equal_names_confused`,
  `C68_nameless_becomes_priority`, `C68_first_priority_lost`,
  `C68_unknown_link_to_first`, `C68_own_backup`, `C69_other_ports_wrong`,
  `C69_integrated_lost`, `C69_mixed_undefined`, `C70_two_axes_undefined`,
  `C71_absent_description`, `C72_direction_lost`.
* **Tests.** The day has 1441 minutes (`C64_day`). The standby duration is one
  minute shorter than the period that is summed, and without a standby period the
  figures are those of a whole day from 0 °C (`C73_standby_partial`). The last
  minute of each draw is not counted in the first-hour rating
  (`hourSim_returns`).
* **Multi-pass.** An external multi-pass heat pump heats water above the setpoint
  within a step; nothing limits its outlet (`C83_multipass_overheats`).
* **Top-off.** A top-off signal while the upper element of a resistance tank runs
  starts the lower one as well, and both stay on after the signal
  (`C82_topOff_runs_both`): a tank wired for one element at a time draws the sum
  of both.
* **Initialisers.** The limit on the cooling of the room survives a new
  initialisation (`C81_depression_survives`). `initGeneric` does not check the
  energy factor: below −1.92 the COP and the input power are negative
  (`C84_negative_factor`).
* **Built-in models.** Five names have no settings (`C85_missing`). GenericUEF217
  takes heat out of the water where it may run (`C86_UEF217_cools`); polynomials
  of 13 further models change sign at the edge of their ranges
  (`C86_outside_limits`).
* **Output and files.** Without a compressor no table can be written
  (`C75_no_compressor_fails`) and the command `run` fails (`C79_no_compressor`).
  Before a target is set a row reads an uninitialised value
  (`C75_target_unset`). No file of measured temperatures can be loaded
  (`C76_never_loads`).
* **Command `run`.** An hour beyond the end of the test, or a negative number, is
  written outside the schedule (`C78_outside`). In long tests of large
  compressors draws are converted with °C among °F (`C79_mixed_draw_wrong`).
  Control by the state of charge without a schedule for it is reported, but the
  test goes on and reads outside the empty schedule (`C79_charge_needs_schedule`).
  More than three heat sources overrun the daily sums (`C80_four_sources_undefined`).
  A test of exactly 500000 minutes has the wrong heading
  (`C80_boundary_heading`). Starting temperatures are ignored if the control file
  gives no setpoint (`C88_profile_ignored`).
* **Other commands.** A description in the working directory is loaded under the
  name `custom` (`C89_no_directory`). `convert` fails on short names
  (`C89_short_name`). A misspelt kind of specification loads nothing
  (`C89_nothing_loaded`). Unknown test conditions are taken as the standard ones
  (`C89_unknown_conditions`). `measure` fails for every heater without a heat pump
  (`C89_no_compressor`).
* **Loading.** `initPreset` and `initFromJSON` do not reset the simulator: a fixed
  setpoint, scaling, state-of-charge control, timers and switches of the model
  held before stay (`C90_left_over`). Three generic models lose the logic on large
  draws (`C90_large_draw_lost`), the scalable multi-pass system one of two heat
  sources that come first (`C90_first_lost`).
* **Reports.** The report of single-pass heating does not add up to the output
  energy (`C103_single_pass_does_not_add_up`). Two external heat pumps in one step
  give a wrong outlet temperature (`C103_two_heat_pumps`). Weights of the average
  temperature are used without normalisation (`C98_not_normalized`). After the
  performance was replaced, the capacity that is reported is that of another heat
  pump if there are two (`C102_capacity_stale`).

Seen while reading, not stated as theorems: `getCompressor` returns the first
condenser while `compressorIndex` is the last; `makeGenericEF` returns the summary
of the last evaluation; the tests assume one-minute steps without setting them;
`setResistanceCapacity(0)` is accepted; `Condenser::from` compares types in a way
that never matches; `updateNodes` reports the stability error after the draw has
been committed; `addHeatParent` leaves a lowered setpoint if `addHeat` throws;
`convertTempToC` treats every unit that is not °C as °F. In CSV output "externalVolGPM" is a volume in gallons, and the condenser,
state-of-charge and demand-response columns show the present state, not the
record's. In `run` the air temperature of the command line is documented in °C and
converted from °F; an optional schedule with an error is used as far as it was
read; the tank is only initialised if the control file gives a positive setpoint.
The flag for the last hour of a day test is never set; `swapGridAxes` re-orders the
first two tables only; `findLowestNode` divides integers; `switchToSoCControls` does
not set the target; `findFirstHourRating` does not reset the sums of the outlet
temperature between draws; a source that shuts off hands over to its backup only, not
to its follower; `convert` declares one option letter twice.
