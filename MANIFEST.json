{
 "claims": [
  {
   "property": "C01",
   "status": "proved",
   "theorems": [
    "HPWH.C01_mixing_terminates_stratified",
    "HPWH.C01_mixing_limit_irrelevant"
   ],
   "note": "over any linear order and any averaging operation; the iteration limit never matters"
  },
  {
   "property": "C02",
   "status": "proved",
   "theorems": [
    "HPWH.C02_mixing_conserves",
    "HPWH.C02_mixing_idempotent",
    "HPWH.C02_mixing_exact"
   ],
   "note": "exact arithmetic"
  },
  {
   "property": "C03",
   "status": "proved",
   "theorems": [
    "HPWH.C03_draw_energy_balance"
   ],
   "note": ""
  },
  {
   "property": "C04",
   "status": "proved",
   "theorems": [
    "HPWH.C04_draw_within_range"
   ],
   "note": ""
  },
  {
   "property": "C05",
   "status": "proved",
   "theorems": [
    "HPWH.C05_heat_exchanger_draw",
    "HPWH.C05_heat_exchanger_nodes",
    "HPWH.C05_nodes_can_undershoot"
   ],
   "note": "finding: nodes can be pushed below every temperature present (C05_nodes_can_undershoot)"
  },
  {
   "property": "C06",
   "status": "proved",
   "theorems": [
    "HPWH.C06_losses_accounted",
    "HPWH.C06_losses_value",
    "HPWH.C06_at_ambient_no_change"
   ],
   "note": ""
  },
  {
   "property": "C07",
   "status": "partial",
   "theorems": [
    "HPWH.C07_conduction_within_range_partial",
    "HPWH.C07_losses_within_range",
    "HPWH.C07_extreme_created"
   ],
   "note": "the full claim is false: for an unstratified profile with 1/2 < tau <= 1 the code creates a new extreme (C07_extreme_created); proved for stratified profiles"
  },
  {
   "property": "C08",
   "status": "proved",
   "theorems": [
    "HPWH.C08_update_energy_balance"
   ],
   "note": ""
  },
  {
   "property": "C09",
   "status": "proved",
   "theorems": [
    "HPWH.C09_error_iff",
    "HPWH.C09_mix_fraction_out_of_range"
   ],
   "note": "finding: mixing fraction above one reads out of range"
  },
  {
   "property": "C10",
   "status": "proved",
   "theorems": [
    "HPWH.C10_addHeat_accounts",
    "HPWH.C10_inverted_creates_energy"
   ],
   "note": "finding: on an inverted profile energy is created"
  },
  {
   "property": "C11",
   "status": "proved",
   "theorems": [
    "HPWH.C11_addHeat_cap"
   ],
   "note": ""
  },
  {
   "property": "C12",
   "status": "proved",
   "theorems": [
    "HPWH.C12_extra_heat_stored"
   ],
   "note": ""
  },
  {
   "property": "C19",
   "status": "proved",
   "theorems": [
    "HPWH.C19_resample_exact",
    "HPWH.C19_resample_mean_and_range"
   ],
   "note": ""
  },
  {
   "property": "C20",
   "status": "proved",
   "theorems": [
    "HPWH.C20_resampleExtensive_total",
    "HPWH.C20_resampleExtensive_entries"
   ],
   "note": ""
  },
  {
   "property": "C21",
   "status": "proved",
   "theorems": [
    "HPWH.C21_thermocouple_value",
    "HPWH.C21_thermocouple_rejects",
    "HPWH.C21_thermocouple_range",
    "HPWH.C21_thermocouple_mean"
   ],
   "note": ""
  },
  {
   "property": "C22",
   "status": "proved",
   "theorems": [
    "HPWH.C22_weighted_average",
    "HPWH.C22_weighted_average_range"
   ],
   "note": "for distributions the library calls valid and with non-negative weights"
  },
  {
   "property": "C23",
   "status": "proved",
   "theorems": [
    "HPWH.C23_normalizedWeight_exact",
    "HPWH.C23_normalizedWeight_additive",
    "HPWH.C23_heat_distribution",
    "HPWH.C23_valid_but_undefined"
   ],
   "note": "finding: isValid accepts negative weights, whose shares can be 0/0"
  },
  {
   "property": "C24",
   "status": "proved",
   "theorems": [
    "HPWH.C24_normalize_terminates",
    "HPWH.C24_normalize_unit_sum",
    "HPWH.C24_negative_entry_breaks_sum",
    "HPWH.C24_too_many_entries"
   ],
   "note": "findings: negative entries, more than 10000 entries"
  },
  {
   "property": "C25",
   "status": "proved",
   "theorems": [
    "HPWH.C25_thermal_distribution",
    "HPWH.C25_lowest_node"
   ],
   "note": "exponential is an arbitrary non-negative function"
  },
  {
   "property": "C13",
   "status": "proved",
   "theorems": [
    "HPWH.C13_heat_accounts"
   ],
   "note": "stratified tank, non-negative distribution of sum one"
  },
  {
   "property": "C14",
   "status": "proved",
   "theorems": [
    "HPWH.C14_resistance_accounts",
    "HPWH.C14_zero_power_undefined"
   ],
   "note": "finding: zero power gives 0/0"
  },
  {
   "property": "C15",
   "status": "proved",
   "theorems": [
    "HPWH.C15_condenser_accounts",
    "HPWH.C15_negative_output_miscounted"
   ],
   "note": "for any performance function with positive output at the water temperature seen; finding: negative output miscounted"
  },
  {
   "property": "C16",
   "status": "proved",
   "theorems": [
    "HPWH.C16_single_pass_energy",
    "HPWH.C16_upper_limits_qualify",
    "HPWH.C16_outlet_above_inlet_loses_energy"
   ],
   "note": "outlet node not above inlet node; shut-off logics that never ask for a negative fraction (C16_upper_limits_qualify shows upper limits qualify); finding: outlet above inlet counts energy it does not store"
  },
  {
   "property": "C17",
   "status": "proved",
   "theorems": [
    "HPWH.C17_multi_pass_energy",
    "HPWH.C17_multi_pass_exceeds_setpoint"
   ],
   "note": "termination bound and energy balance; finding: not limited by the setpoint"
  },
  {
   "property": "C18",
   "status": "partial",
   "theorems": [
    "HPWH.C18_single_pass_finishes_partial",
    "HPWH.C18_single_pass_charge_finishes_partial",
    "HPWH.C18_stuck_without_progress",
    "HPWH.C18_lower_limit_never_returns",
    "HPWH.C18_lower_limit_runs_backwards",
    "HPWH.C18_bound_step",
    "HPWH.C18_bound_run",
    "HPWH.C18_bound_rating",
    "HPWH.C18_bound_day"
   ],
   "note": "the full claim is false (lower-limit shut-off logics loop for ever); proved for upper-limit logics looking at or above the outlet, and for limits on the state of charge that a heated-through tank meets"
  },
  {
   "property": "C26",
   "status": "proved",
   "theorems": [
    "HPWH.C26_defrost_factor",
    "HPWH.C26_defrost_effect",
    "HPWH.C26_second_setup_ignored"
   ],
   "note": "Defrost derate is piecewise linear in the outside temperature; a second set-up of the map is ignored by the lookup (finding, proved)."
  },
  {
   "property": "C27",
   "status": "proved",
   "theorems": [
    "HPWH.C27_lock_out_decision",
    "HPWH.C27_lock_out_history",
    "HPWH.C27_capped"
   ],
   "note": "Single decision and every history of ambient temperatures."
  },
  {
   "property": "C28",
   "status": "proved",
   "theorems": [
    "HPWH.C28_decisions",
    "HPWH.C28_decisions_total"
   ],
   "note": "Turn-on and shut-off decisions against an independent reading of each heating logic."
  },
  {
   "property": "C29",
   "status": "proved",
   "theorems": [
    "HPWH.C29_compressors_locked_out",
    "HPWH.C29_elements_locked_out",
    "HPWH.C29_nothing_heats"
   ],
   "note": "whole steps, every configuration"
  },
  {
   "property": "C30",
   "status": "proved",
   "theorems": [
    "HPWH.C30_no_forcing_while_timer_runs",
    "HPWH.C30_forcing_at_zero",
    "HPWH.C30_top_off_once",
    "HPWH.C30_top_off_timed",
    "HPWH.C30_release_rearms"
   ],
   "note": "every history of successful steps"
  },
  {
   "property": "C31",
   "status": "proved",
   "theorems": [
    "HPWH.C31_step_energy_balance"
   ],
   "note": "hypothesis Sim.Accountable (Spec/Step.lean): inversion mixing on, heat sources with positive output in the reachable temperature range and not drawing from above where they return"
  },
  {
   "property": "C32",
   "status": "proved",
   "theorems": [
    "HPWH.C32_energy_check_accepts",
    "HPWH.C32_exchanger_second_inlet_rejected"
   ],
   "note": "with the inputs the check is designed for; finding: with a heat exchanger and a second inlet the check rejects correct steps"
  },
  {
   "property": "C33",
   "status": "proved",
   "theorems": [
    "HPWH.C33_energy_from_environment",
    "HPWH.C33_standby_power"
   ],
   "note": "standby charge proved by comparing the same step with and without standby power"
  },
  {
   "property": "C34",
   "status": "proved",
   "theorems": [
    "HPWH.C34_run_aggregates_steps",
    "HPWH.C34_run_energy_balance",
    "HPWH.C34_no_draw_undefined"
   ],
   "note": "finding: a run without any draw has outlet temperature 0/0"
  },
  {
   "property": "C36",
   "status": "proved",
   "theorems": [
    "HPWH.C36_setpoint_survives",
    "HPWH.C36_fixed_setpoint_step_fails"
   ],
   "note": "finding: a fixed-setpoint model with low-temperature limiting fails its step"
  },
  {
   "property": "C37",
   "status": "proved",
   "theorems": [
    "HPWH.C37_room_temperature_step",
    "HPWH.C37_room_temperature_bounded",
    "HPWH.C37_room_temperature_approach"
   ],
   "note": ""
  },
  {
   "property": "C54",
   "status": "proved",
   "theorems": [
    "HPWH.C54_extra_heat_accounted",
    "HPWH.C54_negative_extra_heat_not_applied"
   ],
   "note": "finding: negative entries are counted but not applied"
  },
  {
   "property": "C56",
   "status": "proved",
   "theorems": [
    "HPWH.C56_runtime_within_step"
   ],
   "note": "reported run time; energies can exceed it, see C58"
  },
  {
   "property": "C58",
   "status": "partial",
   "theorems": [
    "HPWH.C58_energy_bounded_partial",
    "HPWH.C58_no_backup_partial",
    "HPWH.C58_backup_exceeds_rating"
   ],
   "note": "A resistance element's input energy in a step is at most (1 + 2 x number of sources naming it as backup) times rated power times step length, and at most rated power times step length when nothing names it as backup. The unrestricted claim is false of the code: C58_backup_exceeds_rating exhibits a step in which a backup element is run twice and reports more than one and a half times its rating."
  },
  {
   "property": "C35",
   "status": "proved",
   "theorems": [
    "HPWH.C35_setpoint",
    "HPWH.C35_possible",
    "HPWH.C35_history",
    "HPWH.C35_storage_tank_limit"
   ],
   "note": "finding: the limit reported for a storage tank without heat sources"
  },
  {
   "property": "C38",
   "status": "proved",
   "theorems": [
    "HPWH.C38_state_of_charge",
    "HPWH.C38_normalised",
    "HPWH.C38_update",
    "HPWH.C38_warm_mains_undefined"
   ],
   "note": "finding: mains at or above the useful temperature give a division by zero or a negative state of charge"
  },
  {
   "property": "C39",
   "status": "proved",
   "theorems": [
    "HPWH.C39_hysteresis",
    "HPWH.C39_negative_hysteresis_accepted"
   ],
   "note": "non-negative hysteresis; finding: negative hysteresis is accepted and both decisions fire"
  },
  {
   "property": "C40",
   "status": "proved",
   "theorems": [
    "HPWH.C40_fraction",
    "HPWH.C40_monotone",
    "HPWH.C40_inlets",
    "HPWH.C40_external_ports"
   ],
   "note": ""
  },
  {
   "property": "C41",
   "status": "proved",
   "theorems": [
    "HPWH.C41_sizes",
    "HPWH.C41_effectiveness",
    "HPWH.C41_resize",
    "HPWH.C41_round_trip",
    "HPWH.C41_set_size"
   ],
   "note": "pow is an arbitrary function positive on positive arguments"
  },
  {
   "property": "C42",
   "status": "partial",
   "theorems": [
    "HPWH.C42_inverse_pairs",
    "HPWH.C42_anchors",
    "HPWH.C42_tagged_partial",
    "HPWH.C42_units_agree",
    "HPWH.C42_depression_difference_wrong",
    "HPWH.C42_radius_in_feet_wrong",
    "HPWH.C42_entering_water_difference_wrong"
   ],
   "note": "the full claim is false of the code: three accessors convert a difference as a temperature or in the wrong direction (proved witnesses); all others proved"
  },
  {
   "property": "C48",
   "status": "proved",
   "theorems": [
    "HPWH.C48_capacity",
    "HPWH.C48_query_readonly"
   ],
   "note": "any performance function; the simulator's own setpoint must be allowed"
  },
  {
   "property": "C49",
   "status": "proved",
   "theorems": [
    "HPWH.C49_element_positions",
    "HPWH.C49_set",
    "HPWH.C49_get",
    "HPWH.C49_round_trip"
   ],
   "note": ""
  },
  {
   "property": "C59",
   "status": "proved",
   "theorems": [
    "HPWH.C59_known",
    "HPWH.C59_derived"
   ],
   "note": ""
  },
  {
   "property": "C63",
   "status": "proved",
   "theorems": [
    "HPWH.C63_draw_transport",
    "HPWH.C63_plug_flow"
   ],
   "note": ""
  },
  {
   "property": "C55",
   "status": "partial",
   "theorems": [
    "HPWH.C55_values",
    "HPWH.C55_range_partial",
    "HPWH.C55_usable_negative"
   ],
   "note": "values proved for every configuration; the range 0..1 is proved for shut-off logics that look at at least the upper twelfth; finding: the usable fraction is negative for a narrower one"
  },
  {
   "property": "C61",
   "status": "proved",
   "theorems": [
    "HPWH.C61_accepts_iff",
    "HPWH.C61_configured",
    "HPWH.C61_spread",
    "HPWH.C61_accountable",
    "HPWH.C61_runs_balance",
    "HPWH.C61_narrow_heat_negative_spread"
   ],
   "note": "finding: a heat distribution narrower than a twelfth of the tank is accepted and has a negative thermal spread"
  },
  {
   "property": "C62",
   "status": "proved",
   "theorems": [
    "HPWH.C62_range_average",
    "HPWH.C62_library_logics",
    "HPWH.C62_node_logics",
    "HPWH.C62_twelfths_average",
    "HPWH.C62_separate_twelfths_merged",
    "HPWH.C62_top_node_number_invalid"
   ],
   "note": "findings: twelfths that are not adjacent are merged with what lies between; node number 13 gives an unusable logic"
  },
  {
   "property": "C46",
   "status": "proved",
   "theorems": [
    "HPWH.C46_swap",
    "HPWH.C46_swap_twice",
    "HPWH.C46_incomplete_undefined"
   ],
   "note": "Only the first two tables are re-indexed (further tables are proved unchanged, as in the code). A table shorter than its grid is out-of-range access, shown by the witness."
  },
  {
   "property": "C47",
   "status": "proved",
   "theorems": [
    "HPWH.C47_arrange",
    "HPWH.C47_trim",
    "HPWH.C47_arrange_arranged"
   ],
   "note": ""
  },
  {
   "property": "C50",
   "status": "proved",
   "theorems": [
    "HPWH.C50_designation",
    "HPWH.C50_monotone",
    "HPWH.C50_reported_class",
    "HPWH.C50_patterns"
   ],
   "note": ""
  },
  {
   "property": "C51",
   "status": "proved",
   "theorems": [
    "HPWH.C51_schedule",
    "HPWH.C51_one_draw_at_a_time",
    "HPWH.C51_total",
    "HPWH.C51_on_time",
    "HPWH.C51_standard_patterns",
    "HPWH.C64_day"
   ],
   "note": ""
  },
  {
   "property": "C64",
   "status": "proved",
   "theorems": [
    "HPWH.C64_day",
    "HPWH.C64_nominal_volume",
    "HPWH.C64_energy_balance"
   ],
   "note": "the day has 1441 minutes (0 to 1440 inclusive), as in the code; DayExample.lean runs a whole test of a concrete system to show the hypotheses are met"
  },
  {
   "property": "C65",
   "status": "partial",
   "theorems": [
    "HPWH.C65_recovery_efficiency",
    "HPWH.C65_energy_factor",
    "HPWH.C65_annual_consumption_understated"
   ],
   "note": "recovery efficiency and energy factor proved; the claim on the annual consumption is false: a difference of 67 F is converted as a temperature, the figure is 35/67 of what it should be (proved)"
  },
  {
   "property": "C66",
   "status": "proved",
   "theorems": [
    "HPWH.C66_prepared"
   ],
   "note": ""
  },
  {
   "property": "C52",
   "status": "partial",
   "theorems": [
    "HPWH.Fit.C52_fit_partial",
    "HPWH.Fit.C52_linear_fitted",
    "HPWH.Fit.C52_two_parameters",
    "HPWH.Fit.C52_not_converged_accepted",
    "HPWH.Fit.C52_neighbour_not_kept"
   ],
   "note": "The full claim is false of the code. Proved: when a fit returns, the metric meets the target at the value left, or at the neighbour tried first (value unchanged), or the 19 passes were used up; linear metrics are fitted. Witnesses: a fit that has not converged is accepted; the value returned is a neighbour of the one that met the target."
  },
  {
   "property": "C57",
   "status": "proved",
   "theorems": [
    "HPWH.PolySet.C57_between",
    "HPWH.PolySet.C57_at",
    "HPWH.PolySet.C57_outside",
    "HPWH.PolySet.C57_nearest",
    "HPWH.PolySet.C57_single_pass",
    "HPWH.PolySet.C57_multi_pass",
    "HPWH.PolySet.C57_single_entry_fails"
   ],
   "note": "finding: a set with a single entry fails"
  },
  {
   "property": "C67",
   "status": "proved",
   "theorems": [
    "HPWH.PolySet.C67_generic_uef",
    "HPWH.PolySet.C67_generic_ef"
   ],
   "note": "the test is an arbitrary function of the model and of a state"
  },
  {
   "property": "C53",
   "status": "partial",
   "theorems": [
    "HPWH.World.C53_settings_partial",
    "HPWH.World.C53_tank_shared",
    "HPWH.World.C53_not_independent",
    "HPWH.World.C53_sources_taken",
    "HPWH.C53_settings_missed",
    "HPWH.C53_copy_switches_original",
    "HPWH.C53_tank_assignment_partial",
    "HPWH.C53_tank_assignment_misses",
    "HPWH.C53_source_assignment",
    "HPWH.C53_condenser_assignment"
   ],
   "note": "The full claim is false of the code, for every configuration: a copy shares its tank and heat sources with the original, and the original's heat sources consult the copy's setpoint afterwards (proved). Proved of the claim: the settings listed in Spec.SameCopied are copied, and what the original holds itself does not change with the copy."
  },
  {
   "property": "C43",
   "status": "proved",
   "theorems": [
    "HPWH.C43_tank_settings",
    "HPWH.C43_rest_kept",
    "HPWH.C43_same_behaviour",
    "HPWH.C43_same_behaviour_run",
    "HPWH.C43_zero_fraction_switch"
   ],
   "note": "a tank that mixes below a fraction of zero comes back as one that does not mix, with the same behaviour"
  },
  {
   "property": "C44",
   "status": "partial",
   "theorems": [
    "HPWH.Logic.C44_same_decision_partial",
    "HPWH.Logic.C44_valid",
    "HPWH.Logic.C44_soc_lost",
    "HPWH.Logic.C44_soc_witness",
    "HPWH.Logic.C44_marks_lost"
   ],
   "note": "proved for temperature logics; false for state-of-charge logics (settings are lost) and for labels that sizing and shut-off look at (witnesses)"
  },
  {
   "property": "C45",
   "status": "partial",
   "theorems": [
    "HPWH.C45_product_partial",
    "HPWH.C45_single_lost",
    "HPWH.C45_single_lost_witness",
    "HPWH.C45_old_information_stays"
   ],
   "note": "the full claim is false: one of the two alone is lost (C45_single_lost)"
  },
  {
   "property": "C71",
   "status": "partial",
   "theorems": [
    "HPWH.C71_description_partial",
    "HPWH.C71_absent_description",
    "HPWH.C71_rating",
    "HPWH.C71_rating_replaces"
   ],
   "note": "an absent description comes back as a standard text (C71_absent_description)"
  },
  {
   "property": "C60",
   "status": "partial",
   "theorems": [
    "HPWH.Machine.C60_export_unchanged_partial",
    "HPWH.Machine.C60_only_setpoint",
    "HPWH.Machine.C60_setpoint_written",
    "HPWH.C60_grid_overwrites_setpoint",
    "HPWH.Machine.C60_setpoint_overwritten"
   ],
   "note": "proved unless an external condenser has a performance grid; then the claim is false: the setpoint afterwards is the last leaving temperature of the grid (C60_grid_overwrites_setpoint, witness C60_setpoint_overwritten)"
  },
  {
   "property": "C68",
   "status": "proved",
   "theorems": [
    "HPWH.Machine.C68_sources",
    "HPWH.Machine.C68_logics",
    "HPWH.Machine.C68_priority",
    "HPWH.Machine.C68_settings",
    "HPWH.Machine.C68_equal_names_confused",
    "HPWH.Machine.C68_nameless_becomes_priority",
    "HPWH.Machine.C68_first_priority_lost",
    "HPWH.C68_unknown_link_to_first",
    "HPWH.C68_own_backup"
   ],
   "note": "at most one priority source; logics on temperatures (state of charge: C44)"
  },
  {
   "property": "C69",
   "status": "partial",
   "theorems": [
    "HPWH.Machine.C69_condenser",
    "HPWH.Machine.C69_range",
    "HPWH.Machine.C69_external",
    "HPWH.Machine.C69_ports",
    "HPWH.Machine.C69_other_ports_wrong",
    "HPWH.Machine.C69_other_ports_witness",
    "HPWH.Machine.C69_integrated_lost",
    "HPWH.Machine.C69_mixed_undefined"
   ],
   "note": "proved: configuration, maximum setpoint, hysteresis, standby power, temperature range; external: defrost, low-temperature limit, and the compressor's ports, flow rate and exchanger. False of the code: defrost, offsets, scales and airflow of integrated condensers are lost; ports of further external condensers come back wrong"
  },
  {
   "property": "C70",
   "status": "proved",
   "theorems": [
    "HPWH.Machine.C70_integrated",
    "HPWH.Machine.C70_external",
    "HPWH.Machine.C70_made_consistent",
    "HPWH.Machine.C70_performance_integrated",
    "HPWH.Machine.C70_two_axes_undefined"
   ],
   "note": "Btwxt is a parameter, assumed exact at grid points (Spec.ExactAtPoints)"
  },
  {
   "property": "C72",
   "status": "partial",
   "theorems": [
    "HPWH.Machine.C72_export_again_partial",
    "HPWH.Machine.C72_direction_lost"
   ],
   "note": "Proved for integrated and central systems with any number of nodes and heat sources, if names differ (and are given when there is no priority source), state-of-charge logics compare by less, a mixing fraction in use is not negative, the compressor is the last condenser, and the interpolation library is exact at grid points. C72_direction_lost proves that a shut-off logic on the state of charge is written differently the second time."
  },
  {
   "property": "C73",
   "status": "partial",
   "theorems": [
    "HPWH.C73_standby_partial",
    "HPWH.StandbyPeriod.unique"
   ],
   "note": "what the code computes is proved exactly; it differs from the claim in three ways visible in the theorem: the duration used is one minute shorter than the period whose electricity and temperatures are summed, a draw of a single minute does not end the period (unless it starts heating), and if there is no standby period the figures are those of a whole day that starts at 0 C"
  },
  {
   "property": "C74",
   "status": "partial",
   "theorems": [
    "HPWH.C74_first_hour_partial",
    "HPWH.hourSim_returns"
   ],
   "note": "the course of the rating and its result are proved exactly; it differs from the claim: the last minute of each draw is not counted (a water heater that delivers 128 L is rated 64 L, hourSim_returns), and the mean temperatures are those of all draws so far, not of the single draw"
  },
  {
   "property": "C75",
   "status": "partial",
   "theorems": [
    "HPWH.C75_test_table",
    "HPWH.C75_state_table",
    "HPWH.C75_same_length",
    "HPWH.thermocouples_eq",
    "HPWH.C75_no_compressor_fails",
    "HPWH.C75_target_unset"
   ],
   "note": "names and values are proved for all configurations; two cases fail: without a compressor nothing can be written (C75_no_compressor_fails), and with state-of-charge control before a target is set a row reads an uninitialised value (C75_target_unset). Spec.testTable shows that the condenser, state-of-charge and demand-response columns are those of the simulator at the time of writing, not of the record"
  },
  {
   "property": "C76",
   "status": "partial",
   "theorems": [
    "HPWH.C76_never_loads"
   ],
   "note": "false of the code: the theorem proves that no file whatever can be loaded"
  },
  {
   "property": "C77",
   "status": "proved",
   "theorems": [
    "HPWH.C77_readouts",
    "HPWH.C77_no_such_source",
    "HPWH.C77_thermocouple",
    "HPWH.C77_compressor"
   ],
   "note": ""
  },
  {
   "property": "C78",
   "status": "partial",
   "theorems": [
    "HPWH.C78_schedule",
    "HPWH.C78_lengths",
    "HPWH.isHourly_iff",
    "HPWH.C78_outside"
   ],
   "note": "reading is proved exactly (C78_schedule: read without complaint iff default and all exceptions within the test); the last clause is false: an hour beyond the test, or a negative number, is not reported but written outside the array (C78_outside)"
  },
  {
   "property": "C79",
   "status": "partial",
   "theorems": [
    "HPWH.C79_run_follows_schedules_partial",
    "HPWH.C79_checks_pass",
    "HPWH.C79_no_compressor",
    "HPWH.C79_mixed_draw_wrong",
    "HPWH.C79_charge_needs_schedule"
   ],
   "note": "proved for tests below 500000 minutes, in which draws are used as scheduled; findings: without a compressor the command cannot be used (C79_no_compressor); in longer tests of large compressors the draws are changed by a formula that mixes Celsius and Fahrenheit (C79_mixed_draw_wrong); without a schedule for the state of charge the command goes on and reads outside the empty schedule (C79_charge_needs_schedule)"
  },
  {
   "property": "C80",
   "status": "partial",
   "theorems": [
    "HPWH.C80_daily_sums_partial",
    "HPWH.C80_four_sources_undefined",
    "HPWH.C80_boundary_heading"
   ],
   "note": "proved for up to three heat sources; with more the sums are written outside their arrays (C80_four_sources_undefined). A test of exactly 500000 minutes has the heading of the other table (C80_boundary_heading)"
  },
  {
   "property": "C81",
   "status": "proved",
   "theorems": [
    "HPWH.C81_accepted_iff",
    "HPWH.C81_two_elements",
    "HPWH.C81_one_element",
    "HPWH.C81_starts",
    "HPWH.C81_generic_accepted_iff",
    "HPWH.C81_generic_delivered",
    "HPWH.C81_runs_balance",
    "HPWH.C81_forgets",
    "HPWH.C81_depression_survives"
   ],
   "note": "independence of the previous state holds apart from the limit on the cooling of the room, which is not reset (C81_depression_survives)"
  },
  {
   "property": "C82",
   "status": "proved",
   "theorems": [
    "HPWH.C82_step",
    "HPWH.C82_run",
    "HPWH.C82_resistance_tank",
    "HPWH.C82_topOff_runs_both"
   ],
   "note": "C82_topOff_runs_both is a run that shows why top-off signals are excluded: such a signal starts the lower element beside the upper one, and both stay on."
  },
  {
   "property": "C83",
   "status": "proved",
   "theorems": [
    "HPWH.C83_step",
    "HPWH.C83_run",
    "HPWH.C83_multipass_overheats"
   ],
   "note": "C83_multipass_overheats shows why external multi-pass heat pumps have no upper limit: they heat water above the setpoint."
  },
  {
   "property": "C84",
   "status": "proved",
   "theorems": [
    "HPWH.C84_accepted_iff",
    "HPWH.C84_delivered",
    "HPWH.C84_performance",
    "HPWH.C84_positive",
    "HPWH.C84_run",
    "HPWH.C84_negative_factor"
   ],
   "note": "C84_negative_factor: energy factors below -1.92 are accepted and give a negative COP and a negative input power. C84_run assumes steps short enough for the heat losses (Gentle), which gentle_of shows from the volume."
  },
  {
   "property": "C85",
   "status": "proved",
   "theorems": [
    "HPWH.C85_names",
    "HPWH.C85_accepted",
    "HPWH.C85_delivered",
    "HPWH.C85_by_name",
    "HPWH.C85_missing"
   ],
   "note": "five names in the enumeration have no settings and cannot be initialised (C85_missing), so they are not among the models listed; performance tables interpolated by Btwxt are a parameter"
  },
  {
   "property": "C86",
   "status": "partial",
   "theorems": [
    "HPWH.C86_positive",
    "HPWH.C86_run_partial",
    "HPWH.C86_UEF217_cools",
    "HPWH.C86_outside_limits"
   ],
   "note": "positivity is proved for all models, within the temperature limits of Spec.limits (air 20-120 F, water 32-150 F, narrower for ten models) and setpoints between 80 and 212 F; the 11 models with tables under the hypothesis that Btwxt returns positive values. Runs are proved for 88 of the 108 models. Missing: runs of the 19 central multi-pass systems, which may pass the limit, and of the tank without heat source. The full claim is false: GenericUEF217 takes heat out of the water at 120 F air and water, where it may run and below its setpoint (C86_UEF217_cools); Rheem2020Prem, RheemPlugInShared, Sanco and AquaThermAire have a negative COP or input power at the edge of their ranges (C86_outside_limits)"
  },
  {
   "property": "C87",
   "status": "proved",
   "theorems": [
    "HPWH.C87_step",
    "HPWH.C87_run",
    "HPWH.C87_derived_once",
    "HPWH.Machine.C87_reread_settings",
    "HPWH.Machine.C87_reread_accepted",
    "HPWH.Machine.C87_reread_runs",
    "HPWH.C87_resistance_tank",
    "HPWH.C87_resistance_tank_generic"
   ],
   "note": "heat pumps are outside this property: their performance functions are replaced by interpolated tables (C70, C72)"
  },
  {
   "property": "C88",
   "status": "proved",
   "theorems": [
    "HPWH.C88_control",
    "HPWH.Sim.C88_set_up",
    "HPWH.Sim.C88_profile",
    "HPWH.Sim.C88_profile_ignored"
   ],
   "note": "C88_profile_ignored (finding): the profile is ignored if the file gives no setpoint. C88_profile assumes a library that gives back the values at the points it is given."
  },
  {
   "property": "C89",
   "status": "partial",
   "theorems": [
    "HPWH.C89_file_name_partial",
    "HPWH.C89_no_directory",
    "HPWH.C89_results_file",
    "HPWH.C89_no_results_file",
    "HPWH.C89_converted_file_partial",
    "HPWH.C89_short_name",
    "HPWH.C89_named_model",
    "HPWH.C89_number_or_file",
    "HPWH.C89_nothing_loaded",
    "HPWH.C89_profile",
    "HPWH.C89_conditions",
    "HPWH.C89_unknown_conditions",
    "HPWH.C89_measure",
    "HPWH.C89_unknown_profile",
    "HPWH.C89_no_compressor"
   ],
   "note": "the full claim is false: a file without directory is loaded as custom (C89_no_directory), convert fails on names shorter than five characters (C89_short_name), a misspelt kind of specification loads nothing (C89_nothing_loaded), unknown conditions give the standard test (C89_unknown_conditions), and measure always fails for heaters without heat pump (C89_no_compressor)"
  },
  {
   "property": "C90",
   "status": "partial",
   "theorems": [
    "HPWH.C90_by_name_partial",
    "HPWH.C90_tables",
    "HPWH.C90_first",
    "HPWH.C90_first_built_in",
    "HPWH.C90_first_lost",
    "HPWH.C90_large_draw_lost",
    "HPWH.C90_left_over"
   ],
   "note": "the full claim is false: loading does not reset the simulator, so a fixed setpoint, scaling, control by the state of charge, timers and switches of the former model stay (C90_left_over); three generic models lose the logic on large draws (C90_large_draw_lost), the scalable multi-pass system one of its first heat sources (C90_first_lost)"
  },
  {
   "property": "C91",
   "status": "proved",
   "theorems": [
    "HPWH.C91_reason",
    "HPWH.C91_rest",
    "HPWH.C91_flag",
    "HPWH.C91_flag_history"
   ],
   "note": "the reasons are those of Spec.HasReason; the logics are evaluated on the water after the draw, the losses and conduction of the step"
  },
  {
   "property": "C92",
   "status": "proved",
   "theorems": [
    "HPWH.C92_no_pause",
    "HPWH.C92_gain",
    "HPWH.C92_recovery"
   ],
   "note": "steps without top-off signals, without extra heat; for the gain and the recovery also without draws, with steps short enough for the losses (WorksBetween) and without cooling of the room"
  },
  {
   "property": "C93",
   "status": "proved",
   "theorems": [
    "HPWH.Fit.C93_fit",
    "HPWH.C93_fitted",
    "HPWH.C93_no_pump",
    "HPWH.C93_tiers",
    "HPWH.C93_tier_models",
    "HPWH.C93_command"
   ],
   "note": "the three ways the search ends are those of Spec.SearchEnds: a fit that was given up is not reported as such (C52), and the final report is of one more test, which starts where the search ended"
  },
  {
   "property": "C94",
   "status": "proved",
   "theorems": [
    "HPWH.C94_three",
    "HPWH.C94_uniform",
    "HPWH.C94_no_pump",
    "HPWH.C94_tiers"
   ],
   "note": "performance is compared at the temperature of the air in the tests; with performance points at other temperatures (none of the tiers) the fits do disturb each other"
  },
  {
   "property": "C95",
   "status": "proved",
   "theorems": [
    "HPWH.C95_approaches",
    "HPWH.C95_keeps_warm",
    "HPWH.C95_storage",
    "HPWH.C95_heat",
    "HPWH.C95_eventually"
   ],
   "note": "steps short enough for losses and conduction (Insulated.gentle; C07 shows that longer steps overshoot); without the model of the cooling of the room"
  },
  {
   "property": "C96",
   "status": "proved",
   "theorems": [
    "HPWH.C96_step",
    "HPWH.C96_run"
   ],
   "note": "steps short enough for losses and conduction (Tame, as in C95); without the model of the cooling of the room; a heat exchanger takes no more than the water of a node per step"
  },
  {
   "property": "C97",
   "status": "proved",
   "theorems": [
    "HPWH.C97_heating_warms",
    "HPWH.C97_run",
    "HPWH.C97_heating_cools"
   ],
   "note": "the condition is WarmsOnly; C97_heating_cools shows that it is needed"
  },
  {
   "property": "C98",
   "status": "proved",
   "theorems": [
    "HPWH.C98_weights",
    "HPWH.C98_weights_range",
    "HPWH.C98_equal_weights",
    "HPWH.C98_not_normalized",
    "HPWH.C98_weights_mono",
    "HPWH.C98_thermocouple",
    "HPWH.C98_distribution",
    "HPWH.C98_inlets"
   ],
   "note": "the weights are used as given; C98_not_normalized says what that means"
  },
  {
   "property": "C99",
   "status": "proved",
   "theorems": [
    "HPWH.C99_step",
    "HPWH.C99_step_full",
    "HPWH.C99_run",
    "HPWH.C99_split",
    "HPWH.C99_split_conv"
   ],
   "note": ""
  },
  {
   "property": "C100",
   "status": "proved",
   "theorems": [
    "HPWH.C100_step",
    "HPWH.C100_run",
    "HPWH.C100_built_in"
   ],
   "note": "the settings that fit together are those of Sim.Ready, together with WorksBetween and Sound of the earlier properties; the condition on backups excludes a backup that is asked to run for exactly no time"
  },
  {
   "property": "C101",
   "status": "proved",
   "theorems": [
    "HPWH.C101_stops",
    "HPWH.C101_all_hot",
    "HPWH.C101_resistance_tank"
   ],
   "note": ""
  },
  {
   "property": "C102",
   "status": "proved",
   "theorems": [
    "HPWH.C102_only_performance",
    "HPWH.C102_forgets",
    "HPWH.C102_last_counts",
    "HPWH.C102_performs",
    "HPWH.C102_capacity",
    "HPWH.C102_capacity_of_another",
    "HPWH.C102_capacity_stale"
   ],
   "note": "the value of the performance is stated without defrosting and with unrestricted air flow, the capacity for a heat pump that is not external; C102_capacity_stale is a witness that with two heat pumps the reported capacity does not follow the replacement"
  },
  {
   "property": "C103",
   "status": "proved",
   "theorems": [
    "HPWH.C103_single_pass",
    "HPWH.C103_multi_pass",
    "HPWH.C103_reading",
    "HPWH.C103_multi_pass_adds_up",
    "HPWH.C103_single_pass_temperatures",
    "HPWH.C103_step",
    "HPWH.C103_step_multi_pass",
    "HPWH.C103_step_single_pass",
    "HPWH.C103_single_pass_does_not_add_up",
    "HPWH.C103_two_heat_pumps"
   ],
   "note": "the statements about a step are for a water heater whose only heat source is the external heat pump; those about the heating itself are for any; the last two are witnesses for the limits named in the property"
  },
  {
   "property": "C104",
   "status": "proved",
   "theorems": [
    "HPWH.C104_step",
    "HPWH.C104_step_outputs",
    "HPWH.C104_step_fails",
    "HPWH.C104_run",
    "HPWH.C104_run_outputs",
    "HPWH.C104_load_matters"
   ],
   "note": "in exact arithmetic; the larger heater is the one of Spec/Scale.lean (same height), not what the setters for the tank size make, which change the height with the volume; C104_load_matters is a witness that the load has to grow with the heater"
  },
  {
   "property": "C105",
   "status": "proved",
   "theorems": [
    "HPWH.C105_charge_limit",
    "HPWH.C105_step"
   ],
   "note": "in exact arithmetic; C105_charge_limit for one period of heating of any heater, C105_step for a whole step of a heater whose only heat source is the heat pump, not limited by cold air; that heating ends at all is C18"
  },
  {
   "property": "C106",
   "status": "proved",
   "theorems": [
    "HPWH.C106_no_pause",
    "HPWH.C106_gain",
    "HPWH.C106_recovery",
    "HPWH.C16_single_pass_energy",
    "HPWH.C17_multi_pass_energy"
   ],
   "note": "for the gain and the recovery without draws and extra heat, with steps short enough for the losses (WorksBetween), without cooling of the room; multi-pass heat pumps only for the output energy, because their water has no upper limit (C83)"
  },
  {
   "property": "C107",
   "status": "proved",
   "theorems": [
    "HPWH.C107_step",
    "HPWH.C107_run"
   ],
   "note": ""
  },
  {
   "property": "C108",
   "status": "proved",
   "theorems": [
    "HPWH.C108_draw"
   ],
   "note": ""
  },
  {
   "property": "C109",
   "status": "proved",
   "theorems": [
    "HPWH.C109_no_pause",
    "HPWH.C109_ends",
    "HPWH.C109_alone"
   ],
   "note": ""
  },
  {
   "property": "C110",
   "status": "proved",
   "theorems": [
    "HPWH.C110_priority"
   ],
   "note": ""
  },
  {
   "property": "C111",
   "status": "proved",
   "theorems": [
    "HPWH.C111_one_on",
    "HPWH.C111_share",
    "HPWH.C111_models"
   ],
   "note": ""
  }
 ]
}