{
 "claims": [
  {
   "property": "C01",
   "status": "proved",
   "theorems": [
    "Fastsim.Props.C01_concat_toMicrotrips",
    "Fastsim.Props.C01_concat_toMicrotrips_zero"
   ],
   "note": "Every cycle, every speed tolerance."
  },
  {
   "property": "C02",
   "status": "proved",
   "theorems": [
    "Fastsim.Props.C02_microtrip_shape",
    "Fastsim.Props.C02_single_trip",
    "Fastsim.Props.C02_nonempty"
   ],
   "note": ""
  },
  {
   "property": "C03",
   "status": "proved",
   "theorems": [
    "Fastsim.Props.C03_success",
    "Fastsim.Props.C03_error",
    "Fastsim.Props.C03_samples",
    "Fastsim.Props.C03_end_time",
    "Fastsim.Props.C03_increasing",
    "Fastsim.Props.C03_distance",
    "Fastsim.Props.C03_assoc",
    "Fastsim.Props.C03_unit"
   ],
   "note": ""
  },
  {
   "property": "C04",
   "status": "proved",
   "theorems": [
    "Fastsim.Props.C04_clip",
    "Fastsim.Props.C04_contiguous",
    "Fastsim.Props.C04_idempotent"
   ],
   "note": ""
  },
  {
   "property": "C05",
   "status": "proved",
   "theorems": [
    "Fastsim.Props.C05_times",
    "Fastsim.Props.C05_linear",
    "Fastsim.Props.C05_bounds",
    "Fastsim.Props.C05_hold",
    "Fastsim.Props.C05_next",
    "Fastsim.Props.C05_exact",
    "Fastsim.Props.C05_outcome",
    "Fastsim.Props.C05_identity",
    "Fastsim.Props.C05_rate_distance",
    "Fastsim.Props.C05_demo",
    "Fastsim.Props.C05_rate_demo",
    "Fastsim.Props.C05_rate_partial_step",
    "Fastsim.Props.C05_past_end",
    "Fastsim.Props.C05_default_start"
   ],
   "note": "scipy.interp1d kinds 0 and next enter as piecewise constant lookups with range check (trusted); new_dt > 0."
  },
  {
   "property": "C06",
   "status": "proved",
   "theorems": [
    "Fastsim.Props.C06_start_distance",
    "Fastsim.Props.C06_step",
    "Fastsim.Props.C06_start_is_sum",
    "Fastsim.Props.C06_range",
    "Fastsim.Props.C06_range_additive",
    "Fastsim.Props.C06_cumulative",
    "Fastsim.Props.C06_monotone",
    "Fastsim.Props.C06_stopped"
   ],
   "note": ""
  },
  {
   "property": "C07",
   "status": "proved",
   "theorems": [
    "Fastsim.Props.C07_rendezvous",
    "Fastsim.Props.C07_success"
   ],
   "note": ""
  },
  {
   "property": "C08",
   "status": "partial",
   "theorems": [
    "Fastsim.Props.C08_consistent_dt_one_partial",
    "Fastsim.Props.C08_defect",
    "Fastsim.Props.C08_refuted",
    "Fastsim.Props.C08_rendezvous_missed"
   ],
   "note": "The property holds only for a time step of 1 s; for other steps it is refuted and the exact defect is given."
  },
  {
   "property": "C09",
   "status": "proved",
   "theorems": [
    "Fastsim.Props.C09_const_jerk",
    "Fastsim.Props.C09_braking_frame",
    "Fastsim.Props.C09_braking_stops",
    "Fastsim.Props.C09_braking_distance",
    "Fastsim.Props.C09_braking_succeeds",
    "Fastsim.Props.C09_two_second_steps"
   ],
   "note": ""
  },
  {
   "property": "C10",
   "status": "proved",
   "theorems": [
    "Fastsim.Props.C10_cases",
    "Fastsim.Props.C10_closest",
    "Fastsim.Props.C10_beyond",
    "Fastsim.Props.C10_sign",
    "Fastsim.Props.C10_approach",
    "Fastsim.Props.C10_cached",
    "Fastsim.Props.C10_demo"
   ],
   "note": "Closest stopped sample strictly beyond the query; with none left the answer is the distance back to the start (C10_beyond); the cached variant agrees."
  },
  {
   "property": "C11",
   "status": "proved",
   "theorems": [
    "Fastsim.Props.C11_iff",
    "Fastsim.Props.C11_report",
    "Fastsim.Props.C11_none",
    "Fastsim.Props.C11_behind",
    "Fastsim.Props.C11_tolerance",
    "Fastsim.Props.C11_blind_spots"
   ],
   "note": "detect_passing reports exactly the first pass of a moving vehicle; index, steps, lead distance and speed. C11_blind_spots: the start step and standing vehicles are not checked."
  },
  {
   "property": "C12",
   "status": "proved",
   "theorems": [
    "Fastsim.Props.C12_point",
    "Fastsim.Props.C12_cached_point",
    "Fastsim.Props.C12_elevation",
    "Fastsim.Props.C12_agree_long",
    "Fastsim.Props.C12_agree",
    "Fastsim.Props.C12_agree_moving",
    "Fastsim.Props.C12_average",
    "Fastsim.Props.C12_bounds",
    "Fastsim.Props.C12_constant",
    "Fastsim.Props.C12_past_end",
    "Fastsim.Props.C12_cache_disagrees",
    "Fastsim.Props.C12_past_end_demo"
   ],
   "note": "Agreement of cached and uncached queries for all ranges over 1e-6 m, and for all single-point queries when grade is held at stops; C12_cache_disagrees refutes agreement in general. np.ceil and tan(arcsin) enter through their laws."
  },
  {
   "property": "C13",
   "status": "proved",
   "theorems": [
    "Fastsim.Props.C13_to_mpg",
    "Fastsim.Props.C13_to_l100km",
    "Fastsim.Props.C13_inverse",
    "Fastsim.Props.C13_economy_order",
    "Fastsim.Props.C13_lhv",
    "Fastsim.Props.C13_lhv_back",
    "Fastsim.Props.C13_mph",
    "Fastsim.Props.C13_mph_back",
    "Fastsim.Props.C13_road_load_back",
    "Fastsim.Props.C13_abc_back",
    "Fastsim.Props.C13_road_load",
    "Fastsim.Props.C13_fit",
    "Fastsim.Props.C13_gas_law",
    "Fastsim.Props.C13_thin_air",
    "Fastsim.Props.C13_tire",
    "Fastsim.Props.C13_lhv_rust",
    "Fastsim.Props.C13_lhv_same",
    "Fastsim.Props.C13_lhv_exhaust",
    "Fastsim.Props.FuelDemo.C13_demo_rust"
   ],
   "note": "Conversions raise ZeroDivisionError at 0 (proved). get_rho_air monotonicity takes monotonicity of ** with exponent 5.256 as a hypothesis, met by the real power (demo_thin_air). Simulation-based fitting in abc_to_drag_coeffs (scipy.optimize) is not modelled. The Rust getter and setter of the heating value: C13_lhv_rust, C13_lhv_same, C13_lhv_exhaust."
  },
  {
   "property": "C14",
   "status": "proved",
   "theorems": [
    "Fastsim.Props.C14_extend",
    "Fastsim.Props.C14_empty",
    "Fastsim.Props.C14_seconds",
    "Fastsim.Props.C14_fraction",
    "Fastsim.Props.C14_distance",
    "Fastsim.Props.C14_not_nearest"
   ],
   "note": ""
  },
  {
   "property": "C15",
   "status": "proved",
   "theorems": [
    "Fastsim.Props.C15_table",
    "Fastsim.Props.C15_blend",
    "Fastsim.Props.C15_distances",
    "Fastsim.Props.C15_speeds",
    "Fastsim.Props.C15_empty",
    "Fastsim.Props.C15_in_force",
    "Fastsim.Props.C02_pieces",
    "Fastsim.Props.C15_demo"
   ],
   "note": "Distances count each step with its end speed, as dist_m does. Needs non-decreasing times and non-negative speeds."
  },
  {
   "property": "C16",
   "status": "proved",
   "theorems": [
    "Fastsim.Props.C16_engine_upper",
    "Fastsim.Props.C16_engine_output"
   ],
   "note": "Upper bounds lawless (any rounding); non-negativity needs a non-negative engine rating and ramp and a non-negative step duration."
  },
  {
   "property": "C17",
   "status": "proved",
   "theorems": [
    "Fastsim.Props.C17_fuel_power",
    "Fastsim.Props.C17_totals",
    "Fastsim.Props.C17_mpgge"
   ],
   "note": "Per-step fuel power, totals, cumulative fuel and mpgge."
  },
  {
   "property": "C18",
   "status": "proved",
   "theorems": [
    "Fastsim.Props.C18_regen_bound",
    "Fastsim.Props.C18_brakes_share"
   ],
   "note": "Regeneration bound lawless; sharing needs exact arithmetic and plausible regen data."
  },
  {
   "property": "C19",
   "status": "proved",
   "theorems": [
    "Fastsim.Props.C19_transmission_limit",
    "Fastsim.Props.C19_transmission_loss",
    "Fastsim.Props.C19_losses_nonneg"
   ],
   "note": "Limit lawless; losses in exact arithmetic."
  },
  {
   "property": "C20",
   "status": "proved",
   "theorems": [
    "Fastsim.Props.C20_soc_is_energy",
    "Fastsim.Props.C20_step",
    "Fastsim.Props.C20_run_balance",
    "Fastsim.Props.C20_phantom_discharge"
   ],
   "note": "Whole-run balance, per-step balance, losses, sign. Refuted for vehicles with a battery but without motor: phantom discharge."
  },
  {
   "property": "C21",
   "status": "proved",
   "theorems": [
    "Fastsim.Props.C21_step_window",
    "Fastsim.Props.C21_run_window",
    "Fastsim.Props.C21_limits_sharp",
    "Fastsim.Props.C21_soc_leaves_window"
   ],
   "note": "Conditional statement proved for every run; sharpness of limits; unconditional statement refuted by witness."
  },
  {
   "property": "C22",
   "status": "proved",
   "theorems": [
    "Fastsim.Props.C22_identity",
    "Fastsim.Props.C22_wheels",
    "Fastsim.Props.C22_bus",
    "Fastsim.Props.C22_conventional_bus",
    "Fastsim.Props.C22_conventional",
    "Fastsim.Props.C22_error_zero",
    "Fastsim.Props.C22_demo",
    "Fastsim.Props.C22_real_wheels"
   ],
   "note": "Identity for all modes, wheel form for one solve per step, bus balance characterised, zero-error equivalence for conventional vehicles."
  },
  {
   "property": "C23",
   "status": "proved",
   "theorems": [
    "Fastsim.Props.C23_no_electric_power"
   ],
   "note": "For engines that are not fuel cells, positive engine rating and non-negative accessory load."
  },
  {
   "property": "C24",
   "status": "proved",
   "theorems": [
    "Fastsim.Props.C24_no_fuel",
    "Fastsim.Props.C24_no_fuel_total",
    "Fastsim.Props.C24_battery_power",
    "Fastsim.Props.C24_above_window",
    "Fastsim.Props.C24_exhausted_bev_charges",
    "Fastsim.Props.C24_accessory_power_vanishes"
   ],
   "note": "No fuel: lawless. Battery power identity proved; the exhausted battery case is shown to charge the battery (second half of the naive reading refuted)."
  },
  {
   "property": "C25",
   "status": "proved",
   "theorems": [
    "Fastsim.Props.C25_speed_nonneg",
    "Fastsim.Props.C25_distance",
    "Fastsim.Props.C25_speed_exact",
    "Fastsim.Props.C25_demo",
    "Fastsim.Props.C25_real_nonneg",
    "Fastsim.Props.C25_real_distance"
   ],
   "note": "Non-negative speed in every mode and any rounding (hooks of car following/coasting must not command reversing); distances; exact speed when the road load is within the transmission limit (plain runs)."
  },
  {
   "property": "C26",
   "status": "proved",
   "theorems": [
    "Fastsim.Props.C26_newton_update",
    "Fastsim.Props.C26_missed_is_newton",
    "Fastsim.Props.C26_answer",
    "Fastsim.Props.C25_speed_exact"
   ],
   "note": "Newton answer characterised by an independent specification for the physical road load."
  },
  {
   "property": "C27",
   "status": "proved",
   "theorems": [
    "Fastsim.Props.C27_walk_is_steps",
    "Fastsim.Props.C27_step_advances",
    "Fastsim.Props.C27_short_cycles",
    "Fastsim.Props.C27_balancing",
    "Fastsim.Props.C27_single_walk",
    "Fastsim.Props.C27_imbalance",
    "Fastsim.Props.C27_demo",
    "Fastsim.Props.C27_electric_counts_as_balanced",
    "Fastsim.Props.C27_last_walk_unchecked"
   ],
   "note": "Walk = init + exactly n-1 steps including exceptions; balancing as an inductive relation. Witnesses: electric-only cycles count as balanced; the reported (last) walk is not checked."
  },
  {
   "property": "C28",
   "status": "proved",
   "theorems": [
    "Fastsim.Props.C28_rerun",
    "Fastsim.Props.C28_demo",
    "Fastsim.Props.C28_options_switched_off"
   ],
   "note": "All histories of completed runs with unchanged options; refutation witness when options are switched off."
  },
  {
   "property": "C29",
   "status": "proved",
   "theorems": [
    "Fastsim.Props.C29_set_time_dilation",
    "Fastsim.Props.C29_run",
    "Fastsim.Props.C29_times_increase",
    "Fastsim.Props.C29_compound",
    "Fastsim.Props.C29_exceeds_max",
    "Fastsim.Props.C29_demo",
    "Fastsim.Props.C29_real_run",
    "Fastsim.Props.C29_secant"
   ],
   "note": "set_time_dilation on any object and over whole runs with any local driving mode; exact arithmetic. C29_secant states how the corrections are chosen. The documented bound on a step's dilation is refuted by C29_exceeds_max."
  },
  {
   "property": "C30",
   "status": "proved",
   "theorems": [
    "Fastsim.Props.C30_nonneg",
    "Fastsim.Props.C30_textbook",
    "Fastsim.Props.C30_accel_bound",
    "Fastsim.Props.C30_no_acceleration",
    "Fastsim.Props.C30_gap_monotone",
    "Fastsim.Props.C30_lookup",
    "Fastsim.Props.C30_hook",
    "Fastsim.Props.C30_run",
    "Fastsim.Props.C30_passes_lead",
    "Fastsim.Props.C30_demo",
    "Fastsim.Props.C30_lookup_demo"
   ],
   "note": "Speed formula against a separately written textbook formula, for all arguments; sqrt and power uninterpreted (power of a non-negative base assumed non-negative, resp. at least 1, where stated). C30_run assumes coasting and trace-miss correction off. C30_passes_lead shows what is not promised."
  },
  {
   "property": "C31",
   "status": "proved",
   "theorems": [
    "Fastsim.Props.C31_step",
    "Fastsim.Props.C31_nonneg",
    "Fastsim.Props.C31_retries",
    "Fastsim.Props.C31_retries_stable",
    "Fastsim.Props.C31_retries_sharp",
    "Fastsim.Props.C31_trajectory",
    "Fastsim.Props.C31_stop_distance",
    "Fastsim.Props.C31_slows_down",
    "Fastsim.Props.C31_rendezvous",
    "Fastsim.Props.C31_flags_dropped",
    "Fastsim.Props.C31_never_raises",
    "Fastsim.Props.CoastDemo.C31_two_second_steps",
    "Fastsim.Props.CoastDemo.C31_gives_up"
   ],
   "note": "Collision prevention is total and bounded, edits are local, trajectories have the stated shape. C31_stop_distance and C31_rendezvous are about one-second steps, as the code's formulas presume; C31_two_second_steps, C31_flags_dropped and C31_gives_up are proved defects or limits."
  },
  {
   "property": "C32",
   "status": "proved",
   "theorems": [
    "Fastsim.Props.C32_timer",
    "Fastsim.Props.C32_state",
    "Fastsim.Props.C32_start",
    "Fastsim.Props.C32_nonneg",
    "Fastsim.Props.C32_minimum_on_time",
    "Fastsim.Props.C32_forced_power",
    "Fastsim.Props.C32_demo",
    "Fastsim.Props.C32_timer_misses_engine"
   ],
   "note": "Timer laws for every step; minimum on-time between samples; forced power and state number. Witness that the timer does not follow the engine when accessories hang on it."
  },
  {
   "property": "C33",
   "status": "proved",
   "theorems": [
    "Fastsim.Props.C33_load",
    "Fastsim.Props.C33_honoured",
    "Fastsim.Props.C33_trailing_zeros_replaced",
    "Fastsim.Props.C33_wrong_length_ignored",
    "Fastsim.Props.C33_real_load"
   ],
   "note": "Exact description of the simulated load for every override; refutation witnesses for trailing zeros and wrong length."
  },
  {
   "property": "C34",
   "status": "proved",
   "theorems": [
    "Fastsim.Props.C34_split",
    "Fastsim.Props.C34_mpgge",
    "Fastsim.Props.C34_report",
    "Fastsim.Props.C34_report_demo"
   ],
   "note": "Energies of every channel split exactly, sign facts for sorted times; mpgge equality for vehicles with sensible engine maps. C34_report: keys of the report for any set of distinct attribute names."
  },
  {
   "property": "C35",
   "status": "proved",
   "theorems": [
    "Fastsim.Props.C35_corrected",
    "Fastsim.Props.C35_sign",
    "Fastsim.Props.C35_raises",
    "Fastsim.Props.C35_demo",
    "Fastsim.Props.C35_fuel_cell_divides_by_zero"
   ],
   "note": "Correction proportional to net charge with 0 < credit <= debit; exact raise condition; fuel-cell hybrids refuted by witness."
  },
  {
   "property": "C36",
   "status": "proved",
   "theorems": [
    "Fastsim.Props.C36_calls",
    "Fastsim.Props.C36_first_call",
    "Fastsim.Props.C36_settled",
    "Fastsim.Props.C36_not_idempotent",
    "Fastsim.Props.C36_depth",
    "Fastsim.Props.C36_first",
    "Fastsim.Props.C36_life",
    "Fastsim.Props.C36_depth_demo",
    "Fastsim.Props.C36_life_demo"
   ],
   "note": "Exact characterisation for any number of calls; expected accumulation/idempotence refuted by witness. np.power is uninterpreted: C36_life states what it needs of it."
  },
  {
   "property": "C37",
   "status": "proved",
   "theorems": [
    "Fastsim.Props.C37_inputs_kept",
    "Fastsim.Props.C37_override",
    "Fastsim.Props.C37_sum",
    "Fastsim.Props.C37_at_least",
    "Fastsim.Props.C37_monotone",
    "Fastsim.Props.C37_mass_again",
    "Fastsim.Props.C37_traction",
    "Fastsim.Props.C37_switches",
    "Fastsim.Props.C37_types",
    "Fastsim.Props.C37_types_rejected",
    "Fastsim.Props.C37_no_electric"
   ],
   "note": "set_veh_mass and set_derived modelled in full (Model/Vehicle.lean). Numpy's inf/nan on division by zero not modelled."
  },
  {
   "property": "C38",
   "status": "proved",
   "theorems": [
    "Fastsim.Props.C38_engine_peak",
    "Fastsim.Props.C38_motor_peak",
    "Fastsim.Props.C38_derive_again",
    "Fastsim.Props.C38_engine_map_refuted",
    "Fastsim.Props.C38_engine_setting_lost",
    "Fastsim.Props.C38_motor_inputs_refuted",
    "Fastsim.Props.demo_motor_override_unstable"
   ],
   "note": "Getter/setter laws and stability of re-deriving proved; the three refuted respects are theorems too (C38_engine_map_refuted, C38_engine_setting_lost, C38_motor_inputs_refuted, demo_motor_override_unstable)."
  },
  {
   "property": "C39",
   "status": "proved",
   "theorems": [
    "Fastsim.Props.C39_from_dict",
    "Fastsim.Props.C39_cycle_copy",
    "Fastsim.Props.C39_legacy_names",
    "Fastsim.Props.C39_defaults",
    "Fastsim.Props.C39_unknown_column",
    "Fastsim.Props.C39_equals",
    "Fastsim.Props.C39_cyc_equal",
    "Fastsim.Props.C39_params_copy",
    "Fastsim.Props.C39_sim_params_equal",
    "Fastsim.Props.C39_props_equal",
    "Fastsim.Props.C39_params_copy_equal",
    "Fastsim.Props.C39_props_copy_equal",
    "Fastsim.Props.C39_veh_equal",
    "Fastsim.Props.C39_veh_diffs",
    "Fastsim.Props.C39_veh_equal_fields",
    "Fastsim.Props.C39_veh_equal_refl",
    "Fastsim.Props.C39_veh_equal_symm",
    "Fastsim.Props.C39_override_ignored",
    "Fastsim.Props.C39_override_reported",
    "Fastsim.Props.C39_vehicle_copy",
    "Fastsim.Props.C39_unknown_engine_copy",
    "Fastsim.Props.C39_legacy_vehicle",
    "Fastsim.Props.C39_copy_loses_arrays",
    "Fastsim.Props.C39_copy_not_equal",
    "Fastsim.Props.C39_copy_loses_peak",
    "Fastsim.Props.C39_demo_copy",
    "Fastsim.Props.C39_demo_map_lost",
    "Fastsim.Props.C39_demo_compare_raises",
    "Fastsim.Props.C39_demo_motor_override",
    "Fastsim.Props.C39_demo_not_transitive",
    "Fastsim.Props.C39_demo_override",
    "Fastsim.Props.C39_demo_cycle",
    "Fastsim.Props.C39_demo_params"
   ],
   "note": "Rust classes are not modelled. Refutations (custom arrays lost by copies, mass override ignored, motor override copied inexactly) are theorems of their own."
  },
  {
   "property": "C40",
   "status": "proved",
   "theorems": [
    "Fastsim.Props.C40_mpg",
    "Fastsim.Props.C40_mpg_order",
    "Fastsim.Props.C40_no_fuel",
    "Fastsim.Props.C40_bev",
    "Fastsim.Props.labelConst_ok",
    "Fastsim.Props.demo_conv",
    "Fastsim.Props.demo_bev"
   ],
   "note": "non-plug-in and battery-electric labels; simulations are arbitrary results"
  },
  {
   "property": "C41",
   "status": "proved",
   "theorems": [
    "Fastsim.Props.C41_keys",
    "Fastsim.Props.C41_fused",
    "Fastsim.Props.C41_common"
   ],
   "note": "keys proved for all outcomes; the fused key is exhibited"
  },
  {
   "property": "C42",
   "status": "proved",
   "theorems": [
    "Fastsim.Props.C42_set_number",
    "Fastsim.Props.C42_set_name",
    "Fastsim.Props.C42_name_none",
    "Fastsim.Props.C42_enable_default",
    "Fastsim.Props.C42_restored",
    "Fastsim.Props.C42_silent",
    "Fastsim.Props.C42_heard",
    "Fastsim.Props.C42_not_restored",
    "Fastsim.Props.C42_core_not_restored"
   ],
   "note": "Includes the disagreements: unknown levels are not restored and hide the body's exception, NONE raises KeyError, the fastsim_core level is overwritten."
  },
  {
   "property": "C43",
   "status": "proved",
   "theorems": [
    "Fastsim.Props.C43_dotted",
    "Fastsim.Props.C43_get",
    "Fastsim.Props.C43_set",
    "Fastsim.Props.C43_get_set",
    "Fastsim.Props.C43_set_get",
    "Fastsim.Props.C43_set_set",
    "Fastsim.Props.C43_frame",
    "Fastsim.Props.C43_missing",
    "Fastsim.Props.C43_no_reset",
    "Fastsim.Props.C43_many",
    "Fastsim.Props.C43_in_order",
    "Fastsim.Props.C43_stored_despite_error",
    "Fastsim.Props.C43_self_reference"
   ],
   "note": "Over a heap of objects with aliasing. The conditions and what happens without them are proved as well."
  },
  {
   "property": "C44",
   "status": "proved",
   "theorems": [
    "Fastsim.Props.C44_amount_total",
    "Fastsim.Props.C44_rate",
    "Fastsim.Props.C44_rate_bounds",
    "Fastsim.Props.C44_total",
    "Fastsim.Props.C44_state",
    "Fastsim.Props.C44_hold_dropped",
    "Fastsim.Props.C44_rest_lost"
   ],
   "note": "fastsim.resample (DataFrame columns as lists keyed by name). Held columns are dropped and the remainder is lost: proved as C44_hold_dropped and C44_rest_lost."
  },
  {
   "property": "C45",
   "status": "proved",
   "theorems": [
    "Fastsim.Props.C45_value",
    "Fastsim.Props.C45_distance",
    "Fastsim.Props.C45_triangle",
    "Fastsim.Props.C45_bounds",
    "Fastsim.Props.C45_scale",
    "Fastsim.Props.C45_time"
   ],
   "note": ""
  },
  {
   "property": "C46",
   "status": "proved",
   "theorems": [
    "Fastsim.Props.C46_efficiencies",
    "Fastsim.Props.C46_readable",
    "Fastsim.Props.C46_best_power",
    "Fastsim.Props.C46_engine_length",
    "Fastsim.Props.C46_engine_range",
    "Fastsim.Props.C46_motor_range",
    "Fastsim.Props.C46_engine_table",
    "Fastsim.Props.C46_motor_table",
    "Fastsim.Props.C46_engine_lookup",
    "Fastsim.Props.C46_sim_ready",
    "Fastsim.Props.C46_default_map",
    "Fastsim.Props.C46_default_inputs",
    "Fastsim.Props.C46_engine_peak"
   ],
   "note": "Derived curves of set_derived, for maps and breakpoints of any length."
  },
  {
   "property": "C47",
   "status": "proved",
   "theorems": [
    "Fastsim.Props.C47_init",
    "Fastsim.Props.C47_run_start",
    "Fastsim.Props.C47_default_in_window",
    "Fastsim.Props.C47_balancing_raises"
   ],
   "note": "Acceptance and start of every run; refutation witness for the balancing guess."
  },
  {
   "property": "C48",
   "status": "proved",
   "theorems": [
    "Fastsim.Props.C48_outcome",
    "Fastsim.Props.C48_settings",
    "Fastsim.Props.C48_trace",
    "Fastsim.Props.C48_mean",
    "Fastsim.Props.C48_rejected_still_on",
    "Fastsim.Props.C48_old_table",
    "Fastsim.Props.C48_standing",
    "Fastsim.Props.C48_demo"
   ],
   "note": "State left behind after exceptions is modelled; refutations are theorems."
  },
  {
   "property": "C49",
   "status": "proved",
   "theorems": [
    "Fastsim.Props.C49_coherent",
    "Fastsim.Props.C49_correction",
    "Fastsim.Props.C49_energy",
    "Fastsim.Props.C49_real",
    "Fastsim.Props.C49_demo",
    "Fastsim.Props.C49_free_energy"
   ],
   "note": "Proved for runs without missed-trace correction in every driving mode of the code, with the energy balance at the wheels. With the correction on, C49_correction states the exact exception and C49_free_energy shows it happening (stale newton_iters, simdrive.py:880). The records are those the steps leave; accel_kw is rewritten once the run is finished (C85)."
  },
  {
   "property": "C50",
   "status": "proved",
   "theorems": [
    "Fastsim.Props.C50_no_effect",
    "Fastsim.Props.idmHook_same",
    "Fastsim.Props.coastHook_same",
    "Fastsim.Props.C50_real",
    "Fastsim.Props.C50_fuel_power",
    "Fastsim.Props.C50_limit_ignored",
    "Fastsim.Props.C50_demo"
   ],
   "note": "Non-interference holds for all driving modes of the code (car following and coasting) and for every step, any rounding. C50_limit_ignored: the documented limit does not bind."
  },
  {
   "property": "C51",
   "status": "proved",
   "theorems": [
    "Fastsim.Props.C51_step",
    "Fastsim.Props.C51_walk",
    "Fastsim.Props.C51_run",
    "Fastsim.Props.C51_only_failure",
    "Fastsim.Props.C51_conditions_needed",
    "Fastsim.Props.C51_demo"
   ],
   "note": "Division by zero in numpy does not raise and is not an exception in the model; integer and list errors and the constant-jerk denominator are."
  },
  {
   "property": "C52",
   "status": "proved",
   "theorems": [
    "Fastsim.Props.C52_decision",
    "Fastsim.Props.C52_decision_speed",
    "Fastsim.Props.C52_untouched",
    "Fastsim.Props.C52_distance",
    "Fastsim.Props.CoastDemo.demo_decision"
   ],
   "note": "C52_distance is over the real numbers, where the closed form is compared with the integral of v/a(v); F.log is the real logarithm there. Wheel inertia is left out by the code and by the specification."
  },
  {
   "property": "C53",
   "status": "proved",
   "theorems": [
    "Fastsim.Props.C53_plan",
    "Fastsim.Props.C53_smoothest",
    "Fastsim.Props.C53_found",
    "Fastsim.Props.C53_stop",
    "Fastsim.Props.CoastDemo.demo_replan",
    "Fastsim.Props.CoastDemo.late_replanning"
   ],
   "note": "One-second steps, as the code's formulas presume (see C08). The position is exact unless a speed is cut off at zero, and within 1e-6 m for a plan of a single step."
  },
  {
   "property": "C54",
   "status": "proved",
   "theorems": [
    "Fastsim.Props.C54_rejoin",
    "Fastsim.Props.C54_no_delay",
    "Fastsim.Props.C54_follow",
    "Fastsim.Props.C54_follow_now",
    "Fastsim.Props.CoastDemo.demo_delay",
    "Fastsim.Props.CoastDemo.demo_detached"
   ],
   "note": "Monotone lead traces. C54_follow speaks about a later step that has not started to coast again and whose delay is still the one set."
  },
  {
   "property": "C55",
   "status": "proved",
   "theorems": [
    "Fastsim.Props.C55_reads",
    "Fastsim.Props.C55_int",
    "Fastsim.Props.C55_frac",
    "Fastsim.Props.C55_radius",
    "Fastsim.Props.C55_two_letters",
    "Fastsim.Props.C55_no_letter",
    "Fastsim.Props.C55_blank"
   ],
   "note": "Regular expression modelled as a backtracking matcher."
  },
  {
   "property": "C56",
   "status": "proved",
   "theorems": [
    "Fastsim.Props.C56_cycle",
    "Fastsim.Props.C56_label",
    "Fastsim.Props.C56_depleting_fuel_ignored",
    "Fastsim.Props.C56_whole_cycles",
    "Fastsim.Props.C56_less_than_one",
    "Fastsim.Props.C56_beyond_table",
    "Fastsim.Props.ufTable_ok",
    "Fastsim.Props.phev_case",
    "Fastsim.Props.phev_rise",
    "Fastsim.Props.demo_phev",
    "Fastsim.Props.demo_phev_whole"
   ],
   "note": "any table of shares; the code's table is shown to be one (ufTable_ok); defects as theorems"
  },
  {
   "property": "C57",
   "status": "proved",
   "theorems": [
    "Fastsim.Props.C57_accel",
    "Fastsim.Props.C57_slow",
    "Fastsim.Props.demo_conv",
    "Fastsim.Props.demo_bev",
    "Fastsim.Props.C57_test"
   ],
   "note": "interpolation of the achieved speeds C57_test: the test itself always completes, with 3000 samples from rest and no negative speed."
  },
  {
   "property": "C58",
   "status": "proved",
   "theorems": [
    "Fastsim.Props.C58_causal",
    "Fastsim.Props.C58_same_past",
    "Fastsim.Props.C58_real",
    "Fastsim.Props.C58_demo",
    "Fastsim.Props.C58_accessory_future",
    "Fastsim.Props.C58_desired_needed"
   ],
   "note": "Truncation theorem for whole runs, including missed-trace correction and car following; coasting is excluded by nature (it plans for the next stop). Refutations for the accessory override and for car following without desired speed."
  },
  {
   "property": "C59",
   "status": "proved",
   "theorems": [
    "Fastsim.Props.C59_apart",
    "Fastsim.Props.C59_copy_reads",
    "Fastsim.Props.C59_deep_independent",
    "Fastsim.Props.C59_real",
    "Fastsim.Props.C59_demo",
    "Fastsim.Props.C59_shallow_shares",
    "Fastsim.Props.C59_shallow_restart"
   ],
   "note": "Arrays are cells of a heap; an accessory override array passed by the caller is not in this model (it stays shared with the caller)."
  },
  {
   "property": "C60",
   "status": "proved",
   "theorems": [
    "Fastsim.Props.C60_peak",
    "Fastsim.Props.C60_peak_down",
    "Fastsim.Props.C60_short",
    "Fastsim.Props.C60_signs",
    "Fastsim.Props.C60_demo"
   ],
   "note": "Times that do not increase (numpy inf or nan) are excluded."
  },
  {
   "property": "C61",
   "status": "proved",
   "theorems": [
    "Fastsim.Props.C61_gap",
    "Fastsim.Props.C61_start",
    "Fastsim.Props.C61_frozen",
    "Fastsim.Props.C61_acted_on",
    "Fastsim.Props.C61_plain_zero",
    "Fastsim.Props.C61_real",
    "Fastsim.Props.C61_demo",
    "Fastsim.Props.C61_plain_demo"
   ],
   "note": "Exact arithmetic."
  },
  {
   "property": "C62",
   "status": "proved",
   "theorems": [
    "Fastsim.Props.C62_clock",
    "Fastsim.Props.C62_totals",
    "Fastsim.Props.C62_time_ratio",
    "Fastsim.Props.C62_demo",
    "Fastsim.Props.C62_moving_start"
   ],
   "note": "for the whole of sim_drive with the code's car following and coasting; refuted for moving starts under trace-miss correction and for trace_miss_time_frac"
  },
  {
   "property": "C63",
   "status": "proved",
   "theorems": [
    "Fastsim.Props.C63_no_effect",
    "Fastsim.Props.C63_figures",
    "Fastsim.Props.C63_demo",
    "Fastsim.Props.C63_motor_matters"
   ],
   "note": "Field arithmetic, all driving modes of the code. Vehicles with a motor or battery rating are excluded; C63_motor_matters shows why."
  },
  {
   "property": "C64",
   "status": "proved",
   "theorems": [
    "Fastsim.Props.C64_no_effect",
    "Fastsim.Props.C64_figures",
    "Fastsim.Props.C64_demo",
    "Fastsim.Props.C64_engine_matters"
   ],
   "note": "Field arithmetic, all driving modes of the code. The output of best engine efficiency is kept: it is zero in every vehicle without an engine."
  },
  {
   "property": "C65",
   "status": "proved",
   "theorems": [
    "Fastsim.Props.C65_cells",
    "Fastsim.Props.C65_numbers",
    "Fastsim.Props.C65_texts",
    "Fastsim.Props.C65_whole_numbers",
    "Fastsim.Props.C65_switches",
    "Fastsim.Props.C65_blank_stop_start",
    "Fastsim.Props.C65_blank_mass",
    "Fastsim.Props.C65_year",
    "Fastsim.Props.C65_engine_map",
    "Fastsim.Props.C65_engine_default",
    "Fastsim.Props.C65_powers",
    "Fastsim.Props.C65_peaks",
    "Fastsim.Props.C65_complete",
    "Fastsim.Props.C65_accepts",
    "Fastsim.Props.C65_old_names",
    "Fastsim.Props.C65_table",
    "Fastsim.Props.C65_renamed",
    "Fastsim.Props.C65_name_lost",
    "Fastsim.Props.C65_blank_force_aux",
    "Fastsim.Props.LoadDemo.C65_demo",
    "Fastsim.Props.LoadDemo.C65_flaws_demo",
    "Fastsim.Props.LoadDemo.C65_rejected_demo",
    "Fastsim.Props.LoadDemo.C65_cells_demo",
    "Fastsim.Props.LoadDemo.C65_peaks_demo",
    "Fastsim.Props.LoadDemo.C65_names_demo",
    "Fastsim.Props.LoadDemo.C65_columns_demo",
    "Fastsim.Props.LoadDemo.C65_accepts_demo"
   ],
   "note": "Cells, entries, defaults, completeness and acceptance of from_df/from_dict. Disagreements with the intent are theorems of their own (names containing 'true', empty force_aux_on_fc, unchecked motor map length). set_derived is C37/C46."
  },
  {
   "property": "C66",
   "status": "proved",
   "theorems": [
    "Fastsim.Props.C66_clean_twice",
    "Fastsim.Props.C66_repeatable",
    "Fastsim.Props.LoadDemo.C66_demo"
   ],
   "note": "Invariant over arbitrary sequences of loads; the table is rewritten in place."
  },
  {
   "property": "C67",
   "status": "proved",
   "theorems": [
    "Fastsim.Props.C67_latch",
    "Fastsim.Props.C67_margin",
    "Fastsim.Props.C67_accessories",
    "Fastsim.Props.C67_low_charge",
    "Fastsim.Props.C67_demo"
   ],
   "note": "Latch as a predicate on the history of the charge, and who carries the accessories."
  },
  {
   "property": "C68",
   "status": "proved",
   "theorems": [
    "Fastsim.Props.C68_available",
    "Fastsim.Props.C68_limit",
    "Fastsim.Props.C68_backed",
    "Fastsim.Props.C68_output",
    "Fastsim.Props.C68_recuperation",
    "Fastsim.Props.C68_share",
    "Fastsim.Props.C68_demo",
    "Fastsim.Props.C68_motor_beyond_limit"
   ],
   "note": "Holds while electricity is available; refuted with an empty battery. Output bounded up to the granularity of the map."
  },
  {
   "property": "C69",
   "status": "proved",
   "theorems": [
    "Fastsim.Props.C69_loss"
   ],
   "note": ""
  },
  {
   "property": "C70",
   "status": "proved",
   "theorems": [
    "Fastsim.Props.C70_regen_room",
    "Fastsim.Props.C70_regen_room_charging",
    "Fastsim.Props.C70_accel_reserve",
    "Fastsim.Props.C70_window",
    "Fastsim.Props.C70_monotone",
    "Fastsim.Props.C70_powers",
    "Fastsim.Props.C71_demo"
   ],
   "note": ""
  },
  {
   "property": "C71",
   "status": "proved",
   "theorems": [
    "Fastsim.Props.C71_need",
    "Fastsim.Props.C71_conditions",
    "Fastsim.Props.C71_conditions_electric",
    "Fastsim.Props.C71_plan",
    "Fastsim.Props.C71_engine_off",
    "Fastsim.Props.C71_demo"
   ],
   "note": ""
  },
  {
   "property": "C72",
   "status": "proved",
   "theorems": [
    "Fastsim.Props.C72_split",
    "Fastsim.Props.C72_fuel_cell",
    "Fastsim.Props.C72_demo",
    "Fastsim.Props.C72_surplus_vanishes"
   ],
   "note": "Equality with the demand is refuted; the surplus case is characterised."
  },
  {
   "property": "C73",
   "status": "proved",
   "theorems": [
    "Fastsim.Props.C73_request",
    "Fastsim.Props.C73_follow",
    "Fastsim.Props.C73_demo"
   ],
   "note": ""
  },
  {
   "property": "C74",
   "status": "proved",
   "theorems": [
    "Fastsim.Props.C74_off",
    "Fastsim.Props.C74_below",
    "Fastsim.Props.C74_above",
    "Fastsim.Props.C74_wrong_way"
   ],
   "note": "The documented direction is refuted."
  },
  {
   "property": "C75",
   "status": "proved",
   "theorems": [
    "Fastsim.Props.C75_wheels",
    "Fastsim.Props.C71_demo"
   ],
   "note": ""
  },
  {
   "property": "C76",
   "status": "proved",
   "theorems": [
    "Fastsim.Props.C76_constant_speed",
    "Fastsim.Props.C76_objective",
    "Fastsim.Props.C76_never_exact",
    "Fastsim.Props.C76_demo"
   ],
   "note": "Constant-speed law, closed form of the objective for runs that keep to their trace, and positivity of the error. scipy.optimize.minimize is not modelled."
  },
  {
   "property": "C77",
   "status": "proved",
   "theorems": [
    "Fastsim.Props.C77_arrays_reset",
    "Fastsim.Props.C77_coasting",
    "Fastsim.Props.C77_run",
    "Fastsim.Props.C77_flags_lost",
    "Fastsim.Props.C77_demo"
   ],
   "note": "C77_run is about every step that a run in any driving mode has flagged. C77_flags_lost shows that abc_to_drag_coeffs, which sets the flags before sim_drive, drives its ramp instead of coasting."
  },
  {
   "property": "C78",
   "status": "proved",
   "theorems": [
    "Fastsim.Props.C78_memory",
    "Fastsim.Props.C78_resume",
    "Fastsim.Props.C78_totals",
    "Fastsim.Props.C78_rest",
    "Fastsim.Props.C78_demo",
    "Fastsim.Props.C78_idling_engine"
   ],
   "note": "Holds while the powertrain rests; C78_rest says when that is. C78_idling_engine shows that a conventional car, whose engine idles at a stop, cannot be interrupted."
  },
  {
   "property": "C79",
   "status": "proved",
   "theorems": [
    "Fastsim.Props.C79_no_load",
    "Fastsim.Props.C79_engine",
    "Fastsim.Props.C79_battery",
    "Fastsim.Props.C79_stays",
    "Fastsim.Props.C79_parked",
    "Fastsim.Props.C79_demo",
    "Fastsim.Props.C79_engine_demo"
   ],
   "note": "Limits and the latch enter as recorded row values; C79_stays derives that the vehicle stays put from the trace."
  },
  {
   "property": "C80",
   "status": "proved",
   "theorems": [
    "Fastsim.Props.C80_engine_work",
    "Fastsim.Props.C80_step",
    "Fastsim.Props.C80_run",
    "Fastsim.Props.C80_demo",
    "Fastsim.Props.C80_more_load_less_fuel",
    "Fastsim.Props.C80_heavier_less_work"
   ],
   "note": "Engine work is monotone; fuel only up to the efficiency ratio of the map, because the map is a step function (C80_more_load_less_fuel)."
  },
  {
   "property": "C81",
   "status": "proved",
   "theorems": [
    "Fastsim.Props.C81_errors",
    "Fastsim.Props.C81_params",
    "Fastsim.Props.C81_vector",
    "Fastsim.Props.C81_perfect",
    "Fastsim.Props.C81_demo",
    "Fastsim.Props.C81_mixed_up",
    "Fastsim.Props.C81_repeated",
    "Fastsim.Props.C81_single_first",
    "Fastsim.Props.C81_single_later",
    "Fastsim.Props.C81_tuple_params"
   ],
   "note": "The conditions are needed: C81_mixed_up, C81_repeated, C81_single_first, C81_single_later, C81_tuple_params."
  },
  {
   "property": "C82",
   "status": "proved",
   "theorems": [
    "Fastsim.Props.C82_split",
    "Fastsim.Props.C82_readable",
    "Fastsim.Props.C82_partition",
    "Fastsim.Props.C82_century",
    "Fastsim.Props.C82_tests",
    "Fastsim.Props.C82_archive",
    "Fastsim.Props.C82_run",
    "Fastsim.Props.C82_demo",
    "Fastsim.Props.C82_orphan",
    "Fastsim.Props.C82_short_year"
   ],
   "note": "Observed beside it: C82_orphan, C82_short_year."
  },
  {
   "property": "C83",
   "status": "proved",
   "theorems": [
    "Fastsim.Props.C83_added",
    "Fastsim.Props.C83_empty",
    "Fastsim.Props.C83_second_replaces_first",
    "Fastsim.Props.C83_sessions",
    "Fastsim.Props.C83_number_taken",
    "Fastsim.Props.C83_export",
    "Fastsim.Props.C83_all_written",
    "Fastsim.Props.C83_again",
    "Fastsim.Props.C83_stops",
    "Fastsim.Props.C83_demo",
    "Fastsim.Props.C83_same_file",
    "Fastsim.Props.C83_slash"
   ],
   "note": "The provisos are needed: C83_second_replaces_first, C83_number_taken, C83_stops, C83_slash, C83_same_file."
  },
  {
   "property": "C84",
   "status": "proved",
   "theorems": [
    "Fastsim.Props.C84_same_drive",
    "Fastsim.Props.C84_proportional",
    "Fastsim.Props.C84_better",
    "Fastsim.Props.C84_peak",
    "Fastsim.Props.C84_demo"
   ],
   "note": "Two runs are compared step by step. Excluded: hybrids without a given initial SOC, and curves whose best point is elsewhere."
  },
  {
   "property": "C85",
   "status": "proved",
   "theorems": [
    "Fastsim.Props.C85_power",
    "Fastsim.Props.C85_energy",
    "Fastsim.Props.C85_same",
    "Fastsim.Props.C85_demo"
   ],
   "note": "Property of the finished object; the values during the run are those of C49."
  },
  {
   "property": "C86",
   "status": "proved",
   "theorems": [
    "Fastsim.Props.C86_equal",
    "Fastsim.Props.C86_ignores",
    "Fastsim.Props.C86_refl",
    "Fastsim.Props.C86_copy",
    "Fastsim.Props.C86_demo",
    "Fastsim.Props.C86_copy_differs",
    "Fastsim.Props.C86_stretch",
    "Fastsim.Props.C86_stretch_demo"
   ],
   "note": "Equality of vehicles is that of veh_equal (C39). Refuted for copies of vehicles whose map copy_vehicle loses (C86_copy_differs)."
  },
  {
   "property": "C87",
   "status": "proved",
   "theorems": [
    "Fastsim.Props.C87_completes",
    "Fastsim.Props.C87_mpg",
    "Fastsim.Props.C87_no_fuel",
    "Fastsim.Props.C87_peak",
    "Fastsim.Props.C87_better",
    "Fastsim.Props.C87_bev",
    "Fastsim.Props.C87_demo",
    "Fastsim.Props.C87_demo_runs",
    "Fastsim.Props.C87_demo_bev",
    "Fastsim.Props.C87_demo_better"
   ],
   "note": "Completion is proved for conventional vehicles; for hybrids and battery-electric vehicles the finished runs are hypotheses. Plug-in hybrids: C41."
  },
  {
   "property": "C88",
   "status": "proved",
   "theorems": [
    "Fastsim.Props.C88_boundaries",
    "Fastsim.Props.C88_letters",
    "Fastsim.Props.C88_small",
    "Fastsim.Props.C88_snake",
    "Fastsim.Props.C88_idempotent",
    "Fastsim.Props.C88_words",
    "Fastsim.Props.C88_not_injective"
   ],
   "note": "ASCII case conversion."
  },
  {
   "property": "C89",
   "status": "proved",
   "theorems": [
    "Fastsim.Props.C89_raises"
   ],
   "note": "Refutes the docstring: the function raises for every input."
  },
  {
   "property": "C90",
   "status": "proved",
   "theorems": [
    "Fastsim.Props.C90_fuel_floor",
    "Fastsim.Props.C90_mpg_ceiling",
    "Fastsim.Props.C90_hybrid",
    "Fastsim.Props.C90_bev",
    "Fastsim.Props.C90_demo",
    "Fastsim.Props.C90_demo_hybrid",
    "Fastsim.Props.C90_demo_bev"
   ],
   "note": "Runs that meet the trace; see hypotheses for hybrids and battery-electric vehicles."
  },
  {
   "property": "C91",
   "status": "proved",
   "theorems": [
    "Fastsim.Props.C91_motor_duty",
    "Fastsim.Props.C91_same_duty",
    "Fastsim.Props.C91_accessories",
    "Fastsim.Props.C91_trip",
    "Fastsim.Props.C91_start_charge",
    "Fastsim.Props.C91_demo",
    "Fastsim.Props.C91_full_battery"
   ],
   "note": "For runs in which no limit of motor or battery is felt."
  },
  {
   "property": "C92",
   "status": "proved",
   "theorems": [
    "Fastsim.Props.C92_fuel",
    "Fastsim.Props.C92_work",
    "Fastsim.Props.C92_cruise",
    "Fastsim.Props.C92_trips",
    "Fastsim.Props.C92_order",
    "Fastsim.Props.C92_transmission",
    "Fastsim.Props.C92_demo",
    "Fastsim.Props.C92_demo_transmission",
    "Fastsim.Props.C92_hybrid_order"
   ],
   "note": "For runs that meet their trace; refuted for hybrids (order)."
  },
  {
   "property": "C93",
   "status": "proved",
   "theorems": [
    "Fastsim.Props.C93_missing",
    "Fastsim.Props.C93_vehicle_from_table",
    "Fastsim.Props.C93_suffix",
    "Fastsim.Props.C93_numbered",
    "Fastsim.Props.C93_single",
    "Fastsim.Props.C93_own_number",
    "Fastsim.Props.C93_tables",
    "Fastsim.Props.C93_file_like_database",
    "Fastsim.Props.C93_database_like_file",
    "Fastsim.Props.C93_name",
    "Fastsim.Props.C93_cycle",
    "Fastsim.Props.C93_text_rejected",
    "Fastsim.Props.FilesDemo.C93_demo",
    "Fastsim.Props.FilesDemo.C93_cycle_demo",
    "Fastsim.Props.FilesDemo.C93_rejected_demo",
    "Fastsim.Props.FilesDemo.C93_own_number_demo"
   ],
   "note": "What pandas reads from a file is taken as given."
  },
  {
   "property": "C94",
   "status": "proved",
   "theorems": [
    "Fastsim.Props.C94_copies",
    "Fastsim.Props.C94_no_demos",
    "Fastsim.Props.C94_twice",
    "Fastsim.Props.C94_refused",
    "Fastsim.Props.C94_demo"
   ],
   "note": "The file system is a partial function from names to contents."
  },
  {
   "property": "C95",
   "status": "proved",
   "theorems": [
    "Fastsim.Props.C95_edit",
    "Fastsim.Props.C95_frame",
    "Fastsim.Props.C95_private",
    "Fastsim.Props.C95_cycle",
    "Fastsim.Props.C95_vehicle",
    "Fastsim.Props.C95_new_sim",
    "Fastsim.Props.C95_copy_vehicle",
    "Fastsim.Props.C95_copy",
    "Fastsim.Props.C95_copy_independent",
    "Fastsim.Props.C95_default_shared",
    "Fastsim.Props.C95_default",
    "Fastsim.Props.C95_holds",
    "Fastsim.Props.C95_demo"
   ],
   "note": "Programs are sequences of the modelled operations; C95_default_shared states the sharing of the default."
  },
  {
   "property": "C96",
   "status": "proved",
   "theorems": [
    "Fastsim.Props.C96_step",
    "Fastsim.Props.C96_drive",
    "Fastsim.Props.C96_same",
    "Fastsim.Props.C96_full",
    "Fastsim.Props.C96_vehicles",
    "Fastsim.Props.C96_differs"
   ],
   "note": "The Rust functions are transcribed separately from the python ones; C96_full states the difference and C96_differs shows it on a car."
  },
  {
   "property": "C97",
   "status": "proved",
   "theorems": [
    "Fastsim.Props.C97_derive",
    "Fastsim.Props.C97_refused",
    "Fastsim.Props.C97_view",
    "Fastsim.Props.C97_to_rust",
    "Fastsim.Props.C97_ok",
    "Fastsim.Props.C97_default_gap",
    "Fastsim.Props.C97_step",
    "Fastsim.Props.C97_gravity_lost",
    "Fastsim.Props.C97_motor_inputs",
    "Fastsim.Props.C97_demo",
    "Fastsim.Props.C97_demo_built",
    "Fastsim.Props.C97_demo_refused",
    "Fastsim.Props.C97_demo_override"
   ],
   "note": "C97_gravity_lost and C97_motor_inputs state what differs; C97_default_gap shows that vehicles with the built-in motor map meet the condition on the tables."
  },
  {
   "property": "C98",
   "status": "proved",
   "theorems": [
    "Fastsim.Props.C98_walk",
    "Fastsim.Props.C98_run",
    "Fastsim.Props.C98_balanced",
    "Fastsim.Props.C98_figures",
    "Fastsim.Props.C98_no_distance",
    "Fastsim.Props.C98_late_start",
    "Fastsim.Props.C98_override_length",
    "Fastsim.Props.C98_to_rust",
    "Fastsim.Props.C98_built",
    "Fastsim.Props.C98_same_drive",
    "Fastsim.Props.C98_fuel",
    "Fastsim.Props.C98_fails",
    "Fastsim.Props.C98_setting",
    "Fastsim.Props.C98_differs"
   ],
   "note": "C98_run/C98_walk compare with the python run of the vehicle whose last engine efficiency is repeated; C98_same_drive, C98_fuel and C98_fails compare with the python run of the vehicle itself."
  },
  {
   "property": "C99",
   "status": "proved",
   "theorems": [
    "Fastsim.Props.C99_to_rust",
    "Fastsim.Props.C99_distances",
    "Fastsim.Props.C99_jerk",
    "Fastsim.Props.C99_modify",
    "Fastsim.Props.C99_passing",
    "Fastsim.Props.C99_microtrips",
    "Fastsim.Props.C99_targets",
    "Fastsim.Props.C99_delta_elev",
    "Fastsim.Props.C99_interp_grade",
    "Fastsim.Props.C99_average_grade",
    "Fastsim.Props.C99_next_stop",
    "Fastsim.Props.C99_next_stop_cached",
    "Fastsim.Props.C99_round",
    "Fastsim.Props.C99_extend",
    "Fastsim.Props.C99_braking",
    "Fastsim.Props.C99_differs"
   ],
   "note": "C99_differs holds concrete cases of the differences; the panic is the second half of C99_average_grade."
  },
  {
   "property": "C100",
   "status": "proved",
   "theorems": [
    "Fastsim.Props.C100_next_speed",
    "Fastsim.Props.C100_target",
    "Fastsim.Props.C100_hook",
    "Fastsim.Props.C100_walk",
    "Fastsim.Props.C100_run",
    "Fastsim.Props.C100_same_drive",
    "Fastsim.Props.C100_fails",
    "Fastsim.Props.C100_gap",
    "Fastsim.Props.C100_eco",
    "Fastsim.Props.C100_setting",
    "Fastsim.Props.C100_drives",
    "Fastsim.Props.C100_differs"
   ],
   "note": "C100_same_drive and C100_fails compare with the python run of the same vehicle; C100_run is exact equality after repeating the last engine efficiency. C100_differs holds concrete differences."
  },
  {
   "property": "C101",
   "status": "proved",
   "theorems": [
    "Fastsim.Props.C101_unique",
    "Fastsim.Props.C101_dvdd",
    "Fastsim.Props.C101_plan",
    "Fastsim.Props.C101_distance",
    "Fastsim.Props.C101_should",
    "Fastsim.Props.C101_rendezvous",
    "Fastsim.Props.C101_delay",
    "Fastsim.Props.C101_collisions",
    "Fastsim.Props.C101_start",
    "Fastsim.Props.C101_replan",
    "Fastsim.Props.C101_hook",
    "Fastsim.Props.C101_walk",
    "Fastsim.Props.C101_run",
    "Fastsim.Props.C101_same_drive",
    "Fastsim.Props.C101_fails",
    "Fastsim.Props.C101_beyond",
    "Fastsim.Props.C101_collision_panics",
    "Fastsim.Props.C101_setting",
    "Fastsim.Props.C101_drives",
    "Fastsim.Props.C101_failures_setting",
    "Fastsim.Props.C101_differs"
   ],
   "note": "C101_run is exact equality after repeating the last engine efficiency; C101_same_drive compares with the python run of the same vehicle. C101_beyond, C101_collision_panics and C101_differs show the differences."
  },
  {
   "property": "C102",
   "status": "proved",
   "theorems": [
    "Fastsim.Props.C102_share",
    "Fastsim.Props.C102_cycle",
    "Fastsim.Props.C102_cycle_back",
    "Fastsim.Props.C102_accel",
    "Fastsim.Props.C102_constants",
    "Fastsim.Props.C102_label",
    "Fastsim.Props.C102_label_back",
    "Fastsim.Props.C102_no_fuel",
    "Fastsim.Props.C102_run",
    "Fastsim.Props.C102_test",
    "Fastsim.Props.C102_vehicle",
    "Fastsim.Props.C102_vehicle_same",
    "Fastsim.Props.C102_demo",
    "Fastsim.Props.C102_demo_phev",
    "Fastsim.Props.C102_beyond",
    "Fastsim.Props.C102_standstill"
   ],
   "note": "C102_label and C102_label_back compare the label for the same simulations, C102_vehicle with the simulations of the vehicle. C102_beyond, C102_standstill and C102_no_fuel show the differences."
  },
  {
   "property": "C103",
   "status": "proved",
   "theorems": [
    "Fastsim.Props.C103_same_drive",
    "Fastsim.Props.C103_load",
    "Fastsim.Props.C103_completes",
    "Fastsim.Props.C103_fuel",
    "Fastsim.Props.C103_plain_fuel",
    "Fastsim.Props.C103_linear",
    "Fastsim.Props.C103_exponential",
    "Fastsim.Props.C103_lit",
    "Fastsim.Props.C103_external",
    "Fastsim.Props.C103_warmer",
    "Fastsim.Props.C103_history",
    "Fastsim.Props.C103_again",
    "Fastsim.Props.C103_demo",
    "Fastsim.Props.C103_lit_demo"
   ],
   "note": "C103_same_drive, C103_load and C103_completes concern the drive, C103_fuel to C103_warmer the fuel, C103_history and C103_again the record. C103_lit with C103_lit_demo and C103_external show the stale coefficient."
  },
  {
   "property": "C104",
   "status": "proved",
   "theorems": [
    "Fastsim.Props.C104_climbs",
    "Fastsim.Props.C104_plain",
    "Fastsim.Props.C104_correction",
    "Fastsim.Props.C104_search",
    "Fastsim.Props.C104_rise",
    "Fastsim.Props.C104_total",
    "Fastsim.Props.C104_real",
    "Fastsim.Props.C104_height_exists",
    "Fastsim.Props.C104_height_unique",
    "Fastsim.Props.C104_trig",
    "Fastsim.Props.C104_demo"
   ],
   "note": "C104_climbs and C104_plain give the grade of the recorded powers, C104_correction the same with missed-trace correction, C104_search the iteration for unreachable trace points, C104_rise, C104_total and C104_real the work against gravity; C104_height_exists and C104_height_unique justify the heights."
  },
  {
   "property": "C105",
   "status": "proved",
   "theorems": [
    "Fastsim.Props.C105_air",
    "Fastsim.Props.C105_ambient",
    "Fastsim.Props.C105_engine",
    "Fastsim.Props.C105_combustion",
    "Fastsim.Props.C105_flame",
    "Fastsim.Props.C105_loss",
    "Fastsim.Props.C105_direction",
    "Fastsim.Props.C105_cabin",
    "Fastsim.Props.C105_walls",
    "Fastsim.Props.C105_deadband",
    "Fastsim.Props.C105_cool",
    "Fastsim.Props.C105_heat",
    "Fastsim.Props.C105_limits",
    "Fastsim.Props.C105_load",
    "Fastsim.Props.C105_waste",
    "Fastsim.Props.C105_exhaust",
    "Fastsim.Props.C105_port",
    "Fastsim.Props.C105_catalyst",
    "Fastsim.Props.C105_catalyst_inlet",
    "Fastsim.Props.C105_catalyst_found",
    "Fastsim.Props.C105_outside",
    "Fastsim.Props.C105_total",
    "Fastsim.Props.C105_soak_frame",
    "Fastsim.Props.C105_soak_found",
    "Fastsim.Props.C105_demo",
    "Fastsim.Props.C105_deadband_demo",
    "Fastsim.Props.C105_catalyst_demo",
    "Fastsim.Props.C105_soak_demo"
   ],
   "note": "Balances: C105_engine, C105_cabin, C105_port, C105_catalyst, summed in C105_total. Flows: C105_combustion, C105_flame, C105_loss, C105_direction, C105_walls, C105_exhaust, C105_catalyst_inlet, C105_outside, C105_air. Climate control: C105_deadband, C105_cool, C105_heat, C105_limits, C105_load, C105_waste. Soak: C105_soak_frame, C105_soak_found."
  },
  {
   "property": "C106",
   "status": "proved",
   "theorems": [
    "Fastsim.Props.C106_gears_manual",
    "Fastsim.Props.C106_gears_automatic",
    "Fastsim.Props.C106_gears_paren",
    "Fastsim.Props.C106_gears_other",
    "Fastsim.Props.C106_gears_panic",
    "Fastsim.Props.C106_gears_demo",
    "Fastsim.Props.C106_best",
    "Fastsim.Props.C106_none",
    "Fastsim.Props.C106_identified",
    "Fastsim.Props.C106_drive_found",
    "Fastsim.Props.C106_drive_code",
    "Fastsim.Props.C106_vehicle",
    "Fastsim.Props.C106_by_type",
    "Fastsim.Props.C106_engine_found",
    "Fastsim.Props.C106_unread",
    "Fastsim.Props.C106_builds",
    "Fastsim.Props.C106_options",
    "Fastsim.Props.C106_no_year",
    "Fastsim.Props.C106_id",
    "Fastsim.Props.C106_import_id",
    "Fastsim.Props.C106_import_all",
    "Fastsim.Props.C106_all_panic",
    "Fastsim.Props.C106_files",
    "Fastsim.Props.C106_files_distinct",
    "Fastsim.Props.ImportDemo.C106_tables_demo",
    "Fastsim.Props.ImportDemo.C106_import_demo",
    "Fastsim.Props.ImportDemo.C106_case_found",
    "Fastsim.Props.ImportDemo.C106_repeat_found",
    "Fastsim.Props.ImportDemo.C106_family_found",
    "Fastsim.Props.ImportDemo.C106_files_found",
    "Fastsim.Props.ImportDemo.C106_builds_demo"
   ],
   "note": "Lookup: C106_options, C106_id, C106_no_year. Transmission: C106_gears_*. Matching: C106_best, C106_none, C106_identified. Building: C106_vehicle, C106_by_type, C106_engine_found, C106_unread, C106_builds. Import: C106_import_id, C106_import_all, C106_all_panic. Files: C106_files, C106_files_distinct."
  },
  {
   "property": "C107",
   "status": "proved",
   "theorems": [
    "Fastsim.Props.C107_split",
    "Fastsim.Props.C107_share",
    "Fastsim.Props.C107_table",
    "Fastsim.Props.C107_lengths",
    "Fastsim.Props.C107_flat_table",
    "Fastsim.Props.C107_power",
    "Fastsim.Props.C107_rewrite",
    "Fastsim.Props.C107_rewrite_objects",
    "Fastsim.Props.C107_parts_stay",
    "Fastsim.Props.CliDemo.C107_rewrite_demo",
    "Fastsim.Props.C107_groups",
    "Fastsim.Props.C107_coastdown",
    "Fastsim.Props.C107_coastdown_fit",
    "Fastsim.Props.C107_hd",
    "Fastsim.Props.C107_hd_figures",
    "Fastsim.Props.C107_tables_split",
    "Fastsim.Props.C107_label",
    "Fastsim.Props.C107_adopt_false",
    "Fastsim.Props.C107_plain",
    "Fastsim.Props.C107_no_json_cycle",
    "Fastsim.Props.C107_split_demo",
    "Fastsim.Props.C107_table_found",
    "Fastsim.Props.C107_flat_found",
    "Fastsim.Props.C107_hd_found",
    "Fastsim.Props.C107_options_found"
   ],
   "note": "Split of the fuel: C107_split, C107_share, C107_table, C107_lengths, C107_flat_table, C107_power. Rewriting: C107_rewrite, C107_rewrite_objects, C107_parts_stay. Program: C107_groups, C107_coastdown, C107_coastdown_fit, C107_hd, C107_hd_figures, C107_tables_split, C107_label, C107_adopt_false, C107_plain, C107_no_json_cycle. Cases: the others."
  },
  {
   "property": "C108",
   "status": "proved",
   "theorems": [
    "Fastsim.Props.C108_indices",
    "Fastsim.Props.C108_ok",
    "Fastsim.Props.C108_exact",
    "Fastsim.Props.C108_grid_point",
    "Fastsim.Props.C108_between",
    "Fastsim.Props.C108_cell",
    "Fastsim.Props.C108_through",
    "Fastsim.Props.C108_linear",
    "Fastsim.Props.C108_panic",
    "Fastsim.Props.C108_demo",
    "Fastsim.Props.C108_demo_fits"
   ],
   "note": "C108_ok, C108_panic (when), C108_exact with C108_cell and C108_through (what), C108_grid_point, C108_between, C108_linear, C108_indices; C108_demo and C108_demo_fits are cases."
  },
  {
   "property": "C109",
   "status": "proved",
   "theorems": [
    "Fastsim.Props.C109_reads",
    "Fastsim.Props.C55_blank",
    "Fastsim.Props.C109_reads_more",
    "Fastsim.Props.C109_same",
    "Fastsim.Props.C109_radius",
    "Fastsim.Props.C109_no_slash",
    "Fastsim.Props.C109_demo"
   ],
   "note": "C109_reads, C109_radius, C109_reads_more, C109_same, C109_no_slash; C55_blank is the finding, C109_demo a case."
  },
  {
   "property": "C110",
   "status": "proved",
   "theorems": [
    "Fastsim.Props.C110_serial",
    "Fastsim.Props.C110_serial_error",
    "Fastsim.Props.C110_parallel",
    "Fastsim.Props.C110_parallel_error",
    "Fastsim.Props.C110_any_way",
    "Fastsim.Props.C110_default",
    "Fastsim.Props.C110_list",
    "Fastsim.Props.C110_demo"
   ],
   "note": "C110_serial, C110_serial_error, C110_parallel, C110_parallel_error, C110_any_way, C110_default, C110_list; C110_demo is a case."
  },
  {
   "property": "C111",
   "status": "proved",
   "theorems": [
    "Fastsim.Props.C111_measure",
    "Fastsim.Props.C111_correction",
    "Fastsim.Props.C111_first",
    "Fastsim.Props.C111_left_alone",
    "Fastsim.Props.C111_again",
    "Fastsim.Props.C111_walk",
    "Fastsim.Props.C111_run",
    "Fastsim.Props.C111_setting",
    "Fastsim.Props.C111_again_setting",
    "Fastsim.Props.C111_walk_setting",
    "Fastsim.Props.C111_parts"
   ],
   "note": "C111_correction, C111_first, C111_walk (same), C111_run (bounds), C111_measure, C111_again, C111_left_alone (difference); C111_setting, C111_again_setting, C111_walk_setting and C111_parts are cases."
  },
  {
   "property": "C112",
   "status": "proved",
   "theorems": [
    "Fastsim.Props.C112_checks",
    "Fastsim.Props.C112_columns",
    "Fastsim.Props.C112_csv",
    "Fastsim.Props.C112_missing_cell",
    "Fastsim.Props.C112_write",
    "Fastsim.Props.C112_round_trip",
    "Fastsim.Props.C112_dict",
    "Fastsim.Props.C112_dict_round_trip",
    "Fastsim.Props.C112_map",
    "Fastsim.Props.C112_serde",
    "Fastsim.Props.C112_defaults",
    "Fastsim.Props.C112_mph",
    "Fastsim.Props.C112_setting",
    "Fastsim.Props.C112_shifted_grade"
   ],
   "note": "C112_checks, C112_csv, C112_dict, C112_map, C112_serde (what is accepted), C112_write, C112_round_trip, C112_dict_round_trip, C112_mph; C112_columns, C112_shifted_grade (unchecked), C112_missing_cell, C112_defaults (against python); C112_setting is a case."
  },
  {
   "property": "C113",
   "status": "proved",
   "theorems": [
    "Fastsim.Props.C113_density",
    "Fastsim.Props.C113_closed_form",
    "Fastsim.Props.C113_road_load",
    "Fastsim.Props.C113_density_unused",
    "Fastsim.Props.C113_error_value",
    "Fastsim.Props.C113_cost",
    "Fastsim.Props.C113_default",
    "Fastsim.Props.C113_default_no_stop",
    "Fastsim.Props.C113_fit",
    "Fastsim.Props.C113_never_exact",
    "Fastsim.Props.C113_flags",
    "Fastsim.Props.C113_setting",
    "Fastsim.Props.C113_fit_setting"
   ],
   "note": "C113_density, C113_closed_form, C113_road_load (closed form), C113_error_value, C113_cost, C113_default, C113_fit (the error minimised), C113_density_unused, C113_flags, C113_default_no_stop, C113_never_exact (findings); C113_setting and C113_fit_setting are cases."
  },
  {
   "property": "C114",
   "status": "proved",
   "theorems": [
    "Fastsim.Props.C114_enthalpy",
    "Fastsim.Props.C114_range",
    "Fastsim.Props.C114_order",
    "Fastsim.Props.C114_outside",
    "Fastsim.Props.C114_inverse",
    "Fastsim.Props.C114_total",
    "Fastsim.Props.C114_prandtl",
    "Fastsim.Props.C114_heat_capacity",
    "Fastsim.Props.C114_heat_capacity_cold",
    "Fastsim.Props.C114_prandtl_between",
    "Fastsim.Props.C114_density",
    "Fastsim.Props.C114_setting",
    "Fastsim.Props.C114_heat_capacity_shape",
    "Fastsim.Props.C114_flattening"
   ],
   "note": "C114_total, C114_range, C114_inverse, C114_outside, C114_enthalpy, C114_order, C114_heat_capacity, C114_prandtl (the tables), C114_density (get_rho), C114_prandtl_between, C114_heat_capacity_cold (findings); C114_setting is a case."
  },
  {
   "property": "C115",
   "status": "proved",
   "theorems": [
    "Fastsim.Props.C115_numbers",
    "Fastsim.Props.C115_number_laws",
    "Fastsim.Props.C115_zero_tolerance",
    "Fastsim.Props.C115_small",
    "Fastsim.Props.C115_large_tolerance",
    "Fastsim.Props.C115_strict",
    "Fastsim.Props.C115_arrays",
    "Fastsim.Props.C115_array_laws",
    "Fastsim.Props.C115_longer",
    "Fastsim.Props.C115_optional",
    "Fastsim.Props.C115_optional_laws",
    "Fastsim.Props.C115_maps",
    "Fastsim.Props.C115_map_laws",
    "Fastsim.Props.C115_records",
    "Fastsim.Props.C115_record_laws",
    "Fastsim.Props.C115_cycles",
    "Fastsim.Props.C115_cut",
    "Fastsim.Props.C115_not_passed_on",
    "Fastsim.Props.C115_setting"
   ],
   "note": "C115_numbers, C115_number_laws, C115_strict, C115_arrays, C115_array_laws, C115_optional, C115_optional_laws, C115_maps, C115_map_laws, C115_records, C115_record_laws, C115_cycles; findings C115_longer, C115_cut, C115_not_passed_on, C115_zero_tolerance, C115_large_tolerance, C115_small; C115_setting is a case."
  },
  {
   "property": "C116",
   "status": "proved",
   "theorems": [
    "Fastsim.Props.C116_again",
    "Fastsim.Props.C116_copy",
    "Fastsim.Props.C116_toml",
    "Fastsim.Props.C116_derived_edits",
    "Fastsim.Props.C116_gravity_lost",
    "Fastsim.Props.C116_inputs",
    "Fastsim.Props.C116_engine_peak_lost",
    "Fastsim.Props.C116_motor_peak_lost",
    "Fastsim.Props.C116_curve_in_file",
    "Fastsim.Props.C116_no_map",
    "Fastsim.Props.C116_imported",
    "Fastsim.Props.C116_demo",
    "Fastsim.Props.C116_demo_file",
    "Fastsim.Props.C116_demo_imported"
   ],
   "note": "C116_again, C116_copy, C116_toml, C116_inputs; findings C116_derived_edits, C116_gravity_lost, C116_engine_peak_lost, C116_motor_peak_lost, C116_curve_in_file, C116_no_map, C116_imported; C116_demo, C116_demo_file and C116_demo_imported are cases."
  },
  {
   "property": "C117",
   "status": "proved",
   "theorems": [
    "Fastsim.Props.C117_extension",
    "Fastsim.Props.C117_no_extension",
    "Fastsim.Props.C117_formats",
    "Fastsim.Props.C117_write",
    "Fastsim.Props.C117_no_extension_untouched",
    "Fastsim.Props.C117_emptied",
    "Fastsim.Props.C117_read_back",
    "Fastsim.Props.C117_round_trip",
    "Fastsim.Props.C117_text",
    "Fastsim.Props.C117_apart",
    "Fastsim.Props.C117_listed",
    "Fastsim.Props.C117_listed_loads",
    "Fastsim.Props.C117_listed_not_loaded",
    "Fastsim.Props.C117_loaded_not_listed",
    "Fastsim.Props.C117_cache_path",
    "Fastsim.Props.C117_cache_defined",
    "Fastsim.Props.C117_cache",
    "Fastsim.Props.C117_cache_absolute",
    "Fastsim.Props.C117_cache_apart",
    "Fastsim.Props.C117_vehicle",
    "Fastsim.Props.C117_demo"
   ],
   "note": "C117_extension, C117_no_extension, C117_formats, C117_write, C117_no_extension_untouched, C117_read_back, C117_round_trip, C117_text, C117_apart, C117_listed, C117_listed_loads, C117_cache_path, C117_cache_defined, C117_cache, C117_cache_apart, C117_vehicle; findings C117_emptied, C117_listed_not_loaded, C117_loaded_not_listed, C117_cache_absolute; C117_demo is a case."
  },
  {
   "property": "C118",
   "status": "proved",
   "theorems": [
    "Fastsim.Props.C118_charge",
    "Fastsim.Props.C118_cruise",
    "Fastsim.Props.C118_trips",
    "Fastsim.Props.C118_order",
    "Fastsim.Props.C118_repeat",
    "Fastsim.Props.C118_demo",
    "Fastsim.Props.C118_full_battery"
   ],
   "note": "C118_charge, C118_cruise, C118_trips, C118_order, C118_repeat; C118_full_battery: needs room in the battery; C118_demo is a case."
  },
  {
   "property": "C119",
   "status": "proved",
   "theorems": [
    "Fastsim.Props.C119_mass",
    "Fastsim.Props.C119_hills",
    "Fastsim.Props.C119_convex",
    "Fastsim.Props.C119_fuel",
    "Fastsim.Props.C119_bev",
    "Fastsim.Props.C119_bev_convex",
    "Fastsim.Props.C119_demo",
    "Fastsim.Props.C119_slowing_down",
    "Fastsim.Props.C119_demo_bev"
   ],
   "note": "C119_mass, C119_hills, C119_convex, C119_fuel, C119_bev, C119_bev_convex; C119_slowing_down: needs the end no slower; C119_demo, C119_demo_bev are cases."
  },
  {
   "property": "C120",
   "status": "proved",
   "theorems": [
    "Fastsim.Props.C120_steady",
    "Fastsim.Props.C120_bev",
    "Fastsim.Props.C120_distance",
    "Fastsim.Props.C120_slower",
    "Fastsim.Props.C120_demo",
    "Fastsim.Props.C120_demo_slower",
    "Fastsim.Props.C120_fuel_can_rise"
   ],
   "note": "C120_steady, C120_bev, C120_slower, C120_distance; C120_fuel_can_rise: not for fuel; C120_demo, C120_demo_slower, C119_demo_bev are cases."
  },
  {
   "property": "C121",
   "status": "proved",
   "theorems": [
    "Fastsim.Props.C121_meets",
    "Fastsim.Props.C121_run",
    "Fastsim.Props.C121_trips",
    "Fastsim.Props.C121_engine",
    "Fastsim.Props.C121_accessories",
    "Fastsim.Props.C121_resistance",
    "Fastsim.Props.C121_demo",
    "Fastsim.Props.C121_demo_compare",
    "Fastsim.Props.C121_less_drag_misses",
    "Fastsim.Props.C121_grip_exceeded"
   ],
   "note": "C121_meets is the equivalence; C121_run, C121_trips, C121_engine, C121_accessories, C121_resistance follow; C121_less_drag_misses and C121_grip_exceeded are findings; C121_demo and C121_demo_compare are cases."
  },
  {
   "property": "C122",
   "status": "proved",
   "theorems": [
    "Fastsim.Props.C122_free",
    "Fastsim.Props.C122_run",
    "Fastsim.Props.C122_range",
    "Fastsim.Props.C122_demo"
   ],
   "note": "C122_free, C122_run and C122_range; C122_demo is a case, from full and from nearly empty batteries the condition fails."
  },
  {
   "property": "C123",
   "status": "proved",
   "theorems": [
    "Fastsim.Props.C123_same",
    "Fastsim.Props.C123_run",
    "Fastsim.Props.C123_range",
    "Fastsim.Props.C123_demo",
    "Fastsim.Props.C123_thresholds"
   ],
   "note": "C123_same compares the runs; C123_run and C123_range are about the trip alone; C123_demo is a case and C123_thresholds shows that each threshold is needed."
  },
  {
   "property": "C124",
   "status": "proved",
   "theorems": [
    "Fastsim.Props.C124_names",
    "Fastsim.Props.C124_keeps",
    "Fastsim.Props.C124_succeeds",
    "Fastsim.Props.C124_fills",
    "Fastsim.Props.C124_offline",
    "Fastsim.Props.C124_again",
    "Fastsim.Props.C124_first",
    "Fastsim.Props.C124_order",
    "Fastsim.Props.C124_slash",
    "Fastsim.Props.C124_demo",
    "Fastsim.Props.C124_mixed",
    "Fastsim.Props.C124_url"
   ],
   "note": "C124_succeeds, C124_fills, C124_keeps, C124_offline, C124_again, C124_first, C124_order, C124_names, C124_slash; C124_mixed is a finding; C124_demo is a case. C124_url gives names and addresses in full."
  },
  {
   "property": "C125",
   "status": "proved",
   "theorems": [
    "Fastsim.Props.C125_id",
    "Fastsim.Props.C125_columns",
    "Fastsim.Props.C125_blank_id",
    "Fastsim.Props.C125_vehicles",
    "Fastsim.Props.C125_families",
    "Fastsim.Props.C125_skipped",
    "Fastsim.Props.C125_score",
    "Fastsim.Props.C125_years",
    "Fastsim.Props.C125_options",
    "Fastsim.Props.C125_vehicle",
    "Fastsim.Props.C125_imports",
    "Fastsim.Props.C125_demo",
    "Fastsim.Props.C125_whole",
    "Fastsim.Props.C125_truth",
    "Fastsim.Props.C125_fits",
    "Fastsim.Props.C125_vehicle_errors",
    "Fastsim.Props.C125_tests",
    "Fastsim.Props.C125_missing",
    "Fastsim.Props.C125_fits_demo"
   ],
   "note": "C125_options, C125_vehicle, C125_imports, C125_years, C125_columns, C125_vehicles, C125_families, C125_skipped, C125_id; C125_blank_id and C125_score are findings; C125_demo is a case. C125_whole, C125_truth, C125_fits say how values are written and which rows fit; C125_vehicle_errors, C125_tests, C125_missing which failures are errors and which panics."
  },
  {
   "property": "C126",
   "status": "proved",
   "theorems": [
    "Fastsim.Props.C126_listed",
    "Fastsim.Props.C126_lists",
    "Fastsim.Props.C126_folder",
    "Fastsim.Props.C126_order",
    "Fastsim.Props.C126_asked",
    "Fastsim.Props.C126_one_slash",
    "Fastsim.Props.C126_two_slashes",
    "Fastsim.Props.C126_origin",
    "Fastsim.Props.C126_cache",
    "Fastsim.Props.C126_demo",
    "Fastsim.Props.C126_doc"
   ],
   "note": "C126_listed, C126_lists, C126_folder, C126_order, C126_asked, C126_one_slash, C126_two_slashes, C126_origin, C126_cache; C126_demo is a case."
  },
  {
   "property": "C127",
   "status": "proved",
   "theorems": [
    "Fastsim.Props.C127_isolated",
    "Fastsim.Props.C127_read",
    "Fastsim.Props.C127_write",
    "Fastsim.Props.C127_error",
    "Fastsim.Props.C127_guard",
    "Fastsim.Props.C127_silent",
    "Fastsim.Props.C127_copy",
    "Fastsim.Props.C127_get_path",
    "Fastsim.Props.C127_set_path",
    "Fastsim.Props.C127_roundtrip",
    "Fastsim.Props.C127_path_error",
    "Fastsim.Props.C127_nested",
    "Fastsim.Props.C127_item",
    "Fastsim.Props.C127_set_item",
    "Fastsim.Props.C127_guard_demo",
    "Fastsim.Props.C127_way",
    "Fastsim.Props.C127_lost_peak",
    "Fastsim.Props.C127_lost_unmarked",
    "Fastsim.Props.C127_lost_method",
    "Fastsim.Props.C127_copy_demo",
    "Fastsim.Props.C127_path_demo",
    "Fastsim.Props.C127_item_panic",
    "Fastsim.Props.C127_parts",
    "Fastsim.Props.C127_parts_demo"
   ],
   "note": "C127_isolated, C127_read, C127_write, C127_error, C127_guard, C127_silent, C127_copy, C127_get_path, C127_set_path, C127_roundtrip, C127_path_error, C127_nested, C127_item, C127_set_item; C127_lost_peak, C127_lost_unmarked, C127_lost_method, C127_copy_demo and C127_item_panic are findings; C127_guard_demo, C127_way and C127_path_demo are cases."
  },
  {
   "property": "C128",
   "status": "proved",
   "theorems": [
    "Fastsim.Props.C128_push",
    "Fastsim.Props.C128_pop_push",
    "Fastsim.Props.C128_stack",
    "Fastsim.Props.C128_len",
    "Fastsim.Props.C128_clear",
    "Fastsim.Props.C128_ragged",
    "Fastsim.Props.C128_exp",
    "Fastsim.Props.C128_model",
    "Fastsim.Props.C128_cabin",
    "Fastsim.Props.C128_commute",
    "Fastsim.Props.C128_demo",
    "Fastsim.Props.C128_exp_demo"
   ],
   "note": "C128_push, C128_pop_push, C128_stack, C128_len, C128_clear, C128_exp, C128_model, C128_cabin, C128_commute; C128_ragged is a finding; C128_demo and C128_exp_demo are cases."
  },
  {
   "property": "C129",
   "status": "proved",
   "theorems": [
    "Fastsim.Props.C129_distance",
    "Fastsim.Props.C129_drag",
    "Fastsim.Props.C129_work",
    "Fastsim.Props.C129_fuel",
    "Fastsim.Props.C129_error",
    "Fastsim.Props.C129_run",
    "Fastsim.Props.C129_resample",
    "Fastsim.Props.C129_demo_resample",
    "Fastsim.Props.C129_demo",
    "Fastsim.Props.C129_slope_lost"
   ],
   "note": "C129_distance, C129_drag, C129_work, C129_fuel, C129_error, C129_run, C129_resample; C129_slope_lost is a finding; C129_demo and C129_demo_resample are cases."
  },
  {
   "property": "C130",
   "status": "proved",
   "theorems": [
    "Fastsim.Props.C130_root",
    "Fastsim.Props.C130_step",
    "Fastsim.Props.C130_run",
    "Fastsim.Props.C130_real",
    "Fastsim.Props.C130_defaults",
    "Fastsim.Props.C130_demo",
    "Fastsim.Props.C130_long_steps"
   ],
   "note": "C130_root, C130_step, C130_run, C130_real; C130_long_steps is a finding; C130_defaults and C130_demo are cases."
  },
  {
   "property": "C131",
   "status": "proved",
   "theorems": [
    "Fastsim.Props.C131_work",
    "Fastsim.Props.C131_fuel",
    "Fastsim.Props.C131_run",
    "Fastsim.Props.C131_jump",
    "Fastsim.Props.C131_demo"
   ],
   "note": "C131_work, C131_run, C131_fuel; C131_jump is a finding; C131_demo is a case."
  },
  {
   "property": "C132",
   "status": "proved",
   "theorems": [
    "Fastsim.Props.C132_refused",
    "Fastsim.Props.C132_run",
    "Fastsim.Props.C132_fails",
    "Fastsim.Props.C132_again",
    "Fastsim.Props.C132_inside",
    "Fastsim.Props.C132_apart",
    "Fastsim.Props.ImportDemo.C132_demo",
    "Fastsim.Props.ImportDemo.C132_absolute_found",
    "Fastsim.Props.C132_unreadable",
    "Fastsim.Props.ImportDemo.C132_demo_unreadable"
   ],
   "note": "C132_refused, C132_run, C132_fails, C132_again; C132_inside and C132_apart say when its hypothesis holds; C132_absolute_found is a finding; C132_demo is a case; C132_unreadable: an unreadable row is an error before anything is written."
  },
  {
   "property": "C133",
   "status": "proved",
   "theorems": [
    "Fastsim.Props.C133_step",
    "Fastsim.Props.C133_run",
    "Fastsim.Props.C133_figures",
    "Fastsim.Props.ScaleDemo.C133_demo",
    "Fastsim.Props.ScaleDemo.C133_small_motor"
   ],
   "note": "C133_step, C133_run, C133_figures; C133_small_motor is a finding; C133_demo is a case."
  },
  {
   "property": "C134",
   "status": "proved",
   "theorems": [
    "Fastsim.Props.C134_drive",
    "Fastsim.Props.C134_resistance",
    "Fastsim.Props.C134_drive_charge",
    "Fastsim.Props.C134_resistance_charge",
    "Fastsim.Props.C134_battery",
    "Fastsim.Props.C134_capacity",
    "Fastsim.Props.BetterDemo.C134_demo",
    "Fastsim.Props.BetterDemo.C134_demo_capacity",
    "Fastsim.Props.BetterDemo.C134_better_takes_more"
   ],
   "note": "C134_drive, C134_resistance, C134_drive_charge, C134_resistance_charge, C134_battery, C134_capacity; C134_better_takes_more is a finding; the demos are cases."
  },
  {
   "property": "C135",
   "status": "proved",
   "theorems": [
    "Fastsim.Props.C135_extremes",
    "Fastsim.Props.C135_walk",
    "Fastsim.Props.C135_quiet",
    "Fastsim.Props.C135_drive",
    "Fastsim.Props.C135_found",
    "Fastsim.Props.LogDemo.C135_demo",
    "Fastsim.Props.LogDemo.C135_demo_long",
    "Fastsim.Props.LogDemo.C135_demo_extremes",
    "Fastsim.Props.C135_quotient"
   ],
   "note": "C135_extremes, C135_walk, C135_quiet, C135_drive; C135_found is a finding; LogDemo is a case."
  },
  {
   "property": "C136",
   "status": "proved",
   "theorems": [
    "Fastsim.Props.C136_build",
    "Fastsim.Props.C136_only",
    "Fastsim.Props.BuildDemo.C136_demo"
   ],
   "note": "C136_build, C136_only; C136_demo is a case."
  },
  {
   "property": "C137",
   "status": "proved",
   "theorems": [
    "Fastsim.Props.C137_label",
    "Fastsim.Props.C137_compare",
    "Fastsim.Props.C137_resistance",
    "Fastsim.Props.C137_mass",
    "Fastsim.Props.LabelTraceDemo.C137_demo",
    "Fastsim.Props.LabelTraceDemo.C137_more_load"
   ],
   "note": "C137_label, C137_compare, C137_resistance, C137_mass; C137_more_load is a limit; C137_demo is a case."
  },
  {
   "property": "C138",
   "status": "proved",
   "theorems": [
    "Fastsim.Props.C138_label",
    "Fastsim.Props.C138_drive",
    "Fastsim.Props.C138_resistance",
    "Fastsim.Props.C138_capacity",
    "Fastsim.Props.C138_battery",
    "Fastsim.Props.C138_promise",
    "Fastsim.Props.LabelBevDemo.C138_demo",
    "Fastsim.Props.LabelBevDemo.C138_demo_window"
   ],
   "note": "C138_label, C138_drive, C138_resistance, C138_capacity, C138_battery, C138_promise; C138_demo and C138_demo_window are cases."
  },
  {
   "property": "C139",
   "status": "proved",
   "theorems": [
    "Fastsim.Props.C139_step",
    "Fastsim.Props.C139_off",
    "Fastsim.Props.C139_fuel",
    "Fastsim.Props.C139_floor",
    "Fastsim.Props.C139_floor_vehicle",
    "Fastsim.Props.C139_ceiling",
    "Fastsim.Props.CoolingDemo.C139_demo",
    "Fastsim.Props.CoolingDemo.C139_demo_vehicle",
    "Fastsim.Props.CoolingDemo.C139_demo_off",
    "Fastsim.Props.CoolingDemo.C139_overshoot"
   ],
   "note": "C139_step, C139_off, C139_floor, C139_ceiling; C139_demo and C139_demo_off are cases, C139_overshoot a finding."
  },
  {
   "property": "C140",
   "status": "proved",
   "theorems": [
    "Fastsim.Props.C140_conv",
    "Fastsim.Props.C140_resistance",
    "Fastsim.Props.C140_bev",
    "Fastsim.Props.C140_capacity",
    "Fastsim.Props.RsLabelDemo.C140_demo",
    "Fastsim.Props.RsLabelDemo.C140_demo_bev"
   ],
   "note": "C140_conv, C140_resistance, C140_bev, C140_capacity; C140_demo and C140_demo_bev are cases."
  },
  {
   "property": "C141",
   "status": "proved",
   "theorems": [
    "Fastsim.Props.C141_step",
    "Fastsim.Props.cabinConducts_nonneg",
    "Fastsim.Props.C141_deadband",
    "Fastsim.Props.C141_bounds",
    "Fastsim.Props.CabinDemo.C141_demo",
    "Fastsim.Props.CabinDemo.C141_demo_deadband",
    "Fastsim.Props.CabinDemo.C141_swing",
    "Fastsim.Props.C141_fresh",
    "Fastsim.Props.C141_make",
    "Fastsim.Props.CabinDemo.C141_demo_make"
   ],
   "note": "C141_step, C141_deadband, C141_bounds; C141_demo and C141_demo_deadband are cases, C141_swing is found. C141_fresh and C141_make: how a simulation starts."
  },
  {
   "property": "C142",
   "status": "proved",
   "theorems": [
    "Fastsim.Props.C142_brakes",
    "Fastsim.Props.C142_trip",
    "Fastsim.Props.C142_hills",
    "Fastsim.Props.C142_return",
    "Fastsim.Props.C142_trip_any",
    "Fastsim.Props.C142_hills_any",
    "Fastsim.Props.C142_return_any",
    "Fastsim.Props.HillsDemo.C142_demo",
    "Fastsim.Props.HillsDemo.C142_demo_any"
   ],
   "note": "Conventional: C142_brakes, C142_trip, C142_hills, C142_return. Any powertrain: C142_trip_any, C142_hills_any, C142_return_any. HillsDemo.C142_demo has one hill that costs and one that saves, C142_demo_any a hybrid and a battery-electric car."
  },
  {
   "property": "C143",
   "status": "proved",
   "theorems": [
    "Fastsim.Props.C143_step",
    "Fastsim.Props.C143_lower",
    "Fastsim.Props.C143_upper",
    "Fastsim.Props.C143_off",
    "Fastsim.Props.C143_catalyst_off",
    "Fastsim.Props.PortDemo.C143_demo",
    "Fastsim.Props.PortDemo.C143_demo_off",
    "Fastsim.Props.PortDemo.C143_swing",
    "Fastsim.Props.C143_catalyst_step",
    "Fastsim.Props.C143_catalyst",
    "Fastsim.Props.PortDemo.C143_demo_catalyst"
   ],
   "note": "C143_step, C143_lower, C143_upper over drives; C143_off, C143_catalyst_off for steps of any length; PortDemo.C143_swing is the overshoot. C143_catalyst bounds the catalyst over drives of short steps."
  },
  {
   "property": "C144",
   "status": "proved",
   "theorems": [
    "Fastsim.Props.C144_heat",
    "Fastsim.Props.C144_even",
    "Fastsim.Props.C144_mass",
    "Fastsim.Props.HeatDemo.C144_demo",
    "Fastsim.Props.HeatDemo.C144_uneven"
   ],
   "note": "C144_heat for any steps, C144_even and C144_mass for even steps; HeatDemo.C144_uneven is a drive whose flows exceed the heat burnt."
  },
  {
   "property": "C145",
   "status": "proved",
   "theorems": [
    "Fastsim.Props.C145_gas",
    "Fastsim.Props.C145_range",
    "Fastsim.Props.C145_parts",
    "Fastsim.Props.GasDemo.C145_demo",
    "Fastsim.Props.GasDemo.C145_demo_parts",
    "Fastsim.Props.GasDemo.C145_cold",
    "Fastsim.Props.GasDemo.C145_rich"
   ],
   "note": "C145_gas, C145_range and C145_parts for all drives; GasDemo.C145_cold is a drive with gas at -60 degrees C in air at 20 degrees C, GasDemo.C145_rich one in which the limit acts."
  },
  {
   "property": "C146",
   "status": "proved",
   "theorems": [
    "Fastsim.Props.C146_clear",
    "Fastsim.Props.C146_inside",
    "Fastsim.Props.C146_twice",
    "Fastsim.Props.C146_gone",
    "Fastsim.Props.C146_here",
    "Fastsim.Props.C146_absolute",
    "Fastsim.Props.C146_above",
    "Fastsim.Props.CacheDemo.C146_demo"
   ],
   "note": "C146_absolute and C146_above are the surprising cases: paths that lead out of the data folder."
  },
  {
   "property": "C147",
   "status": "proved",
   "theorems": [
    "Fastsim.Props.C147_faithful",
    "Fastsim.Props.C147_native",
    "Fastsim.Props.C147_array",
    "Fastsim.Props.C147_matrix",
    "Fastsim.Props.C147_twice",
    "Fastsim.Props.C147_demo"
   ],
   "note": "C147_matrix and C147_twice are the surprising cases."
  }
 ]
}