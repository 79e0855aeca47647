{"id": "C01", "title": "Splitting a cycle into microtrips and concatenating them gives the cycle back", "statement": "For every drive cycle, cycle.concat(cycle.to_microtrips(c, stop)) has exactly the speeds, grades and road types of c, and its times are those of c minus the first time of c. An empty cycle is returned unchanged.", "quantifier": "all cycles of any length (any speeds, grades, times), all stop-speed thresholds", "why_tests_cant": "The split depends on every stop/start pattern of arbitrarily long traces; tests only exercise UDDS and a few literals.", "anchors": ["python/fastsim/cycle.py::to_microtrips", "python/fastsim/cycle.py::concat"]}
{"id": "C02", "title": "Shape of microtrips", "statement": "Each microtrip produced by to_microtrips starts at time zero, is non-empty, each one but the first starts with the last sample of its predecessor, and inside a microtrip the vehicle never moves again after it has moved and stopped: a microtrip never contains moving, then stopped, then moving samples.", "quantifier": "all cycles, all stop thresholds, all microtrips of the result", "why_tests_cant": "The property is about all stop/start interleavings of arbitrarily long cycles.", "anchors": ["python/fastsim/cycle.py::to_microtrips"]}
{"id": "C03", "title": "Concatenation accounting", "statement": "concat of cycles keeps the first cycle unchanged, drops exactly the first sample of each later cycle, shifts later times by the time reached so far, so sample counts, elapsed times and (when each cycle starts at the speed the previous one ended) trapezoidal distances add up; times stay strictly increasing if each cycle's times are strictly increasing from zero; concat of one cycle is that cycle and concat is associative.", "quantifier": "all finite lists of cycles of any length", "why_tests_cant": "Quantifies over lists of cycles of unbounded number and length.", "anchors": ["python/fastsim/cycle.py::concat"]}
{"id": "C04", "title": "Clipping a cycle to a time window", "statement": "clip_by_times(c, t_end, t_start) keeps, in order, exactly the samples with t_start <= time <= t_end, with times measured from the first kept sample; it raises IndexError exactly when no sample lies in the window; for non-decreasing times the kept samples are a contiguous piece of the cycle, and clipping the result to the same window seen from its new origin changes nothing.", "quantifier": "all cycles and all time windows, including windows that contain no sample", "why_tests_cant": "Window edges coincide with samples in infinitely many ways.", "anchors": ["python/fastsim/cycle.py::clip_by_times"]}
{"id": "C05", "title": "Resampling never invents values and is exact on the original grid", "statement": "resample(cycle, dt, start, end): output times are start + k*dt for exactly the k with start + k*dt < end + dt/10; a channel in no key set lies on the original trace (linear between samples, constant outside) and stays between the least and greatest original value; a channel in hold_keys takes the value of the last sample at or before each time, one in hold_keys_next that of the first sample at or after; wherever a new time is an original one the original value is reproduced, so resampling a uniform cycle that starts at zero with all defaults returns it unchanged; with the speed in rate_keys a cycle whose length is a multiple of dt keeps its travelled distance exactly. Without rate keys the only failure is a ValueError for a held channel with a new time outside the original ones (which a step that does not divide the length can cause). Refuted: distance is not kept when dt does not divide the length; the default start is time zero, not the first sample.", "quantifier": "all non-empty cycles with strictly increasing times, all dt > 0, start and end times, all choices of key sets", "why_tests_cant": "Interpolation depends on real-valued positions between samples.", "anchors": ["python/fastsim/cycle.py::resample"]}
{"id": "C06", "title": "Distance bookkeeping is consistent", "statement": "trapz_step_start_distance(c,i) is the sum of trapz_distance_for_step(c,j) for j<i and of the first i trapz_step_distances; trapz_distance_over_range(c,i,j) is the difference of start distances and is additive over adjacent ranges; with non-negative speeds and non-decreasing times the distance is non-negative and non-decreasing in the index; it vanishes over ranges where the vehicle is stopped.", "quantifier": "all cycles of any length, all indices", "why_tests_cant": "Needs induction over the length of the cycle.", "anchors": ["python/fastsim/cycle.py::trapz_step_distances", "python/fastsim/cycle.py::trapz_step_start_distance", "python/fastsim/cycle.py::trapz_distance_for_step", "python/fastsim/cycle.py::trapz_distance_over_range", "python/fastsim/cycle.py::average_step_speeds"]}
{"id": "C07", "title": "Constant-jerk rendezvous hits its target", "statement": "The jerk and initial acceleration returned by calc_constant_jerk_trajectory(n, D0, v0, Dr, vr, dt) make dist_for_constant_jerk(n, D0, v0, a0, k, dt) equal Dr and speed_for_constant_jerk(n, v0, a0, k, dt) equal vr, for every n >= 2 and dt for which the solve is possible; out-of-contract calls (n<2, Dr<=D0) raise. The solve is impossible exactly when dt = (n+4)/3.", "quantifier": "all integers n>=2, all real initial/final distances and speeds, all dt>0", "why_tests_cant": "An identity over reals and an unbounded integer; tests sample a few numbers and always use dt=1.", "anchors": ["python/fastsim/cycle.py::calc_constant_jerk_trajectory", "python/fastsim/cycle.py::dist_for_constant_jerk", "python/fastsim/cycle.py::speed_for_constant_jerk", "python/fastsim/cycle.py::accel_for_constant_jerk"]}
{"id": "C08", "title": "Constant-jerk helpers agree with each other", "statement": "Speed after n steps equals initial speed plus the sum of acceleration times step duration and distance after n steps equals the trapezoidal sum over those speeds. (True for 1-second steps, which is what the tests use; false for any other step duration, where speed_for_constant_jerk and dist_for_constant_jerk scale the jerk term with dt instead of dt squared.)", "quantifier": "all numbers of steps n, all initial speeds, accelerations, jerks and step durations", "why_tests_cant": "Induction over the number of steps, for all real parameters.", "anchors": ["python/fastsim/cycle.py::accel_for_constant_jerk", "python/fastsim/cycle.py::speed_for_constant_jerk", "python/fastsim/cycle.py::dist_for_constant_jerk"]}
{"id": "C09", "title": "Trajectory edits are confined, non-negative and end where promised", "statement": "Cycle.modify_by_const_jerk_trajectory(i,n,k,a) changes no sample outside [i, i+n), sets only non-negative speeds and never changes times, grades or the number of samples; modify_with_braking_trajectory(a,i) leaves samples before i and from i+n on unchanged, sets non-negative speeds and, if the end lies inside the cycle, the vehicle is at standstill at the last modified sample; with non-negative initial speed it covers exactly the requested stopping distance for 1-second steps when no clamping happens.", "quantifier": "all cycles, start indices, step counts, jerks and accelerations", "why_tests_cant": "Unbounded trajectory lengths and positions relative to the end of the cycle.", "anchors": ["python/fastsim/cycle.py::Cycle.modify_by_const_jerk_trajectory", "python/fastsim/cycle.py::Cycle.modify_with_braking_trajectory"]}
{"id": "C10", "title": "Distance to the next stop", "statement": "calc_distance_to_next_stop_from(d) returns the distance from d to the closest stopped sample that lies strictly beyond d; if there is no such sample it returns the (non-positive) distance back to the start of the cycle. The cached and the uncached variant agree.", "quantifier": "all cycles with non-negative speeds and non-decreasing times, all query distances d >= 0", "why_tests_cant": "Minimum over arbitrarily many stops for a continuum of query distances.", "anchors": ["python/fastsim/cycle.py::Cycle.calc_distance_to_next_stop_from", "python/fastsim/cycle.py::CycleCache"]}
{"id": "C11", "title": "Passing detection is sound, complete and first", "statement": "detect_passing(cyc, cyc0, i, tol) scans the samples k >= i in order, stopping at the first sample where the vehicle (nearly) stands still; it reports a collision iff, at a scanned sample later than i, the vehicle is farther along than the lead by more than the tolerance and the lead has moved past the starting point; the reported index is the first such k and the reported distance and speed are those of the lead cycle at k.", "quantifier": "all pairs of cycles of equal length, all start indices and tolerances", "why_tests_cant": "Scans arbitrarily long suffixes of two trajectories.", "anchors": ["python/fastsim/cycle.py::detect_passing", "python/fastsim/cycle.py::PassingInfo"]}
{"id": "C12", "title": "Grade and elevation lookups, with and without the cache", "statement": "average_grade_over_range(x, delta) over more than 1e-6 m inside the cycle is the grade whose sine is rise over travelled distance, lies between the least and the greatest slope of the samples, and equals the grade of a road of constant grade; over at most 1e-6 m it is the grade of the first sample at or beyond x. Beyond the end of the cycle ranges count the road as level while the single-point query keeps the last grade. A CycleCache changes no range query, and no single-point query either when a sample reached without moving carries the grade of the next one; otherwise the cached single-point lookup can return the grade recorded during a halt (refuted with a concrete cycle).", "quantifier": "all cycles with non-negative speeds and non-decreasing times, all start distances and ranges", "why_tests_cant": "The fault needs a stop and a query just past it; quantifies over a continuum of distances.", "anchors": ["python/fastsim/cycle.py::Cycle.average_grade_over_range", "python/fastsim/cycle.py::CycleCache.interp_grade", "python/fastsim/cycle.py::CycleCache.interp_elevation"]}
{"id": "C13", "title": "Unit conversions are mutually inverse", "statement": "l__100km_to_mpg and mpg_to_l__100km are mutually inverse for every non-zero argument (0 raises ZeroDivisionError) and reverse the order of positive values; setting then getting the fuel heating value (set_fuel_lhv_kJ__kg / get_fuel_lhv_kJ__kg), and the mph view of a cycle, returns the value set; drag_coeffs_to_abc followed by abc_to_drag_coeffs (without simulation-based optimisation) returns the original drag and rolling coefficients, for every non-zero air density, mass and frontal area; the other order returns A and C and replaces B by 0; the coefficients reproduce the road load at every speed; get_rho_air obeys the gas law at fixed elevation and decreases with elevation; the tire radius is half the rim diameter plus the sidewall in whatever unit it is asked for. In the Rust core setting then getting the heating value also returns the value set, with the same energy of a gallon as in Python, and the exhaust flow of a thermal simulation follows the value set.", "quantifier": "all real arguments (non-zero where a division is involved)", "why_tests_cant": "Algebraic identity over all reals.", "anchors": ["python/fastsim/utils/utilities.py::l__100km_to_mpg", "python/fastsim/utils/utilities.py::mpg_to_l__100km", "python/fastsim/utils/utilities.py::get_rho_air", "python/fastsim/utils/utilities.py::calculate_tire_radius", "python/fastsim/parameters.py::PhysicalProperties", "python/fastsim/cycle.py::Cycle.get_mph", "python/fastsim/cycle.py::Cycle.set_mph", "python/fastsim/auxiliaries.py::abc_to_drag_coeffs", "python/fastsim/auxiliaries.py::drag_coeffs_to_abc", "rust/fastsim-core/src/params.rs::set_fuel_lhv_kj_per_kg"]}
{"id": "C14", "title": "Extending a cycle only appends standstill", "statement": "extend_cycle(c, absolute_time_s, time_fraction) leaves all samples of a non-empty cycle unchanged and appends only samples with zero speed and zero grade, one per second; the number appended is the number of whole seconds k >= 1 with k < absolute_time_s + round(time_fraction * last time) + 0.1; travelled distance grows only by the ramp from the last speed to zero in the first appended second. An empty cycle raises IndexError. Refuted: the documented rounding to the nearest second does not hold for absolute_time_s (2.8 s become 2 s).", "quantifier": "all cycles and all time requests", "why_tests_cant": "Cycle length and requested time are unbounded.", "anchors": ["python/fastsim/cycle.py::extend_cycle"]}
{"id": "C15", "title": "Distance-based target speeds for eco-cruise", "statement": "create_dist_and_target_speeds_by_microtrip returns one entry for each microtrip in which distance is covered, with distances that start at zero, strictly increase and equal the distance of all earlier microtrips, and with every target speed at least the requested minimum; for a blend factor of 0 it is the microtrip's average speed, for 1 its average moving speed, in between it is the linear blend; the blend factor is clamped to [0,1]; while the driver is inside a microtrip its target is the one in force.", "quantifier": "all cycles, blend factors and minimum target speeds", "why_tests_cant": "Number and shape of microtrips are unbounded.", "anchors": ["python/fastsim/cycle.py::create_dist_and_target_speeds_by_microtrip"]}
{"id": "C16", "title": "Engine output respects its rating, its ramp limit and its sign", "statement": "In every simulation step of every vehicle fc_kw_out_ach is between 0 and fc_max_kw, and exceeds the previous step's value by at most fc_max_kw/fc_sec_to_peak_pwr*dt; the upper bounds hold for any rounding of the arithmetic.", "quantifier": "all vehicles, all cycles, all initial states of charge, all steps, in particular after arbitrarily long histories", "why_tests_cant": "The bound is an inductive invariant over unbounded histories and all powertrain types.", "anchors": ["python/fastsim/simdrive.py::SimDrive.set_comp_lims", "python/fastsim/simdrive.py::SimDrive.set_fc_power"]}
{"id": "C17", "title": "Fuel only ever gets used up", "statement": "In every step the fuel power fs_kw_out_ach is non-negative and at least the engine output power whenever the engine map efficiency is in (0,1]; cumulative fuel is non-decreasing along the cycle; total fuel energy, fuel converter losses and mpgge are non-negative.", "quantifier": "all vehicles with efficiency maps in (0,1], all cycles, all steps", "why_tests_cant": "Inductive over the run, for all efficiency maps.", "anchors": ["python/fastsim/simdrive.py::SimDrive.set_fc_power", "python/fastsim/simdrive.py::SimDrive.set_post_scalars"]}
{"id": "C18", "title": "Friction and regenerative braking share the demand exactly", "statement": "In every step friction braking and regenerative braking powers are non-negative, regenerative braking never exceeds the wheel power available from braking nor what the motor/battery can absorb through the transmission, friction braking is used only for the part regeneration cannot take, and (requested transmission output) = (requested wheel power) + (friction braking); regeneration is zero for zero or positive wheel power demand.", "quantifier": "all vehicles, speeds, grades, steps and states of charge", "why_tests_cant": "Holds for a continuum of wheel power demands and limits.", "anchors": ["python/fastsim/simdrive.py::SimDrive.set_power_calcs"]}
{"id": "C19", "title": "Transmission never creates energy and is never overdriven", "statement": "In every step achieved transmission output never exceeds the current transmission limit nor the requested output, transmission input is at least transmission output for an efficiency in (0,1] (so transmission losses are non-negative in both directions of power flow).", "quantifier": "all vehicles with transmission efficiency in (0,1], all steps", "why_tests_cant": "All real powers of both signs.", "anchors": ["python/fastsim/simdrive.py::SimDrive.set_power_calcs", "python/fastsim/simdrive.py::SimDrive.set_ach_speed", "python/fastsim/simdrive.py::SimDrive.set_hybrid_cont_calcs"]}
{"id": "C20", "title": "Battery energy accounting balances", "statement": "For a vehicle with an electric system, over any run the decrease of stored battery energy equals the energy delivered at the battery terminals plus the reported battery loss (ess_dischg_kj = sum of ess_kw_out_ach*dt + ess_eff_kj); every single loss term is non-negative; charging raises and discharging lowers the state of charge.", "quantifier": "all vehicles with battery efficiency in (0,1], all cycles, all run lengths", "why_tests_cant": "Induction over the run for all powers.", "anchors": ["python/fastsim/simdrive.py::SimDrive.set_fc_power", "python/fastsim/simdrive.py::SimDrive.set_post_scalars"]}
{"id": "C21", "title": "State-of-charge limits", "statement": "As long as battery power stays within the limits computed for the step (cur_max_ess_kw_out, cur_max_ess_chg_kw), state of charge stays within [min_soc,max_soc], and using exactly the discharge (charge) limit with energy as the binding constraint reaches exactly min_soc (max_soc). The unconditional claim that soc never leaves the window is false: accessory load keeps draining an exhausted battery (concrete witness).", "quantifier": "all vehicles, all steps, all initial states of charge in the window", "why_tests_cant": "Continuum of powers, inductive over the run.", "anchors": ["python/fastsim/simdrive.py::SimDrive.set_comp_lims", "python/fastsim/simdrive.py::SimDrive.set_fc_power"]}
{"id": "C22", "title": "Energy audit identity", "statement": "After any finished run of a vehicle with a working battery or none, the numerator of energy_audit_error (supplied minus used energy) equals exactly the sum over the steps of unbalanced driveline and electrical-bus power times dt, plus transmission output minus requested output times dt, plus the change of rotational energy of the wheels (each step solved once, positive dt, time starting at 0; in all other cases the same identity with the recorded acceleration terms). With engine and battery the buses of a step balance exactly when the demand on the engine is between zero and its current limit. For conventional vehicles that meet the trace in every step the audit error is zero exactly when the wheels end as fast as they started.", "quantifier": "all vehicles, all cycles, any number of steps", "why_tests_cant": "A telescoping identity over arbitrarily many steps in exact arithmetic.", "anchors": ["python/fastsim/simdrive.py::SimDrive.set_post_scalars", "python/fastsim/simdrive.py::SimDrive.set_power_calcs", "python/fastsim/simdrive.py::SimDrive.set_fc_power"]}
{"id": "C23", "title": "Vehicles without an electric traction system never touch a battery", "statement": "If the vehicle has no motor or no battery (no_elec_sys) then in every step state of charge, stored energy, battery power (with no motor and accessories on the engine), motor power and regenerative braking are zero.", "quantifier": "all such vehicles, all cycles, all steps", "why_tests_cant": "All vehicles and histories.", "anchors": ["python/fastsim/simdrive.py::SimDrive.set_comp_lims", "python/fastsim/simdrive.py::SimDrive.set_hybrid_cont_decisions", "python/fastsim/simdrive.py::SimDrive.set_fc_power", "python/fastsim/vehicle.py::Vehicle.set_derived"]}
{"id": "C24", "title": "Battery-electric vehicles never burn fuel", "statement": "If fc_max_kw is 0 then engine output, fuel power and cumulative fuel are zero in every step of every run, and mpgge is 0. For an engine-less vehicle whose state of charge has not been below min_soc, battery power is exactly accessory plus motor electric power. (Refuted below min_soc: the accessory load is then dropped from the balance and the battery is charged from nowhere.)", "quantifier": "all vehicles with fc_max_kw = 0, all cycles, all steps", "why_tests_cant": "All vehicles and histories.", "anchors": ["python/fastsim/simdrive.py::SimDrive.set_fc_power", "python/fastsim/simdrive.py::SimDrive.set_hybrid_cont_decisions"]}
{"id": "C25", "title": "Achieved speed", "statement": "Achieved speed is never negative; in a plain run the achieved speed is exactly the cycle speed whenever the road load at the cycle speed is within the transmission limit, and otherwise the Newton answer for the limit; the distance of each step is achieved speed times dt, and travelled distance never decreases.", "quantifier": "all vehicles, all cycles with non-negative speeds, all steps", "why_tests_cant": "All histories and power limits.", "anchors": ["python/fastsim/simdrive.py::SimDrive.set_ach_speed"]}
{"id": "C26", "title": "Newton solve for the achieved speed", "statement": "The speed returned when the trace cannot be met is the best iterate found (its power residual is in absolute value minimal among the iterates evaluated), is non-negative, uses at most newton_max_iter iterations; an exact root of the power balance that is hit is returned unchanged.", "quantifier": "all coefficients and solver settings", "why_tests_cant": "Iteration count and real coefficients unbounded.", "anchors": ["python/fastsim/simdrive.py::SimDrive.set_ach_speed"]}
{"id": "C27", "title": "The simulation loops terminate with the promised counts", "statement": "sim_drive_walk executes every step 1..n-1 exactly once and in order for any cycle length (one sample: no step; no sample: IndexError); the HEV state-of-charge balancing loop performs at most sim_count_max walks, plus a final one; and when it ends early the fuel-equivalent battery imbalance of the last balancing walk is within tolerance. (Two things it does not promise, with witnesses: a cycle driven without fuel counts as balanced whatever the battery did, and the final, reported walk is not checked.)", "quantifier": "all cycles, vehicles, parameters (sim_count_max any natural number)", "why_tests_cant": "Loop termination and counts for unbounded inputs.", "anchors": ["python/fastsim/simdrive.py::SimDrive.sim_drive", "python/fastsim/simdrive.py::SimDrive.sim_drive_walk"]}
{"id": "C28", "title": "Running a simulation again gives the same result", "statement": "sim_drive is independent of what was simulated before on the same object as long as cycle-modifying options are unchanged: results depend only on the original cycle, the vehicle, the parameters, the initial state of charge and the auxiliary override, and the original cycle is never modified. (Refuted with a witness when eco-approach/trace-miss options are turned off between runs: the modified cycle is kept.)", "quantifier": "all sequences of runs on one object", "why_tests_cant": "Quantifies over all histories of earlier runs.", "anchors": ["python/fastsim/simdrive.py::SimDrive.sim_drive", "python/fastsim/simdrive.py::SimDrive.init_for_step", "python/fastsim/simdrive.py::SimDrive.init_arrays"]}
{"id": "C29", "title": "Trace-miss time dilation keeps time sane", "statement": "Time dilation only changes the duration of the current step: earlier samples, later step durations, speeds, grades and the original cycle are unchanged, time stays strictly increasing provided min_time_dilation > -1, each correction factor lies between the bounds, the corrections are counted and there are at most max(2, max_trace_miss_iters) of them per step; on return the distance is on trace, or the trace asks for standstill, or corrections are used up, or the last correction sits at a bound. The documented reading that a step is never dilated by more than max_time_dilation is refuted: corrections compound (between (1+min)^n and (1+max)^n), with a witness in which, under the default limits, a 1 s step that may at most double becomes 2.5 s long and covers 25 m instead of 10 m.", "quantifier": "all cycles, tolerances, dilation bounds and all responses of the vehicle", "why_tests_cant": "The vehicle's response to each corrected step is arbitrary.", "anchors": ["python/fastsim/simdrive.py::SimDrive.set_time_dilation"]}
{"id": "C30", "title": "Car-following speeds stay within the driver model", "statement": "The speed chosen by car following is the textbook intelligent-driver speed: never negative, zero for a non-positive desired speed, never more than idm_accel times the step duration above the current speed, not above the current speed when at or beyond the desired speed or closer to the lead vehicle than the wanted gap, and never raised by a smaller gap. The desired speed is the fixed one, or, with a table by distance, the entry of the last distance not beyond the position travelled (first entry before that; IndexError for an empty table); a non-positive desired speed falls back to the largest speed of the trace. Car following changes nothing but the current step's speed and recorded desired speed. It does not promise to stay behind the lead vehicle.", "quantifier": "all gaps, speeds, desired speeds, headways, exponents, tables, objects and steps of runs", "why_tests_cant": "Continuum of real states.", "anchors": ["python/fastsim/simdrive.py::SimDrive._next_speed_by_idm", "python/fastsim/simdrive.py::SimDrive._set_speed_for_target_gap_using_idm"]}
{"id": "C31", "title": "Eco-approach coasting logic is bounded", "statement": "Eco-approach (coasting before a stop) is bounded and only looks ahead. Collision prevention answers after at most twelve attempts; allowing more never changes the outcome. A step of eco-approach changes only samples, flags and delays from the current step on and the result of the current step, and never yields a negative speed. A generated coast is a coast-down of at most 180 samples above the brake-start speed followed by braking to standstill, all of it flagged; with one-second steps it covers the distance to the next stop of the lead trace unless the braking distance had to be limited to between half and twice the nominal one. A successful collision prevention ends at the lead vehicle's speed, and, unless a speed was cut off at zero, at its position. With negative brake acceleration and steps shorter than two seconds the logic never fails; with two-second steps it can divide by zero. Flags of the last full-braking samples are dropped, and prevention gives up above 60 m.", "quantifier": "all cycles, vehicles, parameters", "why_tests_cant": "Termination, distance bounds and absence of failures range over all cycles, vehicles and parameters.", "anchors": ["python/fastsim/simdrive.py::SimDrive._generate_coast_trajectory", "python/fastsim/simdrive.py::SimDrive._prevent_collisions", "python/fastsim/simdrive.py::SimDrive._calc_next_rendezvous_trajectory", "python/fastsim/simdrive.py::SimDrive._set_coast_delay"]}
{"id": "C32", "title": "Minimum engine-on time", "statement": "The engine-on timer is either reset to zero or advanced by the step duration in every step, it is never negative, and once running it is not reset before it has reached min_fc_time_on minus one step; in particular the engine is forced on while the timer is running and short of that. While it is held on in a step that could be driven electrically, the recorded state number (fc_forced_state) tells its duty: 2 braking, 3 exactly the power of best efficiency, 4 idle power, 5 following the demand, 6 best efficiency with the motor adding the rest; 1 otherwise.", "quantifier": "all vehicles, cycles, histories", "why_tests_cant": "Inductive over arbitrary switching histories.", "anchors": ["python/fastsim/simdrive.py::SimDrive.set_fc_forced_state", "python/fastsim/simdrive.py::SimDrive.set_hybrid_cont_decisions"]}
{"id": "C33", "title": "Auxiliary load override is honoured", "statement": "With aux_in_kw_override of the right length, the accessory load simulated in step i is the override value at i, and the caller's array is not changed. (True exactly while some later override entry, i included, is non-zero; trailing zeros are replaced by the vehicle's default load and the caller's array is overwritten: concrete witness.)", "quantifier": "all override arrays, all vehicles, all steps", "why_tests_cant": "All positions of zeros in arbitrarily long arrays.", "anchors": ["python/fastsim/simdrive.py::SimDrive.init_for_step", "python/fastsim/simdrive.py::SimDrive.set_misc_calcs"]}
{"id": "C34", "title": "Diagnostics split energies without loss", "statement": "For every power channel the positive and negative energies of SimDrivePost.get_diagnostics have the right sign and add up to the trapezoidal integral of the channel, and the reported mpgge equals the mpgge of the simulation. Every attribute named as a power (_kw not followed by h) is reported under its own name with _kj, _pos and _neg; no energy overwrites another as long as no power has _kj in its name, and there are no other keys than these, the distance and mpgge.", "quantifier": "all power traces of any length and all increasing times; all sets of attribute names", "why_tests_cant": "Induction over the trace; sign changes between samples.", "anchors": ["python/fastsim/simdrive.py::SimDrivePost.get_diagnostics"]}
{"id": "C35", "title": "Charge-corrected fuel use", "statement": "For hybrids with a combustion engine that worked during the run and components that lose energy: estimate_soc_corrected_fuel_kJ equals the plain fuel energy when the state of charge ends where it started, is larger when the battery was drained (by at least the energy drained) and smaller when it was charged, proportionally to the net charge, a debit never being cheaper than the credit for the same amount; it raises ValueError exactly for vehicles that are not hybrids. (For fuel-cell hybrids refuted: the correction may divide by zero.)", "quantifier": "all HEV simulations", "why_tests_cant": "All real charge imbalances.", "anchors": ["python/fastsim/simdrive.py::estimate_soc_corrected_fuel_kJ"]}
{"id": "C36", "title": "Battery wear estimate accumulates charge", "statement": "After n calls of SimDrivePost.set_battery_wear on fresh arrays, add_kwh at a sample of a charging streak is the energy charged over the last n steps of the streak (the whole streak once n is large enough); where the streak stops, dod_cycs is that energy as a share of the capacity, and ess_perc_dead is zero where no streak stops and grows with the depth for life coefficients that let deeper cycles be repeated less often. The natural expectation that one call accumulates and a second changes nothing is refuted: the accumulator reads the array of the previous call.", "quantifier": "all state-of-charge traces", "why_tests_cant": "Needs reasoning about all traces and repeated calls.", "anchors": ["python/fastsim/simdrive.py::SimDrivePost.set_battery_wear"]}
{"id": "C37", "title": "Vehicle mass and derived switches", "statement": "A positive mass override is used as is; otherwise vehicle mass is the sum of glider, cargo, transmission and component masses, is at least glider+cargo+transmission for non-negative inputs, and grows with each component's size; component masses are zero for components of zero size; the traction limit does not depend on mass; no_elec_sys and no_elec_aux are set exactly under their documented conditions.", "quantifier": "all vehicles", "why_tests_cant": "All real parameter combinations.", "anchors": ["python/fastsim/vehicle.py::Vehicle.set_veh_mass", "python/fastsim/vehicle.py::Vehicle.set_derived"]}
{"id": "C38", "title": "Peak-efficiency setters take effect everywhere", "statement": "After setting fc_peak_eff (mc_peak_eff) to x > 0 the getter returns x and every derived efficiency is scaled by the same factor; deriving a built vehicle again changes nothing. (Refuted in three respects: fc_eff_map is left unscaled although the method promises to set the peak everywhere, so the setting is lost when the vehicle is derived again; the motor's tabulated input powers are not rescaled, so input power times efficiency no longer gives output power; with a motor override, deriving again changes the input powers.)", "quantifier": "all positive efficiency maps and all x", "why_tests_cant": "All maps of any length.", "anchors": ["python/fastsim/vehicle.py::Vehicle.set_fcPeakEff", "python/fastsim/vehicle.py::Vehicle.get_fcPeakEff", "python/fastsim/vehicle.py::Vehicle.set_mcPeakEff", "python/fastsim/vehicle.py::Vehicle.get_mcPeakEff"]}
{"id": "C39", "title": "Copying and comparing vehicles, cycles and parameters", "statement": "Cycles, simulation parameters and physical properties: a copy has every value of the original and compares equal; equality holds exactly when all values agree (hence reflexive, symmetric, transitive); a cycle is read from a dictionary independently of the order of entries and of old or new column names, with flat road and empty name as defaults, and unknown columns are rejected. Vehicles: a vehicle described without arrays of its own and without a motor-peak override is copied exactly, derived attributes included; equality is reflexive and symmetric and holds exactly when everything but the mass override agrees (arrays to 1e-6). Refuted: copies of vehicles lose custom efficiency maps, breakpoints and peaks set by hand, and raise for custom engine types; veh_equal ignores the mass override and is not transitive; legacy copies always raise.", "quantifier": "all objects", "why_tests_cant": "All field combinations.", "anchors": ["python/fastsim/cycle.py::copy_cycle", "python/fastsim/cycle.py::cyc_equal", "python/fastsim/cycle.py::Cycle.to_dict", "python/fastsim/cycle.py::Cycle.from_dict", "python/fastsim/vehicle.py::copy_vehicle", "python/fastsim/vehicle.py::veh_equal", "python/fastsim/simdrive.py::copy_sim_params", "python/fastsim/simdrive.py::sim_params_equal"]}
{"id": "C40", "title": "Label fuel economy is a weighted mean", "statement": "For conventional and hybrid vehicles the combined simulated and adjusted economies are the 55/45 harmonic means of the city and highway values and lie between them; adjusted values follow from simulated ones monotonically by the coefficients of the model year and are lower. For battery-electric vehicles economies are zero, adjusted battery-side consumption is at least the simulated one and at most the simulated one over (1 - max_epa_adj), wall-side consumption is that over the charging efficiency, and the range is the battery energy over the combined adjusted consumption.", "quantifier": "all positive city and highway results", "why_tests_cant": "Continuum of inputs.", "anchors": ["python/fastsim/simdrivelabel.py::get_label_fe", "python/fastsim/parameters.py::PhysicalProperties"]}
{"id": "C41", "title": "Label results have the same keys for every powertrain", "statement": "The set of keys of get_label_fe's result depends on the powertrain only, whatever the simulations return; every key of a conventional vehicle's result is there for every powertrain. (Disagreement: netRangeMiles and adjCombEssKwhPerMile are missing for conventional and hybrid vehicles: a missing comma fuses the two into one key.)", "quantifier": "all powertrain types and options", "why_tests_cant": "Output keys of a function of the powertrain type and option combinations.", "anchors": ["python/fastsim/simdrivelabel.py::get_label_fe"]}
{"id": "C42", "title": "Log level is restored", "statement": "suppress_logging restores the previous fastsim log level on normal and exceptional exit, for any nesting of suppressions, provided that level is one of those the library accepts. (Refuted for other levels: restoring raises AssertionError and logging stays off. set_log_level('NONE') is accepted by the check but raises KeyError.)", "quantifier": "all nestings of with-blocks, all initial levels, exceptions at any point", "why_tests_cant": "All nestings and exception points.", "anchors": ["python/fastsim/utils/utilities.py::suppress_logging", "python/fastsim/utils/utilities.py::set_log_level", "python/fastsim/utils/utilities.py::disable_logging", "python/fastsim/utils/utilities.py::enable_logging"]}
{"id": "C43", "title": "Path-based attribute access obeys the lens laws", "statement": "For a path whose containers are all reachable and resettable, and whose last attribute is not itself passed on the way: after set_attr_with_path(obj, path, v), get_attr_with_path(obj, path) is v; setting what is already there changes nothing; the second of two sets wins; no other attribute of any object changes; set_attrs_with_path applies its dictionary in order; a path that leads nowhere raises AttributeError and changes nothing. (Without the conditions the law is refuted: a container without reset_orphaned, such as PhysicalProperties, makes the write raise AttributeError, with the value stored or not depending on the depth.)", "quantifier": "all object trees, all paths of any depth, all values", "why_tests_cant": "Depth of paths and trees is unbounded.", "anchors": ["python/fastsim/utils/utilities.py::set_attr_with_path", "python/fastsim/utils/utilities.py::get_attr_with_path", "python/fastsim/utils/utilities.py::set_attrs_with_path", "python/fastsim/utils/utilities.py::get_containers_with_path"]}
{"id": "C44", "title": "Resampled rate signals conserve their integral", "statement": "resample of a rate signal to a new time base conserves the integral: at every new time the sum of new rate times new step equals the cumulative old integral up to that time, and each new rate lies within the bounds of the old ones; other signals are interpolated, stay within bounds and agree at shared times. (Columns named in hold_vars are dropped, and what comes after the last multiple of the new step is lost.)", "quantifier": "all signals, all monotone time bases", "why_tests_cant": "Induction over arbitrary time bases.", "anchors": ["python/fastsim/resample.py::resample"]}
{"id": "C45", "title": "Calibration error is a distance", "statement": "get_error_val is non-negative, zero exactly when model and test agree at all samples, symmetric in model and test, satisfies the triangle inequality, scales with the signals, lies between the smallest and the largest absolute deviation, and does not depend on the unit or origin of time; signals of unequal length raise AssertionError.", "quantifier": "all signals of equal length on strictly increasing times, at least two samples", "why_tests_cant": "All signals of any length.", "anchors": ["python/fastsim/calibration.py::get_error_val"]}
{"id": "C46", "title": "Derived efficiency curves stay inside the map", "statement": "All efficiencies of a vehicle that can be built lie in [0, 1). Without overrides the derived engine and motor efficiencies lie between the smallest and the largest map value (0 at zero motor power); tabulated powers run from 0 to the rating and strictly increase, the motor's input powers too for the built-in map; with default breakpoints the engine's peak is the largest map value; max_fc_eff_kw is a power of highest efficiency; looking up the engine efficiency at a power takes the entry of the largest tabulated power not above it.", "quantifier": "all vehicles and maps of any length", "why_tests_cant": "Piecewise-linear interpolation over all maps and powers.", "anchors": ["python/fastsim/vehicle.py::Vehicle.set_derived", "python/fastsim/simdrive.py::SimDrive.set_fc_power"]}
{"id": "C47", "title": "Initial state of charge selection", "statement": "sim_drive starts a run at the given init_soc if the vehicle is conventional or init_soc lies in [min_soc,max_soc] and otherwise raises ValueError; without init_soc it starts conventional vehicles at mid-window and plug-in and electric ones at max_soc, and these defaults lie within [min_soc,max_soc]. (Refuted for HEV balancing: the library clips its own next guess to [0,1] instead of the window, so its own iteration can raise.)", "quantifier": "all vehicles, all init_soc values", "why_tests_cant": "All combinations of soc window and start values.", "anchors": ["python/fastsim/simdrive.py::SimDrive.sim_drive", "python/fastsim/simdrive.py::SimDrive.init_for_step"]}
{"id": "C48", "title": "Eco-cruise activation is validated", "statement": "activate_eco_cruise accepts exactly the documented parameter combinations (non-negative extension fraction; by microtrip also a blend factor in [0,1] and a non-negative minimum speed) and raises TypeError otherwise; on success the car-following mode is on, the desired speed is the mean speed of the trace or the table is the eco-cruise table of the trace, and both traces are extended by standing time for the requested fraction. (Refuted: a rejected call is without effect - it leaves the car-following mode switched on; refuted: a whole-trace call after a by-microtrip call takes effect - the old table stays in force; a standing trace is accepted by microtrip and then every step raises IndexError.)", "quantifier": "all parameter combinations", "why_tests_cant": "All combinations of mode, blend factor and minimum target speed.", "anchors": ["python/fastsim/simdrive.py::SimDrive.activate_eco_cruise"]}
{"id": "C49", "title": "Recorded road-load powers belong to the speed driven", "statement": "After a run, the drag, acceleration, ascent and rolling powers recorded for each step, and the power at the wheels that is their sum plus the tire inertia, are those of the speed the vehicle is reported to have achieved. So, over a run whose steps all get the transmission output they ask for, the energy the transmission delivers equals the losses plus the gain in potential and kinetic energy. (Disagreement: with missed-trace correction on, a re-solved step whose earlier solution used the speed search is checked at the earlier speed and then granted the trace speed; a car can gain 300 kJ from under 60 kJ.)", "quantifier": "all vehicles, traces, starting charges and driving modes without missed-trace correction; for runs with it, the exact exception", "why_tests_cant": "The records are produced by a search whose number of rounds depends on vehicle and trace, and go stale only after a step is solved twice.", "anchors": ["python/fastsim/simdrive.py::SimDrive.set_power_calcs", "python/fastsim/simdrive.py::SimDrive.set_ach_speed", "python/fastsim/simdrive.py::SimDrive.set_time_dilation"]}
{"id": "C50", "title": "Fuel storage rating", "statement": "The power rating and ramp time of the fuel storage (fs_max_kw, fs_secs_to_peak_pwr) have no effect on a run: speeds, charge, fuel and every record but cur_max_fs_kw_out are the same whatever they are, in every driving mode. The fuel power drawn is bounded by fc_max_kw over the lowest efficiency of the fuel converter map instead. (Disagreement: cur_max_fs_kw_out is documented as the available power but storage rated 10 kW delivers more than 20 kW.)", "quantifier": "all vehicles, all values of the two parameters, all traces, all driving modes", "why_tests_cant": "Non-interference between two runs of arbitrary length.", "anchors": ["python/fastsim/simdrive.py::SimDrive.set_comp_lims", "python/fastsim/simdrive.py::SimDrive.set_fc_power", "python/fastsim/vehicle.py::Vehicle"]}
{"id": "C51", "title": "A simulation run completes or rejects its state of charge", "statement": "Running a simulation on a non-empty cycle either completes or raises the ValueError about the initial state of charge, for every vehicle, override of accessory loads and driving mode, provided the car-following speed table is not empty, the coasting brake deceleration is negative and, when coasting, the steps are shorter than two seconds and trace-miss correction is off. It always completes if the initial state of charge is inside the vehicle's window, or is not given and the vehicle is not a hybrid. Without these conditions runs raise IndexError or divide by zero.", "quantifier": "all cycles, vehicles, parameters, initial states of charge, driving modes", "why_tests_cant": "Absence of exceptions over all inputs and all run lengths.", "anchors": ["python/fastsim/simdrive.py::SimDrive.sim_drive", "python/fastsim/simdrive.py::SimDrive.sim_drive_walk", "python/fastsim/simdrive.py::SimDrive.sim_drive_step", "python/fastsim/simdrive.py::SimDrive._set_coast_speed"]}
{"id": "C52", "title": "Coasting starts exactly when it would carry the vehicle to the next stop", "statement": "With coasting allowed and no start speed set, a moving vehicle that is not coasting starts to coast in a step exactly if it is at least at the brake start speed, a coasting distance exists, that distance reaches the next stop of the lead trace, and that stop is at least four braking distances away. With a start speed set, it starts exactly if the trace speed reaches it. On a road of one grade ahead the coasting distance is the exact distance of the free coast-down to the brake start speed under slope, rolling resistance and drag, plus the braking distance from there. In all other cases the planned speeds are not changed.", "quantifier": "all vehicles, parameters, cycles, positions and speeds", "why_tests_cant": "The closed form must agree with the integral of the equation of motion for all parameters; tests compare single numbers.", "anchors": ["python/fastsim/simdrive.py::SimDrive._should_impose_coast", "python/fastsim/simdrive.py::SimDrive._calc_distance_to_stop_coast_v2", "python/fastsim/simdrive.py::SimDrive._set_coast_speed"]}
{"id": "C53", "title": "A replanned coast still stops at the next stop, as smoothly as possible", "statement": "When a coasting vehicle misses its planned speed and a new plan is made, on one-second steps, the new plan leads to the point where braking from the brake start speed just reaches the nearest stop of the lead trace, arrives there with that speed, keeps its acceleration inside the given range and never lets it fall; it then brakes to standstill at the stop. Only the samples of the plan are changed and exactly they are flagged. Among all such plans within the cycle and the time horizon it has the smallest spread of accelerations, and if one exists a plan is found.", "quantifier": "all cycles with one-second steps, positions, speeds, acceleration limits and horizons", "why_tests_cant": "Optimality and existence quantify over all candidate plans; arrival must be exact for all inputs.", "anchors": ["python/fastsim/simdrive.py::SimDrive._calc_next_rendezvous_trajectory", "python/fastsim/simdrive.py::SimDrive._set_coast_speed"]}
{"id": "C54", "title": "After a coast to standstill the vehicle rejoins the lead trace at the closest stop", "statement": "When coasting ends in standstill more than 0.1 m away from the lead vehicle and car following is off, the steps from then on drive the lead trace from its stop closest to where the vehicle stands: a vehicle ahead of the lead waits until the lead arrives at that stop, a vehicle behind it follows with a fixed delay. Of equally close stop samples the last one is taken if the vehicle is behind, else the first. In all other cases every step drives its own sample of the trace.", "quantifier": "all lead traces that do not go backwards, positions and steps", "why_tests_cant": "The search ends early; that it still finds the closest stop for every trace is a universal claim.", "anchors": ["python/fastsim/simdrive.py::SimDrive._set_coast_delay", "python/fastsim/simdrive.py::SimDrive._set_coast_speed"]}
{"id": "C55", "title": "Tire codes are read as written", "statement": "calculate_tire_radius reads every code made of an optional single front letter, a width, a slash, an aspect ratio, a construction letter or separator and a rim diameter as exactly those numbers, whatever follows, and returns half the rim diameter plus the sidewall. Codes that begin with two letters (LT, ST), although documented, always raise ValueError. A code with a blank before the construction letter is read wrongly: the last digit of the aspect ratio is taken for the rim.", "quantifier": "all character strings of the described shape, of any length", "why_tests_cant": "Backtracking of the regular expression over strings of any length; a test tries a handful of codes.", "anchors": ["python/fastsim/utils/utilities.py::calculate_tire_radius"]}
{"id": "C56", "title": "Label of a plug-in hybrid weighs electric and other driving by the utility factor", "statement": "When the usable battery energy lasts for n >= 1 whole cycles and part of another, get_label_fe reports for each cycle: fuel per mile = the share of driving in the transition cycle times the fuel of its non-electric part plus the share beyond the range times charge-sustaining fuel; electric energy per mile within the range as the share-weighted mean; adjusted range shorter than the simulated one by no more than max_epa_adj; adjusted figures by the same weights at the adjusted distances. Combined figures are 55/45 means, UF is the share of the combined adjusted range, and netRangeMiles is that range plus what the remaining fuel allows. (Disagreements: fuel burnt while depleting is ignored; a whole number of cycles raises ValueError; less than one cycle gives nan; ranges beyond the table raise ValueError.)", "quantifier": "all simulation results, all tables of shares, all vehicles", "why_tests_cant": "Continuum of consumptions and battery sizes, any number of whole cycles.", "anchors": ["python/fastsim/simdrivelabel.py::get_label_fe", "python/fastsim/resources/longparams.json"]}
{"id": "C57", "title": "Time to 60 mph", "statement": "For an acceleration run with non-decreasing speed, netAccel is the time at which the straight line between the two samples around 60 mph reaches 60 mph; a vehicle that stays below 60 mph gets 1000 s.", "quantifier": "all acceleration traces", "why_tests_cant": "Continuum of traces of any length.", "anchors": ["python/fastsim/simdrivelabel.py::get_label_fe"]}
{"id": "C58", "title": "Results so far do not depend on the rest of the trace", "statement": "Without coasting (and with car following on level roads when desired speeds are given), for a given initial state of charge: had the cycle ended after n samples, every per-step record, accessory load and dilated time of those samples would be the same; so two traces with a common start give the same results for it, with or without missed-trace correction. (Disagreement: with an accessory override, a load in the last second changes the fuel of the first; car following without a desired speed aims at the maximum over the whole trace.)", "quantifier": "all vehicles, cycles, prefix lengths and initial charges; any rounding", "why_tests_cant": "Relates runs on cycles of arbitrary length and arbitrary continuation.", "anchors": ["python/fastsim/simdrive.py::SimDrive.sim_drive", "python/fastsim/simdrive.py::SimDrive.sim_drive_step", "python/fastsim/simdrive.py::SimDrive.set_misc_calcs", "python/fastsim/simdrive.py::SimDrive.set_time_dilation"]}
{"id": "C59", "title": "Copies of a simulation are independent", "statement": "A copy made by copy_sim_drive at any moment shows the state of the original and leaves the original as it was. After a deep copy, stepping and restarting the original and the copy in any order leaves each exactly as if it had been driven alone from the moment of the copy, in every driving mode. (Disagreement: after a copy with deep=False the two share all arrays of results, so steps of one overwrite the records of the other while its step counter stays; restarting either ends the sharing.)", "quantifier": "all simulations, moments of copying and interleavings of steps and restarts; vehicles that copy_vehicle copies exactly (C39); any rounding", "why_tests_cant": "Interleavings of two objects of arbitrary length.", "anchors": ["python/fastsim/simdrive.py::copy_sim_drive", "python/fastsim/simdrive.py::SimDrive.init_arrays", "python/fastsim/simdrive.py::SimDrive.init_for_step", "python/fastsim/simdrive.py::SimDrive.sim_drive_step", "python/fastsim/cycle.py::copy_cycle"]}
{"id": "C60", "title": "Peak acceleration and deceleration of a cycle", "statement": "For at least two samples with increasing times, peak_acceleration is the least number that bounds the mean acceleration between any two samples, however far apart, and some single step reaches it; peak_deceleration is the greatest number below all of them, also reached. A cycle that ends at the speed it starts with has peak_deceleration <= 0 <= peak_acceleration. Fewer than two samples raise ValueError.", "quantifier": "all cycles with increasing times", "why_tests_cant": "All pairs of samples of cycles of any length.", "anchors": ["python/fastsim/cycle.py::peak_acceleration", "python/fastsim/cycle.py::peak_deceleration", "python/fastsim/cycle.py::accelerations"]}
{"id": "C61", "title": "Gap to the lead vehicle", "statement": "With car following or coasting on, gap_to_lead_vehicle_m at every simulated sample is the distance of the lead trace minus the distance covered at the achieved speeds, plus the minimum gap when car following; it starts at the minimum gap (zero otherwise), does not change in later steps, and for a non-negative minimum gap it is exactly the gap the driver model acts on in the following step. (Disagreement: in plain runs it is zero throughout, even when the vehicle falls behind the trace.)", "quantifier": "all vehicles, cycles, parameters and runs, complete or not", "why_tests_cant": "Relates every step of runs of any length to the property read afterwards.", "anchors": ["python/fastsim/simdrive.py::SimDrive.gap_to_lead_vehicle_m", "python/fastsim/simdrive.py::SimDrive._next_speed_by_idm", "python/fastsim/simdrive.py::SimDrive.sim_drive_step"]}
{"id": "C62", "title": "The time at which a trace starts does not matter", "statement": "Adding a constant to all time stamps of a drive cycle changes nothing in a simulation except that all recorded time stamps are moved by that constant: the same exception is raised or the same per-step results are recorded, for every vehicle and every driving mode, provided the trace starts at standstill wherever distances from the start are used (trace-miss correction, desired speed by distance). Of the totals only the accessory energy depends on the clock.", "quantifier": "all cycles, all offsets, all vehicles, parameters, driving modes, initial charges and accessory overrides", "why_tests_cant": "Test cycles all start at time zero; the claim relates pairs of runs for every offset and every trace.", "anchors": ["python/fastsim/simdrive.py::SimDrive.sim_drive", "python/fastsim/simdrive.py::SimDrive.set_time_dilation", "python/fastsim/simdrive.py::SimDrive.set_post_scalars", "python/fastsim/cycle.py::Cycle.dt_s", "python/fastsim/cycle.py::Cycle.dist_m"]}
{"id": "C63", "title": "Battery and motor data have no effect on a vehicle without them", "statement": "For a conventional vehicle whose motor and battery power ratings are zero, the remaining battery and motor attributes (capacity, efficiencies, efficiency maps, charge limits, regenerative braking and acceleration buffer data, engine start thresholds) and the initial state of charge passed to sim_drive do not influence the run: the same exception is raised, or achieved speeds, distances, road loads, engine power, fuel use and all figures derived from them are identical.", "quantifier": "for all such vehicles, all values of the other electric attributes, all initial charges, all cycles, accessory overrides and driving modes", "why_tests_cant": "A test compares a few vehicles; leftover attribute values are unbounded and interact with every one of the five solver stages.", "anchors": ["python/fastsim/simdrive.py::SimDrive.sim_drive", "python/fastsim/simdrive.py::SimDrive.set_comp_lims", "python/fastsim/simdrive.py::SimDrive.set_hybrid_cont_decisions", "python/fastsim/vehicle.py::Vehicle.set_derived"]}
{"id": "C64", "title": "Engine and fuel data have no effect on a battery-electric vehicle", "statement": "For a battery-electric vehicle (engine power zero) the remaining engine and fuel storage attributes (ramp times, efficiency map, minimum on-time, idle power, start thresholds, storage rating) do not influence the run: the same exception is raised, or every record of every step, including the state of charge, is identical except the record of the fuel storage limit and the engine timer and forced state.", "quantifier": "for all such vehicles, all values of the engine attributes, all initial charges, cycles, accessory overrides and driving modes", "why_tests_cant": "Leftover attribute values are unbounded and the controller reads several of them on rare branches only.", "anchors": ["python/fastsim/simdrive.py::SimDrive.sim_drive", "python/fastsim/simdrive.py::SimDrive.set_hybrid_cont_calcs", "python/fastsim/simdrive.py::SimDrive.set_fc_power", "python/fastsim/vehicle.py::Vehicle.set_derived"]}
{"id": "C65", "title": "Vehicles are loaded as they are written", "statement": "Loading a vehicle from a table (from_vehdb, from_file, from_df) or a dictionary (from_dict) gives a vehicle with the written data: cells that hold numbers, percentages, truth values or words are read as such; every plain number arrives unchanged under its new or its old column name; texts, whole numbers, switches, lists and peak efficiencies in (0, 1) arrive; an empty stop-start cell, mass override, year or engine map takes its documented default. Every complete dictionary is accepted, and a load that succeeds gives a vehicle with all attributes, a known powertrain type and matching list lengths.", "quantifier": "for all tables and dictionaries with any number of rows and any values, all readers of numbers and lists", "why_tests_cant": "Tables differ in columns, old and new names, empty cells and free text; the shipped database exercises a single layout.", "anchors": ["python/fastsim/vehicle.py::clean_data", "python/fastsim/vehicle.py::Vehicle.from_df", "python/fastsim/vehicle.py::Vehicle.from_dict", "python/fastsim/vehicle_base.py::keys_and_types", "python/fastsim/vehicle_base.py::NEW_TO_OLD"]}
{"id": "C66", "title": "Loading vehicles is repeatable", "statement": "Loading vehicles from one table in any number and order, including the same vehicle again and loads that fail, does not change what any vehicle of that table is loaded as, although every load rewrites its row in the shared table.", "quantifier": "for all tables, all finite sequences of earlier loads, all vehicle numbers", "why_tests_cant": "The state that could go wrong is a module-level table shared by all calls of a process; the number of call sequences is unbounded.", "anchors": ["python/fastsim/vehicle.py::Vehicle.from_vehdb", "python/fastsim/vehicle.py::Vehicle.from_df", "python/fastsim/vehicle.py::clean_data", "python/fastsim/vehicle.py::DEFAULT_VEHDF"]}
{"id": "C67", "title": "Low charge hands the accessories to the engine until a margin is refilled", "statement": "In every step, the accessory load of a vehicle with battery and combustion engine is drawn from the engine if the accessories are not electric or if the charge has fallen below min_soc and has not since reached min_soc plus perc_high_acc_buf; otherwise from the battery; never from both.", "quantifier": "for all vehicles, cycles and driving options, all steps and all histories of the charge", "why_tests_cant": "The state is a latch that depends on the whole history of the charge, of any length.", "anchors": ["python/fastsim/simdrive.py::SimDrive.set_misc_calcs", "python/fastsim/simdrive.py::SimDrive.set_hybrid_cont_decisions", "python/fastsim/simdrive.py::SimDrive.set_fc_power"]}
{"id": "C68", "title": "The motor stays within its momentary limits", "statement": "The electricity available to the motor is what battery (and fuel cell) can give less the accessories; the motor's momentary limit is its rating, its ramp and what its map makes of that electricity; the motor never delivers more than its limit (apart from the granularity of its map) nor recuperates more than battery, accessories and rating allow, as long as electricity is available at all.", "quantifier": "for all vehicles with an ordered motor map, all cycles, all steps of a run", "why_tests_cant": "Limits depend on map look-ups, the previous step and the charge; violations occur at boundary values only.", "anchors": ["python/fastsim/simdrive.py::SimDrive.set_comp_lims", "python/fastsim/simdrive.py::SimDrive.set_power_calcs", "python/fastsim/simdrive.py::SimDrive.set_hybrid_cont_decisions"]}
{"id": "C69", "title": "The motor loses energy in both directions", "statement": "In every step the electric power of the motor is its mechanical power divided by an efficiency of its map when driving and multiplied by one when recuperating; so power is lost in both directions and never gained.", "quantifier": "for all vehicles with efficiencies in (0, 1], all cycles and steps", "why_tests_cant": "Efficiencies come from table look-ups at any power.", "anchors": ["python/fastsim/simdrive.py::SimDrive.set_hybrid_cont_decisions"]}
{"id": "C70", "title": "Charge kept free for braking and kept back for acceleration", "statement": "The capacity a hybrid keeps free is exactly the energy it could recover from the speed of the trace (at most the usable window), the charge it keeps back falls with the square of the speed to nothing at max_accel_buffer_mph; both thresholds lie in the window and move monotonically with the speed; the recorded powers to reach them move exactly the missing energy within the step, up to the battery's limits.", "quantifier": "for all vehicles with plausible data, all cycles and steps", "why_tests_cant": "Formulas with clipping at several places, over all speeds and vehicles.", "anchors": ["python/fastsim/simdrive.py::SimDrive.set_hybrid_cont_calcs"]}
{"id": "C71", "title": "When a hybrid drives on electricity alone", "statement": "A step is driven on electricity alone exactly if the charge is above the acceleration reserve, the motor can deliver the driveline power, the electricity needed is available and not above kw_demand_fc_on, and the trace is not faster than mph_fc_on; then (engine not forced on, accessories on the battery) the engine delivers and burns nothing and the motor delivers what the driveline takes in. The battery power planned for such a step is what driveline and accessories take, or what brings the charge back between the reserves, within the limits of the battery; it is nil for all other steps.", "quantifier": "for all vehicles, cycles and steps", "why_tests_cant": "A conjunction of thresholds over continuous quantities.", "anchors": ["python/fastsim/simdrive.py::SimDrive.set_hybrid_cont_calcs", "python/fastsim/simdrive.py::SimDrive.set_hybrid_cont_decisions", "python/fastsim/simdrive.py::SimDrive.set_fc_power"]}
{"id": "C72", "title": "Engine and motor share the demand", "statement": "In a step not driven on electricity alone, engine and motor together deliver what the driveline takes in; more only if the motor alone delivers more, in which case the engine delivers nothing. For a fuel-cell vehicle, fuel cell and battery together supply motor and accessories exactly unless both limits are exceeded.", "quantifier": "for all hybrids, cycles and steps", "why_tests_cant": "The split is the outcome of nested minima and maxima over many limits.", "anchors": ["python/fastsim/simdrive.py::SimDrive.set_power_calcs", "python/fastsim/simdrive.py::SimDrive.set_hybrid_cont_decisions", "python/fastsim/simdrive.py::SimDrive.set_fc_power"]}
{"id": "C73", "title": "A running engine steers the charge into its window", "statement": "With default parameters, the battery power requested while the engine runs is the power that takes the charge within the step to the nearest point of the band between acceleration reserve and braking room (their middle if they overlap), within the limits of battery, motor and accessories; the motor follows the request unless the engine needs more help.", "quantifier": "for all hybrids, cycles and steps with positive duration", "why_tests_cant": "Five branches with nested clipping over continuous quantities.", "anchors": ["python/fastsim/simdrive.py::SimDrive.set_hybrid_cont_calcs", "python/fastsim/simdrive.py::SimDrive.set_hybrid_cont_decisions"]}
{"id": "C74", "title": "Battery power to move the engine towards its best efficiency", "statement": "With both shares at zero (default) no battery power is requested for the engine's efficiency. Otherwise the amount is the distance of the transmission output from the best-efficiency power, at an efficiency of the motor map, times the share. The direction is the opposite of the documented one: below the best power the battery is discharged.", "quantifier": "for all hybrids, cycles and steps", "why_tests_cant": "The default parameters switch the feature off, so tests on shipped vehicles never exercise it.", "anchors": ["python/fastsim/simdrive.py::SimDrive.set_hybrid_cont_calcs", "python/fastsim/simdrive.py::SimDrive.set_hybrid_cont_decisions"]}
{"id": "C75", "title": "Recorded wheel speed and spare traction power", "statement": "In every step the recorded wheel speed times the wheel radius is the achieved speed, and recorded spare traction power plus requested traction power is the traction limit.", "quantifier": "for all vehicles, cycles and steps without trace-miss correction and driving modes", "why_tests_cant": "The achieved speed may come from an iteration.", "anchors": ["python/fastsim/simdrive.py::SimDrive.set_power_calcs", "python/fastsim/simdrive.py::SimDrive.set_ach_speed"]}
{"id": "C76", "title": "Recorded road load and coast-down coefficients", "statement": "In a step driven at constant speed on a level road, with standard air density and gravity, recorded aerodynamic plus rolling resistance divided by the speed equals the coast-down polynomial with the coefficients that drag_coeffs_to_abc computes for the vehicle. The error minimised by abc_to_drag_coeffs(simdrive_optimize=True) depends, when the run keeps to its trace, only on the trace, mass, frontal area, air density, gravity and the two coefficients tried, and it is positive for every pair of coefficients.", "quantifier": "for all vehicles, cycles on the level, coefficients and runs without trace-miss correction and driving modes", "why_tests_cant": "A coast-down test fixes one vehicle and one tolerance; that the powertrain has no influence on the fit is a statement about all vehicles.", "anchors": ["python/fastsim/auxiliaries.py::abc_to_drag_coeffs", "python/fastsim/auxiliaries.py::drag_coeffs_to_abc", "python/fastsim/simdrive.py::SimDrive.set_power_calcs"]}
{"id": "C77", "title": "Imposed coasting", "statement": "In a step flagged in impose_coast no power is delivered to the wheels. Flags, result arrays, accessory loads and counters written before sim_drive have no effect on the run.", "quantifier": "for all vehicles, cycles, flags and array contents", "why_tests_cant": "A test sets one array; the claim covers every array content and every vehicle.", "anchors": ["python/fastsim/simdrive.py::SimDrive.set_comp_lims", "python/fastsim/simdrive.py::SimDrive.init_arrays", "python/fastsim/simdrive.py::SimDrive.sim_drive", "python/fastsim/auxiliaries.py::abc_to_drag_coeffs"]}
{"id": "C78", "title": "A run can be interrupted while the powertrain rests", "statement": "A simulated step depends on the step before only through achieved speed, state of charge, stored energy, motor, engine and fuel power, engine-on time and the accessory latch. If at some index motor, engine and fuel power and engine-on time are zero and the latch is open, and the trace has been met there, then simulating the rest of the cycle on its own from the state of charge reached gives the same results for the remaining indices, and distance and fuel of the two parts add up to those of the whole.", "quantifier": "for all vehicles, cycles and interruption points, without trace-miss correction and driving modes", "why_tests_cant": "A test compares one split of one cycle; the claim is about which state is carried over between steps.", "anchors": ["python/fastsim/simdrive.py::SimDrive.sim_drive_walk", "python/fastsim/simdrive.py::SimDrive.init_for_step", "python/fastsim/simdrive.py::SimDrive.solve_step", "python/fastsim/simdrive.py::SimDrive.set_post_scalars"]}
{"id": "C79", "title": "Standing still costs only the accessories", "statement": "In a step from standstill to standstill, on any slope, no power is needed at the wheels and no brake is applied. A vehicle without electric drive then runs its engine at the accessory load (up to the momentary engine limit); an electric car, or a hybrid driving on electricity alone, takes exactly the accessory load from the battery and uses no fuel. Parked for a whole cycle it takes from the battery the accessory energy divided by the one-way efficiency, and stays where it is.", "quantifier": "for all vehicles, cycles, slopes and accessory loads, without trace-miss correction and driving modes", "why_tests_cant": "It quantifies over all slopes, durations, vehicles and accessory loads.", "anchors": ["python/fastsim/simdrive.py::SimDrive.set_power_calcs", "python/fastsim/simdrive.py::SimDrive.set_hybrid_cont_decisions", "python/fastsim/simdrive.py::SimDrive.set_fc_power"]}
{"id": "C80", "title": "More resistance or accessory load never means less engine work", "statement": "In every step in which a conventional vehicle follows its trace, engine output is the road load, if positive, divided by the transmission efficiency, plus the accessory load. Hence of two runs over the same cycle that both follow it, the one with more drag coefficient, frontal area, air density, rolling resistance or accessory load delivers at least as much engine energy, and its fuel is at least that of the other divided by the ratio of the best and worst efficiency of the engine map.", "quantifier": "for all conventional vehicles, cycles, slopes, accessory loads and pairs of runs that follow the trace", "why_tests_cant": "Monotonicity compares all pairs of vehicles on all cycles.", "anchors": ["python/fastsim/simdrive.py::SimDrive.set_power_calcs", "python/fastsim/simdrive.py::SimDrive.set_fc_power"]}
{"id": "C81", "title": "Calibration objectives belong to the trips and signals they are labelled with", "statement": "If test data and models list their trips in the same order and every objective compares a different model signal with a column of test data, then the vector handed to the optimiser has n_obj entries, and each entry is the time-averaged error of the signal and trip named by the corresponding result column, computed from the model with exactly the parameter values tried. It is never negative and zero exactly if model and test data agree.", "quantifier": "for all numbers of trips, objectives and parameters, all signals and simulation classes", "why_tests_cant": "It quantifies over dictionaries of any size and any simulation behaviour.", "anchors": ["python/fastsim/calibration.py::ModelObjectives.get_errors", "python/fastsim/calibration.py::ModelObjectives.update_params", "python/fastsim/calibration.py::CalibrationProblem._evaluate", "python/fastsim/calibration.py::run_minimize"]}
{"id": "C82", "title": "Vehicle import data ends up in the archive of its model year", "statement": "Splitting the fueleconomy.gov tables by year loses, duplicates and reorders nothing: the vehicle file of a year holds the heading and exactly the rows of that year, the emission file exactly the rows whose identifier some vehicle of the year carries, and all other files of the directory are untouched. The split succeeds exactly if all years and identifiers are whole numbers. EPA test files go to the year from 1971 to 2070 that ends in their two digits, the last one found winning. The archive of a four-digit year holds exactly the csv files of that year.", "quantifier": "for all tables, headings (also repeated ones), directories, and lists of test files", "why_tests_cant": "It quantifies over tables of any size and any contents of the directories.", "anchors": ["python/fastsim/utils/vehicle_import_preproc.py::process_csv", "python/fastsim/utils/vehicle_import_preproc.py::sort_fueleconomygov_data_by_year", "python/fastsim/utils/vehicle_import_preproc.py::process_epa_test_data", "python/fastsim/utils/vehicle_import_preproc.py::create_zip_archives_by_year", "python/fastsim/utils/vehicle_import_preproc.py::run"]}
{"id": "C83", "title": "Vehicle database additions and model file export", "statement": "Adding a model file to the vehicle database in a new session keeps every vehicle and puts the new one behind them under a number no vehicle has (if the last one had the highest). Exporting the database as model files never overwrites a file, writes each vehicle to the file of its name, and repeating it changes nothing, provided all vehicles load, no name has a slash and no two share a file name.", "quantifier": "for all databases, model files, directories and vehicle names", "why_tests_cant": "It quantifies over databases and names of any size, and over sequences of calls within and across sessions.", "anchors": ["python/fastsim/utils/utilities.py::model_file_to_vehdb", "python/fastsim/utils/utilities.py::full_vehdb_to_model_files", "python/fastsim/utils/utilities.py::vehdb_entry_to_model_file"]}
{"id": "C84", "title": "The engine's efficiency curve decides fuel use only, and scales it as advertised", "statement": "Replacing the engine's efficiency curve (same powers, same power of best efficiency) or the fuel storage ratings changes nothing of a drive but the fuel: speeds, engine output, battery and motor powers, state of charge and friction braking of every step are the same. Multiplying all efficiencies by one factor divides fuel power, fuel energy and fuel used by that factor and multiplies mpgge by it; in particular `fc_peak_eff = x` multiplies mpgge by x over the old peak. A curve that is nowhere worse never uses more fuel in any step or run and never has a lower mpgge.", "quantifier": "every vehicle and curve, every cycle, all driving modes, every initial state of charge given by the caller (hybrids balanced by the simulation are excluded: the balancing reads the fuel used)", "why_tests_cant": "a test compares the fuel economy of a few vehicles; that the curve has no other influence is a statement about all vehicles, cycles and driving modes", "anchors": ["python/fastsim/simdrive.py::SimDrive.set_fc_power", "python/fastsim/simdrive.py::SimDrive.set_comp_lims", "python/fastsim/simdrive.py::SimDrive.set_post_scalars", "python/fastsim/vehicle.py::Vehicle.set_fcPeakEff", "python/fastsim/vehicle.py::Vehicle.max_fc_eff_kw"]}
{"id": "C85", "title": "Reported acceleration power is the change of kinetic energy", "statement": "Once a run is finished, accel_kw of every step is the change of the vehicle's kinetic energy between the two achieved speeds divided by the length of the step; over any stretch of the run it adds up to the kinetic energy gained, and over the whole run to minus ke_kj (to nothing if the vehicle ends as fast as it started). Without missed-trace correction these are the values the steps themselves used; with it they can differ, so that the reported powers of a step need not belong together.", "quantifier": "every vehicle, trace and driving mode; any stretch of steps of positive length", "why_tests_cant": "the sums telescope for every trace length; the array is rewritten after the run, so a check of the steps says nothing about the report", "anchors": ["python/fastsim/simdrive.py::SimDrive.set_post_scalars", "python/fastsim/simdrive.py::SimDrive.set_power_calcs"]}
{"id": "C86", "title": "Comparing and copying simulations", "statement": "sim_drive_equal on two simulations whose records are as long as their cycles and whose vehicle arrays have equal lengths raises nothing, whatever the lengths of the two cycles, and answers yes exactly if the vehicles (as veh_equal compares them), both cycles, all simulation parameters, the physical properties, the step and iteration counters and every per-step record agree. Attributes a new simulation lacks (the results computed after a run) and the cycle cache have no influence. A simulation compares equal to itself. copy_sim_drive keeps cycles, records, counters, results, parameters and properties, and the copy compares equal to the original exactly if the copied vehicle compares equal to the original one; for a hybrid with an efficiency map of its own it does not.", "quantifier": "every pair of simulation objects, cycles of any length, any values of records and parameters", "why_tests_cant": "a test compares a few objects; which attributes decide the answer, and that no length or value raises, needs all of them", "anchors": ["python/fastsim/simdrive.py::sim_drive_equal", "python/fastsim/simdrive.py::copy_sim_drive"]}
{"id": "C87", "title": "The label of a vehicle comes from its own simulations", "statement": "get_label_fe completes for every conventional vehicle with a non-empty charge window that burns fuel on both cycles. For conventional and hybrid vehicles whose runs finish, the laboratory economies are the miles driven per gallon equivalent burnt in the simulations, and the combined value gives the fuel for 55 city and 45 highway miles; with no fuel burnt on a cycle there is no label (ZeroDivisionError). For a battery-electric vehicle the laboratory use is the charge taken from the battery per mile, and the range times the combined adjusted use is the battery capacity. Setting another fc_peak_eff on a conventional vehicle multiplies laboratory economies by new over old peak, leaves netAccel unchanged, and raises adjusted economies by less than that factor. An efficiency curve that is nowhere worse lowers none of the six economies on the label of a conventional vehicle and leaves netAccel unchanged.", "quantifier": "every vehicle, pair of cycles and parameter set for which runs complete; every positive new peak efficiency", "why_tests_cant": "a test checks stored label values of a few vehicles; that label and simulations stay consistent, and how the label answers to a changed engine, concerns all vehicles and cycles", "anchors": ["python/fastsim/simdrivelabel.py::get_label_fe", "python/fastsim/simdrive.py::run_simdrive_for_accel_test"]}
{"id": "C88", "title": "camel_to_snake splits names at word boundaries", "statement": "camel_to_snake inserts an underscore between two characters exactly where the second is a capital and the first is a small letter or digit, or the second begins a capitalised word (any first character but a line break); it then makes letters small. Hence nothing but case and underscores changes, the result has no capitals, names without capitals are unchanged, applying it twice equals applying it once, and a first word followed by capitalised words becomes those words in small letters joined by underscores. It is not injective.", "quantifier": "every name (ASCII case conversion)", "why_tests_cant": "the test compares three names; two overlapping substitutions, of which the second sees the result of the first, behave alike on all names only by argument", "anchors": ["python/fastsim/utils/utilities.py::camel_to_snake"]}
{"id": "C89", "title": "rollav never returns", "statement": "For pandas series x and y, rollav raises whatever the data and width: AssertionError if the lengths differ, ValueError otherwise, because it concatenates the number 0 with an array (anything without a diff method already raises AttributeError). The rolling average its docstring promises is not available.", "quantifier": "all pandas series and widths", "why_tests_cant": "no test calls it; that no input works concerns all inputs", "anchors": ["python/fastsim/utils/utilities.py::rollav"]}
{"id": "C90", "title": "No run uses less energy than the road takes", "statement": "In a finished run without driving modes that meets its trace, a conventional vehicle's fuel energy times the best efficiency of its engine map is at least the energy taken at the wheels (drag_kj, ascent_kj, rr_kj and the gain of kinetic energy of vehicle and wheels) divided by trans_eff, plus aux_kj; mpgge is at most the value this implies. A hybrid's fuel and battery energy together, and a battery-electric vehicle's battery energy, are at least the energy at the wheels plus aux_kj (hybrid: engine never asked for more than it can give; battery-electric: accessories never dropped for low charge); battery_kwh_per_mi has the corresponding floor.", "quantifier": "every vehicle of the three kinds with efficiencies in (0,1], every trace with positive steps starting at time 0, every finished run that meets the trace", "why_tests_cant": "tests bound the audit error on a few vehicles and cycles; an inequality between reported energies for all vehicles and traces follows only from the balance of every step", "anchors": ["python/fastsim/simdrive.py::SimDrive.set_post_scalars", "python/fastsim/simdrive.py::SimDrive.solve_step"]}
{"id": "C91", "title": "The charge a battery-electric trip takes does not depend on the starting charge, and accessories add their energy to it", "statement": "While a battery-electric vehicle meets its trace and feels no limit (it can drive on the motor alone, the motor may brake as much as the controller asks, accessories are not dropped), its motor power in each step is the road load, or the motor's share of the braking, through the transmission: a function of speeds, grade and duration. So two runs on the same trace with the same accessories draw the same charge up to every moment and report the same battery_kwh_per_mi, whatever init_soc; with more accessory load the charge drawn grows at every moment, by the extra accessory energy times a factor between the square root of the round-trip efficiency and its inverse. With a full battery the first part is false.", "quantifier": "every battery-electric vehicle, trace, starting charges and accessory loads; every pair of finished runs in which no limit is felt", "why_tests_cant": "tests fix one starting charge per vehicle; that state of charge enters only through the limits is a statement about all pairs of runs", "anchors": ["python/fastsim/simdrive.py::SimDrive.set_power_calcs", "python/fastsim/simdrive.py::SimDrive.set_hybrid_cont_decisions", "python/fastsim/simdrive.py::SimDrive.set_post_scalars"]}
{"id": "C92", "title": "The fuel of a conventional vehicle is a sum over the legs of its trace", "statement": "A leg is what lies between two neighbouring samples of a trace: duration, speed at both ends, grade. For every conventional vehicle there is one table of fuel powers, with the efficiencies of its engine map, such that every run that meets its trace (sim_drive without coasting, car following and missed-trace correction, accessories from the vehicle) uses exactly the sum over the legs of the fuel for the positive road load through the transmission plus the accessories. So: another sample inside a stretch of constant speed and grade does not change the fuel; the fuel of trips joined with concat is the sum of the fuel of the trips, and trips between standstills can be joined in any order; a better transmission needs no more engine work, and strictly less if any leg asks for power. For hybrids the order does matter.", "quantifier": "every conventional vehicle, trace, list of trips, initial charge and hooks; every run that meets its trace", "why_tests_cant": "tests compare totals of fixed cycles; that the total splits into contributions of single legs and is invariant under refinement and reordering is a statement about all traces", "anchors": ["python/fastsim/simdrive.py::SimDrive.sim_drive", "python/fastsim/simdrive.py::SimDrive.set_power_calcs", "python/fastsim/simdrive.py::SimDrive.set_fc_power", "python/fastsim/cycle.py::concat"]}
{"id": "C93", "title": "Cycles and vehicles are loaded from the file their name stands for, and a vehicle is the same from its own file and from a database", "statement": "Cycle.from_file and Vehicle.from_file read the file in the working directory, and only if there is none the shipped one of that name; without either they raise ValueError; the suffix .csv may be left out; nothing but the contents of that file decides which vehicle it is. With a vehicle number the result is that of the row with that number, as with the database. A file of one vehicle (names in the second column, values under `Param Value`) is read as a table of one row, regardless of its comments, and gets number 0 even if it lists another one; the vehicle it gives can be loaded exactly if a database row with the same values can, in whatever order the columns are, and is the same vehicle but for its number. A cycle has the columns of its file, under present or old names, zeros for missing grade and road type, and the name of the file without directory and suffix; a file with text among its columns, such as the name that to_dict puts there, is not loaded.", "quantifier": "every name of a file, every content of the working directory and of the shipped files, every table, every reader of numerals", "why_tests_cant": "tests load a handful of shipped files; that the layout, the order of parameters, comments and other files have no influence is a statement about all files", "anchors": ["python/fastsim/cycle.py::Cycle.from_file", "python/fastsim/vehicle.py::Vehicle.from_file", "python/fastsim/vehicle.py::Vehicle.from_df"]}
{"id": "C94", "title": "Copied demos carry a warning, copying twice changes nothing, and nothing else is touched", "statement": "copy_demo_files puts every file of the demos directory whose name contains `demo` and ends in .py, but not those that also contain `test`, into the target directory, with one line in front that names the version it was copied from; every other file in the target directory stays as it was, and the target directory is only made if there is something to copy. Copying again gives the same directory (the line is not doubled). Copying into the directory of the demos itself is refused with AssertionError, and a package with a test that is not a demo with ValueError; nothing is changed then.", "quantifier": "every version, every list of files with distinct names and arbitrary contents, every content of the target directory", "why_tests_cant": "tests copy the shipped demos once into an empty directory; that other files and repeated copies are harmless concerns all directories", "anchors": ["python/fastsim/utils/utilities.py::copy_demo_files"]}
{"id": "C95", "title": "Simulations share their vehicle and nothing else, and a copied simulation shares nothing", "statement": "SimDrive(cyc, veh) copies the cycle and makes its own parameters and physical properties, but keeps the very vehicle it was given. So an edit of a vehicle, under whatever name, is seen by exactly the simulations that were given it; cycle, original cycle, parameters and physical properties of a simulation change only when that simulation is run or they are edited under its name, and the cycle a program made only when it is edited itself. Runs, new simulations and copies change no vehicle. After copy_sim_drive, the copy sees what the original saw, and nothing done to the original, its vehicle or anything else can be seen through it. Vehicles made without physical properties share one default object, so that an edit of the properties of one is seen in all of these (but in no simulation, and not in copied vehicles).", "quantifier": "every program of constructions, copies, runs, changes of vehicle and edits, of every length, and every name under which an object can be seen", "why_tests_cant": "aliasing shows only in particular sequences of constructions and edits; that there is no other sharing is a statement about all programs", "anchors": ["python/fastsim/simdrive.py::SimDrive.__init_objects__", "python/fastsim/simdrive.py::copy_sim_drive", "python/fastsim/vehicle.py::copy_vehicle", "python/fastsim/vehicle.py::Vehicle"]}
{"id": "C96", "title": "One step of the Rust core is one step of the python code, except for the fuel at full engine power", "statement": "SimDrive.to_rust runs the same simulation in the compiled core. For a vehicle whose tables are as set_derived builds them, a motor of at least a kilowatt or none, and driving as on the given cycle without charging from the road, one solved step of the compiled core returns without error and records in every array - limits, powers, the speed reached, every decision of the hybrid controller, battery power, state of charge, engine output - exactly what the python step records. Fuel power and fuel energy agree as well whenever the engine runs below the last power of its table. At the end of the table the python code uses the last entry of the efficiency curve and the compiled core the entry before it, so that the fuel differs unless the two entries are equal.", "quantifier": "all vehicles with such tables, all parameters, all states of the previous step, all speeds, step lengths, grades and accessory loads, and all results of an earlier solve of the step", "why_tests_cant": "the two programs are written separately with different formulas, lookups and error paths; that they agree for every vehicle and state cannot be sampled, and the difference at full power shows only in steps that saturate the engine", "anchors": ["rust/fastsim-core/src/simdrive/simdrive_impl.rs::RustSimDrive.solve_step", "rust/fastsim-core/src/utils.rs::first_grtr", "python/fastsim/simdrive.py::SimDrive.solve_step", "python/fastsim/simdrive.py::SimDrive.to_rust"]}
{"id": "C97", "title": "The Rust copy of a vehicle is the vehicle", "statement": "Vehicle.to_rust writes the inputs of a vehicle to a text, reads them into the compiled core and derives everything again there. For a built vehicle with standard gravity, no override of the motor's peak efficiency and strictly increasing breakpoints, to_rust fails exactly when an input is outside the ranges that the core checks. Otherwise the copy has every attribute of the vehicle - curves, motor tables, switches, masses, traction limit, peak efficiency, most efficient power - so a simulation reads the same values from both, and steps of the core with the copy are steps of the python code with the vehicle (C96). Copies always have a gravity of 9.81 m/s2, whatever the vehicle has, and their motor inputs follow an override of the motor's peak efficiency, which those of the vehicle do not.", "quantifier": "all vehicles, with any ratings, maps, breakpoints, masses and overrides", "why_tests_cant": "the two languages derive the attributes by different code (other interpolation, literal tables, other order of overrides and checks); equality for every input, and which inputs get lost on the way, is not a matter of samples", "anchors": ["python/fastsim/vehicle.py::Vehicle.to_rust", "python/fastsim/vehicle.py::copy_vehicle", "rust/fastsim-core/src/vehicle.rs::RustVehicle.set_derived", "rust/fastsim-core/src/vehicle.rs::RustVehicle.set_veh_mass", "rust/fastsim-core/src/utils.rs::interpolate", "rust/fastsim-core/src/params.rs::FC_PERC_OUT_ARRAY"]}
{"id": "C98", "title": "A run of the Rust core is the python run", "statement": "With trace-miss correction, coasting and car following off - the parameters of every simulation that SimDrive.to_rust makes - a whole run of the compiled core drives exactly as the python run: same speeds, powers, hybrid decisions, states of charge and engine outputs at every sample, and it fails exactly when python does. The only difference is the fuel of samples with the engine at the end of its power table (C96); with a falling efficiency there, the core never reports more fuel over the same miles. This holds for given initial states of charge and for the balancing rounds of hybrids whenever python finishes. After equal runs the core reports the same fuel economy, energies, audit error and trace misses, up to the sign of the time fraction of the trace miss, for cycles that start at time zero and cover a distance; without distance it refuses. An override of the accessory load of the wrong length, which python ignores, makes the core fail. to_rust forgets the simulation parameters and the state: running the copy is running a new simulation of the original cycle with default parameters.", "quantifier": "all vehicles with sane tables (RsOk), all cycles with non-decreasing time of any length, all overrides and initial states of charge", "why_tests_cant": "two independent programs in two languages; their agreement over whole runs of any length, and the exact list of exceptions, is not a matter of samples", "anchors": ["rust/fastsim-core/src/simdrive/simdrive_impl.rs::sim_drive", "rust/fastsim-core/src/simdrive/simdrive_impl.rs::walk", "rust/fastsim-core/src/simdrive/simdrive_impl.rs::init_for_step", "rust/fastsim-core/src/simdrive/simdrive_impl.rs::set_post_scalars", "rust/fastsim-core/src/simdrive.rs::RustSimDriveParams", "python/fastsim/simdrive.py::SimDrive.to_rust", "python/fastsim/simdrive.py::copy_sim_drive", "python/fastsim/simdrive.py::SimDrive.sim_drive"]}
{"id": "C99", "title": "Cycles of the Rust core are the python cycles", "statement": "Cycle.to_rust copies a cycle unchanged if it has samples and strictly increasing times, and fails otherwise. On such a cycle the compiled core computes what the python methods compute: trapezoidal distances per step, cumulative, up to a step, of a step and over a range; microtrips and their target speeds; constant-jerk coefficients, speeds, distances and edits of at least one step; the grade at a distance and the average grade over a range, with and without cache; elevation gain if time starts at zero; standing extensions by whole seconds; braking trajectories; the sample at which one vehicle passes another. The exceptions are: the next stop (the core wants it more than a micrometre away and slower than the tolerance, and without a stop answers with the end of the cycle where python answers with the way back to the start), halves, which the core rounds away from zero and python to the even neighbour in extensions and braking, a jerk edit of no steps (speed zero instead of the speed before), the collision flag of a vehicle that is behind (raised by the core, not by python), and the average grade over a long range of a sloped cycle without distance, for which the core panics.", "quantifier": "all cycles of any length (grades: with non-negative speeds), all distances, indices, tolerances, coefficients and fractions", "why_tests_cant": "two independent programs; rounding of halves, tolerances and fallbacks differ only in rare inputs, which a theorem has to name exactly", "anchors": ["rust/fastsim-core/src/cycle.rs::RustCycle", "rust/fastsim-core/src/cycle.rs::RustCycleCache", "rust/fastsim-core/src/cycle.rs::trapz_step_distances", "rust/fastsim-core/src/cycle.rs::extend_cycle", "rust/fastsim-core/src/cycle.rs::detect_passing", "rust/fastsim-core/src/cycle.rs::create_dist_and_target_speeds_by_microtrip", "rust/fastsim-core/src/utils.rs::interpolate", "python/fastsim/cycle.py::Cycle", "python/fastsim/cycle.py::copy_cycle"]}
{"id": "C100", "title": "Car following of the Rust core is that of the python code", "statement": "With car following on, coasting and trace-miss correction off, behind a lead cycle on a level road that starts at time zero with times that never decrease, sim_drive and sim_drive_walk of the compiled core give, for every vehicle the core accepts and every setting of the driver model (a fixed desired speed or a table by distance), the figures of the python run in every array at every sample, except for the fuel of an engine at full power (as in C96), and fail exactly when python fails. The gap to the lead vehicle is the same list. activate_eco_cruise leaves the same settings and the same extended cycle, or fails alike, unless the extension asked for is an odd number of half seconds, which the core rounds away from zero and python to the even neighbour. Behind a cycle that does not start at time zero the desired speed looked up by distance can differ, because python counts the first time as a step.", "quantifier": "all vehicles, level lead cycles of any length, parameters of the driver model, accessory overrides and initial states of charge (hybrids: one that is given)", "why_tests_cant": "two independent programs that feed their own output back as the next target; a difference in any step would spread over the rest of the run", "anchors": ["rust/fastsim-core/src/simdrive/cyc_mods.rs::next_speed_by_idm", "rust/fastsim-core/src/simdrive/cyc_mods.rs::set_speed_for_target_gap_using_idm", "rust/fastsim-core/src/simdrive/cyc_mods.rs::activate_eco_cruise_rust", "rust/fastsim-core/src/simdrive/cyc_mods.rs::gap_to_lead_vehicle_m", "rust/fastsim-core/src/simdrive/simdrive_impl.rs::step", "python/fastsim/simdrive.py::SimDrive.activate_eco_cruise", "python/fastsim/simdrive.py::SimDrive.sim_drive_step"]}
{"id": "C101", "title": "Eco-coasting of the Rust core is that of the python code on regular steps", "statement": "With eco-coasting on (car following on or off) and trace-miss correction off, on a level cycle that starts at time zero, sim_drive and sim_drive_walk of the compiled core give, for every vehicle the core accepts, the figures of the python run in every array at every sample, except for the fuel of an engine at full power (as in C96), and fail exactly when python fails, provided that every step is regular. A step is regular if the stop the vehicle heads for exists and is more than a micrometre ahead, no plan ends at exactly the distance braking needs, no braking takes a half number of steps, and a predicted collision is at least two steps ahead on a cycle with equal steps. Each rule of coasting (deceleration, plan, distance, decision, rendezvous, delay, collision avoidance, change of plan) is compared separately. Outside these conditions the programs differ: a vehicle beyond the end of its cycle makes the core panic where python decides not to coast; a meeting point that is already behind makes it panic where python answers; on a cycle that never stops python takes the start for the next stop and the core the end.", "quantifier": "all vehicles, level cycles of any length, coasting parameters with a negative brake acceleration and a brake speed that is not negative, accessory overrides and initial states of charge (hybrids: one that is given)", "why_tests_cant": "two programs of a thousand lines each that rewrite the cycle while it is driven and feed it back; agreement on sample cycles says nothing about ties, roundings and short cycles", "anchors": ["rust/fastsim-core/src/simdrive/cyc_mods.rs::set_coast_speed", "rust/fastsim-core/src/simdrive/cyc_mods.rs::generate_coast_trajectory", "rust/fastsim-core/src/simdrive/cyc_mods.rs::should_impose_coast", "rust/fastsim-core/src/simdrive/cyc_mods.rs::calc_next_rendezvous_trajectory", "rust/fastsim-core/src/simdrive/cyc_mods.rs::prevent_collisions", "rust/fastsim-core/src/simdrive/cyc_mods.rs::set_coast_delay", "python/fastsim/simdrive.py::SimDrive._set_coast_speed", "python/fastsim/simdrive.py::SimDrive._generate_coast_trajectory", "python/fastsim/simdrive.py::SimDrive._prevent_collisions"]}
{"id": "C102", "title": "The fuel economy label of the Rust core is the python label", "statement": "Whenever get_label_fe of the python code returns a label for a vehicle (conventional, hybrid, plug-in hybrid or battery-electric), get_label_fe of the compiled core returns a label for the same vehicle with the same laboratory and adjusted economies, energy uses, utility factor, ranges and time to 60 mph, provided the engine's last two efficiencies are equal (otherwise the label of the vehicle with the last one replaced by the one before) and the speed of the acceleration test rises strictly until it passes 60 mph or never reaches it. Given the same simulations, a label that the compiled core returns is the python label, unless python raises ValueError for a plug-in hybrid or ZeroDivisionError for a vehicle that burns no fuel on a cycle, where the compiled core reports zero economies. The utility factors agree up to the last entry of the table; beyond it python raises ValueError and the core takes the last entry but one. The core leaves combined battery energy and range zero where python has no such keys.", "quantifier": "all vehicles the core accepts, all pairs of cycles that start at time zero, do not go back in time and move, all tables whose last two shares are equal (the bundled one is), all years", "why_tests_cant": "the label is a long formula over simulations, tables and case distinctions (powertrain, year, number of whole depleting cycles, edge of the table) computed by two programs; tests compare a few vehicles within a tolerance", "anchors": ["rust/fastsim-core/src/simdrivelabel.rs::get_label_fe", "rust/fastsim-core/src/simdrivelabel.rs::get_label_fe_phev", "rust/fastsim-core/src/simdrivelabel.rs::get_net_accel", "rust/fastsim-core/src/simdrivelabel.rs::make_accel_trace", "rust/fastsim-core/src/utils.rs::interpolate_vectors", "python/fastsim/simdrivelabel.py::get_label_fe"]}
{"id": "C103", "title": "A thermal simulation drives as the plain one and burns the fuel of its temperatures", "statement": "SimDriveHot.walk without a cabin model completes whenever the simulation of the compiled core completes with the same cycle, vehicle, charge and accessory load, and has the same arrays except those of the fuel, whatever the temperatures are; with a cabin model it drives as the plain simulation with the accessory load that it ended with. In every step the fuel is zero if the engine gives no power, otherwise output / (map efficiency · fc_eta_temp_coeff of that entry of the history), so the plain fuel divided by the coefficient for outputs between the second map point and the end of the map. The coefficient is the clipped linear or exponential function of the engine (or catalyst) temperature in the history, between the minimum and one, and a warmer engine never burns more for the same output. The history has one entry for every sample, starts with the given state and ends with the state left; a second walk starts with the temperatures that the first left. (Disagreement: with the CatAndFC model the coefficient is not computed once the catalyst is lit off, so it stays at the cold value, or at zero after a hot start; with an external engine model it stays at the initial value, zero by default.)", "quantifier": "all vehicles, thermal vehicles, cycles, accessory loads, ambient temperatures and initial states; all functions exp and pow (monotone and non-negative exp for bounds)", "why_tests_cant": "the thermal simulation is a second copy of the time loop and of the fuel calculation; that temperatures leave the drive alone and that every step uses the coefficient of its own temperature concerns all runs, and the stale coefficient appears only for one component model above a temperature", "anchors": ["rust/fastsim-core/src/thermal.rs::SimDriveHot", "rust/fastsim-core/src/thermal.rs::set_fc_power", "rust/fastsim-core/src/thermal.rs::walk", "rust/fastsim-core/src/thermal.rs::set_misc_calcs", "rust/fastsim-core/src/vehicle_thermal.rs::VehicleThermal"]}
{"id": "C104", "title": "Every step climbs the reference road where the vehicle is", "statement": "With car following or coasting on (and without missed-trace correction) the powers recorded for a step are those of the achieved speed on the average grade that the reference cycle has between the distance driven before and after the step, and cyc.grade shows this grade for the step afterwards; so ascent_kw times the duration is the weight times the rise of the reference road, and over a trip the work against gravity is the weight times the height of the reference road at the distance driven, level beyond its end, whatever the speeds. When a trace point is out of reach the speed is searched on the grade at the place where the step starts, then on the road that the answer covers, until the grade changes by at most 1e-6, three times at most. Without both modes the grade is that of the sample. With missed-trace correction the powers are those of a speed on the road that this speed covers.", "quantifier": "all cycles, vehicles, parameters, initial charges and accessory loads; trips of any length in which every step stands still or covers more than 1e-6 m for the sums; all functions with sin atan 0 = 0, sin atan (tan asin y) = y for |y| < 1 and |cos atan g * g| < 1", "why_tests_cant": "the place of the vehicle depends on everything it did before; that the looked-up grades of all steps add up to the height of the road is a statement on all trips, and a lookup on the wrong cycle or with the wrong distance shows only on hills with a vehicle that is off its trace", "anchors": ["fastsim/simdrive.py::_lookup_grade_for_step", "fastsim/simdrive.py::_estimate_grade_for_step", "fastsim/simdrive.py::set_ach_speed", "fastsim/simdrive.py::sim_drive_step", "fastsim/cycle.py::average_grade_over_range"]}
{"id": "C105", "title": "The temperatures of the thermal simulation obey their heat balances", "statement": "After SimDriveHot.walk(), between any two neighbouring entries of the history: thermal mass times change of temperature is the sum of the recorded heat flows times the duration, for engine, cabin, exhaust port and catalyst; the ambient temperature is the given one; the heat into the engine is a share between 0 and 1 of the heat of the fuel of the step before, fixed by flame and engine temperature; the exhaust takes the rest; the loss to the air has the direction from hot to cold and follows the thermostat and the speed; the cabin loses heat through its walls; the climate control cools above and heats below its deadband up to its maximum, its load on the auxiliaries stays between 0 and its maximum, and a heater that uses the engine's waste heat takes from the engine what it gives to the cabin, no more than brings both to one temperature; the exhaust port stays between the temperatures of engine and exhaust. Over the trip the heat stored in the engine, and in the cabin, is the sum of these flows. Findings: inside the deadband the load of the last cooling step is still drawn; the flow into the catalyst is limited with the thermal mass of the cabin, so a light catalyst can become hotter than its exhaust; a soak after a drive burns the last step's fuel again.", "quantifier": "all vehicles, thermal models, climate controls, cycles, initial temperatures, charges and accessory loads; walks of any length; any power, logarithm and root function, with positive powers where a direction is claimed", "why_tests_cant": "the regression tests compare a few end temperatures of one vehicle; the balances concern every entry of every history, and the findings show only for vehicles whose catalyst is lighter than the cabin, for a cabin that enters its deadband, or for a soak after a drive", "anchors": ["rust/fastsim-core/src/thermal.rs::set_thermal_calcs", "rust/fastsim-core/src/thermal.rs::set_fc_thermal_calcs", "rust/fastsim-core/src/thermal.rs::set_cab_thermal_calcs", "rust/fastsim-core/src/thermal.rs::set_exhport_thermal_calcs", "rust/fastsim-core/src/thermal.rs::set_cat_thermal_calcs", "rust/fastsim-core/src/vehicle_thermal.rs::VehicleThermal", "rust/fastsim-core/src/air.rs::AirProperties"]}
{"id": "C106", "title": "A vehicle imported from the public data is the one that was asked for", "statement": "get_options_for_year_make_model lists exactly the vehicles of the year with this make and model, in the order of the table, with their engine families; get_vehicle_data_for_id gives the first vehicle of the year with the identifier; years that are not there are errors. vehicle_import_by_id_and_year gives a vehicle exactly if the identifier exists, a test matches and the vehicle can be built; the test is the first one of the same year and make, not done in the cold, with the best match of names and, among those, the most points for engine, drive, kind of transmission and gears; with no test whose name has anything in common there is an error. Mass, frontal area, powers, battery and tank of the vehicle are those of the test and of the given inputs, by type of powertrain; its motor has a best efficiency of 95 percent and with inputs that are not negative every match is built. import_all_vehicles makes one vehicle of each matching row, ignoring case and surrounding blanks, in order. import_and_save_all_vehicles gives the first vehicle the file name of its record and every later one a name of its own. Findings: the point for the drive compares a letter with a whole description, so it is given to four-wheel drives only; the engine curve of a hybrid is the one of the default vehicle, not the Atkinson map it lists; the number of gears of a manual transmission is read from one digit; a name that repeats a word beats the exact name; an engine family of one letter matches every test; the listing is case sensitive and the import is not; the numbers of the files count over all records, so the file of the first vehicle can be overwritten.", "quantifier": "all tables of vehicles, emissions and tests of any length, all records and inputs, all texts of transmissions, names and drives, any rounding and reading of numbers, any result of the fit of the coefficients", "why_tests_cant": "the tests import a handful of vehicles whose right test is known; which test wins depends on all the rows of the tables, and a wrong one still gives a plausible vehicle", "anchors": ["rust/fastsim-core/src/vehicle_import.rs::get_options_for_year_make_model", "rust/fastsim-core/src/vehicle_import.rs::get_vehicle_data_for_id", "rust/fastsim-core/src/vehicle_import.rs::derive_transmission_specs", "rust/fastsim-core/src/vehicle_import.rs::match_epatest_with_fegov_v2", "rust/fastsim-core/src/vehicle_import.rs::try_make_single_vehicle", "rust/fastsim-core/src/vehicle_import.rs::vehicle_import_by_id_and_year", "rust/fastsim-core/src/vehicle_import.rs::import_all_vehicles", "rust/fastsim-core/src/vehicle_import.rs::import_and_save_all_vehicles", "rust/fastsim-core/src/vehicle.rs::set_derived"]}
{"id": "C107", "title": "The command line program drives the cycle and the vehicle it is given and reports that run", "statement": "fastsim-cli needs exactly one cycle and exactly one vehicle, else it fails. With a cycle file it prints the economy of the vehicle as read from the file, driven over that cycle; with --adopt-hd the vehicle is first rewritten and the program prints economy, range, consumption, time to 60 mph and trace miss of the run of the bundled heavy-duty cycle or of the named file; with --adopt true it prints the figures of the label, never a split of the fuel. The rewriting moves the listed figures of the two parts of the record to the top, turns names of powertrains and engines, arrays and numbers into those the vehicle reads, and keeps everything else; it works on objects and null. If the record has a table of hydrogen shares, the hydrogen of each step is the share read from the table at the power of the engine over its greatest power; hydrogen and diesel together are the fuel of the run, the share of hydrogen stays within the shares of the table, and economy and range are those without the table. Arrays of different lengths are errors and a table of a single point is a panic. A coast-down is fitted for a built-in vehicle and needs all three figures. Findings: the coefficients of a coast-down do not depend on the vehicle that has to be given; --adopt false always fails; a cycle given as JSON text always fails; entries of an array that are no numbers are dropped, so later points of a table move forward.", "quantifier": "all combinations of options, all JSON values of any depth and length, all vehicles and cycles of any length, any contents of files, any result of the fit, any tables and powers", "why_tests_cant": "the tests of the program run two vehicles and look at the printed text; which option wins, which vehicle a coast-down is fitted for and what the split adds up to depend on all combinations of options and records", "anchors": ["rust/fastsim-cli/src/bin/fastsim-cli.rs::main", "rust/fastsim-cli/src/bin/fastsim-cli.rs::calculate_mpgge_for_h2_diesel_ice", "rust/fastsim-cli/src/bin/fastsim-cli.rs::integrate_power_to_kwh", "rust/fastsim-cli/src/bin/fastsim-cli.rs::json_rewrite", "rust/fastsim-cli/src/bin/fastsim-cli.rs::translate_veh_pt_type", "rust/fastsim-cli/src/bin/fastsim-cli.rs::transform_array_of_value_to_vec_of_f64", "rust/fastsim-cli/src/bin/fastsim-cli.rs::transform_array_of_value_to_ndarray_representation"]}
{"id": "C108", "title": "Interpolation on a grid gives the multilinear function through the corners of the cell", "statement": "multilinear gives a value exactly if the point has as many coordinates as the values have dimensions, every axis is as long as its dimension, strictly rising, and has the coordinate between two of its points; an axis without points is a panic, everything else an error. The value is that of any function which is affine in each coordinate and has the listed values at the corners of a cell around the point, and such a function exists for every cell; so it does not matter which of several cells is taken for a point on a face, and there are no jumps. At a point of the grid it is the value listed there; it is always between the least and the greatest value at the corners and linear in the values. get_index_permutations lists every index below the lengths once, in the order of reading.", "quantifier": "any number of dimensions, axes of any lengths, all points and values", "why_tests_cant": "the doc tests have up to three dimensions and a handful of points; the order in which dimensions are removed and halved matters only in arrays of other shapes", "anchors": ["rust/fastsim-core/src/utils.rs::multilinear", "rust/fastsim-core/src/utils.rs::get_index_permutations"]}
{"id": "C109", "title": "The Rust core reads a tire code wherever python does, and more codes besides", "statement": "tire_code_to_radius reads the width, aspect ratio and rim diameter as written, whatever letters stand in front of the width, with or without a blank behind the aspect ratio, and gives half the rim in inches of 25.4 mm plus the width times the aspect ratio in percent, in metres. Every code python reads is read; without a blank the radius is the one of python. Text without a slash is an error. Finding: for a code with a blank before the construction letter, such as 225/70 R16, python takes the last digit of the aspect ratio for the rim, and the two disagree.", "quantifier": "all texts and all numerals of any length", "why_tests_cant": "there are two doc tests; where a pattern with optional parts matches first depends on everything before and after it", "anchors": ["rust/fastsim-core/src/utils.rs::tire_code_to_radius", "python/fastsim/utils/utilities.py::calculate_tire_radius"]}
{"id": "C110", "title": "A batch gives every simulation the run it would have by itself", "statement": "SimDriveVec.sim_drive goes well exactly if the run of every simulation in the list goes well, and then each has the state and the figures of its own run, in its own place, whether in parallel or one after the other and whatever the order of the threads. If it fails one after the other, everything before the first failing one has its run and everything behind is as it was; in parallel the error is that of a simulation which fails by itself, and every entry is as it was, has its own run, or fails by itself. push, pop, insert and remove are those of a list, with a panic outside of it. Without an argument the batch is parallel.", "quantifier": "lists of any length, all simulations, all orders of the threads", "why_tests_cant": "an order of threads cannot be chosen in a test and none is tested", "anchors": ["rust/fastsim-core/src/simdrive/simdrive_iter.rs::SimDriveVec", "rust/fastsim-core/src/simdrive/simdrive_iter.rs::sim_drive"]}
{"id": "C111", "title": "Trace-miss correction of the Rust core is that of the python code until a first step was corrected", "statement": "With missed_trace_correction the Rust core makes, for a step both programs take for missed, exactly the corrections of the python code: the same cycle, arrays and counts. If the python run corrects no step before the last, the whole Rust run is the python run. A Rust run always completes, keeps the start of the trace and its order of times, and stretches each step by a recorded number, at most max(2, max_trace_miss_iters), of factors within the bounds. Finding: the Rust core decides whether a step was missed by the distance of the cycle with the time added so far, python by the distance of the given trace. The two differ by the added time at the speeds of the trace. So after a first correction the Rust core solves again steps that end on the trace, and leaves alone steps that end far from it.", "quantifier": "all vehicles both programs can load, all traces with ordered times from zero, all correction parameters with min_time_dilation > -1, all accessory overrides; any number of steps and corrections", "why_tests_cant": "the demo of time dilation prints figures of one program; which of the two distances is compared shows only in steps after a correction", "anchors": ["rust/fastsim-core/src/simdrive/cyc_mods.rs::set_time_dilation", "rust/fastsim-core/src/simdrive/simdrive_impl.rs::step", "python/fastsim/simdrive.py::SimDrive.set_time_dilation"]}
{"id": "C112", "title": "Tables of a cycle of the Rust core: what is accepted, written and read back", "statement": "A cycle read by the Rust core from csv, json, yaml, a dictionary or a map of columns is accepted exactly if it is a trace: at least one sample, times strictly rising, a speed, a grade and a road type for every time; anything else is an error. An accepted csv file is the trace of its rows in order. A trace written as csv, dictionary or map and read again is the same trace; the map loses the name, csv takes the name it is given. Writing csv panics exactly if a column is shorter than the times. Speeds set in mph are read back as set. A dictionary or map without grade or road type gets zeros, as in python; the same table as csv or json is refused. With skip_init nothing is checked: grades missing in some rows move the later ones to earlier times.", "quantifier": "all tables, csv rows, dictionaries and names of any length", "why_tests_cant": "the tests load the shipped cycles, whose rows are all complete", "anchors": ["rust/fastsim-core/src/cycle.rs::RustCycle", "rust/fastsim-core/src/cycle.rs::push", "rust/fastsim-core/src/cycle.rs::init_checks", "rust/fastsim-core/src/cycle.rs::from_csv_str", "rust/fastsim-core/src/cycle.rs::to_csv", "rust/fastsim-core/src/cycle.rs::from_dict", "rust/fastsim-core/src/cycle.rs::try_from", "python/fastsim/cycle.py::Cycle.from_dict"]}
{"id": "C113", "title": "Drag and rolling coefficients of the Rust core: closed form, and error minimised by the fit", "statement": "abc_to_drag_coeffs of the Rust core returns, with simdrive_optimize=False, the coefficients python returns, and they give back the constant and the quadratic term of the coast-down polynomial at every speed. With the fit, the cost of a pair of coefficients is the value of python's objective wherever that has one, whether python runs its own simulation or, as by default, one of the Rust core. get_error_val is that of python, with a panic where python raises. Findings: the options for the air density have no effect on the fit; the coasting flags the cost sets are cleared before the run; for a run that never falls below 0.1 m/s python raises IndexError and the Rust core compares all samples; the cost is positive for every pair of coefficients.", "quantifier": "all vehicles both programs can load that are not hybrids, all traces with ordered times, all polynomials and coefficients, all options; any search", "why_tests_cant": "the test compares fitted coefficients with stored ones within a tolerance; it cannot tell the error that is minimised", "anchors": ["rust/fastsim-core/src/vehicle_utils.rs::abc_to_drag_coeffs", "rust/fastsim-core/src/vehicle_utils.rs::get_error_val", "rust/fastsim-core/src/vehicle_utils.rs::GetError::cost", "rust/fastsim-core/src/air.rs::AirProperties::get_rho", "python/fastsim/auxiliaries.py::abc_to_drag_coeffs"]}
{"id": "C114", "title": "The properties of air of the Rust core fit together at every temperature", "statement": "get_k, get_cp, get_h, get_pr, get_mu and get_te_from_h of AirProperties return a value for every number and never panic; the values stay within those of air (heat capacity 1005.5 to 1347, Prandtl number 0.698 to 0.744, none zero or negative). get_te_from_h and get_h undo each other from -60 to 5000 °C and from 338940 to 6662000 J/kg; outside, every lookup gives the value of the end of the table. Hotter air has strictly more enthalpy, conducts better and is more viscous; a degree takes 1004.9 to 1336.1 J/kg, and between two temperatures of the table above -9 °C at least the lower and at most the higher heat capacity. At the temperatures of the table the Prandtl number is viscosity times heat capacity by conductivity. get_rho falls in inverse proportion to the absolute temperature, without limit, and falls with the height. Findings: between the temperatures of the table the Prandtl number is not that of the other three numbers (by less than a percent at 4420 °C); below -9 °C the rounded enthalpies do not fit the heat capacities. Viscosity and conductivity grow less per degree from each temperature of the table to the next, up to 2948 degrees C.", "quantifier": "all temperatures, enthalpies and heights", "why_tests_cant": "no test of the repository looks up a property of air; a mistyped number of a table shows in a few degrees of one lookup only", "anchors": ["rust/fastsim-core/src/air.rs::AirProperties::get_rho", "rust/fastsim-core/src/air.rs::AirProperties::get_k", "rust/fastsim-core/src/air.rs::AirProperties::get_cp", "rust/fastsim-core/src/air.rs::AirProperties::get_h", "rust/fastsim-core/src/air.rs::AirProperties::get_pr", "rust/fastsim-core/src/air.rs::AirProperties::get_mu", "rust/fastsim-core/src/air.rs::AirProperties::get_te_from_h"]}
{"id": "C115", "title": "Comparing with a tolerance in the Rust core", "statement": "approx_eq(other, tol) of the Rust core calls two numbers alike exactly if they differ by less than tol times the larger of one and the size of their sum; whole numbers, switches and text exactly if they are equal; optional values if both are missing or both are there and alike; maps if they have the same keys with values that are alike; records if all fields are alike. For every positive tolerance everything is like itself, the order of the two does not matter, and a larger tolerance never makes two things unlike. Findings: arrays are compared only as far as the shorter one goes, so a cycle is like every beginning of itself and the empty cycle like all of its name, and being alike is not passed on; with tolerance zero no number is like itself; from tolerance one on all positive numbers are alike; numbers below half the tolerance are alike whatever their sign.", "quantifier": "all numbers, arrays, maps and records, all tolerances", "why_tests_cant": "the comparison is what the tests of the Rust core themselves use to decide; they cannot tell what it lets pass", "anchors": ["rust/fastsim-core/src/traits.rs::ApproxEq", "rust/fastsim-core/fastsim-proc-macros/src/approx_eq_derive.rs::approx_eq_derive", "rust/fastsim-core/src/cycle.rs::RustCycle"]}
{"id": "C116", "title": "What a vehicle of the Rust core is after saving and loading", "statement": "A RustVehicle that was loaded, or copied from a python vehicle, is the same vehicle after it was saved with to_file (or to_yaml, to_json, to_toml) and loaded again: every input and every derived attribute a simulation reads. From toml, where init runs twice, it is the vehicle yaml and json give. Whatever vehicle is saved, the loaded one has its inputs, and its motor map if one was given. Findings: edits of the peak efficiencies of engine and motor, of the gravity and of derived attributes are lost, although the edited vehicle simulates with them; a file may give fc_eff_array and it is used, but it is not saved; a file that marks 'no motor map' with eleven zeros gets the map of a large motor whatever its power, while python gives a motor of 7.5 kW or less that of a small one; an imported hybrid has an engine of 36 % best efficiency in memory and of 40 % after saving and loading.", "quantifier": "all vehicles, all edits, all files", "why_tests_cant": "tests load the files of the repository; they do not edit, save and load a vehicle and compare its curves", "anchors": ["rust/fastsim-core/src/vehicle.rs::RustVehicle", "rust/fastsim-core/src/vehicle.rs::RustVehicle::set_derived", "rust/fastsim-core/src/vehicle.rs::RustVehicle::set_fc_peak_eff", "rust/fastsim-core/src/vehicle.rs::RustVehicle::set_mc_peak_eff", "rust/fastsim-core/src/vehicle.rs::RustVehicle::init", "rust/fastsim-core/src/traits.rs::SerdeAPI"]}
{"id": "C117", "title": "Files, formats, resources and the cache of the Rust core", "statement": "to_file writes a file exactly if its path has an extension that stands for a format (yaml or yml, json, toml, and csv for cycles, in any case and with leading dots), the file can be created and the format can write the object; it then contains what the format writes, and no other file is ever touched. from_file gives back the object from any such file, in every format, provided init recovers it from what the format keeps; for vehicles this is the vehicle of C116. from_str gives back what to_str gave, under any spelling of the format. list_resources gives, in order, the files of the folder whose last dotted part is an accepted format, and each with something before the dot can be loaded. from_cache(p) reads the very file that to_cache(p) wrote; to_cache accepts exactly the paths that end in a name; vehicles and cycles of the same relative path are different files. Findings: saving with an extension that is not supported (bin included, in the default build) fails but empties an existing file; x.yml and x.YAML are loaded but not listed; files named yaml or .yaml are listed but never loaded; with an absolute path to_cache writes outside the data folder.", "quantifier": "all kinds of objects, formats, disks, paths and names", "why_tests_cant": "a test writes a few files with usual names; which file is written or lost depends on every path", "anchors": ["rust/fastsim-core/src/traits.rs::SerdeAPI::to_file", "rust/fastsim-core/src/traits.rs::SerdeAPI::to_writer", "rust/fastsim-core/src/traits.rs::SerdeAPI::from_file", "rust/fastsim-core/src/traits.rs::SerdeAPI::from_reader", "rust/fastsim-core/src/traits.rs::SerdeAPI::to_str", "rust/fastsim-core/src/traits.rs::SerdeAPI::from_str", "rust/fastsim-core/src/traits.rs::SerdeAPI::list_resources", "rust/fastsim-core/src/traits.rs::SerdeAPI::from_resource", "rust/fastsim-core/src/traits.rs::SerdeAPI::to_cache", "rust/fastsim-core/src/traits.rs::SerdeAPI::from_cache", "rust/fastsim-core/src/cycle.rs::RustCycle", "rust/fastsim-core/src/utils.rs::create_project_subdir"]}
{"id": "C118", "title": "The charge of a battery-electric vehicle is a sum over the legs of its trace", "statement": "While a battery-electric vehicle meets its trace and feels no limit of battery and motor (see C91), the charge it has drawn at every sample is the sum over the legs driven so far (duration, speed at both ends, grade) of what the motor and the accessories need in that leg through the battery's loss; one table of electric powers, with the efficiencies of the motor map, serves every run, starting charge and trace. So: another sample inside a stretch of constant speed and grade does not change ess_dischg_kj; the charge of trips joined with concat is the sum of the charges of the trips; trips between standstills can be joined in any order; and a trip repeated n times takes n times the charge. Without room in the battery the order matters.", "quantifier": "every battery-electric vehicle, trace, list of trips, number of repetitions, initial charge and hooks; every run in which no limit is felt", "why_tests_cant": "additivity over every list of trips and repetition count quantifies over unboundedly many runs; a test compares a few", "anchors": ["python/fastsim/simdrive.py::SimDrive.sim_drive", "python/fastsim/simdrive.py::SimDrive.set_hybrid_cont_decisions", "python/fastsim/simdrive.py::SimDrive.set_post_scalars", "python/fastsim/cycle.py::concat"]}
{"id": "C119", "title": "Extra mass never saves engine or motor work on a trip that ends no slower than it starts", "statement": "In a single step a heavier conventional vehicle may need less engine power (slowing down it has more kinetic energy to give away). Over a whole trip it never does: of two vehicles that differ in their mass only (cargo, veh_override_kg) and both meet the trace, the heavier one delivers at least as much engine energy, if the trace ends at least as fast as it starts and no leg goes downhill more steeply than rolling resistance holds; with steeper hills if climbing and rolling take energy in total, as on round trips, and drag covers what the wheels give back. On every trace, engine energy is a convex function of the mass: equal additions cost more and more. The lighter vehicle's fuel is at most the heavier one's times the ratio of best and worst engine efficiency. On a trip that ends slower the heavier vehicle can need less. The same holds for the motor of a battery-electric vehicle that feels no limit (its work less what comes back in braking), on level and rising roads.", "quantifier": "every conventional or battery-electric vehicle, pair of masses and trace of any length driven forward; every pair of runs that meets the trace (battery-electric: without feeling a limit)", "why_tests_cant": "the claim is false step by step and true only of whole trips; it quantifies over all traces and masses", "anchors": ["python/fastsim/simdrive.py::SimDrive.sim_drive", "python/fastsim/simdrive.py::SimDrive.set_power_calcs", "python/fastsim/simdrive.py::SimDrive.set_fc_power", "python/fastsim/vehicle.py::Vehicle.set_veh_mass"]}
{"id": "C120", "title": "Steady driving takes the least engine or motor work", "statement": "Of all trips of a conventional vehicle over the same distance (trapz_step_distances) in the same time on a road of constant slope that end no slower than they start, the one at constant speed takes the least engine work, if the traces are met. Of two steady trips over the same distance the slower one takes no more work for the wheels: at most the accessory load for the longer time is added. This is about work, not fuel: with an engine that is efficient only at high power the steady trip can burn more. For a battery-electric vehicle that feels no limit, the steady trip takes the least motor work, less what comes back in braking.", "quantifier": "every conventional or battery-electric vehicle, slope and trace of any length driven forward; every pair of runs that meets its trace (battery-electric: without feeling a limit)", "why_tests_cant": "a minimum over all traces cannot be established by trying some", "anchors": ["python/fastsim/simdrive.py::SimDrive.sim_drive", "python/fastsim/simdrive.py::SimDrive.set_power_calcs", "python/fastsim/simdrive.py::SimDrive.set_fc_power", "python/fastsim/cycle.py::trapz_step_distances"]}
{"id": "C121", "title": "Which traces a conventional vehicle meets can be read off trace and vehicle", "statement": "A run of sim_drive meets its trace exactly if, leg by leg, the engine can rise from its power in the leg before to the power of the leg (fc_max_kw within fc_sec_to_peak_pwr, at most fc_max_kw) and the tires can pass the road load to the road. For such a trace sim_drive completes, meets it and burns the sum of the fuel of the legs, without anything being assumed about the run. So trips that are met one by one are met when joined; a stronger or quicker engine or fewer accessories never lead to a miss; and neither does less resistance, as long as the engine reaches its rating within every leg. With shorter legs it can: a car with less drag may miss a climb that the one with more drag masters. The grip is compared after division by the efficiency of the transmission, so the road load of a trace that is met can exceed the grip.", "quantifier": "every conventional vehicle and trace of any length and sampling", "why_tests_cant": "an equivalence between whole runs and a condition on the trace, for all traces; tests show single runs", "anchors": ["python/fastsim/simdrive.py::SimDrive.sim_drive", "python/fastsim/simdrive.py::SimDrive.set_comp_lims", "python/fastsim/simdrive.py::SimDrive.set_power_calcs", "python/fastsim/simdrive.py::SimDrive.set_ach_speed", "python/fastsim/simdrive.py::SimDrive.set_fc_power"]}
{"id": "C122", "title": "Which trips a battery-electric vehicle can make, and how often", "statement": "If every leg of a trip is, from the charge the legs before it leave, within the limits of battery, motor and tires (enough charge for the motor at its rating, more than the controller reserves for accelerating, motor power within its rise, room for what braking recovers), then sim_drive completes, the trace is met, no limit is felt and the charge taken is the sum over the legs. Let a trip between standstills take the share q of the battery: if it can be driven once from charge soc and once from soc - n q, it can be driven n + 1 times in a row from soc, and the run ends at soc - (n + 1) q.", "quantifier": "every battery-electric vehicle whose battery is at least as strong as its motor; every trip, charge and number of repetitions", "why_tests_cant": "the range claim is about runs of any number of repetitions; tests simulate some", "anchors": ["python/fastsim/simdrive.py::SimDrive.sim_drive", "python/fastsim/simdrive.py::SimDrive.set_comp_lims", "python/fastsim/simdrive.py::SimDrive.set_power_calcs", "python/fastsim/simdrive.py::SimDrive.set_hybrid_cont_calcs", "python/fastsim/simdrive.py::SimDrive.set_hybrid_cont_decisions", "python/fastsim/cycle.py::concat"]}
{"id": "C123", "title": "Below its engine thresholds a hybrid drives like the battery-electric vehicle without its engine", "statement": "Take the engine out of a hybrid or plug-in hybrid, leaving the mass. If this battery-electric vehicle meets a trace from some charge, at speeds up to mph_fc_on, with an electric demand up to kw_demand_fc_on and less than the battery can give beyond the accessories, then the hybrid's run over the trace from that charge has the same speed, motor power, battery power and charge at every sample, meets the trace and burns no fuel. Such trips can be read off trace and vehicle, leg by leg, without assuming anything about the run. If a trip between standstills takes the share q of the battery and can be driven electrically from soc and from soc - n q, it can be driven n + 1 times in a row from soc without fuel.", "quantifier": "every hybrid and plug-in hybrid with an electric battery as strong as its motor; every trace, charge and number of repetitions", "why_tests_cant": "compares two whole runs, sample by sample, for all vehicles and traces; tests show single runs", "anchors": ["python/fastsim/simdrive.py::SimDrive.sim_drive", "python/fastsim/simdrive.py::SimDrive.set_comp_lims", "python/fastsim/simdrive.py::SimDrive.set_power_calcs", "python/fastsim/simdrive.py::SimDrive.set_hybrid_cont_calcs", "python/fastsim/simdrive.py::SimDrive.set_fc_forced_state", "python/fastsim/simdrive.py::SimDrive.set_hybrid_cont_decisions", "python/fastsim/simdrive.py::SimDrive.set_fc_power", "python/fastsim/cycle.py::concat"]}
{"id": "C124", "title": "The data files of a year are downloaded once, whole, and only if needed", "statement": "Before anything is imported the three tables of every asked model year are made available. A year whose three tables are there is left alone and needs no net; for any other the archive of the year is downloaded and its three tables replace what is there. This succeeds exactly if for every incomplete year the server gives an archive with the three tables and they can be stored; the order of the years does not matter; after success the same years can be asked for again offline. No file of another year changes, whether it succeeds or not. If a year's tests of cars were missing, a failed download never leaves a year that looks complete. If another table was missing it can: a failed repair may leave tables of different origin that the next call takes as complete.", "quantifier": "every folder, set of years, server and answer of the net", "why_tests_cant": "depends on what is in the folder, what the net answers and where it fails; tests would need a server and fail at every point", "anchors": ["rust/fastsim-core/src/vehicle_import.rs::populate_cache_for_given_years_if_needed", "rust/fastsim-core/src/vehicle_import.rs::extract_file_from_zip", "rust/fastsim-core/src/vehicle_import.rs::get_cache_url_for_year", "rust/fastsim-core/src/utils.rs::download_file_from_url"]}
{"id": "C125", "title": "Vehicles and emission tests are read row by row and joined by their identifier", "statement": "get_options_for_year_make_model and get_vehicle_data_for_id give vehicles of the year's file, one for each row, every value from its column, with the engine families of just the emission tests that have the vehicle's identifier. The imports work on the files of just the asked years. Reading the vehicles succeeds exactly if every row can be read and its values fit. Rows of the emission tests that cannot be read or whose identifier is no number are skipped, but a row with an identifier and without a number as score stops the import, for whatever vehicle. White space around the identifier of a vehicle stops the import, although it is trimmed.", "quantifier": "every content of the files, year, make, model and identifier", "why_tests_cant": "for all contents of the tables; tests read some", "anchors": ["rust/fastsim-core/src/vehicle_import.rs::read_fuelecon_gov_data_from_file", "rust/fastsim-core/src/vehicle_import.rs::read_fuelecon_gov_emissions_to_hashmap", "rust/fastsim-core/src/vehicle_import.rs::read_records_from_file", "rust/fastsim-core/src/vehicle_import.rs::load_emissions_data_for_given_years", "rust/fastsim-core/src/vehicle_import.rs::load_fegov_data_for_given_years", "rust/fastsim-core/src/vehicle_import.rs::read_epa_test_data_for_given_years", "rust/fastsim-core/src/vehicle_import.rs::get_options_for_year_make_model", "rust/fastsim-core/src/vehicle_import.rs::get_vehicle_data_for_id", "rust/fastsim-core/src/vehicle_import.rs::vehicle_import_by_id_and_year", "rust/fastsim-core/src/vehicle_import.rs::import_all_vehicles", "rust/fastsim-core/src/vehicle_import.rs::import_and_save_all_vehicles_from_file"]}
{"id": "C126", "title": "Vehicles from a repository or a URL", "statement": "fetch_github_list gives just the paths of the yaml and json files at any depth, in their order, but nothing at all if one file at any depth has no extension. A server is asked at most four times, again only after 503, 429 or 403. from_github_or_url puts just one slash between the given URL and the name, but none of this without a URL; the vehicle is what the server gives, initialised, and its doc names the URL. A file stored with url_to_cache is read as the vehicle at the URL, and nothing else changes.", "quantifier": "every repository, answer, URL and name", "why_tests_cant": "for all trees of folders and answers of servers; tests would need a server", "anchors": ["rust/fastsim-core/src/vehicle_utils.rs::fetch_github_list", "rust/fastsim-core/src/vehicle_utils.rs::get_response", "rust/fastsim-core/src/vehicle.rs::RustVehicle.from_github_or_url", "rust/fastsim-core/src/vehicle.rs::RustVehicle.from_url", "rust/fastsim-core/src/utils.rs::url_to_cache"]}
{"id": "C127", "title": "Editing objects of the Rust core from Python", "statement": "Objects of the Rust core are never shared: reading a nested object gives a copy, assigning one stores a copy, so whatever a program does, a variable shows the same unless the program assigns to a field of this very variable or calls a method on it. An assignment to a nested object that was read from a field registered as nested (sd.veh.veh_kg = ...) raises AttributeError and changes nothing, whatever happened in between, until reset_orphaned is called on it. set_attr_with_path sets exactly the value at the path, get_attr_with_path reads it back, and if the former raises an exception nothing has changed. Elements of arrays are selected as in Python, and assigning to an element raises an exception. Some assignments are lost without an exception, and exactly these: to fc_peak_eff and mc_peak_eff of a vehicle and mph of a cycle, to fields of objects read from fields that are not registered (the vehicle of a label, the history of a thermal simulation), and all that methods do to a nested object. A copy of a nested object refuses assignments like the object itself.", "quantifier": "every program of reads, assignments, resets, copies and method calls of any length, every nesting of objects, every path", "why_tests_cant": "the claims are about all programs and nestings; tests try single assignments", "anchors": ["rust/fastsim-core/fastsim-proc-macros/src/add_pyo3_api/mod.rs::impl_getters_and_setters", "rust/fastsim-core/fastsim-proc-macros/src/add_pyo3_api/pyo3_api_utils.rs::impl_get_body", "rust/fastsim-core/fastsim-proc-macros/src/add_pyo3_api/pyo3_api_utils.rs::impl_set_body", "rust/fastsim-core/fastsim-proc-macros/src/add_pyo3_api/pyo3_api_utils.rs::impl_vec_get_set", "python/fastsim/utils/utilities.py::get_attr_with_path", "python/fastsim/utils/utilities.py::set_attr_with_path", "python/fastsim/auxiliaries.py::set_nested_values"]}
{"id": "C128", "title": "Histories and the thermal models of a vehicle", "statement": "The history of a thermal simulation holds, for every field of the state, the values of that field of all the states pushed in order; its length is their number; popping gives the states back, last first, with the flag of the history, and leaves the history as it was; clearing empties every list. Setting one parameter of the exponential model of an engine's efficiency is read back, leaves the other two and the component as they were, starts from the defaults (0, 25, 0.2) if the model was not exponential, does not touch the cabin, and commutes with setting another parameter; an unknown name of a component and a nested vehicle are errors. Findings: a list of a history can be replaced from Python by one of another length; popping then finds nothing although the other lists hold values, or is a panic.", "quantifier": "every sequence of states of any number of fields; every vehicle, parameter and value", "why_tests_cant": "the claims are about all sequences of states and all models a vehicle may have before", "anchors": ["rust/fastsim-core/fastsim-proc-macros/src/history_vec_derive.rs::history_vec_derive", "rust/fastsim-core/src/vehicle_thermal.rs::set_fc_model_internal_exponential", "rust/fastsim-core/src/vehicle_thermal.rs::set_fc_exp_offset", "rust/fastsim-core/src/vehicle_thermal.rs::set_fc_exp_lag", "rust/fastsim-core/src/vehicle_thermal.rs::set_fc_exp_minimum", "rust/fastsim-core/src/vehicle_thermal.rs::get_fc_exp_offset", "rust/fastsim-core/src/vehicle_thermal.rs::set_cabin_hvac_model_internal", "rust/fastsim-core/src/vehicle_thermal.rs::set_cabin_hvac_model_external", "rust/fastsim-core/src/vehicle_thermal.rs::get_cabin_model_internal"]}
{"id": "C129", "title": "A trace that is sampled more finely never takes less engine work", "statement": "If samples are put between those of a trace, with speeds on the line between their neighbours and the slopes of the legs they lie in, then duration, distance and climb stay as they are, the energy that drag takes does not shrink and never exceeds that of the speed that changes steadily between the samples, and a conventional vehicle that meets both traces delivers at least as much engine energy on the finer one; if the finer one never asks for braking, it delivers at most the difference in drag more. The fuel of the coarser trace is at most that of the finer one times the ratio of best and worst engine efficiency. resample puts in such samples if the slope is among hold_keys_next and the step loses no sample of the trace; by default it does not: the road then climbs less and the vehicle can need less work.", "quantifier": "every trace of any length without backward driving, every way of putting in samples, every conventional vehicle and pair of runs that meets the traces; every resampling onto a grid that contains the times of the trace", "why_tests_cant": "the claim compares two runs for all traces, vehicles and samplings; a test compares single numbers", "anchors": ["python/fastsim/cycle.py::resample", "python/fastsim/simdrive.py::SimDrive.sim_drive_walk", "python/fastsim/simdrive.py::SimDrive.set_power_calcs"]}
{"id": "C130", "title": "When a following vehicle stays behind its lead vehicle", "statement": "In a run with car following, the gap to the lead vehicle is positive at every sample, and larger than half the distance covered in a step at the own speed, if the steps are all of one duration, the time headway is at least one step, the minimum gap at least what idm_accel covers in a step, idm_decel is between 1.5 and 4 times idm_accel (the default settings with steps of one second fulfil this), the lead vehicle goes forwards and brakes by at most twice idm_accel, is slow enough at the start, and every step is driven at the speed asked for. With steps of two seconds the default settings let the vehicle drive through a lead vehicle that moves up two metres.", "quantifier": "every vehicle, every lead trace of any length within these limits, every run, finished or not; every own speed, lead speed and gap in a single step", "why_tests_cant": "a test follows a few traces; that no lead trace of any length leads to a collision needs an invariant over all of them", "anchors": ["python/fastsim/simdrive.py::SimDrive._next_speed_by_idm", "python/fastsim/simdrive.py::SimDrive._set_speed_for_target_gap", "python/fastsim/simdrive.py::SimDrive.gap_to_lead_vehicle_m", "python/fastsim/simdrive.py::SimDriveParams"]}
{"id": "C131", "title": "Small errors in speeds and slopes change the engine work a little only, but may change the fuel by a jump", "statement": "If a conventional vehicle meets two traces with the same times, whose speeds and slopes differ by small amounts at every sample, the engine work of the two runs differs by at most an explicit margin that is proportional to these amounts: drag, slope and rolling resistance over the duration and kinetic energy in every leg, through the transmission. For the fuel only a bound with the ratio of the best and the worst efficiency of the engine remains: however close two traces are, the fuel may differ by a fixed amount, where the engine output passes an entry of the efficiency table.", "quantifier": "every conventional vehicle, every pair of traces of any length with increasing times that are both met, every bound on the differences, every starting charge", "why_tests_cant": "a test perturbs a few traces; a bound for every perturbation of every trace needs the work as a function of the trace", "anchors": ["python/fastsim/simdrive.py::SimDrive.sim_drive", "python/fastsim/simdrive.py::SimDrive.set_power_calcs", "python/fastsim/simdrive.py::SimDrive.set_fc_power"]}
{"id": "C132", "title": "The import program writes its vehicles, changes nothing else and can be run again", "statement": "The import program refuses to run, changing no file, without its input file, with a given folder of data that is not there, or with an output path that is a file or cannot be made. If a row of the input cannot be read, it returns an error and changes no file. If it succeeds, every row of the input file is a record, the data of the years asked for have been completed in the folder of the data, and every vehicle imported from them is in a file of the output folder in the format of its ending, under the name of its record or that name with its number before the ending; no other file has changed. If it fails, no file has changed, or files in the folder of the data only, or the vehicles before some vehicle are all written and the later ones are not. If what it writes is apart from what it reads, running it again, with any network, succeeds and changes nothing. Finding: an absolute output file name in the first record leaves the output folder and replaces the file it names.", "quantifier": "every set of arguments, every file system, every network, every data and every number of records and vehicles", "why_tests_cant": "which files change and which do not, at every possible point of failure, is a claim about all file systems and networks", "anchors": ["rust/fastsim-cli/src/bin/vehicle-import-cli.rs::run_import", "rust/fastsim-core/src/vehicle_import.rs::import_and_save_all_vehicles_from_file", "rust/fastsim-core/src/vehicle_import.rs::import_and_save_all_vehicles", "rust/fastsim-core/src/vehicle_import.rs::read_vehicle_input_records_from_file"]}
{"id": "C133", "title": "A vehicle with everything scaled up drives alike and uses energy in proportion", "statement": "If the masses, the frontal area, the powers and capacities of all components and the accessory load of a vehicle are multiplied by the same positive factor, a run on the same trace from the same charge completes if that of the vehicle does. At every sample it has the same speed, distance, charge in percent and decisions, and every power and energy is multiplied by the factor. So are fuel, battery energy and use per mile, miles per gallon are divided by it, and the energy audit error is the same. Exempt are vehicles so small that their motor tables have steps of less than 0.01 kW and steps whose demand exceeds the limit of the motor by at most 1e-6 kW: there the code compares with fixed powers.", "quantifier": "every vehicle of every powertrain type, every positive factor, every trace of any length, every starting charge (given, if the vehicle is a hybrid) and every prescribed accessory load, with coasting, car following and trace-miss correction off", "why_tests_cant": "a test compares a few vehicles at a few factors; that no constant with a unit is hidden in the step equations, apart from the two named, is a statement about all inputs of every branch", "anchors": ["python/fastsim/simdrive.py::SimDrive.sim_drive", "python/fastsim/simdrive.py::SimDrive.solve_step", "python/fastsim/simdrive.py::SimDrive.set_comp_lims", "python/fastsim/simdrive.py::SimDrive.set_power_calcs", "python/fastsim/simdrive.py::SimDrive.set_hybrid_cont_calcs", "python/fastsim/simdrive.py::SimDrive.set_fc_power", "python/fastsim/simdrive.py::SimDrive.set_post_scalars"]}
{"id": "C134", "title": "Improving a battery-electric vehicle never costs motor work, and a larger battery makes every trip the smaller one makes", "statement": "On a trip that no limit of battery and motor cuts back, a battery-electric vehicle with a better transmission, with more of the braking left to the motor or with less air or rolling resistance needs no more motor work, less what comes back in braking. It takes no more energy from its battery either, if its motor has the same efficiency at every power; otherwise it may take more, because efficiencies are looked up without interpolation. A battery with smaller losses is never asked for more energy. With a larger battery, all else being equal, every trip that is within the limits still is: the run exists, the energy taken is the same, and the state of charge falls in proportion to the capacities.", "quantifier": "every battery-electric vehicle, every size of the improvement, every trip of any length, every starting charge", "why_tests_cant": "a test compares a few pairs of vehicles on a few trips; that no pair gets worse on any trip is a statement about all of them", "anchors": ["python/fastsim/simdrive.py::SimDrive.sim_drive", "python/fastsim/simdrive.py::SimDrive.set_power_calcs", "python/fastsim/simdrive.py::SimDrive.set_ach_speed", "python/fastsim/simdrive.py::SimDrive.set_hybrid_cont_decisions", "python/fastsim/simdrive.py::SimDrive.set_comp_lims"]}
{"id": "C135", "title": "Turning messages on does not change a run, but loses it in one case", "statement": "The largest and the smallest entry of an array of floats are an error exactly if the array is empty or has an entry that is not a number, and otherwise an entry that bounds all entries. In the Rust core, the messages at the end of a run change neither its results nor a failure; without corrections of missed traces, or with the information level off, a simulation ends as it would without messages; a simulation that is completed has the results it would have without them. Finding: with corrections of missed traces and the information level on, every simulation that would end with a step of more than five seconds fails, because the first message divides zero by zero and asks for the largest quotient.", "quantifier": "every vehicle, cycle, parameters and log level, every number of steps and of charge-balancing walks", "why_tests_cant": "tests run with logging off and with cycles of one-second steps; the claim is about every run and every level", "anchors": ["rust/fastsim-core/src/simdrive/simdrive_impl.rs::RustSimDrive::walk", "rust/fastsim-core/src/simdrive/simdrive_impl.rs::RustSimDrive::sim_drive", "rust/fastsim-core/src/simdrive/simdrive_impl.rs::RustSimDrive::sim_drive_accel", "rust/fastsim-core/src/traits.rs::IterMaxMin", "python/fastsim/simdrive.py::SimDrive.sim_drive_walk"]}
{"id": "C136", "title": "The build of the Rust core stops if its copies of the shared resource files differ", "statement": "The build goes on exactly if the python package is at neither of the two places looked at, or each of the four files kept twice (a vehicle, the long parameters, two cycles) can be read below the python package and below the crate and has the same text; otherwise it panics. The outcome depends on nothing but the presence of the two folders and the texts of these files.", "quantifier": "every file system and every current folder", "why_tests_cant": "a test sees the one checkout it runs in, in which the copies agree", "anchors": ["rust/fastsim-core/build.rs::main", "rust/fastsim-core/build.rs::check_files_consistent"]}
{"id": "C137", "title": "The label of a conventional vehicle can be read off vehicle and test cycles, and a harder vehicle has no better label", "statement": "A conventional vehicle with accessories within whose limits the two test cycles lie (leg by leg, see C121) has a label, and its laboratory economies are the miles of the cycles over the gallon equivalents of their legs, given by one table of fuel over engine power; nothing about the runs is assumed. If the engine of one vehicle has no more work on either cycle than that of another, then none of the six economies on the label of the other exceeds that of the first by more than the ratio of best and worst engine efficiency; with one efficiency at every power, it is no better. So it is with more air or rolling resistance, accessories or denser air, and with more mass if the cycles end no slower than they start and do not go downhill more steeply than rolling resistance holds. The ratio is needed: with more accessories the label can improve, because efficiencies are looked up without interpolation.", "quantifier": "every pair of conventional vehicles, masses, resistances and test cycles of any length", "why_tests_cant": "a test compares some vehicles on the two cycles shipped; the claim is about every pair of vehicles and every pair of cycles", "anchors": ["python/fastsim/simdrivelabel.py::get_label_fe", "python/fastsim/simdrive.py::SimDrive.sim_drive", "python/fastsim/simdrive.py::SimDrive.set_post_scalars"]}
{"id": "C138", "title": "The label of a battery-electric vehicle can be read off vehicle and test cycles; a larger battery extends its range in proportion", "statement": "A battery-electric vehicle within whose limits the two test cycles lie from a full battery (leg by leg, see C122) has a label. Laboratory uses are the charge of the legs per mile, given by one table of electric over motor power; adjusted uses follow from them with the coefficients of the model year and the bound of the adjustment; the range is the battery over the combined adjusted use. Nothing about the runs is assumed. With a better transmission or more recuperation no energy use on the label rises and the range does not fall, and with more resistance or accessories no use falls and the range does not rise, if the motor has one efficiency. With a larger battery, all else being equal, the vehicle has a label too, all nine energy uses are the same and the range grows in proportion to the battery. Smaller losses in the battery raise no use and do not shorten the range. The range counts the whole battery: if the usable window is a smaller share of it than the adjustment leaves (0.7 with the constants of the code), the range is longer than the way the vehicle can go, since the harder test cycle, repeated over that distance from a full battery, either meets a limit or ends below the least charge.", "quantifier": "every battery-electric vehicle, size of the change, set of label constants and pair of test cycles of any length", "why_tests_cant": "a test compares some vehicles on the two cycles shipped; the claim is about every vehicle, change and pair of cycles", "anchors": ["python/fastsim/simdrivelabel.py::get_label_fe", "python/fastsim/simdrive.py::SimDrive.sim_drive", "python/fastsim/simdrive.py::SimDrive.set_post_scalars"]}
{"id": "C139", "title": "The engine of a thermal simulation cools towards the air, and past it only in a long step", "statement": "In every step of a thermal drive the distance of the engine's temperature from that of the air is multiplied by one less conductance times duration over thermal mass, plus the heat of combustion less that taken by the heater. The conductance is that of the standing vehicle below 1 m/s and of a sphere in air above, changed by the thermostat, and is never negative. An engine that burns nothing and heats nothing gets closer to the air and not past it if the step is short (conductance times duration no more than the thermal mass), and past it if the step is longer. So in a drive without cabin model, with short steps, the engine never gets colder than the colder of its start and the air; without fuel it never gets warmer than the warmer of the two. Nothing in the code keeps the steps short: an engine with a small thermal mass is below freezing after a second in air at 20 °C.", "quantifier": "every vehicle, thermal settings, cycle of any length, course of the air temperature and step of a drive that completes", "why_tests_cant": "a test observes temperatures of some drives; bounds on all temperatures of all drives, and the exact step length at which they fail, are statements about all of them", "anchors": ["rust/fastsim-core/src/thermal.rs::set_thermal_calcs", "rust/fastsim-core/src/thermal.rs::set_fc_thermal_calcs", "rust/fastsim-core/src/thermal.rs::walk"]}
{"id": "C140", "title": "The labels of the compiled core can be read off vehicle and test cycles", "statement": "For a vehicle the compiled core accepts, whose engine curve ends flat and whose speed in the acceleration test rises until it passes 60 mph or never reaches it, on test cycles within the vehicle's limits: get_label_fe of the compiled core returns a label. For a conventional vehicle the laboratory economies are the miles of the cycles over the fuel of their legs, the combined one the weighted harmonic mean; a vehicle with more air or rolling resistance or accessories has no better economy, up to the ratio of the engine's best and worst efficiency. For a battery-electric vehicle the uses are the charge of the legs per mile, adjusted with the coefficients of the model year and the bound of the adjustment, and the range is the battery over the combined adjusted use; with a larger battery all nine energy uses are the same and the range is longer in proportion. Whatever the hooks and the tolerances of the trace are.", "quantifier": "every such vehicle, set of label constants, table with flat end and pair of test cycles of any length", "why_tests_cant": "a test compares the core with recorded labels of some vehicles on the two cycles shipped; the claim is about every vehicle and pair of cycles, through two simulations and an acceleration test of 3000 steps", "anchors": ["rust/fastsim-core/src/simdrivelabel.rs::get_label_fe", "rust/fastsim-core/src/simdrive/simdrive_impl.rs::sim_drive", "rust/fastsim-core/src/simdrivelabel.rs::get_net_accel"]}
{"id": "C141", "title": "The cabin of a thermal simulation stays within bounds, and a cabin in its deadband keeps drawing power", "statement": "In every step of a thermal drive with a cabin the distance of the cabin's temperature from that of the air is multiplied by one less conductance times duration over thermal mass, plus the heat of the climate control. The conductance is the surface over the resistances of walls and air, that of the standing vehicle up to 2 mph and of a plate above. With steps that are short for this conductance: if the air stays within the deadband, a cabin that gets into the deadband stays in it to the end of the drive and gets no heat or cooling, but the auxiliary load and the heat taken from the engine keep, in every step to the end of the drive, the values of the step in which it got there. In any air the cabin never gets colder than its start or, by more than the control can cool it in one step, than both the air and the upper end of the deadband; and never warmer in the same way. Nothing in the code limits what the control does in one step: a light cabin swings from above the deadband to below the air and back. A thermal simulation can be made exactly if a given array of air temperatures is not empty and begins with the air of a given state; a fresh state asks the controller for nothing on account of a change of temperature. Found: with an array alone, engine, cabin, port and catalyst start at 22 degrees however cold the air.", "quantifier": "every vehicle, thermal settings, climate control, cycle of any length, course of the air temperature and step of a drive that completes", "why_tests_cant": "a test drives some cycles at some temperatures with the default cabin; the bounds and the load that is kept hold from any step of any drive on", "anchors": ["rust/fastsim-core/src/thermal.rs::set_cab_thermal_calcs", "rust/fastsim-core/src/vehicle_thermal.rs::HVACModel", "rust/fastsim-core/src/thermal.rs::SimDriveHot::new", "rust/fastsim-core/src/thermal.rs::ThermalState::new"]}
{"id": "C142", "title": "Hills cost what is braked away and lost in regeneration, and can save rolling resistance", "statement": "With driving modes off and traces that are met. Any vehicle: the energy into the transmission over a trip is, over the transmission's efficiency e, the sum of drag, kinetic energy, weight times height gained, rolling resistance over the level extent of the road and the energy the friction brakes record, plus (1/e - e) times the regenerated energy recorded. So two drives with the same times and speeds over roads of different slopes differ exactly by height, level extent, recorded braking and this loss; over a road that comes back to its height, against a level road driven without braking, hills cost at most what friction takes and what the transmission loses of the energy regenerated. Conventional vehicle: the energy its friction brakes record is the negative road load of the legs of the trace, the same holds for the engine's work less the accessories, and if neither drive brakes the hilly road takes less engine work, by exactly the rolling resistance of the distance beyond its level extent.", "quantifier": "every vehicle of any powertrain (engine work: every conventional vehicle), parameters, pair of cycles of any length with equal times and speeds and any grades that the vehicle meets, hooks, starting charges", "why_tests_cant": "a test drives some graded cycles and compares against stored results; the identity and the saving hold for all slopes and lengths and relate two runs", "anchors": ["python/fastsim/simdrive.py::SimDrive.set_power_calcs", "python/fastsim/simdrive.py::SimDrive.set_fc_power", "python/fastsim/simdrive.py::SimDrive.sim_drive"]}
{"id": "C143", "title": "Exhaust port and catalyst of the thermal simulation stay between the bodies they exchange heat with when steps are short", "statement": "In the thermal simulation with the exhaust port modelled: if a step is so short that the port's two conductances together do not empty its thermal mass, the port ends between the coldest and the hottest of itself, the engine and the exhaust gas. So over a whole drive of such steps it is never colder than its start, the engine and the gas have been, and neither the port nor the gas that enters it is hotter than at the start, the engine, or the adiabatic flame. The same holds for the catalyst between itself, the air and the exhaust gas, if its conductance to the air and the heat the exhaust can carry together do not empty its thermal mass in a step. When no exhaust flows, the port gets no heat from standing gas and moves toward the engine without passing it, and the catalyst toward the air without passing it, for steps of any length. Found: the two flows of the port are limited separately, each as if it were alone, so without short steps a light port colder than engine and gas can end hotter than both.", "quantifier": "every vehicle, thermal parameters with nonnegative conductances and positive thermal mass, cycle of any length with positive steps, initial thermal state and load, with recorded exhaust flow not negative", "why_tests_cant": "a test runs one vehicle over one cycle; the bound holds over drives of any length for all parameters, and the overshoot needs a light port that no test has", "anchors": ["rust/fastsim-core/src/thermal.rs::set_thermal_calcs", "rust/fastsim-core/src/thermal.rs::set_fc_thermal_calcs", "rust/fastsim-core/src/thermal.rs::set_cab_thermal_calcs", "rust/fastsim-core/src/thermal.rs::set_exhport_thermal_calcs", "rust/fastsim-core/src/thermal.rs::set_cat_thermal_calcs", "rust/fastsim-core/src/vehicle_thermal.rs::VehicleThermal", "rust/fastsim-core/src/air.rs::AirProperties"]}
{"id": "C144", "title": "A thermal drive accounts for the heat of its fuel, except that of the last step", "statement": "In a thermal simulation with models of engine and exhaust, over a whole drive: the heat stored in the engine plus the heat recorded to leave it (to the air, to the heater, with the exhaust) is what the engine burnt beyond its work, where each row is counted with the duration of the step that follows it. So with steps of one duration, all of the drive's heat is accounted for except that of the last step, and the mass of the recorded exhaust is that of fuel and air of all the fuel of the drive except that of the last step. Found: with steps of different durations the recorded flows can account for more heat than was burnt.", "quantifier": "every vehicle, thermal parameters with an engine model, an exhaust model and a thermal mass that is not zero, cycle of any length, initial thermal state, climate control and load", "why_tests_cant": "a test compares temperatures of one drive with stored ones; the balance is an identity between sums over drives of any length, and the missing last step is hidden in any tolerance", "anchors": ["rust/fastsim-core/src/thermal.rs::set_thermal_calcs", "rust/fastsim-core/src/thermal.rs::set_fc_thermal_calcs", "rust/fastsim-core/src/thermal.rs::set_exhport_thermal_calcs", "rust/fastsim-core/src/thermal.rs::walk"]}
{"id": "C145", "title": "The exhaust gas of a thermal simulation: range, and the flame as its limit", "statement": "In a thermal simulation with models of engine and exhaust, a fuel with heat, at least the stoichiometric air and an engine that is never driven: whenever exhaust flows, its recorded temperature is that of air whose enthalpy per kilogram is the recorded exhaust heat over the recorded exhaust mass flow, at most the fuel's heat over the mass of fuel and air, and is never above the recorded flame temperature, so the limit to the flame never acts. Over any drive it stays between -60 and 5000 degrees C, the ends of the table of air; with short steps so do the exhaust port, the catalyst and the gas that enters it, if they start there and engine and air stay there. Found: the heat of the intake air is counted in the flame but not in the gas, so an engine that keeps most of the heat of combustion emits gas far colder than the air it draws in. With less air than the fuel needs, the limit acts and heat of the exhaust disappears.", "quantifier": "every vehicle, thermal parameters with an engine model and an exhaust model, cycle of any length, initial thermal state, climate control and load; for the flame limit, air-fuel equivalence ratio at least one and no negative fuel or engine power in any row", "why_tests_cant": "a test compares temperatures of one drive with stored ones; that a limit never acts for any engine and any drive cannot be sampled", "anchors": ["rust/fastsim-core/src/thermal.rs::set_fc_thermal_calcs", "rust/fastsim-core/src/thermal.rs::set_exhport_thermal_calcs", "rust/fastsim-core/src/thermal.rs::set_thermal_calcs", "rust/fastsim-core/src/air.rs::AirProperties"]}
{"id": "C146", "title": "Clearing the cache of the Rust core deletes the folder it names and nothing else, unless the path leads out of the data folder", "statement": "clear_cache with a path of plain names below the data folder of FASTSim (or the empty path for all of it) succeeds exactly if that is a folder; then the folder and everything in it is gone, and every other file and folder is as before. If it is not a folder, nothing is changed. Nothing outside the data folder is touched either way. Clearing again fails and changes nothing. After the folder of a kind of object was cleared, from_cache finds no object of that kind. The path '.' empties the data folder and leaves it there. Found: with an absolute path the folder it names is deleted wherever it is, and with '..' everything next to the data folder is deleted too.", "quantifier": "all file systems without links, data folders, paths and files", "why_tests_cant": "the test of the repository clears one temporary folder, given by an absolute path; that no other file is touched is a claim about all files", "anchors": ["rust/fastsim-core/src/utils.rs::clear_cache", "rust/fastsim-core/src/utils.rs::path_to_cache", "rust/fastsim-core/src/traits.rs::from_cache"]}
{"id": "C147", "title": "The attributes of a vehicle are handed to the Rust core without loss", "statement": "to_native_type, through which every attribute of a vehicle goes on its way to the Rust core, leaves no np.float64 and no np.ndarray at any depth; two values come out alike exactly if they differ at most in being numbers or sequences of numpy or of python, so that no dictionary comes out as an array; and an array or list of numbers is read by the Rust core as these numbers. Found: an array of arrays is not read as numbers, and a value that went through twice is no longer read as an array.", "quantifier": "all values nested to any depth", "why_tests_cant": "tests convert the vehicles of the database; values nest without bound, and that no two different ones collide is a claim about pairs", "anchors": ["python/fastsim/vehicle.py::to_native_type", "python/fastsim/vehicle.py::copy_vehicle"]}
