# Formal model of NREL/fastsim (python) in Lean 4

Sources: `/repo/python/fastsim/**` at the pinned commit (read as text, never run).
Lean project: `/verif/lean` (Lean 4.33.0, Mathlib modules imported one at a time).

## 1. Trusted base

* Lean's kernel, and the three standard axioms `propext`, `Classical.choice`,
  `Quot.sound` that Mathlib lemmas depend on. No other axiom, no `sorry`/`admit`,
  no `native_decide`, no `bv_decide`.
* The transcription: each Lean definition under `Verif/Model/**` carries the file
  and lines of `/repo` it models. The transcription was done by hand from the text.
* Arithmetic idealisation, stated per theorem through its type-class context:
  * *lawless* theorems are about a model in which `+ - * /`, numerals and unary minus
    are **arbitrary operations** on a linearly ordered type `K` (class context
    `[Zero K] [One K] [NatCast K] [Add K] [Sub K] [Mul K] [Div K] [Neg K] [LinearOrder K]`).
    They hold for every rounding behaviour (finite IEEE floats with the two zeros
    identified, no NaN).
  * *field* theorems need `[Field K] [LinearOrder K] [IsStrictOrderedRing K]`
    (exact arithmetic: ℚ, ℝ, ...). Rounding, overflow, NaN and infinity are outside.
  * The same definitions are used for both; ℚ instances make the model executable and
    are used for the concrete witnesses.
* `np.sqrt`, `np.exp`, `np.arctan`, `np.sin`, `np.cos`, `np.tan`, `np.arcsin`, `**` with a
  real exponent are fields of a record of unspecified functions `Fns K`. A theorem that
  needs a law about one of them states the law as a hypothesis (for example
  `0 < F.sqrt eff ∧ F.sqrt eff ≤ 1`), and the law is shown to hold for the real functions.
* Division by zero: Lean's `x / 0 = 0` is never relied upon; where the code divides, the
  theorem's hypotheses make the divisor non-zero, or the model has an explicit error branch.

## 2. Representation

* A cycle is a list of samples `(t, v, g, r)` = `time_s, mps, grade, road_type`; the four
  numpy arrays of a `Cycle` are assumed to be equally long (`make_cycle` asserts it).
* `SimDrive`'s per-step arrays are rows: `Row K` holds the values of all arrays at one index.
  `solveStep` computes row `i` from row `i-1` and the (possibly stale) row `i`.
* Exceptions raised by the code are values (`Except PyErr α`).
* Object aliasing is modelled only where a property is about it: C33 (the caller's override
  array), C42 (log levels as shared state), C28 (one object run again), C43 (a heap of objects
  with references), C59 (a heap of arrays shared by simulations).
* `Vehicle`, `SimDriveParams`, `PhysicalProperties` objects whose attributes are copied or
  compared by name (C39) are dictionaries from names to values; where their numbers matter
  (C16-C38, C46) they are records.
* Python dictionaries keep insertion order (`PyDict`, association lists); tables read by
  `np.interp` and `scipy.interpolate.interp1d` are lists of pairs.

### Modules and what they model

| module | code |
|--------|------|
| `Model/Np.lean` | numpy pieces: `diff`, `cumsum`, `interp`, `argmin`/`argmax`, `arange`, negative indexing, rounding |
| `Model/Cycle.lean`, `Jerk.lean`, `Grade.lean`, `Resample.lean` | cycle.py (all functions but file input and `to_rust`) |
| `Model/Veh.lean`, `Step.lean`, `Run.lean` | simdrive.py: `init_for_step`, `set_misc_calcs` ... `set_fc_power`, `sim_drive_step`, `sim_drive_walk`, `sim_drive`, HEV balancing, time dilation |
| `Model/Idm.lean`, `Coast.lean`, `EcoCruise.lean` | simdrive.py: intelligent driver model, coasting, `activate_eco_cruise` |
| `Model/Post.lean` | simdrive.py: `set_post_scalars`, `SimDrivePost`, `estimate_soc_corrected_fuel_kJ` |
| `Model/Vehicle.lean` | vehicle.py: `set_derived`, `set_veh_mass`, peak efficiency properties |
| `Model/Copy.lean` | copies, legacy names and equality: cycle.py, simdrive.py, parameters.py, vehicle.py |
| `Model/Load.lean` | vehicle.py `clean_data`, `from_vehdb`, `from_df`, `from_dict`; tables of vehicle_base.py |
| `Model/CoastDown.lean` | auxiliaries.py `abc_to_drag_coeffs`, the function minimised |
| `Model/SimHeap.lean` | simdrive.py `copy_sim_drive`, `init_arrays` and steps as operations on shared arrays |
| `Model/Peaks.lean` | cycle.py `peak_acceleration`, `peak_deceleration`; simdrive.py `gap_to_lead_vehicle_m` |
| `Model/Label.lean`, `UfTable.lean` | simdrivelabel.py and the two tables of longparams.json it reads |
| `Model/Units.lean`, `Tire.lean`, `Log.lean`, `Path.lean` | utilities.py, auxiliaries.py |
| `Model/Frame.lean` | resample.py; `get_error_val` of calibration.py |
| `Model/Calib.lean` | calibration.py `ModelObjectives`, `_evaluate`, result columns |
| `Model/Preproc.lean` | utils/vehicle_import_preproc.py |
| `Model/VehDb.lean` | utils/utilities.py `model_file_to_vehdb`, `full_vehdb_to_model_files`, `vehdb_entry_to_model_file` |
| `Model/Report.lean` | simdrive.py `set_post_scalars` (`accel_kw`), `get_diagnostics` (keys), `set_battery_wear` (`dod_cycs`, `ess_perc_dead`) |
| `Model/SimEq.lean` | simdrive.py `sim_drive_equal`, `copy_sim_drive` (attribute tables) |
| `Model/LabelSim.lean` | simdrivelabel.py:54-86, 448-461 (cycles, runs, acceleration test), simdrive.py `run_simdrive_for_accel_test` |
| `Model/Names.lean` | utils/utilities.py `camel_to_snake`, `rollav` |
| `Model/Files.lean` | cycle.py `Cycle.from_file`; vehicle.py `Vehicle.from_file` |
| `Model/Demos.lean` | utils/utilities.py `copy_demo_files` |
| `Model/Objects.lean` | simdrive.py `SimDrive.__init_objects__`, `copy_sim_drive`; vehicle.py default of `props`, `copy_vehicle` (which objects are shared) |
| `Model/RsStep.lean` | rust/fastsim-core/src/simdrive/simdrive_impl.rs `solve_step` and its parts; utils.rs `first_grtr`, `first_eq`, `arrmax` |
| `Model/RsVeh.lean` | vehicle.py `copy_vehicle(veh, 'rust')`; rust/fastsim-core/src/vehicle.rs `set_derived`, `set_veh_mass`, `set_fc_peak_eff`, `set_mc_peak_eff`, ranges of the inputs; utils.rs `interpolate`, `arrmin`; params.rs tables |
| `Model/RsFuel.lean` | rust/fastsim-core/src/params.rs `set_fuel_lhv_kj_per_kg` (the getter is in `Model/RsThermal.lean`) |
| `Model/RsRun.lean` | rust/fastsim-core/src/simdrive/simdrive_impl.rs `new`, `init_arrays`, `sim_drive`, `sim_drive_accel`, `walk`, `init_for_step`, `step`, `set_post_scalars`; cyc_mods.rs `set_time_dilation`, grade lookups; defaults of `RustSimDriveParams`, `SimDriveParams`; simdrive.py `copy_sim_drive(sd, 'rust')` |
| `Model/RsCycle.lean` | rust/fastsim-core/src/cycle.rs: cycles, cache, microtrips, trajectories, passing, extension |
| `Model/RsIdm.lean` | rust/fastsim-core/src/simdrive/cyc_mods.rs: car following, gap, eco-cruise |
| `Model/RsCoast.lean` | rust/fastsim-core/src/simdrive/cyc_mods.rs (coasting), utils.rs (`ndarrunique`) |
| `Model/RsLabel.lean` | rust/fastsim-core/src/simdrivelabel.rs |
| `Model/RsThermal.lean` | rust/fastsim-core/src/thermal.rs, vehicle_thermal.rs, air.rs |
| `Model/RsImport.lean` | rust/fastsim-core/src/vehicle_import.rs |
| `Model/RsCli.lean` | rust/fastsim-cli/src/bin/fastsim-cli.rs |
| `Model/RsGrid.lean`, `Model/RsTire.lean` | rust/fastsim-core/src/utils.rs (`multilinear`, `tire_code_to_radius`) |
| `Model/RsBatch.lean` | rust/fastsim-core/src/simdrive/simdrive_iter.rs |
| `Model/RsTable.lean` | rust/fastsim-core/src/cycle.rs (tables: csv, json, yaml, dictionaries, maps of columns) |
| `Model/RsCoastDown.lean` | rust/fastsim-core/src/vehicle_utils.rs (`abc_to_drag_coeffs`, `get_error_val`, `GetError`), air.rs (`get_rho`) |
| `Model/RsApprox.lean` | rust/fastsim-core/src/traits.rs (`ApproxEq`), fastsim-proc-macros/src/approx_eq_derive.rs |
| `Model/RsSaved.lean` | rust/fastsim-core/src/vehicle.rs (what serde keeps of a `RustVehicle`, `init`), traits.rs (order of `init`) |
| `Model/RsFile.lean` | rust/fastsim-core/src/traits.rs (`SerdeAPI`: files, formats, resources, cache), utils.rs (cache folders) |
| `Model/RsWeb.lean` | rust/fastsim-core/src/vehicle_import.rs (download, unpacking and reading of the data), vehicle_utils.rs (list of a repository), vehicle.rs (`from_url`, `from_github_or_url`), utils.rs (`download_file_from_url`, `url_to_cache`) |
| `Model/RsImportCli.lean` | rust/fastsim-cli/src/bin/vehicle-import-cli.rs, rust/fastsim-core/src/vehicle_import.rs (reading the records, saving the vehicles) |
| `Model/RsLog.lean` | rust/fastsim-core/src/simdrive/simdrive_impl.rs (`walk` with its messages), rust/fastsim-core/src/traits.rs (`IterMaxMin`) |
| `Model/RsBuild.lean` | rust/fastsim-core/build.rs |
| `Model/RsObj.lean` | rust/fastsim-core/fastsim-proc-macros/src/add_pyo3_api (generated getters and setters, the flag `orphaned`), python/fastsim/utils/utilities.py and auxiliaries.py (access by path on Rust objects) |
| `Model/RsHistory.lean` | rust/fastsim-core/fastsim-proc-macros/src/history_vec_derive.rs, vehicle_thermal.rs (setters and getters of the models) |

`Spec/**` and the definitions named `Fastsim.Spec.*` in `Props/**` are the specifications. They do not use the
model's helper functions other than plain data types. `Props/**` holds the theorems that MANIFEST.json lists and, next
to them, concrete cases that meet the hypotheses.

## 3. Not modelled

* The Rust core and its python bindings (`/repo/rust`, `fastsimrust`, `RustCycle`, ...), except for the solution of one step
  (C96), the vehicle (C97), runs without coasting and car following (C98), cycles (C99), car following (C100), eco-coasting (C101), the label (C102), the thermal simulation (C103, C105, C139, C141, C143-C145), the fuel's heating value (C13), the import of vehicles (C106), the command line program (C107), interpolation on grids (C108), tire codes (C109), batches (C110), trace-miss correction (C111), tables of cycles (C112), coast-down coefficients (C113), the properties of air (C114), comparison with a tolerance (C115), saved vehicles (C116), files and caches (C117), what is got from the net (C124-C126), how objects are edited from Python (C127), histories (C128), the import program (C132), the messages after a run (C135), the build (C136) and clearing the cache (C146); every other `use_rust=True` path.
* File input/output (csv/yaml/json parsing, bundled resources),
  plotting, pandas import pipelines, calibration optimisers (pymoo), demos and tests.
* numpy dtype conversions, warnings and log messages (except those at the end of a run of the Rust core, C135); wall-clock fields (`sim_time_s`).
* numpy's `inf` and `nan`. Where a numpy quotient can have divisor zero, the theorem excludes it by a hypothesis or the
  model reports an error (`PyErr.other`); the definition's comment says which.
* `scipy.interpolate.interp1d`: trusted to be a piecewise constant (kinds 0, `previous`, `next`) or linear lookup
  that raises `ValueError` outside the table.
* `re`: the tire code expression is modelled by a backtracking matcher written for it (C55).
* `scipy.optimize.minimize`, so the coefficients `abc_to_drag_coeffs` finds by minimisation (the function minimised is
  modelled).
* Floating point rounding in *field* theorems (see above).

## 4. Plan per property

| id | modelled | proof idea |
|----|----------|------------|
| C01 | `to_microtrips`, `concat` on sample lists | loop invariant: concat of emitted trips ++ current trip = prefix read so far (rebased) |
| C02 | same | invariant on the accumulator (stop* moving* stop*) |
| C03 | `concat` | list induction |
| C04 | `clip_by_times` with error branch | `List.filter` spec, idempotence |
| C05 | `np.arange`, `np.interp`, `interp1d` zero-order, `resample` | interp exact at knots and bounded by min/max; induction over knots |
| C06 | trapz functions | list induction |
| C07 | const-jerk formulas | field identity; guard and degenerate case covered |
| C08 | same | induction over n at dt=1; refutation at dt≠1 |
| C09 | `modify_*` on sample lists | induction over the for loop |
| C10 | `calc_distance_to_next_stop_from` | first index = minimum by monotonicity |
| C11 | `detect_passing` loop with break | loop invariant; spec by bounded quantifiers |
| C12 | `average_grade_over_range` with and without cache | agreement by induction over dedup'ed knots; witness for the defect |
| C13 | conversions | field identities |
| C14 | `extend_cycle` (via concat/resample) | composition |
| C15 | `create_dist_and_target_speeds_by_microtrip` | induction over microtrips |
| C16 C17 C18 C19 C20 C21 C23 C24 C25 C32 | `set_misc_calcs` … `set_fc_power` as one step function | per-step theorems, then invariants over `walk` by induction |
| C22 | `set_post_scalars` sums | telescoping over the list of rows |
| C26 | Newton loop | invariant on iterate lists |
| C27 | `sim_drive_walk`, HEV loop with fuel argument derived from `sim_count_max` | recursion on the measure |
| C28 | state of the SimDrive object across runs | state-machine induction over run histories |
| C29 | `set_time_dilation` with arbitrary solve response | invariant over iterations |
| C30 | IDM formulas | order reasoning |
| C31 | coast trajectory, collision prevention | termination measure, invariants |
| C33 | aux override with aliasing | list reasoning, witness |
| C34 | `get_diagnostics` | induction over trapezoids |
| C35 | `estimate_soc_corrected_fuel_kJ` | algebra |
| C36 | `set_battery_wear` | exact characterisation, witness |
| C37 | `set_veh_mass`, flags of `set_derived` | case analysis |
| C38 | peak-efficiency setters | max of scaled list; witness |
| C39 | copy/equality on attribute records | record reasoning; witness |
| C40 C41 | label formulas and key sets | algebra; key-set evaluation for all inputs |
| C42 | logging state machine with exceptions | induction over programs |
| C43 | object trees | induction over paths |
| C44 | `resample.py` | telescoping |
| C45 | `get_error_val` | trapezoid non-negativity |
| C46 | `set_derived` arrays | interp bounds, lookup lemma |
| C47 | soc selection in `sim_drive`/`init_for_step` | case analysis; witness |
| C48 | `activate_eco_cruise` | case analysis; witness |
| C49 | records of `set_power_calcs`/`set_ach_speed` after whole runs | invariant of reachable states; telescoping of kinetic energy; witness for the stale re-solve |
| C50 | two runs that differ in the fuel storage | non-interference: every function commutes with blanking the one record; coasting included |
| C51 | `sim_drive` with every exception the model knows | no step raises when tables are non-empty and the charge is in its window; induction over steps |
| C52 | `_should_impose_coast`, `_calc_dist_to_stop_coast*` | closed form against the integral of v/a(v) over the reals |
| C53 | `_calc_next_rendezvous_trajectory`, `_set_coast_speed` | minimality over the candidates; invariant of the modified trace |
| C54 | `_set_coast_delay` | argmin over the stops of a monotone trace |
| C55 | `get_tire_radius` parsing | correctness of the matcher on written codes |
| C56 | plug-in hybrid branch of `get_label_fe` | telescoping sums over the cycles, any number of them |
| C57 | acceleration part of `get_label_fe` | interpolation lemma |
| C58 | run on a truncated cycle against the run on the whole one | every function of a step commutes with cutting the object after n samples |
| C59 | several simulations in one heap of arrays; programs that act on two of them in any order | objects without common cells do not influence each other; a deep copy has fresh cells; a shallow copy as counterexample |
| C60 | `peak_acceleration`, `peak_deceleration` | a long stretch is a chain of steps; maximum of a list |
| C61 | `gap_to_lead_vehicle_m` | invariant: with a driving mode on the working cycle holds the achieved speeds; distances from C06 |
| C62 | `sim_drive` with all driving modes, totals of `set_post_scalars` | every function of the run commutes with setting the clock forward (chain of commutation lemmas; index bounds from an invariant) |
| C63 | `sim_drive` of a vehicle without motor and battery, all driving modes | relation between rows kept by a solve (`Lemmas/View.lean`), lifted to whole runs; `Props/Ignored.lean` |
| C64 | `sim_drive` of a battery-electric vehicle, all driving modes | the same lifting, with rows equal up to the engine's timer, forced state and the storage limit |
| C65 | `clean_data`, `from_df`, `from_dict` on dictionaries of untyped values; `float`, `int`, `literal_eval` unspecified | entry-by-entry account of every stage, acceptance theorem, the first row of the database; `Props/Load.lean`, `Props/LoadDemo.lean` |
| C66 | `from_vehdb` on a table that each load rewrites | cleaning twice is cleaning once; invariant over all sequences of loads |
| C67 | latch `high_acc_fc_on_tag` of `set_misc_calcs` | a history predicate on the charge (`LowSince`); induction over the steps; then the accessory terms of battery and engine |
| C68 | `set_comp_lims`, `set_power_calcs`, motor part of the decisions | map look-ups bounded by the ordered map; case split of the decision; needs available electricity to be non-negative (refuted otherwise) |
| C69 | motor losses | look-ups give entries of the efficiency array |
| C70 | `set_hybrid_cont_calcs`, thresholds | closed forms compared with kinetic energy and quadratic reserve |
| C71 | `can_pwr_all_elec` and its effect | equivalence with the list of conditions; case split of the decision |
| C72 | split of the demand | the power left for the engine is within its limit in both the met and the unmet case; equality refuted (surplus of the motor vanishes) |
| C73 | `ess_kw_if_fc_is_req`, motor decision | all branches shown to be one clipped formula |
| C74 | `ess_desired_kw_4fc_eff` | closed form; the documented direction is refuted |
| C75 | records of `set_power_calcs` | the last power calculation is at the achieved speed |
| C76 | road load records, `drag_coeffs_to_abc`, the objective of `abc_to_drag_coeffs` | one power calculation per step; list extensionality; the error metric of C45 |
| C77 | `impose_coast`, `init_arrays` | the transmission limit is zero in a coasting step; a run depends on the object only through its cycles |
| C78 | step and run model | a step factors through the carried-over state (`memoryOf`); the resumed run starts from the same carried-over state |
| C79 | step model at zero speed | all road loads vanish at zero average speed; the decisions collapse to the accessory load; summed with the battery balance of C20 |
| C80 | step model of a conventional vehicle | closed form of the engine output in the road load of `Spec/Road.lean`, which is monotone in the resistances; summed over the run; `Props/Harder.lean` |
| C81 | `ModelObjectives`, `_evaluate`, column names; simulation classes abstract (`SimApi`); `Model/Calib.lean` | induction over trips and objectives, pairing by position turned into pairing by key; `Props/Calib.lean` |
| C82 | csv tables as lists of rows, directories as dictionaries of files; `int`/`strip` parameters; csv, xlsx and zip formats not modelled; `Model/Preproc.lean` | grouping invariant over the row loop, injectivity of file names; `Props/Preproc.lean` |
| C83 | database file and module data frame, directory as dictionary, loading and serialisation abstract; `Model/VehDb.lean` | induction over the selections, file-name algebra; `Props/VehDb.lean` |
| C84 | `solveStep`, `simDrive` with the real driving modes, `set_fc_peak_eff` | a relation between rows that ignores fuel is preserved by every step; then sums over steps |
| C85 | `accel_kw` as rewritten by `set_post_scalars` | telescoping sum; `C49_coherent` for the step's own values; witness with correction |
| C86 | `sim_drive_equal`, `copy_sim_drive` over attribute tables | loop over the keys of a new object; C39 for cycles, vehicles and parameters; witness for the lost map |
| C87 | `get_label_fe` with the runs of the vehicle, the acceleration trace, `run_simdrive_for_accel_test` | composition of C40, C51, C57 and C84 |
| C88 | the two substitutions as matchers, `re.sub`, `str.lower` | closed form by induction over the text; corollaries |
| C89 | `rollav`, `np.concatenate` with zero-dimensional arguments | unfolding; the claim is that no input escapes |
| C90 | reported energies of a finished run | C22 (audit identity) with the signs of all losses (C17–C20, C69), battery-electric bus balance |
| C91 | pairs of finished runs of a battery-electric vehicle | motor power as an explicit function of the trace; induction over the steps with the slopes of the battery loss |
| C92 | finished runs of a conventional vehicle, `concat` | engine output of each step as a function of its leg; sums over lists of legs; permutation of lists |
| C93 | `Cycle.from_file`, `Vehicle.from_file` | search path as a pair of partial functions; transposed table; loading commutes with a change of the number |
| C94 | `copy_demo_files` | directory as a partial function from names to contents; fold over the files that are left |
| C95 | `SimDrive.__init_objects__`, `copy_sim_drive`, `copy_vehicle`, default of `Vehicle.props` | heap of vehicles, cycles, parameters and properties; invariant that no cell is in two places but for vehicles and the default |
| C96 | `RustSimDrive::solve_step` and its eight parts, `first_grtr`, `arrmax`, derived values recomputed by the Rust core | the Rust step transcribed separately; equality with the python step of the vehicle with the last efficiency repeated, part by part |
| C97 | `copy_vehicle(veh, 'rust')`, `RustVehicle::set_derived` with validation, `set_veh_mass`, `set_fc_peak_eff`, `set_mc_peak_eff`, `interpolate`, the tables of params.rs | the Rust functions transcribed separately; `interpolate` = `np.interp` on strictly increasing tables; equality of all attributes by the stages of `set_derived` |
| C98 | `RustSimDrive::{new, init_arrays, sim_drive, walk, init_for_step, step, set_post_scalars}`, `set_time_dilation`, grade lookups, defaults of parameters, `copy_sim_drive(sd, 'rust')` | the Rust loops transcribed separately; simulation of loops step by step with C96; with C84 (fuel side does not act back) the comparison to the python run of the same vehicle |
| C99 | the functions and methods of `cycle.rs` that have python counterparts, `init_checks`, `from_dict`, `ndarrcumsum`, `f64::round` | Rust functions transcribed separately with their loops, tolerances and panics; equality with the python model, and concrete cases of every difference |
| C100 | `next_speed_by_idm`, `set_speed_for_target_gap_using_idm`, the table lookup of `step`, `gap_to_lead_vehicle_m`, `activate_eco_cruise_rust` | Rust functions transcribed separately; equality of the hook, then of a step, then of the walk by induction with an invariant (lengths, times as in the lead cycle, engine output not negative); fuel side by C84 |
| C101 | coasting in `cyc_mods.rs` from `calc_dvdd` to `set_coast_speed`, `ndarrunique` | Rust functions transcribed separately; equality function by function under the conditions that each needs; the conditions of a step are collected in `CoastRegular`; the walk by induction with an invariant (lengths, times, engine output, coast flags form one run) |
| C102 | `simdrivelabel.rs`: `get_label_fe`, `get_label_fe_phev`, `get_net_accel`, `make_accel_trace`, with the lookups of `utils.rs` | Rust functions transcribed separately into a struct of results; lookups by induction over the table; the plug-in hybrid calculation stage by stage in both directions; the simulations through C98 |
| C103 | `thermal.rs`: `SimDriveHot` with `walk`, `step`, `set_fc_power`, `set_misc_calcs`; `vehicle_thermal.rs` | thermal loop transcribed over the powertrain functions of C98; invariant `SameSoFar` between both loops; steps seen from the finished simulation (`HotStepRel`) |
| C104 | grade lookups of `simdrive.py` in all driving modes | invariant: every step was solved from an object that differs from the final one only at and after the step (`SolvedFrom`); heights of the road as pieces with less rise than length, telescoped |
| C105 | heat flows of `thermal.rs` and the air tables of `air.rs` | steps seen from the finished walk (`Steps`); each thermal function inverted with frame lemmas for the others; telescoped sums; correlations restated by their ranges of the Reynolds number (`SphereNu`, `PlateNu`) |
| C106 | `vehicle_import.rs` from records on (no csv, no download), with `set_derived` of C97 | best test stated as a first maximum (`BestTest`) over names (`NameRating`) and points (`Rating`), proved equivalent to the search; texts of transmissions by shape; `set_derived` inverted field by field; file names separated at the last dot and the last dash |
| C107 | `fastsim-cli.rs` from parsed options and JSON values on; runs and labels of C98 and C102 | split of the fuel by induction over the steps, table read as straight lines (`ReadAt`); rewriting stated key by key on `field?`; the branches of `main` stated on the options (`AsksHd`, `AsksFile`, `AsksLabel`) as equivalences |
| C108 | `multilinear` with n-dimensional arrays as functions of indices, the reduction by removing axes and the loop of halvings as written | value characterised by `EachAffine` and `Corner`; reduction by induction from the last axis, loop by induction over the dimensions with the order of the indices (`perms_two`) |
| C109 | `tire_code_to_radius`: the pattern as a backtracking matcher at every place of the text, as in C55 | shape of codes as in C55; search by induction over the front; comparison with C55 by inclusion of the matches |
| C110 | `SimDriveVec` over the runs of C98; a parallel run is an order in which the entries are taken, left alone after a failure | one run stated as `OwnRun`; induction over the list and over the order |
| C111 | `set_time_dilation` of both programs over the steps of C98 (`Model/RsRun.lean`, `Model/Run.lean`) | correction loop by induction with the invariant of C98 (stretching keeps times in order); distances as in C29; walks by induction with the account of corrections of C29 |
| C112 | `RustCycle` as a table of columns of any lengths; its readers, writers and checks (`Model/RsTable.lean`) | tables of one length are the columns of a trace (induction); pushing rows by induction; round trips from the characterisations |
| C113 | `abc_to_drag_coeffs`, its cost and `get_error_val` of the Rust core (`Model/RsCoastDown.lean`) against `Model/CoastDown.lean`, `Model/Units.lean` | runs agree up to fuel by C98; the trapezoid loop by induction; C13 and C76 for the closed form and the positive error |
| C114 | the tables and lookups of air (`Model/RsThermal.lean`), `get_rho` (`Model/RsCoastDown.lean`) | slopes of the tables by computation, then of the interpolants by induction; inverse lookups by induction over the table |
| C115 | the instances of `ApproxEq` (`Model/RsApprox.lean`) | each instance described by its own statement; laws pass from parts to wholes; maps by counting keys |
| C116 | what serde writes and reads of a `RustVehicle`, and `init` (`Model/RsSaved.lean`) | `set_derived` without overrides as an explicit function of the inputs; reading what was written gives the same inputs |
| C117 | `SerdeAPI` over an abstract disk, with Unix paths as text and formats as parameters (`Model/RsFile.lean`) | paths by their pieces; joining paths is associative; the rest by cases |
| C118 | whole runs of `sim_drive` (`Model/Run.lean`), `concat` | C91 gives the motor power of a leg; telescoping of the charge; legs of joined traces (C92) |
| C119 | whole runs of `sim_drive`; engine work as a sum over legs (C92) | positive part of a line is convex; kinetic energy telescopes; a convex function above its value at zero mass rises |
| C120 | whole runs of `sim_drive`; engine work as a sum over legs (C92) | the cube lies above its tangent at the mean speed; kinetic energy telescopes; positive parts only add |
| C121 | whole runs of `sim_drive`; the limits of a leg as a condition on duration, speeds, grade and the engine power before | one step meets the trace iff its leg is within the limits; induction along the trace; runs exist by C51 |
| C122 | whole runs of `sim_drive` for battery-electric vehicles; charge and motor power along the legs in closed form | one step within the limits feels none; induction along the trace with C118; the limits form an interval of charges |
| C123 | whole runs of `sim_drive` of a hybrid and of the vehicle without engine, from the same charge | run against run by induction over the samples: the engine stays unforced and every later quantity agrees; the legs by C122 |
| C124 | the folder as an abstract disk, the net and zip as parameters (`Model/RsWeb.lean`) | fetching one year by cases over where it fails; induction over the years with the other years framed |
| C125 | reading of the tables with what csv makes of bytes as a parameter, after the download of C124 | one result per row (`Forall₂`); the join by induction over the rows; numbers by their characters |
| C126 | the repository as a tree, answers of a server as a sequence, URLs after parsing as parameters (`Model/RsWeb.lean`) | mutual induction over the tree; induction over the attempts; paths by C117 |
| C127 | generated getters and setters with the flag `orphaned`; variables that each hold a tree of objects; access by path on them | what a variable shows along every path is kept by each action; induction over programs; induction along the chain of containers |
| C128 | histories as a list per field; the models of engine and cabin with the flag (`Model/RsHistory.lean`) | induction over the states pushed, from the last; cases over the models |
| C129 | finer legs as an inductive relation; `resample` and the run as before | a leg that is cut in two: distance and climb add up, the cube is convex, positive parts add up to at least the positive part of the sum; induction over the cuts; induction over the times of the grid |
| C130 | `idmSpeed`, `idmHook` and runs as before | invariant: more than half a step behind; one step in units of the step and of idm_accel is a polynomial inequality, by cases of lead slower or faster; induction over the run with C61 |
| C131 | runs and legs of C92 as before | `NearTrace` sample by sample; difference of squares and cubes leg by leg, sum over the legs; the jump is a family of steady traces on either side of an entry of the table |
| C132 | files and folders as functions of paths, the folder of the data as part of them (`Model/RsImportCli.lean`) | the program taken apart into its stages; induction over the vehicles saved; C124 for the second run |
| C133 | one step and one run of the model, as before | `scaledVeh`, `scaledRow` field by field; one equation per stage of the step, then induction over the samples; the second run exists by C51 |
| C134 | runs and legs of C118 and C122 | motor duty as the larger of two lines in the road load, monotone in load, efficiency and share; sum over the legs; for the capacity, charges of both runs are tied by a convex combination and the limits of C122 carried from one to the other |
| C135 | the messages as functions that may fail, over floats with infinities and not-a-number (`Model/RsLog.lean`) | induction over the fold and over the charge-balancing walks; the first quotient is 0/0 |
| C136 | the file system as answers to `exists` and `read_to_string` (`Model/RsBuild.lean`) | induction over the pairs of files |
| C137 | the label of C87 over the runs of C121; the economies on the label as functions of miles and fuel | leg sums of C121 and C119; the adjusted and combined economies do not leave the ratio of the simulated ones |
| C138 | the label of C87 over the runs of C122; adjusted uses as the smaller of two functions of the simulated use | leg sums of C122 and C134; adjusted uses are monotone; the limits of C134 for a larger battery |
| C139 | the thermal walk of C103 and C105; conductance as a relation on settings, speed and temperatures | the balance of C105 solved for the difference to the air; induction over the history |
| C140 | the Rust label of C102; legs of C121 and C122 | C137 and C138 through C102_vehicle_same; a label is a function of its key |
| C141 | the thermal walk of C103 and C105; conductance as a relation on settings, speed and temperatures | the cabin's balance of C105 solved for the difference to the air; induction over the history |
| C142 | full step and walk as in C92; height, extent and braking as sums over the legs of the trace | engine work of C92; friction of each step from the demand on the transmission; sums over legs |
| C143 | port and catalyst of the thermal step as in C105, drives as in C141 | flows bounded by the conductances, one step between the extremes, invariant over the walk |
| C144 | thermal walk as in C103 and C105; flows summed over the recorded history | step balances of C105 telescoped; values taken a step late shift the sum by one |
| C145 | thermal walk as in C103 and C105; tables of air as in C114 | fuel of a row is what its engine burns, so the gas enthalpy is at most that of the flame; monotone table lookup |
| C146 | `clear_cache` on a Unix file system of files and folders (`Model/RsCache.lean`), paths as texts of C117 | components of a joined path; following names from folder to folder by induction |
| C147 | `to_native_type` on nested values (`Model/Native.lean`); the array format of the Rust core as a reader | mutual induction over values, elements and items |

## 5. Disagreements between code and documentation found while modelling

Each is a theorem (named in brackets) unless marked *(noted)*.

Cycles
* C05: held and next-held columns raise `ValueError` when the new step does not divide the cycle
  (`C05_past_end`); the default start is 0, not the first sample (`C05_default_start`); a rate column
  does not keep the distance when the step does not divide (`C05_rate_partial_step`).
* C08: the closed forms of the constant-jerk trajectory agree with stepping only for steps of 1 s
  (`C08_defect`, `C08_refuted`, `C08_rendezvous_missed`).
* C10: beyond the last stop the answer is minus the distance from the start (`C10_beyond`).
* C11: the start step and standing vehicles are not checked for passing (`C11_blind_spots`).
* C12: the cached grade is wrong just after a stop (`C12_cache_disagrees`); ranges past the end count as
  level (`C12_past_end`).
* C14: `absolute_time_s` is cut, not rounded (`C14_not_nearest`); the cycle loses its name *(noted)*.

Simulation
* C20: a vehicle with a battery but no motor discharges it without using the energy (`C20_phantom_discharge`).
* C21: the state of charge can leave its window (`C21_soc_leaves_window`).
* C22: the energy audit leaves out wheel rotation, and `aux[0] * time_s[0]` enters (`C22_identity`).
* C24: an exhausted battery-electric vehicle charges its battery from nothing, and its accessories vanish
  (`C24_exhausted_bev_charges`, `C24_accessory_power_vanishes`).
* C27: a cycle driven electrically counts as balanced; the last walk is not checked
  (`C27_electric_counts_as_balanced`, `C27_last_walk_unchecked`).
* C28: options switched off between runs leave the modified cycle (`C28_options_switched_off`).
* C29: corrections compound and exceed the documented bound (`C29_compound`, `C29_exceeds_max`).
* C30: with zero headway the follower passes the lead vehicle (`C30_passes_lead`).
* C31-C54: the coasting formulas presume steps of 1 s (`CoastDemo.C31_two_second_steps`); flags are cleared from the wrong
  index (`C31_flags_dropped`); planning gives up beyond 60 m (`CoastDemo.C31_gives_up`); the docstring of
  `_should_impose_coast` has the inequality the other way round *(noted)*.
* C32: the timer ignores the engine when accessories hang on it (`C32_timer_misses_engine`).
* C33: trailing zeros of an override are replaced, and a wrong length is ignored
  (`C33_trailing_zeros_replaced`, `C33_wrong_length_ignored`).
* C35: a fuel-cell hybrid divides by zero (`C35_fuel_cell_divides_by_zero`).
* C36: the first call never accumulates, a second call changes the result (`C36_first_call`, `C36_not_idempotent`).
* C47: the balancing guess can raise `ValueError` (`C47_balancing_raises`).
* C48: a rejected call leaves the mode on; an old table stays in force; a standing trace raises `IndexError`
  (`C48_rejected_still_on`, `C48_old_table`, `C48_standing`).
* C49: a step solved again by the missed-trace correction is checked at a stale speed and then granted the trace speed: a
  car gains 300 kJ from under 60 kJ (`C49_free_energy`; simdrive.py:880 reads `newton_iters[i]` of the earlier solve).
* C50: `cur_max_fs_kw_out` limits nothing (`C50_limit_ignored`, `C50_real`).
* C58: a later accessory load changes earlier fuel; car following without desired speed looks ahead (`C58_accessory_future`,
  `C58_desired_needed`).
* C59: a copy with `deep=False` shares its result arrays with the original (`C59_shallow_shares`).
* C61: in plain runs the gap to the lead vehicle is reported as zero although the vehicle falls behind (`C61_plain_zero`,
  `C61_plain_demo`).
* C62: with trace-miss correction, a trace that starts in motion at a non-zero time is driven differently from the same trace
  started at zero (`C62_moving_start`); `trace_miss_time_frac` is relative to the last time stamp (`C62_time_ratio`); an initial
  accessory override is charged from time zero (`C62_totals`).
* C67: low charge moves only the accessories to the engine, it does not switch the engine on (`C67_accessories`; the name is
  `high_acc_fc_on_tag`).
* C68: with the battery at `min_soc` the negative surplus of electricity is added to the transmission limit, and the motor
  delivers power from the empty battery (`C68_motor_beyond_limit`).
* C71: the electricity needed without engine leaves out the accessories when the driveline needs no power (`C71_need`).
* C72: to make room for braking energy the motor delivers more than the driveline takes in, and the difference vanishes
  (`C72_surplus_vanishes`).
* C74: `ess_dischg_to_fc_max_eff_perc` and `ess_chg_to_fc_max_eff_perc` act the wrong way round (`C74_below`, `C74_above`,
  `C74_wrong_way`).
* C76: the first road load compared by `abc_to_drag_coeffs` is always zero, so the vehicle the coefficients were computed
  from does not have zero error (`C76_never_exact`).
* C77: `abc_to_drag_coeffs` sets `impose_coast` before `sim_drive`, which discards it; the vehicle follows the ramp
  under power or brakes (`C77_arrays_reset`, `C77_flags_lost`).
* C78: a conventional car cannot be interrupted at a stop: its engine idles there, and the power it reaches in the
  next step counts from the idle power, whereas a new simulation starts from zero (`C78_idling_engine`).
* C80: the engine map is looked up without interpolation, so a higher load can need less fuel
  (`C80_more_load_less_fuel`); the claim does not extend to mass (`C80_heavier_less_work`).
* C81: trips are paired by position, not by key (`C81_mixed_up`); two objectives for one model signal collapse into
  one (`C81_repeated`); objectives without reference raise or are ignored (`C81_single_first`, `C81_single_later`);
  parameters as tuples, as documented, raise (`C81_tuple_params`).
* C82: several test files for one year overwrite one another (`C82_tests`, `C82_demo`); emission rows without a
  vehicle vanish (`C82_orphan`); years of fewer than four digits reach no archive (`C82_short_year`).
* C83: a second vehicle added in one session erases the first (`C83_second_replaces_first`); a name with a slash, as
  vehicle 41 of the shipped database has, aborts the export (`C83_stops`, `C83_slash`); names equal up to parentheses
  share a file and the later vehicle is silently skipped (`C83_same_file`).
* C84: what the efficiency curve decides — `C84_same_drive` (nothing but fuel), `C84_proportional` (a common factor),
  `C84_better` (a curve nowhere worse), `C84_peak` (`fc_peak_eff = x`), `C84_demo`. The engine power of best
  efficiency is kept; hybrids whose initial charge the simulation balances are excluded, since the balancing divides
  by the fuel used.
* C85: `set_post_scalars` replaces `accel_kw` by the values of the achieved speeds (`C85_power`, `C85_energy`);
  without missed-trace correction nothing changes (`C85_same`). After a corrected step the stale power that
  `C49_free_energy` shows is therefore no longer visible in `accel_kw` of the finished object, while drag, ascent and
  rolling powers stay stale (`C85_demo`).
* C86: `sim_drive_equal` looks only at the keys of a new simulation, so results such as `mpgge` are not compared
  (`C86_ignores`), and a copy of a simulation of a hybrid with a custom map is not equal to its original
  (`C86_copy_differs`), because `copy_vehicle` loses the map.
* C87: the label is tied to the simulations for conventional, hybrid and battery-electric vehicles; for plug-in
  hybrids the label is covered by the C41 theorems over arbitrary simulation results. That a hybrid's charge-balancing
  runs complete is not claimed (C51). The model makes a new simulation object per run where the code reuses one; C28
  shows that this makes no difference.
* C88: `str.lower` is modelled for ASCII letters.
* C89 records a defect: the intended behaviour of `rollav` is refuted for every input.
* C90: for hybrids that the engine is not asked for more than its momentary limit is a hypothesis (forced engine
  operation and accessories can violate it, C22_bus).
* C91: that no limit is felt is a hypothesis on the recorded results of both runs; `C91_full_battery` shows it is
  needed.
* C92: that the trace is met is a hypothesis on the recorded results; `C92_hybrid_order` shows that the order of trips
  matters for hybrids.
* C93: reading a comma separated file is not modelled (`Csv` is what `pd.read_csv` returns), nor are directories and
  empty cells in cycles; that titles are distinct is a hypothesis.
* C94: directories within the demos, encodings, permissions and failures of the file system are not modelled; names of
  files are distinct.
* C95: the attributes of one object are one value, so sharing of arrays between objects is not seen here (C43 and C59
  are about arrays); shallow copies, Rust objects and assignments of objects other than `sd.veh = veh` are left out.
* C96: real arithmetic on both sides (the two programs also round differently); grades that depend on the speed
  reached (coasting or car following on hilly roads) are outside, since the tolerances of the two grade loops differ
  (1e-4 and 1e-6).
* C97: the yaml text in between is taken to preserve numbers; attributes that no computation reads are left out.
* C98: trace-miss correction (see C111), coasting (C101) and car following (C100) off; sums in order; hybrids without a given initial state of charge only in the direction python
  finishes => Rust finishes with the same result.
* C99: exact arithmetic; the 32 bit range of the extension is not modelled; grade queries assume non-negative speeds
  and that the ceiling of a number in (n, n+1] is n+1; indices as the python code accepts them (the wrap-around of
  index -1 has no counterpart in the core).
* C100: level roads only (on slopes the two grade loops may stop at different iterates, see C96); hybrids without an
  initial state of charge are outside; the cached distances of the lead cycle are those of the lead cycle, as after
  `init_arrays`.
* C101: level roads for the theorems about steps and runs (the plan itself, `C101_plan`, for every road on which both
  grade lookups agree); the conditions of `CoastRegular` are hypotheses about the python run; hybrids without an
  initial state of charge are outside. Unsigned underflow panics, as in a build with overflow checks; the equality
  theorems do not meet it, so they hold for builds that wrap as well. The key of `ndarrunique` is that of a 64-bit
  machine.
* C102: division by zero in the plug-in hybrid figures gives NaN or infinity in both programs; the model has zero for
  both, so the equality says that both divide the same numbers. The simulations of the label are those of C98
  (`C102_run`, `C102_test`), one direction: where python completes. The order in which the Rust core runs the two
  cycles (a hash map) has no influence on the model.
* C103: the thermal simulation is compared with the plain simulation of the Rust core (C98 compares that with python).
  A coefficient of zero makes the fuel an infinity in Rust and zero in the model, so statements about the amount of
  fuel ask for a coefficient other than zero. `powf`, `exp` and pi are arbitrary.
* C104: the sums ask that no step covers between 0 and 1e-6 m (the lookup then takes the grade of a point instead of
  an average). The three functions of slope angles are arbitrary with the laws in `Trig`; `C104_trig` shows that the
  real functions obey them.
* C105: balances hold for the recorded values; the correlations for Nusselt numbers are restated as the code has them,
  not justified by physics. `pow`, `log` and `sqrt` are arbitrary functions; directions of flow ask for non-negative
  powers (`WarmCar`).
* C105, found: inside the deadband of the climate control the load and the heater flow of the step before stay
  recorded, and the load is drawn (`C105_deadband`, `C105_deadband_demo`); the flow from exhaust to catalyst is
  limited with the thermal mass of the cabin (`C105_catalyst_found`, `C105_catalyst_demo`); the soak repeats the fuel
  heat of the last step (`C105_soak_found`, `C105_soak_demo`); the flat plate correlation for mixed flow has the
  Prandtl number where the others have its cube root; the surface of the engine is `pi * sqrt(l)`; a battery electric
  vehicle that is to heat with waste heat panics (`C105_heat`).
* C106: csv reading, the cache and its download are in C124 and C125, here rows that cannot be read and numbers that are not finite
  are left out; text is ASCII. `f64::round`, reading a number and the Nelder-Mead fit are arbitrary functions, so that the
  fitted coefficients reproduce the coast-down is not claimed.
* C106, found: see `C106_drive_found`, `C106_drive_code` (drive), `C106_engine_found` (hybrids), `C106_gears_manual`,
  `C106_gears_other`, `C106_gears_panic`, `C106_all_panic` (transmissions), `C106_unread` (inputs without effect),
  `ImportDemo.C106_repeat_found`, `ImportDemo.C106_family_found` (names), `ImportDemo.C106_case_found`,
  `ImportDemo.C106_files_found` (files).
* C107: option parsing (`clap`), JSON text, file reading, the printed format and the Nelder-Mead fit are left out:
  options, JSON values, the contents of files and the fit are arbitrary.
* C107, found: see `C107_coastdown` (the given vehicle is not read), `C107_adopt_false`, `C107_no_json_cycle`,
  `C107_flat_table`, `C107_parts_stay` and `CliDemo.C107_rewrite_demo`.
* C108: values that are not a number are left out (no `NaN` in a field).
* C109: case is modelled for ASCII only. Found: `C55_blank` (python and codes with a blank), `C109_demo`.
* C110: a simulation touches only itself, which is trusted (Rust's `par_iter_mut`); the state in which a failed run
  leaves a simulation is arbitrary.
* C111: car following and coasting off; times start at zero. Found: `C111_measure`, `C111_again`, `C111_left_alone`,
  `C111_parts` (a run in which python shortens a step to come back to the trace and Rust does not).
* C112: the text of numbers and the layout of files are left out; a csv file is its rows, a row that does not parse is
  left out. Found: `C112_missing_cell`, `C112_serde`, `C112_defaults` (times and speeds alone: accepted by python and
  `from_dict`, refused as csv or json), `C112_shifted_grade`.
* C113: the Nelder-Mead search is arbitrary; a run that stops half way (its error is ignored by the code) is left out,
  and so are hybrids. Found: `C113_density_unused`, `C113_flags`, `C113_cost` (runs that never stop),
  `C113_never_exact`.
* C114: the tables are exact decimals. Found: `C114_prandtl_between`, `C114_heat_capacity_cold`.
* C115: numbers are exact; the comparison of whole objects is shown for cycles, the other records have the same form.
  Found: `C115_longer`, `C115_cut`, `C115_not_passed_on`, `C115_zero_tolerance`, `C115_large_tolerance`, `C115_small`.
* C116: the text formats themselves are not modelled: a number is read as it was written. Found:
  `C116_engine_peak_lost`, `C116_motor_peak_lost`, `C116_gravity_lost`, `C116_derived_edits`, `C116_curve_in_file`,
  `C116_no_map`, `C116_imported`.
* C117: what a format writes is a parameter; URLs are in C126, the creation of folders is not modelled. Found: `C117_emptied`,
  `C117_loaded_not_listed`, `C117_listed_not_loaded`, `C117_cache_absolute`.
* C118: no limit felt is the hypothesis `Unlimited` of C91; `C118_full_battery` shows it is needed.
* C119: vehicles with the same other data; the recorded mass `veh_kg` is changed, as `set_veh_mass` does.
  `C119_slowing_down` shows that the condition on the end is needed.
* C120: `C120_fuel_can_rise` shows that the claim does not extend to fuel. The battery-electric parts of C119 and C120 use the
  hypothesis `Unlimited` of C91 and a share of the braking between 0 and 1.
* C121: conventional vehicles without coasting, car following and missed-trace correction. `C121_less_drag_misses` and
  `C121_grip_exceeded` are the surprising cases.
* C122: a sufficient condition (the battery can feed the motor at its rating). Nothing is said about trips outside it.
* C123: hybrids with a combustion engine that feed the accessories from the battery. `C123_run` and `C123_range` need
  a battery that can feed the motor at its rating (C122); `C123_same` does not.
* C124: the answers of the net do not change during a call, and only creating a file can fail. Found: `C124_mixed`.
* C125: what `csv` makes of a file, and the headings of the tests of cars, are parameters. Found: `C125_blank_id`,
  `C125_score`.
* C126: the repository answers every request and has no cycles. Found: `C126_lists` (one file without extension spoils
  the list), `C126_two_slashes`.
* C127: values that are written are taken to have the type of the field; setters that change several fields change
  one; `usize` has 64 bits and the build is a release build. `C127_lost_peak`, `C127_lost_unmarked`,
  `C127_lost_method`, `C127_copy_demo` and `C127_item_panic` are the surprising cases.
* C128: the fields of a state are values of one type. `C128_ragged` is the surprising case.
* C129: the traces are met (or within the limits of C121, `C129_run`). `C129_slope_lost` shows what the default of
  `resample` does.
* C130: car following has no safeguard for steps longer than the headway (`C130_long_steps`).
* C131: the fuel is not a continuous function of the speeds, as efficiencies are looked up without interpolation
  (`C131_jump`).
* C132: paths are compared as texts; links, `..` and doubled slashes are not followed. `C132_absolute_found` is the
  surprising case.
* C133: the code contains two powers as constants, the step back of 0.01 kW from the end of a motor table and the
  allowance of 1e-6 kW beside the motor limit; `WideMaps` and `OffLimit` keep away from them. `C133_small_motor` shows
  that the first matters. A hybrid without a given starting charge is left out, as its balance of charge runs the
  trace several times.
* C134: `Unlimited` is assumed of both runs where parts differ, as a better part may raise a power above another limit
  (C121). `C134_better_takes_more` is the finding about the table of the motor.
* C135: the text of messages and overflow are not modelled; `C135_found` is the surprising case. Python logs a
  not-a-number there and goes on.
* C136: every failure to read a file is the same failure; a missing current folder is a panic and is excluded by
  hypothesis.
* C137: conventional vehicles only; netAccel is not compared. `C137_more_load` shows that the ratio cannot be left
  out.
* C138: netAccel is not compared. For motors with several efficiencies a better transmission can take more
  (`C134_better_takes_more`), so uses are compared for one efficiency only. The range of the code is what the whole
  battery would allow, not the window of charge.
* C139: bounds are for a vehicle without cabin model (the heater of one can take heat from the engine below the air's
  temperature) and assume the duration, speed and engine output of the rows to be nonnegative; that the fuel is no less
  than the output follows from the engine model (`C139_fuel`), except for the one with catalyst and engine, whose
  coefficient stays what it was above light-off (C103). The surface is what the code computes (`fc_l` to the power 2/4, not 2).
* C140: the acceleration test's condition is assumed (C102 says what happens otherwise). The demo cars are strong
  enough to meet the acceleration trace in one step, so that the condition can be shown.
* C141: that the conductance is not negative and the steps are short is assumed of the relation (`CabinSteps`);
  `cabinConducts_nonneg` derives the sign from the settings and from the power function being large enough for the
  formula of the plate, `cabin_of_recorded` both from recorded heat. The functions of the cases give one power a large
  value for that reason.
* C142: sine and cosine of the slope are uninterpreted; `C142_return` and `C142_return_any` assume their values at zero and that the cosine
  is at most one. The case uses two slopes whose sine and cosine are rational and exact.
* C143: exhaust flow is assumed not negative, as recorded by the run; the lower bounds take the recorded temperatures of the gas
  as given, the upper bounds derive them from the adiabatic temperature. The catalyst's steps are short when its conductance to the
  air and 1336.1 J/(kg K) of exhaust do not empty its thermal mass; for longer steps C105 has the overshoot.
* C144: needs the exhaust model, without which the code records no exhaust heat; the even-step forms assume one
  duration for all steps.
* C145: the flame limit assumes an air-fuel ratio of at least stoichiometric and non-negative fuel and engine power;
  the range needs neither.
* C146: no links and no missing permissions; `std::fs::remove_dir_all` is trusted to delete what is in the folder and
  then the folder. What it reports for a folder named by `.` or `..` depends on the version of the library and is a
  parameter.
* C147: keys of dictionaries are texts; numpy numbers other than `np.float64` are opaque values that stay as they are;
  the text of the yaml file is not modelled.
* C51: an empty car-following table raises `IndexError` (`C51_conditions_needed`).

Vehicles, copies, utilities
* C38: setting the engine peak leaves the map unscaled and is lost on re-deriving; motor input powers are not rescaled
  (`C38_engine_map_refuted`, `C38_engine_setting_lost`, `C38_motor_inputs_refuted`, `demo_motor_override_unstable`).
* C65: a name containing "true" or "false" becomes a truth value; an empty `force_aux_on_fc` switches it on; the length of the
  motor map is not checked; an engine map that cannot be read is replaced silently; a vehicle without engine still needs
  a known engine type (`C65_name_lost`, `C65_blank_force_aux`, `LoadDemo.C65_flaws_demo`, `LoadDemo.C65_rejected_demo`).
* C39: copies lose custom arrays and hand-set peaks; engine types with own names cannot be copied; equality ignores the mass
  override; legacy copies raise `AttributeError` (`C39_copy_loses_arrays`, `C39_copy_loses_peak`, `C39_unknown_engine_copy`,
  `C39_override_ignored`, `C39_legacy_vehicle`).
* C40/C41/C56: a hybrid that takes no fuel has no label (`C40_no_fuel`); two keys are fused (`C41_fused`); the fuel of
  depleting cycles is ignored, a whole number of cycles raises `ValueError`, less than one gives `nan`, long ranges raise
  `ValueError` (`C56_depleting_fuel_ignored`, `C56_whole_cycles`, `C56_less_than_one`, `C56_beyond_table`).
* C42: `NONE` raises `KeyError`; unknown levels are not restored; the level of `fastsim_core` is overwritten
  (`C42_name_none`, `C42_not_restored`, `C42_core_not_restored`).
* C43: `PhysicalProperties` cannot be written by path; a value is stored despite the error; a self-referencing write is undone
  (`C43_no_reset`, `C43_stored_despite_error`, `C43_self_reference`).
* C44: held columns are dropped and the remainder is lost (`C44_hold_dropped`, `C44_rest_lost`).
* C55: codes starting LT or ST are rejected, codes without letter misread (`C55_two_letters`, `C55_no_letter`).
