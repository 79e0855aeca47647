import Verif.Props.Load

/-!
# Witnesses for C65 and C66
-/

namespace Fastsim.Props
open Spec

/-! ### The first vehicle of the database -/

namespace LoadDemo

/-- A reader for the demonstration: it knows whole numbers and two lists. -/
def R : Reader ℚ where
  float s := if s ≠ [] ∧ s.all Char.isDigit then some (some (digitsNum s : ℚ)) else none
  int s := if s ≠ [] ∧ s.all Char.isDigit then some (digitsNum s : ℚ) else none
  trunc x := if 0 ≤ x then ⌊x⌋ else ⌈x⌉
  literal s :=
    if s = "[0.10, 0.12, 0.16, 0.22, 0.28, 0.33, 0.35, 0.36, 0.35, 0.34, 0.32, 0.30]".toList then
      some [1/10, 12/100, 16/100, 22/100, 28/100, 33/100, 35/100, 36/100, 35/100, 34/100, 32/100, 30/100]
    else if s = "[0.00, 0.02, 0.04, 0.06, 0.08,  0.10,  0.20,  0.40,  0.60,  0.80,  1.00]".toList then
      some [0, 2/100, 4/100, 6/100, 8/100, 10/100, 20/100, 40/100, 60/100, 80/100, 1]
    else if s = "[0.5, 0.6]".toList then some [1/2, 6/10]
    else none
  str _ := []

/-- The first row of `FASTSim_py_veh_db.csv`, a 2016 Toyota Corolla, with its columns. -/
def corolla : List (String × LVal ℚ) :=
  [("selection", .num (1)), ("Scenario name", .text "2016 TOYOTA Corolla 4cyl 2WD".toList),
   ("veh_year", .nan), ("veh_pt_type", .text "Conv".toList), ("drag_coef", .num (3 / 10)),
   ("frontal_area_m2", .num (1287 / 500)), ("glider_kg", .num (261409 / 250)),
   ("veh_cg_m", .num (53 / 100)), ("drive_axle_weight_frac", .num (61 / 100)),
   ("wheel_base_m", .num (13 / 5)), ("cargo_kg", .num (136)), ("veh_override_kg", .nan),
   ("fs_max_kw", .num (2000)), ("fs_secs_to_peak_pwr", .num (1)), ("fs_kwh", .num (441)),
   ("fs_kwh_per_kg", .num (989 / 100)), ("fc_max_kw", .num (98)),
   ("fc_eff_map", .text "[0.10, 0.12, 0.16, 0.22, 0.28, 0.33, 0.35, 0.36, 0.35, 0.34, 0.32, 0.30]".toList),
   ("fc_eff_type", .text "SI".toList), ("fc_sec_to_peak_pwr", .num (6)), ("fc_base_kg", .num (61)),
   ("fc_kw_per_kg", .num (213 / 100)),
   ("mc_pwr_out_perc", .text "[0.00, 0.02, 0.04, 0.06, 0.08,  0.10,  0.20,  0.40,  0.60,  0.80,  1.00]".toList),
   ("mc_max_kw", .num (0)), ("mc_sec_to_peak_pwr", .num (4)), ("stop_start", .bool false),
   ("mc_pe_kg_per_kw", .num (833 / 1000)), ("mc_pe_base_kg", .num (108 / 5)), ("ess_max_kw", .num (0)),
   ("ess_max_kwh", .num (0)), ("ess_kg_per_kwh", .num (8)), ("ess_base_kg", .num (75)),
   ("ess_round_trip_eff", .num (97 / 100)), ("ess_life_coef_a", .num (110)),
   ("ess_life_coef_b", .num (-6811 / 10000)), ("wheel_inertia_kg_m2", .num (163 / 200)),
   ("num_wheels", .num (4)), ("wheel_rr_coef", .num (1 / 100)), ("wheel_radius_m", .num (42 / 125)),
   ("wheel_coef_of_fric", .num (4 / 5)), ("min_soc", .num (1 / 10)), ("max_soc", .num (19 / 20)),
   ("ess_dischg_to_fc_max_eff_perc", .num (0)), ("ess_chg_to_fc_max_eff_perc", .num (0)),
   ("max_accel_buffer_mph", .num (60)), ("max_accel_buffer_perc_of_useable_soc", .num (1 / 5)),
   ("perc_high_acc_buf", .num (0)), ("mph_fc_on", .num (55)), ("kw_demand_fc_on", .num (100)),
   ("alt_eff", .num (1)), ("chg_eff", .num (43 / 50)), ("aux_kw", .num (7 / 10)),
   ("force_aux_on_fc", .bool false), ("trans_kg", .num (114)), ("trans_eff", .num (23 / 25)),
   ("comp_mass_multiplier", .num (7 / 5)), ("ess_to_fuel_ok_error", .num (1 / 200)),
   ("max_regen", .num (49 / 50)), ("val_udds_mpgge", .num (27)), ("val_hwy_mpgge", .num (36)),
   ("val_comb_mpgge", .num (31)), ("val_udds_kwh_per_mile", .nan), ("val_hwy_kwh_per_mile", .nan),
   ("val_comb_kwh_per_mile", .nan), ("val_cd_range_mi", .nan), ("val_const65_mph_kwh_per_mile", .nan),
   ("val_const60_mph_kwh_per_mile", .nan), ("val_const55_mph_kwh_per_mile", .nan),
   ("val_const45_mph_kwh_per_mile", .nan), ("val_unadj_udds_kwh_per_mile", .nan),
   ("val_unadj_hwy_kwh_per_mile", .nan), ("val0_to60_mph", .num (99 / 10)), ("val_ess_life_miles", .nan),
   ("val_range_miles", .nan), ("val_veh_base_cost", .nan), ("val_msrp", .nan),
   ("min_fc_time_on", .num (30)), ("idle_fc_kw", .num (49 / 25)), ("mc_eff_map", .nan)]

/-- The dictionary of that row. -/
def dict : PyDict (LVal ℚ) :=
  [("selection", .num (1)), ("scenario_name", .text "2016 TOYOTA Corolla 4cyl 2WD".toList),
   ("veh_year", .nan), ("veh_pt_type", .text "Conv".toList), ("drag_coef", .num (3 / 10)),
   ("frontal_area_m2", .num (1287 / 500)), ("glider_kg", .num (261409 / 250)),
   ("veh_cg_m", .num (53 / 100)), ("drive_axle_weight_frac", .num (61 / 100)),
   ("wheel_base_m", .num (13 / 5)), ("cargo_kg", .num (136)), ("veh_override_kg", .nan),
   ("fs_max_kw", .num (2000)), ("fs_secs_to_peak_pwr", .num (1)), ("fs_kwh", .num (441)),
   ("fs_kwh_per_kg", .num (989 / 100)), ("fc_max_kw", .num (98)),
   ("fc_eff_map", .text "[0.10, 0.12, 0.16, 0.22, 0.28, 0.33, 0.35, 0.36, 0.35, 0.34, 0.32, 0.30]".toList),
   ("fc_eff_type", .text "SI".toList), ("fc_sec_to_peak_pwr", .num (6)), ("fc_base_kg", .num (61)),
   ("fc_kw_per_kg", .num (213 / 100)),
   ("mc_pwr_out_perc", .text "[0.00, 0.02, 0.04, 0.06, 0.08,  0.10,  0.20,  0.40,  0.60,  0.80,  1.00]".toList),
   ("mc_max_kw", .num (0)), ("mc_sec_to_peak_pwr", .num (4)), ("stop_start", .bool false),
   ("mc_pe_kg_per_kw", .num (833 / 1000)), ("mc_pe_base_kg", .num (108 / 5)), ("ess_max_kw", .num (0)),
   ("ess_max_kwh", .num (0)), ("ess_kg_per_kwh", .num (8)), ("ess_base_kg", .num (75)),
   ("ess_round_trip_eff", .num (97 / 100)), ("ess_life_coef_a", .num (110)),
   ("ess_life_coef_b", .num (-6811 / 10000)), ("wheel_inertia_kg_m2", .num (163 / 200)),
   ("num_wheels", .num (4)), ("wheel_rr_coef", .num (1 / 100)), ("wheel_radius_m", .num (42 / 125)),
   ("wheel_coef_of_fric", .num (4 / 5)), ("min_soc", .num (1 / 10)), ("max_soc", .num (19 / 20)),
   ("ess_dischg_to_fc_max_eff_perc", .num (0)), ("ess_chg_to_fc_max_eff_perc", .num (0)),
   ("max_accel_buffer_mph", .num (60)), ("max_accel_buffer_perc_of_useable_soc", .num (1 / 5)),
   ("perc_high_acc_buf", .num (0)), ("mph_fc_on", .num (55)), ("kw_demand_fc_on", .num (100)),
   ("alt_eff", .num (1)), ("chg_eff", .num (43 / 50)), ("aux_kw", .num (7 / 10)),
   ("force_aux_on_fc", .bool false), ("trans_kg", .num (114)), ("trans_eff", .num (23 / 25)),
   ("comp_mass_multiplier", .num (7 / 5)), ("ess_to_fuel_ok_error", .num (1 / 200)),
   ("max_regen", .num (49 / 50)), ("val_udds_mpgge", .num (27)), ("val_hwy_mpgge", .num (36)),
   ("val_comb_mpgge", .num (31)), ("val_udds_kwh_per_mile", .nan), ("val_hwy_kwh_per_mile", .nan),
   ("val_comb_kwh_per_mile", .nan), ("val_cd_range_mi", .nan), ("val_const65_mph_kwh_per_mile", .nan),
   ("val_const60_mph_kwh_per_mile", .nan), ("val_const55_mph_kwh_per_mile", .nan),
   ("val_const45_mph_kwh_per_mile", .nan), ("val_unadj_udds_kwh_per_mile", .nan),
   ("val_unadj_hwy_kwh_per_mile", .nan), ("val0_to60_mph", .num (99 / 10)), ("val_ess_life_miles", .nan),
   ("val_range_miles", .nan), ("val_veh_base_cost", .nan), ("val_msrp", .nan),
   ("min_fc_time_on", .num (30)), ("idle_fc_kw", .num (49 / 25)), ("mc_eff_map", .nan)]

/-- The same dictionary with some entries changed. -/
def changed (l : PyDict (LVal ℚ)) : PyDict (LVal ℚ) := l.foldl (fun d p => d.set p.1 p.2) dict

/-- Some attributes of a vehicle. -/
def attrs (ks : List String) (o : Except PyErr (PyDict (LVal ℚ))) : Except PyErr (List (Option (LVal ℚ))) :=
  o.map fun a => ks.map a.get?

/-- A table with one row. -/
def table (r : List (String × LVal ℚ)) : VehTable ℚ := ⟨r.map Prod.fst, [r.map Prod.snd]⟩

/-- The first vehicle of the database is loaded: its drag coefficient, its year (from the name), no mass override,
its name and its engine map. -/
theorem C65_demo : attrs ["drag_coef", "veh_year", "veh_override_kg", "scenario_name", "fc_eff_map"]
      (fromTable R (table corolla) 1).1 =
    .ok [some (.num (3 / 10)), some (.num 2016), some .pyNone,
      some (.text "2016 TOYOTA Corolla 4cyl 2WD".toList),
      some (.arr [1/10, 12/100, 16/100, 22/100, 28/100, 33/100, 35/100, 36/100, 35/100, 34/100, 32/100, 30/100])] ∧
    ((table corolla).cols.map columnKey).Nodup := by
  decide +kernel

/-- Cells: percentages, truth values, and a name that is lost because it contains the letters "true". -/
theorem C65_cells_demo : CellMeans R (.text "30%".toList) (.num (30 / ((100 : Nat) : ℚ))) ∧
    CellMeans R (.text "FALSE".toList) (.bool false) ∧
    CellMeans R (.text "75% hybrid".toList) (.text "75% hybrid".toList) ∧
    cleanData R (.text "True North pickup".toList) = .bool true := by
  refine ⟨.percent "30".toList 30 (by decide +kernel) (by decide +kernel), .no _ (by unfold IsWord; decide +kernel),
    .percentName "75".toList " hybrid".toList (by decide +kernel) (by decide +kernel) (by decide +kernel), ?_⟩
  decide +kernel

/-- A dictionary with flaws that nobody reports: the name has become a truth value; "accessories on the engine" was
left empty and is switched on; the motor map has two entries for eleven powers; the engine map cannot be read and is
replaced by that of the type. -/
theorem C65_flaws_demo : attrs ["scenario_name", "force_aux_on_fc", "mc_eff_map", "fc_eff_map"]
      (fromDict R (changed [("scenario_name", .bool true), ("veh_year", .num 2016), ("force_aux_on_fc", .nan),
        ("mc_eff_map", .text "[0.5, 0.6]".toList), ("fc_eff_map", .text "[0.10; 0.12]".toList)])) =
    .ok [some (.text "True".toList), some (.bool true), some (.arr [1/2, 6/10]),
      some (.arr [1/10, 12/100, 16/100, 22/100, 28/100, 33/100, 35/100, 36/100, 35/100, 34/100, 32/100, 30/100])] := by
  decide +kernel

/-- Peak efficiencies and an empty stop-start cell. -/
theorem C65_peaks_demo : attrs ["fc_peak_eff_override", "mc_peak_eff_override", "stop_start"]
      (fromDict R (changed [("fc_peak_eff_override", .num (4 / 10)), ("mc_peak_eff_override", .num (-1)),
        ("stop_start", .nan)])) =
    .ok [some (.num (4 / 10)), some .pyNone, some (.bool false)] := by
  decide +kernel

/-- Flaws that are reported: motor powers or an engine map of the wrong length, an engine of unknown type without a
map (even for a vehicle without engine), an unknown powertrain type. -/
theorem C65_rejected_demo :
    fromDict R (changed [("mc_pwr_out_perc", .text "[0.5, 0.6]".toList)]) = .error .assertionError ∧
    fromDict R (changed [("fc_eff_map", .text "[0.5, 0.6]".toList)]) = .error .assertionError ∧
    fromDict R (changed [("fc_eff_map", .nan), ("fc_eff_type", .nan), ("veh_pt_type", .text "BEV".toList)]) =
      .error .assertionError ∧
    fromDict R (changed [("veh_pt_type", .text "EV".toList)]) = .error .assertionError := by
  decide +kernel

/-- A missing entry and an entry for a derived attribute are type errors, an unknown entry is a key error. -/
theorem C65_names_demo :
    fromDict R (dict.filter fun p => p.1 ≠ "aux_kw") = .error .typeError ∧
    fromDict R (("veh_kg", .num 1500) :: dict) = .error .typeError ∧
    fromDict R (("colour", .text "red".toList) :: dict) = .error .keyError := by
  decide +kernel

/-- In a table an unknown column is rejected as such, and there must be a column `selection`. -/
theorem C65_columns_demo :
    (fromTable R (table [("selection", .num 1), ("colour", .text "red".toList)]) 1).1 = .error .assertionError ∧
    (fromTable R (table [("drag_coef", .num 1)]) 1).1 = .error .keyError ∧
    (fromTable R (table [("selection", .num 1), ("drag_coef", .num 1)]) 2).1 = .error .keyError := by
  decide +kernel

/-- The row of the database meets the conditions of `C65_accepts`. -/
theorem C65_accepts_demo : Acceptable R (requiredKeys ++ optionalKeys) requiredKeys defaultFcPwrOutPerc
    defaultMcPwrOutPerc (fun t => builtinFcMap (engineOf t))
    dict where
  distinct := by decide +kernel
  names := by decide +kernel
  present := by
    have : ∀ k ∈ requiredKeys, k ∈ dict.map Prod.fst ∨
      k ∈ ["fc_pwr_out_perc", "mc_pwr_out_perc", "mc_eff_map", "veh_override_kg", "veh_year"] := by decide +kernel
    intro k hk
    rcases this k hk with h | h
    · obtain ⟨p, hp, rfl⟩ := List.mem_map.1 h
      exact .inl ⟨p.2, hp⟩
    · exact .inr h
  plain := by
    have : ∀ p ∈ dict, p.1 ∉ notPlain →
        (match p.2 with | .num _ => true | .nan => true | _ => false) = true := by decide +kernel
    intro p hp hk
    have := this p hp hk
    split at this
    · next x e => exact .inl ⟨x, e⟩
    · next e => exact .inr e
    · cases this
  whole := by
    have : ∀ p ∈ dict, p.1 = "selection" ∨ p.1 = "num_wheels" →
        (match p.2 with | .num _ => true | _ => false) = true := by decide +kernel
    intro p hp hk
    have := this p hp hk
    split at this
    · next x e => exact ⟨x, e⟩
    · cases this
  year := by
    have : ∀ p ∈ dict, p.1 = "veh_year" → p.2 = .nan := by
      decide +kernel
    exact fun p hp hk => .inr (this p hp hk)
  switches := by
    have : ∀ p ∈ dict,
        p.1 = "stop_start" ∨ p.1 = "force_aux_on_fc" → p.2 = .bool false := by decide +kernel
    exact fun p hp hk => .inl ⟨false, this p hp hk⟩
  pt := .inl (by decide +kernel)
  engine := ⟨"SI".toList,
    .text "[0.10, 0.12, 0.16, 0.22, 0.28, 0.33, 0.35, 0.36, 0.35, 0.34, 0.32, 0.30]".toList,
    [1/10, 12/100, 16/100, 22/100, 28/100, 33/100, 35/100, 36/100, 35/100, 34/100, 32/100, 30/100],
    defaultFcPwrOutPerc, by decide +kernel, by decide +kernel, .inl ⟨_, rfl, by decide +kernel⟩,
    .inr ⟨fun s hs => absurd
      ((show List.lookup "fc_pwr_out_perc" dict = none by decide +kernel).symm.trans hs) (by simp), rfl⟩,
    by decide +kernel⟩
  motor := ⟨[0, 2/100, 4/100, 6/100, 8/100, 10/100, 20/100, 40/100, 60/100, 80/100, 1],
    .inl ⟨"[0.00, 0.02, 0.04, 0.06, 0.08,  0.10,  0.20,  0.40,  0.60,  0.80,  1.00]".toList,
      by decide +kernel, by decide +kernel⟩, by decide +kernel⟩

/-- Loading a vehicle does change the table: a percentage is replaced by the number. -/
theorem C66_demo :
    (fromTable R (table [("selection", .num 1), ("drag_coef", .text "30%".toList)]) 1).2.rows =
      [[.num 1, .num (3 / 10)]] := by
  decide +kernel

end LoadDemo

end Fastsim.Props
