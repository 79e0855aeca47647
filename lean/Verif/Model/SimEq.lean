import Verif.Model.Copy

/-!
# Comparing and copying `SimDrive` objects (`sim_drive_equal`, `copy_sim_drive`, simdrive.py:2305-2417)

Objects are taken by value: their attributes by name. Sharing of arrays between an object and its copy is the subject of
`Model/SimHeap.lean`. As in `Model/Copy.lean` the Rust classes and the identity test `a is b` are left out, and so is `nan`.
-/

namespace Fastsim

/-- The value of an attribute of a `SimDrive`. Simplification: of the cache only that it exists. -/
inductive SdVal (K W : Type*) where
  | veh (v : VehRec K)
  | cyc (c : CycObj K)
  | pars (a : Attrs W)
  | int (n : Int)
  | nums (l : List K)
  | flags (l : List Bool)
  | ints (l : List Int)
  | cache

/-- The arrays made by `init_arrays` (simdrive.py:210-333), in the order of their first assignment. -/
def sdArrays : List String :=
  ["cur_max_fs_kw_out", "fc_trans_lim_kw", "cur_max_fc_kw_out", "ess_cap_lim_dischg_kw", "cur_ess_max_kw_out",
   "cur_max_avail_elec_kw", "ess_cap_lim_chg_kw", "cur_max_ess_chg_kw", "cur_max_elec_kw", "mc_elec_in_lim_kw",
   "mc_transi_lim_kw", "cur_max_mc_kw_out", "ess_lim_mc_regen_perc_kw", "cur_max_mech_mc_kw_in",
   "cur_max_trans_kw_out", "cyc_trac_kw_req", "cur_max_trac_kw", "spare_trac_kw", "cyc_whl_rad_per_sec",
   "cyc_tire_inertia_kw", "cyc_whl_kw_req", "regen_contrl_lim_kw_perc", "cyc_regen_brake_kw",
   "cyc_fric_brake_kw", "cyc_trans_kw_out_req", "cyc_met", "trans_kw_out_ach", "trans_kw_in_ach",
   "cur_soc_target", "min_mc_kw_2help_fc", "mc_mech_kw_out_ach", "mc_elec_kw_in_ach", "aux_in_kw",
   "impose_coast", "roadway_chg_kw_out_ach", "min_ess_kw_2help_fc", "ess_kw_out_ach", "fc_kw_out_ach",
   "fc_kw_out_ach_pct", "fc_kw_in_ach", "fs_kw_out_ach", "fs_cumu_mj_out_ach", "fs_kwh_out_ach", "ess_cur_kwh",
   "soc", "regen_buff_soc", "ess_regen_buff_dischg_kw", "max_ess_regen_buff_chg_kw", "ess_accel_buff_chg_kw",
   "accel_buff_soc", "max_ess_accell_buff_dischg_kw", "ess_accel_regen_dischg_kw",
   "mc_elec_in_kw_for_max_fc_eff", "elec_kw_req_4ae", "can_pwr_all_elec", "desired_ess_kw_out_for_ae",
   "ess_ae_kw_out", "er_ae_kw_out", "ess_desired_kw_4fc_eff", "ess_kw_if_fc_req", "cur_max_mc_elec_kw_in",
   "fc_kw_gap_fr_eff", "er_kw_if_fc_req", "mc_elec_kw_in_if_fc_req", "mc_kw_if_fc_req", "fc_forced_on",
   "fc_forced_state", "mc_mech_kw_4forced_fc", "fc_time_on", "prev_fc_time_on", "mps_ach", "mph_ach", "dist_m",
   "dist_mi", "high_acc_fc_on_tag", "reached_buff", "max_trac_mps", "add_kwh", "dod_cycs", "ess_perc_dead",
   "drag_kw", "ess_loss_kw", "accel_kw", "ascent_kw", "rr_kw", "cur_max_roadway_chg_kw", "trace_miss_iters",
   "newton_iters", "coast_delay_index", "idm_target_speed_m_per_s"]

/-- `ref_sim_drive.__dict__.keys()` (simdrive.py:195-208, 210-333, 2305): what a new object has, in the order of assignment.
Results computed after a run (`fuel_kj`, `mpgge`, ...) are not among them. -/
def sdKeys : List String :=
  ["veh", "cyc", "cyc0", "sim_params", "props", "i"] ++ sdArrays ++ ["cyc0_cache", "hev_sim_count"]

section Lawless
variable {K W : Type*} [Zero K] [One K] [NatCast K] [Add K] [Sub K] [Mul K] [Div K] [Neg K]
  [LinearOrder K] [DecidableEq W]

/-- `(a_val == b_val).all()` on two one-dimensional arrays (simdrive.py:2398-2409): an array of one element is compared with
every element of the other; otherwise different lengths are an error (`ValueError`; numpy before 1.25: `AttributeError`, as the
comparison gives a plain `False`). -/
def arrEqual {A : Type*} [DecidableEq A] (l l' : List A) : Except PyErr Bool :=
  if l.length = l'.length then .ok (decide (l = l'))
  else match l, l' with
    | [x], _ => .ok (l'.all fun y => decide (x = y))
    | _, [y] => .ok (l.all fun x => decide (x = y))
    | _, _ => .error .valueError

/-- One pass of the loop (simdrive.py:2378-2416). Simplification: values of different kinds count as different. -/
def sdEntryEqual (k : String) (a b : SdVal K W) : Except PyErr Bool :=
  if k = "cyc" ∨ k = "cyc0" then
    match a, b with
    | .cyc c, .cyc c' => .ok (cycEqual c c')
    | _, _ => .error .attributeError
  else if k = "veh" then
    match a, b with
    | .veh v, .veh v' => vehEqual v v'
    | _, _ => .error .attributeError
  else if k = "props" then
    match a, b with
    | .pars p, .pars p' => physPropsEqual p p'
    | _, _ => .error .attributeError
  else if k = "sim_params" then
    match a, b with
    | .pars p, .pars p' => simParamsEqual p p'
    | _, _ => .error .attributeError
  else match a, b with
    | .nums l, .nums l' => arrEqual l l'
    | .flags l, .flags l' => arrEqual l l'
    | .ints l, .ints l' => arrEqual l l'
    | .int n, .int n' => .ok (decide (n = n'))
    | _, _ => .ok false

/-- The loop of `sim_drive_equal` (simdrive.py:2377-2417) over the remaining keys. -/
def sdEqualLoop (a b : Attrs (SdVal K W)) : List String → Except PyErr Bool
  | [] => .ok true
  | k :: ks =>
    if k = "cyc0_cache" then sdEqualLoop a b ks
    else match a k, b k with
      | some v, some v' => match sdEntryEqual k v v' with
        | .error e => .error e
        | .ok true => sdEqualLoop a b ks
        | .ok false => .ok false
      | _, _ => .error .attributeError

/-- simdrive.py:2373-2417 `sim_drive_equal(a, b)`. -/
def simDriveEqual (a b : Attrs (SdVal K W)) : Except PyErr Bool := sdEqualLoop a b sdKeys

/-- simdrive.py:2309-2370 `copy_sim_drive(sd, 'python')`. `freshParams` and `freshProps` are new objects of these classes; the
vehicle's copy is made without them, so a failure of any part is reported in the order of the code: cycle, vehicle, and then
whatever attribute comes first (the model: `cyc`, `sim_params`, `props`). Attributes of the original that a new object does not
have (results computed after a run) are copied as well. -/
def copySimDriveObj (freshParams freshProps : Attrs W) (a : Attrs (SdVal K W)) : Except PyErr (Attrs (SdVal K W)) :=
  match a "cyc0", a "veh", a "cyc", a "sim_params", a "props" with
  | some (.cyc c0), some (.veh v), some (.cyc c), some (.pars p), some (.pars q) =>
    match copyCycle c0 .python with
    | .ok (.obj c0') =>
      match copyVehicle v with
      | .error e => .error e
      | .ok v' =>
        match copyCycle c .python with
        | .ok (.obj c') =>
          match copyAttrs simParamKeys freshParams p .python with
          | .ok (.obj p') =>
            match copyAttrs propKeys freshProps q .python with
            | .ok (.obj q') =>
              .ok fun k => if k = "cyc0" then some (.cyc c0') else if k = "veh" then some (.veh v')
                else if k = "cyc" then some (.cyc c') else if k = "sim_params" then some (.pars p')
                else if k = "props" then some (.pars q') else a k
            | .ok (.dict _) => .error .typeError
            | .error e => .error e
          | .ok (.dict _) => .error .typeError
          | .error e => .error e
        | .ok (.dict _) => .error .typeError
        | .error e => .error e
    | .ok (.dict _) => .error .typeError
    | .error e => .error e
  | _, _, _, _, _ => .error .attributeError

end Lawless
end Fastsim
