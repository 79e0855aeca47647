import Verif.Model.Vehicle

/-!
# Copying and comparing objects

`cycle.py` (`from_dict`, `to_dict`, `copy_cycle`, `equals`, `cyc_equal`), `parameters.py` and
`simdrive.py` (copies and equality of physical properties and simulation parameters) and
`vehicle.py` (`from_dict`, `copy_vehicle`, `veh_equal`).

Simplifications for the whole file: the Rust classes are left out (return type `'rust'`); so is the
sharing of arrays between an object and its copy (`deep=False`), as values are immutable here; `nan`
occurs only as a scalar vehicle attribute (`VVal.num none`); the identity test `a is b` at the start of
the comparisons is left out, since it only short-cuts a comparison of an object with itself.
-/

namespace Fastsim

/-- A Python dictionary in insertion order; keys are meant to be distinct. -/
abbrev PyDict (V : Type*) := List (String × V)

namespace PyDict
variable {V : Type*}

/-- `d.get(k)` -/
def get? (d : PyDict V) (k : String) : Option V := List.lookup k d

/-- `d[k] = v` -/
def set (d : PyDict V) (k : String) (v : V) : PyDict V :=
  match d with
  | [] => [(k, v)]
  | (k', v') :: d => if k' = k then (k, v) :: d else (k', v') :: set d k v

/-- `d.keys()` -/
def keys (d : PyDict V) : List String := d.map Prod.fst

end PyDict

/-! ### Cycles -/

/-- A value in a cycle dictionary: an array of numbers or a string. -/
inductive CVal (K : Type*) where
  | arr (l : List K)
  | str (s : String)
  deriving DecidableEq

/-- `len(v)` -/
def CVal.len {K : Type*} : CVal K → Nat
  | .arr l => l.length
  | .str s => s.length

/-- A `Cycle` object (cycle.py:96-106). -/
structure CycObj (K : Type*) where
  timeS : CVal K
  mps : CVal K
  grade : CVal K
  roadType : CVal K
  name : CVal K
  deriving DecidableEq

/-- cycle.py:29-35 `OLD_TO_NEW.get(key, key)` -/
def oldToNew (key : String) : String :=
  if key = "cycSecs" then "time_s" else if key = "cycMps" then "mps"
  else if key = "cycGrade" then "grade" else if key = "cycRoadType" then "road_type" else key

/-- cycle.py:37 `STANDARD_CYCLE_KEYS` -/
def standardCycleKeys : List String := ["time_s", "mps", "grade", "road_type", "name"]

section
variable {K : Type*} [Zero K]

/-- cycle.py:140-170 `Cycle.from_dict`. `np.array(val, dtype=float)` leaves arrays of numbers as they
are; a string (which numpy might read as a single number) is kept as a string. The default values of
`grade` and `road_type` are computed even when not needed: without times there is a `KeyError`. Without
speeds the constructor raises `TypeError`. -/
def cycFromDict (d : PyDict (CVal K)) : Except PyErr (CycObj K) :=
  let d1 := d.foldl (fun acc kv => PyDict.set acc (oldToNew kv.1) kv.2) []
  let d2 := PyDict.set d1 "name" ((PyDict.get? d "name").getD (.str ""))
  match PyDict.get? d2 "time_s" with
  | none => .error .keyError
  | some t =>
    let zeros : CVal K := .arr (List.replicate t.len 0)
    let d3 := PyDict.set d2 "grade" ((PyDict.get? d2 "grade").getD zeros)
    let d4 := PyDict.set d3 "road_type" ((PyDict.get? d3 "road_type").getD zeros)
    if (PyDict.keys d4).all fun k => standardCycleKeys.contains k then
      match PyDict.get? d4 "mps", PyDict.get? d4 "grade", PyDict.get? d4 "road_type",
        PyDict.get? d4 "name" with
      | some m, some g, some r, some n => .ok ⟨t, m, g, r, n⟩
      | _, _, _, _ => .error .typeError
    else .error .assertionError

/-- cycle.py:227-236 `Cycle.to_dict`; also what `copy_cycle(cyc, 'dict')` returns (cycle.py:995-1005;
the attributes in the order of the fields). -/
def cycToDict (c : CycObj K) : PyDict (CVal K) :=
  [("time_s", c.timeS), ("mps", c.mps), ("grade", c.grade), ("road_type", c.roadType),
   ("name", c.name)]

/-- `return_type` of the copy functions. `other` stands for every string not in the documented list. -/
inductive RetType where
  | dict | python | legacy | other
  deriving DecidableEq

/-- What the copy functions return: a dictionary or an object. -/
inductive Copied (D O : Type*) where
  | dict (d : D)
  | obj (o : O)
  deriving DecidableEq

/-- cycle.py:981-1026 `copy_cycle` of a Python cycle. `'legacy'` hands the dictionary to
`LegacyCycle`, which reads attributes from it (cycle.py:375-380): `AttributeError`. -/
def copyCycle (c : CycObj K) : RetType → Except PyErr (Copied (PyDict (CVal K)) (CycObj K))
  | .dict => .ok (.dict (cycToDict c))
  | .python => match cycFromDict (cycToDict c) with
    | .error e => .error e
    | .ok o => .ok (.obj o)
  | .legacy => .error .attributeError
  | .other => .error .valueError

variable [DecidableEq K]

/-- cycle.py:466-490 `equals` on dictionaries. A difference of kind (array against string) counts as
a difference of values; numpy compares element by element and would call an empty array and the empty
string equal. -/
def cycEquals (c1 c2 : PyDict (CVal K)) : Bool :=
  ((PyDict.keys c1).all fun k => (PyDict.keys c2).contains k) &&
  ((PyDict.keys c2).all fun k => (PyDict.keys c1).contains k) &&
  (PyDict.keys c1).all fun k =>
    match PyDict.get? c1 k, PyDict.get? c2 k with
    | some (.arr l), some (.arr l') =>
      decide (l.length = l'.length) && !((List.zip l l').any fun p => decide (p.1 ≠ p.2))
    | some (.str s), some (.str s') => decide (s.length = s'.length) && !decide (s ≠ s')
    | _, _ => false

/-- cycle.py:383-389 `cyc_equal` -/
def cycEqual (a b : CycObj K) : Bool := cycEquals (cycToDict a) (cycToDict b)

end

/-! ### Simulation parameters and physical properties -/

/-- The attributes of a Python object; `none`: there is no such attribute. -/
abbrev Attrs (V : Type*) := String → Option V

/-- `inspect_utils.get_attrs(SimDriveParams())` (simdrive.py:45-96) -/
def simParamKeys : List String :=
  ["favor_grade_accuracy", "missed_trace_correction", "max_time_dilation", "min_time_dilation",
   "time_dilation_tol", "max_trace_miss_iters", "trace_miss_speed_mps_tol", "trace_miss_time_tol",
   "trace_miss_dist_tol", "sim_count_max", "newton_gain", "newton_max_iter", "newton_xtol",
   "energy_audit_error_tol", "coast_allow", "coast_allow_passing", "coast_max_speed_m_per_s",
   "coast_brake_accel_m_per_s2", "coast_brake_start_speed_m_per_s", "coast_start_speed_m_per_s",
   "coast_time_horizon_for_adjustment_s", "idm_allow", "idm_v_desired_m_per_s", "idm_dt_headway_s",
   "idm_minimum_gap_m", "idm_delta", "idm_accel_m_per_s2", "idm_decel_m_per_s2",
   "idm_v_desired_in_m_per_s_by_distance_m", "max_epa_adj"]

/-- `inspect_utils.get_attrs(PhysicalProperties())` (parameters.py:41-49): the property
`fuel_lhv_kJ__kg` is not among them. -/
def propKeys : List String :=
  ["air_density_kg_per_m3", "a_grav_mps2", "kwh_per_gge", "fuel_rho_kg__L", "fuel_afr_stoich"]

section
variable {V : Type*}

/-- simdrive.py:122-123, parameters.py:84-89: read the attributes the reference object has. -/
def attrsDict (keys : List String) (a : Attrs V) : Except PyErr (PyDict V) :=
  match keys with
  | [] => .ok []
  | k :: ks => match a k with
    | none => .error .attributeError
    | some v => match attrsDict ks a with
      | .error e => .error e
      | .ok d => .ok ((k, v) :: d)

/-- simdrive.py:38-43, parameters.py:34-39: a fresh object, then every entry of the dictionary set. -/
def attrsFromDict (fresh : Attrs V) (d : PyDict V) : Attrs V :=
  d.foldl (fun a kv => fun k => if k = kv.1 then some kv.2 else a k) fresh

/-- `copy_sim_params` (simdrive.py:108-141) with `keys = simParamKeys` and
`copy_physical_properties` (parameters.py:68-107) with `keys = propKeys`. There is no `'legacy'` for
these two. -/
def copyAttrs (keys : List String) (fresh : Attrs V) (a : Attrs V) :
    RetType → Except PyErr (Copied (PyDict V) (Attrs V))
  | .dict => match attrsDict keys a with
    | .error e => .error e
    | .ok d => .ok (.dict d)
  | .python => match attrsDict keys a with
    | .error e => .error e
    | .ok d => .ok (.obj (attrsFromDict fresh d))
  | _ => match attrsDict keys a with
    | .error e => .error e
    | .ok _ => .error .valueError

/-- The loop of `sim_params_equal` (simdrive.py:164-171) over two dictionaries. -/
def dictsEqual [DecidableEq V] (d1 d2 : PyDict V) : Except PyErr Bool :=
  match d1 with
  | [] => .ok true
  | (k, v) :: d => match PyDict.get? d2 k with
    | none => .error .keyError
    | some v' => if v ≠ v' then .ok false else dictsEqual d d2

/-- simdrive.py:144-172 `sim_params_equal`. -/
def simParamsEqual [DecidableEq V] (a b : Attrs V) : Except PyErr Bool :=
  match attrsDict simParamKeys a with
  | .error e => .error e
  | .ok d1 => match attrsDict simParamKeys b with
    | .error e => .error e
    | .ok d2 => if d1.length ≠ d2.length then .ok false else dictsEqual d1 d2

/-- The loop of `physical_properties_equal` (parameters.py:114-117). -/
def propsLoop [DecidableEq V] (a b : Attrs V) : List String → Except PyErr Bool
  | [] => .ok true
  | k :: ks => match a k, b k with
    | some v, some v' => if v ≠ v' then .ok false else propsLoop a b ks
    | _, _ => .error .attributeError

/-- parameters.py:110-117 `physical_properties_equal`. -/
def physPropsEqual [DecidableEq V] (a b : Attrs V) : Except PyErr Bool := propsLoop a b propKeys

end

/-! ### Vehicles -/

/-- `fc_eff_type`: one of `FC_EFF_TYPES` (vehicle.py:96-101) or any other string. -/
inductive FcEffType where
  | si | atkinson | diesel | h2fc | hdDiesel | unknown (s : String)
  deriving DecidableEq

/-- The string. -/
def FcEffType.str : FcEffType → String
  | .si => "SI" | .atkinson => "Atkinson" | .diesel => "Diesel" | .h2fc => "H2FC"
  | .hdDiesel => "HD_Diesel" | .unknown s => s

/-- An entry of the vehicle dictionary that may hold an array as text: `text l` is a string that
`ast.literal_eval` reads as a list of numbers; everything else (no text, text that cannot be read,
`None`, `nan`, or a list that is already one) makes `ast.literal_eval` raise. -/
inductive Cell (K : Type*) where
  | text (l : List K)
  | notText

section Lawless
variable {K : Type*} [Zero K] [One K] [NatCast K] [Add K] [Sub K] [Mul K] [Div K] [Neg K]
  [LinearOrder K]

/-- parameters.py:128-137 and vehicle.py:391-407: the built-in engine maps. -/
def builtinFcMap : FcEffType → Option (List K)
  | .si => some [dec 10 100, dec 12 100, dec 16 100, dec 22 100, dec 28 100, dec 33 100, dec 35 100,
      dec 36 100, dec 35 100, dec 34 100, dec 32 100, dec 30 100]
  | .atkinson => some [dec 10 100, dec 12 100, dec 28 100, dec 35 100, dec 375 1000, dec 39 100,
      dec 40 100, dec 40 100, dec 38 100, dec 37 100, dec 36 100, dec 35 100]
  | .diesel => some [dec 10 100, dec 14 100, dec 20 100, dec 26 100, dec 32 100, dec 39 100,
      dec 41 100, dec 42 100, dec 41 100, dec 38 100, dec 36 100, dec 34 100]
  | .h2fc => some [dec 10 100, dec 30 100, dec 36 100, dec 45 100, dec 50 100, dec 56 100, dec 58 100,
      dec 60 100, dec 58 100, dec 57 100, dec 55 100, dec 54 100]
  | .hdDiesel => some [dec 10 100, dec 14 100, dec 20 100, dec 26 100, dec 32 100, dec 39 100,
      dec 41 100, dec 42 100, dec 41 100, dec 38 100, dec 36 100, dec 34 100]
  | .unknown _ => none

/-- The dictionary given to `Vehicle.from_dict`: the entries that are checked or replaced there, and
in `base` the ones that are taken over (including `veh_override_kg` and the two peak overrides). -/
structure VehDict (K : Type*) where
  base : VehObj K
  effType : FcEffType
  fcEffMap : Cell K
  fcPwrOutPerc : Cell K
  mcPwrOutPerc : Cell K
  mcEffMap : Cell K

/-- vehicle.py:482-495: an override is kept only between 0 and 1. -/
def cleanOverride : Option K → Option K
  | none => none
  | some x => if 0 < x ∧ x < 1 then some x else none

/-- vehicle.py:365-511 `Vehicle.from_dict` with `to_rust=False`, followed by the constructor, which
calls `set_derived` (vehicle.py:513-524). Left out: the guess of `veh_year` from the name, the
conversions of types, `veh_override_kg = nan` (here `none`), and the dictionary without the key
`fc_eff_map`, for which the error message itself raises `KeyError`. -/
def vehFromDict (d : VehDict K) : Except PyErr (VehObj K) :=
  let map? : Option (List K) := match d.fcEffMap with
    | .text l => some l
    | .notText => builtinFcMap d.effType
  match map? with
  | none => .error .assertionError
  | some map =>
    let pwr := match d.fcPwrOutPerc with | .text l => l | .notText => defaultFcPwrOutPerc
    if pwr.length ≠ map.length then .error .assertionError
    else
      let mpwr := match d.mcPwrOutPerc with | .text l => l | .notText => defaultMcPwrOutPerc
      if mpwr.length ≠ (largeBaselineEff : List K).length then .error .assertionError
      else
        let mmap := match d.mcEffMap with | .text l => some l | .notText => none
        VehObj.setDerived { d.base with
          fcType := if d.effType = .h2fc then .h2fc else .other
          fcEffMap := map, fcPwrOutPerc := pwr, mcPwrOutPerc := mpwr, mcEffMap := mmap
          fcPeakEffOverride := cleanOverride d.base.fcPeakEffOverride
          mcPeakEffOverride := cleanOverride d.base.mcPeakEffOverride }

/-- A vehicle with the attributes that are only carried along. -/
structure VehRec (K : Type*) where
  obj : VehObj K
  effType : FcEffType

/-- vehicle.py:38-66 `KEYS_TO_REMOVE`: the attributes a copy does not take over. The constructor
leaves them unset; here they get a value that `set_derived` replaces. -/
def VehObj.bare (o : VehObj K) : VehObj K :=
  { o with
    chargingOn := false, noElecSys := false, noElecAux := false, inputKwOutArray := []
    fcKwOutArray := [], fcEffArray := [], mcEffArray := [], mcKwInArray := [], mcKwOutArray := []
    mcMaxElecInKw := 0, mcFullEffArray := [], vehKg := 0, maxTracMps2 := 0, essMassKg := 0
    mcMassKg := 0, fcMassKg := 0, fsMassKg := 0 }

/-- vehicle.py:782-840 `copy_vehicle(veh, 'vehicle')`, the default for a Python vehicle: the arrays
enter the dictionary as lists, so `from_dict` cannot read them; afterwards `set_derived` is called
again. -/
def copyVehicle (r : VehRec K) : Except PyErr (VehRec K) :=
  match vehFromDict ⟨r.obj.bare, r.effType, .notText, .notText, .notText, .notText⟩ with
  | .error e => .error e
  | .ok v => match v.setDerived with
    | .error e => .error e
    | .ok v => .ok ⟨v, r.effType⟩

/-- vehicle.py:841-842: `copy_vehicle(veh, 'legacy')` hands the dictionary to `LegacyVehicle`, which
reads attributes from it (vehicle.py:755-760). -/
def copyVehicleLegacy (_ : VehRec K) : Except PyErr (VehRec K) := .error .attributeError

/-- A value in the dictionary of a vehicle. `num none` is `nan`; `props` are the five physical
properties. -/
inductive VVal (K : Type*) where
  | none
  | num (x : Option K)
  | str (s : String)
  | bool (b : Bool)
  | list (l : List K)
  | props (p : List K)
  deriving DecidableEq

/-- vehicle.py:923 `TOL` -/
def vehTol : K := dec 1 1000000

/-- `abs(x - y) > TOL` -/
def offBy (x y : K) : Bool := decide (vehTol < pabs (x - y))

/-- vehicle.py:948: `(np.abs(np.array(v1) - np.array(v2)) > TOL).any()` with a list as first value.
Lists of different length are an error unless one of them has a single element, which is then compared
with every element of the other. A number counts as a list of one; `nan` differs from nothing. -/
def listDiffers : List K → VVal K → Except PyErr Bool
  | l, .list l' =>
    if l.length = l'.length then .ok ((List.zip l l').any fun p => offBy p.1 p.2)
    else match l, l' with
      | [x], l' => .ok (l'.any fun y => offBy x y)
      | l, [y] => .ok (l.any fun x => offBy x y)
      | _, _ => .error .valueError
  | l, .num (some y) => .ok (l.any fun x => offBy x y)
  | _, .num .none => .ok false
  | _, _ => .error .typeError

/-- vehicle.py:939: how two mass overrides are compared. -/
def overrideSame : VVal K → VVal K → Bool
  | .none, .num (some y) => decide (y = 0)
  | .num (some x), .none => decide (x = 0)
  | .none, .none => true
  | .num (some x), .num (some y) => decide (x = y)
  | .num .none, _ => false
  | _, .num .none => false
  | a, b => decide (a = b)

/-- vehicle.py:929-959: does the comparison of one entry find a difference? Values of different kinds
count as different (Python's `True == 1.0` is left out); `nan` equals `nan`. -/
def entryDiffers (key : String) (v1 v2 : VVal K) : Except PyErr Bool :=
  if key = "veh_override_kg" then .ok (!overrideSame v1 v2)
  else match v1 with
    | .list l => listDiffers l v2
    | v1 => .ok (!decide (v1 = v2))

/-- vehicle.py:926-964 with `full_out=True`: the keys reported as different. -/
def vehDiffs (d2 : PyDict (VVal K)) : PyDict (VVal K) → Except PyErr (List String)
  | [] => .ok []
  | (k, v) :: d => match PyDict.get? d2 k with
    | .none => .error .keyError
    | some v2 => match entryDiffers k v v2 with
      | .error e => .error e
      | .ok b => match vehDiffs d2 d with
        | .error e => .error e
        | .ok ks => .ok (if b then k :: ks else ks)

/-- vehicle.py:926-964 with `full_out=False`: the first difference found ends the comparison, except
one of the mass override, which is only noted. -/
def vehEqualDicts (d2 : PyDict (VVal K)) : PyDict (VVal K) → Except PyErr Bool
  | [] => .ok true
  | (k, v) :: d => match PyDict.get? d2 k with
    | .none => .error .keyError
    | some v2 => match entryDiffers k v v2 with
      | .error e => .error e
      | .ok b => if b = true ∧ k ≠ "veh_override_kg" then .ok false else vehEqualDicts d2 d

/-- The string of `veh_pt_type`. -/
def PtType.str : PtType → String
  | .conv => "Conv" | .hev => "HEV" | .phev => "PHEV" | .bev => "BEV"

/-- `None` or a number. -/
def optNum : Option K → VVal K
  | none => .none
  | some x => .num (some x)

/-- `None` or an array. -/
def optList : Option (List K) → VVal K
  | none => .none
  | some l => .list l

/-- vehicle.py:804-836: `copy_vehicle(veh, 'dict')`, the entries that the model of the vehicle has, in
the order of `keys_and_types` (vehicle_base.py:9-127). Left out: `scenario_name`, `selection`,
`veh_year`, the `val_…` columns, the battery life coefficients, and of `props` everything but gravity. -/
def vehToDict (r : VehRec K) : PyDict (VVal K) :=
  let o := r.obj
  let n := fun x : K => VVal.num (some x)
  [("veh_pt_type", .str o.ptType.str), ("drag_coef", n o.dragCoef),
   ("frontal_area_m2", n o.frontalAreaM2), ("glider_kg", n o.gliderKg), ("veh_cg_m", n o.vehCgM),
   ("drive_axle_weight_frac", n o.driveAxleWeightFrac), ("wheel_base_m", n o.wheelBaseM),
   ("cargo_kg", n o.cargoKg), ("veh_override_kg", optNum o.vehOverrideKg),
   ("comp_mass_multiplier", n o.compMassMultiplier), ("fs_max_kw", n o.fsMaxKw),
   ("fs_secs_to_peak_pwr", n o.fsSecsToPeakPwr), ("fs_kwh", n o.fsKwh),
   ("fs_kwh_per_kg", n o.fsKwhPerKg), ("fc_max_kw", n o.fcMaxKw),
   ("fc_pwr_out_perc", .list o.fcPwrOutPerc), ("fc_eff_map", .list o.fcEffMap),
   ("fc_eff_type", .str r.effType.str), ("fc_sec_to_peak_pwr", n o.fcSecToPeakPwr),
   ("fc_base_kg", n o.fcBaseKg), ("fc_kw_per_kg", n o.fcKwPerKg),
   ("min_fc_time_on", n o.minFcTimeOn), ("idle_fc_kw", n o.idleFcKw), ("mc_max_kw", n o.mcMaxKw),
   ("mc_pwr_out_perc", .list o.mcPwrOutPerc), ("mc_eff_map", optList o.mcEffMap),
   ("mc_sec_to_peak_pwr", n o.mcSecToPeakPwr), ("mc_pe_kg_per_kw", n o.mcPeKgPerKw),
   ("mc_pe_base_kg", n o.mcPeBaseKg), ("ess_max_kw", n o.essMaxKw), ("ess_max_kwh", n o.essMaxKwh),
   ("ess_kg_per_kwh", n o.essKgPerKwh), ("ess_base_kg", n o.essBaseKg),
   ("ess_round_trip_eff", n o.essRoundTripEff), ("min_soc", n o.minSoc), ("max_soc", n o.maxSoc),
   ("ess_dischg_to_fc_max_eff_perc", n o.essDischgToFcMaxEffPerc),
   ("ess_chg_to_fc_max_eff_perc", n o.essChgToFcMaxEffPerc),
   ("wheel_inertia_kg_m2", n o.wheelInertiaKgM2), ("num_wheels", n o.numWheels),
   ("wheel_rr_coef", n o.wheelRrCoef), ("wheel_radius_m", n o.wheelRadiusM),
   ("wheel_coef_of_fric", n o.wheelCoefOfFric), ("max_accel_buffer_mph", n o.maxAccelBufferMph),
   ("max_accel_buffer_perc_of_useable_soc", n o.maxAccelBufferPercOfUseableSoc),
   ("perc_high_acc_buf", n o.percHighAccBuf), ("mph_fc_on", n o.mphFcOn),
   ("kw_demand_fc_on", n o.kwDemandFcOn), ("max_regen", n o.maxRegen),
   ("stop_start", .bool o.stopStart), ("force_aux_on_fc", .bool o.forceAuxOnFc),
   ("alt_eff", n o.altEff), ("chg_eff", n o.chgEff), ("aux_kw", n o.auxKw), ("trans_kg", n o.transKg),
   ("trans_eff", n o.transEff), ("ess_to_fuel_ok_error", n o.essToFuelOkError),
   ("props", .props [o.aGravMps2]), ("regen_a", n o.regenA), ("regen_b", n o.regenB),
   ("fc_peak_eff_override", optNum o.fcPeakEffOverride),
   ("mc_peak_eff_override", optNum o.mcPeakEffOverride)]

/-- vehicle.py:916-964 `veh_equal(veh1, veh2)`. -/
def vehEqual (a b : VehRec K) : Except PyErr Bool := vehEqualDicts (vehToDict b) (vehToDict a)

/-- vehicle.py:916-964 `veh_equal(veh1, veh2, full_out=True)`: the keys of the list returned. -/
def vehEqualFull (a b : VehRec K) : Except PyErr (List String) := vehDiffs (vehToDict b) (vehToDict a)

end Lawless

end Fastsim
