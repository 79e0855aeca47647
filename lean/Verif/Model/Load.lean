import Verif.Model.Copy

/-!
# Loading vehicles from a table

`vehicle.py`: `clean_data`, `Vehicle.from_vehdb`, `Vehicle.from_df` and `Vehicle.from_dict`, with the
tables of names and types of `vehicle_base.py`.

Simplifications for the whole file: text is a list of characters; `float`, `int`, `ast.literal_eval` and
`str` of numbers are unspecified functions (`Reader`); the derivation of further attributes by the
constructor (`set_derived`) is the subject of `Model/Vehicle.lean` and left out here, as are Rust vehicles,
overflow of `np.int32`, and letters and digits outside ASCII that Python's regular expressions also match.
-/

namespace Fastsim

/-- Text. -/
abbrev Txt := List Char

/-- A value in a vehicle table or a vehicle dictionary; `nan` is also what pandas puts for an empty
cell. -/
inductive LVal (K : Type*) where
  | num (x : K)
  | nan
  | bool (b : Bool)
  | text (s : Txt)
  | pyNone
  | arr (l : List K)
  | props
  deriving DecidableEq

/-- Python's conversions between text and numbers. -/
structure Reader (K : Type*) where
  /-- `float(s)`: `none` if it raises, `some none` for `nan` -/
  float : Txt → Option (Option K)
  /-- `int(s)`: `none` if it raises -/
  int : Txt → Option K
  /-- `int(x)` of a number -/
  trunc : K → K
  /-- `np.array(ast.literal_eval(s))` where the text is a list of numbers; `none` if it raises. Text of
  other literals is left out. -/
  literal : Txt → Option (List K)
  /-- `str(x)` of a number -/
  str : K → Txt

/-! ### Names -/

/-- vehicle_base.py:137-251 `NEW_TO_OLD` -/
def newToOld : List (String × String) :=
  [("props", "props"), ("fc_perc_out_array", "fcPercOutArray"),
   ("mc_perc_out_array", "mcPercOutArray"), ("selection", "Selection"),
   ("scenario_name", "Scenario_name"), ("veh_year", "vehYear"), ("veh_pt_type", "vehPtType"),
   ("drag_coef", "dragCoef"), ("frontal_area_m2", "frontalAreaM2"), ("glider_kg", "gliderKg"),
   ("veh_cg_m", "vehCgM"), ("drive_axle_weight_frac", "driveAxleWeightFrac"),
   ("wheel_base_m", "wheelBaseM"), ("cargo_kg", "cargoKg"), ("veh_override_kg", "vehOverrideKg"),
   ("fs_max_kw", "maxFuelStorKw"), ("fs_secs_to_peak_pwr", "fuelStorSecsToPeakPwr"),
   ("fs_kwh", "fuelStorKwh"), ("fs_kwh_per_kg", "fuelStorKwhPerKg"), ("fc_max_kw", "maxFuelConvKw"),
   ("fc_eff_map", "fcEffMap"), ("fc_eff_type", "fcEffType"),
   ("fc_sec_to_peak_pwr", "fuelConvSecsToPeakPwr"), ("fc_base_kg", "fuelConvBaseKg"),
   ("fc_kw_per_kg", "fuelConvKwPerKg"), ("mc_pwr_out_perc", "mcPwrOutPerc"),
   ("mc_max_kw", "maxMotorKw"), ("mc_sec_to_peak_pwr", "motorSecsToPeakPwr"),
   ("stop_start", "stopStart"), ("mc_pe_kg_per_kw", "mcPeKgPerKw"), ("mc_pe_base_kg", "mcPeBaseKg"),
   ("ess_max_kw", "maxEssKw"), ("ess_max_kwh", "maxEssKwh"), ("ess_kg_per_kwh", "essKgPerKwh"),
   ("ess_base_kg", "essBaseKg"), ("ess_round_trip_eff", "essRoundTripEff"),
   ("ess_life_coef_a", "essLifeCoefA"), ("ess_life_coef_b", "essLifeCoefB"),
   ("wheel_inertia_kg_m2", "wheelInertiaKgM2"), ("num_wheels", "numWheels"),
   ("wheel_rr_coef", "wheelRrCoef"), ("wheel_radius_m", "wheelRadiusM"),
   ("wheel_coef_of_fric", "wheelCoefOfFric"), ("min_soc", "minSoc"), ("max_soc", "maxSoc"),
   ("ess_dischg_to_fc_max_eff_perc", "essDischgToFcMaxEffPerc"),
   ("ess_chg_to_fc_max_eff_perc", "essChgToFcMaxEffPerc"),
   ("max_accel_buffer_mph", "maxAccelBufferMph"),
   ("max_accel_buffer_perc_of_useable_soc", "maxAccelBufferPercOfUseableSoc"),
   ("perc_high_acc_buf", "percHighAccBuf"), ("mph_fc_on", "mphFcOn"),
   ("kw_demand_fc_on", "kwDemandFcOn"), ("alt_eff", "altEff"), ("chg_eff", "chgEff"),
   ("aux_kw", "auxKw"), ("force_aux_on_fc", "forceAuxOnFC"), ("trans_kg", "transKg"),
   ("trans_eff", "transEff"), ("comp_mass_multiplier", "compMassMultiplier"),
   ("ess_to_fuel_ok_error", "essToFuelOkError"), ("max_regen", "maxRegen"),
   ("val_udds_mpgge", "valUddsMpgge"), ("val_hwy_mpgge", "valHwyMpgge"),
   ("val_comb_mpgge", "valCombMpgge"), ("val_udds_kwh_per_mile", "valUddsKwhPerMile"),
   ("val_hwy_kwh_per_mile", "valHwyKwhPerMile"), ("val_comb_kwh_per_mile", "valCombKwhPerMile"),
   ("val_cd_range_mi", "valCdRangeMi"), ("val_const65_mph_kwh_per_mile", "valConst65MphKwhPerMile"),
   ("val_const60_mph_kwh_per_mile", "valConst60MphKwhPerMile"),
   ("val_const55_mph_kwh_per_mile", "valConst55MphKwhPerMile"),
   ("val_const45_mph_kwh_per_mile", "valConst45MphKwhPerMile"),
   ("val_unadj_udds_kwh_per_mile", "valUnadjUddsKwhPerMile"),
   ("val_unadj_hwy_kwh_per_mile", "valUnadjHwyKwhPerMile"), ("val0_to60_mph", "val0To60Mph"),
   ("val_ess_life_miles", "valEssLifeMiles"), ("val_range_miles", "valRangeMiles"),
   ("val_veh_base_cost", "valVehBaseCost"), ("val_msrp", "valMsrp"),
   ("min_fc_time_on", "minFcTimeOn"), ("idle_fc_kw", "idleFcKw"), ("mc_eff_map", "mcEffMap"),
   ("fc_pwr_out_perc", "fcPwrOutPerc"), ("large_baseline_eff", "largeBaselineEff"),
   ("small_baseline_eff", "smallBaselineEff"), ("small_motor_power_kw", "smallMotorPowerKw"),
   ("large_motor_power_kw", "largeMotorPowerKw"), ("max_roadway_chg_kw", "MaxRoadwayChgKw"),
   ("charging_on", "chargingOn"), ("no_elec_sys", "noElecSys"), ("no_elec_aux", "noElecAux"),
   ("input_kw_out_array", "inputKwOutArray"), ("fc_kw_out_array", "fcKwOutArray"),
   ("fc_eff_array", "fcEffArray"), ("modern_max", "modernMax"), ("mc_eff_array", "mcEffArray"),
   ("mc_kw_in_array", "mcKwInArray"), ("mc_kw_out_array", "mcKwOutArray"),
   ("mc_max_elec_in_kw", "mcMaxElecInKw"), ("mc_full_eff_array", "mcFullEffArray"),
   ("regen_a", "regenA"), ("regen_b", "regenB"), ("veh_kg", "vehKg"),
   ("max_trac_mps2", "maxTracMps2"), ("ess_mass_kg", "essMassKg"), ("mc_mass_kg", "mcMassKg"),
   ("fc_mass_kg", "fcMassKg"), ("fs_mass_kg", "fsMassKg"),
   ("fc_peak_eff_override", "fcPeakEffOverride"), ("mc_peak_eff_override", "mcPeakEffOverride")]

/-- vehicle.py:103 `OLD_TO_NEW` -/
def vehOldToNew : List (String × String) := newToOld.map fun p => (p.2, p.1)

/-- vehicle.py:87 `OPT_INIT_PARAMS` -/
def optInitParams : List String := ["fc_peak_eff_override", "mc_peak_eff_override"]

/-- vehicle.py:340, 349: `col.replace(" ", "_")` -/
def underscored (col : String) : String :=
  String.ofList (col.toList.map fun c => if c = ' ' then '_' else c)

/-- vehicle.py:341-342: the columns a vehicle table may have. -/
def allowedColumn (col : String) : Prop :=
  underscored col ∈ vehOldToNew.map Prod.fst ∨ underscored col ∈ newToOld.map Prod.fst ∨
    underscored col ∈ optInitParams

instance (col : String) : Decidable (allowedColumn col) := by unfold allowedColumn; infer_instance

/-- vehicle.py:349-350: the name of the attribute a column stands for. -/
def columnKey (col : String) : String :=
  match List.lookup (underscored col) vehOldToNew with
  | some k => k
  | none => underscored col

/-- The conversions `keys_and_types` applies. -/
inductive KType where
  | str | int | float | array | bool | props
  deriving DecidableEq

/-- vehicle_base.py:9-134: the keys of text type. -/
def strKeys : List String :=
  ["scenario_name", "veh_pt_type", "fc_eff_type"]

/-- vehicle_base.py:9-134: the keys of integer type. -/
def intKeys : List String :=
  ["selection", "veh_year", "num_wheels"]

/-- vehicle_base.py:9-134: the keys of floating point type. -/
def floatKeys : List String :=
  ["drag_coef", "frontal_area_m2", "glider_kg", "veh_cg_m", "drive_axle_weight_frac",
   "wheel_base_m", "cargo_kg", "veh_override_kg", "comp_mass_multiplier", "fs_max_kw",
   "fs_secs_to_peak_pwr", "fs_kwh", "fs_kwh_per_kg", "fc_max_kw", "fc_sec_to_peak_pwr",
   "fc_base_kg", "fc_kw_per_kg", "min_fc_time_on", "idle_fc_kw", "mc_max_kw", "mc_sec_to_peak_pwr",
   "mc_pe_kg_per_kw", "mc_pe_base_kg", "ess_max_kw", "ess_max_kwh", "ess_kg_per_kwh", "ess_base_kg",
   "ess_round_trip_eff", "ess_life_coef_a", "ess_life_coef_b", "min_soc", "max_soc",
   "ess_dischg_to_fc_max_eff_perc", "ess_chg_to_fc_max_eff_perc", "wheel_inertia_kg_m2",
   "wheel_rr_coef", "wheel_radius_m", "wheel_coef_of_fric", "max_accel_buffer_mph",
   "max_accel_buffer_perc_of_useable_soc", "perc_high_acc_buf", "mph_fc_on", "kw_demand_fc_on",
   "max_regen", "alt_eff", "chg_eff", "aux_kw", "trans_kg", "trans_eff", "ess_to_fuel_ok_error",
   "val_udds_mpgge", "val_hwy_mpgge", "val_comb_mpgge", "val_udds_kwh_per_mile",
   "val_hwy_kwh_per_mile", "val_comb_kwh_per_mile", "val_cd_range_mi",
   "val_const65_mph_kwh_per_mile", "val_const60_mph_kwh_per_mile", "val_const55_mph_kwh_per_mile",
   "val_const45_mph_kwh_per_mile", "val_unadj_udds_kwh_per_mile", "val_unadj_hwy_kwh_per_mile",
   "val0_to60_mph", "val_ess_life_miles", "val_range_miles", "val_veh_base_cost", "val_msrp",
   "small_motor_power_kw", "large_motor_power_kw", "modern_max", "mc_max_elec_in_kw", "regen_a",
   "regen_b", "veh_kg", "max_trac_mps2", "ess_mass_kg", "mc_mass_kg", "fc_mass_kg", "fs_mass_kg",
   "fc_peak_eff_override", "mc_peak_eff_override"]

/-- vehicle_base.py:9-134: the keys of array type. -/
def arrayKeys : List String :=
  ["fc_pwr_out_perc", "fc_eff_map", "mc_pwr_out_perc", "mc_eff_map", "large_baseline_eff",
   "small_baseline_eff", "fc_perc_out_array", "max_roadway_chg_kw", "input_kw_out_array",
   "fc_kw_out_array", "fc_eff_array", "mc_eff_array", "mc_kw_in_array", "mc_kw_out_array",
   "mc_full_eff_array", "mc_perc_out_array"]

/-- vehicle_base.py:9-134: the keys of Boolean type. -/
def boolKeys : List String :=
  ["stop_start", "force_aux_on_fc", "charging_on", "no_elec_sys", "no_elec_aux"]

/-- vehicle_base.py:9-134 `keys_and_types` -/
def keyType (k : String) : Option KType :=
  if k ∈ strKeys then some .str else if k ∈ intKeys then some .int
  else if k ∈ floatKeys then some .float else if k ∈ arrayKeys then some .array
  else if k ∈ boolKeys then some .bool else if k = "props" then some .props else none

/-- vehicle.py:150-229: the arguments without default of the constructor of `Vehicle`. -/
def requiredKeys : List String :=
  ["scenario_name", "selection", "veh_year", "veh_pt_type", "drag_coef", "frontal_area_m2",
   "glider_kg", "veh_cg_m", "drive_axle_weight_frac", "wheel_base_m", "cargo_kg", "veh_override_kg",
   "comp_mass_multiplier", "fs_max_kw", "fs_secs_to_peak_pwr", "fs_kwh", "fs_kwh_per_kg",
   "fc_max_kw", "fc_pwr_out_perc", "fc_eff_map", "fc_eff_type", "fc_sec_to_peak_pwr", "fc_base_kg",
   "fc_kw_per_kg", "min_fc_time_on", "idle_fc_kw", "mc_max_kw", "mc_pwr_out_perc", "mc_eff_map",
   "mc_sec_to_peak_pwr", "mc_pe_kg_per_kw", "mc_pe_base_kg", "ess_max_kw", "ess_max_kwh",
   "ess_kg_per_kwh", "ess_base_kg", "ess_round_trip_eff", "ess_life_coef_a", "ess_life_coef_b",
   "min_soc", "max_soc", "ess_dischg_to_fc_max_eff_perc", "ess_chg_to_fc_max_eff_perc",
   "wheel_inertia_kg_m2", "num_wheels", "wheel_rr_coef", "wheel_radius_m", "wheel_coef_of_fric",
   "max_accel_buffer_mph", "max_accel_buffer_perc_of_useable_soc", "perc_high_acc_buf", "mph_fc_on",
   "kw_demand_fc_on", "max_regen", "stop_start", "force_aux_on_fc", "alt_eff", "chg_eff", "aux_kw",
   "trans_kg", "trans_eff", "ess_to_fuel_ok_error", "val_udds_mpgge", "val_hwy_mpgge",
   "val_comb_mpgge", "val_udds_kwh_per_mile", "val_hwy_kwh_per_mile", "val_comb_kwh_per_mile",
   "val_cd_range_mi", "val_const65_mph_kwh_per_mile", "val_const60_mph_kwh_per_mile",
   "val_const55_mph_kwh_per_mile", "val_const45_mph_kwh_per_mile", "val_unadj_udds_kwh_per_mile",
   "val_unadj_hwy_kwh_per_mile", "val0_to60_mph", "val_ess_life_miles", "val_range_miles",
   "val_veh_base_cost", "val_msrp"]

/-- vehicle.py:230-233, 246-247: the arguments of the constructor that have a default. -/
def optionalKeys : List String :=
  ["fc_peak_eff_override", "mc_peak_eff_override", "props", "regen_a", "regen_b"]

/-! ### Cells -/

/-- Lower case letter of an ASCII letter. -/
def lowerTxt (s : Txt) : Txt := s.map Char.toLower

/-- `re.search('(?i)w', s) is not None` for a word `w` in lower case. -/
def mentions (w : String) (s : Txt) : Bool := decide (w.toList <:+: lowerTxt s)

section Lawless
variable {K : Type*} [Zero K] [One K] [NatCast K] [Add K] [Sub K] [Mul K] [Div K] [Neg K]
  [LinearOrder K]

/-- vehicle.py:106-141 `clean_data` of a cell that is text. -/
def cleanText (R : Reader K) (s : Txt) : LVal K :=
  if '%' ∈ s then
    match R.float (s.filter (· ≠ '%')) with
    | some (some x) => .num (x / ((100 : Nat) : K))
    | some none => .nan
    | none => .text s
  else if mentions "true" s then .bool true
  else if mentions "false" s then .bool false
  else match R.float s with
    | some (some x) => .num x
    | some none => .nan
    | none => .text s

/-- vehicle.py:106-141 `clean_data`. Numbers, `nan` and Booleans are turned into text and read back,
which gives the same value; this is written down directly. Tables have no other values. -/
def cleanData (R : Reader K) : LVal K → LVal K
  | .text s => cleanText R s
  | .pyNone => cleanText R "None".toList
  | v => v

/-! ### Dictionaries -/

/-- `str(v)`. The text of arrays and of physical properties is left out. -/
def strOf (R : Reader K) : LVal K → Txt
  | .num x => R.str x
  | .nan => "nan".toList
  | .bool true => "True".toList
  | .bool false => "False".toList
  | .text s => s
  | .pyNone => "None".toList
  | .arr _ => []
  | .props => []

/-- `np.isnan(v)`. Arrays are left out. -/
def isNan : LVal K → Except PyErr Bool
  | .num _ => .ok false
  | .nan => .ok true
  | .bool _ => .ok false
  | _ => .error .typeError

/-- A Boolean as a number. -/
def boolNum (b : Bool) : K := if b then 1 else 0

/-- `int(v)` -/
def toInt (R : Reader K) : LVal K → Except PyErr (LVal K)
  | .num x => .ok (.num (R.trunc x))
  | .nan => .error .valueError
  | .bool b => .ok (.num (boolNum b))
  | .text s => match R.int s with | some x => .ok (.num x) | none => .error .valueError
  | _ => .error .typeError

/-- `np.float64(v)` -/
def toFloat (R : Reader K) : LVal K → Except PyErr (LVal K)
  | .num x => .ok (.num x)
  | .nan => .ok .nan
  | .bool b => .ok (.num (boolNum b))
  | .text s => match R.float s with
    | some (some x) => .ok (.num x) | some none => .ok .nan | none => .error .valueError
  | .pyNone => .ok .nan
  | .arr l => .ok (.arr l)
  | .props => .error .typeError

/-- `bool(v)` -/
def toBool : LVal K → Except PyErr (LVal K)
  | .num x => .ok (.bool (decide (x ≠ 0)))
  | .nan => .ok (.bool true)
  | .bool b => .ok (.bool b)
  | .text s => .ok (.bool (decide (s ≠ [])))
  | .pyNone => .ok (.bool false)
  | .arr _ => .error .valueError
  | .props => .ok (.bool true)

/-- vehicle.py:503: `keys_and_types[key](val)` -/
def convert (R : Reader K) (t : KType) (v : LVal K) : Except PyErr (LVal K) :=
  match t with
  | .str => .ok (.text (strOf R v))
  | .int => toInt R v
  | .float => toFloat R v
  | .array => .ok v
  | .bool => toBool v
  | .props => .ok v

/-- `np.array(ast.literal_eval(d[k]))` inside a `try`: only text can be read. -/
def readArray (R : Reader K) : Option (LVal K) → Option (List K)
  | some (.text s) => R.literal s
  | _ => none

/-- The type of engine a text stands for. -/
def engineOf (s : Txt) : FcEffType :=
  if s = "SI".toList then .si else if s = "Atkinson".toList then .atkinson
  else if s = "Diesel".toList then .diesel else if s = "H2FC".toList then .h2fc
  else if s = "HD_Diesel".toList then .hdDiesel else .unknown (String.ofList s)

/-- vehicle.py:373-407: the type of the engine and its efficiency map. The message of the assertion
reads `fc_eff_map` itself. -/
def loadEngineMap (R : Reader K) (d : PyDict (LVal K)) : Except PyErr (PyDict (LVal K)) :=
  match d.get? "fc_eff_type" with
  | none => .error .keyError
  | some t =>
    let d := d.set "fc_eff_type" (.text (strOf R t))
    match readArray R (d.get? "fc_eff_map") with
    | some l => .ok (d.set "fc_eff_map" (.arr l))
    | none => match d.get? "fc_eff_map" with
      | none => .error .keyError
      | some _ => match builtinFcMap (engineOf (strOf R t)) with
        | none => .error .assertionError
        | some l => .ok (d.set "fc_eff_map" (.arr l))

/-- `len(d[k])` of an array. -/
def arrLen (v : Option (LVal K)) : Nat :=
  match v with
  | some (.arr l) => l.length
  | _ => 0

/-- vehicle.py:409-421: the powers that belong to the engine map. -/
def loadEnginePowers (R : Reader K) (d : PyDict (LVal K)) : Except PyErr (PyDict (LVal K)) :=
  let l := match readArray R (d.get? "fc_pwr_out_perc") with
    | some l => l
    | none => defaultFcPwrOutPerc
  if l.length = arrLen (d.get? "fc_eff_map") then .ok (d.set "fc_pwr_out_perc" (.arr l))
  else .error .assertionError

/-- vehicle.py:429-443: the powers that belong to the motor map. -/
def loadMotorPowers (R : Reader K) (d : PyDict (LVal K)) : Except PyErr (PyDict (LVal K)) :=
  let l := match readArray R (d.get? "mc_pwr_out_perc") with
    | some l => l
    | none => defaultMcPwrOutPerc
  if l.length = (largeBaselineEff : List K).length then .ok (d.set "mc_pwr_out_perc" (.arr l))
  else .error .assertionError

/-- vehicle.py:445-456: the motor map. The assertion in the `try` repeats the one on the powers, which
has already passed. -/
def loadMotorMap (R : Reader K) (d : PyDict (LVal K)) : PyDict (LVal K) :=
  match readArray R (d.get? "mc_eff_map") with
  | some l => d.set "mc_eff_map" (.arr l)
  | none => d.set "mc_eff_map" .pyNone

/-- vehicle.py:457-459: `stop_start` -/
def loadStopStart (d : PyDict (LVal K)) : Except PyErr (PyDict (LVal K)) :=
  match d.get? "stop_start" with
  | none => .ok d
  | some v => match isNan v with
    | .error e => .error e
    | .ok true => .ok (d.set "stop_start" (.bool false))
    | .ok false => .ok d

/-- vehicle.py:461-462: `veh_override_kg` -/
def loadMassOverride (d : PyDict (LVal K)) : Except PyErr (PyDict (LVal K)) :=
  match d.get? "veh_override_kg" with
  | none => .ok (d.set "veh_override_kg" .pyNone)
  | some .pyNone => .ok (d.set "veh_override_kg" .pyNone)
  | some v => match isNan v with
    | .error e => .error e
    | .ok true => .ok (d.set "veh_override_kg" .pyNone)
    | .ok false => .ok d

/-- A decimal number from its digits. -/
def digitsNum (s : Txt) : Nat := s.foldl (fun n c => 10 * n + (c.toNat - '0'.toNat)) 0

/-- vehicle.py:466-473: the year in a name that starts with four digits, otherwise 0. -/
def yearOfName (s : Txt) : Nat :=
  if (s.take 4).length = 4 ∧ (s.take 4).all Char.isDigit then digitsNum (s.take 4) else 0

/-- vehicle.py:464-476: `veh_year` -/
def loadYear (R : Reader K) (d : PyDict (LVal K)) : Except PyErr (PyDict (LVal K)) :=
  let fromName : Except PyErr (PyDict (LVal K)) :=
    match d.get? "scenario_name" with
    | none => .error .keyError
    | some n => .ok (d.set "veh_year" (.num ((yearOfName (strOf R n) : Nat) : K)))
  match d.get? "veh_year" with
  | none => fromName
  | some v => match isNan v with
    | .error e => .error e
    | .ok true => fromName
    | .ok false => match toInt R v with
      | .error e => .error e
      | .ok y => .ok (d.set "veh_year" y)

/-- vehicle.py:89: the powertrain types. -/
def ptTypes : List Txt := ["Conv".toList, "HEV".toList, "PHEV".toList, "BEV".toList]

/-- vehicle.py:478: the powertrain type is checked. -/
def checkPtType (d : PyDict (LVal K)) : Except PyErr (PyDict (LVal K)) :=
  match d.get? "veh_pt_type" with
  | none => .error .keyError
  | some (.text s) => if s ∈ ptTypes then .ok d else .error .assertionError
  | some _ => .error .assertionError

/-- vehicle.py:480-495: a peak efficiency is kept only between 0 and 1. -/
def loadPeak (R : Reader K) (k : String) (d : PyDict (LVal K)) : PyDict (LVal K) :=
  match d.get? k with
  | none => d
  | some v => match toFloat R v with
    | .ok (.num x) => if 0 < x ∧ x < 1 then d.set k (.num x) else d.set k .pyNone
    | _ => d.set k .pyNone

/-- vehicle.py:501: the keys that may stay `None`. -/
def mayBeNone (k : String) : Bool :=
  k ∈ ["veh_override_kg", "mc_eff_map", "fc_peak_eff_override", "mc_peak_eff_override"]

/-- vehicle.py:498-503: one round of the loop over the types. -/
def convertEntry (R : Reader K) (p : String × LVal K) : Except PyErr (String × LVal K) :=
  if p.1 = "props" then .ok p
  else if mayBeNone p.1 ∧ p.2 = .pyNone then .ok p
  else match keyType p.1 with
    | none => .error .keyError
    | some t => match convert R t p.2 with
      | .error e => .error e
      | .ok v => .ok (p.1, v)

/-- vehicle.py:497-503: the loop over the types. -/
def convertAll (R : Reader K) : PyDict (LVal K) → Except PyErr (PyDict (LVal K))
  | [] => .ok []
  | p :: d => match convertEntry R p with
    | .error e => .error e
    | .ok p' => match convertAll R d with
      | .error e => .error e
      | .ok d' => .ok (p' :: d')

/-- vehicle.py:511: the call of the constructor checks the names of its arguments. -/
def construct (d : PyDict (LVal K)) : Except PyErr (PyDict (LVal K)) :=
  if (∀ k ∈ d.keys, k ∈ requiredKeys ∨ k ∈ optionalKeys) ∧ ∀ k ∈ requiredKeys, k ∈ d.keys then .ok d
  else .error .typeError

/-- vehicle.py:365-495: the part of `Vehicle.from_dict` before the conversion of types. -/
def prepare (R : Reader K) (d : PyDict (LVal K)) : Except PyErr (PyDict (LVal K)) := do
  let d ← loadEngineMap R d
  let d ← loadEnginePowers R d
  let d ← loadMotorPowers R d
  let d := loadMotorMap R d
  let d ← loadStopStart d
  let d ← loadMassOverride d
  let d ← loadYear R d
  let d ← checkPtType d
  let d := loadPeak R "fc_peak_eff_override" d
  .ok (loadPeak R "mc_peak_eff_override" d)

/-- vehicle.py:365-511 `Vehicle.from_dict`: the arguments the constructor is called with. -/
def fromDict (R : Reader K) (d : PyDict (LVal K)) : Except PyErr (PyDict (LVal K)) := do
  let d ← prepare R d
  let d ← convertAll R d
  construct d

/-! ### Tables -/

/-- A table of vehicles: the names of its columns and its rows. -/
structure VehTable (K : Type*) where
  cols : List String
  rows : List (List (LVal K))

/-- The cell of a row in the column with the given name. -/
def VehTable.cell (T : VehTable K) (row : List (LVal K)) (col : String) : Option (LVal K) :=
  List.lookup col (T.cols.zip row)

/-- vehicle.py:287, 344: the number of the row with vehicle `vnum`, by the column `selection`; `none`: there is no
such row. Tables in which the number occurs twice are left out (the first row is taken). -/
def VehTable.find (T : VehTable K) (vnum : K) : Option Nat :=
  T.rows.findIdx? fun row => T.cell row "selection" = some (.num vnum)

/-- vehicle.py:344: `vehdf.loc[vnum] = vehdf.loc[vnum].apply(clean_data)` -/
def VehTable.clean (R : Reader K) (T : VehTable K) (i : Nat) : VehTable K :=
  { T with rows := T.rows.modify i fun row => row.map (cleanData R) }

/-- vehicle.py:346-352: the dictionary of a row; a later column overwrites an earlier one. -/
def rowDict (cols : List String) (row : List (LVal K)) : PyDict (LVal K) :=
  (cols.zip row).foldl (fun d p => d.set (columnKey p.1) p.2) []

/-- vehicle.py:275-289 `Vehicle.from_vehdb` and 328-363 `Vehicle.from_df`: the outcome and the table as it is
afterwards. The table of the default database is shared by all calls and is changed in place; so is a table
that is passed to `from_df`. -/
def fromTable (R : Reader K) (T : VehTable K) (vnum : K) :
    Except PyErr (PyDict (LVal K)) × VehTable K :=
  if "selection" ∉ T.cols then (.error .keyError, T)
  else if ¬ ∀ col ∈ T.cols, allowedColumn col then (.error .assertionError, T)
  else match T.find vnum with
    | none => (.error .keyError, T)
    | some i =>
      let T := T.clean R i
      (fromDict R (rowDict T.cols (T.rows.getD i [])), T)

end Lawless

end Fastsim
