import Verif.Model.RsRun
import Verif.Model.RsVeh

/-!
# Model of the thermal simulation (`SimDriveHot`)

`fastsimrust.SimDriveHot` (rust/fastsim-core/src/thermal.rs, below `thermal`) is a simulation of the Rust core with
temperatures of engine, cabin, exhaust port and catalyst. Python users make it from a cycle, a vehicle, a `VehicleThermal`
(vehicle_thermal.rs) and a `ThermalState`. It has its own loops: no car following, no coasting, no correction of missed traces.

Simplifications: numbers are elements of an ordered type instead of `f64` (no NaN and no infinities: a division by zero, which
is an infinity in Rust, has whatever value the type gives it); `powf`, `exp` and the constant `PI` are arbitrary; indexing
outside the arrays panics at the beginning of a step instead of at the first such access; fields that nothing reads
(`cab_qdot_solar_kw`, `ess_c_kj_k`, `ess_htc_to_amb`, `orphaned`) are left out.
-/

namespace Fastsim

/-! ### Data -/

/-- `FcTempEffModel` with its two structures (vehicle_thermal.rs:38-88). -/
inductive TempEff (K : Type*) where
  | linear (offset slope minimum : K)
  | exponential (offset lag minimum : K)

/-- `FcTempEffComponent` (vehicle_thermal.rs:27-36). -/
inductive TempEffComp where
  | catalyst | catAndFc | fuelConverter
  deriving DecidableEq, Repr

/-- `HVACModel` (vehicle_thermal.rs:100-131): parameters, then the four values that change. -/
structure Hvac (K : Type*) where
  teSet : K
  pPerDegC : K
  iPerDegCSec : K
  dPerDegC : K
  cntrlMaxKw : K
  deadband : K
  fracOfIdealCop : K
  useFcWasteHeat : Bool
  maxAuxKw : K
  pKw : K
  iKw : K
  dKw : K
  cop : K

/-- `VehicleThermal` (vehicle_thermal.rs:359-438) without the cabin model, which changes during a run and is a field of `Hot`.
`fcModel` is `none` for `FcModelTypes::External`; the flags say that a model is `Internal`. -/
structure VehThrm (K : Type*) where
  fcCKjK : K
  fcL : K
  fcHtcToAmbStop : K
  fcCoeffFromComb : K
  tstatTeSto : K
  tstatTeDelta : K
  radEps : K
  fcModel : Option (TempEff K × TempEffComp)
  cabCKjK : K
  cabLLength : K
  cabLWidth : K
  cabRToAmb : K
  cabHtcToAmbStop : K
  exhportInternal : Bool
  exhportHaToAmb : K
  exhportHaInt : K
  exhportCKjK : K
  catInternal : Bool
  catL : K
  catCKjK : K
  catHtcToAmbStop : K
  catTeLightoff : K
  catFcEtaCoeff : K

/-- `ThermalState` (thermal.rs:1017-1096). -/
structure Thermal (K : Type*) where
  fcTe : K
  fcEtaTempCoeff : K
  fcQdotPerNetHeat : K
  fcQdotKw : K
  fcQdotToAmbKw : K
  fcQdotToHtrKw : K
  fcHtcToAmb : K
  fcLambda : K
  fcTeAdiabatic : K
  cabTe : K
  cabPrevTe : K
  cabQdotToAmbKw : K
  cabQdotFromHvacKw : K
  cabHvacPwrAuxKw : K
  exhMdot : K
  exhHdotKw : K
  exhportExhTeIn : K
  exhportQdotToAmb : K
  exhportTe : K
  exhportQdotFromExh : K
  exhportQdotNet : K
  catQdot : K
  catHtcToAmb : K
  catQdotToAmb : K
  catTe : K
  catExhTeIn : K
  catReExt : K
  catQdotFromExh : K
  catQdotNet : K
  ambTe : K

/-- Constants that the thermal model reads elsewhere: `std::f64::consts::PI`, `props` (params.rs:47-55) and
`veh.input_kw_out_array`. -/
structure HotConsts (K : Type*) where
  pi : K
  kwhPerGge : K
  fuelRho : K
  fuelAfrStoich : K
  inputKwOut : List K

/-- `SimDriveHot` (thermal.rs:188-202): the simulation, the thermal state, the cabin model (`none` for `External`), the ambient
temperatures, and the two histories (oldest entry first). -/
structure Hot (K : Type*) where
  sd : Sim K
  state : Thermal K
  hvac : Option (Hvac K)
  amb : Option (List K)
  history : List (Thermal K)
  hvacHistory : List (Hvac K)

/-- What the thermal calculations of step `i` read from the simulation: `dt_s_at_i(i)` and the entries `i - 1` of `mps_ach`,
`mph_ach`, `fc_kw_in_ach`, `fc_kw_out_ach`, `fs_kw_out_ach`, and whether the vehicle is a `BEV`. -/
structure HotEnv (K : Type*) where
  dt : K
  mps : K
  mph : K
  fcKwIn : K
  fcKwOut : K
  fsKwOut : K
  bev : Bool

section Lawless
variable {K : Type*} [Zero K] [One K] [NatCast K] [Add K] [Sub K] [Mul K] [Div K] [Neg K]
  [LinearOrder K]

/-! ### Air (air.rs) -/

/-- `te_array_degc` (air.rs:130-159), in 1e-8 °C. -/
def airTe : List K :=
  [-(dec 60 1), -(dec 5703690616 100000000), -(dec 531958198 10000000), -(dec 4821658352 100000000),
    -(dec 417619528 10000000), -(dec 3339475442 100000000), -(dec 2254827664 100000000), -(dec 848788571 100000000)] ++
  ([973873099, 3336606527, 6399440042, 10369819869, 15516660498, 22188558305, 30837402042, 42048979341, 56582652205,
    75422788725, 99845434496, 131504739396, 172544993435, 225745859876, 294710642291, 384110336915,
    500000000000] : List Nat).map fun k => dec k 100000000

/-- `k_array` (air.rs:160-168), in 1e-6. -/
def airK : List K :=
  ([19597, 19841, 20156, 20561, 21083, 21753, 22612, 23708, 25102, 26867, 29090, 31875, 35342, 39633, 44917, 51398, 59334,
    69059, 81025, 95855, 114420, 137970, 168280, 207950, 260810] : List Nat).map fun k => dec k 1000000

/-- `c_p_array` (air.rs:169-176), in tenths. -/
def airCp : List K :=
  ([10062, 10061, 10060, 10059, 10057, 10056, 10055, 10056, 10059, 10066, 10083, 10116, 10179, 10289, 10470, 10734, 11076,
    11461, 11845, 12195, 12501, 12771, 13017, 13245, 13470] : List Nat).map fun k => dec k 10

/-- `h_array` (air.rs:177-184). -/
def airH : List K :=
  ([338940, 341930, 345790, 350800, 357290, 365710, 376610, 390750, 409080, 432860, 463710, 503800, 556020, 624280, 714030,
    832880, 991400, 1203800, 1488700, 1869600, 2376700, 3049400, 3939100, 5113600, 6662000] : List Nat).map fun k => dec k 1

/-- `mu_array` (air.rs:185-193), in 1e-9. -/
def airMu : List K :=
  ([14067, 14230, 14440, 14711, 15058, 15502, 16069, 16791, 17703, 18850, 20283, 22058, 24240, 26899, 30112, 33966, 38567,
    44049, 50595, 58464, 68036, 79878, 94840, 114230, 140060] : List Nat).map fun k => dec k 1000000000

/-- `pr_array` (air.rs:195). -/
def airPr : List K := List.zipWith (fun a k => a / k) (List.zipWith (fun m c => m * c) airMu airCp) airK

/-- A lookup in one of the constant tables. They have 25 increasing points, so the interpolation does not panic
(`airAt_ok` in `Verif.Props.RustAir`). -/
def airAt (xs ys : List K) (x : K) : K :=
  match rsInterpolate x xs ys with
  | .ok y => y
  | .error _ => 0

/-- `get_rho(te, None)` (air.rs:66-71). -/
def airRho (F : Fns K) (te : K) : K :=
  let std := dec 1504 100 - dec 649 100000 * 180
  101290 * F.pow ((std + dec 2731 10) / dec 28808 100) (dec 5256 1000) / (287 * (te + dec 27315 100))

/-- `get_sphere_conv_params` (vehicle_thermal.rs:177-190). -/
def sphereConv (re : K) : K × K :=
  if re < 4 then (dec 989 1000, dec 330 1000)
  else if re < 40 then (dec 911 1000, dec 385 1000)
  else if re < 4000 then (dec 683 1000, dec 466 1000)
  else if re < 40000 then (dec 193 1000, dec 618 1000)
  else (dec 27 1000, dec 805 1000)

/-- `get_fuel_lhv_kj_per_kg` (params.rs:79-82). -/
def fuelLhv (C : HotConsts K) : K := C.kwhPerGge / dec 3785 1000 / C.fuelRho * 3600

/-! ### Engine (thermal.rs:406-477) -/

/-- `fc_te_adiabatic_deg_c` (thermal.rs:409-414). -/
def fcTeAdiabatic (C : HotConsts K) (s : Thermal K) : K :=
  airAt airH airTe (((1 + s.fcLambda * C.fuelAfrStoich) * airAt airTe airH s.ambTe
    + fuelLhv C * 1000 * min s.fcLambda 1) / (1 + s.fcLambda * C.fuelAfrStoich))

/-- `fc_htc_to_amb` (thermal.rs:429-470): a constant below 1 m/s, else that of a sphere, both scaled by the thermostat. The
interpolation panics if the thermostat has no opening range. -/
def fcHtcToAmb (F : Fns K) (T : VehThrm K) (E : HotEnv K) (s : Thermal K) : Except RsErr K :=
  let film := dec 5 10 * (s.fcTe + s.ambTe)
  let re := airRho F film * E.mps * T.fcL / airAt airTe airMu film
  let closed :=
    if E.mps < 1 then T.fcHtcToAmbStop
    else (sphereConv re).1 * F.pow re (sphereConv re).2 * F.pow (airAt airTe airPr film) (1 / 3)
      * airAt airTe airK film / T.fcL
  rsInterpolate s.fcTe [T.tstatTeSto, T.tstatTeSto + T.tstatTeDelta] [closed, closed * T.radEps]

/-- `set_fc_thermal_calcs` (thermal.rs:406-477) with `fc_area_ext` (vehicle_thermal.rs:483-485), whose exponent is `2.0 / 4.0`. -/
def setFcThermal (F : Fns K) (C : HotConsts K) (T : VehThrm K) (E : HotEnv K) (s : Thermal K) : Except RsErr (Thermal K) := do
  let adiabatic := fcTeAdiabatic C s
  let perHeat := max (min (T.fcCoeffFromComb * (adiabatic - s.fcTe)) 1) 0
  let htc ← fcHtcToAmb F T E s
  return { s with
    fcTeAdiabatic := adiabatic
    fcQdotPerNetHeat := perHeat
    fcQdotKw := perHeat * (E.fcKwIn - E.fcKwOut)
    fcHtcToAmb := htc
    fcQdotToAmbKw := htc * dec 1 1000 * (C.pi * F.pow T.fcL (2 / 4)) * (s.fcTe - s.ambTe) }

/-! ### Cabin (thermal.rs:480-621) -/

/-- `cab_qdot_to_amb_kw` (thermal.rs:484-516). -/
def cabQdotToAmb (F : Fns K) (T : VehThrm K) (E : HotEnv K) (s : Thermal K) : K :=
  let film := dec 5 10 * (s.cabTe + s.ambTe)
  let re := airRho F film * E.mps * T.cabLLength / airAt airTe airMu film
  let nu :=
    if re < 500000 then dec 664 1000 * F.pow re (dec 5 10) * F.pow (airAt airTe airPr film) (1 / 3)
    else (dec 37 1000 * F.pow re (dec 8 10) - 871) * airAt airTe airPr film
  if 2 < E.mph then
    dec 1 1000 * (T.cabLLength * T.cabLWidth) / (1 / (nu * airAt airTe airK film / T.cabLLength) + T.cabRToAmb)
      * (s.cabTe - s.ambTe)
  else
    dec 1 1000 * (T.cabLLength * T.cabLWidth) / (1 / T.cabHtcToAmbStop + T.cabRToAmb) * (s.cabTe - s.ambTe)

/-- The test of thermal.rs:521-523. -/
def inDeadband (h : Hvac K) (te : K) : Prop := te ≤ h.teSet + h.deadband ∧ h.teSet - h.deadband ≤ te

instance (h : Hvac K) (te : K) : Decidable (inDeadband h te) := by unfold inDeadband; infer_instance

/-- The efforts of the controller and the coefficient of performance (thermal.rs:529-549). -/
def hvacEfforts (E : HotEnv K) (s : Thermal K) (h : Hvac K) : Hvac K :=
  let vsSet := s.cabTe - h.teSet
  let vsAmb := s.cabTe - s.ambTe
  { h with
    pKw := h.pPerDegC * vsSet
    iKw := h.iKw + h.iPerDegCSec * vsSet * E.dt
    dKw := h.dPerDegC * ((s.cabTe - s.cabPrevTe) / E.dt)
    cop := (if pabs vsAmb < 5 then (s.cabTe + dec 27315 100) / 5 else (s.cabTe + dec 27315 100) / pabs vsAmb)
      * h.fracOfIdealCop }

/-- Cooling (thermal.rs:552-572); `h` has the efforts of this step. -/
def hvacCool (s : Thermal K) (h : Hvac K) : Thermal K × Hvac K :=
  let i := min (if h.iKw < 0 then 0 else h.iKw) h.cntrlMaxKw
  let q := max (-h.pKw - i - h.dKw) (-h.cntrlMaxKw)
  let aux := max (min (-q / h.cop) h.maxAuxKw) 0
  ({ s with cabHvacPwrAuxKw := aux, cabQdotFromHvacKw := -aux * h.cop }, { h with iKw := i })

/-- Heating (thermal.rs:573-613); `h` has the efforts of this step. With waste heat the auxiliary load is not assigned. A `BEV`
has no waste heat: the assertion panics. -/
def hvacHeat (T : VehThrm K) (E : HotEnv K) (s : Thermal K) (h : Hvac K) : Except RsErr (Thermal K × Hvac K) :=
  let i := max (if 0 < h.iKw then 0 else h.iKw) (-h.cntrlMaxKw)
  let q := min (-h.pKw - i - h.dKw) h.cntrlMaxKw
  if h.useFcWasteHeat then
    let q' := max (min q ((s.fcTe - s.cabTe) * dec 1 10 * T.cabCKjK / E.dt)) 0
    if E.bev then .error .panic
    else .ok ({ s with cabQdotFromHvacKw := q', fcQdotToHtrKw := q' }, { h with iKw := i })
  else
    let aux := max (min (q / h.cop) h.maxAuxKw) 0
    .ok ({ s with cabHvacPwrAuxKw := aux, cabQdotFromHvacKw := aux * h.cop }, { h with iKw := i })

/-- The controller (thermal.rs:521-614). Inside the deadband the heat flow and the integral are zero and nothing else is
assigned; outside, a coefficient of performance that is not positive fails the assertion. -/
def hvacControl (T : VehThrm K) (E : HotEnv K) (s : Thermal K) (h : Hvac K) : Except RsErr (Thermal K × Hvac K) :=
  if inDeadband h s.cabTe then .ok ({ s with cabQdotFromHvacKw := 0 }, { h with iKw := 0 })
  else
    let h' := hvacEfforts E s h
    if 0 < h'.cop then
      if h.teSet + h.deadband < s.cabTe then .ok (hvacCool s h') else hvacHeat T E s h'
    else .error .panic

/-- `set_cab_thermal_calcs` (thermal.rs:480-621). -/
def setCabThermal (F : Fns K) (T : VehThrm K) (E : HotEnv K) (s : Thermal K) (h : Hvac K) :
    Except RsErr (Thermal K × Hvac K) := do
  let r ← hvacControl T E { s with cabQdotToAmbKw := cabQdotToAmb F T E s } h
  return ({ r.1 with
    cabPrevTe := r.1.cabTe
    cabTe := r.1.cabTe + (r.1.cabQdotFromHvacKw - r.1.cabQdotToAmbKw) / T.cabCKjK * E.dt }, r.2)

/-! ### Exhaust port (thermal.rs:624-707) -/

/-- Exhaust flows and port inlet temperature (thermal.rs:626-639). -/
def exhFlows (C : HotConsts K) (E : HotEnv K) (s : Thermal K) : Thermal K :=
  let mdot := E.fsKwOut / fuelLhv C * (1 + C.fuelAfrStoich * s.fcLambda)
  let hdot := (1 - s.fcQdotPerNetHeat) * (E.fcKwIn - E.fcKwOut)
  { s with
    exhMdot := mdot
    exhHdotKw := hdot
    exhportExhTeIn :=
      if dec 5 10000 < mdot then min (airAt airH airTe (hdot * 1000 / mdot)) s.fcTeAdiabatic else s.exhportExhTeIn }

/-- `exhport_qdot_to_amb` (thermal.rs:642-665): towards the engine temperature. -/
def exhportQdotToAmb (T : VehThrm K) (E : HotEnv K) (s : Thermal K) : K :=
  let nominal := T.exhportHaToAmb * (s.exhportTe - s.fcTe)
  let most := T.exhportCKjK * 1000 * (s.exhportTe - s.fcTe) / E.dt
  if 0 < s.exhportTe - s.fcTe then min nominal most else max nominal most

/-- `exhport_qdot_from_exh` (thermal.rs:667-699). -/
def exhportQdotFromExh (T : VehThrm K) (E : HotEnv K) (s : Thermal K) : K :=
  let nominal := T.exhportHaInt * (s.exhportExhTeIn - s.exhportTe)
  let exh := s.exhMdot * (airAt airTe airH s.exhportExhTeIn - airAt airTe airH s.exhportTe)
  let most := T.exhportCKjK * 1000 * (s.exhportExhTeIn - s.exhportTe) / E.dt
  if 0 < s.exhportExhTeIn - s.exhportTe then rsArrMin [nominal, exh, most] else rsArrMax [nominal, exh, most]

/-- `set_exhport_thermal_calcs` (thermal.rs:624-707). -/
def setExhportThermal (C : HotConsts K) (T : VehThrm K) (E : HotEnv K) (s : Thermal K) : Thermal K :=
  let s := exhFlows C E s
  let toAmb := exhportQdotToAmb T E s
  let fromExh := exhportQdotFromExh T E s
  { s with
    exhportQdotToAmb := toAmb
    exhportQdotFromExh := fromExh
    exhportQdotNet := fromExh - toAmb
    exhportTe := s.exhportTe + (fromExh - toAmb) / (T.exhportCKjK * 1000) * E.dt }

/-! ### Catalyst (thermal.rs:718-822) -/

/-- Convection coefficients (thermal.rs:722-742): while the vehicle moves, the computed coefficient is assigned to the
*engine* (`fc_htc_to_amb`, 737) and that of the catalyst keeps its value. -/
def catHtc (F : Fns K) (T : VehThrm K) (E : HotEnv K) (s : Thermal K) : Thermal K :=
  let film := dec 5 10 * (s.catTe + s.ambTe)
  let re := airRho F film * E.mps * T.catL / airAt airTe airMu film
  if E.mps < 1 then { s with catReExt := re, catHtcToAmb := T.catHtcToAmbStop }
  else { s with
    catReExt := re
    fcHtcToAmb := (sphereConv re).1 * F.pow re (sphereConv re).2 * F.pow (airAt airTe airPr film) (1 / 3)
      * airAt airTe airK film / T.catL }

/-- `cat_qdot_to_amb` (thermal.rs:744-770) with `cat_area_ext` (vehicle_thermal.rs:488-490). -/
def catQdotToAmb (F : Fns K) (C : HotConsts K) (T : VehThrm K) (E : HotEnv K) (s : Thermal K) : K :=
  let nominal := s.catHtcToAmb * (C.pi * F.pow T.catL (2 / 4)) * (s.catTe - s.ambTe)
  let most := T.catCKjK * 1000 * (s.catTe - s.ambTe) / E.dt
  if 0 < s.catTe - s.ambTe then min nominal most else max nominal most

/-- `cat_exh_te_in_deg_c` (thermal.rs:772-782). -/
def catExhTeIn (s : Thermal K) : K :=
  if dec 5 10000 < s.exhMdot then
    min (airAt airH airTe ((s.exhHdotKw * 1000 - s.exhportQdotFromExh) / s.exhMdot)) s.fcTeAdiabatic
  else s.catExhTeIn

/-- `cat_qdot_from_exh` (thermal.rs:784-810): with hotter exhaust the second limit is taken from the thermal mass of the
*cabin* (791). -/
def catQdotFromExh (T : VehThrm K) (E : HotEnv K) (s : Thermal K) : K :=
  let exh := s.exhMdot * (airAt airTe airH s.catExhTeIn - airAt airTe airH s.catTe)
  if 0 < s.catExhTeIn - s.catTe then min exh (T.cabCKjK * 1000 * (s.catExhTeIn - s.catTe) / E.dt)
  else max exh (T.catCKjK * 1000 * (s.catExhTeIn - s.catTe) / E.dt)

/-- `set_cat_thermal_calcs` (thermal.rs:718-822). -/
def setCatThermal (F : Fns K) (C : HotConsts K) (T : VehThrm K) (E : HotEnv K) (s : Thermal K) : Thermal K :=
  let s := catHtc F T E s
  let toAmb := catQdotToAmb F C T E s
  let s : Thermal K := { s with catQdotToAmb := toAmb, catExhTeIn := catExhTeIn s }
  let fromExh := catQdotFromExh T E s
  { s with
    catQdotFromExh := fromExh
    catQdot := 0
    catQdotNet := 0 + fromExh - toAmb
    catTe := s.catTe + (0 + fromExh - toAmb) * dec 1 1000 / T.catCKjK * E.dt }

/-! ### One step -/

/-- thermal.rs:375-377: the ambient temperature of the step, if an array was given. -/
def withAmb (amb : Option K) (s : Thermal K) : Thermal K :=
  match amb with
  | some a => { s with ambTe := a }
  | none => s

/-- thermal.rs:379-381 -/
def afterEngine (F : Fns K) (C : HotConsts K) (T : VehThrm K) (E : HotEnv K) (s : Thermal K) : Except RsErr (Thermal K) :=
  if T.fcModel.isSome then setFcThermal F C T E s else .ok s

/-- thermal.rs:383-385 -/
def afterCabin (F : Fns K) (T : VehThrm K) (E : HotEnv K) (s : Thermal K) (hvac : Option (Hvac K)) :
    Except RsErr (Thermal K × Option (Hvac K)) :=
  match hvac with
  | none => .ok (s, none)
  | some h =>
    match setCabThermal F T E s h with
    | .error e => .error e
    | .ok r => .ok (r.1, some r.2)

/-- thermal.rs:387-393 -/
def afterExhaust (F : Fns K) (C : HotConsts K) (T : VehThrm K) (E : HotEnv K) (s : Thermal K) : Thermal K :=
  let s := if T.exhportInternal then setExhportThermal C T E s else s
  if T.catInternal then setCatThermal F C T E s else s

/-- thermal.rs:395-402: the temperature of the engine. -/
def fcBalance (T : VehThrm K) (E : HotEnv K) (s : Thermal K) : Thermal K :=
  if T.fcModel.isSome then
    { s with fcTe := s.fcTe + (s.fcQdotKw - s.fcQdotToAmbKw - s.fcQdotToHtrKw) / T.fcCKjK * E.dt }
  else s

/-- `set_thermal_calcs(i)` (thermal.rs:369-403). -/
def setThermal (F : Fns K) (C : HotConsts K) (T : VehThrm K) (E : HotEnv K) (amb : Option K) (s : Thermal K)
    (hvac : Option (Hvac K)) : Except RsErr (Thermal K × Option (Hvac K)) :=
  match afterEngine F C T E (withAmb amb s) with
  | .error e => .error e
  | .ok s =>
    match afterCabin F T E s hvac with
    | .error e => .error e
    | .ok r => .ok (fcBalance T E (afterExhaust F C T E r.1), r.2)

/-- The efficiency coefficient of a step with a running engine (thermal.rs:920-962): a linear model ignores the component; with
`CatAndFC` the coefficient is assigned below the light-off temperature only; an external model assigns nothing. -/
def tempCoeff (F : Fns K) (T : VehThrm K) (s : Thermal K) : K :=
  match T.fcModel with
  | none => s.fcEtaTempCoeff
  | some (.linear offset slope minimum, _) => max minimum (min 1 (offset + slope * s.fcTe))
  | some (.exponential offset lag minimum, .fuelConverter) => max (1 - F.exp (-1 / lag * (s.fcTe - offset))) minimum
  | some (.exponential offset lag minimum, .catAndFc) =>
    if s.catTe < T.catTeLightoff then max (1 - F.exp (-1 / lag * (s.fcTe - offset))) minimum * T.catFcEtaCoeff
    else s.fcEtaTempCoeff
  | some (.exponential offset lag minimum, .catalyst) => max (1 - F.exp (-1 / lag * (s.catTe - offset))) minimum

/-- `fc_kw_in_ach[i]` for an output other than zero (thermal.rs:964-980); `coeff` is `fc_eta_temp_coeff`. -/
def hotFcKwIn (C : HotConsts K) (V : Veh K) (coeff out : K) : Except RsErr K :=
  if C.inputKwOut = [] then .error .err
  else if out = rsArrMax C.inputKwOut then
    match V.fcEffArray.getLast? with
    | none => .error .panic
    | some e => .ok (out / (e * coeff))
  else do
    return out / (← rsLookup10 V.fcKwOutArray V.fcEffArray (min out (rsArrMax C.inputKwOut - dec 1 1000))) / coeff

/-- `set_fc_power` (thermal.rs:872-986): what it writes to the simulation, and the coefficient. -/
def hotSetFcPower (F : Fns K) (C : HotConsts K) (T : VehThrm K) (V : Veh K) (E : StepEnv K) (M : Misc K) (L : Lims K)
    (pw : Pow K) (d : Dec K) (s : Thermal K) : Except RsErr (FcPow K × K) :=
  let out := rsFcKwOutAch V E M L pw d
  if out = 0 then
    .ok ({ fcKwOutAch := out, fcKwOutAchPct := 0, fcKwInAch := 0, fsKwOutAch := 0, fsKwhOutAch := 0 * E.dt / 3600 },
      s.fcEtaTempCoeff)
  else do
    let inp ← hotFcKwIn C V (tempCoeff F T s) out
    return ({ fcKwOutAch := out
              fcKwOutAchPct := if V.fcMaxKw = 0 then 0 else out / V.fcMaxKw
              fcKwInAch := inp
              fsKwOutAch := inp
              fsKwhOutAch := inp * E.dt / 3600 }, tempCoeff F T s)

/-- Lines 345-351 of `step` (thermal.rs), from `set_misc_calcs` to `set_fc_power`: the row of the step and the coefficient. -/
def hotSolveStep (F : Fns K) (C : HotConsts K) (T : VehThrm K) (V : Veh K) (P : StepParams K) (E : StepEnv K) (p : Row K)
    (stale : Stale K) (s : Thermal K) : Except RsErr (Row K × K) := do
  let M := rsSetMisc V E p
  let L ← rsSetCompLims F V P E p M
  let pw0 := rsPowerAt F V P E p L (if 0 < stale.newtonIters then stale.mpsAch else E.mps)
  let a := rsSetAchSpeed F V P E p L pw0 stale
  let pw := a.2
  let h ← rsSetHyb V E p L pw
  let f ← rsSetForced V E pw h
  let d ← rsSetDec F V E p M L pw h f stale
  let fc ← hotSetFcPower F C T V E M L pw d s
  return ({ auxInKw := E.auxIn, misc := M, lims := L, pow := pw, ach := a.1, hyb := h, forced := f, dec := d, fc := fc.1 },
    fc.2)

/-- What the thermal calculations read from the simulation. -/
def hotEnv (V : Veh K) (s : Sim K) : HotEnv K :=
  let p := s.rows.getD (s.i - 1) Row.zero
  { dt := rsDtAt s.cyc s.i
    mps := p.ach.mpsAch
    mph := p.ach.mphAch
    fcKwIn := p.fc.fcKwInAch
    fcKwOut := p.fc.fcKwOutAch
    fsKwOut := p.fc.fsKwOutAch
    bev := decide (V.ptType = .bev) }

/-- `amb_te_deg_c[i]` (thermal.rs:375-377). -/
def ambAt (amb : Option (List K)) (i : Nat) : Except RsErr (Option K) :=
  match amb with
  | none => .ok none
  | some l =>
    match l[i]? with
    | some a => .ok (some a)
    | none => .error .panic

/-- `aux_in_kw` after `set_misc_calcs` (thermal.rs:824-837): the load of the cabin is added to that of the vehicle. -/
def hotAux (V : Veh K) (s : Sim K) (hvacKw : K) : List K :=
  (rsAuxStep V s.aux s.i).modify s.i fun x => x + hvacKw

/-- The environment of the powertrain calculations, as in `rsSolve`. -/
def hotStepEnv (F : Fns K) (V : Veh K) (P : SimParams K) (s : Sim K) (hvacKw : K) : StepEnv K :=
  { dt := rsDtAt s.cyc s.i
    mps := s.cyc.speeds.getD s.i 0
    gradeOf := rsLookupGradeAch F P s
    gradeEst := rsEstimateGrade F P s
    auxIn := (hotAux V s hvacKw).getD s.i 0
    coast := s.impose.getD s.i false
    roadKw := 0 }

/-- `step` (thermal.rs:343-363). -/
def hotStep (F : Fns K) (C : HotConsts K) (T : VehThrm K) (V : Veh K) (P : SimParams K) (h : Hot K) : Except RsErr (Hot K) :=
  let s := h.sd
  if s.i = 0 ∨ s.aux.length ≤ s.i ∨ s.rows.length ≤ s.i ∨ s.cyc.length ≤ s.i then .error .panic
  else do
    let amb ← ambAt h.amb s.i
    let r ← setThermal F C T (hotEnv V s) amb h.state h.hvac
    let q ← hotSolveStep F C T V P.toStepParams (hotStepEnv F V P s r.1.cabHvacPwrAuxKw)
      (s.rows.getD (s.i - 1) Row.zero) (s.rows.getD s.i Row.zero).stale r.1
    let state : Thermal K := { r.1 with fcEtaTempCoeff := q.2 }
    return { h with
      sd := { s with aux := hotAux V s r.1.cabHvacPwrAuxKw, rows := s.rows.set s.i q.1, i := s.i + 1 }
      state := state
      hvac := r.2
      history := h.history ++ [state]
      hvacHistory := h.hvacHistory ++ r.2.toList }

/-! ### Runs -/

/-- `init_for_step` (thermal.rs:324-333): histories grow, the thermal state stays as it is. -/
def hotInitForStep (V : Veh K) (P : SimParams K) (h : Hot K) (initSoc : K) (aux : Option (List K)) : Except RsErr (Hot K) :=
  match rsInitForStep V P h.sd initSoc aux with
  | .error _ => .error .panic
  | .ok s => .ok { h with
      sd := s, history := h.history ++ [h.state], hvacHistory := h.hvacHistory ++ h.hvac.toList }

/-- The loop of `walk` (thermal.rs:319-321): `unwrap` turns errors into panics. The bound on the iterations is that of
`rsWalkLoop`. -/
def hotWalkLoop (F : Fns K) (C : HotConsts K) (T : VehThrm K) (V : Veh K) (P : SimParams K) :
    Nat → Hot K → Except RsErr (Hot K)
  | 0, h => if h.sd.i < h.sd.cyc.length then .error .err else .ok h
  | n + 1, h =>
    if h.sd.i < h.sd.cyc.length then
      match hotStep F C T V P h with
      | .error _ => .error .panic
      | .ok h' => hotWalkLoop F C T V P n h'
    else .ok h

/-- `walk` (thermal.rs:317-322), which python calls as `sim_drive_walk`. -/
def hotWalk (F : Fns K) (C : HotConsts K) (T : VehThrm K) (V : Veh K) (P : SimParams K) (h : Hot K) (initSoc : K)
    (aux : Option (List K)) : Except RsErr (Hot K) :=
  match hotInitForStep V P h initSoc aux with
  | .error e => .error e
  | .ok h => hotWalkLoop F C T V P h.sd.cyc.length h

/-- The charge-balancing loop (thermal.rs:279-301). The state of charge of the next walk is clamped to `[0, 1]`. -/
def hotHevLoop (F : Fns K) (C : HotConsts K) (T : VehThrm K) (V : Veh K) (P : SimParams K) (aux : Option (List K))
    (count : Nat) (e soc : K) (h : Hot K) : Except RsErr (Hot K × K) :=
  if hc : V.essToFuelOkError < e ∧ count < P.simCountMax then
    match hotWalk F C T V P { h with sd := { h.sd with hevCount := count + 1 } } soc aux with
    | .error err => .error err
    | .ok h' =>
      if h'.sd.rows.length ≠ h'.sd.cyc.length then .error .panic
      else hotHevLoop F C T V P aux (count + 1) (rsEss2Fuel V h'.sd)
        (min 1 (max 0 (h'.sd.rows.getLast?.getD Row.zero).dec.soc)) h'
  else .ok (h, soc)
termination_by P.simCountMax - count
decreasing_by omega

/-- `sim_drive` (thermal.rs:259-315), without `set_post_scalars`. -/
def hotDrive (F : Fns K) (C : HotConsts K) (T : VehThrm K) (V : Veh K) (P : SimParams K) (h : Hot K) (initSoc : Option K)
    (aux : Option (List K)) : Except RsErr (Hot K) :=
  let h : Hot K := { h with sd := { h.sd with hevCount := 0 } }
  match initSoc with
  | some soc => hotWalk F C T V P h soc aux
  | none =>
    match V.ptType with
    | .conv => hotWalk F C T V P h ((V.maxSoc + V.minSoc) / 2) aux
    | .hev =>
      match hotHevLoop F C T V P aux 0 1 ((V.maxSoc + V.minSoc) / 2) h with
      | .error e => .error e
      | .ok r => hotWalk F C T V P r.1 r.2 aux
    | .phev => hotWalk F C T V P h V.maxSoc aux
    | .bev => hotWalk F C T V P h V.maxSoc aux

/-- The loop of `thermal_soak_walk` (thermal.rs:709-715): `n` steps are left. The powertrain is not computed and no history is
written. -/
def soakLoop (F : Fns K) (C : HotConsts K) (T : VehThrm K) (V : Veh K) : Nat → Hot K → Except RsErr (Hot K)
  | 0, h => .ok h
  | n + 1, h =>
    if h.sd.rows.length ≤ h.sd.i - 1 then .error .panic
    else
      match ambAt h.amb h.sd.i with
      | .error e => .error e
      | .ok amb =>
        match setThermal F C T (hotEnv V h.sd) amb h.state h.hvac with
        | .error e => .error e
        | .ok r => soakLoop F C T V n { h with sd := { h.sd with i := h.sd.i + 1 }, state := r.1, hvac := r.2 }

/-- `thermal_soak_walk` (thermal.rs:709-715). -/
def thermalSoakWalk (F : Fns K) (C : HotConsts K) (T : VehThrm K) (V : Veh K) (h : Hot K) : Except RsErr (Hot K) :=
  soakLoop F C T V (h.sd.cyc.length - 1) { h with sd := { h.sd with i := 1 } }

/-! ### Making a thermal simulation -/

/-- `ThermalState::default` (thermal.rs:1123-1167): 22 °C everywhere; the efficiency coefficient is zero. -/
def Thermal.default : Thermal K :=
  { fcTe := 22, fcEtaTempCoeff := 0, fcQdotPerNetHeat := 0, fcQdotKw := 0, fcQdotToAmbKw := 0, fcQdotToHtrKw := 0
    fcHtcToAmb := 0, fcLambda := 1, fcTeAdiabatic := 22
    cabTe := 22, cabPrevTe := 22, cabQdotToAmbKw := 0, cabQdotFromHvacKw := 0, cabHvacPwrAuxKw := 0
    exhMdot := 0, exhHdotKw := 0
    exhportExhTeIn := 22, exhportQdotToAmb := 0, exhportTe := 22, exhportQdotFromExh := 0, exhportQdotNet := 0
    catQdot := 0, catHtcToAmb := 0, catQdotToAmb := 0, catTe := 22, catExhTeIn := 22, catReExt := 0, catQdotFromExh := 0
    catQdotNet := 0, ambTe := 22 }

/-- `ThermalState::new` (thermal.rs:1100-1120): temperatures that are not given are the ambient one. -/
def Thermal.make (amb fc cab exhport cat : Option K) : Thermal K :=
  let a := amb.getD 22
  { (Thermal.default : Thermal K) with
    ambTe := a, fcTe := fc.getD a, cabTe := cab.getD a, cabPrevTe := cab.getD a, exhportTe := exhport.getD a
    catTe := cat.getD a }

/-- `SimDriveHot::new` (thermal.rs:210-253): an ambient array must begin with the ambient temperature of the given state; without
a state, only the ambient temperature is taken from the array. -/
def Hot.make (c : Cyc K) (hvac : Option (Hvac K)) (init : Option (Thermal K)) (amb : Option (List K)) :
    Except RsErr (Hot K) :=
  let mk (s : Thermal K) : Hot K :=
    { sd := (Sim.new c).toRust, state := s, hvac := hvac, amb := amb, history := [], hvacHistory := [] }
  match amb with
  | none => .ok (mk (init.getD Thermal.default))
  | some [] => .error .panic
  | some (a :: _) =>
    match init with
    | some s => if s.ambTe = a then .ok (mk s) else .error .panic
    | none => .ok (mk { (Thermal.default : Thermal K) with ambTe := a })

/-- `VehicleThermal::default` (vehicle_thermal.rs:443-473) with the models that are on by default: the engine only, exponential
(vehicle_thermal.rs:20-36, 47-50, 80-88). -/
def VehThrm.default : VehThrm K :=
  { fcCKjK := 150, fcL := 1, fcHtcToAmbStop := 50, fcCoeffFromComb := dec 1 10000, tstatTeSto := 85, tstatTeDelta := 5
    radEps := 5, fcModel := some (.exponential 0 25 (dec 2 10), .fuelConverter)
    cabCKjK := 125, cabLLength := 2, cabLWidth := 2, cabRToAmb := dec 2 100, cabHtcToAmbStop := 10
    exhportInternal := false, exhportHaToAmb := 5, exhportHaInt := 100, exhportCKjK := 10
    catInternal := false, catL := dec 5 10, catCKjK := 15, catHtcToAmbStop := 10, catTeLightoff := 400
    catFcEtaCoeff := dec 3 10 }

/-- `HVACModel::default` (vehicle_thermal.rs:136-154). -/
def Hvac.default : Hvac K :=
  { teSet := 22, pPerDegC := dec 1 10, iPerDegCSec := dec 1 100, dPerDegC := dec 1 10, cntrlMaxKw := 5, deadband := 1
    pKw := 0, iKw := 0, dKw := 0, fracOfIdealCop := dec 75 1000, useFcWasteHeat := true, maxAuxKw := 5, cop := 0 }

end Lawless
end Fastsim
