import Verif.Model.Veh

/-!
# Building a vehicle (`python/fastsim/vehicle.py`)

`Vehicle.set_derived`, `Vehicle.set_veh_mass` and the peak-efficiency properties. The attributes
`SimDrive` reads are those of `Veh`; `VehObj` adds the other attributes the functions below read or
write.

Simplifications: exact arithmetic (numpy's `inf` and `nan` from a division by zero are not modelled;
a division by zero gives the field's value of `x / 0`); the unused `max_roadway_chg_kw` and the log
messages are left out.
-/

namespace Fastsim

/-- A `Vehicle` object (vehicle.py:144-363). `mcPeakEff`, `maxFcEffKw` and `maxRegenKwh` of `Veh`
are Python properties, computed when they are read: see `VehObj.view`. -/
structure VehObj (K : Type*) extends Veh K where
  /-- `scenario_name == 'Template Vehicle for setting up data types'` -/
  template : Bool
  forceAuxOnFc : Bool
  /-- `props.a_grav_mps2` -/
  aGravMps2 : K
  fsKwh : K
  fsKwhPerKg : K
  fcPwrOutPerc : List K
  fcEffMap : List K
  fcBaseKg : K
  fcKwPerKg : K
  mcPwrOutPerc : List K
  /-- `None` until a map is given or the default one has been derived. -/
  mcEffMap : Option (List K)
  mcPeKgPerKw : K
  mcPeBaseKg : K
  essKgPerKwh : K
  essBaseKg : K
  gliderKg : K
  cargoKg : K
  transKg : K
  compMassMultiplier : K
  vehOverrideKg : Option K
  fcPeakEffOverride : Option K
  mcPeakEffOverride : Option K
  -- derived, not read by the simulation
  inputKwOutArray : List K
  mcEffArray : List K
  essMassKg : K
  mcMassKg : K
  fcMassKg : K
  fsMassKg : K

section Lawless
variable {K : Type*} [Zero K] [One K] [NatCast K] [Add K] [Sub K] [Mul K] [Div K] [Neg K]
  [LinearOrder K]

/-- Decimal constant `n / d`. -/
def dec (n d : Nat) : K := (n : K) / (d : K)

/-- parameters.py:145-146: `np.r_[arange(0,3,.1), arange(3,7,.5), arange(7,60,1), arange(60,105,5)]
/ 100`, the values written out as thousandths (100 values). -/
def fcPercOutArray : List K :=
  ((List.range 30).map fun k => dec k 1000) ++ ((List.range 8).map fun k => dec (30 + 5 * k) 1000) ++
  ((List.range 53).map fun k => dec (70 + 10 * k) 1000) ++
  ((List.range 9).map fun k => dec (600 + 50 * k) 1000)

/-- parameters.py:156: `np.linspace(0, 1, 101)`. -/
def mcPercOutArray : List K := (List.range 101).map fun k => dec k 100

/-- parameters.py:122-124 -/
def defaultFcPwrOutPerc : List K :=
  [dec 0 1000, dec 5 1000, dec 15 1000, dec 40 1000, dec 60 1000, dec 100 1000, dec 140 1000,
   dec 200 1000, dec 400 1000, dec 600 1000, dec 800 1000, dec 1000 1000]

/-- parameters.py:149-150 -/
def defaultMcPwrOutPerc : List K :=
  [dec 0 100, dec 2 100, dec 4 100, dec 6 100, dec 8 100, dec 10 100, dec 20 100, dec 40 100,
   dec 60 100, dec 80 100, dec 100 100]

/-- parameters.py:151-152 -/
def largeBaselineEff : List K :=
  [dec 83 100, dec 85 100, dec 87 100, dec 89 100, dec 90 100, dec 91 100, dec 93 100, dec 94 100,
   dec 94 100, dec 93 100, dec 92 100]

/-- parameters.py:153-154 -/
def smallBaselineEff : List K :=
  [dec 12 100, dec 16 100, dec 21 100, dec 29 100, dec 35 100, dec 42 100, dec 75 100, dec 92 100,
   dec 93 100, dec 93 100, dec 92 100]

/-- parameters.py:155 -/
def modernMax : K := dec 95 100

/-- vehicle.py:581-587: how large the motor is between 7.5 kW and 75 kW, clipped to `[0, 1]`. -/
def mcKwAdjPerc (mcMaxKw : K) : K := max 0 (min ((mcMaxKw - dec 75 10) / (dec 750 10 - dec 75 10)) 1)

/-- vehicle.py:575-592: the motor map used when none was given. -/
def defaultMcEffMap (mcMaxKw : K) : List K :=
  let modernDiff : K := modernMax - listMax largeBaselineEff
  List.zipWith (fun l s => mcKwAdjPerc mcMaxKw * (l + modernDiff) + (1 - mcKwAdjPerc mcMaxKw) * s)
    largeBaselineEff smallBaselineEff

/-- `ndarray.min()`. -/
def listMin : List K → K
  | [] => 0
  | [a] => a
  | a :: l => min a (listMin l)

/-- `np.argmax(l)` of a numeric array: the first index of the largest value. -/
def argmaxIdx (l : List K) : Nat := l.findIdx fun x => decide (listMax l ≤ x)

/-- `np.interp(x=..., xp=..., fp=...)` on arrays: `ValueError` for an empty table or arrays of
different length. -/
def npInterp (xs xp fp : List K) : Except PyErr (List K) :=
  if xp.length = 0 ∨ xp.length ≠ fp.length then .error .valueError
  else .ok (xs.map fun x => interp x (xp.zip fp))

/-- vehicle.py:600-603: the motor efficiencies over the fine grid, first one 0, last one the last of
the map. -/
def fullEff (mid : List K) (effMap : List K) : List K :=
  (mid.set 0 0).set (mid.length - 1) (effMap.getLast?.getD 0)

/-- vehicle.py:605-607: input power for each output power, 0 first. -/
def kwInOf (out eff : List K) : List K := 0 :: List.zipWith (· / ·) out.tail eff.tail

/-- `arr *= new_peak / arr.max()` -/
def scaleTo (peak : K) (l : List K) : List K := l.map fun e => e * (peak / listMax l)

namespace VehObj

/-- vehicle.py:715-717 (`fc_peak_eff` read) -/
def fcPeak (o : VehObj K) : K := listMax o.fcEffArray

/-- vehicle.py:697-700 (`mc_peak_eff` read) -/
def mcPeak (o : VehObj K) : Except PyErr K :=
  if listMax o.mcFullEffArray = listMax o.mcEffArray then .ok (listMax o.mcFullEffArray)
  else .error .assertionError

/-- vehicle.py:719-728 (`fc_peak_eff = x`): the second factor is computed from the array already
scaled. -/
def setFcPeak (o : VehObj K) (x : K) : VehObj K :=
  let arr := scaleTo x o.fcEffArray
  { o with fcEffArray := arr, fcEffMap := o.fcEffMap.map fun e => e * (x / listMax arr) }

/-- vehicle.py:702-711 (`mc_peak_eff = x`). `mc_eff_map` is the same array object as `mc_eff_array`
after `set_derived` (vehicle.py:588-593), so both change; the model assumes that nobody has assigned
one of the two attributes since. -/
def setMcPeak (o : VehObj K) (x : K) : VehObj K :=
  let arr := scaleTo x o.mcEffArray
  { o with mcEffArray := arr, mcEffMap := some arr, mcFullEffArray := scaleTo x o.mcFullEffArray }

/-- vehicle.py:632-678. -/
def setVehMass (o : VehObj K) : VehObj K :=
  let sum : VehObj K :=
    let ess := if o.essMaxKwh = 0 ∨ o.essMaxKw = 0 then 0
      else (o.essMaxKwh * o.essKgPerKwh + o.essBaseKg) * o.compMassMultiplier
    let mc := if o.mcMaxKw = 0 then 0
      else (o.mcPeBaseKg + o.mcPeKgPerKw * o.mcMaxKw) * o.compMassMultiplier
    let fc := if o.fcMaxKw = 0 then 0
      else (1 / o.fcKwPerKg * o.fcMaxKw + o.fcBaseKg) * o.compMassMultiplier
    let fs := if o.fsMaxKw = 0 then 0
      else (1 / o.fsKwhPerKg * o.fsKwh) * o.compMassMultiplier
    { o with
      vehOverrideKg := some 0, essMassKg := ess, mcMassKg := mc, fcMassKg := fc, fsMassKg := fs
      vehKg := o.cargoKg + o.gliderKg + o.transKg * o.compMassMultiplier + ess + mc + fc + fs }
  let m : VehObj K := match o.vehOverrideKg with
    | none => sum
    | some k => if 0 < k then { o with vehKg := k, essMassKg := 0, mcMassKg := 0, fcMassKg := 0, fsMassKg := 0 }
      else sum
  { m with maxTracMps2 :=
      (m.wheelCoefOfFric * m.driveAxleWeightFrac * m.vehKg * m.aGravMps2 /
        (1 + m.vehCgM * m.wheelCoefOfFric / m.wheelBaseM)) / (m.vehKg * m.aGravMps2) * m.aGravMps2 }

/-- vehicle.py:549-558: what `set_derived` demands of battery-electric and conventional vehicles. -/
def typeOk (o : VehObj K) : Bool :=
  o.template ||
  match o.ptType with
  | .bev => decide (o.fsMaxKw = 0 ∧ o.fsKwh = 0 ∧ o.fcMaxKw = 0)
  | .conv => o.stopStart || decide (o.mcMaxKw = 0 ∧ o.essMaxKw = 0 ∧ o.essMaxKwh = 0)
  | _ => true

/-- vehicle.py:560-570: the two switches. -/
def setSwitches (o : VehObj K) : VehObj K :=
  let sys : Bool := decide (o.essMaxKwh = 0) || decide (o.essMaxKw = 0) || decide (o.mcMaxKw = 0)
  { o with
    chargingOn := false
    noElecSys := sys
    noElecAux := sys || decide (o.mcMaxKw ≤ o.auxKw) || o.forceAuxOnFc }

/-- vehicle.py:572-617: engine and motor curves. -/
def setCurves (o : VehObj K) : Except PyErr (VehObj K) :=
  match npInterp fcPercOutArray o.fcPwrOutPerc o.fcEffMap with
  | .error e => .error e
  | .ok fcEff =>
    let map := o.mcEffMap.getD (defaultMcEffMap o.mcMaxKw)
    let out := mcPercOutArray.map (· * o.mcMaxKw)
    match npInterp mcPercOutArray o.mcPwrOutPerc map with
    | .error e => .error e
    | .ok mid =>
      let full := fullEff mid map
      .ok { o with
        inputKwOutArray := o.fcPwrOutPerc.map (· * o.fcMaxKw)
        fcKwOutArray := fcPercOutArray.map (o.fcMaxKw * ·)
        fcEffArray := fcEff
        mcEffMap := some map, mcEffArray := map
        mcKwOutArray := out, mcFullEffArray := full
        mcKwInArray := kwInOf out full, mcMaxElecInKw := listMax (kwInOf out full) }

/-- vehicle.py:619-624: the peak-efficiency overrides. -/
def setOverrides (o : VehObj K) : VehObj K :=
  let o := match o.fcPeakEffOverride with | none => o | some x => o.setFcPeak x
  match o.mcPeakEffOverride with | none => o | some x => o.setMcPeak x

/-- vehicle.py:626-630: the checks on efficiencies (every failure is an `AssertionError`). -/
def effOk (o : VehObj K) : Bool :=
  decide (0 ≤ listMin o.fcEffArray) && decide (o.fcPeak < 1) && decide (0 ≤ listMin o.mcFullEffArray) &&
  match o.mcPeak with | .ok x => decide (x < 1) | .error _ => false

/-- vehicle.py:526-632: `set_derived`. -/
def setDerived (o : VehObj K) : Except PyErr (VehObj K) :=
  if o.typeOk then
    match o.setSwitches.setCurves with
    | .error e => .error e
    | .ok o1 =>
      if o1.setOverrides.effOk then .ok o1.setOverrides.setVehMass else .error .assertionError
  else .error .assertionError

/-- What the simulation reads: stored attributes and, computed at that moment, the properties
`max_fc_eff_kw`, `max_regen_kwh` (vehicle.py:682-687) and `mc_peak_eff`. -/
def view (o : VehObj K) : Except PyErr (Veh K) :=
  match o.mcPeak with
  | .error e => .error e
  | .ok x => .ok { o.toVeh with
      mcPeakEff := x
      maxFcEffKw := o.fcKwOutArray.getD (argmaxIdx o.fcEffArray) 0
      maxRegenKwh := dec 1 2 * o.vehKg * ((27 * 27 : Nat) : K) / ((3600 * 1000 : Nat) : K) }

end VehObj
end Lawless

end Fastsim
