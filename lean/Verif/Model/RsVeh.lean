import Verif.Model.RsStep
import Verif.Model.Vehicle

/-!
# Model of `to_rust` for vehicles and of `RustVehicle::set_derived`

`Vehicle.to_rust` (python/fastsim/vehicle.py:737-740) is `copy_vehicle(self, 'rust')`: the inputs of the vehicle are written
to a yaml text, read back by the Rust core without derived values, and `RustVehicle::set_derived`
(rust/fastsim-core/src/vehicle.rs) derives them again. Objects on both sides have the attributes of `VehObj`; the motor map of
a Rust vehicle is never `None`.

Simplifications: numbers are elements of an ordered type instead of `f64`; the text is read back as it was written; attributes
that no computation reads (`val_*`, names, `ess_life_coef_*`) are left out; `small_motor_power_kw`, `large_motor_power_kw` and
`modern_max` have the values that `copy_vehicle` gives them.
-/

namespace Fastsim

section Lawless
variable {K : Type*} [Zero K] [One K] [NatCast K] [Add K] [Sub K] [Mul K] [Div K] [Neg K]
  [LinearOrder K]

/-! ### Tables and interpolation (`params.rs`, `utils.rs`) -/

/-- `FC_PERC_OUT_ARRAY` (params.rs:93-101), in thousandths. -/
def rsFcPercOut : List K :=
  ([0, 1, 2, 3, 4, 5, 6, 7, 8, 9, 10, 11, 12, 13, 14, 15, 16, 17, 18, 19, 20, 21, 22, 23, 24, 25, 26, 27, 28, 29,
   30, 35, 40, 45, 50, 55, 60, 65, 70, 80, 90, 100, 110, 120, 130, 140, 150, 160, 170, 180, 190, 200, 210, 220,
   230, 240, 250, 260, 270, 280, 290, 300, 310, 320, 330, 340, 350, 360, 370, 380, 390, 400, 410, 420, 430, 440,
   450, 460, 470, 480, 490, 500, 510, 520, 530, 540, 550, 560, 570, 580, 590, 600, 650, 700, 750, 800, 850, 900,
   950, 1000] : List Nat).map fun k => dec k 1000

/-- `MC_PERC_OUT_ARRAY` (params.rs:103-111): the hundredths from 0 to 1. -/
def rsMcPercOut : List K := (List.range 101).map fun k => dec k 100

/-- `LARGE_BASELINE_EFF` (params.rs:116-118). -/
def rsLargeBaselineEff : List K :=
  ([83, 85, 87, 89, 90, 91, 93, 94, 94, 93, 92] : List Nat).map fun k => dec k 100

/-- `SMALL_BASELINE_EFF` (params.rs:120-122). -/
def rsSmallBaselineEff : List K :=
  ([12, 16, 21, 29, 35, 42, 75, 92, 93, 93, 92] : List Nat).map fun k => dec k 100

/-- utils.rs:138-144: the points right of all the points kept before; `last` is the abscissa of the last one kept. -/
def rsKept (last : K) : List (K × K) → List (K × K)
  | [] => []
  | p :: l => if last < p.1 then p :: rsKept p.1 l else rsKept last l

/-- utils.rs:149-156: the index of the segment. `pts` has at least two points. -/
def rsSegment (pts : List (K × K)) (x : K) : Nat :=
  if (pts.getD (pts.length - 2) (0, 0)).1 ≤ x then pts.length - 2
  else pts.tail.findIdx fun p => decide (x ≤ p.1)

/-- utils.rs:157-170 without extrapolation, on the segment from `l` to `r`. -/
def rsOnSegment (x : K) (l r : K × K) : K :=
  let yr := if x < l.1 then l.2 else r.2
  let yl := if r.1 < x then yr else l.2
  yl + (yr - yl) / (r.1 - l.1) * (x - l.1)

/-- `interpolate(x, x_data, y_data, false)` (utils.rs:128-171). Different lengths fail the assertion; `x_data[0]` of an empty
array and `size - 2` of a single point panic. -/
def rsInterpolate (x : K) (xs ys : List K) : Except RsErr K :=
  if xs.length ≠ ys.length then .error .panic
  else
    match xs.zip ys with
    | [] => .error .panic
    | p :: l =>
      let pts := p :: rsKept p.1 l
      if pts.length < 2 then .error .panic
      else .ok (rsOnSegment x (pts.getD (rsSegment pts x) (0, 0)) (pts.getD (rsSegment pts x + 1) (0, 0)))

/-- A loop over an array whose body may panic. -/
def rsMapM {A B : Type*} (f : A → Except RsErr B) : List A → Except RsErr (List B)
  | [] => .ok []
  | a :: l =>
    match f a with
    | .error e => .error e
    | .ok b =>
      match rsMapM f l with
      | .error e => .error e
      | .ok bs => .ok (b :: bs)

/-- `arrmin` (utils.rs:89-91). -/
def rsArrMin : List K → K
  | [] => 0
  | a :: l => l.foldl min a

namespace VehObj

/-! ### `copy_vehicle(veh, 'rust')` -/

/-- What `copy_vehicle(veh, 'rust')` hands to `RustVehicle::set_derived` (vehicle.py:806-835 and 847-910): inputs are copied,
except that a mass override of zero becomes `None` (850-851), a motor map of `None` becomes eleven zeros (852-856), the
physical properties are those of the Rust default (the field is skipped by serde, vehicle.rs:110-114), and the override of the
motor's peak is lost (only that of the engine is set afterwards, 888; both fields are skipped by serde, vehicle.rs:546-553);
derived attributes are reset (889-908). -/
def toRust (o : VehObj K) : VehObj K :=
  { o with
    aGravMps2 := dec 981 100
    vehOverrideKg := match o.vehOverrideKg with
      | none => none
      | some k => if k = 0 then none else some k
    mcEffMap := some (o.mcEffMap.getD (List.replicate 11 0))
    mcPeakEffOverride := none
    chargingOn := false, noElecSys := false, noElecAux := false
    inputKwOutArray := [0], fcKwOutArray := [], fcEffArray := []
    mcEffArray := [0], mcKwInArray := [], mcKwOutArray := [], mcMaxElecInKw := 0, mcFullEffArray := []
    vehKg := 0, maxTracMps2 := 0, essMassKg := 0, mcMassKg := 0, fcMassKg := 0, fsMassKg := 0 }

/-! ### `RustVehicle::set_derived` (vehicle.rs:696-861) -/

/-- Lower bound zero (`validate(range(min = 0))`). -/
def rsMin0 (x : K) : Bool := decide (0 ≤ x)
/-- Between zero and one (`validate(range(min = 0, max = 1))`). -/
def rsUnit (x : K) : Bool := decide (0 ≤ x) && decide (x ≤ 1)
/-- Validation of an optional value. -/
def rsOpt (f : K → Bool) : Option K → Bool
  | none => true
  | some x => f x

/-- `self.validate()` (vehicle.rs:697-699 with the attributes of 109-553): the ranges of the inputs. The two string attributes
always match, since the model has no other values. -/
def rsValid (o : VehObj K) : Bool :=
  rsMin0 o.dragCoef && rsMin0 o.frontalAreaM2 && rsMin0 o.gliderKg && rsUnit o.driveAxleWeightFrac && rsMin0 o.wheelBaseM &&
  rsMin0 o.cargoKg && rsOpt rsMin0 o.vehOverrideKg && rsMin0 o.compMassMultiplier && rsMin0 o.fsMaxKw &&
  rsMin0 o.fsSecsToPeakPwr && rsMin0 o.fsKwh && rsMin0 o.fsKwhPerKg && rsMin0 o.fcMaxKw && rsMin0 o.fcSecToPeakPwr &&
  rsMin0 o.fcBaseKg && rsMin0 o.fcKwPerKg && rsMin0 o.minFcTimeOn && rsMin0 o.idleFcKw && rsMin0 o.mcMaxKw &&
  rsMin0 o.mcSecToPeakPwr && rsMin0 o.mcPeKgPerKw && rsMin0 o.mcPeBaseKg && rsMin0 o.essMaxKw && rsMin0 o.essMaxKwh &&
  rsMin0 o.essKgPerKwh && rsMin0 o.essBaseKg && rsUnit o.essRoundTripEff && rsUnit o.minSoc && rsUnit o.maxSoc &&
  rsUnit o.essDischgToFcMaxEffPerc && rsUnit o.essChgToFcMaxEffPerc && rsMin0 o.wheelInertiaKgM2 && rsMin0 o.numWheels &&
  rsMin0 o.wheelRrCoef && rsMin0 o.wheelRadiusM && rsMin0 o.wheelCoefOfFric && rsMin0 o.maxAccelBufferMph &&
  rsUnit o.maxAccelBufferPercOfUseableSoc && rsMin0 o.percHighAccBuf && rsMin0 o.mphFcOn && rsMin0 o.kwDemandFcOn &&
  rsUnit o.maxRegen && rsUnit o.altEff && rsUnit o.chgEff && rsMin0 o.auxKw && rsMin0 o.transKg && rsUnit o.transEff &&
  rsMin0 o.essToFuelOkError && rsOpt rsUnit o.fcPeakEffOverride && rsOpt rsUnit o.mcPeakEffOverride

/-- The assertions on the type of powertrain (vehicle.rs:701-735). -/
def rsTypeOk (o : VehObj K) : Bool :=
  if o.template then true
  else if o.ptType = .bev then decide (o.fsMaxKw = 0) && decide (o.fsKwh = 0) && decide (o.fcMaxKw = 0)
  else if o.ptType = .conv ∧ o.stopStart = false then
    decide (o.mcMaxKw = 0) && decide (o.essMaxKw = 0) && decide (o.essMaxKwh = 0)
  else true

/-- The motor map (vehicle.rs:775-796): built if it is all zeros. -/
def rsMcMap (o : VehObj K) : List K :=
  let map := o.mcEffMap.getD []
  if map.length = 11 ∧ (map.all fun e => decide (e = 0)) = true then
    let diff : K := modernMax - rsArrMax rsLargeBaselineEff
    let adj : K := max 0 (min ((o.mcMaxKw - dec 75 10) / (dec 750 10 - dec 75 10)) 1)
    List.zipWith (fun x y => adj * x + (1 - adj) * y) (rsLargeBaselineEff.map (· + diff)) rsSmallBaselineEff
  else map

/-- `set_fc_peak_eff` (vehicle.rs:655-670). -/
def rsSetFcPeak (o : VehObj K) (x : K) : VehObj K :=
  let arr := o.fcEffArray.map fun e => e * (x / rsArrMax o.fcEffArray)
  { o with fcEffArray := arr, fcEffMap := o.fcEffMap.map fun e => e * (x / rsArrMax arr) }

/-- `set_mc_peak_eff` (vehicle.rs:644-653). -/
def rsSetMcPeak (o : VehObj K) (x : K) : VehObj K :=
  { o with
    mcEffArray := o.mcEffArray.map fun e => e * (x / rsArrMax o.mcEffArray)
    mcFullEffArray := o.mcFullEffArray.map fun e => e * (x / rsArrMax o.mcFullEffArray) }

/-- `set_veh_mass` (vehicle.rs:576-621). -/
def rsSetVehMass (o : VehObj K) : VehObj K :=
  let m : VehObj K :=
    match o.vehOverrideKg with
    | some k => { o with vehKg := k }
    | none =>
      let ess := if o.essMaxKwh = 0 ∨ o.essMaxKw = 0 then 0
        else (o.essMaxKwh * o.essKgPerKwh + o.essBaseKg) * o.compMassMultiplier
      let mc := if o.mcMaxKw = 0 then 0 else (o.mcPeBaseKg + o.mcPeKgPerKw * o.mcMaxKw) * o.compMassMultiplier
      let fc := if o.fcMaxKw = 0 then 0 else (1 / o.fcKwPerKg * o.fcMaxKw + o.fcBaseKg) * o.compMassMultiplier
      let fs := if o.fsMaxKw = 0 then 0 else (1 / o.fsKwhPerKg * o.fsKwh) * o.compMassMultiplier
      { o with
        essMassKg := ess, mcMassKg := mc, fcMassKg := fc, fsMassKg := fs
        vehKg := o.cargoKg + o.gliderKg + o.transKg * o.compMassMultiplier + ess + mc + fc + fs }
  { m with maxTracMps2 :=
      (m.wheelCoefOfFric * m.driveAxleWeightFrac * m.vehKg * m.aGravMps2 /
        (1 + m.vehCgM * m.wheelCoefOfFric / m.wheelBaseM)) / (m.vehKg * m.aGravMps2) * m.aGravMps2 }

/-- The switches and curves (vehicle.rs:740-828). -/
def rsSetCurves (o : VehObj K) : Except RsErr (VehObj K) := do
  let sys : Bool := decide (o.essMaxKwh = 0) || decide (o.essMaxKw = 0) || decide (o.mcMaxKw = 0)
  let fcEff ← if o.fcEffArray.isEmpty then rsMapM (fun x => rsInterpolate x o.fcPwrOutPerc o.fcEffMap) rsFcPercOut
    else .ok o.fcEffArray
  let map := o.rsMcMap
  let out : List K := rsMcPercOut.map (· * o.mcMaxKw)
  let eff ← rsMapM (fun x => rsInterpolate x o.mcPwrOutPerc map) rsMcPercOut.tail
  let full := 0 :: eff
  let inp := 0 :: List.zipWith (· / ·) out.tail eff
  return { o with
    noElecSys := sys
    noElecAux := sys || decide (o.mcMaxKw ≤ o.auxKw) || o.forceAuxOnFc
    inputKwOutArray := o.fcPwrOutPerc.map (· * o.fcMaxKw)
    fcKwOutArray := rsFcPercOut.map (· * o.fcMaxKw)
    fcEffArray := fcEff
    mcEffMap := some map, mcEffArray := map
    mcKwOutArray := out, mcFullEffArray := full, mcKwInArray := inp, mcMaxElecInKw := rsArrMax inp }

/-- The overrides of the peaks (vehicle.rs:830-839), which are forgotten once used. -/
def rsSetOverrides (o : VehObj K) : VehObj K :=
  let o := match o.fcPeakEffOverride with
    | none => o
    | some x => { o.rsSetFcPeak x with fcPeakEffOverride := none }
  match o.mcPeakEffOverride with
  | none => o
  | some x => { o.rsSetMcPeak x with mcPeakEffOverride := none }

/-- The checks of the efficiencies (vehicle.rs:843-854): those of the motor only for vehicles that have one. -/
def rsEffOk (o : VehObj K) : Bool :=
  decide (0 ≤ rsArrMin o.fcEffArray) && decide (rsArrMax o.fcEffArray < 1) &&
  (o.noElecSys || (decide (0 ≤ rsArrMin o.mcFullEffArray) && decide (rsArrMax o.mcFullEffArray < 1)))

/-- `set_derived` (vehicle.rs:696-861). -/
def rsSetDerived (o : VehObj K) : Except RsErr (VehObj K) :=
  if o.rsValid = false then .error .err
  else if o.rsTypeOk = false then .error .panic
  else
    match o.rsSetCurves with
    | .error e => .error e
    | .ok o1 =>
      if o1.rsSetOverrides.rsEffOk = false then .error .err
      else
        let o2 := o1.rsSetOverrides.rsSetVehMass
        .ok { o2 with maxRegenKwh := dec 1 2 * o2.vehKg * ((27 * 27 : Nat) : K) / ((3600 * 1000 : Nat) : K) }

/-- What a Rust simulation reads of the vehicle: the stored attributes and, computed when read, `mc_peak_eff` and
`max_fc_eff_kw` (vehicle.rs:629-638). -/
def rsView (o : VehObj K) : Except RsErr (Veh K) :=
  match rsMaxFcEffKw o.toVeh with
  | .error e => .error e
  | .ok x => .ok { o.toVeh with mcPeakEff := rsMcPeakEff o.toVeh, maxFcEffKw := x }

end VehObj
end Lawless
end Fastsim
