import Verif.Model.Cycle
import Verif.Model.Step

/-!
# Unit conversions and road-load coefficients

`utils/utilities.py` (`get_rho_air`, the fuel-economy conversions), `parameters.py` (lower heating value),
`cycle.py` (the `mph` view of a cycle) and `auxiliaries.py` (`abc_to_drag_coeffs`, `drag_coeffs_to_abc`).
-/

namespace Fastsim

section Lawless
variable {K : Type*} [Zero K] [One K] [NatCast K] [Add K] [Sub K] [Mul K] [Div K] [Neg K]
  [LinearOrder K]

/-- Division of Python floats: `ZeroDivisionError` when the divisor is zero. (Division of numpy scalars
and arrays gives `inf` or `nan` instead; that is not modelled.) -/
def pyDiv (a b : K) : Except PyErr K := if b = 0 then .error .zeroDivision else .ok (a / b)

/-- The constant `3.785` litres per gallon written in utilities.py:45,53 and parameters.py:53,57. -/
def lPerGal : K := 3785 / 1000

/-- `params.N_PER_LBF = 4.448` (parameters.py:26). -/
def nPerLbf : K := 4448 / 1000

/-- utilities.py:42-47 `l__100km_to_mpg` -/
def l100kmToMpg (l : K) : Except PyErr K := pyDiv 1 (l / lPerGal / 100 / 1000 * mPerMi)

/-- utilities.py:50-55 `mpg_to_l__100km` -/
def mpgToL100km (mpg : K) : Except PyErr K := pyDiv 1 (mpg / lPerGal * mPerMi / 1000 / 100)

/-- The attributes of `PhysicalProperties` the heating value depends on (parameters.py:45-47). -/
structure FuelProps (K : Type*) where
  kwhPerGge : K
  fuelRhoKgL : K

/-- parameters.py:51-53 `get_fuel_lhv_kJ__kg` -/
def FuelProps.lhv (p : FuelProps K) : Except PyErr K := do
  let x ← pyDiv (p.kwhPerGge / lPerGal) p.fuelRhoKgL
  .ok (x * 3600)

/-- parameters.py:55-57 `set_fuel_lhv_kJ__kg` -/
def FuelProps.setLhv (p : FuelProps K) (value : K) : FuelProps K :=
  { p with kwhPerGge := value * lPerGal * p.fuelRhoKgL / 3600 }

/-- cycle.py:189-190 `Cycle.get_mph` -/
def getMph (c : Cyc K) : List K := c.map fun s => s.v * mphPerMps

/-- cycle.py:192-193 `Cycle.set_mph` of an array of the cycle's length: only the speeds are replaced.
(An array of another length would leave the cycle with columns of different lengths; not modelled, nothing is
checked by the code.) -/
def setMph (c : Cyc K) (new : List K) : Cyc K :=
  List.zipWith (fun s x => { s with v := x / mphPerMps }) c new

/-- utilities.py:24-39 `get_rho_air`; `F.pow` is Python's `**`. -/
def getRhoAir (F : Fns K) (temperatureDegC elevationM : K) : Except PyErr K :=
  let tStandard := 1504 / 100 - 649 / 100000 * elevationM
  let p := 101290 * F.pow ((tStandard + 2731 / 10) / (28808 / 100)) (5256 / 1000)
  pyDiv p (287 * (temperatureDegC + 27315 / 100))

/-- The attributes of the vehicle the two road-load functions read. -/
structure RoadLoadVeh (K : Type*) where
  vehKg : K
  frontalAreaM2 : K
  dragCoef : K
  wheelRrCoef : K

/-- The air density used by both functions (auxiliaries.py:50-53, 173-174): `custom` holds temperature and
elevation when `custom_rho` is set; otherwise `props.air_density_kg_per_m3` of a fresh `PhysicalProperties`
(parameters.py:43), not the density of any simulation. -/
def ambientRho (F : Fns K) (custom : Option (K × K)) : Except PyErr K :=
  match custom with
  | some (t, h) => getRhoAir F t h
  | none => .ok (12 / 10)

/-- `props.a_grav_mps2` of a fresh `PhysicalProperties` (parameters.py:44). -/
def refGrav : K := 981 / 100

/-- auxiliaries.py:17-145 `abc_to_drag_coeffs` with `simdrive_optimize=False`: the two coefficients it
returns (lines 57-60, 108-111). Left out: the conversion of the vehicle to Rust, the coast-down simulation run
afterwards for plotting (lines 115-120, whose result is not used unless plots are shown, but which can raise)
and the plots. The coefficient `b` is not used. -/
def abcToDragCoeffs (F : Fns K) (custom : Option (K × K)) (veh : RoadLoadVeh K) (a _b c : K) :
    Except PyErr (K × K) := do
  let rho ← ambientRho F custom
  let aN := a * nPerLbf
  let cN := c * nPerLbf * mphPerMps * mphPerMps
  let cd ← pyDiv cN (1 / 2 * veh.frontalAreaM2 * rho)
  let x ← pyDiv aN veh.vehKg
  let rr ← pyDiv x refGrav
  .ok (cd, rr)

/-- auxiliaries.py:113: the coefficients are also stored on the vehicle (on the caller's one if
`use_rust=False`). -/
def RoadLoadVeh.withCoeffs (veh : RoadLoadVeh K) (p : K × K) : RoadLoadVeh K :=
  { veh with
    dragCoef := p.1
    wheelRrCoef := p.2 }

/-- auxiliaries.py:148-230 `drag_coeffs_to_abc` with `fit_with_curve=False` (lines 173-188, 214-217). -/
def dragCoeffsToAbc (F : Fns K) (custom : Option (K × K)) (veh : RoadLoadVeh K) :
    Except PyErr (K × K × K) := do
  let rho ← ambientRho F custom
  let cN := veh.dragCoef * (1 / 2 * veh.frontalAreaM2 * rho)
  let bN : K := 0
  let aN := veh.wheelRrCoef * veh.vehKg * refGrav
  .ok (aN / nPerLbf, bN / nPerLbf / mphPerMps, cN / nPerLbf / mphPerMps / mphPerMps)

/-- The unit argument of `calculate_tire_radius` (utilities.py:407-418). -/
inductive LenUnit where
  | m | cm | mm | ft | inch | other
  deriving DecidableEq

/-- utilities.py:400-421: radius from the numbers of the tire code. -/
def tireRadius (widthMm aspectRatio rimIn : K) (u : LenUnit) : Except PyErr K :=
  let sidewall := widthMm * aspectRatio / 100
  let diameter := rimIn * (254 / 10) + 2 * sidewall
  let radius := diameter / 2
  match u with
  | .m => .ok (radius / 1000)
  | .cm => .ok (radius / 10)
  | .mm => .ok radius
  | .ft => .ok (radius / (254 / 10) / 12)
  | .inch => .ok (radius / (254 / 10))
  | .other => .error .valueError

end Lawless

end Fastsim
