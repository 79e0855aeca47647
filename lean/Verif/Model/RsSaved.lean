import Verif.Model.RsVeh

/-!
# Model of saving and loading a Rust vehicle

`RustVehicle` is written with `to_file`, `to_str`, `to_yaml`, `to_json` and `to_toml` and read with `from_file`, `from_str`,
`from_yaml`, `from_json`, `from_toml`, `from_resource` and `from_cache` (rust/fastsim-core/src/traits.rs:69-337). What is
written is decided by the attributes of the fields (vehicle.rs:109-559); after reading, `init` (vehicle.rs:1116-1118) calls
`set_derived`, unless it is told to skip it.

Simplifications: numbers are elements of an ordered type instead of `f64`, and a number is read back as it was written; the
attributes that no computation reads (`doc`, names, `selection`, `val_*`, `ess_life_coef_*`) are left out.
-/

namespace Fastsim
namespace VehObj

section Lawless
variable {K : Type*} [Zero K] [One K] [NatCast K] [Add K] [Sub K] [Mul K] [Div K] [Neg K]
  [LinearOrder K]

/-- The vehicle that is read from the text written for `o`, before `init`. Fields marked `serde(skip)` (vehicle.rs:110-114
and 381-559) come back as their defaults: the physical properties of the Rust default, `false`, zero, empty arrays, no
overrides. `fc_eff_array` is read if the text has it, but never written (vehicle.rs:418-420): `arr` is what the text has, empty
for a text written by the program. -/
def rsFromText (arr : List K) (o : VehObj K) : VehObj K :=
  { o with
    aGravMps2 := dec 981 100
    fcPeakEffOverride := none, mcPeakEffOverride := none
    chargingOn := false, noElecSys := false, noElecAux := false
    inputKwOutArray := [], fcKwOutArray := [], fcEffArray := arr
    mcEffArray := [], mcKwInArray := [], mcKwOutArray := [], mcMaxElecInKw := 0, mcFullEffArray := []
    vehKg := 0, maxTracMps2 := 0, essMassKg := 0, mcMassKg := 0, fcMassKg := 0, fsMassKg := 0, maxRegenKwh := 0 }

/-- The motor map of a vehicle that was read (vehicle.rs:775-796). `small_motor_power_kw` and `large_motor_power_kw` are skipped
by serde (vehicle.rs:368-375), so both are zero: the share of the large motor is the smaller of `mc_max_kw / 0` (`+inf`, or NaN
for no motor, which `f64::min` ignores) and one. -/
def rsMcMapLoaded (o : VehObj K) : List K :=
  let map := o.mcEffMap.getD []
  if map.length = 11 ∧ (map.all fun e => decide (e = 0)) = true then
    let diff : K := modernMax - rsArrMax rsLargeBaselineEff
    let adj : K := 1
    List.zipWith (fun x y => adj * x + (1 - adj) * y) (rsLargeBaselineEff.map (· + diff)) rsSmallBaselineEff
  else map

/-- `init` of a vehicle that was read (vehicle.rs:1116-1118): `set_derived`, which does not read the motor map before it is
built (vehicle.rs:696-774). -/
def rsInitLoaded (o : VehObj K) : Except RsErr (VehObj K) :=
  ({ o with mcEffMap := some o.rsMcMapLoaded } : VehObj K).rsSetDerived

/-- A vehicle saved in yaml or json and loaded again (traits.rs:69-116): `from_reader` reads the text and calls `init`. -/
def rsReload (o : VehObj K) : Except RsErr (VehObj K) := (o.rsFromText []).rsInitLoaded

/-- A vehicle saved in toml and loaded again (traits.rs:168-185 and 230-236): `from_toml` calls `init`, and `from_reader` calls
it again. -/
def rsReloadToml (o : VehObj K) : Except RsErr (VehObj K) :=
  match (o.rsFromText []).rsInitLoaded with
  | .error e => .error e
  | .ok r => r.rsInitLoaded

end Lawless
end VehObj
end Fastsim
