import Verif.Model.RsThermal

/-!
# Model of the heating value of the fuel in the Rust core
-/

namespace Fastsim

section
variable {K : Type*} [Field K]

/-- `set_fuel_lhv_kj_per_kg` (params.rs:84-87): only the energy of a gallon is written. -/
def HotConsts.setFuelLhv (C : HotConsts K) (lhv : K) : HotConsts K :=
  { C with kwhPerGge := lhv * dec 3785 1000 * C.fuelRho / 3600 }

end
end Fastsim
