import Verif.Model.Veh

/-!
# Road load, independent of the model

Power at the wheels needed to go from speed `v0` to speed `v` in `dt` seconds on a slope.
-/

namespace Fastsim.Spec

variable {K : Type*} [Field K]

/-- Average speed of the step. -/
def avgSpeed (v0 v : K) : K := (v0 + v) / 2

/-- Aerodynamic drag at average speed, kW. -/
def aeroKw (V : Veh K) (P : StepParams K) (v0 v : K) : K :=
  P.airDensity * V.dragCoef * V.frontalAreaM2 * avgSpeed v0 v ^ 3 / 2 / 1000

/-- Rate of change of the kinetic energy of the vehicle, kW. -/
def kineticKw (V : Veh K) (dt v0 v : K) : K :=
  (V.vehKg * v ^ 2 / 2 - V.vehKg * v0 ^ 2 / 2) / dt / 1000

/-- Climbing power at average speed, kW. -/
def climbKw (F : Fns K) (V : Veh K) (P : StepParams K) (grade v0 v : K) : K :=
  V.vehKg * P.aGrav * F.sinAtan grade * avgSpeed v0 v / 1000

/-- Rolling resistance at average speed, kW. -/
def rollKw (F : Fns K) (V : Veh K) (P : StepParams K) (grade v0 v : K) : K :=
  V.vehKg * P.aGrav * F.cosAtan grade * V.wheelRrCoef * avgSpeed v0 v / 1000

/-- Rotational energy of the wheels at speed `v`, kJ. -/
def wheelKj (V : Veh K) (v : K) : K :=
  V.numWheels * V.wheelInertiaKgM2 * (v / V.wheelRadiusM) ^ 2 / 2 / 1000

/-- Power at the wheels. -/
def roadLoadKw (F : Fns K) (V : Veh K) (P : StepParams K) (dt grade v0 v : K) : K :=
  aeroKw V P v0 v + kineticKw V dt v0 v + climbKw F V P grade v0 v + rollKw F V P grade v0 v
    + (wheelKj V v - wheelKj V v0) / dt

end Fastsim.Spec
