import Verif.Model.Run
import Mathlib.Algebra.Order.Field.Rat
import Mathlib.Data.Rat.Floor

/-!
# Concrete vehicles, parameters and cycles over `ℚ`

Used only to show that hypotheses of theorems are met by non-trivial cases.
-/

namespace Fastsim.Demo

/-- Stand-ins for the transcendental functions that are exact where the demos use them
(`sqrt (81/100) = 9/10`) and have the right sign and range elsewhere. -/
def fns : Fns ℚ :=
  { sqrt := fun x => if x = 81 / 100 then 9 / 10 else x
    exp := fun x => if x < 0 then 1 / (1 - x) else 1 + x
    sinAtan := fun g => g
    cosAtan := fun _ => 1
    tanAsin := fun s => s
    ceilNat := fun x => ⌈x⌉.toNat
    log := fun x => x - 1
    pow := fun x _ => x * x * (x * x) }

/-- No car following, no coasting. -/
def noHooks : Hooks ℚ := { idm := fun s => .ok s, coast := fun s => .ok s }

/-- A conventional car. -/
def conv : Veh ℚ :=
  { ptType := .conv, fcType := .other, stopStart := false, noElecSys := true, noElecAux := true
    chargingOn := false, vehKg := 1500, dragCoef := 3 / 10, frontalAreaM2 := 2, vehCgM := 1 / 2
    driveAxleWeightFrac := 3 / 5, wheelBaseM := 5 / 2, wheelInertiaKgM2 := 4 / 5, numWheels := 4
    wheelRrCoef := 1 / 100, wheelRadiusM := 3 / 10, wheelCoefOfFric := 7 / 10, maxTracMps2 := 4
    fsMaxKw := 500, fsSecsToPeakPwr := 1, fcMaxKw := 100, fcSecToPeakPwr := 5
    fcKwOutArray := [0, 1, 50, 100], fcEffArray := [1 / 10, 1 / 5, 7 / 20, 3 / 10]
    maxFcEffKw := 50, minFcTimeOn := 30, idleFcKw := 2, mcMaxKw := 0, mcSecToPeakPwr := 4
    mcKwInArray := [0, 0, 0], mcKwOutArray := [0, 0, 0], mcFullEffArray := [0, 4 / 5, 9 / 10]
    mcMaxElecInKw := 0, mcPeakEff := 9 / 10, essMaxKw := 0, essMaxKwh := 0
    essRoundTripEff := 81 / 100, minSoc := 2 / 5, maxSoc := 4 / 5, essDischgToFcMaxEffPerc := 0
    essChgToFcMaxEffPerc := 0, maxAccelBufferMph := 60, maxAccelBufferPercOfUseableSoc := 1 / 5
    percHighAccBuf := 0, mphFcOn := 30, kwDemandFcOn := 100, maxRegen := 98 / 100
    maxRegenKwh := 1 / 10, regenA := 500, regenB := 1, auxKw := 1 / 2, altEff := 1
    chgEff := 4 / 5, transEff := 9 / 10, essToFuelOkError := 1 / 200 }

/-- A parallel hybrid. -/
def hev : Veh ℚ :=
  { conv with
    ptType := .hev, noElecSys := false, noElecAux := false, mcMaxKw := 50
    mcKwInArray := [0, 125 / 4, 500 / 9], mcKwOutArray := [0, 25, 50], mcMaxElecInKw := 500 / 9
    essMaxKw := 40, essMaxKwh := 3 / 2, minFcTimeOn := 3 }

/-- A battery-electric car. -/
def bev : Veh ℚ :=
  { hev with
    ptType := .bev, fcMaxKw := 0, fsMaxKw := 0, essMaxKw := 80, essMaxKwh := 30, minSoc := 1 / 20
    maxSoc := 19 / 20, fcKwOutArray := [0, 0, 0, 0] }

/-- A fuel-cell hybrid. -/
def h2 : Veh ℚ := { hev with fcType := .h2fc }

/-- Default parameters, all driving modes off. -/
def params : SimParams ℚ :=
  { airDensity := 6 / 5, aGrav := 981 / 100, newtonMaxIter := 3, newtonXtol := 1 / 1000000000
    newtonGain := 9 / 10, favorGradeAccuracy := true, missedTrace := false
    maxTimeDilation := 1, minTimeDilation := -(1 / 2), timeDilationTol := 1 / 1000
    maxTraceMissIters := 5, simCountMax := 30, coastAllow := false, coastAllowPassing := false
    coastMaxSpeed := 40, coastBrakeAccel := -(5 / 2), coastBrakeStartSpeed := 8
    coastStartSpeed := 0, coastTimeHorizon := 20, idmAllow := false, idmVDesired := 30
    idmDtHeadway := 1, idmMinimumGap := 2, idmDelta := 4, idmAccel := 1, idmDecel := 3 / 2
    idmByDistance := none }

/-- A cycle with acceleration, cruise and braking. -/
def cyc : Cyc ℚ :=
  [⟨0, 0, 0, 0⟩, ⟨1, 2, 0, 0⟩, ⟨2, 4, 0, 0⟩, ⟨3, 4, 0, 0⟩, ⟨5, 1, 0, 0⟩, ⟨6, 0, 0, 0⟩]

/-- `sim_drive(init_soc)` on the demo cycle. -/
def run (V : Veh ℚ) (soc : ℚ) : Except PyErr (Sim ℚ) :=
  simDrive fns noHooks V params (Sim.new cyc) (some soc) none

/-- The rows of a successful run. -/
def rowsOf (r : Except PyErr (Sim ℚ)) : List (Row ℚ) :=
  match r with
  | .ok s => s.rows
  | .error _ => []

end Fastsim.Demo
