import Verif.Model.Veh

/-!
# Model of one simulation step (`SimDrive.solve_step`, simdrive.py:663-1583)

The code fills index `i` of about eighty arrays. The model groups the entries of one index by the
method that writes them; each method is a function from what it reads (vehicle, step environment,
the row of index `i-1`, the groups written before in the same step) to the group it writes.
Entries that are read at index `i` before they are written in the same step ("stale" values left
by an earlier solve of the same step) are the explicit argument `Stale`.
-/

namespace Fastsim

/-- What `set_misc_calcs` writes (simdrive.py:675-699), except `aux_in_kw`, see `StepEnv.auxIn`. -/
structure Misc (K : Type*) where
  reachedBuff : Bool
  highAccFcOnTag : Bool
  maxTracMps : K

/-- What `set_comp_lims` writes (simdrive.py:701-869). -/
structure Lims (K : Type*) where
  curMaxFsKwOut : K
  fcTransLimKw : K
  curMaxFcKwOut : K
  essCapLimDischgKw : K
  curEssMaxKwOut : K
  essCapLimChgKw : K
  curMaxEssChgKw : K
  curMaxElecKw : K
  curMaxAvailElecKw : K
  mcElecInLimKw : K
  mcTransiLimKw : K
  curMaxMcKwOut : K
  curMaxMcElecKwIn : K
  essLimMcRegenPercKw : K
  curMaxMechMcKwIn : K
  curMaxTracKw : K
  curMaxTransKwOut : K

/-- What `set_power_calcs` writes (simdrive.py:871-950). -/
structure Pow (K : Type*) where
  dragKw : K
  accelKw : K
  ascentKw : K
  cycTracKwReq : K
  spareTracKw : K
  rrKw : K
  cycWhlRadPerSec : K
  cycTireInertiaKw : K
  cycWhlKwReq : K
  regenContrlLimKwPerc : K
  cycRegenBrakeKw : K
  cycFricBrakeKw : K
  cycTransKwOutReq : K
  cycMet : Bool
  transKwOutAch : K
  transKwInAch : K
  minMcKw2helpFc : K

/-- What `set_ach_speed` writes (simdrive.py:952-1058). -/
structure Ach (K : Type*) where
  mpsAch : K
  mphAch : K
  distM : K
  distMi : K
  newtonIters : Nat

/-- What `set_hybrid_cont_calcs` writes (simdrive.py:1060-1237). -/
structure Hyb (K : Type*) where
  regenBuffSoc : K
  essRegenBuffDischgKw : K
  maxEssRegenBuffChgKw : K
  accelBuffSoc : K
  essAccelBuffChgKw : K
  maxEssAccellBuffDischgKw : K
  essAccelRegenDischgKw : K
  fcKwGapFrEff : K
  mcElecInKwForMaxFcEff : K
  elecKwReq4ae : K
  prevFcTimeOn : K
  canPwrAllElec : Bool
  desiredEssKwOutForAe : K
  essAeKwOut : K
  erAeKwOut : K

/-- What `set_fc_forced_state` writes (simdrive.py:1239-1277). -/
structure Forced (K : Type*) where
  fcForcedOn : Bool
  fcForcedState : Nat
  mcMechKw4forcedFc : K

/-- What `set_hybrid_cont_decisions` writes (simdrive.py:1279-1526). -/
structure Dec (K : Type*) where
  essDesiredKw4fcEff : K
  essKwIfFcReq : K
  erKwIfFcReq : K
  mcElecKwInIfFcReq : K
  mcKwIfFcReq : K
  mcMechKwOutAch : K
  mcElecKwInAch : K
  roadwayChgKwOutAch : K
  minEssKw2helpFc : K
  essKwOutAch : K
  essCurKwh : K
  soc : K
  fcTimeOn : K

/-- What `set_fc_power` writes (simdrive.py:1528-1583). -/
structure FcPow (K : Type*) where
  fcKwOutAch : K
  fcKwOutAchPct : K
  fcKwInAch : K
  fsKwOutAch : K
  fsKwhOutAch : K

/-- All array entries of one index `i`. -/
structure Row (K : Type*) where
  auxInKw : K
  misc : Misc K
  lims : Lims K
  pow : Pow K
  ach : Ach K
  hyb : Hyb K
  forced : Forced K
  dec : Dec K
  fc : FcPow K

/-- Inputs of one solve of step `i` that do not come from rows:
`dt = cyc.dt_s_at_i(i)`, `mps = cyc.mps[i]`, `gradeOf m = _lookup_grade_for_step(i, mps_ach=m)`,
`gradeEst = _estimate_grade_for_step(i)`, `auxIn = aux_in_kw[i]` after `set_misc_calcs`
(computed by `auxStep` in `Verif.Model.Run`), `coast = impose_coast[i]`,
`roadKw = cur_max_roadway_chg_kw[i]` (zero-initialised at simdrive.py:327 and never assigned). -/
structure StepEnv (K : Type*) where
  dt : K
  mps : K
  gradeOf : K → K
  gradeEst : K
  auxIn : K
  coast : Bool
  roadKw : K

/-- Values left at index `i` by an earlier solve of the same step (zero in the first solve):
`newton_iters[i]`, `mps_ach[i]` (read at simdrive.py:880-881) and `fc_kw_out_ach[i]`
(read at simdrive.py:1523). -/
structure Stale (K : Type*) where
  newtonIters : Nat
  mpsAch : K
  fcKwOutAch : K

section Lawless
variable {K : Type*} [Zero K] [One K] [NatCast K] [Add K] [Sub K] [Mul K] [Div K] [Neg K]
  [LinearOrder K]

/-- `params.MPH_PER_MPS = 2.2369` (parameters.py:23). -/
def mphPerMps : K := 22369 / 10000
/-- `params.M_PER_MI = 1609` (parameters.py:24). -/
def mPerMi : K := 1609

/-- Fresh arrays (`init_arrays`). -/
def Stale.fresh : Stale K := ⟨0, 0, 0⟩

/-- `set_misc_calcs` (simdrive.py:675-699) without the aux part. -/
def setMisc (V : Veh K) (E : StepEnv K) (p : Row K) : Misc K :=
  let reached : Bool := if p.dec.soc < V.minSoc + V.percHighAccBuf then false else true
  { reachedBuff := reached
    highAccFcOnTag :=
      if p.dec.soc < V.minSoc ∨ (p.misc.highAccFcOnTag = true ∧ reached = false) then true else false
    maxTracMps := p.ach.mpsAch + V.maxTracMps2 * E.dt }

/-! ### `set_comp_lims` (simdrive.py:701-869), one definition per array -/

/-- simdrive.py:711-714 -/
def curMaxFsKwOut (V : Veh K) (E : StepEnv K) (p : Row K) : K :=
  min V.fsMaxKw (p.fc.fsKwOutAch + V.fsMaxKw / V.fsSecsToPeakPwr * E.dt)

/-- simdrive.py:716-718 -/
def fcTransLimKw (V : Veh K) (E : StepEnv K) (p : Row K) : K :=
  p.fc.fcKwOutAch + V.fcMaxKw / V.fcSecToPeakPwr * E.dt

/-- simdrive.py:720-721 -/
def curMaxFcKwOut (V : Veh K) (E : StepEnv K) (p : Row K) : K :=
  min V.fcMaxKw (fcTransLimKw V E p)

/-- simdrive.py:723-728 -/
def essCapLimDischgKw (F : Fns K) (V : Veh K) (E : StepEnv K) (p : Row K) : K :=
  if V.essMaxKwh = 0 ∨ p.dec.soc < V.minSoc then 0
  else V.essMaxKwh * F.sqrt V.essRoundTripEff * 3600 * (p.dec.soc - V.minSoc) / E.dt

/-- simdrive.py:729-730 -/
def curEssMaxKwOut (F : Fns K) (V : Veh K) (E : StepEnv K) (p : Row K) : K :=
  min V.essMaxKw (essCapLimDischgKw F V E p)

/-- simdrive.py:732-740 -/
def essCapLimChgKw (F : Fns K) (V : Veh K) (E : StepEnv K) (p : Row K) : K :=
  if V.essMaxKwh = 0 ∨ V.essMaxKw = 0 then 0
  else max ((V.maxSoc - p.dec.soc) * V.essMaxKwh * 1 / F.sqrt V.essRoundTripEff / (E.dt * 1 / 3600)) 0

/-- simdrive.py:742-743 -/
def curMaxEssChgKw (F : Fns K) (V : Veh K) (E : StepEnv K) (p : Row K) : K :=
  min (essCapLimChgKw F V E p) V.essMaxKw

/-- simdrive.py:745-753 -/
def curMaxElecKw (F : Fns K) (V : Veh K) (E : StepEnv K) (p : Row K) : K :=
  if V.fcType = .h2fc then
    curMaxFcKwOut V E p + E.roadKw + curEssMaxKwOut F V E p - E.auxIn
  else E.roadKw + curEssMaxKwOut F V E p - E.auxIn

/-- simdrive.py:756-757 -/
def curMaxAvailElecKw (F : Fns K) (V : Veh K) (E : StepEnv K) (p : Row K) : K :=
  min (curMaxElecKw F V E p) V.mcMaxElecInKw

/-- simdrive.py:759-773 -/
def mcElecInLimKw (F : Fns K) (V : Veh K) (E : StepEnv K) (p : Row K) : K :=
  if 0 < curMaxElecKw F V E p then
    if curMaxAvailElecKw F V E p = listMax V.mcKwInArray then
      min (V.mcKwOutArray.getLast?.getD 0) V.mcMaxKw
    else
      min (lookupM1 V.mcKwInArray V.mcKwOutArray
        (min (listMax V.mcKwInArray - 1 / 100) (curMaxAvailElecKw F V E p))) V.mcMaxKw
  else 0

/-- simdrive.py:776-777 -/
def mcTransiLimKw (V : Veh K) (E : StepEnv K) (p : Row K) : K :=
  pabs p.dec.mcMechKwOutAch + V.mcMaxKw / V.mcSecToPeakPwr * E.dt

/-- simdrive.py:779-785 -/
def curMaxMcKwOut (F : Fns K) (V : Veh K) (E : StepEnv K) (p : Row K) : K :=
  max (min (min (mcElecInLimKw F V E p) (mcTransiLimKw V E p))
      ((if V.stopStart then 0 else 1) * V.mcMaxKw))
    (-V.mcMaxKw)

/-- simdrive.py:787-801 -/
def curMaxMcElecKwIn (F : Fns K) (V : Veh K) (E : StepEnv K) (p : Row K) : K :=
  let m := curMaxMcKwOut F V E p
  if m = 0 then 0
  else if m = V.mcMaxKw then m / V.mcFullEffArray.getLast?.getD 0
  else m / lookupMax1 V.mcKwOutArray V.mcFullEffArray (min (V.mcMaxKw - 1 / 100) m)

/-- simdrive.py:803-808 -/
def essLimMcRegenPercKw (F : Fns K) (V : Veh K) (E : StepEnv K) (p : Row K) : K :=
  if V.mcMaxKw = 0 then 0
  else min ((curMaxEssChgKw F V E p + E.auxIn) / V.mcMaxKw) 1

/-- simdrive.py:809-830 -/
def curMaxMechMcKwIn (F : Fns K) (V : Veh K) (E : StepEnv K) (p : Row K) : K :=
  let c := curMaxEssChgKw F V E p
  if c = 0 then 0
  else if V.mcMaxKw = c - E.roadKw then
    min V.mcMaxKw (c / V.mcFullEffArray.getLast?.getD 0)
  else min V.mcMaxKw
    (c / lookupMax1 V.mcKwOutArray V.mcFullEffArray (min (V.mcMaxKw - 1 / 100) (c - E.roadKw)))

/-- simdrive.py:832-837 -/
def curMaxTracKw (V : Veh K) (P : StepParams K) (m : Misc K) : K :=
  V.wheelCoefOfFric * V.driveAxleWeightFrac * V.vehKg * P.aGrav
    / (1 + V.vehCgM * V.wheelCoefOfFric / V.wheelBaseM) / 1000 * m.maxTracMps

/-- simdrive.py:839-869 -/
def curMaxTransKwOut (F : Fns K) (V : Veh K) (P : StepParams K) (E : StepEnv K) (p : Row K)
    (m : Misc K) : K :=
  if E.coast then 0
  else
    let auxOnFc : Bool := V.noElecSys || V.noElecAux || m.highAccFcOnTag
    if V.fcType = .h2fc then
      if auxOnFc then
        min ((curMaxMcKwOut F V E p - E.auxIn) * V.transEff) (curMaxTracKw V P m / V.transEff)
      else
        min ((curMaxMcKwOut F V E p - min (curMaxElecKw F V E p) 0) * V.transEff)
          (curMaxTracKw V P m / V.transEff)
    else
      if auxOnFc then
        min ((curMaxMcKwOut F V E p + curMaxFcKwOut V E p - E.auxIn) * V.transEff)
          (curMaxTracKw V P m / V.transEff)
      else
        min ((curMaxMcKwOut F V E p + curMaxFcKwOut V E p - min (curMaxElecKw F V E p) 0)
            * V.transEff)
          (curMaxTracKw V P m / V.transEff)

/-- `set_comp_lims` (simdrive.py:701-869). -/
def setCompLims (F : Fns K) (V : Veh K) (P : StepParams K) (E : StepEnv K) (p : Row K)
    (m : Misc K) : Lims K :=
  { curMaxFsKwOut := curMaxFsKwOut V E p
    fcTransLimKw := fcTransLimKw V E p
    curMaxFcKwOut := curMaxFcKwOut V E p
    essCapLimDischgKw := essCapLimDischgKw F V E p
    curEssMaxKwOut := curEssMaxKwOut F V E p
    essCapLimChgKw := essCapLimChgKw F V E p
    curMaxEssChgKw := curMaxEssChgKw F V E p
    curMaxElecKw := curMaxElecKw F V E p
    curMaxAvailElecKw := curMaxAvailElecKw F V E p
    mcElecInLimKw := mcElecInLimKw F V E p
    mcTransiLimKw := mcTransiLimKw V E p
    curMaxMcKwOut := curMaxMcKwOut F V E p
    curMaxMcElecKwIn := curMaxMcElecKwIn F V E p
    essLimMcRegenPercKw := essLimMcRegenPercKw F V E p
    curMaxMechMcKwIn := curMaxMechMcKwIn F V E p
    curMaxTracKw := curMaxTracKw V P m
    curMaxTransKwOut := curMaxTransKwOut F V P E p m }

/-! ### `set_power_calcs` (simdrive.py:871-950) -/

/-- simdrive.py:888-889: `0.5*rho*Cd*A*((v0+v)/2)**3/1000` -/
def dragKw (V : Veh K) (P : StepParams K) (v0 v : K) : K :=
  1 / 2 * P.airDensity * V.dragCoef * V.frontalAreaM2
    * (((v0 + v) / 2) * ((v0 + v) / 2) * ((v0 + v) / 2)) / 1000

/-- simdrive.py:890-892 -/
def accelKw (V : Veh K) (dt v0 v : K) : K :=
  V.vehKg / (2 * dt) * (v * v - v0 * v0) / 1000

/-- simdrive.py:893-894 -/
def ascentKw (F : Fns K) (V : Veh K) (P : StepParams K) (grade v0 v : K) : K :=
  P.aGrav * F.sinAtan grade * V.vehKg * ((v0 + v) / 2) / 1000

/-- simdrive.py:899-900 -/
def rrKw (F : Fns K) (V : Veh K) (P : StepParams K) (grade v0 v : K) : K :=
  V.vehKg * P.aGrav * V.wheelRrCoef * F.cosAtan grade * (v0 + v) / 2 / 1000

/-- simdrive.py:901-907 -/
def tireInertiaKw (V : Veh K) (dt v0 v : K) : K :=
  (1 / 2 * V.wheelInertiaKgM2 * V.numWheels * ((v / V.wheelRadiusM) * (v / V.wheelRadiusM)) / dt
    - 1 / 2 * V.wheelInertiaKgM2 * V.numWheels * ((v0 / V.wheelRadiusM) * (v0 / V.wheelRadiusM)) / dt)
    / 1000

/-- simdrive.py:912-913 -/
def regenContrlLimKwPerc (F : Fns K) (V : Veh K) (v0 cycMps : K) : K :=
  V.maxRegen / (1 + V.regenA * F.exp (-V.regenB * ((cycMps * mphPerMps + v0 * mphPerMps) / 2 + 1)))

/-- simdrive.py:914-918 -/
def regenBrakeKw (V : Veh K) (maxMechIn perc whlReq : K) : K :=
  max (min (maxMechIn * V.transEff) (perc * -whlReq)) 0

/-- simdrive.py:919-920 -/
def fricBrakeKw (regen whlReq : K) : K := -(min (regen + whlReq) 0)

/-- simdrive.py:932-937 -/
def transKwIn (V : Veh K) (out : K) : K :=
  if 0 < out then out / V.transEff else out * V.transEff

/-- `set_power_calcs` evaluated for the speed `v` at the end of the step
(simdrive.py:871-950; the choice of `v` at 880-883 is in `setPowerCalcs`). -/
def powerAt (F : Fns K) (V : Veh K) (P : StepParams K) (E : StepEnv K) (p : Row K) (L : Lims K)
    (v : K) : Pow K :=
  let v0 := p.ach.mpsAch
  let grade := E.gradeOf v
  let drag := dragKw V P v0 v
  let accel := accelKw V E.dt v0 v
  let ascent := ascentKw F V P grade v0 v
  let tracReq := drag + accel + ascent
  let rr := rrKw F V P grade v0 v
  let inertia := tireInertiaKw V E.dt v0 v
  let whlReq := tracReq + rr + inertia
  let perc := regenContrlLimKwPerc F V v0 E.mps
  let regen := regenBrakeKw V L.curMaxMechMcKwIn perc whlReq
  let fric := fricBrakeKw regen whlReq
  let outReq := whlReq + fric
  let met : Bool := decide (outReq ≤ L.curMaxTransKwOut)
  let out := if outReq ≤ L.curMaxTransKwOut then outReq else L.curMaxTransKwOut
  let inp := transKwIn V out
  { dragKw := drag
    accelKw := accel
    ascentKw := ascent
    cycTracKwReq := tracReq
    spareTracKw := L.curMaxTracKw - tracReq
    rrKw := rr
    cycWhlRadPerSec := v / V.wheelRadiusM
    cycTireInertiaKw := inertia
    cycWhlKwReq := whlReq
    regenContrlLimKwPerc := perc
    cycRegenBrakeKw := regen
    cycFricBrakeKw := fric
    cycTransKwOutReq := outReq
    cycMet := met
    transKwOutAch := out
    transKwInAch := inp
    minMcKw2helpFc :=
      if met then
        if V.fcType = .h2fc then max inp (-L.curMaxMechMcKwIn)
        else max (inp - L.curMaxFcKwOut) (-L.curMaxMechMcKwIn)
      else max L.curMaxMcKwOut (-L.curMaxMechMcKwIn) }

/-! ### `set_ach_speed` (simdrive.py:952-1058) -/

/-- The cubic `t3 x³ + t2 x² + t1 x + t0` (simdrive.py:981, 992). -/
def cubic (t3 t2 t1 t0 x : K) : K := t3 * (x * x * x) + t2 * (x * x) + t1 * x + t0

/-- Its derivative (simdrive.py:982, 993). -/
def cubicD (t3 t2 t1 x : K) : K := 3 * t3 * (x * x) + 2 * t2 * x + t1

/-- The `while` loop of `newton_mps_estimate` (simdrive.py:990-1000). `fuel` bounds the number of
iterations left (`max_iter - iterate`); returns the final `iterate` and the list of iterates, the
newest first. -/
def newtonLoop (t3 t2 t1 t0 xtol g : K) : (fuel iterate : Nat) → List K → Nat × List K
  | 0, iterate, xs => (iterate, xs)
  | fuel + 1, iterate, xs =>
    let x := xs.headD 0
    let b := cubic t3 t2 t1 t0 x - x * cubicD t3 t2 t1 x
    let x' := x * (1 - g) - g * b / cubicD t3 t2 t1 x
    if pabs ((x' - x) / x) < xtol then (iterate + 1, x' :: xs)
    else newtonLoop t3 t2 t1 t0 xtol g fuel (iterate + 1) (x' :: xs)

/-- First entry with the smallest key: `xs[_ys.index(min(_ys))]` (simdrive.py:1004-1005). -/
def argminBy (f : K → K) : List K → K → K
  | [], best => best
  | x :: xs, best => if f x < f best then argminBy f xs x else argminBy f xs best

/-- `newton_mps_estimate` (simdrive.py:965-1005): number of iterations and the speed. -/
def newtonMps (P : StepParams K) (v0 t3 t2 t1 t0 : K) : Nat × K :=
  let x0 := max 1 v0
  let r := newtonLoop t3 t2 t1 t0 P.newtonXtol P.newtonGain (P.newtonMaxIter - 1) 1 [x0]
  (r.1, max (argminBy (fun x => pabs (cubic t3 t2 t1 t0 x)) r.2.reverse.tail x0) 0)

/-- The coefficients of simdrive.py:1016-1048. -/
def speedCoeffs (F : Fns K) (V : Veh K) (P : StepParams K) (dt v0 maxOut grade : K) :
    K × K × K × K :=
  let rho := P.airDensity * V.dragCoef * V.frontalAreaM2
  let drag3 := 1 / 16 * rho
  let accel2 := 1 / 2 * V.vehKg / dt
  let drag2 := 3 / 16 * rho * v0
  let wheel2 := 1 / 2 * V.wheelInertiaKgM2 * V.numWheels / (dt * (V.wheelRadiusM * V.wheelRadiusM))
  let drag1 := 3 / 16 * rho * (v0 * v0)
  let roll1 := 1 / 2 * V.vehKg * P.aGrav * V.wheelRrCoef * F.cosAtan grade
  let ascent1 := 1 / 2 * P.aGrav * F.sinAtan grade * V.vehKg
  let accel0 := -(1 / 2) * V.vehKg * (v0 * v0) / dt
  let drag0 := 1 / 16 * rho * (v0 * v0 * v0)
  let roll0 := 1 / 2 * V.vehKg * P.aGrav * V.wheelRrCoef * F.cosAtan grade * v0
  let ascent0 := 1 / 2 * P.aGrav * F.sinAtan grade * V.vehKg * v0
  let wheel0 := -(1 / 2) * V.wheelInertiaKgM2 * V.numWheels * (v0 * v0)
    / (dt * (V.wheelRadiusM * V.wheelRadiusM))
  (drag3 / 1000, (accel2 + drag2 + wheel2) / 1000, (drag1 + roll1 + ascent1) / 1000,
    (accel0 + drag0 + roll0 + ascent0 + wheel0) / 1000 - maxOut)

/-- The grade iteration of `set_ach_speed` (simdrive.py:1007-1053): at most `fuel` more passes. -/
def gradeLoop (F : Fns K) (V : Veh K) (P : StepParams K) (E : StepEnv K) (v0 maxOut : K) :
    (fuel : Nat) → (grade : K) → Nat × K → Nat × K
  | 0, _, r => r
  | fuel + 1, grade, _ =>
    let t := speedCoeffs F V P E.dt v0 maxOut grade
    let r := newtonMps P v0 t.1 t.2.1 t.2.2.1 t.2.2.2
    let grade' := E.gradeOf r.2
    if 1 / 1000000 < pabs (grade - grade') then gradeLoop F V P E v0 maxOut fuel grade' r else r

/-- `set_ach_speed` (simdrive.py:952-1058): the achieved speed and the power figures that result
(recomputed at 1054 when the trace is missed). -/
def setAchSpeed (F : Fns K) (V : Veh K) (P : StepParams K) (E : StepEnv K) (p : Row K) (L : Lims K)
    (pw : Pow K) (stale : Stale K) : Ach K × Pow K :=
  let r : Nat × K × Pow K :=
    if pw.cycMet then (stale.newtonIters, E.mps, pw)
    else
      let n := gradeLoop F V P E p.ach.mpsAch L.curMaxTransKwOut 3 E.gradeEst
        (stale.newtonIters, stale.mpsAch)
      (n.1, n.2, powerAt F V P E p L n.2)
  ({ mpsAch := r.2.1
     mphAch := r.2.1 * mphPerMps
     distM := r.2.1 * E.dt
     distMi := r.2.1 * E.dt * (1 / mPerMi)
     newtonIters := r.1 }, r.2.2)

/-- First call of `set_power_calcs` in a step (simdrive.py:880-883): the speed used is the cycle
speed unless an earlier solve of the same step left `newton_iters[i] > 0`. -/
def setPowerCalcs (F : Fns K) (V : Veh K) (P : StepParams K) (E : StepEnv K) (p : Row K) (L : Lims K)
    (stale : Stale K) : Pow K :=
  powerAt F V P E p L (if 0 < stale.newtonIters then stale.mpsAch else E.mps)

/-! ### `set_hybrid_cont_calcs` (simdrive.py:1060-1237) -/

/-- simdrive.py:1066-1079 -/
def regenBuffSoc (V : Veh K) (E : StepEnv K) : K :=
  if V.noElecSys then 0
  else if V.chargingOn then
    max (V.maxSoc - V.maxRegenKwh / V.essMaxKwh) ((V.maxSoc + V.minSoc) / 2)
  else
    max ((V.essMaxKwh * V.maxSoc
        - 1 / 2 * V.vehKg * (E.mps * E.mps) * (1 / 1000) * (1 / 3600) * V.mcPeakEff * V.maxRegen)
        / V.essMaxKwh) V.minSoc

/-- simdrive.py:1081-1082 (zero when the branch is not taken) -/
def essRegenBuffDischgKw (V : Veh K) (E : StepEnv K) (soc0 : K) (L : Lims K) : K :=
  if V.noElecSys || V.chargingOn then 0
  else min L.curEssMaxKwOut
    (max 0 ((soc0 - regenBuffSoc V E) * V.essMaxKwh * 3600 / E.dt))

/-- simdrive.py:1084-1088 (zero when the branch is not taken) -/
def maxEssRegenBuffChgKw (V : Veh K) (E : StepEnv K) (soc0 : K) (L : Lims K) : K :=
  if V.noElecSys || V.chargingOn then 0
  else min (max 0 ((regenBuffSoc V E - soc0) * V.essMaxKwh * 3600 / E.dt)) L.curMaxEssChgKw

/-- simdrive.py:1090-1105 -/
def accelBuffSoc (V : Veh K) (E : StepEnv K) : K :=
  if V.noElecSys then 0
  else
    let b := V.maxAccelBufferMph / mphPerMps
    min (max ((b * b - E.mps * E.mps) / (b * b)
        * min (V.maxAccelBufferPercOfUseableSoc * (V.maxSoc - V.minSoc)) (V.maxRegenKwh / V.essMaxKwh)
        * V.essMaxKwh / V.essMaxKwh + V.minSoc) V.minSoc) V.maxSoc

/-- simdrive.py:1107-1108 -/
def essAccelBuffChgKw (V : Veh K) (E : StepEnv K) (soc0 : K) : K :=
  if V.noElecSys then 0
  else max 0 ((accelBuffSoc V E - soc0) * V.essMaxKwh * 3600 / E.dt)

/-- simdrive.py:1109-1114 -/
def maxEssAccellBuffDischgKw (V : Veh K) (E : StepEnv K) (soc0 : K) (L : Lims K) : K :=
  if V.noElecSys then 0
  else min (max 0 ((soc0 - accelBuffSoc V E) * V.essMaxKwh * 3600 / E.dt)) L.curEssMaxKwOut

/-- simdrive.py:1116-1140 -/
def essAccelRegenDischgKw (V : Veh K) (E : StepEnv K) (soc0 : K) (L : Lims K) : K :=
  let rb := regenBuffSoc V E
  let ab := accelBuffSoc V E
  if rb < ab then
    max (min ((soc0 - (rb + ab) / 2) * V.essMaxKwh * 3600 / E.dt) L.curEssMaxKwOut)
      (-L.curMaxEssChgKw)
  else if rb < soc0 then
    max (min (essRegenBuffDischgKw V E soc0 L) L.curEssMaxKwOut) (-L.curMaxEssChgKw)
  else if soc0 < ab then
    max (min (-1 * essAccelBuffChgKw V E soc0) L.curEssMaxKwOut) (-L.curMaxEssChgKw)
  else max (min 0 L.curEssMaxKwOut) (-L.curMaxEssChgKw)

/-- simdrive.py:1142-1164 -/
def mcElecInKwForMaxFcEff (V : Veh K) (pw : Pow K) : K :=
  let gap := pabs (pw.transKwOutAch - V.maxFcEffKw)
  if V.noElecSys then 0
  else if pw.transKwOutAch < V.maxFcEffKw then
    if gap = V.mcMaxKw then -gap / V.mcFullEffArray.getLast?.getD 0
    else -gap / lookupMax1 V.mcKwOutArray V.mcFullEffArray (min (V.mcMaxKw - 1 / 100) gap)
  else
    if gap = V.mcMaxKw then V.mcKwInArray.getLast?.getD 0
    else lookupM1 V.mcKwOutArray V.mcKwInArray (min (V.mcMaxKw - 1 / 100) gap)

/-- simdrive.py:1166-1180 -/
def elecKwReq4ae (V : Veh K) (E : StepEnv K) (pw : Pow K) : K :=
  if V.noElecSys then 0
  else if 0 < pw.transKwInAch then
    if pw.transKwInAch = V.mcMaxKw then
      pw.transKwInAch / V.mcFullEffArray.getLast?.getD 0 + E.auxIn
    else pw.transKwInAch /
      lookupMax1 V.mcKwOutArray V.mcFullEffArray (min (V.mcMaxKw - 1 / 100) pw.transKwInAch)
      + E.auxIn
  else 0

/-- simdrive.py:1185-1196 -/
def canPwrAllElec (V : Veh K) (E : StepEnv K) (soc0 : K) (L : Lims K) (pw : Pow K) : Bool :=
  let base : Bool := decide (accelBuffSoc V E < soc0)
    && decide (pw.transKwInAch - 1 / 1000000 ≤ L.curMaxMcKwOut)
    && (decide (elecKwReq4ae V E pw < L.curMaxElecKw) || decide (V.fcMaxKw = 0))
  if V.fcMaxKw = 0 then base
  else base && (decide (E.mps * mphPerMps - 1 / 1000000 ≤ V.mphFcOn) || V.chargingOn)
    && decide (elecKwReq4ae V E pw ≤ V.kwDemandFcOn)

/-- simdrive.py:1198-1219 -/
def desiredEssKwOutForAe (V : Veh K) (E : StepEnv K) (soc0 : K) (L : Lims K) (pw : Pow K) : K :=
  if canPwrAllElec V E soc0 L pw then
    if pw.transKwInAch < E.auxIn then E.auxIn + pw.transKwInAch
    else if regenBuffSoc V E < accelBuffSoc V E then essAccelRegenDischgKw V E soc0 L
    else if regenBuffSoc V E < soc0 then essRegenBuffDischgKw V E soc0 L
    else if soc0 < accelBuffSoc V E then -essAccelBuffChgKw V E soc0
    else pw.transKwInAch + E.auxIn - E.roadKw
  else 0

/-- simdrive.py:1221-1232 -/
def essAeKwOut (V : Veh K) (E : StepEnv K) (soc0 : K) (L : Lims K) (pw : Pow K) : K :=
  if canPwrAllElec V E soc0 L pw then
    max (max (max (-L.curMaxEssChgKw) (-maxEssRegenBuffChgKw V E soc0 L))
      (min 0 (E.roadKw - pw.transKwInAch + E.auxIn)))
      (min L.curEssMaxKwOut (desiredEssKwOutForAe V E soc0 L pw))
  else 0

/-- `set_hybrid_cont_calcs` (simdrive.py:1060-1237). -/
def setHyb (V : Veh K) (E : StepEnv K) (p : Row K) (L : Lims K) (pw : Pow K) : Hyb K :=
  let soc0 := p.dec.soc
  { regenBuffSoc := regenBuffSoc V E
    essRegenBuffDischgKw := essRegenBuffDischgKw V E soc0 L
    maxEssRegenBuffChgKw := maxEssRegenBuffChgKw V E soc0 L
    accelBuffSoc := accelBuffSoc V E
    essAccelBuffChgKw := essAccelBuffChgKw V E soc0
    maxEssAccellBuffDischgKw := maxEssAccellBuffDischgKw V E soc0 L
    essAccelRegenDischgKw := essAccelRegenDischgKw V E soc0 L
    fcKwGapFrEff := pabs (pw.transKwOutAch - V.maxFcEffKw)
    mcElecInKwForMaxFcEff := mcElecInKwForMaxFcEff V pw
    elecKwReq4ae := elecKwReq4ae V E pw
    prevFcTimeOn := p.dec.fcTimeOn
    canPwrAllElec := canPwrAllElec V E soc0 L pw
    desiredEssKwOutForAe := desiredEssKwOutForAe V E soc0 L pw
    essAeKwOut := essAeKwOut V E soc0 L pw
    erAeKwOut := min (max 0 (pw.transKwInAch + E.auxIn - essAeKwOut V E soc0 L pw)) E.roadKw }

/-! ### `set_fc_forced_state` (simdrive.py:1239-1277) -/

/-- simdrive.py:1248-1251 -/
def fcForcedOn (V : Veh K) (E : StepEnv K) (h : Hyb K) : Bool :=
  if 0 < h.prevFcTimeOn ∧ h.prevFcTimeOn < V.minFcTimeOn - E.dt then true else false

/-- `set_fc_forced_state` (simdrive.py:1239-1277). -/
def setForced (V : Veh K) (E : StepEnv K) (pw : Pow K) (h : Hyb K) : Forced K :=
  let on := fcForcedOn V E h
  let r : Nat × K :=
    if on = false ∨ h.canPwrAllElec = false then (1, 0)
    else if pw.transKwInAch < 0 then (2, pw.transKwInAch)
    else if V.maxFcEffKw = pw.transKwInAch then (3, 0)
    else if pw.transKwInAch < V.idleFcKw ∧ 0 ≤ pw.accelKw then (4, pw.transKwInAch - V.idleFcKw)
    else if pw.transKwInAch < V.maxFcEffKw then (5, 0)
    else (6, pw.transKwInAch - V.maxFcEffKw)
  { fcForcedOn := on, fcForcedState := r.1, mcMechKw4forcedFc := r.2 }

/-! ### `set_hybrid_cont_decisions` (simdrive.py:1279-1526) -/

/-- simdrive.py:1287-1293 -/
def essDesiredKw4fcEff (V : Veh K) (E : StepEnv K) (h : Hyb K) : K :=
  let d := -h.mcElecInKwForMaxFcEff - E.roadKw
  if 0 < d then d * V.essDischgToFcMaxEffPerc else d * V.essChgToFcMaxEffPerc

/-- simdrive.py:1295-1352 -/
def essKwIfFcReq (V : Veh K) (E : StepEnv K) (L : Lims K) (h : Hyb K) : K :=
  let des := essDesiredKw4fcEff V E h
  let x : K :=
    if h.regenBuffSoc < h.accelBuffSoc then max (-L.curMaxEssChgKw) h.essAccelRegenDischgKw
    else if 0 < h.essRegenBuffDischgKw then
      max (-L.curMaxEssChgKw)
        (min (min h.essAccelRegenDischgKw (L.mcElecInLimKw + E.auxIn))
          (max h.essRegenBuffDischgKw des))
    else if 0 < h.essAccelBuffChgKw then
      max (-L.curMaxEssChgKw)
        (max (-1 * h.maxEssRegenBuffChgKw) (min (-h.essAccelBuffChgKw) des))
    else if 0 < des then
      max (-L.curMaxEssChgKw) (min des h.maxEssAccellBuffDischgKw)
    else max (-L.curMaxEssChgKw) (max des (-h.maxEssRegenBuffChgKw))
  min (min (min L.curEssMaxKwOut (V.mcMaxElecInKw + E.auxIn)) (L.curMaxMcElecKwIn + E.auxIn)) x

/-- simdrive.py:1354-1361 -/
def erKwIfFcReq (V : Veh K) (E : StepEnv K) (L : Lims K) (h : Hyb K) : K :=
  max 0 (min (min E.roadKw L.curMaxMechMcKwIn)
    (essKwIfFcReq V E L h - L.mcElecInLimKw + E.auxIn))

/-- simdrive.py:1363-1364 -/
def mcElecKwInIfFcReq (V : Veh K) (E : StepEnv K) (L : Lims K) (h : Hyb K) : K :=
  essKwIfFcReq V E L h + erKwIfFcReq V E L h - E.auxIn

/-- simdrive.py:1366-1396 -/
def mcKwIfFcReq (V : Veh K) (E : StepEnv K) (L : Lims K) (h : Hyb K) : K :=
  let x := mcElecKwInIfFcReq V E L h
  if V.noElecSys then 0
  else if x = 0 then 0
  else if 0 < x then
    if x = listMax V.mcKwInArray then x * V.mcFullEffArray.getLast?.getD 0
    else x * lookupMax1 V.mcKwInArray V.mcFullEffArray (min (listMax V.mcKwInArray - 1 / 100) x)
  else
    if x * -1 = listMax V.mcKwInArray then x / V.mcFullEffArray.getLast?.getD 0
    else x / lookupMax1 V.mcKwInArray V.mcFullEffArray (min (listMax V.mcKwInArray - 1 / 100) (x * -1))

/-- simdrive.py:1398-1429 -/
def mcMechKwOutAch (V : Veh K) (E : StepEnv K) (L : Lims K) (pw : Pow K) (h : Hyb K)
    (f : Forced K) : K :=
  let tin := pw.transKwInAch
  if V.mcMaxKw = 0 then 0
  else if f.fcForcedOn ∧ h.canPwrAllElec ∧ (V.ptType = .hev ∨ V.ptType = .phev) ∧ V.fcType ≠ .h2fc then
    f.mcMechKw4forcedFc
  else if tin ≤ 0 then
    if V.fcType ≠ .h2fc ∧ 0 < V.fcMaxKw then
      if h.canPwrAllElec then -(min L.curMaxMechMcKwIn (-tin))
      else min (-(min L.curMaxMechMcKwIn (-tin))) (max (-L.curMaxFcKwOut) (mcKwIfFcReq V E L h))
    else min (-(min L.curMaxMechMcKwIn (-tin))) (-tin)
  else if h.canPwrAllElec then tin
  else max pw.minMcKw2helpFc (mcKwIfFcReq V E L h)

/-- simdrive.py:1431-1457 -/
def mcElecKwInAch (V : Veh K) (m : K) : K :=
  if m = 0 then 0
  else if m < 0 then
    if m * -1 = listMax V.mcKwInArray then m * V.mcFullEffArray.getLast?.getD 0
    else m * lookupMax1 V.mcKwInArray V.mcFullEffArray (min (listMax V.mcKwInArray - 1 / 100) (m * -1))
  else
    if V.mcMaxKw = m then m / V.mcFullEffArray.getLast?.getD 0
    else m / lookupMax1 V.mcKwOutArray V.mcFullEffArray (min (V.mcMaxKw - 1 / 100) m)

/-- simdrive.py:1459-1474 -/
def roadwayChgKwOutAch (V : Veh K) (E : StepEnv K) (L : Lims K) (h : Hyb K) (mcElec : K) : K :=
  if E.roadKw = 0 then 0
  else if V.fcType = .h2fc then
    max (max (max (max 0 mcElec) h.maxEssRegenBuffChgKw) h.essRegenBuffDischgKw) E.roadKw
  else if h.canPwrAllElec then h.erAeKwOut
  else erKwIfFcReq V E L h

/-- simdrive.py:1476-1504 -/
def essKwOutAch (V : Veh K) (E : StepEnv K) (M : Misc K) (L : Lims K) (pw : Pow K) (h : Hyb K)
    (mcElec road : K) : K :=
  if V.essMaxKw = 0 ∨ V.essMaxKwh = 0 then 0
  else if V.fcType = .h2fc then
    if 0 ≤ pw.transKwOutAch then
      min (min (max (max (mcElec + E.auxIn - L.curMaxFcKwOut - road) (essDesiredKw4fcEff V E h))
          h.essAccelRegenDischgKw) L.curEssMaxKwOut) (mcElec + E.auxIn - road)
    else mcElec + E.auxIn - road
  else if M.highAccFcOnTag || V.noElecAux then mcElec - road
  else mcElec + E.auxIn - road

/-- simdrive.py:1506-1515 -/
def essCurKwh (F : Fns K) (V : Veh K) (dt prevKwh ess : K) : K :=
  if V.noElecSys then 0
  else if ess < 0 then prevKwh - ess * dt / 3600 * F.sqrt V.essRoundTripEff
  else prevKwh - ess * dt / 3600 * (1 / F.sqrt V.essRoundTripEff)

/-- simdrive.py:1517-1521 -/
def socOf (V : Veh K) (kwh : K) : K := if V.essMaxKwh = 0 then 0 else kwh / V.essMaxKwh

/-- `set_hybrid_cont_decisions` (simdrive.py:1279-1526). -/
def setDec (F : Fns K) (V : Veh K) (E : StepEnv K) (p : Row K) (M : Misc K) (L : Lims K) (pw : Pow K)
    (h : Hyb K) (f : Forced K) (stale : Stale K) : Dec K :=
  let mech := mcMechKwOutAch V E L pw h f
  let elec := mcElecKwInAch V mech
  let road := roadwayChgKwOutAch V E L h elec
  let ess := essKwOutAch V E M L pw h elec road
  let kwh := essCurKwh F V E.dt p.dec.essCurKwh ess
  { essDesiredKw4fcEff := essDesiredKw4fcEff V E h
    essKwIfFcReq := essKwIfFcReq V E L h
    erKwIfFcReq := erKwIfFcReq V E L h
    mcElecKwInIfFcReq := mcElecKwInIfFcReq V E L h
    mcKwIfFcReq := mcKwIfFcReq V E L h
    mcMechKwOutAch := mech
    mcElecKwInAch := elec
    roadwayChgKwOutAch := road
    minEssKw2helpFc := elec + E.auxIn - L.curMaxFcKwOut - road
    essKwOutAch := ess
    essCurKwh := kwh
    soc := socOf V kwh
    fcTimeOn :=
      if h.canPwrAllElec ∧ f.fcForcedOn = false ∧ stale.fcKwOutAch = 0 then 0
      else p.dec.fcTimeOn + E.dt }

/-! ### `set_fc_power` (simdrive.py:1528-1583) -/

/-- simdrive.py:1536-1560 -/
def fcKwOutAch (V : Veh K) (E : StepEnv K) (M : Misc K) (L : Lims K) (pw : Pow K) (d : Dec K) : K :=
  if V.fcMaxKw = 0 then 0
  else if V.fcType = .h2fc then
    min L.curMaxFcKwOut
      (max 0 (d.mcElecKwInAch + E.auxIn - d.essKwOutAch - d.roadwayChgKwOutAch))
  else if V.noElecSys || V.noElecAux || M.highAccFcOnTag then
    min L.curMaxFcKwOut (max 0 (pw.transKwInAch - d.mcMechKwOutAch + E.auxIn))
  else min L.curMaxFcKwOut (max 0 (pw.transKwInAch - d.mcMechKwOutAch))

/-- Engine map efficiency used at output `x` (simdrive.py:1574-1577). -/
def fcEffAt (V : Veh K) (x : K) : K := lookupM1 V.fcKwOutArray V.fcEffArray (min x V.fcMaxKw)

/-- simdrive.py:1568-1578 -/
def fcKwInAch (V : Veh K) (out : K) : K :=
  if out = 0 then 0
  else if fcEffAt V out ≠ 0 then out / fcEffAt V out else 0

/-- `set_fc_power` (simdrive.py:1528-1583). -/
def setFcPower (V : Veh K) (E : StepEnv K) (M : Misc K) (L : Lims K) (pw : Pow K) (d : Dec K) :
    FcPow K :=
  let out := fcKwOutAch V E M L pw d
  let inp := fcKwInAch V out
  { fcKwOutAch := out
    fcKwOutAchPct := if out = 0 then 0 else if V.fcMaxKw = 0 then 0 else out / V.fcMaxKw
    fcKwInAch := inp
    fsKwOutAch := inp
    fsKwhOutAch := inp * E.dt * (1 / 3600) }

/-! ### `solve_step` (simdrive.py:663-673) -/

/-- One solve of one step. -/
def solveStep (F : Fns K) (V : Veh K) (P : StepParams K) (E : StepEnv K) (p : Row K)
    (stale : Stale K) : Row K :=
  let M := setMisc V E p
  let L := setCompLims F V P E p M
  let pw0 := setPowerCalcs F V P E p L stale
  let a := setAchSpeed F V P E p L pw0 stale
  let pw := a.2
  let h := setHyb V E p L pw
  let f := setForced V E pw h
  let d := setDec F V E p M L pw h f stale
  { auxInKw := E.auxIn
    misc := M
    lims := L
    pow := pw
    ach := a.1
    hyb := h
    forced := f
    dec := d
    fc := setFcPower V E M L pw d }

/-- What an earlier solve of the same step leaves behind. -/
def Row.stale (r : Row K) : Stale K := ⟨r.ach.newtonIters, r.ach.mpsAch, r.fc.fcKwOutAch⟩

end Lawless
end Fastsim
