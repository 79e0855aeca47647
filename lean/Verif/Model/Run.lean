import Verif.Model.Grade
import Verif.Model.Jerk
import Verif.Model.Step

/-!
# Model of the simulation loops of `python/fastsim/simdrive.py`
(`init_for_step`, `sim_drive_step`, `set_time_dilation`, `sim_drive_walk`, `sim_drive`)

Car following and eco-coasting act before a step is solved; here they are arbitrary functions
(`Hooks`) of the whole object, so that theorems about the loops hold whatever they do. The
functions the code uses are modelled in `Verif.Model.Idm` and `Verif.Model.Coast`.
-/

namespace Fastsim

/-- `SimDriveParams` (simdrive.py:25-103); thresholds that only trigger log messages are
dropped. -/
structure SimParams (K : Type*) extends StepParams K where
  favorGradeAccuracy : Bool
  missedTrace : Bool
  maxTimeDilation : K
  minTimeDilation : K
  timeDilationTol : K
  maxTraceMissIters : Nat
  simCountMax : Nat
  coastAllow : Bool
  coastAllowPassing : Bool
  coastMaxSpeed : K
  coastBrakeAccel : K
  coastBrakeStartSpeed : K
  coastStartSpeed : K
  coastTimeHorizon : K
  idmAllow : Bool
  idmVDesired : K
  idmDtHeadway : K
  idmMinimumGap : K
  idmDelta : K
  idmAccel : K
  idmDecel : K
  idmByDistance : Option (List (K × K))

/-- The mutable state of a `SimDrive` object: cycles, per-step arrays (`rows` groups those
written by `solve_step`), step counter and HEV iteration counter. -/
structure Sim (K : Type*) where
  cyc0 : Cyc K
  cyc : Cyc K
  rows : List (Row K)
  aux : List K
  impose : List Bool
  coastDelay : List Int
  idmTarget : List K
  missIters : List Nat
  i : Nat
  hevCount : Nat

/-- Car following (`_set_speed_for_target_gap` with the target-speed lookup,
simdrive.py:639-650) and eco-coasting (`_set_coast_speed`, simdrive.py:652), as functions that
may raise. -/
structure Hooks (K : Type*) where
  idm : Sim K → Except PyErr (Sim K)
  coast : Sim K → Except PyErr (Sim K)

section Lawless
variable {K : Type*} [Zero K] [One K] [NatCast K] [Add K] [Sub K] [Mul K] [Div K] [Neg K]
  [LinearOrder K]

/-- Entries of one index of the arrays made by `init_arrays` (simdrive.py:210-333). -/
def Row.zero : Row K :=
  { auxInKw := 0
    misc := { reachedBuff := false, highAccFcOnTag := false, maxTracMps := 0 }
    lims := { curMaxFsKwOut := 0, fcTransLimKw := 0, curMaxFcKwOut := 0, essCapLimDischgKw := 0,
              curEssMaxKwOut := 0, essCapLimChgKw := 0, curMaxEssChgKw := 0, curMaxElecKw := 0,
              curMaxAvailElecKw := 0, mcElecInLimKw := 0, mcTransiLimKw := 0, curMaxMcKwOut := 0,
              curMaxMcElecKwIn := 0, essLimMcRegenPercKw := 0, curMaxMechMcKwIn := 0,
              curMaxTracKw := 0, curMaxTransKwOut := 0 }
    pow := { dragKw := 0, accelKw := 0, ascentKw := 0, cycTracKwReq := 0, spareTracKw := 0,
             rrKw := 0, cycWhlRadPerSec := 0, cycTireInertiaKw := 0, cycWhlKwReq := 0,
             regenContrlLimKwPerc := 0, cycRegenBrakeKw := 0, cycFricBrakeKw := 0,
             cycTransKwOutReq := 0, cycMet := false, transKwOutAch := 0, transKwInAch := 0,
             minMcKw2helpFc := 0 }
    ach := { mpsAch := 0, mphAch := 0, distM := 0, distMi := 0, newtonIters := 0 }
    hyb := { regenBuffSoc := 0, essRegenBuffDischgKw := 0, maxEssRegenBuffChgKw := 0,
             accelBuffSoc := 0, essAccelBuffChgKw := 0, maxEssAccellBuffDischgKw := 0,
             essAccelRegenDischgKw := 0, fcKwGapFrEff := 0, mcElecInKwForMaxFcEff := 0,
             elecKwReq4ae := 0, prevFcTimeOn := 0, canPwrAllElec := false,
             desiredEssKwOutForAe := 0, essAeKwOut := 0, erAeKwOut := 0 }
    forced := { fcForcedOn := false, fcForcedState := 0, mcMechKw4forcedFc := 0 }
    dec := { essDesiredKw4fcEff := 0, essKwIfFcReq := 0, erKwIfFcReq := 0, mcElecKwInIfFcReq := 0,
             mcKwIfFcReq := 0, mcMechKwOutAch := 0, mcElecKwInAch := 0, roadwayChgKwOutAch := 0,
             minEssKw2helpFc := 0, essKwOutAch := 0, essCurKwh := 0, soc := 0, fcTimeOn := 0 }
    fc := { fcKwOutAch := 0, fcKwOutAchPct := 0, fcKwInAch := 0, fsKwOutAch := 0,
            fsKwhOutAch := 0 } }

/-- Row of index 0 after `init_for_step` (simdrive.py:420-425). `aux_in_kw[0]` stays what
`init_arrays` or the override put there. -/
def Row.init (V : Veh K) (initSoc mps0 aux0 : K) : Row K :=
  { (Row.zero : Row K) with
    auxInKw := aux0
    pow := { (Row.zero : Row K).pow with cycMet := true }
    ach := { (Row.zero : Row K).ach with mpsAch := mps0, mphAch := mps0 * mphPerMps }
    dec := { (Row.zero : Row K).dec with essCurKwh := initSoc * V.essMaxKwh, soc := initSoc } }

/-- The accessory part of `set_misc_calcs` (simdrive.py:680-686). -/
def auxStep (V : Veh K) (aux : List K) (i : Nat) : List K :=
  if (aux.drop i).all fun x => decide (x = 0) then
    aux.set i (if V.noElecAux then V.auxKw / V.altEff else V.auxKw)
  else aux

/-- `_lookup_grade_for_step(i, mps_ach)` (simdrive.py:604-626). -/
def lookupGradeAch (F : Fns K) (P : SimParams K) (s : Sim K) (m : K) : K :=
  if gradeAllZero s.cyc0 then 0
  else if P.coastAllow = false ∧ P.idmAllow = false then s.cyc.grades.getD s.i 0
  else averageGradeCached F s.cyc0 (trapzStepStartDistance s.cyc s.i)
    (1 / 2 * (m + (s.rows.getD (s.i - 1) Row.zero).ach.mpsAch) * dtAt s.cyc s.i)

/-- `_lookup_grade_for_step(i)` (simdrive.py:604-630). -/
def lookupGrade (F : Fns K) (P : SimParams K) (s : Sim K) : K :=
  if gradeAllZero s.cyc0 then 0
  else if P.coastAllow = false ∧ P.idmAllow = false then s.cyc.grades.getD s.i 0
  else averageGradeCached F s.cyc0 (trapzStepStartDistance s.cyc s.i) (trapzDistanceForStep s.cyc s.i)

/-- `_estimate_grade_for_step(i)` (simdrive.py:587-602). -/
def estimateGrade (F : Fns K) (P : SimParams K) (s : Sim K) : K :=
  if gradeAllZero s.cyc0 then 0
  else if P.coastAllow = false ∧ P.idmAllow = false then s.cyc.grades.getD s.i 0
  else interpGrade F s.cyc0 (trapzStepStartDistance s.cyc s.i)

/-- What `solve_step(i)` reads from the object besides the rows. -/
def stepEnv (F : Fns K) (V : Veh K) (P : SimParams K) (s : Sim K) : StepEnv K :=
  { dt := dtAt s.cyc s.i
    mps := s.cyc.speeds.getD s.i 0
    gradeOf := lookupGradeAch F P s
    gradeEst := estimateGrade F P s
    auxIn := (auxStep V s.aux s.i).getD s.i 0
    coast := s.impose.getD s.i false
    roadKw := 0 }

/-- `self.solve_step(self.i)` (simdrive.py:663-673) on the object. -/
def Sim.solve (F : Fns K) (V : Veh K) (P : SimParams K) (s : Sim K) : Sim K :=
  { s with
    aux := auxStep V s.aux s.i
    rows := s.rows.set s.i
      (solveStep F V P.toStepParams (stepEnv F V P s) (s.rows.getD (s.i - 1) Row.zero)
        (s.rows.getD s.i Row.zero).stale) }

/-- `self.cyc.time_s[i:] += x` (simdrive.py:1610, 1638). -/
def shiftTimesFrom (c : Cyc K) (i : Nat) (x : K) : Cyc K :=
  c.mapIdx fun j s => if i ≤ j then { s with t := s.t + x } else s

/-- `cyc0.dist_m[:i+1].sum()` -/
def targetDist (s : Sim K) : K := npSum ((distM s.cyc0).take (s.i + 1))
/-- `self.dist_m[:i+1].sum()` -/
def achievedDist (s : Sim K) : K := npSum ((s.rows.take (s.i + 1)).map fun r => r.ach.distM)

/-- Relative distance error below tolerance (simdrive.py:1587-1588, 1614-1615, 1645-1646). -/
def distConverged (P : SimParams K) (s : Sim K) : Bool :=
  decide (pabs (targetDist s - achievedDist s) / targetDist s < P.timeDilationTol)

/-- `min(max(x, min_time_dilation), max_time_dilation)`. -/
def clampDilation (P : SimParams K) (x : K) : K := min (max x P.minTimeDilation) P.maxTimeDilation

/-- One correction: dilate the current step by `t` and solve it again
(simdrive.py:1610-1611, 1638-1640). -/
def dilateAndSolve (F : Fns K) (V : Veh K) (P : SimParams K) (s : Sim K) (t : K) : Sim K :=
  Sim.solve F V P { s with cyc := shiftTimesFrom s.cyc s.i (dtAt s.cyc s.i * t) }

/-- Exit on a dilation bound (simdrive.py:1616-1619, 1649-1652). -/
def atDilationBound (P : SimParams K) (t : K) : Bool :=
  decide (P.maxTimeDilation ≤ t) || decide (t ≤ P.minTimeDilation)

/-- `self.trace_miss_iters[i] += 1` -/
def bumpMiss (s : Sim K) : Sim K := { s with missIters := s.missIters.modify s.i (· + 1) }

/-- The `while not(trace_met)` loop (simdrive.py:1622-1653). `iters` is `trace_miss_iters[i]`;
`t, tPrev` the last two dilations and `dPrev` the last recorded shortfall. -/
def dilationLoop (F : Fns K) (V : Veh K) (P : SimParams K) (iters : Nat) (t tPrev dPrev : K)
    (s : Sim K) : Sim K :=
  let d := targetDist s - achievedDist s
  let t' := clampDilation P (t - (t - tPrev) / (d - dPrev) * d)
  let s' := bumpMiss (dilateAndSolve F V P s t')
  if h : distConverged P s' = true ∨ P.maxTraceMissIters ≤ iters + 1 ∨ atDilationBound P t' = true
  then s'
  else dilationLoop F V P (iters + 1) t' t d s'
termination_by P.maxTraceMissIters - iters
decreasing_by
  have : ¬ P.maxTraceMissIters ≤ iters + 1 := fun e => h (Or.inr (Or.inl e))
  omega

/-- `set_time_dilation(i)` (simdrive.py:1585-1653). -/
def setTimeDilation (F : Fns K) (V : Veh K) (P : SimParams K) (s : Sim K) : Sim K :=
  if distConverged P s = true ∨ s.cyc.speeds.getD s.i 0 = 0 then s
  else
    let d := targetDist s - achievedDist s
    let t := clampDilation P (d / dtAt s.cyc0 s.i / (s.rows.getD s.i Row.zero).ach.mpsAch)
    let s' := dilateAndSolve F V P (bumpMiss s) t
    if distConverged P s' = true ∨ atDilationBound P t = true then s'
    else dilationLoop F V P (s'.missIters.getD s.i 0) t 0 d s'

/-- End of `sim_drive_step` (simdrive.py:657-661). -/
def finishStep (F : Fns K) (P : SimParams K) (s : Sim K) : Sim K :=
  let s :=
    if P.coastAllow || P.idmAllow then
      let s' := { s with cyc := setSpeed s.cyc s.i (s.rows.getD s.i Row.zero).ach.mpsAch }
      { s' with cyc := s'.cyc.modify s.i fun x => { x with g := lookupGrade F P s' } }
    else s
  { s with i := s.i + 1 }

/-- `solve_step` followed by the trace-miss correction (simdrive.py:653-655). -/
def solveAndCorrect (F : Fns K) (V : Veh K) (P : SimParams K) (s : Sim K) : Sim K :=
  let s' := Sim.solve F V P s
  if P.missedTrace = true ∧ 0 < npSum ((distM s'.cyc0).take s'.i) then setTimeDilation F V P s'
  else s'

/-- `sim_drive_step` (simdrive.py:632-661). -/
def simDriveStep (F : Fns K) (H : Hooks K) (V : Veh K) (P : SimParams K) (s : Sim K) :
    Except PyErr (Sim K) :=
  match (if P.idmAllow then H.idm s else .ok s) with
  | .error e => .error e
  | .ok s =>
    match (if P.coastAllow then H.coast s else .ok s) with
    | .error e => .error e
    | .ok s => .ok (finishStep F P (solveAndCorrect F V P s))

/-- The arrays after `init_arrays` (simdrive.py:210-333). -/
def initArrays (s : Sim K) : Sim K :=
  let n := s.cyc.length
  { s with
    rows := List.replicate n Row.zero
    aux := List.replicate n 0
    impose := List.replicate n false
    coastDelay := List.replicate n 0
    idmTarget := List.replicate n 0
    missIters := List.replicate n 0
    i := 1 }

/-- `aux_in_kw` after `init_for_step` (simdrive.py:409-416): the override if it has the right
length `n`, zeros otherwise. -/
def initAux (n : Nat) : Option (List K) → List K
  | some a => if a.length = n then a else List.replicate n 0
  | none => List.replicate n 0

/-- The object after `init_for_step` (simdrive.py:407-432). -/
def initState (V : Veh K) (P : SimParams K) (s : Sim K) (initSoc : K) (aux : Option (List K)) :
    Sim K :=
  let a := initAux s.cyc.length aux
  { initArrays s with
    aux := a
    rows := (initArrays s).rows.set 0 (Row.init V initSoc (s.cyc0.speeds.getD 0 0) (a.getD 0 0))
    cyc := if P.missedTrace || P.idmAllow || P.coastAllow then s.cyc0 else s.cyc
    i := 1 }

/-- `init_for_step(init_soc, aux_in_kw_override)` (simdrive.py:390-432). Aliasing of the override
array is modelled separately (`Verif.Props.Aux`); log messages are dropped. An empty cycle raises
`IndexError` at line 418. -/
def initForStep (V : Veh K) (P : SimParams K) (s : Sim K) (initSoc : K) (aux : Option (List K)) :
    Except PyErr (Sim K) :=
  if V.ptType ≠ .conv ∧ (V.maxSoc < initSoc ∨ initSoc < V.minSoc) then .error .valueError
  else if s.cyc.length = 0 ∨ s.cyc0.length = 0 then .error .indexError
  else .ok (initState V P s initSoc aux)

/-- The loop `while self.i < len(self.cyc.time_s): self.sim_drive_step()` (simdrive.py:450-451),
with a bound on the number of iterations; running out of it is `PyErr.other`. That `walk` never
runs out of it is proved (`C27_walk_is_steps`) for hooks that keep the cycle length and the step
counter. -/
def walkLoop (F : Fns K) (H : Hooks K) (V : Veh K) (P : SimParams K) :
    Nat → Sim K → Except PyErr (Sim K)
  | 0, s => if s.i < s.cyc.length then .error .other else .ok s
  | n + 1, s =>
    if s.i < s.cyc.length then
      match simDriveStep F H V P s with
      | .error e => .error e
      | .ok s' => walkLoop F H V P n s'
    else .ok s

/-- `sim_drive_walk` (simdrive.py:434-464) up to `set_post_scalars`. -/
def walk (F : Fns K) (H : Hooks K) (V : Veh K) (P : SimParams K) (s : Sim K) (initSoc : K)
    (aux : Option (List K)) : Except PyErr (Sim K) :=
  match initForStep V P s initSoc aux with
  | .error e => .error e
  | .ok s => walkLoop F H V P s.cyc.length s

/-- `np.sum(x * self.cyc.dt_s)` over a per-step quantity. -/
def sumDt (s : Sim K) (f : Row K → K) : K :=
  npSum (List.zipWith (fun r dt => f r * dt) s.rows (dtS s.cyc))

/-- `ess_2fuel_kwh` (simdrive.py:370-379). -/
def ess2Fuel (V : Veh K) (s : Sim K) : K :=
  let e := sumDt s (fun r => r.fc.fsKwOutAch) + sumDt s (fun r => r.dec.roadwayChgKwOutAch)
  if 0 < e then
    pabs (((s.rows.getD 0 Row.zero).dec.soc - (s.rows.getLast?.getD Row.zero).dec.soc)
      * V.essMaxKwh * 3600 / e)
  else 0

/-- The caller's override array after a walk that ended in `s`: an array of the right length becomes
`self.aux_in_kw` itself (simdrive.py:410-411), so what the walk writes there is written to it. -/
def auxAfter (s : Sim K) : Option (List K) → Option (List K)
  | some a => if a.length = s.aux.length then some s.aux else some a
  | none => none

/-- The charge-balancing loop of hybrids (simdrive.py:365-380): `count` walks have been made, the
imbalance is `e`, the next initial state of charge is `soc`. Returns the object, the initial
state of charge of the final walk and the override array as the walks left it. -/
def hevLoop (F : Fns K) (H : Hooks K) (V : Veh K) (P : SimParams K) (aux : Option (List K))
    (count : Nat) (e soc : K) (s : Sim K) : Except PyErr (Sim K × K × Option (List K)) :=
  if h : V.essToFuelOkError < e ∧ count < P.simCountMax then
    match walk F H V P { s with hevCount := count + 1 } soc aux with
    | .error err => .error err
    | .ok s' =>
      hevLoop F H V P (auxAfter s' aux) (count + 1) (ess2Fuel V s')
        (min 1 (max 0 (s'.rows.getLast?.getD Row.zero).dec.soc)) s'
  else .ok (s, soc, aux)
termination_by P.simCountMax - count
decreasing_by omega

/-- `sim_drive(init_soc, aux_in_kw_override)` (simdrive.py:344-388). -/
def simDrive (F : Fns K) (H : Hooks K) (V : Veh K) (P : SimParams K) (s : Sim K)
    (initSoc : Option K) (aux : Option (List K)) : Except PyErr (Sim K) :=
  let s := { s with hevCount := 0 }
  match initSoc with
  | some soc => walk F H V P s soc aux
  | none =>
    match V.ptType with
    | .conv => walk F H V P s ((V.maxSoc + V.minSoc) / 2) aux
    | .hev =>
      match hevLoop F H V P aux 0 1 ((V.maxSoc + V.minSoc) / 2) s with
      | .error e => .error e
      | .ok r => walk F H V P r.1 r.2.1 r.2.2
    | .phev => walk F H V P s V.maxSoc aux
    | .bev => walk F H V P s V.maxSoc aux

/-- A `SimDrive` object just constructed for cycle `c` (simdrive.py:184-208). -/
def Sim.new (c : Cyc K) : Sim K :=
  initArrays { cyc0 := c, cyc := c, rows := [], aux := [], impose := [], coastDelay := [],
               idmTarget := [], missIters := [], i := 1, hevCount := 0 }

end Lawless
end Fastsim
