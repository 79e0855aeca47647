import Verif.Model.Post
import Verif.Model.RsStep

/-!
# Model of the simulation loops of the Rust core
(`RustSimDrive::{new, init_arrays, sim_drive, sim_drive_accel, walk, init_for_step, step, set_post_scalars}` in
`rust/fastsim-core/src/simdrive/simdrive_impl.rs`, below `impl`, and `set_time_dilation` with the grade lookups in
`rust/fastsim-core/src/simdrive/cyc_mods.rs`, below `mods`)

The object is the one of the python model (`Sim`): both have the same arrays. The loops are written from the Rust source,
with the lengths it gives to arrays, its panics and its order of operations. The elevation interpolation that is used with
car following or coasting only (`average_grade_over_range`, `interp_grade`) is that of the python model, and these two
manoeuvres are arbitrary functions (`RsHooks`). Sums of `ndarray` are taken in order. Two arrays of different lengths cannot
be multiplied: a panic (an array of length one, which `ndarray` would stretch, is no exception here). Log messages and the
arrays `cur_soc_target` and `accel_kw` (as rewritten after a run) are left out.
-/

namespace Fastsim

/-- Car following (impl:570-589) and coasting (impl:590-592) as functions that may fail. -/
structure RsHooks (K : Type*) where
  idm : Sim K → Except RsErr (Sim K)
  coast : Sim K → Except RsErr (Sim K)

section Lawless
variable {K : Type*} [Zero K] [One K] [NatCast K] [Add K] [Sub K] [Mul K] [Div K] [Neg K]
  [LinearOrder K]

/-! ### Cycles (`rust/fastsim-core/src/cycle.rs`) -/

/-- `RustCycle::dt_s` (cycle.rs:1112-1114), `diff` (utils.rs:31-40): the first entry is zero whatever the first time is. -/
def rsDt (c : Cyc K) : List K :=
  0 :: List.zipWith (fun b a => b - a) c.times.tail c.times.dropLast

/-- `RustCycle::dist_m` (cycle.rs:1122-1124). -/
def rsDist (c : Cyc K) : List K := List.zipWith (fun v d => v * d) c.speeds (rsDt c)

/-- `RustCycle::dt_s_at_i` (cycle.rs:1117-1119) for an index that exists. -/
def rsDtAt (c : Cyc K) (i : Nat) : K := c.times.getD i 0 - c.times.getD (i - 1) 0

/-- `x.sum()` -/
def rsSum (l : List K) : K := l.foldl (fun a b => a + b) 0

/-! ### Grades (mods:184-230) -/

/-- `lookup_grade_for_step(i, Some(m))` (mods:212-224). -/
def rsLookupGradeAch (F : Fns K) (P : SimParams K) (s : Sim K) (m : K) : K :=
  if gradeAllZero s.cyc0 then 0
  else if !P.coastAllow && !P.idmAllow then s.cyc.grades.getD s.i 0
  else averageGradeCached F s.cyc0 (trapzStepStartDistance s.cyc s.i)
    (1 / 2 * (m + (s.rows.getD (s.i - 1) Row.zero).ach.mpsAch) * rsDtAt s.cyc s.i)

/-- `lookup_grade_for_step(i, None)` (mods:212-218, 225-229). -/
def rsLookupGrade (F : Fns K) (P : SimParams K) (s : Sim K) : K :=
  if gradeAllZero s.cyc0 then 0
  else if !P.coastAllow && !P.idmAllow then s.cyc.grades.getD s.i 0
  else averageGradeCached F s.cyc0 (trapzStepStartDistance s.cyc s.i) (trapzDistanceForStep s.cyc s.i)

/-- `estimate_grade_for_step(i)` (mods:191-200). -/
def rsEstimateGrade (F : Fns K) (P : SimParams K) (s : Sim K) : K :=
  if gradeAllZero s.cyc0 then 0
  else if !P.coastAllow && !P.idmAllow then s.cyc.grades.getD s.i 0
  else interpGrade F s.cyc0 (trapzStepStartDistance s.cyc s.i)

/-! ### One step -/

/-- The accessory part of `set_misc_calcs` (impl:628-635). -/
def rsAuxStep (V : Veh K) (aux : List K) (i : Nat) : List K :=
  if (aux.drop i).all (fun x => decide (x = 0)) then
    aux.set i (if V.noElecAux then V.auxKw / V.altEff else V.auxKw)
  else aux

/-- `solve_step(i)` (impl:608-618) on the object: indexing panics outside the arrays. -/
def rsSolve (F : Fns K) (V : Veh K) (P : SimParams K) (s : Sim K) : Except RsErr (Sim K) :=
  if s.i = 0 ∨ s.aux.length ≤ s.i ∨ s.rows.length ≤ s.i ∨ s.cyc.length ≤ s.i then .error .panic
  else
    let aux := rsAuxStep V s.aux s.i
    let E : StepEnv K :=
      { dt := rsDtAt s.cyc s.i
        mps := s.cyc.speeds.getD s.i 0
        gradeOf := rsLookupGradeAch F P s
        gradeEst := rsEstimateGrade F P s
        auxIn := aux.getD s.i 0
        coast := s.impose.getD s.i false
        roadKw := 0 }
    match rsSolveStep F V P.toStepParams E (s.rows.getD (s.i - 1) Row.zero) (s.rows.getD s.i Row.zero).stale with
    | .error e => .error e
    | .ok r => .ok { s with aux := aux, rows := s.rows.set s.i r }

/-! ### Trace-miss correction (mods:231-307) -/

/-- `cyc0.dist_m().slice(s![0..i + 1]).sum()` -/
def rsTargetDist (s : Sim K) : K := rsSum ((rsDist s.cyc0).take (s.i + 1))
/-- `self.cyc.dist_m().slice(s![0..(i + 1)]).sum()` -/
def rsCurrentDist (s : Sim K) : K := rsSum ((rsDist s.cyc).take (s.i + 1))
/-- `self.dist_m.slice(s![0..i + 1]).sum()` -/
def rsAchievedDist (s : Sim K) : K := rsSum ((s.rows.take (s.i + 1)).map fun r => r.ach.distM)

/-- The test of the first look at the step (mods:233-238): it measures against the *modified* cycle. -/
def rsOnTrace (P : SimParams K) (s : Sim K) : Bool :=
  decide (pabs (rsCurrentDist s - rsAchievedDist s) / rsTargetDist s < P.timeDilationTol)
    || decide (s.cyc.speeds.getD s.i 0 = 0)

/-- The test after a correction (mods:264-266, 297-299): it measures against the given cycle. -/
def rsConverged (P : SimParams K) (s : Sim K) : Bool :=
  decide (pabs (rsTargetDist s - rsAchievedDist s) / rsTargetDist s < P.timeDilationTol)

/-- `add_from` (utils.rs:43-53) on the times of the cycle, and `solve_step` (mods:256-261, 287-293). -/
def rsDilateAndSolve (F : Fns K) (V : Veh K) (P : SimParams K) (s : Sim K) (t : K) : Except RsErr (Sim K) :=
  rsSolve F V P { s with cyc := s.cyc.mapIdx fun j x =>
    if s.i ≤ j then { x with t := x.t + rsDtAt s.cyc s.i * t } else x }

/-- The loop of mods:272-306. `iters` is `trace_miss_iters[i]`; `t, tPrev` the last two dilations, `dPrev` the last recorded
shortfall. -/
def rsDilationLoop (F : Fns K) (V : Veh K) (P : SimParams K) (iters : Nat) (t tPrev dPrev : K) (s : Sim K) :
    Except RsErr (Sim K) :=
  let d := rsTargetDist s - rsAchievedDist s
  let t' := min (max (t - (t - tPrev) / (d - dPrev) * d) P.minTimeDilation) P.maxTimeDilation
  match rsDilateAndSolve F V P s t' with
  | .error e => .error e
  | .ok s1 =>
    let s' : Sim K := { s1 with missIters := s1.missIters.modify s.i (· + 1) }
    if h : rsConverged P s' = true ∨ P.maxTraceMissIters ≤ iters + 1 ∨ P.maxTimeDilation ≤ t' ∨ t' ≤ P.minTimeDilation
    then .ok s'
    else rsDilationLoop F V P (iters + 1) t' t d s'
termination_by P.maxTraceMissIters - iters
decreasing_by
  have : ¬ P.maxTraceMissIters ≤ iters + 1 := fun e => h (Or.inr (Or.inl e))
  omega

/-- `set_time_dilation(i)` (mods:231-307). -/
def rsSetTimeDilation (F : Fns K) (V : Veh K) (P : SimParams K) (s : Sim K) : Except RsErr (Sim K) :=
  if rsOnTrace P s then .ok s
  else
    let d := rsTargetDist s - rsAchievedDist s
    let t := min (max (d / rsDtAt s.cyc0 s.i / (s.rows.getD s.i Row.zero).ach.mpsAch) P.minTimeDilation)
      P.maxTimeDilation
    match rsDilateAndSolve F V P { s with missIters := s.missIters.modify s.i (· + 1) } t with
    | .error e => .error e
    | .ok s' =>
      if rsConverged P s' = true ∨ P.maxTimeDilation ≤ t ∨ t ≤ P.minTimeDilation then .ok s'
      else rsDilationLoop F V P (s'.missIters.getD s.i 0) t 0 d s'

/-- `step` (impl:569-605). -/
def rsStep (F : Fns K) (H : RsHooks K) (V : Veh K) (P : SimParams K) (s : Sim K) : Except RsErr (Sim K) :=
  match (if P.idmAllow then H.idm s else .ok s) with
  | .error e => .error e
  | .ok s =>
    match (if P.coastAllow then H.coast s else .ok s) with
    | .error e => .error e
    | .ok s =>
      match rsSolve F V P s with
      | .error e => .error e
      | .ok s =>
        match (if P.missedTrace = true ∧ 0 < rsSum ((rsDist s.cyc0).take s.i) then rsSetTimeDilation F V P s
          else .ok s) with
        | .error e => .error e
        | .ok s =>
          let s : Sim K :=
            if P.coastAllow || P.idmAllow then
              let s' : Sim K :=
                { s with cyc := s.cyc.modify s.i fun x => { x with v := (s.rows.getD s.i Row.zero).ach.mpsAch } }
              { s' with cyc := s'.cyc.modify s.i fun x => { x with g := rsLookupGrade F P s' } }
            else s
          .ok { s with i := s.i + 1 }

/-! ### A run -/

/-- `init_arrays` (impl:286-384): arrays of the length of `cyc0`. -/
def rsInitArrays (s : Sim K) : Sim K :=
  let n := s.cyc0.length
  { s with
    rows := List.replicate n Row.zero
    aux := List.replicate n 0
    impose := List.replicate n false
    coastDelay := List.replicate n 0
    idmTarget := List.replicate n 0
    missIters := List.replicate n 0
    i := 1 }

/-- `init_for_step` (impl:525-566). The field `aux_in_kw_override` of the object is private and never set, so an override
that is passed always becomes `aux_in_kw`, whatever its length. -/
def rsInitForStep (V : Veh K) (P : SimParams K) (s : Sim K) (initSoc : K) (aux : Option (List K)) :
    Except RsErr (Sim K) :=
  if V.ptType = .conv ∨ (V.minSoc ≤ initSoc ∧ initSoc ≤ V.maxSoc) then
    if s.cyc0.length = 0 then .error .panic
    else
      let a := aux.getD (List.replicate s.cyc0.length 0)
      .ok { rsInitArrays s with
        aux := a
        rows := (rsInitArrays s).rows.set 0 (Row.init V initSoc (s.cyc0.speeds.getD 0 0) (a.getD 0 0))
        cyc := if P.missedTrace || P.idmAllow || P.coastAllow then s.cyc0 else s.cyc
        i := 1 }
  else .error .err

/-- The loop of `walk` (impl:497-499) with a bound on the number of iterations, as in the python model. -/
def rsWalkLoop (F : Fns K) (H : RsHooks K) (V : Veh K) (P : SimParams K) : Nat → Sim K → Except RsErr (Sim K)
  | 0, s => if s.i < s.cyc.length then .error .err else .ok s
  | n + 1, s =>
    if s.i < s.cyc.length then
      match rsStep F H V P s with
      | .error e => .error e
      | .ok s' => rsWalkLoop F H V P n s'
    else .ok s

/-- `walk` (impl:491-516), which python calls as `sim_drive_walk`. -/
def rsWalk (F : Fns K) (H : RsHooks K) (V : Veh K) (P : SimParams K) (s : Sim K) (initSoc : K)
    (aux : Option (List K)) : Except RsErr (Sim K) :=
  match rsInitForStep V P s initSoc aux with
  | .error e => .error e
  | .ok s => rsWalkLoop F H V P s.cyc.length s

/-- `(&x * self.cyc.dt_s()).sum()` -/
def rsSumDt (s : Sim K) (f : Row K → K) : K :=
  rsSum (List.zipWith (fun r d => f r * d) s.rows (rsDt s.cyc))

/-- `ess_2fuel_kwh` of the charge-balancing loop (impl:421-436). -/
def rsEss2Fuel (V : Veh K) (s : Sim K) : K :=
  let fuel := rsSumDt s fun r => r.fc.fsKwOutAch
  let road := rsSumDt s fun r => r.dec.roadwayChgKwOutAch
  if 0 < fuel + road then
    pabs (((s.rows.getD 0 Row.zero).dec.soc - (s.rows.getLast?.getD Row.zero).dec.soc) * V.essMaxKwh * 3600
      / (fuel + road))
  else 0

/-- The charge-balancing loop (impl:413-447): it returns the object and the initial state of charge of the final walk, clamped
to the window of the battery. The override array is copied for each walk. -/
def rsHevLoop (F : Fns K) (H : RsHooks K) (V : Veh K) (P : SimParams K) (aux : Option (List K)) (count : Nat) (e soc : K)
    (s : Sim K) : Except RsErr (Sim K × K) :=
  if h : V.essToFuelOkError < e ∧ count < P.simCountMax then
    match rsWalk F H V P { s with hevCount := count + 1 } soc aux with
    | .error err => .error err
    | .ok s' =>
      if s'.rows.length ≠ s'.cyc.length then .error .panic
      else rsHevLoop F H V P aux (count + 1) (rsEss2Fuel V s')
        (min V.maxSoc (max V.minSoc (s'.rows.getLast?.getD Row.zero).dec.soc)) s'
  else .ok (s, soc)
termination_by P.simCountMax - count
decreasing_by omega

/-- `sim_drive` (impl:395-457), without `set_post_scalars`. -/
def rsDrive (F : Fns K) (H : RsHooks K) (V : Veh K) (P : SimParams K) (s : Sim K) (initSoc : Option K)
    (aux : Option (List K)) : Except RsErr (Sim K) :=
  let s : Sim K := { s with hevCount := 0 }
  match initSoc with
  | some soc => rsWalk F H V P s soc aux
  | none =>
    match V.ptType with
    | .conv => rsWalk F H V P s ((V.maxSoc + V.minSoc) / 2) aux
    | .hev =>
      match rsHevLoop F H V P aux 0 1 ((V.maxSoc + V.minSoc) / 2) s with
      | .error e => .error e
      | .ok r => rsWalk F H V P r.1 r.2 aux
    | .phev => rsWalk F H V P s V.maxSoc aux
    | .bev => rsWalk F H V P s V.maxSoc aux

/-- `sim_drive_accel` (impl:462-478), without `set_post_scalars`. -/
def rsDriveAccel (F : Fns K) (H : RsHooks K) (V : Veh K) (P : SimParams K) (s : Sim K) (initSoc : Option K)
    (aux : Option (List K)) : Except RsErr (Sim K) :=
  let auto := match V.ptType with
    | .conv => (V.maxSoc + V.minSoc) / 2
    | .hev => (V.maxSoc + V.minSoc) / 2
    | _ => V.maxSoc
  rsWalk F H V P s (initSoc.getD auto) aux

/-! ### Figures after a run (impl:1751-1901) -/

/-- The figures that `set_post_scalars` assigns. -/
structure RsPost (K : Type*) where
  mpgge : K
  roadwayChgKj : K
  essDischgKj : K
  batteryKwhPerMi : K
  electricKwhPerMi : K
  fuelKj : K
  ess2fuelKwh : K
  dragKj : K
  ascentKj : K
  rrKj : K
  essLossKw : List K
  brakeKj : K
  transKj : K
  mcKj : K
  essEffKj : K
  auxKj : K
  fcKj : K
  netKj : K
  keKj : K
  energyAuditError : K
  traceMissDistFrac : K
  traceMissTimeFrac : K
  traceMissSpeedMps : K
  traceMiss : Bool

/-- `ess_loss_kw` (impl:1796-1806): entry 0 stays zero. -/
def rsEssLoss (F : Fns K) (V : Veh K) (rows : List (Row K)) : List K :=
  0 :: rows.tail.map fun r =>
    if V.essMaxKw = 0 ∨ V.essMaxKwh = 0 then 0
    else if r.dec.essKwOutAch < 0 then -r.dec.essKwOutAch - -r.dec.essKwOutAch * F.sqrt V.essRoundTripEff
    else r.dec.essKwOutAch * (1 / F.sqrt V.essRoundTripEff) - r.dec.essKwOutAch

/-- `set_post_scalars` (impl:1751-1901). `gge` is `props.kwh_per_gge`. Arrays of different lengths panic at impl:1759; a given
cycle without distance is an error (impl:1863-1867). -/
def rsPostScalars (F : Fns K) (V : Veh K) (P : SimParams K) (T : MissTols K) (gge : K) (s : Sim K) :
    Except RsErr (RsPost K) :=
  if s.rows.length ≠ s.cyc.length ∨ s.aux.length ≠ s.cyc.length ∨ s.rows.length = 0 ∨ s.cyc0.length = 0
  then .error .panic
  else
    let fuelKwh := rsSum (s.rows.map fun r => r.fc.fsKwhOutAch)
    let miles := rsSum (s.rows.map fun r => r.ach.distMi)
    let first := s.rows.getD 0 Row.zero
    let last := s.rows.getD (s.rows.length - 1) Row.zero
    let road := rsSumDt s fun r => r.dec.roadwayChgKwOutAch
    let dischg := -1 * (last.dec.soc - first.dec.soc) * V.essMaxKwh * 3600
    let fuel := rsSumDt s fun r => r.fc.fsKwOutAch
    let drag := rsSumDt s fun r => r.pow.dragKw
    let ascent := rsSumDt s fun r => r.pow.ascentKw
    let rr := rsSumDt s fun r => r.pow.rrKw
    let loss := rsEssLoss F V s.rows
    let brake := rsSumDt s fun r => r.pow.cycFricBrakeKw
    let trans := rsSumDt s fun r => r.pow.transKwInAch - r.pow.transKwOutAch
    let mc := rsSumDt s fun r => r.dec.mcElecKwInAch - r.dec.mcMechKwOutAch
    let essEff := rsSum (List.zipWith (fun x d => x * d) loss (rsDt s.cyc))
    let aux := rsSum (List.zipWith (fun x d => x * d) s.aux (rsDt s.cyc))
    let fc := rsSumDt s fun r => r.fc.fcKwInAch - r.fc.fcKwOutAch
    let net := drag + ascent + rr + brake + trans + mc + essEff + aux + fc
    let ke := 1 / 2 * V.vehKg * (first.ach.mpsAch * first.ach.mpsAch - last.ach.mpsAch * last.ach.mpsAch) / 1000
    let dist := rsSum (rsDist s.cyc0)
    let t0 := s.cyc0.times.getD (s.cyc0.length - 1) 0
    if 0 < dist then
      let distFrac := pabs (rsSum (s.rows.map fun r => r.ach.distM) - dist) / dist
      let timeFrac := (s.cyc.times.getD (s.cyc.length - 1) 0 - t0) / t0
      let speed := rsArrMax (List.zipWith (fun (r : Row K) v => pabs (r.ach.mpsAch - v)) s.rows s.cyc.speeds)
      .ok
        { mpgge := if fuelKwh = 0 then 0 else miles / (fuelKwh / gge)
          roadwayChgKj := road
          essDischgKj := dischg
          batteryKwhPerMi := if 0 < miles then dischg / 3600 / miles else 0
          electricKwhPerMi := if 0 < miles then (road + dischg) / 3600 / miles else 0
          fuelKj := fuel
          ess2fuelKwh := if fuel + road = 0 then 1 else dischg / (fuel + road)
          dragKj := drag
          ascentKj := ascent
          rrKj := rr
          essLossKw := loss
          brakeKj := brake
          transKj := trans
          mcKj := mc
          essEffKj := essEff
          auxKj := aux
          fcKj := fc
          netKj := net
          keKj := ke
          energyAuditError := (road + dischg + fuel + ke - net) / (road + dischg + fuel + ke)
          traceMissDistFrac := distFrac
          traceMissTimeFrac := timeFrac
          traceMissSpeedMps := speed
          traceMiss := (if !P.missedTrace then decide (T.dist < distFrac) else decide (T.time < timeFrac))
            || decide (T.speed < speed) }
    else .error .err

/-- `sim_drive` (impl:395-460): the run and its figures. -/
def rsSimDrive (F : Fns K) (H : RsHooks K) (V : Veh K) (P : SimParams K) (T : MissTols K) (gge : K) (s : Sim K)
    (initSoc : Option K) (aux : Option (List K)) : Except RsErr (Sim K × RsPost K) :=
  match rsDrive F H V P s initSoc aux with
  | .error e => .error e
  | .ok t =>
    match rsPostScalars F V P T gge t with
    | .error e => .error e
    | .ok p => .ok (t, p)

/-! ### Making a Rust simulation of a python one -/

/-- `RustSimDriveParams::default` (rust/fastsim-core/src/simdrive.rs:101-176) with the air density and gravity of
`RustPhysicalProperties::default` (params.rs:50-60): the parameters of every simulation made by `RustSimDrive::new`
(impl:29-33). -/
def rsNewParams : SimParams K :=
  { airDensity := 12 / 10
    aGrav := 981 / 100
    newtonGain := 9 / 10
    newtonMaxIter := 100
    newtonXtol := 1 / 1000000000
    favorGradeAccuracy := true
    missedTrace := false
    maxTimeDilation := 1
    minTimeDilation := -(1 / 2)
    timeDilationTol := 5 / 10000
    maxTraceMissIters := 5
    simCountMax := 30
    coastAllow := false
    coastAllowPassing := false
    coastMaxSpeed := 40
    coastBrakeAccel := -(25 / 10)
    coastBrakeStartSpeed := 75 / 10
    coastStartSpeed := 0
    coastTimeHorizon := 20
    idmAllow := false
    idmVDesired := 3333 / 100
    idmDtHeadway := 1
    idmMinimumGap := 2
    idmDelta := 4
    idmAccel := 1
    idmDecel := 15 / 10
    idmByDistance := none }

/-- `SimDriveParams.__init__` (python/fastsim/simdrive.py:45-92) with the air density and gravity of `PhysicalProperties`
(parameters.py:43-44): the parameters of every simulation made by `SimDrive(cyc, veh)`. The tolerances of the warnings are
arguments of the figures (`MissTols`), the maximum of the EPA adjustment is used by the label only. -/
def newParams : SimParams K :=
  { airDensity := 6 / 5
    aGrav := 981 / 100
    favorGradeAccuracy := true
    missedTrace := false
    maxTimeDilation := 1
    minTimeDilation := -(1 / 2)
    timeDilationTol := 1 / 2000
    maxTraceMissIters := 5
    simCountMax := 30
    newtonGain := 9 / 10
    newtonMaxIter := 100
    newtonXtol := 1 / 1000000000
    coastAllow := false
    coastAllowPassing := false
    coastMaxSpeed := 40
    coastBrakeAccel := -(5 / 2)
    coastBrakeStartSpeed := 15 / 2
    coastStartSpeed := 0
    coastTimeHorizon := 20
    idmAllow := false
    idmVDesired := 3333 / 100
    idmDtHeadway := 1
    idmMinimumGap := 2
    idmDelta := 4
    idmAccel := 1
    idmDecel := 3 / 2
    idmByDistance := none }

/-- The cycle part of `SimDrive.to_rust` (simdrive.py:2303-2305 and 2340-2344): `RustSimDrive(cyc0, veh)`, a new object with
the cycle as it was given (impl:29-45). -/
def Sim.toRust (s : Sim K) : Sim K :=
  rsInitArrays { cyc0 := s.cyc0, cyc := s.cyc0, rows := [], aux := [], impose := [], coastDelay := [],
                 idmTarget := [], missIters := [], i := 1, hevCount := 0 }

end Lawless
end Fastsim
