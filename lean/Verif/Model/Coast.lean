import Verif.Model.Idm
import Mathlib.Algebra.Order.Ring.Rat

/-!
# Model of eco-coasting (`python/fastsim/simdrive.py:1655-2188`, `cycle.py:772-856`)

Numbers: `cyc`, `cyc0` and all step durations are numpy floats in the code, so dividing by zero gives
`inf` or `nan` there instead of an exception. Where such a value is only compared (and the comparison
is therefore false), the model takes the branch of the failed comparison; where it would be stored in
the cycle (`modify_with_braking_trajectory`), the model stops with `PyErr.zeroDivision` instead. Cycles
with repeated time stamps (`dt = 0`) are outside the model in `coastStep` and `rendezvousFirst`, where
division by zero yields zero.
-/

namespace Fastsim

/-- `l[i:i+n] = x`, clipped to the array. -/
def setRange {α : Type*} (l : List α) (i n : Nat) (x : α) : List α :=
  l.mapIdx fun j y => if i ≤ j ∧ j < i + n then x else y

/-- `l[i:] = x` -/
def setFrom {α : Type*} (l : List α) (i : Nat) (x : α) : List α :=
  l.mapIdx fun j y => if i ≤ j then x else y

/-- `PassingInfo` (cycle.py:772-790) -/
structure PassingInfo (K : Type*) where
  hasCollision : Bool
  idx : Nat
  numSteps : Nat
  startDistance : K
  distance : K
  startSpeed : K
  speed : K
  stepDuration : K

section Lawless
variable {K : Type*} [Zero K] [One K] [NatCast K] [Add K] [Sub K] [Mul K] [Div K] [Neg K]
  [LinearOrder K]

/-- Loop of `detect_passing` (cycle.py:825-846): `m` iterations are left, the next one is `di` (index
`i + di`); `d, dLv` are the distances and `v0, v0Lv` the speeds at the start of the step. Returns
index, number of steps, distance and speed of the lead vehicle where the tolerance is exceeded. -/
def passLoop (c c0 : Cyc K) (tol : K) (i : Nat) :
    (m di : Nat) → (d dLv v0 v0Lv : K) → Option (Nat × Nat × K × K)
  | 0, _, _, _, _, _ => none
  | m + 1, di, d, dLv, v0, v0Lv =>
    let idx := i + di
    let v := c.speeds.getD idx 0
    let vLv := c0.speeds.getD idx 0
    let d' := d + (v + v0) * (1 / 2) * dtAt c idx
    let dLv' := dLv + (vLv + v0Lv) * (1 / 2) * dtAt c0 idx
    if 0 < di ∧ dLv' - d' < -tol then some (idx, di + 1, dLv', vLv)
    else if v ≤ 1 / 1000000 then none
    else passLoop c c0 tol i m (di + 1) d' dLv' v vLv

/-- `detect_passing(cyc, cyc0, i, dist_tol_m)` (cycle.py:792-856), for cycles of the same length (a
shorter `cyc0` raises `IndexError` in the code). -/
def detectPassing (c c0 : Cyc K) (i : Nat) (tol : K) : PassingInfo K :=
  if c.length ≤ i then
    { hasCollision := false, idx := 0, numSteps := 0, startDistance := 0, distance := 0
      startSpeed := 0, speed := 0, stepDuration := 1 }
  else
    let d0 := trapzStepStartDistance c i
    match passLoop c c0 tol i (c.length - i) 0 d0 (trapzStepStartDistance c0 i) (prevSpeed c i)
        (prevSpeed c0 i) with
    | none =>
      { hasCollision := false, idx := 0, numSteps := 0, startDistance := d0, distance := 0
        startSpeed := prevSpeed c i, speed := 0, stepDuration := dtAt c i }
    | some r =>
      { hasCollision := decide (d0 < r.2.2.1), idx := r.1, numSteps := r.2.1, startDistance := d0
        distance := r.2.2.1, startSpeed := prevSpeed c i, speed := r.2.2.2, stepDuration := dtAt c i }

/-- `_calc_dvdd(v, grade)` (simdrive.py:1655-1678). -/
def calcDvdd (F : Fns K) (V : Veh K) (P : SimParams K) (v g : K) : K :=
  if v ≤ 0 then 0
  else
    let s := if g = 0 then 0 else F.sinAtan g
    let c := if g = 0 then 1 else F.cosAtan g;
    -1 * (P.aGrav / v * (s + V.wheelRrCoef * c)
      + 1 / 2 * (P.airDensity * V.dragCoef * V.frontalAreaM2) * (1 / V.vehKg) * v)

/-- Grades of the lead trace at and beyond distance `d0` (simdrive.py:1698-1703, 1786-1787). -/
def gradesAhead (c0 : Cyc K) (d0 : K) : List K :=
  (((trapzDistances c0).zip c0.grades).filter fun p => decide (d0 ≤ p.1)).map Prod.snd

/-- `unique_grades[0] if len(unique_grades) == 1 else None` (simdrive.py:1717-1718, 1800-1801). -/
def uniqueGrade : List K → Option K
  | [] => none
  | g :: l => if l.all fun x => decide (x = g) then some g else none

/-- `v * (1 + 0.5*k*dt) / (1 - 0.5*k*dt)` (simdrive.py:1731, 1736). -/
def coastNext (v k dt : K) : K := v * (1 + 1 / 2 * k * dt) / (1 - 1 / 2 * k * dt)

/-- The `for _ in range(ITERS_PER_STEP)` loop (simdrive.py:1734-1740), returning the last `k` and
`v_next`. -/
def coastIter (F : Fns K) (V : Veh K) (P : SimParams K) (c0 : Cyc K) (unique : Option K)
    (d0 d v dt : K) : Nat → (vavg gr k vNext : K) → K × K
  | 0, _, _, k, vNext => (k, vNext)
  | n + 1, vavg, gr, _, _ =>
    let k := calcDvdd F V P vavg gr
    let vNext := coastNext v k dt
    let vavg := 1 / 2 * (v + vNext)
    let gr := if P.favorGradeAccuracy then
        unique.getD (averageGradeCached F c0 (d + d0) (vavg * dt)) else gr
    coastIter F V P c0 unique d0 d v dt n vavg gr k vNext

/-- One step of the coast-down (simdrive.py:1728-1740): `(k, v_next)`. -/
def coastStep (F : Fns K) (V : Veh K) (P : SimParams K) (c0 : Cyc K) (unique : Option K)
    (d0 d v dt : K) : K × K :=
  let gr := unique.getD (interpGrade F c0 (d + d0))
  let k := calcDvdd F V P v gr
  let vNext := coastNext v k dt
  coastIter F V P c0 unique d0 d v dt (if P.favorGradeAccuracy then 2 else 1)
    (1 / 2 * (v + vNext)) gr k vNext

/-- State in which the coast-down loop ends: last speed, distance covered, speeds found, and whether
`iter < MAX_ITER and idx < len(self.mps_ach)`. -/
structure CoastEnd (K : Type*) where
  v : K
  d : K
  speeds : List K
  within : Bool

/-- The coast-down loop (simdrive.py:1727-1756) with `m = MAX_ITER - iter` iterations left at index
`idx`; `none` is the `return NOT_FOUND` inside the loop. -/
def coastLoop (F : Fns K) (V : Veh K) (P : SimParams K) (c0 : Cyc K) (unique : Option K)
    (len : Nat) (d0 dMax dts0 : K) : (m : Nat) → (v d : K) → (idx : Nat) → (acc : List K) →
    Option (CoastEnd K)
  | 0, v, d, _, acc => some { v := v, d := d, speeds := acc, within := false }
  | m + 1, v, d, idx, acc =>
    if P.coastBrakeStartSpeed < v ∧ 0 ≤ v ∧ d ≤ dMax ∧ idx < len then
      let dt := dtAt c0 idx
      let r := coastStep F V P c0 unique d0 d v dt
      if 0 ≤ r.1 ∧ unique.isSome then none
      else if r.2 ≤ P.coastBrakeStartSpeed then
        some { v := v, d := d, speeds := acc, within := true }
      else
        let d' := d + 1 / 2 * (v + r.2) * dt
        if dts0 ≤ d' + -(1 / 2) * r.2 * r.2 / P.coastBrakeAccel then
          some { v := r.2, d := d', speeds := acc ++ [r.2], within := true }
        else coastLoop F V P c0 unique len d0 dMax dts0 m r.2 d' (idx + 1) (acc ++ [r.2])
    else some { v := v, d := d, speeds := acc, within := decide (idx < len) }

/-- `self.cyc.mps[i + di] = speeds[di]` for all `di` (simdrive.py:1749-1751). -/
def writeSpeeds (c : Cyc K) (i : Nat) : List K → Cyc K
  | [] => c
  | v :: l => writeSpeeds (setSpeed c i v) (i + 1) l

/-- `ds[ds >= d0][-1]` (simdrive.py:1696-1699, 1713); with no such distance the code returns before it gets here,
and the value 0 is not used. -/
def lastFrom (ds : List K) (d0 : K) : K := (ds.filter fun x => decide (d0 ≤ x)).getLast?.getD 0

/-- The coast-down from the current step, before anything is written (simdrive.py:1708-1756):
`none` if it is not found, otherwise where it ends and the distance planned for braking. -/
def coastPlan (F : Fns K) (V : Veh K) (P : SimParams K) (s : Sim K) : Option (CoastEnd K × K) :=
  let vb := P.coastBrakeStartSpeed
  let ab := P.coastBrakeAccel
  let d0 := trapzStepStartDistance s.cyc s.i
  let dMax := (lastFrom (trapzDistances s.cyc0) d0 - d0) - -(1 / 2) * vb * vb / ab
  let dts0 := distanceToNextStop s.cyc0 d0
  match coastLoop F V P s.cyc0 (uniqueGrade (gradesAhead s.cyc0 d0)) s.rows.length d0 dMax dts0 180
      (s.rows.getD (s.i - 1) Row.zero).ach.mpsAch 0 s.i [] with
  | none => none
  | some e =>
    if e.within then
      let dtb := -(1 / 2) * e.v * e.v / ab
      some (e, min (max (dts0 - e.d) (1 / 2 * dtb)) (2 * dtb))
    else none

end Lawless

section Floor
variable {K : Type*} [Field K] [LinearOrder K] [FloorRing K]

/-- `_generate_coast_trajectory(i, modify_cycle)` (simdrive.py:1680-1766) for `i = self.i`. A brake
acceleration of zero raises: `ZeroDivisionError` at line 1713, or the assertion of
`modify_with_braking_trajectory`, or (line 1712, numpy speed) gives `-inf`; the model stops with
`zeroDivision` in all three cases. -/
def generateCoast (F : Fns K) (V : Veh K) (P : SimParams K) (s : Sim K) (modify : Bool) :
    Except PyErr (K × Sim K) :=
  let v0 := (s.rows.getD (s.i - 1) Row.zero).ach.mpsAch
  let ab := P.coastBrakeAccel
  if 0 < ab then .error .assertionError
  else if gradesAhead s.cyc0 (trapzStepStartDistance s.cyc s.i) = [] then .ok (0, s)
  else if ab = 0 then .error .zeroDivision
  else if v0 ≤ P.coastBrakeStartSpeed then
    if modify then
      match modifyWithBraking s.cyc ab s.i none with
      | .error e => .error e
      | .ok r => .ok (-(1 / 2) * v0 * v0 / ab,
          { s with cyc := r.2.2, impose := setRange (setFrom s.impose s.i false) s.i r.2.1 true })
    else .ok (-(1 / 2) * v0 * v0 / ab, s)
  else
    match coastPlan F V P s with
    | none => .ok (-1, s)
    | some (e, dtb) =>
      if modify then
        match modifyWithBraking (writeSpeeds s.cyc s.i e.speeds) ab (s.i + e.speeds.length) (some dtb) with
        | .error err => .error err
        | .ok r => .ok (e.d + dtb,
            { s with
              cyc := r.2.2
              impose := setRange (setFrom s.impose s.i false) s.i (e.speeds.length + r.2.1) true })
      else .ok (e.d + dtb, s)

/-- `_calc_distance_to_stop_coast_v2(i)` (simdrive.py:1768-1817) for `i = self.i`. -/
def distToStopCoast (F : Fns K) (V : Veh K) (P : SimParams K) (s : Sim K) : Except PyErr K :=
  let v0 := s.cyc.speeds.getD (s.i - 1) 0
  let vb := P.coastBrakeStartSpeed
  let ab := P.coastBrakeAccel
  if ab = 0 then .error .zeroDivision
  else if v0 ≤ vb then .ok (-(1 / 2) * v0 * v0 / ab)
  else
    let closed : Option K :=
      match uniqueGrade (gradesAhead s.cyc0 (trapzStepStartDistance s.cyc s.i)) with
      | none => none
      | some g =>
        let c1 := P.aGrav * (F.sinAtan g + V.wheelRrCoef * F.cosAtan g)
        let c2 := P.airDensity * (V.dragCoef * V.frontalAreaM2) / (2 * V.vehKg)
        let d :=
          if c2 = 0 then (if 0 < c1 then 1 / (2 * c1) * (v0 * v0 - vb * vb) else -1)
          else if 0 < c1 + c2 * (v0 * v0) ∧ 0 < c1 + c2 * (vb * vb) then
            1 / (2 * c2) * (F.log (c1 + c2 * (v0 * v0)) - F.log (c1 + c2 * (vb * vb)))
          else -1
        if d = -1 then none else some (d + -(1 / 2) * vb * vb / ab)
    match closed with
    | some d => .ok d
    | none =>
      match generateCoast F V P s false with
      | .error e => .error e
      | .ok r => .ok r.1

/-- `_should_impose_coast(i)` (simdrive.py:1819-1842) for `i = self.i`. -/
def shouldImposeCoast (F : Fns K) (V : Veh K) (P : SimParams K) (s : Sim K) : Except PyErr Bool :=
  if 0 < P.coastStartSpeed then .ok (decide (P.coastStartSpeed ≤ s.cyc.speeds.getD s.i 0))
  else
    let v0 := (s.rows.getD (s.i - 1) Row.zero).ach.mpsAch
    if v0 < P.coastBrakeStartSpeed then .ok false
    else
      match distToStopCoast F V P s with
      | .error e => .error e
      | .ok dtsc0 =>
        if dtsc0 < 0 then .ok false
        else
          let dts0 := distanceToNextStop s.cyc0 (trapzStepStartDistance s.cyc s.i)
          let dtb := -(1 / 2) * v0 * v0 / P.coastBrakeAccel
          .ok (decide (dts0 ≤ dtsc0) && decide (4 * dtb ≤ dts0))

/-- `min()` of a non-empty array. -/
def minOf : List K → K
  | [] => 0
  | x :: l => l.foldl min x

/-- Accelerations of a constant-jerk trajectory over its first `n` steps
(simdrive.py:1929-1933, 2050-2054). -/
def jerkAccels (n : Nat) (a0 k dt : K) : List K :=
  (List.range n).map fun j => accelForConstantJerk j a0 k dt

/-- The best rendezvous so far (`r_best_*`, simdrive.py:1907-1911; `_RendezvousTrajectory`). -/
structure Rendezvous (K : Type*) where
  idx : Nat
  n : Nat
  fullBrake : Nat
  jerk : K
  accel : K
  spread : K

/-- `not r_best_found or accel_spread < r_best_accel_spread` (simdrive.py:1938-1939, 2068). -/
def improves (spread : K) : Option (Rendezvous K) → Bool
  | none => true
  | some b => decide (spread < b.spread)

/-- One candidate `step_ahead = n ≥ 2` of `_calc_next_rendezvous_trajectory` (simdrive.py:1926-1947).
A trajectory with a zero divisor has infinite or undefined acceleration and fails the comparisons of
line 1930. -/
def rendezvousTry (v0 dtbi0 vb dt aMin aMax : K) (n : Nat) (best : Option (Rendezvous K)) :
    Option (Rendezvous K) :=
  if 0 < dtbi0 then
    match calcConstantJerk n 0 v0 dtbi0 vb dt with
    | .error _ => best
    | .ok (k, a0) =>
      if a0 < aMax ∧ aMin < a0 ∧ 0 ≤ k then
        let as := jerkAccels n a0 k dt
        let spread := pabs (maxOf as - minOf as)
        if (maxOf as < aMax + 1 / 1000000 ∧ aMin - 1 / 1000000 < minOf as) ∧
            improves spread best = true then
          some { idx := 0, n := n, fullBrake := 0, jerk := k, accel := a0, spread := spread }
        else best
      else best
  else best

/-- The candidate `step_ahead = 1` (simdrive.py:1915-1925); `some` ends the search. -/
def rendezvousFirst (v0 dtbi0 vb dt : K) : Option (Rendezvous K) :=
  let accel := (vb - v0) / dt
  let v1 := max 0 (v0 + accel * dt)
  if pabs (v1 - vb) < 1 / 1000000 ∧ pabs (dtbi0 - (v0 + v1) / 2 * dt) < 1 / 1000000 then
    some { idx := 0, n := 1, fullBrake := 0, jerk := 0, accel := accel, spread := 0 }
  else none

/-- The search loop (simdrive.py:1912-1948): `m` samples are left, the next index is `stepIdx`. -/
def rendezvousLoop (c0 : Cyc K) (i : Nat) (horizon v0 dtbi0 vb dt aMin aMax : K) :
    (m stepIdx : Nat) → (dtPlan : K) → Option (Rendezvous K) → Option (Rendezvous K)
  | 0, _, _, best => best
  | m + 1, stepIdx, dtPlan, best =>
    if dtPlan ≤ horizon then
      let dtPlan := dtPlan + dtAt c0 stepIdx
      let n := stepIdx - (i - 1)
      if n = 1 then
        match rendezvousFirst v0 dtbi0 vb dt with
        | some r => some r
        | none => rendezvousLoop c0 i horizon v0 dtbi0 vb dt aMin aMax m (stepIdx + 1) dtPlan best
      else rendezvousLoop c0 i horizon v0 dtbi0 vb dt aMin aMax m (stepIdx + 1) dtPlan
        (rendezvousTry v0 dtbi0 vb dt aMin aMax n best)
    else best

/-- `_calc_next_rendezvous_trajectory(i, min_accel, max_accel)` (simdrive.py:1844-1949) for
`i = self.i`; `none` is `not_found`. -/
def nextRendezvous (P : SimParams K) (s : Sim K) (aMin aMax : K) : Option (Rendezvous K) :=
  let v0 := s.cyc.speeds.getD (s.i - 1) 0
  let vb := P.coastBrakeStartSpeed
  if v0 < vb + 1 / 1000000 then none
  else
    let dts0 := distanceToNextStop s.cyc0 (trapzStepStartDistance s.cyc s.i)
    let dtbi0 := dts0 - -(1 / 2) * vb * vb / P.coastBrakeAccel
    if dts0 < 0 ∨ dtbi0 < 0 then none
    else rendezvousLoop s.cyc0 s.i (max P.coastTimeHorizon 1) v0 dtbi0 vb (dtAt s.cyc s.i)
      (min aMin aMax) (max aMin aMax) (s.cyc.length - s.i) s.i 0 none

/-- `trace_accel >= accel` for the trace acceleration `num / dt`: with `dt = 0` numpy divides to `inf`,
`-inf` or `nan` (simdrive.py:2055-2061). -/
def traceGe (num dt a : K) : Bool := if dt = 0 then decide (0 < num) else decide (a ≤ num / dt)

/-- All proposed accelerations are at or below those of the current cycle
(simdrive.py:2050-2061). Note that the trace acceleration of the step into index `j` is computed with
the duration of the step before it. -/
def allSubCoast (c : Cyc K) (start n : Nat) (a0 k dt : K) : Bool :=
  (List.range n).all fun ni =>
    if ni + start < c.length then
      traceGe (c.speeds.getD (ni + start) 0 - c.speeds.getD (ni + start - 1) 0)
        (dtAt c (ni + start - 1)) (accelForConstantJerk ni a0 k dt)
    else true

/-- One candidate of the collision search (simdrive.py:2034-2078) at index `idx` with `fbs` steps of
full braking; `none` if it is not taken. The arrays of accelerations have `n` entries clipped to the
cycle. -/
def collisionTry (P : SimParams K) (c : Cyc K) (col : PassingInfo K) (fbs idx n : Nat)
    (best : Option (Rendezvous K)) : Option (Rendezvous K) :=
  let dt := col.stepDuration
  let vStart := c.speeds.getD (idx - 1) 0
  let dtFull := c.times.getD (idx - 1 + fbs) 0 - c.times.getD (idx - 1) 0
  let vJerk := max (vStart + dtFull * P.coastBrakeAccel) 0
  let dStart := trapzStepStartDistance c idx + 1 / 2 * (vStart + vJerk) * dtFull
  if col.distance ≤ dStart then best
  else
    match calcConstantJerk n dStart vJerk col.distance col.speed dt with
    | .error _ => best
    | .ok (k, a0) =>
      let as := jerkAccels (min n (c.length - (idx + fbs))) a0 k dt
      let spread := pabs (maxOf as - minOf as)
      if allSubCoast c (idx + fbs) n a0 k dt = true ∧
          improves spread best = true then
        some { idx := idx, n := n, fullBrake := fbs, jerk := k, accel := a0, spread := spread }
      else best

/-- Inner loop over `di` (simdrive.py:2021-2078): `m` samples are left, the next index is `idx`. -/
def collisionLoop (P : SimParams K) (c : Cyc K) (impose : List Bool) (col : PassingInfo K)
    (fbs i : Nat) : (m idx : Nat) → Option (Rendezvous K) → Option (Rendezvous K)
  | 0, _, best => best
  | m + 1, idx, best =>
    if impose.getD idx false = false then
      if idx = i then best else collisionLoop P c impose col fbs i m (idx + 1) best
    else if col.idx + 1 < idx + fbs + 2 then best
    else if c.length ≤ idx - 1 + fbs then best
    else collisionLoop P c impose col fbs i m (idx + 1)
      (collisionTry P c col fbs idx (col.idx + 1 - idx - fbs) best)

/-- Outer loop over the number of full-braking steps (simdrive.py:2020-2080). -/
def collisionSearch (P : SimParams K) (s : Sim K) (col : PassingInfo K) :
    (m fbs : Nat) → Option (Rendezvous K)
  | 0, _ => none
  | m + 1, fbs =>
    match collisionLoop P s.cyc s.impose col fbs s.i (s.rows.length - s.i) s.i none with
    | some b => some b
    | none => collisionSearch P s col m (fbs + 1)

/-- `for fbs in range(best.full_brake_steps)` (simdrive.py:2086-2092): `m` steps are left, the next is
`fbs`. -/
def fullBrakeLoop (ab : K) (idx : Nat) : (m fbs : Nat) → Sim K → Sim K
  | 0, _, s => s
  | m + 1, fbs, s =>
    let dt := s.cyc.times.getD (idx + fbs) 0 - s.cyc.times.getD (idx - 1) 0
    fullBrakeLoop ab idx m (fbs + 1)
      { s with
        cyc := setSpeed s.cyc (idx + fbs) (max (s.cyc.speeds.getD (idx - 1) 0 + ab * dt) 0)
        impose := s.impose.set (idx + fbs) true
        coastDelay := s.coastDelay.set (idx + fbs) 0 }

/-- Application of the rendezvous found (simdrive.py:2086-2098). -/
def applyRendezvous (ab : K) (s : Sim K) (b : Rendezvous K) : Sim K :=
  let s := fullBrakeLoop ab b.idx b.fullBrake 0 s
  { s with
    cyc := (modifyByConstJerk s.cyc (b.idx + b.fullBrake) b.n b.jerk b.accel).2
    impose := setFrom s.impose (b.idx + b.n) false
    coastDelay := setFrom s.coastDelay (b.idx + b.n) 0 }

/-- `_prevent_collisions(i, passing_tol_m)` (simdrive.py:1997-2099) for `i = self.i`. The recursion is
bounded by `fuel`; running out of it is `PyErr.other` (never with fuel 12, `C31_retries`). -/
def preventCollisions (P : SimParams K) (s : Sim K) : (fuel : Nat) → (tol : K) →
    Except PyErr (Bool × Sim K)
  | 0, _ => .error .other
  | fuel + 1, tol =>
    let col := detectPassing s.cyc s.cyc0 s.i tol
    if col.hasCollision = false then .ok (false, s)
    else if ¬ P.coastBrakeAccel < 0 then .error .assertionError
    else
      match collisionSearch P s col 4 0 with
      | some b => .ok (true, applyRendezvous P.coastBrakeAccel s b)
      | none =>
        let tol' := if tol < 10 then 10 else tol + 5
        if 60 < tol' then .ok (false, s) else preventCollisions P s fuel tol'

/-- Search for the stop of the lead vehicle (simdrive.py:1977-1986): index `idx`, distance `dLv`,
smallest distance `best` so far, delay found so far. -/
def delayLoop (i : Nat) (d0 d0Lv : K) : (idx : Nat) → (dLv : K) → (best : Option K) →
    (delay : Option Int) → List (K × K) → Option Int
  | _, _, _, delay, [] => delay
  | idx, dLv, best, delay, p :: l =>
    let dLv := dLv + p.1
    let dtlv := pabs (dLv - d0)
    let hit := decide (p.2 < 1 / 100) &&
      (match best with | none => true | some b => decide (dtlv ≤ b))
    let better := match best with
      | none => true
      | some b => decide (dtlv < b) || (decide (d0 < d0Lv) && decide (b = dtlv))
    let delay' := if hit && better then some ((i : Int) - (idx : Int)) else delay
    let best' := if hit then some dtlv else best
    if (match best' with | none => false | some b => decide (b < dtlv)) = true then delay'
    else delayLoop i d0 d0Lv (idx + 1) dLv best' delay' l

/-- `_set_coast_delay(i)` (simdrive.py:1951-1995) for `i = self.i`. -/
def setCoastDelay (P : SimParams K) (s : Sim K) : Sim K :=
  let cleared := setFrom s.coastDelay s.i 0
  let d0 := trapzStepStartDistance s.cyc s.i
  let d0Lv := (trapzDistances s.cyc0).getD (s.i - 1) 0
  let delay :=
    if P.idmAllow = false ∧ s.cyc.speeds.getD s.i 0 < 1 / 100 ∧ 1 / 10 < pabs (d0Lv - d0) then
      delayLoop s.i d0 d0Lv 0 0 none none ((trapzStepDistances s.cyc0).zip s.cyc0.speeds)
    else none
  match delay with
  | none => { s with coastDelay := cleared }
  | some cd =>
    if cd < 0 then
      { s with coastDelay := cleared.mapIdx fun j y =>
          if s.i ≤ j ∧ (j : Int) < s.i - cd ∧ j < s.cyc0.length then cd + ((j : Int) - s.i) else y }
    else { s with coastDelay := setFrom cleared s.i cd }

/-- `self.solve_step(i); self.newton_iters[i] = 0; self.cyc.mps[i] = self.mps_ach[i]`
(simdrive.py:2132-2134, 2186-2188). -/
def coastSolve (F : Fns K) (V : Veh K) (P : SimParams K) (s : Sim K) : Sim K :=
  let s := Sim.solve F V P s
  { s with
    rows := s.rows.modify s.i fun r => { r with ach := { r.ach with newtonIters := 0 } }
    cyc := setSpeed s.cyc s.i (s.rows.getD s.i Row.zero).ach.mpsAch }

/-- Decision to start coasting (simdrive.py:2109-2115). -/
def startCoast (F : Fns K) (V : Veh K) (P : SimParams K) (s : Sim K) : Except PyErr (Sim K) :=
  if 1 / 1000000 < (s.rows.getD (s.i - 1) Row.zero).ach.mpsAch ∧ s.impose.getD s.i false = false then
    match shouldImposeCoast F V P s with
    | .error e => .error e
    | .ok false => .ok s
    | .ok true =>
      match generateCoast F V P s true with
      | .error e => .error e
      | .ok (d, s) =>
        let s := if d < 0 then { s with impose := setFrom s.impose s.i false } else s
        if P.coastAllowPassing then .ok s
        else
          match preventCollisions P s 12 1 with
          | .error e => .error e
          | .ok r => .ok r.2
  else .ok s

/-- Change of plan after the coasting speed turned out different from the planned one
(simdrive.py:2144-2182): the object and `adjusted_current_speed`. -/
def replanCoast (P : SimParams K) (s : Sim K) (accelProposed : K) : Except PyErr (Bool × Sim K) :=
  let ab := P.coastBrakeAccel
  if s.cyc.speeds.getD s.i 0 < P.coastBrakeStartSpeed - 1 / 10 then
    match modifyWithBraking s.cyc ab s.i none with
    | .error e => .error e
    | .ok r => .ok (true,
        { s with cyc := r.2.2, impose := setRange (setFrom s.impose s.i false) s.i r.2.1 true })
  else if ab = 0 then .error .zeroDivision
  else
    match nextRendezvous P s ab (min accelProposed 0) with
    | none => .ok (false, s)
    | some b =>
      let m := modifyByConstJerk s.cyc s.i b.n b.jerk b.accel
      let s' := { s with cyc := m.2, impose := setRange (setFrom s.impose s.i false) s.i b.n true }
      if pabs (m.1 - P.coastBrakeStartSpeed) < 1 / 10 then
        match modifyWithBraking s'.cyc ab (s.i + b.n) none with
        | .error e => .error e
        | .ok r => .ok (true,
            { s' with cyc := r.2.2, impose := setRange s'.impose (s.i + b.n) r.2.1 true })
      else .ok (true, s')

/-- `_set_coast_speed(i)` (simdrive.py:2101-2188) for `i = self.i`. -/
def coastHook (F : Fns K) (V : Veh K) (P : SimParams K) (s : Sim K) : Except PyErr (Sim K) :=
  match startCoast F V P s with
  | .error e => .error e
  | .ok s =>
    if s.impose.getD s.i false = false then
      if P.idmAllow then .ok s
      else .ok { s with
        cyc := setSpeed s.cyc s.i (s.cyc0.speeds.getD
          (min (max ((s.i : Int) - s.coastDelay.getD s.i 0) 0) ((s.cyc0.length : Int) - 1)).toNat 0) }
    else
      let v1 := s.cyc.speeds.getD s.i 0
      let s :=
        if P.coastBrakeStartSpeed < (s.rows.getD (s.i - 1) Row.zero).ach.mpsAch then
          let v := if P.coastAllowPassing then P.coastMaxSpeed else min v1 P.coastMaxSpeed
          { s with cyc := setSpeed s.cyc s.i v }
        else s
      let s := coastSolve F V P s
      let v := s.cyc.speeds.getD s.i 0
      let accelProposed := (v - s.cyc.speeds.getD (s.i - 1) 0) / dtAt s.cyc s.i
      if v < 1 / 1000000 then
        let s := setCoastDelay P { s with impose := setFrom s.impose s.i false }
        .ok { s with cyc := setSpeed s.cyc s.i 0 }
      else if 1 / 1000000 < pabs (v - v1) then
        match replanCoast P s accelProposed with
        | .error e => .error e
        | .ok (false, s) => .ok s
        | .ok (true, s) =>
          if P.coastAllowPassing then .ok (coastSolve F V P s)
          else
            match preventCollisions P s 12 1 with
            | .error e => .error e
            | .ok r => .ok (coastSolve F V P r.2)
      else .ok s

/-- The driving modes of the code. -/
def realHooks (F : Fns K) (V : Veh K) (P : SimParams K) : Hooks K :=
  { idm := idmHook F P, coast := coastHook F V P }

end Floor
end Fastsim
