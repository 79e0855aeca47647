import Verif.Model.Coast
import Verif.Model.EcoCruise
import Verif.Model.RsRun
import Verif.Model.RsVeh

/-!
# Model of the cycles of the Rust core (`rust/fastsim-core/src/cycle.rs`)

The functions are written from the Rust source, with its loops, tolerances, rounding and panics. Cycles are those of the
python model: four arrays of the same length, which the core checks when it makes a cycle.
-/

namespace Fastsim

section Lawless
variable {K : Type*} [Zero K] [One K] [NatCast K] [Add K] [Sub K] [Mul K] [Div K] [Neg K]
  [LinearOrder K]

/-- `is_sorted` (cycle.rs:856-862): every two neighbours are in strict order. -/
def rsSorted : List K → Bool
  | a :: b :: l => decide (a < b) && rsSorted (b :: l)
  | _ => true

/-- `RustCycle.from_dict` (cycle.rs:501-527) with `init_checks` (cycle.rs:805-817): the arrays of a dictionary that has all of
them. -/
def rsFromDict (t v g r : List K) : Except RsErr (Cyc K) :=
  if t.length = 0 then .error .err
  else if rsSorted t = false then .error .err
  else if v.length ≠ t.length ∨ g.length ≠ t.length ∨ r.length ≠ t.length then .error .err
  else .ok (((t.zip v).zip (g.zip r)).map fun p => ⟨p.1.1, p.1.2, p.2.1, p.2.2⟩)

/-- `Cycle.to_rust` (cycle.py:237-238, 977-1020): `copy_cycle(cyc, 'rust', deep=False)`. -/
def Cyc.toRust (c : Cyc K) : Except RsErr (Cyc K) :=
  rsFromDict c.times c.speeds c.grades (c.map Sample.r)

/-! ### Distances (cycle.rs:120-173) -/

/-- `average_step_speeds` (cycle.rs:121-128). -/
def rsAverageStepSpeeds (c : Cyc K) : List K :=
  0 :: (List.range' 1 (c.length - 1)).map fun i => 1 / 2 * (c.speeds.getD i 0 + c.speeds.getD (i - 1) 0)

/-- `trapz_step_distances` (cycle.rs:138-140). -/
def rsStepDistances (c : Cyc K) : List K := List.zipWith (fun v d => v * d) (rsAverageStepSpeeds c) (rsDt c)

/-- `ndarrcumsum` (utils.rs:99-106) from an accumulator. -/
def rsCumsum (s : K) : List K → List K
  | [] => []
  | x :: l => (s + x) :: rsCumsum (s + x) l

/-- `ndarrcumsum(&trapz_step_distances(cyc))` (cycle.rs:410, 922, 982). -/
def rsDistances (c : Cyc K) : List K := rsCumsum 0 (rsStepDistances c)

/-- `trapz_step_start_distance` (cycle.rs:154-160), for `i ≤ len`. -/
def rsStepStartDistance (c : Cyc K) (i : Nat) : K :=
  (List.range' 1 (i - 1)).foldl (fun d j => d + (c.times.getD j 0 - c.times.getD (j - 1) 0) * (1 / 2) *
    (c.speeds.getD j 0 + c.speeds.getD (j - 1) 0)) 0

/-- `trapz_distance_for_step` (cycle.rs:164-166), for `1 ≤ i < len`. -/
def rsDistanceForStep (c : Cyc K) (i : Nat) : K :=
  1 / 2 * (c.speeds.getD i 0 + c.speeds.getD (i - 1) 0) * rsDtAt c i

/-- `trapz_distance_over_range` (cycle.rs:170-172): a slice out of range panics. -/
def rsDistanceOverRange (c : Cyc K) (a b : Nat) : Except RsErr K :=
  if b < a ∨ (rsStepDistances c).length < b then .error .panic
  else .ok (rsSum (((rsStepDistances c).take b).drop a))

/-- `delta_elev_m` (cycle.rs:1131-1133). -/
def rsDeltaElev (c : Cyc K) : List K := rsCumsum 0 (List.zipWith (fun d g => d * g) (rsDist c) c.grades)

/-! ### Microtrips and target speeds (cycle.rs:174-316) -/

/-- The state of the loop over the samples: the trips done, the one being read, whether the vehicle moves. -/
structure RsTrips (K : Type*) where
  done : List (Cyc K)
  cur : Cyc K
  moving : Bool

/-- `mt_ts.iter().map(|t| t - mt_ts[0])`, for a trip that is not empty. -/
def rsShift (c : Cyc K) : Cyc K := c.map fun s => { s with t := s.t - c.times.headD 0 }

/-- The body of the loop (cycle.rs:214-249). -/
def rsTripStep (stop : K) (s : RsTrips K) (x : Sample K) : RsTrips K :=
  let s := if stop < x.v ∧ s.moving = false ∧ 1 < s.cur.length then
      { s with done := s.done ++ [rsShift s.cur], cur := s.cur.drop (s.cur.length - 1) }
    else s
  { s with cur := s.cur ++ [x], moving := decide (stop < x.v) }

/-- `to_microtrips` (cycle.rs:201-262). -/
def rsMicrotrips (c : Cyc K) (stop : Option K) : List (Cyc K) :=
  let s := c.foldl (rsTripStep (stop.getD (1 / 1000000))) ⟨[], [], false⟩
  if s.cur.isEmpty then s.done else s.done ++ [rsShift s.cur]

/-- `time_spent_moving` (cycle.rs:177-188). -/
def rsTimeMoving (c : Cyc K) (stop : Option K) : K :=
  (List.range' 1 (c.length - 1)).foldl (fun t i =>
    if stop.getD 0 < (c.speeds.getD i 0 + c.speeds.getD (i - 1) 0) / (1 + 1) then t + (c.times.getD i 0 - c.times.getD (i - 1) 0)
    else t) 0

/-- The loop over the microtrips (cycle.rs:290-315), `d` being the distance so far. -/
def rsTargetLoop (blend minTarget : K) : K → List (Cyc K) → List (K × K)
  | _, [] => []
  | d, m :: ms =>
    let dist := rsSum (rsDist m)
    let time := m.times.getLast?.getD 0 - m.times.headD 0
    let moving := rsTimeMoving m none
    let avg := if 0 < time then dist / time else 0
    let mavg := if 0 < moving then dist / moving else 0
    let target := max (min (blend * (mavg - avg) + avg) mavg) avg
    if 0 < dist then (d, max target minTarget) :: rsTargetLoop blend minTarget (d + dist) ms
    else rsTargetLoop blend minTarget d ms

/-- `create_dist_and_target_speeds_by_microtrip` (cycle.rs:275-317). -/
def rsTargets (c : Cyc K) (blend minTarget : K) : List (K × K) :=
  let blend := if blend < 0 then 0 else if 1 < blend then 1 else blend
  rsTargetLoop blend minTarget 0 (rsMicrotrips c none)

/-! ### Grade, elevation and stops (cycle.rs:403-477, 886-997) -/

/-- `RustCycleCache` (cycle.rs:389-400). -/
structure RsCache (K : Type*) where
  allZero : Bool
  steps : List K
  distances : List K
  elevations : List K
  stops : List Bool
  ds : List K
  is : List K
  hs : List K
  grades : List K

/-- The points of the interpolation tables (cycle.rs:425-438): those right of all the ones before, with their indices. -/
def rsKnots (ds hs : List K) : List (K × Nat × K) :=
  (List.range ds.length).foldl (fun acc i =>
    let d := ds.getD i 0
    if acc.isEmpty || decide ((acc.getLast?.map (·.1)).getD 0 < d) then acc ++ [(d, i, hs.getD i 0)] else acc) []

/-- `RustCycleCache::new` (cycle.rs:405-449). -/
def rsBuildCache (F : Fns K) (c : Cyc K) : RsCache K :=
  let z := c.grades.all fun g => decide (g = 0)
  let steps := rsStepDistances c
  let dist := rsCumsum 0 steps
  let elev := if z then List.replicate c.length 0
    else rsCumsum 0 (List.zipWith (fun g dd => F.cosAtan g * dd * g) c.grades steps)
  let ks := rsKnots dist elev
  { allZero := z, steps := steps, distances := dist, elevations := elev
    stops := c.speeds.map fun v => decide (v ≤ 1 / 1000000)
    ds := ks.map (·.1), is := ks.map fun k => (k.2.1 : K), hs := ks.map (·.2.2), grades := c.grades }

/-- `interp_grade` (cycle.rs:453-465). Reading the first or last entry of an empty array panics. -/
def RsCache.interpGrade (F : Fns K) (q : RsCache K) (x : K) : Except RsErr K :=
  if q.allZero then .ok 0
  else
    match q.ds with
    | [] => .error .panic
    | d :: _ =>
      if x ≤ d then (match q.grades[0]? with | some g => .ok g | none => .error .panic)
      else if q.ds.getLast?.getD 0 < x then (match q.grades.getLast? with | some g => .ok g | none => .error .panic)
      else
        match rsInterpolate x q.ds q.is with
        | .error e => .error e
        | .ok raw => (match q.grades[F.ceilNat raw]? with | some g => .ok g | none => .error .panic)

/-- `interp_elevation` (cycle.rs:468-474). -/
def RsCache.interpElevation (q : RsCache K) (x : K) : Except RsErr K :=
  if q.allZero then .ok 0 else rsInterpolate x q.ds q.hs

/-- The cached part of `average_grade_over_range` (cycle.rs:895-905). -/
def rsAverageGradeCached (F : Fns K) (q : RsCache K) (start delta : K) : Except RsErr K :=
  if q.allZero then .ok 0
  else if delta ≤ 1 / 1000000 then q.interpGrade F start
  else
    match q.interpElevation start with
    | .error e => .error e
    | .ok e0 =>
      match q.interpElevation (start + delta) with
      | .error e => .error e
      | .ok e1 => .ok (F.tanAsin ((e1 - e0) / delta))

/-- The search of the sample (cycle.rs:930-936); the last grade if there is none (937). -/
def rsPointSearch (ds gs : List K) (x : K) : K :=
  match (List.range' 1 (ds.length - 1)).find? fun i => decide (ds.getD (i - 1) 0 < x ∧ x ≤ ds.getD i 0) with
  | some i => gs.getD i 0
  | none => gs.getD (ds.length - 1) 0

/-- `average_grade_over_range` without a cache (cycle.rs:906-965). -/
def rsAverageGrade (F : Fns K) (c : Cyc K) (start delta : K) : Except RsErr K :=
  if c.grades.all (fun g => decide (g = 0)) then .ok 0
  else
    let steps := rsStepDistances c
    let ds := rsCumsum 0 steps
    if delta ≤ 1 / 1000000 then
      if c.length = 0 then .error .panic
      else if start ≤ ds.getD 0 0 then .ok (c.grades.getD 0 0)
      else if ds.getD (c.length - 1) 0 < start then .ok (c.grades.getD (c.length - 1) 0)
      else .ok (rsPointSearch ds c.grades start)
    else
      let hs := rsCumsum 0 (List.zipWith (fun g dd => F.cosAtan g * dd * g) c.grades steps)
      match rsInterpolate start ds hs with
      | .error e => .error e
      | .ok e0 =>
        match rsInterpolate (start + delta) ds hs with
        | .error e => .error e
        | .ok e1 => .ok (F.tanAsin ((e1 - e0) / delta))

/-- `calc_distance_to_next_stop_from` (cycle.rs:972-996): the distances are those of the cache if there is one, the speeds
always those of the cycle. The last of no distances panics. -/
def rsNextStop (ds vs : List K) (x : K) : Except RsErr K :=
  match (ds.zip vs).find? fun p => decide (p.2 < 1 / 1000000 ∧ x + 1 / 1000000 < p.1) with
  | some p => .ok (p.1 - x)
  | none =>
    match ds.getLast? with
    | some d => .ok (d - x)
    | none => .error .panic

/-- Without a cache. -/
def rsNextStopOf (c : Cyc K) (x : K) : Except RsErr K := rsNextStop (rsDistances c) c.speeds x

/-! ### Constant jerk (cycle.rs:13-118) and trajectories (cycle.rs:1009-1108) -/

/-- `calc_constant_jerk_trajectory` (cycle.rs:25-47). Floating point division by zero does not fail but has no value in
exact arithmetic; it is an error here. -/
def rsConstantJerk (n : Nat) (d0 v0 dr vr dt : K) : Except RsErr (K × K) :=
  if ¬ 1 < n then .error .err
  else if ¬ d0 < dr then .error .err
  else
    let m : K := n
    let ddr := dr - d0
    let dvr := vr - v0
    let den := 1 / 2 * m * (m - 1) * dt - 1 / 3 * (m - 1) * (m - 2) * dt - 1 / 2 * (m - 1) * dt * dt
    if dt = 0 ∨ den = 0 then .error .err
    else
      let k := (dvr - 2 * ddr / (m * dt) + 2 * v0) / den
      let a0 := (ddr / dt - m * v0 - (1 / 6 * m * (m - 1) * (m - 2) * dt + 1 / 4 * m * (m - 1) * dt * dt) * k)
        / (1 / 2 * m * m * dt)
      .ok (k, a0)

/-- `speed_for_constant_jerk` (cycle.rs:89-92). -/
def rsJerkSpeed (n : Nat) (v0 a0 k dt : K) : K :=
  let m : K := n
  v0 + m * a0 * dt + 1 / 2 * m * (m - 1) * k * dt

/-- `dist_for_constant_jerk` (cycle.rs:63-71). -/
def rsJerkDist (n : Nat) (d0 v0 a0 k dt : K) : K :=
  let m : K := n
  let term1 := dt * (m * v0 + 1 / 2 * m * (m - 1) * a0 * dt + 1 / 6 * k * dt * (m - 2) * (m - 1) * m)
  let term2 := 1 / 2 * dt * dt * (m * a0 + 1 / 2 * m * (m - 1) * k * dt)
  d0 + term1 + term2

/-- `accel_for_constant_jerk` (cycle.rs:106-109). -/
def rsJerkAccel (n : Nat) (a0 k dt : K) : K := a0 + (n : K) * k * dt

/-- The loop of `modify_by_const_jerk_trajectory` (cycle.rs:1032-1039): `m` turns are left, the next one is `ni`. -/
def rsJerkLoop (i : Nat) (v0 a0 k dt : K) : (m ni : Nat) → (v : K) → Cyc K → K × Cyc K
  | 0, _, v, c => (v, c)
  | m + 1, ni, v, c =>
    let j := (i - 1) + ni
    if c.length ≤ j then (v, c)
    else
      let v' := rsJerkSpeed ni v0 a0 k dt
      rsJerkLoop i v0 a0 k dt m (ni + 1) v' (c.modify j fun s => { s with v := max v' 0 })

/-- `modify_by_const_jerk_trajectory` (cycle.rs:1012-1041): the speed and the cycle. `i - 1` of zero panics. -/
def rsModifyJerk (c : Cyc K) (i n : Nat) (k a0 : K) : Except RsErr (K × Cyc K) :=
  if n = 0 then .ok (0, c)
  else if c.length ≤ i then .ok (if 0 < c.length then c.speeds.getD (c.length - 1) 0 else 0, c)
  else if i = 0 then .error .panic
  else
    let v0 := c.speeds.getD (i - 1) 0
    .ok (rsJerkLoop i v0 a0 k (rsDtAt c i) n 1 v0 c)

/-! ### Passing (cycle.rs:1136-1231) -/

/-- The loop of `detect_passing` (cycle.rs:1190-1219). -/
def rsPassLoop (c c0 : Cyc K) (tol : K) (i : Nat) :
    (m di : Nat) → (d dLv v0 v0Lv : K) → Option (Nat × Nat × K × K)
  | 0, _, _, _, _, _ => none
  | m + 1, di, d, dLv, v0, v0Lv =>
    let idx := i + di
    let v := c.speeds.getD idx 0
    let vLv := c0.speeds.getD idx 0
    let d := d + (v + v0) * (1 / 2) * rsDtAt c idx
    let dLv := dLv + (vLv + v0Lv) * (1 / 2) * rsDtAt c0 idx
    if 0 < di ∧ dLv - d < -tol then some (idx, di + 1, dLv, vLv)
    else if v ≤ 1 / 1000000 then none
    else rsPassLoop c c0 tol i m (di + 1) d dLv v vLv

/-- `detect_passing` (cycle.rs:1163-1231), for cycles of the same length and `1 ≤ i`. -/
def rsDetectPassing (c c0 : Cyc K) (i : Nat) (tol : Option K) : PassingInfo K :=
  if c.length ≤ i then
    { hasCollision := false, idx := 0, numSteps := 0, startDistance := 0, distance := 0, startSpeed := 0, speed := 0
      stepDuration := 1 }
  else
    let d0 := rsStepStartDistance c i
    let r := rsPassLoop c c0 (tol.getD (1 / 10)) i (c.length - i) 0 d0 (rsStepStartDistance c0 i) (c.speeds.getD (i - 1) 0)
      (c0.speeds.getD (i - 1) 0)
    { hasCollision := r.isSome
      idx := (r.map (·.1)).getD 0
      numSteps := (r.map (·.2.1)).getD 0
      startDistance := d0
      distance := (r.map (·.2.2.1)).getD 0
      startSpeed := c.speeds.getD (i - 1) 0
      speed := (r.map (·.2.2.2)).getD 0
      stepDuration := rsDtAt c i }

end Lawless

section Floor
variable {K : Type*} [Field K] [LinearOrder K] [FloorRing K]

/-- `f64::round`: halves go away from zero. -/
def rsRound (x : K) : Int := if 0 ≤ x then ⌊x + 1 / 2⌋ else -⌊-x + 1 / 2⌋

/-- The distance to stop in (cycle.rs:1085-1094). -/
def rsBrakeDist (v0 a : K) : Option K → K
  | some x => if 0 < x then x else -(1 / 2) * v0 * v0 / a
  | none => -(1 / 2) * v0 * v0 / a

/-- `modify_with_braking_trajectory` (cycle.rs:1055-1104): the speed, the number of steps and the cycle. A step of no duration
makes the number of steps infinite, an error here. -/
def rsModifyBraking (c : Cyc K) (a : K) (i : Nat) (dts : Option K) : Except RsErr (K × Nat × Cyc K) :=
  if ¬ a < 0 then .error .err
  else if c.length ≤ i then
    match c.speeds.getLast? with
    | none => .error .panic
    | some v => .ok (v, 0, c)
  else if i = 0 then .error .panic
  else
    let v0 := c.speeds.getD (i - 1) 0
    let dt := rsDtAt c i
    let d := rsBrakeDist v0 a dts
    if d ≤ 0 then .ok (v0, 0, c)
    else if dt = 0 then .error .err
    else
      let n := (rsRound (-v0 / a / dt)).toNat
      let n := if n < 2 then 2 else n
      match rsConstantJerk n 0 v0 d 0 dt with
      | .error e => .error e
      | .ok (k, a0) =>
        match rsModifyJerk c i n k a0 with
        | .error e => .error e
        | .ok r => .ok (r.1, n, r.2)

/-- `extend_cycle` (cycle.rs:326-361). The number of seconds is a 32 bit integer in the core, any integer here. -/
def rsExtend (c : Cyc K) (absolute fraction : Option K) : Except RsErr (Cyc K) :=
  match c.times.getLast? with
  | none => .error .panic
  | some tEnd =>
    let extra := rsRound (absolute.getD 0 + fraction.getD 0 * tEnd)
    if extra = 0 then .ok c
    else .ok (c ++ (List.range' 1 extra.toNat).map fun k => ⟨tEnd + (k : K), 0, 0, 0⟩)

end Floor
end Fastsim
