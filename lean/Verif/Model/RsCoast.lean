import Verif.Model.RsIdm

/-!
# Model of eco-coasting in the Rust core
(`rust/fastsim-core/src/simdrive/cyc_mods.rs:316-1098`, below `mods`; `utils.rs`)

Written from the Rust source. All functions are those of step `i = self.i` inside the arrays, at least 1, and `cyc0_cache` is the
cache of `cyc0`, as after `init_arrays`. A brake acceleration of zero, which the core divides by, is outside the model, as are
steps of no duration. A difference of two `usize` below zero is a panic, as in a debug build (a release build wraps around).
-/

namespace Fastsim

/-- `CoastTrajectory` (simdrive_impl.rs:20-26). -/
structure RsTraj (K : Type*) where
  found : Bool
  dist : K
  start : Nat
  speeds : Option (List K)
  brake : Option K

/-- `self.impose_coast[idx] = idx < stop` for `idx` in `a..n` (mods:360-363, 1039-1041, 1058-1060, 1071-1073). -/
def rsImpose (l : List Bool) (a n stop : Nat) : List Bool :=
  l.mapIdx fun j y => if a ≤ j ∧ j < n then decide (j < stop) else y

/-- `self.impose_coast[idx] = false` and the like for `idx` in `a..n`. -/
def rsFill {α : Type*} (l : List α) (a n : Nat) (x : α) : List α :=
  l.mapIdx fun j y => if a ≤ j ∧ j < n then x else y

section Lawless
variable {K : Type*} [Zero K] [One K] [NatCast K] [Add K] [Sub K] [Mul K] [Div K] [Neg K]
  [LinearOrder K]

/-- `min()` of `ndarray-stats` with `unwrap` (utils.rs:112): none of an empty array panics. -/
def rsMinOf : List K → Except RsErr K
  | [] => .error .panic
  | x :: l => .ok (l.foldl (fun m y => if y < m then y else m) x)

/-- `reduce(f64::min).unwrap_or(0.0)` (mods:710-711). -/
def rsReduceMin : List K → K
  | [] => 0
  | x :: l => l.foldl min x

/-- `reduce(f64::max).unwrap_or(0.0)` (mods:712-713). -/
def rsReduceMax : List K → K
  | [] => 0
  | x :: l => l.foldl max x

/-- `calc_dvdd` (mods:320-338). -/
def rsDvdd (F : Fns K) (V : Veh K) (P : SimParams K) (v grade : K) : K :=
  if v ≤ 0 then 0
  else
    let sc : K × K := if grade = 0 then (0, 1) else (F.sinAtan grade, F.cosAtan grade)
    let rho := P.airDensity * V.dragCoef * V.frontalAreaM2;
    -1 * (P.aGrav / v * (sc.1 + V.wheelRrCoef * sc.2) + 1 / 2 * rho * (1 / V.vehKg) * v)

/-- `v * (1.0 + 0.5 * k * dt_s) / (1.0 - 0.5 * k * dt_s)` (mods:437, 442). -/
def rsCoastNext (v k dt : K) : K := v * (1 + 1 / 2 * k * dt) / (1 - 1 / 2 * k * dt)

/-- `match unique_grade { Some(g) => g, None => .. }` (mods:432-435, 446-452). -/
def rsGradeOr (unique : Option K) (g : Except RsErr K) : Except RsErr K :=
  match unique with
  | some u => .ok u
  | none => g

/-- The loop `for _ in 0..iters_per_step` (mods:440-454): the last `k` and `v_next`. -/
def rsCoastIter (F : Fns K) (V : Veh K) (P : SimParams K) (q : RsCache K) (unique : Option K) (d0 d v dt : K) :
    Nat → (vavg gr k vNext : K) → Except RsErr (K × K)
  | 0, _, _, k, vNext => .ok (k, vNext)
  | n + 1, vavg, gr, _, _ =>
    let k := rsDvdd F V P vavg gr
    let vNext := rsCoastNext v k dt
    let vavg := 1 / 2 * (v + vNext)
    match (if P.favorGradeAccuracy then rsGradeOr unique (rsAverageGradeCached F q (d + d0) (vavg * dt)) else .ok gr) with
    | .error e => .error e
    | .ok gr => rsCoastIter F V P q unique d0 d v dt n vavg gr k vNext

/-- One turn of the coast-down (mods:431-454): `(k, v_next)`. -/
def rsCoastStep (F : Fns K) (V : Veh K) (P : SimParams K) (q : RsCache K) (unique : Option K) (d0 d v dt : K) :
    Except RsErr (K × K) :=
  match rsGradeOr unique (q.interpGrade F (d + d0)) with
  | .error e => .error e
  | .ok gr =>
    let k := rsDvdd F V P v gr
    let vNext := rsCoastNext v k dt
    rsCoastIter F V P q unique d0 d v dt (if P.favorGradeAccuracy then 2 else 1) (1 / 2 * (v + vNext)) gr k vNext

/-- The coast-down (mods:430-480) with `m = max_iter - iter` turns left; `none` is the trajectory that is not found
(mods:455-463). A plan ends as soon as it would overshoot the stop (mods:474), not when it just reaches it. -/
def rsCoastLoop (F : Fns K) (V : Veh K) (P : SimParams K) (c0 : Cyc K) (q : RsCache K) (unique : Option K) (len : Nat)
    (d0 dMax dts0 : K) : (m : Nat) → (v d : K) → (idx : Nat) → (acc : List K) → Except RsErr (Option (CoastEnd K))
  | 0, v, d, _, acc => .ok (some { v := v, d := d, speeds := acc, within := false })
  | m + 1, v, d, idx, acc =>
    if P.coastBrakeStartSpeed < v ∧ 0 ≤ v ∧ d ≤ dMax ∧ idx < len then
      let dt := rsDtAt c0 idx
      match rsCoastStep F V P q unique d0 d v dt with
      | .error e => .error e
      | .ok r =>
        if 0 ≤ r.1 ∧ unique.isSome = true then .ok none
        else if r.2 ≤ P.coastBrakeStartSpeed then .ok (some { v := v, d := d, speeds := acc, within := true })
        else
          let vavg := 1 / 2 * (v + r.2)
          let dtb := -(1 / 2) * r.2 * r.2 / P.coastBrakeAccel
          let d' := d + vavg * dt
          if dts0 < d' + dtb then .ok (some { v := r.2, d := d', speeds := acc ++ [r.2], within := true })
          else rsCoastLoop F V P c0 q unique len d0 dMax dts0 m r.2 d' (idx + 1) (acc ++ [r.2])
    else .ok (some { v := v, d := d, speeds := acc, within := decide (idx < len) })

/-- `cyc.mps[idx] = new_speed` until the end of the arrays (mods:344-350). -/
def rsWriteSpeeds (len : Nat) : Cyc K → Nat → List K → Cyc K
  | c, _, [] => c
  | c, i, v :: l => if len ≤ i then c else rsWriteSpeeds len (c.modify i fun x => { x with v := v }) (i + 1) l

/-- The distances and grades of the lead cycle from `d0` on (mods:376-385). -/
def rsAhead (q : RsCache K) (c0 : Cyc K) (d0 : K) : List (K × K) :=
  (q.distances.zip c0.grades).filter fun p => decide (d0 ≤ p.1)

/-- The trajectory that is not found (mods:387-393, 457-463, 492-498). -/
def rsNotFound : RsTraj K := { found := false, dist := 0, start := 0, speeds := none, brake := none }

/-- Position, delay and distance of the stop of the lead vehicle (mods:765-788). -/
def rsDelayLoop (i : Nat) (d0 d0Lv : K) : (idx : Nat) → (dLv : K) → (best : Option K) → (delay : Option Int) →
    List (K × K) → Option Int
  | _, _, _, delay, [] => delay
  | idx, dLv, best, delay, p :: l =>
    let dLv := dLv + p.1
    let dtlv := rsAbs (dLv - d0)
    let hit := decide (p.2 < 1 / 100) && (match best with | none => true | some b => decide (dtlv ≤ b))
    let delay := if hit && (match best with
        | none => true
        | some b => decide (dtlv < b) || (decide (d0 < d0Lv) && decide (b = dtlv)))
      then some ((i : Int) - (idx : Int)) else delay
    let best := if hit then some dtlv else best
    if (match best with | none => false | some b => decide (b < dtlv)) = true then delay
    else rsDelayLoop i d0 d0Lv (idx + 1) dLv best delay l

/-- A negative delay is written step by step until it is used up (mods:793-800): `m` samples are left. -/
def rsDelayFill : (m idx : Nat) → Int → List Int → List Int
  | 0, _, _, l => l
  | m + 1, idx, cd, l => if cd + 1 = 0 then l.set idx cd else rsDelayFill m (idx + 1) (cd + 1) (l.set idx cd)

/-- `set_coast_delay` (mods:753-807). -/
def rsSetCoastDelay (P : SimParams K) (s : Sim K) : Sim K :=
  let cleared := rsFill s.coastDelay s.i s.cyc.length 0
  let d0 := rsStepStartDistance s.cyc s.i
  let d0Lv := (rsDistances s.cyc0).getD (s.i - 1) 0
  let delay :=
    if !P.idmAllow && decide (s.cyc.speeds.getD s.i 0 < 1 / 100) && decide (1 / 10 < rsAbs (d0Lv - d0)) then
      rsDelayLoop s.i d0 d0Lv 0 0 none none ((rsStepDistances s.cyc0).zip s.cyc0.speeds)
    else none
  match delay with
  | none => { s with coastDelay := cleared }
  | some cd =>
    if cd < 0 then { s with coastDelay := rsDelayFill (s.cyc0.length - s.i) s.i cd cleared }
    else { s with coastDelay := rsFill cleared s.i s.cyc0.length cd }

end Lawless

section Floor
variable {K : Type*} [Field K] [LinearOrder K] [FloorRing K]

/-- `(((x - x_min) / dx) * (usize::MAX as f64)) as usize` (utils.rs:116) on a 64-bit machine: the float is `2^64`, the cast
saturates. -/
def rsKey (lo dx x : K) : Int := min ⌊(x - lo) / dx * 2 ^ 64⌋ (2 ^ 64 - 1)

/-- The loop of `ndarrunique` (utils.rs:115-121). -/
def rsUniqueLoop (lo dx : K) : List K → List Int → List K → List K
  | [], _, acc => acc
  | x :: l, seen, acc =>
    if rsKey lo dx x ∈ seen then rsUniqueLoop lo dx l seen acc
    else rsUniqueLoop lo dx l (rsKey lo dx x :: seen) (acc ++ [x])

/-- `ndarrunique` (utils.rs:109-123): an empty array panics. -/
def rsUnique (l : List K) : Except RsErr (List K) :=
  match rsMinOf l with
  | .error e => .error e
  | .ok lo =>
    match rsMaxOf l with
    | .error e => .error e
    | .ok hi => .ok (rsUniqueLoop lo (if hi = lo then 1 else hi - lo) l [] [])

/-- `generate_coast_trajectory` (mods:371-499). -/
def rsGenerateCoast (F : Fns K) (V : Veh K) (P : SimParams K) (s : Sim K) : Except RsErr (RsTraj K) :=
  let v0 := (s.rows.getD (s.i - 1) Row.zero).ach.mpsAch
  let vb := P.coastBrakeStartSpeed
  let ab := P.coastBrakeAccel
  if ¬ ab ≤ 0 then .error .panic
  else
    let q := rsBuildCache F s.cyc0
    let d0 := rsStepStartDistance s.cyc s.i
    let ahead := rsAhead q s.cyc0 d0
    if ahead = [] then .ok rsNotFound
    else if v0 ≤ vb then
      .ok { found := true, dist := -(1 / 2) * v0 * v0 / ab, start := s.i, speeds := none, brake := none }
    else
      match rsUnique (ahead.map Prod.snd) with
      | .error e => .error e
      | .ok us =>
        match rsNextStop q.distances s.cyc0.speeds d0 with
        | .error e => .error e
        | .ok dts0 =>
          match rsCoastLoop F V P s.cyc0 q (if us.length = 1 then us.head? else none) s.rows.length d0
              (((ahead.getLast?.map Prod.fst).getD 0 - d0) - -(1 / 2) * vb * vb / ab) dts0 180 v0 0 s.i [] with
          | .error e => .error e
          | .ok none => .ok rsNotFound
          | .ok (some e) =>
            if e.within then
              let dtb := -(1 / 2) * e.v * e.v / ab
              let target := min (max (dts0 - e.d) (1 / 2 * dtb)) (2 * dtb)
              .ok { found := true, dist := e.d + target, start := s.i, speeds := some e.speeds, brake := some target }
            else .ok rsNotFound

/-- `apply_coast_trajectory` (mods:340-366). -/
def rsApplyCoast (P : SimParams K) (s : Sim K) (t : RsTraj K) : Except RsErr (Sim K) :=
  if t.found = false then .ok s
  else
    let n := (t.speeds.getD []).length
    match rsModifyBraking (rsWriteSpeeds s.rows.length s.cyc t.start (t.speeds.getD [])) P.coastBrakeAccel (t.start + n)
        t.brake with
    | .error e => .error e
    | .ok r => .ok { s with cyc := r.2.2, impose := rsImpose s.impose t.start s.cyc0.length (t.start + (n + r.2.1)) }

/-- The closed form of the distance (mods:543-559). -/
def rsClosedForm (F : Fns K) (V : Veh K) (P : SimParams K) (v0 g : K) : K :=
  let vb := P.coastBrakeStartSpeed
  let c1 := P.aGrav * (F.sinAtan g + V.wheelRrCoef * F.cosAtan g)
  let c2 := P.airDensity * (V.dragCoef * V.frontalAreaM2) / (2 * V.vehKg)
  let a1 := c1 + c2 * (v0 * v0)
  let b1 := c1 + c2 * (vb * vb)
  if c2 = 0 then (if 0 < c1 then 1 / (2 * c1) * (v0 * v0 - vb * vb) else -1)
  else if 0 < a1 ∧ 0 < b1 then 1 / (2 * c2) * (F.log a1 - F.log b1)
  else -1

/-- The end of `calc_distance_to_stop_coast_v2` (mods:564-569). -/
def rsDistOfTraj (F : Fns K) (V : Veh K) (P : SimParams K) (s : Sim K) : Except RsErr K :=
  match rsGenerateCoast F V P s with
  | .error e => .error e
  | .ok t => .ok (if t.found then t.dist else -1)

/-- `calc_distance_to_stop_coast_v2` (mods:510-570). -/
def rsDistToStopCoast (F : Fns K) (V : Veh K) (P : SimParams K) (s : Sim K) : Except RsErr K :=
  let v0 := s.cyc.speeds.getD (s.i - 1) 0
  let vb := P.coastBrakeStartSpeed
  let ab := P.coastBrakeAccel
  let ahead := rsAhead (rsBuildCache F s.cyc0) s.cyc0 (rsStepStartDistance s.cyc s.i)
  if v0 ≤ vb then .ok (-(1 / 2) * v0 * v0 / ab)
  else
    match rsUnique (ahead.map Prod.snd) with
    | .error e => .error e
    | .ok us =>
      match (if us.length = 1 then us.head? else none) with
      | none => rsDistOfTraj F V P s
      | some g =>
        if rsClosedForm F V P v0 g = -1 then rsDistOfTraj F V P s
        else .ok (rsClosedForm F V P v0 g + -(1 / 2) * vb * vb / ab)

/-- `should_impose_coast` (mods:579-599). -/
def rsShouldCoast (F : Fns K) (V : Veh K) (P : SimParams K) (s : Sim K) : Except RsErr Bool :=
  if 0 < P.coastStartSpeed then .ok (decide (P.coastStartSpeed ≤ s.cyc.speeds.getD s.i 0))
  else
    let v0 := (s.rows.getD (s.i - 1) Row.zero).ach.mpsAch
    if v0 < P.coastBrakeStartSpeed then .ok false
    else
      match rsDistToStopCoast F V P s with
      | .error e => .error e
      | .ok dtsc0 =>
        if dtsc0 < 0 then .ok false
        else
          match rsNextStop (rsBuildCache F s.cyc0).distances s.cyc0.speeds (rsStepStartDistance s.cyc s.i) with
          | .error e => .error e
          | .ok dts0 =>
            let dtb := -(1 / 2) * v0 * v0 / P.coastBrakeAccel
            .ok (decide (dts0 ≤ dtsc0) && decide (4 * dtb ≤ dts0))

/-- A candidate `step_ahead = n ≥ 2` of `calc_next_rendezvous_trajectory` (mods:689-726). The only failure of
`calc_constant_jerk_trajectory` with these arguments is a zero divisor: the float is infinite or undefined there and fails
the comparisons. -/
def rsRendezvousTry (v0 dtbi0 vb dt aMin aMax : K) (n : Nat) (best : Option (Rendezvous K)) : Option (Rendezvous K) :=
  if 0 < dtbi0 then
    match rsConstantJerk n 0 v0 dtbi0 vb dt with
    | .error _ => best
    | .ok (k, a0) =>
      if a0 < aMax ∧ aMin < a0 ∧ 0 ≤ k then
        let as := (List.range n).map fun j => rsJerkAccel j a0 k dt
        let spread := rsAbs (rsReduceMax as - rsReduceMin as)
        if (rsReduceMax as < aMax + 1 / 1000000 ∧ aMin - 1 / 1000000 < rsReduceMin as) ∧
            (match best with | none => true | some b => decide (spread < b.spread)) = true then
          some { idx := 0, n := n, fullBrake := 0, jerk := k, accel := a0, spread := spread }
        else best
      else best
  else best

/-- The candidate `step_ahead = 1` (mods:676-688). -/
def rsRendezvousFirst (v0 dtbi0 vb dt : K) : Option (Rendezvous K) :=
  let accel := (vb - v0) / dt
  let v1 := max 0 (v0 + accel * dt)
  if rsAbs (v1 - vb) < 1 / 1000000 ∧ rsAbs (dtbi0 - (v0 + v1) / 2 * dt) < 1 / 1000000 then
    some { idx := 0, n := 1, fullBrake := 0, jerk := 0, accel := accel, spread := 0 }
  else none

/-- The search (mods:666-729): `m` samples are left. -/
def rsRendezvousLoop (c0 : Cyc K) (i : Nat) (horizon v0 dtbi0 vb dt aMin aMax : K) :
    (m stepIdx : Nat) → (dtPlan : K) → Option (Rendezvous K) → Option (Rendezvous K)
  | 0, _, _, best => best
  | m + 1, stepIdx, dtPlan, best =>
    if dtPlan ≤ horizon then
      let dtPlan := dtPlan + rsDtAt c0 stepIdx
      let n := stepIdx - (i - 1)
      if n = 1 then
        match rsRendezvousFirst v0 dtbi0 vb dt with
        | some r => some r
        | none => rsRendezvousLoop c0 i horizon v0 dtbi0 vb dt aMin aMax m (stepIdx + 1) dtPlan best
      else rsRendezvousLoop c0 i horizon v0 dtbi0 vb dt aMin aMax m (stepIdx + 1) dtPlan
        (rsRendezvousTry v0 dtbi0 vb dt aMin aMax n best)
    else best

/-- `calc_next_rendezvous_trajectory` (mods:614-739); `none` is `not_found`. -/
def rsNextRendezvous (F : Fns K) (P : SimParams K) (s : Sim K) (aMin aMax : K) : Except RsErr (Option (Rendezvous K)) :=
  let v0 := s.cyc.speeds.getD (s.i - 1) 0
  let vb := P.coastBrakeStartSpeed
  if v0 < vb + 1 / 1000000 then .ok none
  else
    let lim : K × K := if aMax < aMin then (aMax, aMin) else (aMin, aMax)
    match rsNextStop (rsBuildCache F s.cyc0).distances s.cyc0.speeds (rsStepStartDistance s.cyc s.i) with
    | .error e => .error e
    | .ok dts0 =>
      if dts0 < 0 then .ok none
      else
        let dtbi0 := dts0 - -(1 / 2) * vb * vb / P.coastBrakeAccel
        if dtbi0 < 0 then .ok none
        else .ok (rsRendezvousLoop s.cyc0 s.i (max P.coastTimeHorizon 1) v0 dtbi0 vb (rsDtAt s.cyc s.i) lim.1 lim.2
          (s.cyc.length - s.i) s.i 0 none)

/-! ### Avoiding collisions (mods:809-957) -/

/-- `trace_accel >= accel` for all steps that are in the cycle (mods:874-902). -/
def rsAllSubCoast (c : Cyc K) (start n : Nat) (a0 k dt : K) : Bool :=
  (List.range n).all fun ni =>
    if ni + start < c.length then
      decide (rsJerkAccel ni a0 k dt ≤
        (c.speeds.getD (ni + start) 0 - c.speeds.getD (ni + start - 1) 0) / rsDtAt c (ni + start))
    else true

/-- A candidate at index `idx` with `fbs` steps of full braking (mods:853-918). A zero divisor of the trajectory (as in
`rsRendezvousTry`) leaves the best one as it is; the minimum of no accelerations (mods:904) cannot occur. -/
def rsCollisionTry (P : SimParams K) (c : Cyc K) (col : PassingInfo K) (fbs idx n : Nat)
    (best : Option (Rendezvous K)) : Option (Rendezvous K) :=
  let dt := col.stepDuration
  let vStart := c.speeds.getD (idx - 1) 0
  let dtFull := c.times.getD (idx - 1 + fbs) 0 - c.times.getD (idx - 1) 0
  let vJerk := max (vStart + dtFull * P.coastBrakeAccel) 0
  let dStart := rsStepStartDistance c idx + 1 / 2 * (vStart + vJerk) * dtFull
  if col.distance ≤ dStart then best
  else
    match rsConstantJerk n dStart vJerk col.distance col.speed dt with
    | .error _ => best
    | .ok (k, a0) =>
      let as := (List.range (min n (c.length - (idx + fbs)))).map fun j => rsJerkAccel j a0 k dt
      let spread := rsAbs (rsReduceMax as - rsReduceMin as)
      if rsAllSubCoast c (idx + fbs) n a0 k dt = true ∧
          (match best with | none => true | some b => decide (spread < b.spread)) = true then
        some { idx := idx, n := n, fullBrake := fbs, jerk := k, accel := a0, spread := spread }
      else best

/-- The inner loop (mods:837-919): `m` samples are left. `collision.idx - idx + 1 - full_brake_steps` is computed from left to
right in `usize`: an underflow panics, as in a build with overflow checks. A build without them wraps around instead. -/
def rsCollisionLoop (P : SimParams K) (c : Cyc K) (impose : List Bool) (col : PassingInfo K) (fbs i : Nat) :
    (m idx : Nat) → Option (Rendezvous K) → Except RsErr (Option (Rendezvous K))
  | 0, _, best => .ok best
  | m + 1, idx, best =>
    if impose.getD idx false = false then
      if idx = i then .ok best else rsCollisionLoop P c impose col fbs i m (idx + 1) best
    else if col.idx < idx then .error .panic
    else if col.idx - idx + 1 < fbs then .error .panic
    else
      let n := col.idx - idx + 1 - fbs
      if n < 2 then .ok best
      else if c.length ≤ idx - 1 + fbs then .ok best
      else rsCollisionLoop P c impose col fbs i m (idx + 1) (rsCollisionTry P c col fbs idx n best)

/-- The loop over the steps of full braking (mods:836-923). -/
def rsCollisionSearch (P : SimParams K) (s : Sim K) (col : PassingInfo K) :
    (m fbs : Nat) → Except RsErr (Option (Rendezvous K))
  | 0, _ => .ok none
  | m + 1, fbs =>
    match rsCollisionLoop P s.cyc s.impose col fbs s.i (s.rows.length - s.i) s.i none with
    | .error e => .error e
    | .ok (some b) => .ok (some b)
    | .ok none => rsCollisionSearch P s col m (fbs + 1)

/-- Full braking (mods:935-945). -/
def rsFullBrake (ab : K) (idx : Nat) : (m fbs : Nat) → Sim K → Sim K
  | 0, _, s => s
  | m + 1, fbs, s =>
    if s.cyc.length ≤ idx + fbs then s
    else
      let dt := s.cyc.times.getD (idx + fbs) 0 - s.cyc.times.getD (idx - 1) 0
      let v := max (s.cyc.speeds.getD (idx - 1) 0 + ab * dt) 0
      rsFullBrake ab idx m (fbs + 1)
        { s with
          cyc := s.cyc.modify (idx + fbs) fun x => { x with v := v }
          impose := s.impose.set (idx + fbs) true
          coastDelay := s.coastDelay.set (idx + fbs) 0 }

/-- `prevent_collisions` (mods:815-957); the recursion is bounded by `fuel`, as in the python model. -/
def rsPreventCollisions (P : SimParams K) (s : Sim K) : (fuel : Nat) → (tol : K) → Except RsErr (Bool × Sim K)
  | 0, _ => .error .err
  | fuel + 1, tol =>
    let col := rsDetectPassing s.cyc s.cyc0 s.i (some tol)
    if col.hasCollision = false then .ok (false, s)
    else if ¬ P.coastBrakeAccel < 0 then .error .panic
    else
      match rsCollisionSearch P s col 4 0 with
      | .error e => .error e
      | .ok (some b) =>
        let s := rsFullBrake P.coastBrakeAccel b.idx b.fullBrake 0 s
        match rsModifyJerk s.cyc (b.idx + b.fullBrake) b.n b.jerk b.accel with
        | .error e => .error e
        | .ok r => .ok (true,
            { s with
              cyc := r.2
              impose := rsFill s.impose (b.idx + b.n) s.cyc0.length false
              coastDelay := rsFill s.coastDelay (b.idx + b.n) s.cyc0.length 0 })
      | .ok none =>
        let tol' := if tol < 10 then 10 else tol + 5
        if 60 < tol' then .ok (false, s) else rsPreventCollisions P s fuel tol'

/-! ### `set_coast_speed` (mods:959-1098) -/

/-- `self.solve_step(i)?; self.newton_iters[i] = 0; self.cyc.mps[i] = self.mps_ach[i]` (mods:1016-1018, 1092-1094). -/
def rsCoastSolve (F : Fns K) (V : Veh K) (P : SimParams K) (s : Sim K) : Except RsErr (Sim K) :=
  match rsSolve F V P s with
  | .error e => .error e
  | .ok s => .ok { s with
      rows := s.rows.modify s.i fun r => { r with ach := { r.ach with newtonIters := 0 } }
      cyc := s.cyc.modify s.i fun x => { x with v := (s.rows.getD s.i Row.zero).ach.mpsAch } }

/-- `if !coast_allow_passing { prevent_collisions(i, None)? }` (mods:976-978, 1089-1091). -/
def rsAvoid (P : SimParams K) (s : Sim K) : Except RsErr (Sim K) :=
  if P.coastAllowPassing then .ok s
  else
    match rsPreventCollisions P s 12 1 with
    | .error e => .error e
    | .ok r => .ok r.2

/-- The decision to coast (mods:964-980). -/
def rsStartCoast (F : Fns K) (V : Veh K) (P : SimParams K) (s : Sim K) : Except RsErr (Sim K) :=
  if 1 / 1000000 < (s.rows.getD (s.i - 1) Row.zero).ach.mpsAch ∧ s.impose.getD s.i false = false then
    match rsShouldCoast F V P s with
    | .error e => .error e
    | .ok false => .ok s
    | .ok true =>
      match rsGenerateCoast F V P s with
      | .error e => .error e
      | .ok t =>
        if t.found then
          match (if t.dist < 0 then .ok { s with impose := rsFill s.impose s.i s.cyc0.length false }
            else rsApplyCoast P s t) with
          | .error e => .error e
          | .ok s => rsAvoid P s
        else .ok s
  else .ok s

/-- The change of plan (mods:1029-1087): whether the current speed was adjusted, and the object. -/
def rsReplan (F : Fns K) (P : SimParams K) (s : Sim K) (accelProposed : K) : Except RsErr (Bool × Sim K) :=
  let ab := P.coastBrakeAccel
  if s.cyc.speeds.getD s.i 0 < P.coastBrakeStartSpeed - 1 / 10 then
    match rsModifyBraking s.cyc ab s.i none with
    | .error e => .error e
    | .ok r => .ok (true, { s with cyc := r.2.2, impose := rsImpose s.impose s.i s.cyc.length (s.i + r.2.1) })
  else
    match rsNextRendezvous F P s ab (min accelProposed 0) with
    | .error e => .error e
    | .ok none => .ok (false, s)
    | .ok (some b) =>
      match rsModifyJerk s.cyc s.i b.n b.jerk b.accel with
      | .error e => .error e
      | .ok m =>
        let s' := { s with cyc := m.2, impose := rsImpose s.impose s.i s.cyc0.length (s.i + b.n) }
        if rsAbs (m.1 - P.coastBrakeStartSpeed) < 1 / 10 then
          match rsModifyBraking s'.cyc ab (s.i + b.n) none with
          | .error e => .error e
          | .ok r => .ok (true,
              { s' with cyc := r.2.2, impose := rsImpose s'.impose (s.i + b.n) s.cyc0.length (s.i + b.n + r.2.1) })
        else .ok (true, s')

/-- The index of the lead vehicle's speed to copy (mods:983-1000), inside the cycle. -/
def rsTargetIdx (i : Nat) (delay : Int) (len : Nat) : Nat :=
  let ti : Int := (i : Int) - delay
  min (if ti < 0 then 0 else ti.toNat) (len - 1)

/-- `set_coast_speed` (mods:962-1098). -/
def rsCoastHook (F : Fns K) (V : Veh K) (P : SimParams K) (s : Sim K) : Except RsErr (Sim K) :=
  match rsStartCoast F V P s with
  | .error e => .error e
  | .ok s =>
    if s.impose.getD s.i false = false then
      if P.idmAllow then .ok s
      else .ok { s with
        cyc := s.cyc.modify s.i fun x =>
          { x with v := s.cyc0.speeds.getD (rsTargetIdx s.i (s.coastDelay.getD s.i 0) s.cyc0.length) 0 } }
    else
      let v1 := s.cyc.speeds.getD s.i 0
      let s :=
        if P.coastBrakeStartSpeed < (s.rows.getD (s.i - 1) Row.zero).ach.mpsAch then
          { s with cyc := s.cyc.modify s.i fun x =>
              { x with v := if P.coastAllowPassing then P.coastMaxSpeed else min v1 P.coastMaxSpeed } }
        else s
      match rsCoastSolve F V P s with
      | .error e => .error e
      | .ok s =>
        let v := s.cyc.speeds.getD s.i 0
        let accelProposed := (v - s.cyc.speeds.getD (s.i - 1) 0) / rsDtAt s.cyc s.i
        if v < 1 / 1000000 then
          let s := rsSetCoastDelay P { s with impose := rsFill s.impose s.i s.cyc0.length false }
          .ok { s with cyc := s.cyc.modify s.i fun x => { x with v := 0 } }
        else if 1 / 1000000 < rsAbs (v - v1) then
          match rsReplan F P s accelProposed with
          | .error e => .error e
          | .ok (false, s) => .ok s
          | .ok (true, s) =>
            match rsAvoid P s with
            | .error e => .error e
            | .ok s => rsCoastSolve F V P s
        else .ok s

/-- Car following and coasting of the core. -/
def rsRealHooks (F : Fns K) (V : Veh K) (P : SimParams K) : RsHooks K :=
  { idm := rsIdmHook F P, coast := rsCoastHook F V P }

end Floor
end Fastsim
