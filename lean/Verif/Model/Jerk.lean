import Verif.Model.Cycle

/-!
# Model of the constant-jerk helpers and trajectory edits of `python/fastsim/cycle.py`
-/

namespace Fastsim

section Lawless
variable {K : Type*} [Zero K] [One K] [NatCast K] [Add K] [Sub K] [Mul K] [Div K] [Neg K]
  [LinearOrder K]

/-- Denominator of the jerk in `calc_constant_jerk_trajectory` (cycle.py:703-705). -/
def jerkDenom (n : Nat) (dt : K) : K :=
  1 / 2 * (n : K) * ((n : K) - 1) * dt - 1 / 3 * ((n : K) - 1) * ((n : K) - 2) * dt
    - 1 / 2 * ((n : K) - 1) * dt * dt

/-- `calc_constant_jerk_trajectory(n, D0, v0, Dr, vr, dt)` (cycle.py:685-713), returning
`(k, a0)`. The two assertions are the first error branch. A zero divisor (`n*dt`, the jerk
denominator, `dt`, `0.5*n*n*dt`) is an explicit error branch: Python floats raise
`ZeroDivisionError` there; numpy scalars would produce inf/nan instead. -/
def calcConstantJerk (n : Nat) (D0 v0 Dr vr dt : K) : Except PyErr (K × K) :=
  if ¬ (1 < n) then .error .assertionError
  else if ¬ (D0 < Dr) then .error .assertionError
  else if dt = 0 ∨ jerkDenom n dt = 0 then .error .zeroDivision
  else
    let dDr := Dr - D0
    let dvr := vr - v0
    let k := (dvr - 2 * dDr / ((n : K) * dt) + 2 * v0) / jerkDenom n dt
    let a0 := (dDr / dt - (n : K) * v0
      - (1 / 6 * (n : K) * ((n : K) - 1) * ((n : K) - 2) * dt
          + 1 / 4 * (n : K) * ((n : K) - 1) * dt * dt) * k)
      / (1 / 2 * (n : K) * (n : K) * dt)
    .ok (k, a0)

/-- `accel_for_constant_jerk` (cycle.py:716-728). -/
def accelForConstantJerk (n : Nat) (a0 k dt : K) : K := a0 + (n : K) * k * dt

/-- `speed_for_constant_jerk` (cycle.py:731-747). -/
def speedForConstantJerk (n : Nat) (v0 a0 k dt : K) : K :=
  v0 + (n : K) * a0 * dt + 1 / 2 * (n : K) * ((n : K) - 1) * k * dt

/-- `dist_for_constant_jerk` (cycle.py:750-770). -/
def distForConstantJerk (n : Nat) (d0 v0 a0 k dt : K) : K :=
  d0 + dt * ((n : K) * v0 + 1 / 2 * (n : K) * ((n : K) - 1) * a0 * dt
      + 1 / 6 * k * dt * ((n : K) - 2) * ((n : K) - 1) * (n : K))
    + 1 / 2 * dt * dt * ((n : K) * a0 + 1 / 2 * (n : K) * ((n : K) - 1) * k * dt)

/-- `self.mps[j] = v` -/
def setSpeed (c : Cyc K) (j : Nat) (v : K) : Cyc K := c.modify j fun s => { s with v := v }

/-- `self.mps[i-1]`, including Python's wrap-around for `i = 0`. -/
def prevSpeed (c : Cyc K) (i : Nat) : K :=
  if i = 0 then c.speeds.getLast?.getD 0 else c.speeds.getD (i - 1) 0

/-- Loop of `modify_by_const_jerk_trajectory` (cycle.py:326-331): `m` iterations are left, the
next one is `ni`. -/
def jerkLoop (idx : Nat) (v0 a0 k dt : K) : (m ni : Nat) → (v : K) → Cyc K → K × Cyc K
  | 0, _, v, c => (v, c)
  | m + 1, ni, v, c =>
    let j := idx + ni - 1
    if c.length ≤ j then (v, c)
    else
      let v' := speedForConstantJerk ni v0 a0 k dt
      jerkLoop idx v0 a0 k dt m (ni + 1) v' (setSpeed c j (max v' 0))

/-- `Cycle.modify_by_const_jerk_trajectory(idx, n, jerk, accel0)` (cycle.py:310-332), returning
the final speed and the modified cycle. -/
def modifyByConstJerk (c : Cyc K) (idx n : Nat) (k a0 : K) : K × Cyc K :=
  let v0 := prevSpeed c idx
  jerkLoop idx v0 a0 k (dtAt c idx) n 1 v0 c

end Lawless

section Floor
variable {K : Type*} [Field K] [LinearOrder K] [FloorRing K]

/-- Number of steps of the braking manoeuvre (cycle.py:359-364). -/
def brakeSteps (v0 a dt : K) : Nat :=
  let n := (pyRound ((-v0 / a) / dt)).toNat
  if n < 2 then 2 else n

/-- Distance to stop (cycle.py:354-355). -/
def brakeDist (v0 a : K) (dts : Option K) : K :=
  match dts with
  | none => -(1 / 2) * v0 * v0 / a
  | some d => if d ≤ 0 then -(1 / 2) * v0 * v0 / a else d

/-- `Cycle.modify_with_braking_trajectory(brake_accel, idx, dts_m)` (cycle.py:334-367), returning
(final speed, number of steps, modified cycle). `dt = 0` (duplicated time stamp, or `idx = 0`)
makes `tts_s/dt` infinite and `int()` of it raise; this is the `other` error branch. -/
def modifyWithBraking (c : Cyc K) (a : K) (idx : Nat) (dts : Option K) :
    Except PyErr (K × Nat × Cyc K) :=
  if ¬ (a < 0) then .error .assertionError
  else if c.length ≤ idx then
    match c.getLast? with
    | none => .error .indexError
    | some l => .ok (l.v, 0, c)
  else
    let v0 := prevSpeed c idx
    let dt := dtAt c idx
    let d := brakeDist v0 a dts
    if d ≤ 0 then .ok (v0, 0, c)
    else if dt = 0 then .error .other
    else
      let n := brakeSteps v0 a dt
      match calcConstantJerk n 0 v0 d 0 dt with
      | .error e => .error e
      | .ok (k, a0) =>
        let r := modifyByConstJerk c idx n k a0
        .ok (r.1, n, r.2)

end Floor
end Fastsim
