import Verif.Model.Step

/-!
# Model of one simulation step of the Rust core (`RustSimDrive::solve_step`)

The package ships the simulation twice: in python (`python/fastsim/simdrive.py`, modelled in `Verif.Model.Step`) and in
Rust (`rust/fastsim-core/src/simdrive/simdrive_impl.rs`, below `impl`). `SimDrive.to_rust` and `Cycle.to_rust` hand a
python object to the Rust core. The definitions here are written from the Rust source, one for each array, with their own
operation order, table lookups and failures; only the types of a vehicle (`Veh`), of what a step reads (`StepEnv`,
`Stale`) and of what it writes (`Row`) are those of the python model, since both sides have the same fields.

Simplifications: numbers are elements of an ordered type instead of `f64` (no NaN: `arrmax` of an empty slice, which is NaN
in Rust, is `0` here); `x.powi(2)` and `x.powi(3)` are products; log messages are left out.
-/

namespace Fastsim

/-- How a call into the Rust core can fail: by returning an `anyhow` error or by a panic (index out of range, subtraction
below zero on `usize`, `unwrap` of `None`). Both reach python as exceptions. -/
inductive RsErr where
  | err | panic
  deriving DecidableEq, Repr

section Lawless
variable {K : Type*} [Zero K] [One K] [NatCast K] [Add K] [Sub K] [Mul K] [Div K] [Neg K]
  [LinearOrder K]

/-! ### Utilities (`rust/fastsim-core/src/utils.rs`) -/

/-- `first_grtr` (utils.rs:56-62): the first index above `cut`, the last index if there is none. -/
def rsFirstGrtr (arr : List K) (cut : K) : Option Nat :=
  if arr.length = 0 then none
  else some ((arr.findIdx? fun x => decide (cut < x)).getD (arr.length - 1))

/-- `first_eq` (utils.rs:65-71). -/
def rsFirstEq (arr : List K) (cut : K) : Option Nat :=
  if arr.length = 0 then none
  else some ((arr.findIdx? fun x => decide (x = cut)).getD (arr.length - 1))

/-- `arrmax` (utils.rs:84-86): a fold with `f64::max`, which ignores the NaN it starts from. -/
def rsArrMax : List K → K
  | [] => 0
  | a :: l => l.foldl max a

/-- `arr[k]`: panics outside. -/
def rsIdx {α : Type*} (arr : List α) (k : Nat) : Except RsErr α :=
  match arr[k]? with
  | some x => .ok x
  | none => .error .panic

/-- `*arr.last().ok_or_else(..)?` -/
def rsLast (arr : List K) : Except RsErr K :=
  match arr.getLast? with
  | some x => .ok x
  | none => .error .err

/-- `first_grtr(arr, cut).ok_or_else(..)? - 1`; the subtraction of an index `0` panics in debug builds and wraps to an
index out of every range in release builds. -/
def rsBefore (arr : List K) (cut : K) : Except RsErr Nat :=
  match rsFirstGrtr arr cut with
  | none => .error .err
  | some 0 => .error .panic
  | some (k + 1) => .ok k

/-- `first_grtr(arr, cut).unwrap_or(0) - 1`. -/
def rsBefore0 (arr : List K) (cut : K) : Except RsErr Nat :=
  match rsFirstGrtr arr cut with
  | none => .error .panic
  | some 0 => .error .panic
  | some (k + 1) => .ok k

/-- `vals[first_grtr(arr, cut).ok_or_else(..)? - 1]` -/
def rsLookup (arr vals : List K) (cut : K) : Except RsErr K :=
  match rsBefore arr cut with
  | .error e => .error e
  | .ok k => rsIdx vals k

/-- `vals[first_grtr(arr, cut).unwrap_or(0) - 1]` -/
def rsLookup0 (arr vals : List K) (cut : K) : Except RsErr K :=
  match rsBefore0 arr cut with
  | .error e => .error e
  | .ok k => rsIdx vals k

/-- `vals[cmp::max(1, first_grtr(arr, cut).ok_or_else(..)? - 1)]` -/
def rsLookup1 (arr vals : List K) (cut : K) : Except RsErr K :=
  match rsBefore arr cut with
  | .error e => .error e
  | .ok k => rsIdx vals (max 1 k)

/-- `vals[cmp::max(1, first_grtr(arr, cut).unwrap_or(0) - 1)]` -/
def rsLookup10 (arr vals : List K) (cut : K) : Except RsErr K :=
  match rsBefore0 arr cut with
  | .error e => .error e
  | .ok k => rsIdx vals (max 1 k)

/-- The factor `0.9999` by which the Rust core stays below the end of a motor table. -/
def rsBelow : K := 9999 / 10000

/-! ### Vehicle methods (`rust/fastsim-core/src/vehicle.rs`) -/

/-- `mc_peak_eff` (vehicle.rs:629-631) -/
def rsMcPeakEff (V : Veh K) : K := rsArrMax V.mcFullEffArray

/-- `max_fc_eff_kw` (vehicle.rs:634-638) -/
def rsMaxFcEffKw (V : Veh K) : Except RsErr K :=
  rsIdx V.fcKwOutArray ((rsFirstEq V.fcEffArray (rsArrMax V.fcEffArray)).getD 0)

/-! ### `set_misc_calcs` (impl:624-645) -/

/-- `set_misc_calcs` without the accessory part (impl:636-643). -/
def rsSetMisc (V : Veh K) (E : StepEnv K) (p : Row K) : Misc K :=
  let reached : Bool := decide (V.minSoc + V.percHighAccBuf ≤ p.dec.soc)
  { reachedBuff := reached
    highAccFcOnTag := decide (p.dec.soc < V.minSoc) || (p.misc.highAccFcOnTag && !reached)
    maxTracMps := p.ach.mpsAch + V.maxTracMps2 * E.dt }

/-! ### `set_comp_lims` (impl:652-839) -/

/-- impl:654-658 -/
def rsCurMaxFsKwOut (V : Veh K) (E : StepEnv K) (p : Row K) : K :=
  min V.fsMaxKw (p.fc.fsKwOutAch + V.fsMaxKw / V.fsSecsToPeakPwr * E.dt)

/-- impl:660-661 -/
def rsFcTransLimKw (V : Veh K) (E : StepEnv K) (p : Row K) : K :=
  p.fc.fcKwOutAch + V.fcMaxKw / V.fcSecToPeakPwr * E.dt

/-- impl:663 -/
def rsCurMaxFcKwOut (V : Veh K) (E : StepEnv K) (p : Row K) : K := min V.fcMaxKw (rsFcTransLimKw V E p)

/-- impl:665-674 -/
def rsEssCapLimDischgKw (F : Fns K) (V : Veh K) (E : StepEnv K) (p : Row K) : K :=
  if V.essMaxKwh = 0 ∨ p.dec.soc < V.minSoc then 0
  else V.essMaxKwh * F.sqrt V.essRoundTripEff * 3600 * (p.dec.soc - V.minSoc) / E.dt

/-- impl:675 -/
def rsCurEssMaxKwOut (F : Fns K) (V : Veh K) (E : StepEnv K) (p : Row K) : K :=
  min V.essMaxKw (rsEssCapLimDischgKw F V E p)

/-- impl:677-686 -/
def rsEssCapLimChgKw (F : Fns K) (V : Veh K) (E : StepEnv K) (p : Row K) : K :=
  if V.essMaxKwh = 0 ∨ V.essMaxKw = 0 then 0
  else max ((V.maxSoc - p.dec.soc) * V.essMaxKwh / F.sqrt V.essRoundTripEff / (E.dt / 3600)) 0

/-- impl:688 -/
def rsCurMaxEssChgKw (F : Fns K) (V : Veh K) (E : StepEnv K) (p : Row K) : K :=
  min (rsEssCapLimChgKw F V E p) V.essMaxKw

/-- impl:691-696 -/
def rsCurMaxElecKw (F : Fns K) (V : Veh K) (E : StepEnv K) (p : Row K) : K :=
  if V.fcType = .h2fc then rsCurMaxFcKwOut V E p + E.roadKw + rsCurEssMaxKwOut F V E p - E.auxIn
  else E.roadKw + rsCurEssMaxKwOut F V E p - E.auxIn

/-- impl:699 -/
def rsCurMaxAvailElecKw (F : Fns K) (V : Veh K) (E : StepEnv K) (p : Row K) : K :=
  min (rsCurMaxElecKw F V E p) V.mcMaxElecInKw

/-- impl:701-728 -/
def rsMcElecInLimKw (F : Fns K) (V : Veh K) (E : StepEnv K) (p : Row K) : Except RsErr K :=
  if 0 < rsCurMaxElecKw F V E p then
    if rsCurMaxAvailElecKw F V E p = rsArrMax V.mcKwInArray then do
      return min (← rsLast V.mcKwOutArray) V.mcMaxKw
    else do
      return min (← rsLookup V.mcKwInArray V.mcKwOutArray
        (min (rsArrMax V.mcKwInArray * rsBelow) (rsCurMaxAvailElecKw F V E p))) V.mcMaxKw
  else .ok 0

/-- impl:731-732 -/
def rsMcTransiLimKw (V : Veh K) (E : StepEnv K) (p : Row K) : K :=
  pabs p.dec.mcMechKwOutAch + V.mcMaxKw / V.mcSecToPeakPwr * E.dt

/-- impl:734-740; `lim` is `mc_elec_in_lim_kw[i]` -/
def rsCurMaxMcKwOut (V : Veh K) (E : StepEnv K) (p : Row K) (lim : K) : K :=
  max (min (min lim (rsMcTransiLimKw V E p)) ((if V.stopStart then 0 else 1) * V.mcMaxKw)) (-V.mcMaxKw)

/-- impl:742-762; `m` is `cur_max_mc_kw_out[i]` -/
def rsCurMaxMcElecKwIn (V : Veh K) (m : K) : Except RsErr K :=
  if m = 0 then .ok 0
  else if m = V.mcMaxKw then do return m / (← rsLast V.mcFullEffArray)
  else do return m / (← rsLookup1 V.mcKwOutArray V.mcFullEffArray (min (V.mcMaxKw * rsBelow) m))

/-- impl:764-771 -/
def rsEssLimMcRegenPercKw (F : Fns K) (V : Veh K) (E : StepEnv K) (p : Row K) : K :=
  if V.mcMaxKw = 0 then 0 else min ((rsCurMaxEssChgKw F V E p + E.auxIn) / V.mcMaxKw) 1

/-- impl:772-798 (`last().unwrap()` at 779 panics where `rsLast` returns an error) -/
def rsCurMaxMechMcKwIn (F : Fns K) (V : Veh K) (E : StepEnv K) (p : Row K) : Except RsErr K :=
  let c := rsCurMaxEssChgKw F V E p
  if c = 0 then .ok 0
  else if V.mcMaxKw = c - E.roadKw then do return min V.mcMaxKw (c / (← rsLast V.mcFullEffArray))
  else do
    return min V.mcMaxKw
      (c / (← rsLookup10 V.mcKwOutArray V.mcFullEffArray (min (V.mcMaxKw * rsBelow) (c - E.roadKw))))

/-- impl:800-806 -/
def rsCurMaxTracKw (V : Veh K) (P : StepParams K) (m : Misc K) : K :=
  V.wheelCoefOfFric * V.driveAxleWeightFrac * V.vehKg * P.aGrav
    / (1 + V.vehCgM * V.wheelCoefOfFric / V.wheelBaseM) / 1000 * m.maxTracMps

/-- impl:808-837; `mc` is `cur_max_mc_kw_out[i]` -/
def rsCurMaxTransKwOut (F : Fns K) (V : Veh K) (P : StepParams K) (E : StepEnv K) (p : Row K) (m : Misc K) (mc : K) : K :=
  let x :=
    if V.fcType = .h2fc then
      if V.noElecSys || V.noElecAux || m.highAccFcOnTag then
        min ((mc - E.auxIn) * V.transEff) (rsCurMaxTracKw V P m / V.transEff)
      else min ((mc - min (rsCurMaxElecKw F V E p) 0) * V.transEff) (rsCurMaxTracKw V P m / V.transEff)
    else if V.noElecSys || V.noElecAux || m.highAccFcOnTag then
      min ((mc + rsCurMaxFcKwOut V E p - E.auxIn) * V.transEff) (rsCurMaxTracKw V P m / V.transEff)
    else min ((mc + rsCurMaxFcKwOut V E p - min (rsCurMaxElecKw F V E p) 0) * V.transEff)
      (rsCurMaxTracKw V P m / V.transEff)
  if E.coast then 0 else x

/-- `set_comp_lims` (impl:652-839). -/
def rsSetCompLims (F : Fns K) (V : Veh K) (P : StepParams K) (E : StepEnv K) (p : Row K) (m : Misc K) :
    Except RsErr (Lims K) := do
  let lim ← rsMcElecInLimKw F V E p
  let mc := rsCurMaxMcKwOut V E p lim
  let elecIn ← rsCurMaxMcElecKwIn V mc
  let mechIn ← rsCurMaxMechMcKwIn F V E p
  return {
    curMaxFsKwOut := rsCurMaxFsKwOut V E p
    fcTransLimKw := rsFcTransLimKw V E p
    curMaxFcKwOut := rsCurMaxFcKwOut V E p
    essCapLimDischgKw := rsEssCapLimDischgKw F V E p
    curEssMaxKwOut := rsCurEssMaxKwOut F V E p
    essCapLimChgKw := rsEssCapLimChgKw F V E p
    curMaxEssChgKw := rsCurMaxEssChgKw F V E p
    curMaxElecKw := rsCurMaxElecKw F V E p
    curMaxAvailElecKw := rsCurMaxAvailElecKw F V E p
    mcElecInLimKw := lim
    mcTransiLimKw := rsMcTransiLimKw V E p
    curMaxMcKwOut := mc
    curMaxMcElecKwIn := elecIn
    essLimMcRegenPercKw := rsEssLimMcRegenPercKw F V E p
    curMaxMechMcKwIn := mechIn
    curMaxTracKw := rsCurMaxTracKw V P m
    curMaxTransKwOut := rsCurMaxTransKwOut F V P E p m mc }

/-! ### `set_power_calcs` (impl:846-935) -/

/-- `set_power_calcs` (impl:846-935) for the speed `v` chosen at impl:847-851. -/
def rsPowerAt (F : Fns K) (V : Veh K) (P : StepParams K) (E : StepEnv K) (p : Row K) (L : Lims K) (v : K) : Pow K :=
  let v0 := p.ach.mpsAch
  let grade := E.gradeOf v
  let drag := 1 / 2 * P.airDensity * V.dragCoef * V.frontalAreaM2
    * ((v0 + v) / 2 * ((v0 + v) / 2) * ((v0 + v) / 2)) / 1000
  let accel := V.vehKg / (2 * E.dt) * (v * v - v0 * v0) / 1000
  let ascent := P.aGrav * F.sinAtan grade * V.vehKg * (v0 + v) / 2 / 1000
  let tracReq := drag + accel + ascent
  let rr := V.vehKg * P.aGrav * V.wheelRrCoef * F.cosAtan grade * (v0 + v) / 2 / 1000
  let rad := v / V.wheelRadiusM
  let inertia := 1 / 2 * V.wheelInertiaKgM2 * V.numWheels
    * (rad * rad - v0 / V.wheelRadiusM * (v0 / V.wheelRadiusM)) / E.dt / 1000
  let whlReq := tracReq + rr + inertia
  let perc := V.maxRegen
    / (1 + V.regenA * F.exp (-V.regenB * ((E.mps * mphPerMps + v0 * mphPerMps) / 2 + 1)))
  let regen := max (min (L.curMaxMechMcKwIn * V.transEff) (perc * -whlReq)) 0
  let fric := -(min (regen + whlReq) 0)
  let outReq := whlReq + fric
  let met := decide (outReq ≤ L.curMaxTransKwOut)
  let out := if met then outReq else L.curMaxTransKwOut
  let inp := if 0 < out then out / V.transEff else out * V.transEff
  { dragKw := drag
    accelKw := accel
    ascentKw := ascent
    cycTracKwReq := tracReq
    spareTracKw := L.curMaxTracKw - tracReq
    rrKw := rr
    cycWhlRadPerSec := rad
    cycTireInertiaKw := inertia
    cycWhlKwReq := whlReq
    regenContrlLimKwPerc := perc
    cycRegenBrakeKw := regen
    cycFricBrakeKw := fric
    cycTransKwOutReq := outReq
    cycMet := met
    transKwOutAch := out
    transKwInAch := inp
    minMcKw2helpFc :=
      if met then
        if V.fcType = .h2fc then max inp (-L.curMaxMechMcKwIn)
        else max (inp - L.curMaxFcKwOut) (-L.curMaxMechMcKwIn)
      else max L.curMaxMcKwOut (-L.curMaxMechMcKwIn) }

/-! ### `set_ach_speed` (impl:941-1085) -/

/-- The four vectors of the speed search (impl:1027-1030), oldest entry first. -/
structure RsGuesses (K : Type*) where
  guesses : List K
  errs : List K
  slopes : List K
  news : List K

/-- One more entry in each vector (impl:1024-1026 and 1043-1049). -/
def RsGuesses.push (t3 t2 t1 t0 : K) (g : RsGuesses K) (x : K) : RsGuesses K :=
  let err := t3 * (x * x * x) + t2 * (x * x) + t1 * x + t0
  let slope := 3 * t3 * (x * x) + 2 * t2 * x + t1
  { guesses := g.guesses ++ [x]
    errs := g.errs ++ [err]
    slopes := g.slopes ++ [slope]
    news := g.news ++ [err - x * slope] }

/-- The loop of impl:1034-1061: `n` iterations may still be made, `count` is `spd_ach_i`. -/
def rsNewtonLoop (t3 t2 t1 t0 xtol g : K) : (n count : Nat) → RsGuesses K → Nat × RsGuesses K
  | 0, count, s => (count, s)
  | n + 1, count, s =>
    let last := s.guesses.getLast?.getD 0
    let x := last * (1 - g)
      - g * s.news.getLast?.getD 0 / s.slopes.getD (s.guesses.length - 1) 0
    let s' := s.push t3 t2 t1 t0 x
    if pabs ((x - last) / last) < xtol then (count + 1, s')
    else rsNewtonLoop t3 t2 t1 t0 xtol g n (count + 1) s'

/-- `speed_guesses[ys.position(|x| x == ys.min())]` for `ys` the absolute errors (impl:1065-1074). -/
def rsBest (s : RsGuesses K) : K :=
  let ys := s.errs.map pabs
  let least := match ys with
    | [] => 0
    | a :: l => l.foldl min a
  s.guesses.getD ((ys.findIdx? fun y => decide (y = least)).getD 0) 0

/-- Coefficients and speed search of one pass of the grade loop (impl:958-1074): iterations made and speed. -/
def rsSpeedFor (F : Fns K) (V : Veh K) (P : StepParams K) (dt v0 maxOut grade : K) : Nat × K :=
  let drag3 := 1 / 16 * P.airDensity * V.dragCoef * V.frontalAreaM2
  let accel2 := 1 / 2 * V.vehKg / dt
  let drag2 := 3 / 16 * P.airDensity * V.dragCoef * V.frontalAreaM2 * v0
  let wheel2 := 1 / 2 * V.wheelInertiaKgM2 * V.numWheels / (dt * (V.wheelRadiusM * V.wheelRadiusM))
  let drag1 := 3 / 16 * P.airDensity * V.dragCoef * V.frontalAreaM2 * (v0 * v0)
  let roll1 := 1 / 2 * V.vehKg * P.aGrav * V.wheelRrCoef * F.cosAtan grade
  let ascent1 := 1 / 2 * P.aGrav * F.sinAtan grade * V.vehKg
  let accel0 := -(1 / 2) * V.vehKg * (v0 * v0) / dt
  let drag0 := 1 / 16 * P.airDensity * V.dragCoef * V.frontalAreaM2 * (v0 * v0 * v0)
  let roll0 := 1 / 2 * V.vehKg * P.aGrav * V.wheelRrCoef * F.cosAtan grade * v0
  let ascent0 := 1 / 2 * P.aGrav * F.sinAtan grade * V.vehKg * v0
  let wheel0 := -(1 / 2) * V.wheelInertiaKgM2 * V.numWheels * (v0 * v0)
    / (dt * (V.wheelRadiusM * V.wheelRadiusM))
  let t3 := drag3 / 1000
  let t2 := (accel2 + drag2 + wheel2) / 1000
  let t1 := (drag1 + roll1 + ascent1) / 1000
  let t0 := (accel0 + drag0 + roll0 + ascent0 + wheel0) / 1000 - maxOut
  let first := RsGuesses.push t3 t2 t1 t0 ⟨[], [], [], []⟩ (max 1 v0)
  let r := rsNewtonLoop t3 t2 t1 t0 P.newtonXtol P.newtonGain (P.newtonMaxIter - 1) 1 first
  (r.1, max (rsBest r.2) 0)

/-- The grade loop of impl:948-1077, with its tolerance of `1e-4`: at most `n` more passes. -/
def rsGradeLoop (F : Fns K) (V : Veh K) (P : StepParams K) (E : StepEnv K) (v0 maxOut : K) :
    (n : Nat) → (grade : K) → Nat × K → Nat × K
  | 0, _, r => r
  | n + 1, grade, _ =>
    let r := rsSpeedFor F V P E.dt v0 maxOut grade
    let grade' := E.gradeOf r.2
    if 1 / 10000 < pabs (grade - grade') then rsGradeLoop F V P E v0 maxOut n grade' r else r

/-- `set_ach_speed` (impl:941-1085). -/
def rsSetAchSpeed (F : Fns K) (V : Veh K) (P : StepParams K) (E : StepEnv K) (p : Row K) (L : Lims K) (pw : Pow K)
    (stale : Stale K) : Ach K × Pow K :=
  let r : Nat × K × Pow K :=
    if pw.cycMet then (stale.newtonIters, E.mps, pw)
    else
      let n := rsGradeLoop F V P E p.ach.mpsAch L.curMaxTransKwOut 3 E.gradeEst (stale.newtonIters, stale.mpsAch)
      (n.1, n.2, rsPowerAt F V P E p L (if 0 < n.1 then n.2 else E.mps))
  ({ mpsAch := r.2.1
     mphAch := r.2.1 * mphPerMps
     distM := r.2.1 * E.dt
     distMi := r.2.1 * E.dt * 1 / mPerMi
     newtonIters := r.1 }, r.2.2)

/-! ### `set_hybrid_cont_calcs` (impl:1091-1320) -/

/-- impl:1092-1111 -/
def rsRegenBuffSoc (V : Veh K) (E : StepEnv K) : K :=
  if V.noElecSys then 0
  else if V.chargingOn then max (V.maxSoc - V.maxRegenKwh / V.essMaxKwh) ((V.maxSoc + V.minSoc) / 2)
  else max ((V.essMaxKwh * V.maxSoc
      - 1 / 2 * V.vehKg * (E.mps * E.mps) * (1 / 1000) * (1 / 3600) * rsMcPeakEff V * V.maxRegen) / V.essMaxKwh) V.minSoc

/-- impl:1113-1120, in the last branch only -/
def rsEssRegenBuffDischgKw (V : Veh K) (E : StepEnv K) (soc0 : K) (L : Lims K) : K :=
  if V.noElecSys then 0
  else if V.chargingOn then 0
  else min L.curEssMaxKwOut (max 0 ((soc0 - rsRegenBuffSoc V E) * V.essMaxKwh * 3600 / E.dt))

/-- impl:1122-1129, in the last branch only -/
def rsMaxEssRegenBuffChgKw (V : Veh K) (E : StepEnv K) (soc0 : K) (L : Lims K) : K :=
  if V.noElecSys then 0
  else if V.chargingOn then 0
  else min (max 0 ((rsRegenBuffSoc V E - soc0) * V.essMaxKwh * 3600 / E.dt)) L.curMaxEssChgKw

/-- impl:1131-1148 -/
def rsAccelBuffSoc (V : Veh K) (E : StepEnv K) : K :=
  if V.noElecSys then 0
  else
    let b := V.maxAccelBufferMph / mphPerMps
    min (max ((b * b - E.mps * E.mps) / (b * b)
        * min (V.maxAccelBufferPercOfUseableSoc * (V.maxSoc - V.minSoc)) (V.maxRegenKwh / V.essMaxKwh)
        + V.minSoc) V.minSoc) V.maxSoc

/-- impl:1150-1154 -/
def rsEssAccelBuffChgKw (V : Veh K) (E : StepEnv K) (soc0 : K) : K :=
  if V.noElecSys then 0 else max 0 ((rsAccelBuffSoc V E - soc0) * V.essMaxKwh * 3600 / E.dt)

/-- impl:1155-1162 -/
def rsMaxEssAccellBuffDischgKw (V : Veh K) (E : StepEnv K) (soc0 : K) (L : Lims K) : K :=
  if V.noElecSys then 0
  else min (max 0 ((soc0 - rsAccelBuffSoc V E) * V.essMaxKwh * 3600 / E.dt)) L.curEssMaxKwOut

/-- impl:1164-1193 -/
def rsEssAccelRegenDischgKw (V : Veh K) (E : StepEnv K) (soc0 : K) (L : Lims K) : K :=
  if rsRegenBuffSoc V E < rsAccelBuffSoc V E then
    max (min ((soc0 - (rsRegenBuffSoc V E + rsAccelBuffSoc V E) / 2) * V.essMaxKwh * 3600 / E.dt) L.curEssMaxKwOut)
      (-L.curMaxEssChgKw)
  else if rsRegenBuffSoc V E < soc0 then
    max (min (rsEssRegenBuffDischgKw V E soc0 L) L.curEssMaxKwOut) (-L.curMaxEssChgKw)
  else if soc0 < rsAccelBuffSoc V E then
    max (min (-1 * rsEssAccelBuffChgKw V E soc0) L.curEssMaxKwOut) (-L.curMaxEssChgKw)
  else max (min 0 L.curEssMaxKwOut) (-L.curMaxEssChgKw)

/-- impl:1194-1231; `best` is `max_fc_eff_kw()`, `gap` is `fc_kw_gap_fr_eff[i]` -/
def rsMcElecInKwForMaxFcEff (V : Veh K) (pw : Pow K) (best gap : K) : Except RsErr K :=
  if V.noElecSys then .ok 0
  else if pw.transKwOutAch < best then
    if gap = V.mcMaxKw then do return -gap / (← rsLast V.mcFullEffArray)
    else do return -gap / (← rsLookup1 V.mcKwOutArray V.mcFullEffArray (min (V.mcMaxKw * rsBelow) gap))
  else if gap = V.mcMaxKw then rsLast V.mcKwInArray
  else rsLookup0 V.mcKwOutArray V.mcKwInArray (min (V.mcMaxKw * rsBelow) gap)

/-- impl:1232-1258 -/
def rsElecKwReq4ae (V : Veh K) (E : StepEnv K) (pw : Pow K) : Except RsErr K :=
  if V.noElecSys then .ok 0
  else if 0 < pw.transKwInAch then
    if pw.transKwInAch = V.mcMaxKw then do return pw.transKwInAch / (← rsLast V.mcFullEffArray) + E.auxIn
    else do
      return pw.transKwInAch
        / (← rsLookup1 V.mcKwOutArray V.mcFullEffArray (min (V.mcMaxKw * rsBelow) pw.transKwInAch)) + E.auxIn
  else .ok 0

/-- impl:1263-1273; `req` is `elec_kw_req_4ae[i]` -/
def rsCanPwrAllElec (V : Veh K) (E : StepEnv K) (soc0 : K) (L : Lims K) (pw : Pow K) (req : K) : Bool :=
  if V.fcMaxKw = 0 then
    decide (rsAccelBuffSoc V E < soc0) && decide (pw.transKwInAch - 1 / 1000000 ≤ L.curMaxMcKwOut)
      && (decide (req < L.curMaxElecKw) || decide (V.fcMaxKw = 0))
  else
    decide (rsAccelBuffSoc V E < soc0) && decide (pw.transKwInAch - 1 / 1000000 ≤ L.curMaxMcKwOut)
      && (decide (req < L.curMaxElecKw) || decide (V.fcMaxKw = 0))
      && (decide (E.mps * mphPerMps - 1 / 1000000 ≤ V.mphFcOn) || V.chargingOn)
      && decide (req ≤ V.kwDemandFcOn)

/-- impl:1274-1288; `can` is `can_pwr_all_elec[i]` -/
def rsDesiredEssKwOutForAe (V : Veh K) (E : StepEnv K) (soc0 : K) (L : Lims K) (pw : Pow K) (can : Bool) : K :=
  if can then
    if pw.transKwInAch < E.auxIn then E.auxIn + pw.transKwInAch
    else if rsRegenBuffSoc V E < rsAccelBuffSoc V E then rsEssAccelRegenDischgKw V E soc0 L
    else if rsRegenBuffSoc V E < soc0 then rsEssRegenBuffDischgKw V E soc0 L
    else if soc0 < rsAccelBuffSoc V E then -rsEssAccelBuffChgKw V E soc0
    else pw.transKwInAch + E.auxIn - E.roadKw
  else 0

/-- impl:1290-1310; `des` is `desired_ess_kw_out_for_ae[i]` -/
def rsEssAeKwOut (V : Veh K) (E : StepEnv K) (soc0 : K) (L : Lims K) (pw : Pow K) (can : Bool) (des : K) : K :=
  if can then
    max (-L.curMaxEssChgKw) (max (-rsMaxEssRegenBuffChgKw V E soc0 L)
      (max (min 0 (E.roadKw - pw.transKwInAch + E.auxIn)) (min L.curEssMaxKwOut des)))
  else 0

/-- `set_hybrid_cont_calcs` (impl:1091-1320). -/
def rsSetHyb (V : Veh K) (E : StepEnv K) (p : Row K) (L : Lims K) (pw : Pow K) : Except RsErr (Hyb K) := do
  let soc0 := p.dec.soc
  let best ← rsMaxFcEffKw V
  let gap := pabs (pw.transKwOutAch - best)
  let forEff ← rsMcElecInKwForMaxFcEff V pw best gap
  let req ← rsElecKwReq4ae V E pw
  let can := rsCanPwrAllElec V E soc0 L pw req
  let des := rsDesiredEssKwOutForAe V E soc0 L pw can
  let ae := rsEssAeKwOut V E soc0 L pw can des
  return {
    regenBuffSoc := rsRegenBuffSoc V E
    essRegenBuffDischgKw := rsEssRegenBuffDischgKw V E soc0 L
    maxEssRegenBuffChgKw := rsMaxEssRegenBuffChgKw V E soc0 L
    accelBuffSoc := rsAccelBuffSoc V E
    essAccelBuffChgKw := rsEssAccelBuffChgKw V E soc0
    maxEssAccellBuffDischgKw := rsMaxEssAccellBuffDischgKw V E soc0 L
    essAccelRegenDischgKw := rsEssAccelRegenDischgKw V E soc0 L
    fcKwGapFrEff := gap
    mcElecInKwForMaxFcEff := forEff
    elecKwReq4ae := req
    prevFcTimeOn := p.dec.fcTimeOn
    canPwrAllElec := can
    desiredEssKwOutForAe := des
    essAeKwOut := ae
    erAeKwOut := min (max 0 (pw.transKwInAch + E.auxIn - ae)) E.roadKw }

/-! ### `set_fc_forced_state_rust` (impl:1326-1365) -/

/-- `set_fc_forced_state_rust` (impl:1326-1365). -/
def rsSetForced (V : Veh K) (E : StepEnv K) (pw : Pow K) (h : Hyb K) : Except RsErr (Forced K) := do
  let on : Bool := decide (0 < h.prevFcTimeOn) && decide (h.prevFcTimeOn < V.minFcTimeOn - E.dt)
  let best ← rsMaxFcEffKw V
  let r : Nat × K :=
    if !on || !h.canPwrAllElec then (1, 0)
    else if pw.transKwInAch < 0 then (2, pw.transKwInAch)
    else if best = pw.transKwInAch then (3, 0)
    else if pw.transKwInAch < V.idleFcKw ∧ 0 ≤ pw.accelKw then (4, pw.transKwInAch - V.idleFcKw)
    else if pw.transKwInAch < best then (5, 0)
    else (6, pw.transKwInAch - best)
  return { fcForcedOn := on, fcForcedState := r.1, mcMechKw4forcedFc := r.2 }

/-! ### `set_hybrid_cont_decisions` (impl:1371-1682) -/

/-- impl:1372-1379 -/
def rsEssDesiredKw4fcEff (V : Veh K) (E : StepEnv K) (h : Hyb K) : K :=
  if 0 < -h.mcElecInKwForMaxFcEff - E.roadKw then
    (-h.mcElecInKwForMaxFcEff - E.roadKw) * V.essDischgToFcMaxEffPerc
  else (-h.mcElecInKwForMaxFcEff - E.roadKw) * V.essChgToFcMaxEffPerc

/-- impl:1381-1472; `des` is `ess_desired_kw_4fc_eff[i]` -/
def rsEssKwIfFcReq (V : Veh K) (E : StepEnv K) (L : Lims K) (h : Hyb K) (des : K) : K :=
  if h.regenBuffSoc < h.accelBuffSoc then
    min L.curEssMaxKwOut (min (V.mcMaxElecInKw + E.auxIn) (min (L.curMaxMcElecKwIn + E.auxIn)
      (max (-L.curMaxEssChgKw) h.essAccelRegenDischgKw)))
  else if 0 < h.essRegenBuffDischgKw then
    min L.curEssMaxKwOut (min (V.mcMaxElecInKw + E.auxIn) (min (L.curMaxMcElecKwIn + E.auxIn)
      (max (-L.curMaxEssChgKw) (min h.essAccelRegenDischgKw
        (min (L.mcElecInLimKw + E.auxIn) (max h.essRegenBuffDischgKw des))))))
  else if 0 < h.essAccelBuffChgKw then
    min L.curEssMaxKwOut (min (V.mcMaxElecInKw + E.auxIn) (min (L.curMaxMcElecKwIn + E.auxIn)
      (max (-L.curMaxEssChgKw) (max (-h.maxEssRegenBuffChgKw) (min (-h.essAccelBuffChgKw) des)))))
  else if 0 < des then
    min L.curEssMaxKwOut (min (V.mcMaxElecInKw + E.auxIn) (min (L.curMaxMcElecKwIn + E.auxIn)
      (max (-L.curMaxEssChgKw) (min des h.maxEssAccellBuffDischgKw))))
  else
    min L.curEssMaxKwOut (min (V.mcMaxElecInKw + E.auxIn) (min (L.curMaxMcElecKwIn + E.auxIn)
      (max (-L.curMaxEssChgKw) (max des (-h.maxEssRegenBuffChgKw)))))

/-- impl:1474-1483; `ess` is `ess_kw_if_fc_req[i]` -/
def rsErKwIfFcReq (E : StepEnv K) (L : Lims K) (ess : K) : K :=
  max 0 (min E.roadKw (min L.curMaxMechMcKwIn (ess - L.mcElecInLimKw + E.auxIn)))

/-- impl:1488-1535; `x` is `mc_elec_kw_in_if_fc_req[i]` -/
def rsMcKwIfFcReq (V : Veh K) (x : K) : Except RsErr K :=
  if V.noElecSys || decide (x = 0) then .ok 0
  else if 0 < x then
    if x = rsArrMax V.mcKwInArray then do return x * (← rsLast V.mcFullEffArray)
    else do return x * (← rsLookup1 V.mcKwInArray V.mcFullEffArray (min (rsArrMax V.mcKwInArray * rsBelow) x))
  else if -x = rsArrMax V.mcKwInArray then do return x / (← rsLast V.mcFullEffArray)
  else do return x / (← rsLookup1 V.mcKwInArray V.mcFullEffArray (min (rsArrMax V.mcKwInArray * rsBelow) (-x)))

/-- impl:1537-1565; `req` is `mc_kw_if_fc_req[i]` -/
def rsMcMechKwOutAch (V : Veh K) (L : Lims K) (pw : Pow K) (h : Hyb K) (f : Forced K) (req : K) : K :=
  if V.mcMaxKw = 0 then 0
  else if f.fcForcedOn ∧ h.canPwrAllElec ∧ (V.ptType = .hev ∨ V.ptType = .phev) ∧ V.fcType ≠ .h2fc then
    f.mcMechKw4forcedFc
  else if pw.transKwInAch ≤ 0 then
    if V.fcType ≠ .h2fc ∧ 0 < V.fcMaxKw then
      if h.canPwrAllElec then -(min L.curMaxMechMcKwIn (-pw.transKwInAch))
      else min (-(min L.curMaxMechMcKwIn (-pw.transKwInAch))) (max (-L.curMaxFcKwOut) req)
    else min (-(min L.curMaxMechMcKwIn (-pw.transKwInAch))) (-pw.transKwInAch)
  else if h.canPwrAllElec then pw.transKwInAch
  else max pw.minMcKw2helpFc req

/-- impl:1567-1602 (`last().unwrap()` at 1572 and 1589 panics where `rsLast` returns an error) -/
def rsMcElecKwInAch (V : Veh K) (m : K) : Except RsErr K :=
  if m = 0 then .ok 0
  else if m < 0 then
    if -m = rsArrMax V.mcKwInArray then do return m * (← rsLast V.mcFullEffArray)
    else do return m * (← rsLookup1 V.mcKwInArray V.mcFullEffArray (min (rsArrMax V.mcKwInArray * rsBelow) (-m)))
  else if V.mcMaxKw = m then do return m / (← rsLast V.mcFullEffArray)
  else do return m / (← rsLookup1 V.mcKwOutArray V.mcFullEffArray (min (V.mcMaxKw * rsBelow) m))

/-- impl:1604-1624; `elec` is `mc_elec_kw_in_ach[i]`, `er` is `er_kw_if_fc_req[i]` -/
def rsRoadwayChgKwOutAch (V : Veh K) (E : StepEnv K) (h : Hyb K) (elec er : K) : K :=
  if E.roadKw = 0 then 0
  else if V.fcType = .h2fc then
    max 0 (max elec (max h.maxEssRegenBuffChgKw (max h.essRegenBuffDischgKw E.roadKw)))
  else if h.canPwrAllElec then h.erAeKwOut
  else er

/-- impl:1630-1655; `road` is `roadway_chg_kw_out_ach[i]`, `help` is `min_ess_kw_2help_fc[i]` -/
def rsEssKwOutAch (V : Veh K) (E : StepEnv K) (M : Misc K) (L : Lims K) (pw : Pow K) (h : Hyb K)
    (elec road help des : K) : K :=
  if V.essMaxKw = 0 ∨ V.essMaxKwh = 0 then 0
  else if V.fcType = .h2fc then
    if 0 ≤ pw.transKwOutAch then
      min L.curEssMaxKwOut (min (elec + E.auxIn - road) (max help (max des h.essAccelRegenDischgKw)))
    else elec + E.auxIn - road
  else if M.highAccFcOnTag || V.noElecAux then elec - road
  else elec + E.auxIn - road

/-- impl:1657-1667 -/
def rsEssCurKwh (F : Fns K) (V : Veh K) (dt prev ess : K) : K :=
  if V.noElecSys then 0
  else if ess < 0 then prev - ess * dt / 3600 * F.sqrt V.essRoundTripEff
  else prev - ess * dt / 3600 * (1 / F.sqrt V.essRoundTripEff)

/-- `set_hybrid_cont_decisions` (impl:1371-1682). -/
def rsSetDec (F : Fns K) (V : Veh K) (E : StepEnv K) (p : Row K) (M : Misc K) (L : Lims K) (pw : Pow K) (h : Hyb K)
    (f : Forced K) (stale : Stale K) : Except RsErr (Dec K) := do
  let des := rsEssDesiredKw4fcEff V E h
  let ess0 := rsEssKwIfFcReq V E L h des
  let er := rsErKwIfFcReq E L ess0
  let elec0 := ess0 + er - E.auxIn
  let req ← rsMcKwIfFcReq V elec0
  let mech := rsMcMechKwOutAch V L pw h f req
  let elec ← rsMcElecKwInAch V mech
  let road := rsRoadwayChgKwOutAch V E h elec er
  let help := elec + E.auxIn - L.curMaxFcKwOut - road
  let ess := rsEssKwOutAch V E M L pw h elec road help des
  let kwh := rsEssCurKwh F V E.dt p.dec.essCurKwh ess
  return {
    essDesiredKw4fcEff := des
    essKwIfFcReq := ess0
    erKwIfFcReq := er
    mcElecKwInIfFcReq := elec0
    mcKwIfFcReq := req
    mcMechKwOutAch := mech
    mcElecKwInAch := elec
    roadwayChgKwOutAch := road
    minEssKw2helpFc := help
    essKwOutAch := ess
    essCurKwh := kwh
    soc := if V.essMaxKwh = 0 then 0 else kwh / V.essMaxKwh
    fcTimeOn :=
      if h.canPwrAllElec && !f.fcForcedOn && decide (stale.fcKwOutAch = 0) then 0 else p.dec.fcTimeOn + E.dt }

/-! ### `set_fc_power` (impl:1688-1747) -/

/-- impl:1689-1714 -/
def rsFcKwOutAch (V : Veh K) (E : StepEnv K) (M : Misc K) (L : Lims K) (pw : Pow K) (d : Dec K) : K :=
  if V.fcMaxKw = 0 then 0
  else if V.fcType = .h2fc then
    min L.curMaxFcKwOut (max 0 (d.mcElecKwInAch + E.auxIn - d.essKwOutAch - d.roadwayChgKwOutAch))
  else if V.noElecSys || V.noElecAux || M.highAccFcOnTag then
    min L.curMaxFcKwOut (max 0 (pw.transKwInAch - d.mcMechKwOutAch + E.auxIn))
  else min L.curMaxFcKwOut (max 0 (pw.transKwInAch - d.mcMechKwOutAch))

/-- impl:1722-1741 -/
def rsFcKwInAch (V : Veh K) (out : K) : Except RsErr K :=
  if out = 0 then .ok 0
  else do
    let eff ← rsLookup V.fcKwOutArray V.fcEffArray (min out V.fcMaxKw)
    return if eff ≠ 0 then out / eff else 0

/-- `set_fc_power` (impl:1688-1747). -/
def rsSetFcPower (V : Veh K) (E : StepEnv K) (M : Misc K) (L : Lims K) (pw : Pow K) (d : Dec K) : Except RsErr (FcPow K) := do
  let out := rsFcKwOutAch V E M L pw d
  let inp ← rsFcKwInAch V out
  return {
    fcKwOutAch := out
    fcKwOutAchPct := if V.fcMaxKw = 0 then 0 else out / V.fcMaxKw
    fcKwInAch := inp
    fsKwOutAch := inp
    fsKwhOutAch := inp * E.dt / 3600 }

/-! ### `solve_step` (impl:608-618) -/

/-- `solve_step` (impl:608-618): one solve of one step. The speed used by the first power calculation is that of impl:847-851. -/
def rsSolveStep (F : Fns K) (V : Veh K) (P : StepParams K) (E : StepEnv K) (p : Row K) (stale : Stale K) :
    Except RsErr (Row K) := do
  let M := rsSetMisc V E p
  let L ← rsSetCompLims F V P E p M
  let pw0 := rsPowerAt F V P E p L (if 0 < stale.newtonIters then stale.mpsAch else E.mps)
  let a := rsSetAchSpeed F V P E p L pw0 stale
  let pw := a.2
  let h ← rsSetHyb V E p L pw
  let f ← rsSetForced V E pw h
  let d ← rsSetDec F V E p M L pw h f stale
  let fc ← rsSetFcPower V E M L pw d
  return { auxInKw := E.auxIn, misc := M, lims := L, pow := pw, ach := a.1, hyb := h, forced := f, dec := d, fc := fc }

end Lawless
end Fastsim
