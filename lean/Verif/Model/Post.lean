import Verif.Model.Run

/-!
# Model of the figures computed after a run
(`SimDrive.set_post_scalars`, `SimDrivePost`, `estimate_soc_corrected_fuel_kJ` in
`python/fastsim/simdrive.py`)
-/

namespace Fastsim

section Lawless
variable {K : Type*} [Zero K] [One K] [NatCast K] [Add K] [Sub K] [Mul K] [Div K] [Neg K]
  [LinearOrder K]

/-- Entry of index 0, `x[0]`. -/
def Sim.firstRow (s : Sim K) : Row K := s.rows.getD 0 Row.zero
/-- Entry of the last index, `x[-1]`. -/
def Sim.lastRow (s : Sim K) : Row K := s.rows.getLast?.getD Row.zero

/-- `fs_cumu_mj_out_ach` (simdrive.py:2194-2195). -/
def fsCumuMj (s : Sim K) : List K :=
  (cumsum (List.zipWith (fun (r : Row K) dt => r.fc.fsKwOutAch * dt) s.rows (dtS s.cyc))).map
    (· * (1 / 1000))

/-- `self.dist_mi.sum()` -/
def totalMiles (s : Sim K) : K := npSum (s.rows.map fun r => r.ach.distMi)
/-- `self.fs_kwh_out_ach.sum()` -/
def totalFuelKwh (s : Sim K) : K := npSum (s.rows.map fun r => r.fc.fsKwhOutAch)

/-- `mpgge` (simdrive.py:2197-2201); `kwhPerGge` is `props.kwh_per_gge`. -/
def mpgge (kwhPerGge : K) (s : Sim K) : K :=
  if totalFuelKwh s = 0 then 0 else totalMiles s / (totalFuelKwh s / kwhPerGge)

/-- `roadway_chg_kj` (simdrive.py:2203-2204). -/
def roadwayChgKj (s : Sim K) : K := sumDt s fun r => r.dec.roadwayChgKwOutAch
/-- `ess_dischg_kj` (simdrive.py:2205-2206). -/
def essDischgKj (V : Veh K) (s : Sim K) : K :=
  -(s.lastRow.dec.soc - s.firstRow.dec.soc) * V.essMaxKwh * 3600
/-- `battery_kwh_per_mi` (simdrive.py:2207-2209). -/
def batteryKwhPerMi (V : Veh K) (s : Sim K) : K :=
  if 0 < totalMiles s then essDischgKj V s / 3600 / totalMiles s else 0
/-- `electric_kwh_per_mi` (simdrive.py:2210-2211). -/
def electricKwhPerMi (V : Veh K) (s : Sim K) : K :=
  if 0 < totalMiles s then (roadwayChgKj s + essDischgKj V s) / 3600 / totalMiles s else 0
/-- `fuel_kj` (simdrive.py:2212). -/
def fuelKj (s : Sim K) : K := sumDt s fun r => r.fc.fsKwOutAch
/-- `ess2fuel_kwh` (simdrive.py:2214-2219). -/
def ess2fuelKwh (V : Veh K) (s : Sim K) : K :=
  if fuelKj s + roadwayChgKj s = 0 then 1 else essDischgKj V s / (fuelKj s + roadwayChgKj s)
/-- `drag_kj` (simdrive.py:2222). -/
def dragKj (s : Sim K) : K := sumDt s fun r => r.pow.dragKw
/-- `ascent_kj` (simdrive.py:2223). -/
def ascentKj (s : Sim K) : K := sumDt s fun r => r.pow.ascentKw
/-- `rr_kj` (simdrive.py:2224). -/
def rrKj (s : Sim K) : K := sumDt s fun r => r.pow.rrKw

/-- `ess_loss_kw[i]` for `i ≥ 1` (simdrive.py:2226-2233); entry 0 stays 0, which is also what this
gives for the zero battery power of index 0. -/
def essLossKw (F : Fns K) (V : Veh K) (r : Row K) : K :=
  if V.essMaxKw = 0 ∨ V.essMaxKwh = 0 then 0
  else if r.dec.essKwOutAch < 0 then
    -r.dec.essKwOutAch - -r.dec.essKwOutAch * F.sqrt V.essRoundTripEff
  else r.dec.essKwOutAch * (1 / F.sqrt V.essRoundTripEff) - r.dec.essKwOutAch

/-- `brake_kj` (simdrive.py:2235). -/
def brakeKj (s : Sim K) : K := sumDt s fun r => r.pow.cycFricBrakeKw
/-- `trans_kj` (simdrive.py:2236-2237). -/
def transKj (s : Sim K) : K := sumDt s fun r => r.pow.transKwInAch - r.pow.transKwOutAch
/-- `mc_kj` (simdrive.py:2238-2239). -/
def mcKj (s : Sim K) : K := sumDt s fun r => r.dec.mcElecKwInAch - r.dec.mcMechKwOutAch
/-- `ess_eff_kj` (simdrive.py:2240). -/
def essEffKj (F : Fns K) (V : Veh K) (s : Sim K) : K := sumDt s (essLossKw F V)
/-- `aux_kj` (simdrive.py:2241): sum over the recorded accessory load. -/
def auxKj (s : Sim K) : K := npSum (List.zipWith (· * ·) s.aux (dtS s.cyc))
/-- `fc_kj` (simdrive.py:2242-2243). -/
def fcKj (s : Sim K) : K := sumDt s fun r => r.fc.fcKwInAch - r.fc.fcKwOutAch
/-- `net_kj` (simdrive.py:2245-2246). -/
def netKj (F : Fns K) (V : Veh K) (s : Sim K) : K :=
  dragKj s + ascentKj s + rrKj s + brakeKj s + transKj s + mcKj s + essEffKj F V s + auxKj s + fcKj s
/-- `ke_kj` (simdrive.py:2248-2249). -/
def keKj (V : Veh K) (s : Sim K) : K :=
  1 / 2 * V.vehKg
    * (s.firstRow.ach.mpsAch * s.firstRow.ach.mpsAch - s.lastRow.ach.mpsAch * s.lastRow.ach.mpsAch)
    / 1000
/-- Energy supplied, the denominator of the audit (simdrive.py:2251-2252). -/
def suppliedKj (V : Veh K) (s : Sim K) : K :=
  roadwayChgKj s + essDischgKj V s + fuelKj s + keKj V s
/-- `energy_audit_error` (simdrive.py:2251-2252). -/
def energyAuditError (F : Fns K) (V : Veh K) (s : Sim K) : K :=
  (suppliedKj V s - netKj F V s) / suppliedKj V s

/-- `trace_miss_dist_frac` (simdrive.py:2264-2266). -/
def traceMissDistFrac (s : Sim K) : K :=
  let d := npSum (distM s.cyc0)
  if 0 < d then pabs (npSum (s.rows.map fun r => r.ach.distM) - d) / d else 0
/-- `trace_miss_time_frac` (simdrive.py:2267-2268). -/
def traceMissTimeFrac (s : Sim K) : K :=
  pabs ((Cyc.times s.cyc).getLast?.getD 0 - (Cyc.times s.cyc0).getLast?.getD 0)
    / (Cyc.times s.cyc0).getLast?.getD 0
/-- `trace_miss_speed_mps` (simdrive.py:2286-2288). -/
def traceMissSpeedMps (s : Sim K) : K :=
  listMax (List.zipWith (fun (r : Row K) v => pabs (r.ach.mpsAch - v)) s.rows s.cyc.speeds)

/-- Tolerances of `SimDriveParams` used by the trace-miss report (simdrive.py:66-68). -/
structure MissTols (K : Type*) where
  dist : K
  time : K
  speed : K

/-- `trace_miss` (simdrive.py:2263-2294). -/
def traceMiss (P : SimParams K) (T : MissTols K) (s : Sim K) : Bool :=
  (if P.missedTrace then decide (T.time < traceMissTimeFrac s)
   else decide (T.dist < traceMissDistFrac s))
  || decide (T.speed < traceMissSpeedMps s)

/-! ### `SimDrivePost` -/

/-- Positive part of a channel (simdrive.py:2475-2477). -/
def posPart (x : K) : K := if 0 ≤ x then x else 0
/-- Negative part of a channel (simdrive.py:2478-2480). -/
def negPart (x : K) : K := if x < 0 then x else 0

/-- The two energies reported for a channel by `get_diagnostics` (simdrive.py:2484-2487). -/
def diagEnergies (times chan : List K) : K × K :=
  (trapz (times.zip (chan.map posPart)), trapz (times.zip (chan.map negPart)))

/-- `output['mpgge']` of `get_diagnostics` (simdrive.py:2489-2494); the code guards with `> 0`
where `set_post_scalars` guards with `== 0`. -/
def diagMpgge (kwhPerGge : K) (s : Sim K) : K :=
  if 0 < totalFuelKwh s then totalMiles s / totalFuelKwh s * kwhPerGge else 0

/-- `add_kwh[1:]` of `set_battery_wear` (simdrive.py:2502-2507): `kwh` is `ess_cur_kwh`, `old` the
array `add_kwh` before the call (the list comprehension reads it before the slice is assigned). -/
def wearAddTail : (kwh old : List K) → List K
  | k0 :: k1 :: kwh, a0 :: old =>
    (if k0 < k1 then (k1 - k0) + a0 else 0) :: wearAddTail (k1 :: kwh) old
  | _, _ => []

/-- `add_kwh` after one call of `set_battery_wear` (simdrive.py:2501-2508). -/
def wearAdd (kwh old : List K) : List K := old.take 1 ++ wearAddTail kwh old

/-- `dod_cycs[1:]` (simdrive.py:2510-2519) from the new `add_kwh`. -/
def wearDodTail (essMaxKwh : K) : List K → List K
  | a0 :: a1 :: add =>
    (if essMaxKwh = 0 then 0 else if a1 = 0 then a0 / essMaxKwh else 0)
      :: wearDodTail essMaxKwh (a1 :: add)
  | _ => []

/-! ### `estimate_soc_corrected_fuel_kJ` -/

/-- The local helper `f(mask, numer, denom, default)` (simdrive.py:2540-2546). -/
def maskedRatio (s : Sim K) (mask : Row K → Bool) (numer denom : Row K → K) (dflt : K) : K :=
  if s.rows.any mask then
    npSum ((s.rows.filter mask).map numer) / npSum ((s.rows.filter mask).map denom)
  else dflt

/-- `mc_chg_eff` (simdrive.py:2550-2551). -/
def mcChgEff (V : Veh K) (s : Sim K) : K :=
  maskedRatio s (fun r => decide (r.dec.mcMechKwOutAch < 0)) (fun r => r.dec.mcElecKwInAch)
    (fun r => r.dec.mcMechKwOutAch) V.mcPeakEff
/-- `mc_dis_eff` (simdrive.py:2552-2553). -/
def mcDisEff (V : Veh K) (s : Sim K) : K :=
  maskedRatio s (fun r => decide (0 < r.dec.mcMechKwOutAch)) (fun r => r.dec.mcMechKwOutAch)
    (fun r => r.dec.mcElecKwInAch) (mcChgEff V s)
/-- `ess_traction_frac` (simdrive.py:2554-2555). -/
def essTractionFrac (s : Sim K) : K :=
  maskedRatio s (fun r => decide (0 < r.dec.mcElecKwInAch)) (fun r => r.dec.mcElecKwInAch)
    (fun r => r.dec.essKwOutAch) 1
/-- `fc_eff` (simdrive.py:2556-2561). -/
def runFcEff (s : Sim K) : K :=
  maskedRatio s (fun r => decide (0 < r.pow.transKwInAch)) (fun r => r.fc.fcKwOutAch)
    (fun r => r.fc.fcKwInAch)
    (npSum (s.rows.map fun r => r.fc.fcKwOutAch) / npSum (s.rows.map fun r => r.fc.fcKwInAch))

/-- `estimate_soc_corrected_fuel_kJ(sd)` (simdrive.py:2531-2569). -/
def socCorrectedFuelKj (F : Fns K) (V : Veh K) (s : Sim K) : Except PyErr K :=
  if V.ptType ≠ .hev then .error .valueError
  else
    let dsoc := s.lastRow.dec.soc - s.firstRow.dec.soc
    let essEff := F.sqrt V.essRoundTripEff
    let equiv :=
      if 0 ≤ dsoc then
        -1 * dsoc * (V.essMaxKwh * 3600 * essEff * mcDisEff V s * essTractionFrac s / runFcEff s)
      else -1 * dsoc * (V.essMaxKwh * 3600 / (essEff * mcChgEff V s * runFcEff s))
    .ok (fuelKj s + equiv)

end Lawless
end Fastsim
