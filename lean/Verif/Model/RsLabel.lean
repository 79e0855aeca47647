import Verif.Model.LabelSim
import Verif.Model.RsRun
import Verif.Model.RsVeh

/-!
# Label fuel economy of the Rust core (`rust/fastsim-core/src/simdrivelabel.rs`, below `label`)

`fastsimrust.get_label_fe` is written separately from `fastsim.simdrivelabel.get_label_fe` (`Verif.Model.Label`). As there, the
simulations are an argument. Only the types of what is read from a vehicle and from a run, of the coefficients and of the
figures of one cycle of a plug-in hybrid are shared with the python model.

Simplifications: numbers are elements of an ordered field instead of `f64`. Where the code divides by an economy that is zero
(no fuel burnt) the result `1 / inf` is written as zero; other infinite values and NaN are not modelled, and the theorems ask
for the divisors to be different from zero. The iteration over the `HashMap` of the two cycles is in the order city, highway;
the order only decides which of two failures is reported. Log messages, printing and `full_detail` are left out.
-/

namespace Fastsim

/-- What the Rust label reads from a simulation: what the python one reads, and `trace_miss_speed_mps`. -/
structure RsLabelRun (K : Type*) where
  run : LabelRun K
  missMps : K

/-- `LabelFe` (label:22-50), without the vehicle, `res_found` and `phev_calcs`. -/
structure RsLabelFe (K : Type*) where
  labUddsMpgge : K
  labHwyMpgge : K
  labCombMpgge : K
  labUddsKwhPerMi : K
  labHwyKwhPerMi : K
  labCombKwhPerMi : K
  adjUddsMpgge : K
  adjHwyMpgge : K
  adjCombMpgge : K
  adjUddsKwhPerMi : K
  adjHwyKwhPerMi : K
  adjCombKwhPerMi : K
  adjUddsEssKwhPerMi : K
  adjHwyEssKwhPerMi : K
  adjCombEssKwhPerMi : K
  netRangeMiles : K
  uf : K
  netAccel : K
  adjCsCombMpgge : Option K
  adjCdCombMpgge : Option K
  netPhevCdMiles : Option K
  traceMissSpeedMph : K
  deriving DecidableEq

section Lawless
variable {K : Type*} [Zero K] [One K] [NatCast K] [Add K] [Sub K] [Mul K] [Div K] [Neg K]
  [LinearOrder K]

/-- `LabelFe::default()` (label:20-21, 197). -/
def RsLabelFe.zero : RsLabelFe K :=
  ⟨0, 0, 0, 0, 0, 0, 0, 0, 0, 0, 0, 0, 0, 0, 0, 0, 0, 0, none, none, none, 0⟩

/-- `RustPhysicalProperties::default().kwh_per_gge`, `RustSimDriveParams::default().max_epa_adj` and `CHG_EFF` (params.rs:63,
simdrive.rs:143, params.rs:124). -/
def rsLabelConst : LabelConst K := ⟨(337 : ℕ) / (10 : ℕ), (3 : ℕ) / (10 : ℕ), (86 : ℕ) / (100 : ℕ)⟩

/-- label:223-228: the coefficients of `resources/longparams.json`, which is the python file. -/
def rsAdjParams (year : Int) : AdjCoef K :=
  if year < 2017 then
    ⟨(3259 : ℕ) / (1000000 : ℕ), (11805 : ℕ) / (10000 : ℕ), (1376 : ℕ) / (1000000 : ℕ), (13466 : ℕ) / (10000 : ℕ)⟩
  else
    ⟨(4091 : ℕ) / (1000000 : ℕ), (11601 : ℕ) / (10000 : ℕ), (3191 : ℕ) / (1000000 : ℕ), (12945 : ℕ) / (10000 : ℕ)⟩

/-- The weights `0.55` and `0.45`. -/
def rs55 : K := (55 : ℕ) / (100 : ℕ)
def rs45 : K := (45 : ℕ) / (100 : ℕ)

/-- `1. / (0.55 / u + 0.45 / h)` for economies that are not negative (label:238, 266): zero if one of them is. -/
def rsHarm (u h : K) : K := if u = 0 ∨ h = 0 then 0 else 1 / (rs55 / u + rs45 / h)

/-- `1. / (intercept + slope / x)` for an economy that is not negative (label:261-265): zero if it is. -/
def rsAdjMpg (int slope x : K) : K := if x = 0 then 0 else 1 / (int + slope / x)

/-- label:278-287, 288-297. -/
def rsAdjKwh (c : LabelConst K) (int slope lab : K) : K :=
  1 / max (1 / (int + slope / (1 / lab * c.kwhPerGge))) (1 / lab * c.kwhPerGge * (1 - c.maxEpaAdj)) * c.kwhPerGge / c.chgEff

/-- label:232-310: conventional vehicles, hybrids and battery-electric vehicles. `out` starts as the default. -/
def rsLabelNonPhev (c : LabelConst K) (veh : LabelVeh K) (adj : AdjCoef K) (u h : LabelRun K) (out : RsLabelFe K) :
    RsLabelFe K :=
  if veh.ptType ≠ .bev then
    let au := rsAdjMpg adj.cityInt adj.citySlope u.mpgge
    let ah := rsAdjMpg adj.hwyInt adj.hwySlope h.mpgge
    { out with
      labUddsMpgge := u.mpgge, labHwyMpgge := h.mpgge, labCombMpgge := rsHarm u.mpgge h.mpgge
      labUddsKwhPerMi := 0, labHwyKwhPerMi := 0, labCombKwhPerMi := 0
      adjUddsMpgge := au, adjHwyMpgge := ah, adjCombMpgge := rsHarm au ah
      uf := 0 }
  else
    let au := rsAdjKwh c adj.cityInt adj.citySlope u.kwhPerMi
    let ah := rsAdjKwh c adj.hwyInt adj.hwySlope h.kwhPerMi
    let ac := rs55 * au + rs45 * ah
    { out with
      labUddsMpgge := 0, labHwyMpgge := 0, labCombMpgge := 0
      labUddsKwhPerMi := u.kwhPerMi, labHwyKwhPerMi := h.kwhPerMi
      labCombKwhPerMi := rs55 * u.kwhPerMi + rs45 * h.kwhPerMi
      adjUddsMpgge := 0, adjHwyMpgge := 0, adjCombMpgge := 0
      adjUddsKwhPerMi := au, adjHwyKwhPerMi := ah, adjCombKwhPerMi := ac
      adjUddsEssKwhPerMi := au * c.chgEff, adjHwyEssKwhPerMi := ah * c.chgEff, adjCombEssKwhPerMi := ac * c.chgEff
      netRangeMiles := veh.essMaxKwh / (ac * c.chgEff)
      uf := 0 }

/-- `get_net_accel` (label:148-163) from the achieved speeds (mph) and the times of the trace. -/
def rsNetAccel (mph times : List K) : Except RsErr K :=
  if mph.any (fun x => decide (((60 : ℕ) : K) ≤ x)) then rsInterpolate ((60 : ℕ) : K) mph times
  else .ok ((1000 : ℕ) : K)

/-- `long_params.uf_array[first_grtr(&long_params.rechg_freq_miles, x).unwrap() - 1]` (label:352-357, 471, 520, 652, 676). -/
def rsUf (tbl : List (K × K)) (x : K) : Except RsErr K := rsLookup0 (tbl.map Prod.fst) (tbl.map Prod.snd) x

/-- `diff` (utils.rs:31-40): a zero in front; `x.slice(s![1..])` of an empty array panics. -/
def rsDiff : List K → Except RsErr (List K)
  | [] => .error .panic
  | x :: l => .ok (0 :: diff (x :: l))

/-- `&a * &b` of two arrays: ndarray (0.15.4) repeats an array of length one and panics if the lengths differ. -/
def rsMulArr (a b : List K) : Except RsErr (List K) :=
  if a.length = b.length then .ok (List.zipWith (· * ·) a b)
  else match a, b with
    | [x], b => .ok (b.map (x * ·))
    | a, [y] => .ok (a.map (· * y))
    | _, _ => .error .panic

/-- `arr[arr.len() - k]`: panics if the array is shorter. -/
def rsFromEnd (arr : List K) (k : Nat) : Except RsErr K :=
  if arr.length < k then .error .panic else rsIdx arr (arr.length - k)

/-- `Array::max()?` of ndarray-stats: an error for an empty array. -/
def rsLabelMax : List K → Except RsErr K
  | [] => .error .err
  | x :: l => .ok (l.foldl max x)

/-- label:573-586, 605-618: adjusted energy use per mile of one iteration. -/
def rsAdjIterKwh (c : LabelConst K) (int slope x : K) : K :=
  if x = 0 then 0
  else 1 / max (1 / (int + slope / (1 / x * c.kwhPerGge))) ((1 - c.maxEpaAdj) * (1 / x * c.kwhPerGge)) * c.kwhPerGge

/-- label:556-570, 588-602: adjusted economy for `dist` miles on `kwh` of fuel. -/
def rsAdjIterMpg (c : LabelConst K) (int slope dist kwh : K) : K :=
  max (1 / (int + slope / (dist / (kwh / c.kwhPerGge)))) (dist / (kwh / c.kwhPerGge) * (1 - c.maxEpaAdj))

/-- label:624-638: entry `k` of `adj_iter_cd_miles`; `n` is the number of whole cycles. -/
def rsCdMilesAt (adjKwh : List K) (cdKwhMi transKwhMi dist : K) (n : Nat) : Nat → K
  | 0 => 0
  | k + 1 =>
    if k + 1 ≤ n then rsCdMilesAt adjKwh cdKwhMi transKwhMi dist n k + cdKwhMi * dist / adjKwh.getD (k + 1) 0
    else if k + 1 = n + 1 then rsCdMilesAt adjKwh cdKwhMi transKwhMi dist n k + transKwhMi * dist / adjKwh.getD (k + 1) 0
    else 0

/-- label:216-218: the larger of the deviations found so far and that of one cycle. -/
def rsWorse (m x : K) : K := if m < x then x else m

end Lawless

section Floor
variable {K : Type*} [Field K] [LinearOrder K] [FloorRing K]

/-- `a % b` of floating point numbers: the quotient is rounded towards zero. -/
def rsRem (a b : K) : K := a - b * (if 0 ≤ a / b then (⌊a / b⌋ : K) else (⌈a / b⌉ : K))

/-- label:423-431: `regen_soc_buffer`. -/
def rsRegenBuffer (veh : LabelVeh K) : K :=
  min ((1 / 2 * veh.vehKg * (60 * (1 / mphPerMps)) ^ 2 * (1 / 3600) * (1 / 1000) * veh.maxRegen * veh.mcPeakEff) /
    veh.essMaxKwh) ((veh.maxSoc - veh.minSoc) / 2)

/-- label:436-692: the loop body for one cycle. `run soc` is `sd_val.sim_drive(Some(soc), None)`. With less than one whole
charge depleting cycle `cd_frac_in_trans` is a remainder modulo zero, NaN, and `adj_iter_cd_miles.max()?` (label:644) an error,
unless the battery never empties (label:640-642), when the figures are NaN; the model reports an error. A number of samples
below zero panics in `Array::range` (label:467); `as usize` takes negative numbers to zero. Entries that do not influence the
results are left out. -/
def rsPhevCalc (c : LabelConst K) (tbl : List (K × K)) (veh : LabelVeh K) (int slope buffer : K)
    (run : K → Except RsErr (LabelRun K)) : Except RsErr (PhevCalc K) := do
  let cd ← run veh.maxSoc
  let cdCycs := (veh.maxSoc - veh.minSoc) * veh.essMaxKwh / cd.kwhPerMi / cd.distMi
  let n : Int := ⌊cdCycs⌋
  let m : Int := ⌈cdCycs⌉
  if n = 0 then .error .err else
  let frac := rsRem cdCycs (n : K)
  if m + 1 < 0 then .error .panic else
  let labIterUf ← rsMapM (rsUf tbl) ((List.range (m + 1).toNat).map fun k : ℕ => (k : K) * cd.distMi)
  let _ ← run (veh.maxSoc - (n : K) * (cd.firstSoc - cd.lastSoc))
  let transKwhMi := cd.kwhPerMi * frac
  let cs ← run (veh.minSoc + 1 / 100)
  let csGal := cs.fsKwh / c.kwhPerGge
  let transGal := csGal * (1 - frac)
  let transFsKwh := cs.fsKwh * (1 - frac)
  let labDiff ← rsDiff labIterUf
  let dLast ← rsFromEnd labDiff 1
  let gpmTrans := transGal * dLast / cs.distMi
  let never := veh.maxSoc - buffer - cs.minSoc < 1 / 100
  let cdMiles := if never then 1000 else (m : K) * cs.distMi
  let csMpg := cs.distMi / csGal
  let labUf ← rsUf tbl cdMiles
  let labMax ← rsLabelMax labIterUf
  let cdMpg := labMax / gpmTrans
  let labMpgge := 1 / (labUf / cdMpg + (1 - labUf) / csMpg)
  let labKwh := 0 :: List.replicate n.toNat cd.kwhPerMi ++ [transKwhMi] ++ [0]
  let midUfKwh ← rsMulArr ((labKwh.drop 1).take (labKwh.length - 2)) (labDiff.drop 1)
  let labKwhPerMi := rsSum (0 :: midUfKwh ++ [0]) / labMax
  let adjMpgTrans := rsAdjIterMpg c int slope cs.distMi transFsKwh
  let adjMpgCs := rsAdjIterMpg c int slope cs.distMi cs.fsKwh
  let adjKwh := labKwh.map (rsAdjIterKwh c int slope)
  let miles := (List.range (m.toNat + 2)).map (rsCdMilesAt adjKwh cd.kwhPerMi transKwhMi cs.distMi n.toNat)
  let mostMiles ← rsLabelMax miles
  let adjCdMiles := if never then 1000 else mostMiles
  let adjUfs ← rsMapM (rsUf tbl) miles
  let adjDiff ← rsDiff adjUfs
  let dTrans ← rsFromEnd adjDiff 2
  let uTrans ← rsFromEnd adjUfs 2
  let gpmT := 1 / adjMpgTrans * dTrans
  let gpmCs := 1 / adjMpgCs * (1 - uTrans)
  let ufKwh ← rsMulArr adjKwh adjDiff
  let adjMax ← rsLabelMax adjUfs
  let adjCdMpgge := 1 / gpmT * adjMax
  let adjCsMpgge := 1 / gpmCs * (1 - adjMax)
  let adjUf ← rsUf tbl adjCdMiles
  .ok {
    labMpgge := labMpgge
    labKwhPerMile := labKwhPerMi
    adjCdMiles := adjCdMiles
    adjCdMpgge := adjCdMpgge
    adjCsMpgge := adjCsMpgge
    adjMpgge := 1 / (adjUf / adjCdMpgge + (1 - adjUf) / adjCsMpgge)
    adjKwhPerMile := rsSum ufKwh / adjMax / veh.chgEff
    adjEssKwhPerMile := rsSum ufKwh / adjMax }

/-- label:311-366: the figures of a plug-in hybrid from those of the two cycles. -/
def rsPhevOut (c : LabelConst K) (tbl : List (K × K)) (veh : LabelVeh K) (u h : PhevCalc K) (out : RsLabelFe K) :
    Except RsErr (RsLabelFe K) := do
  let cs := 1 / (rs55 / u.adjCsMpgge + rs45 / h.adjCsMpgge)
  let cd := 1 / (rs55 / u.adjCdMpgge + rs45 / h.adjCdMpgge)
  let miles := rs55 * u.adjCdMiles + rs45 * h.adjCdMiles
  let uf ← rsUf tbl miles
  .ok { out with
    labUddsMpgge := u.labMpgge, labHwyMpgge := h.labMpgge
    labCombMpgge := 1 / (rs55 / u.labMpgge + rs45 / h.labMpgge)
    labUddsKwhPerMi := u.labKwhPerMile, labHwyKwhPerMi := h.labKwhPerMile
    labCombKwhPerMi := rs55 * u.labKwhPerMile + rs45 * h.labKwhPerMile
    adjUddsMpgge := u.adjMpgge, adjHwyMpgge := h.adjMpgge
    adjCombMpgge := 1 / (rs55 / u.adjMpgge + rs45 / h.adjMpgge)
    adjCsCombMpgge := some cs, adjCdCombMpgge := some cd
    adjUddsKwhPerMi := u.adjKwhPerMile, adjHwyKwhPerMi := h.adjKwhPerMile
    adjCombKwhPerMi := rs55 * u.adjKwhPerMile + rs45 * h.adjKwhPerMile
    adjUddsEssKwhPerMi := u.adjEssKwhPerMile, adjHwyEssKwhPerMi := h.adjEssKwhPerMile
    adjCombEssKwhPerMi := rs55 * u.adjEssKwhPerMile + rs45 * h.adjEssKwhPerMile
    uf := uf, netPhevCdMiles := some miles
    netRangeMiles := (veh.fsKwh / c.kwhPerGge - miles / cd) * cs + miles }

/-- label:173-387 `get_label_fe`. `sim` runs `sim_drive` on the bundled cycle; `accel` gives the achieved speeds (mph) of
`sim_drive_accel` on the acceleration trace and the times of the trace (label:368-371). -/
def rsGetLabelFe (c : LabelConst K) (tbl : List (K × K)) (veh : LabelVeh K)
    (sim : LabelCyc → Option K → Except RsErr (RsLabelRun K)) (accel : Except RsErr (List K × List K)) :
    Except RsErr (RsLabelFe K) := do
  let u ← sim .udds none
  let h ← sim .hwy none
  let miss := rsWorse (rsWorse 0 (u.missMps * mphPerMps)) (h.missMps * mphPerMps)
  let out : RsLabelFe K := { RsLabelFe.zero with traceMissSpeedMph := miss }
  let adj := rsAdjParams veh.vehYear
  let out ←
    if veh.ptType ≠ .phev then .ok (rsLabelNonPhev c veh adj u.run h.run out)
    else do
      let buffer := rsRegenBuffer veh
      let pu ← rsPhevCalc c tbl veh adj.cityInt adj.citySlope buffer fun s =>
        (sim .udds (some s)).map RsLabelRun.run
      let ph ← rsPhevCalc c tbl veh adj.hwyInt adj.hwySlope buffer fun s =>
        (sim .hwy (some s)).map RsLabelRun.run
      rsPhevOut c tbl veh pu ph out
  let a ← accel
  let t ← rsNetAccel a.1 a.2
  .ok { out with netAccel := t }

/-! ### The simulations behind the label -/

/-- What the label reads from a finished run (label:215, 235-249, 449-509). -/
def rsLabelRun (s : Sim K) (p : RsPost K) : RsLabelRun K :=
  { run :=
      { mpgge := p.mpgge
        kwhPerMi := p.batteryKwhPerMi
        distMi := rsSum (s.rows.map fun r => r.ach.distMi)
        fsKwh := rsSum (s.rows.map fun r => r.fc.fsKwhOutAch)
        minSoc := rsArrMin (s.rows.map fun r => r.dec.soc)
        firstSoc := (s.rows.getD 0 Row.zero).dec.soc
        lastSoc := (s.rows.getD (s.rows.length - 1) Row.zero).dec.soc }
    missMps := p.traceMissSpeedMps }

/-- `sd[key].sim_drive(init, None)` (label:208-213, 441, 479, 488) with the cycles `udds` and `hwy` and the default parameters
of `RustSimDrive::new`. `T` are the tolerances of the trace, which the label does not read. -/
def rsLabelSim (F : Fns K) (H : RsHooks K) (V : Veh K) (T : MissTols K) (c : LabelConst K) (udds hwy : Cyc K) (k : LabelCyc)
    (init : Option K) : Except RsErr (RsLabelRun K) :=
  match rsSimDrive F H V rsNewParams T c.kwhPerGge (Sim.new (match k with | .udds => udds | .hwy => hwy)) init none with
  | .error e => .error e
  | .ok (s, p) => .ok (rsLabelRun s p)

/-- `make_accel_trace` (label:125-140): `Array::range` has as many samples as numpy's `arange`. -/
def rsAccelTrace : Cyc K :=
  (arange (0 : K) 300 (1 / 10)).zipIdx.map fun p => ⟨p.1, if p.2 = 0 then 0 else 90 / mphPerMps, 0, 0⟩

/-- label:148-156, 368-370: `sim_drive_accel`, the achieved speeds and the times of the trace. -/
def rsAccelSpeeds (F : Fns K) (H : RsHooks K) (V : Veh K) (T : MissTols K) (c : LabelConst K) :
    Except RsErr (List K × List K) :=
  match rsDriveAccel F H V rsNewParams (Sim.new rsAccelTrace) none none with
  | .error e => .error e
  | .ok s =>
    match rsPostScalars F V rsNewParams T c.kwhPerGge s with
    | .error e => .error e
    | .ok _ => .ok (s.rows.map fun r => r.ach.mphAch, s.cyc0.times)

/-- `get_label_fe(veh)` with the simulations of the vehicle `V`, whose attributes for the label are `veh`. -/
def rsVehicleLabel (F : Fns K) (H : RsHooks K) (V : Veh K) (T : MissTols K) (c : LabelConst K) (tbl : List (K × K))
    (veh : LabelVeh K) (udds hwy : Cyc K) : Except RsErr (RsLabelFe K) :=
  rsGetLabelFe c tbl veh (rsLabelSim F H V T c udds hwy) (rsAccelSpeeds F H V T c)

end Floor
end Fastsim
