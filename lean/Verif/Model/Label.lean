import Verif.Model.Units
import Verif.Model.Idm
import Verif.Model.Resample
import Verif.Model.Copy
import Verif.Model.UfTable

/-!
# Label fuel economy (`python/fastsim/simdrivelabel.py`)

The simulations that `get_label_fe` runs are an argument of the model: a function from the cycle and the starting charge to
the results that the label reads. (Runs of one object do not influence each other: C28.) numpy's `inf` and `nan` are not
modelled; where they would appear the theorems ask for divisors that are not zero, or the model reports `PyErr.other`.
-/

namespace Fastsim

variable {K : Type*}

/-- `params.param_dict['LD_FE_Adj_Coef'][...]` (resources/longparams.json). -/
structure AdjCoef (K : Type*) where
  cityInt : K
  citySlope : K
  hwyInt : K
  hwySlope : K

/-- The vehicle attributes that `get_label_fe` reads. -/
structure LabelVeh (K : Type*) where
  ptType : PtType
  vehYear : Int
  vehKg : K
  maxRegen : K
  mcPeakEff : K
  essMaxKwh : K
  maxSoc : K
  minSoc : K
  chgEff : K
  fsKwh : K

/-- What `get_label_fe` reads from a simulation: `mpgge`, `battery_kwh_per_mi`, `dist_mi.sum()`, `fs_kwh_out_ach.sum()`,
`soc.min()`, `soc[0]` and `soc[-1]`. -/
structure LabelRun (K : Type*) where
  mpgge : K
  kwhPerMi : K
  distMi : K
  fsKwh : K
  minSoc : K
  firstSoc : K
  lastSoc : K

/-- `props.kwh_per_gge`, `sim_params.max_epa_adj`, `params.chg_eff` (simdrivelabel.py:12-13, parameters.py:156). -/
structure LabelConst (K : Type*) where
  kwhPerGge : K
  maxEpaAdj : K
  chgEff : K

/-- Values in the dictionary returned: numbers, or objects the model does not look into. -/
inductive LabelVal (K : Type*) where
  | num (x : K)
  | obj
  deriving DecidableEq

/-- The two simulated cycles. -/
inductive LabelCyc where
  | udds | hwy
  deriving DecidableEq

/-- `out[key] = value` for several keys in turn. -/
def setNums (d : PyDict (LabelVal K)) (kvs : List (String × K)) : PyDict (LabelVal K) :=
  kvs.foldl (fun d kv => PyDict.set d kv.1 (.num kv.2)) d

section Lawless
variable [Zero K] [One K] [NatCast K] [Add K] [Sub K] [Mul K] [Div K] [Neg K] [LinearOrder K]

/-- resources/longparams.json, `LD_FE_Adj_Coef`, `2008`. -/
def adjCoef2008 : AdjCoef K :=
  ⟨(3259 : ℕ) / (1000000 : ℕ), (11805 : ℕ) / (10000 : ℕ), (1376 : ℕ) / (1000000 : ℕ), (13466 : ℕ) / (10000 : ℕ)⟩

/-- resources/longparams.json, `LD_FE_Adj_Coef`, `2017`. -/
def adjCoef2017 : AdjCoef K :=
  ⟨(4091 : ℕ) / (1000000 : ℕ), (11601 : ℕ) / (10000 : ℕ), (3191 : ℕ) / (1000000 : ℕ), (12945 : ℕ) / (10000 : ℕ)⟩

/-- simdrivelabel.py:73-78. -/
def adjParams (year : Int) : AdjCoef K := if year < 2017 then adjCoef2008 else adjCoef2017

/-- `props.kwh_per_gge = 33.7`, `max_epa_adj = 0.3`, `chg_eff = 0.86` (parameters.py:45,156; simdrive.py SimDriveParams). -/
def labelConst : LabelConst K := ⟨(337 : ℕ) / (10 : ℕ), (3 : ℕ) / (10 : ℕ), (86 : ℕ) / (100 : ℕ)⟩

/-- `1 / (Intercept + Slope / x)` (simdrivelabel.py:116-120). -/
def adjMpg (int slope x : K) : K := 1 / (int + slope / x)

/-- `0.55` and `0.45`. -/
def wCity : K := (55 : ℕ) / (100 : ℕ)
def wHwy : K := (45 : ℕ) / (100 : ℕ)

/-- `1 / (0.55 / city + 0.45 / hwy)`. -/
def combMpg (u h : K) : K := 1 / (wCity / u + wHwy / h)

/-- `0.55 * city + 0.45 * hwy`. -/
def combKwh (u h : K) : K := wCity * u + wHwy * h

/-- simdrivelabel.py:132-139: `(1 / max(adjusted, unadjusted * (1 - max_epa_adj))) * kwh_per_gge / chg_eff`. -/
def adjKwhBev (c : LabelConst K) (int slope lab : K) : K :=
  1 / max (adjMpg int slope (1 / lab * c.kwhPerGge)) (1 / lab * c.kwhPerGge * (1 - c.maxEpaAdj)) * c.kwhPerGge / c.chgEff

/-- simdrivelabel.py:87-158: everything but plug-in hybrids. `mpgge` is the Python float `0.0` when a cycle takes no fuel,
so that dividing by it raises `ZeroDivisionError`. (For a vehicle that burns fuel and does not move it is a numpy zero, and
the quotient `inf`; not modelled.) The key written in lines 151-153 without a comma is one string. -/
def labelNonPhev (c : LabelConst K) (veh : LabelVeh K) (adj : AdjCoef K) (u h : LabelRun K) (d : PyDict (LabelVal K)) :
    Except PyErr (PyDict (LabelVal K)) :=
  if veh.ptType = .bev then
    let d := setNums d [("labUddsMpgge", 0), ("labHwyMpgge", 0), ("labCombMpgge", 0)]
    let d := setNums d [("labUddsKwhPerMile", u.kwhPerMi), ("labHwyKwhPerMile", h.kwhPerMi),
      ("labCombKwhPerMile", combKwh u.kwhPerMi h.kwhPerMi)]
    let d := setNums d [("labUddsMpgge", 0), ("labHwyMpgge", 0), ("labCombMpgge", 0),
      ("adjUddsMpgge", 0), ("adjHwyMpgge", 0), ("adjCombMpgge", 0)]
    let au := adjKwhBev c adj.cityInt adj.citySlope u.kwhPerMi
    let ah := adjKwhBev c adj.hwyInt adj.hwySlope h.kwhPerMi
    let ac := combKwh au ah
    let d := setNums d [("adjUddsKwhPerMile", au), ("adjHwyKwhPerMile", ah), ("adjCombKwhPerMile", ac),
      ("adjUddsEssKwhPerMile", au * c.chgEff), ("adjHwyEssKwhPerMile", ah * c.chgEff),
      ("adjCombEssKwhPerMile", ac * c.chgEff), ("netRangeMiles", veh.essMaxKwh / (ac * c.chgEff))]
    .ok (setNums d [("UF", 0)])
  else do
    let a ← pyDiv wCity u.mpgge
    let b ← pyDiv wHwy h.mpgge
    let comb ← pyDiv 1 (a + b)
    let d := setNums d [("labUddsMpgge", u.mpgge), ("labHwyMpgge", h.mpgge), ("labCombMpgge", comb)]
    let d := setNums d [("labUddsKwhPerMile", 0), ("labHwyKwhPerMile", 0), ("labCombKwhPerMile", 0)]
    let au := adjMpg adj.cityInt adj.citySlope u.mpgge
    let ah := adjMpg adj.hwyInt adj.hwySlope h.mpgge
    let d := setNums d [("adjUddsMpgge", au), ("adjHwyMpgge", ah), ("adjCombMpgge", combMpg au ah)]
    let d := setNums d [("adjUddsKwhPerMile", 0), ("adjHwyKwhPerMile", 0), ("adjCombKwhPerMile", 0),
      ("adjUddsEssKwhPerMile", 0), ("adjHwyEssKwhPerMile", 0), ("adjCombEssKwhPerMilenetRangeMiles", 0)]
    .ok (setNums d [("UF", 0)])

/-- simdrivelabel.py:455-461: the time to 60 mph from the achieved speeds and times of the acceleration test. -/
def netAccel (mphTime : List (K × K)) : K :=
  if mphTime.any (fun p => decide (((60 : ℕ) : K) ≤ p.1)) then interp ((60 : ℕ) : K) mphTime else ((1000 : ℕ) : K)

/-- `interpf(x)` (simdrivelabel.py:82-84) for one number: `interp1d` of kind `previous` raises `ValueError` outside the
table. -/
def ufAt (tbl : List (K × K)) (x : K) : Except PyErr K :=
  if inTable x tbl then .ok (holdFrom x 0 tbl) else .error .valueError

/-- `a * b` of two arrays: equally long, or one of them of length one. -/
def npMul (a b : List K) : Except PyErr (List K) :=
  if a.length = b.length then .ok (List.zipWith (· * ·) a b)
  else match a, b with
    | [x], b => .ok (b.map (x * ·))
    | a, [y] => .ok (a.map (· * y))
    | _, _ => .error .valueError

/-- `l[-k]` of an array. -/
def fromEnd (l : List K) (k : Nat) : Except PyErr K :=
  match pyGet? l (-(k : Int)) with
  | some x => .ok x
  | none => .error .indexError

/-- simdrivelabel.py:315-324, 334-344: adjusted energy use per mile of one iteration. -/
def adjIterKwh (c : LabelConst K) (int slope x : K) : K :=
  if x = 0 then 0
  else 1 / max (adjMpg int slope (1 / x * c.kwhPerGge)) ((1 - c.maxEpaAdj) * (1 / x * c.kwhPerGge)) * c.kwhPerGge

/-- simdrivelabel.py:307-313, 327-332: adjusted economy for `dist` miles on `kwh` of fuel. -/
def adjIterMpg (c : LabelConst K) (int slope dist kwh : K) : K :=
  max (adjMpg int slope (dist / (kwh / c.kwhPerGge))) (dist / (kwh / c.kwhPerGge) * (1 - c.maxEpaAdj))

/-- simdrivelabel.py:346-360: the loop over `adjIterCdMiles`, from index `c` on; `n` is the number of whole cycles, `prev`
the previous entry. Reading past the end of `adjIterKwhPerMile` would be an `IndexError`; with `c ≤ n + 1` it has an
entry. -/
def cdMilesLoop (adjKwh : List K) (cdKwhMi transKwhMi dist : K) (n : Nat) : Nat → Nat → K → List K
  | 0, _, _ => []
  | k + 1, c, prev =>
    let x :=
      if c = 0 then 0
      else if c ≤ n then prev + cdKwhMi * dist / adjKwh.getD c 0
      else if c = n + 1 then prev + transKwhMi * dist / adjKwh.getD c 0
      else 0
    x :: cdMilesLoop adjKwh cdKwhMi transKwhMi dist n k (c + 1) x

end Lawless

section Floor
variable [Field K] [LinearOrder K] [FloorRing K]

/-- The entries of `phev_calcs[key]` that the label uses. -/
structure PhevCalc (K : Type*) where
  labMpgge : K
  labKwhPerMile : K
  adjCdMiles : K
  adjCdMpgge : K
  adjCsMpgge : K
  adjMpgge : K
  adjKwhPerMile : K
  adjEssKwhPerMile : K

/-- simdrivelabel.py:176-180: charge reserved for regenerative braking from 60 mph. -/
def regenSocBuffer (veh : LabelVeh K) : K :=
  min ((1 / 2 * veh.vehKg * (60 * (1 / mphPerMps)) ^ 2 * (1 / 3600) * (1 / 1000) * veh.maxRegen * veh.mcPeakEff) /
    veh.essMaxKwh) ((veh.maxSoc - veh.minSoc) / 2)

/-- simdrivelabel.py:183-397: the loop body of the plug-in hybrid branch for one cycle, after the charge depleting run `cd`.
`run soc` is `sd[key].sim_drive(soc)`. With less than one whole charge depleting cycle line 201 takes a remainder modulo
zero, which is `nan` and makes all results `nan`; the model reports `PyErr.other`. Entries that do not influence the
results are left out. -/
def phevCalc (c : LabelConst K) (tbl : List (K × K)) (veh : LabelVeh K) (int slope buffer : K) (cd : LabelRun K)
    (run : K → Except PyErr (LabelRun K)) : Except PyErr (PhevCalc K) := do
  let cdCycs := (veh.maxSoc - veh.minSoc) * veh.essMaxKwh / cd.kwhPerMi / cd.distMi
  let n : Int := ⌊cdCycs⌋
  let m : Int := ⌈cdCycs⌉
  if n = 0 then .error .other else
  let frac := cdCycs - (n : K) * (⌊cdCycs / (n : K)⌋ : K)
  let labIterUf ← holdAll ((List.range (m + 1).toNat).map fun k : ℕ => (k : K) * cd.distMi) tbl
  let _ ← run (veh.maxSoc - (n : K) * (cd.firstSoc - cd.lastSoc))
  let transKwhMi := cd.kwhPerMi * frac
  let cs ← run (veh.minSoc + 1 / 100)
  let csGal := cs.fsKwh / c.kwhPerGge
  let transGal := csGal * (1 - frac)
  let transFsKwh := cs.fsKwh * (1 - frac)
  let dLast ← fromEnd (diff labIterUf) 1
  let gpmTrans := transGal * dLast / cs.distMi
  let never := veh.maxSoc - buffer - cs.minSoc < 1 / 100
  let cdMiles := if never then 1000 else (m : K) * cs.distMi
  let csMpg := cs.distMi / csGal
  let labUf ← ufAt tbl cdMiles
  let cdMpg := maxOf labIterUf / gpmTrans
  let labMpgge := 1 / (labUf / cdMpg + (1 - labUf) / csMpg)
  let midKwh := List.replicate n.toNat cd.kwhPerMi ++ [transKwhMi]
  let midUfKwh ← npMul midKwh (diff labIterUf)
  let labKwhPerMile := npSum (0 :: midUfKwh ++ [0]) / maxOf labIterUf
  if n < 0 then .error .valueError else
  let adjMpgTrans := adjIterMpg c int slope cs.distMi transFsKwh
  let adjMpgCs := adjIterMpg c int slope cs.distMi cs.fsKwh
  let adjKwh := (0 :: midKwh ++ [0]).map (adjIterKwh c int slope)
  let miles := cdMilesLoop adjKwh cd.kwhPerMi transKwhMi cs.distMi n.toNat (m.toNat + 2) 0 0
  let adjCdMiles := if never then 1000 else maxOf miles
  let adjUfs ← holdAll miles tbl
  let dTrans ← fromEnd (diff adjUfs) 2
  let uTrans ← fromEnd adjUfs 2
  let gpmT := 1 / adjMpgTrans * dTrans
  let gpmCs := 1 / adjMpgCs * (1 - uTrans)
  let ufKwh ← npMul adjKwh (0 :: diff adjUfs)
  let adjCdMpgge := 1 / gpmT * maxOf adjUfs
  let adjCsMpgge := 1 / gpmCs * (1 - maxOf adjUfs)
  let adjUf ← ufAt tbl adjCdMiles
  .ok {
    labMpgge := labMpgge
    labKwhPerMile := labKwhPerMile
    adjCdMiles := adjCdMiles
    adjCdMpgge := adjCdMpgge
    adjCsMpgge := adjCsMpgge
    adjMpgge := 1 / (adjUf / adjCdMpgge + (1 - adjUf) / adjCsMpgge)
    adjKwhPerMile := npSum ufKwh / maxOf adjUfs / veh.chgEff
    adjEssKwhPerMile := npSum ufKwh / maxOf adjUfs }

/-- simdrivelabel.py:399-444: the results of a plug-in hybrid from the two cycles. -/
def phevOut (c : LabelConst K) (tbl : List (K × K)) (veh : LabelVeh K) (u h : PhevCalc K) (d : PyDict (LabelVal K)) :
    Except PyErr (PyDict (LabelVal K)) := do
  let d := PyDict.set d "phev_calcs" .obj
  let cdComb := combMpg u.adjCdMpgge h.adjCdMpgge
  let csComb := combMpg u.adjCsMpgge h.adjCsMpgge
  let cdMiles := combKwh u.adjCdMiles h.adjCdMiles
  let d := setNums d [("labUddsMpgge", u.labMpgge), ("labHwyMpgge", h.labMpgge),
    ("labCombMpgge", combMpg u.labMpgge h.labMpgge),
    ("labUddsKwhPerMile", u.labKwhPerMile), ("labHwyKwhPerMile", h.labKwhPerMile),
    ("labCombKwhPerMile", combKwh u.labKwhPerMile h.labKwhPerMile),
    ("adjUddsMpgge", u.adjMpgge), ("adjHwyMpgge", h.adjMpgge), ("adjCombMpgge", combMpg u.adjMpgge h.adjMpgge),
    ("adjCsCombMpgge", csComb), ("adjCdCombMpgge", cdComb),
    ("adjUddsKwhPerMile", u.adjKwhPerMile), ("adjHwyKwhPerMile", h.adjKwhPerMile),
    ("adjCombKwhPerMile", combKwh u.adjKwhPerMile h.adjKwhPerMile),
    ("adjUddsEssKwhPerMile", u.adjEssKwhPerMile), ("adjHwyEssKwhPerMile", h.adjEssKwhPerMile),
    ("adjCombEssKwhPerMile", combKwh u.adjEssKwhPerMile h.adjEssKwhPerMile)]
  let uf ← ufAt tbl cdMiles
  .ok (setNums d [("UF", uf), ("netPhevCDMiles", cdMiles),
    ("netRangeMiles", (veh.fsKwh / c.kwhPerGge - cdMiles / cdComb) * csComb + cdMiles)])

/-- simdrivelabel.py:160-446: the plug-in hybrid branch. -/
def labelPhev (c : LabelConst K) (tbl : List (K × K)) (veh : LabelVeh K) (adj : AdjCoef K)
    (sim : LabelCyc → Option K → Except PyErr (LabelRun K)) (d : PyDict (LabelVal K)) :
    Except PyErr (PyDict (LabelVal K)) := do
  let cdU ← sim .udds (some veh.maxSoc)
  let cdH ← sim .hwy (some veh.maxSoc)
  let buffer := regenSocBuffer veh
  let u ← phevCalc c tbl veh adj.cityInt adj.citySlope buffer cdU (fun s => sim .udds (some s))
  let h ← phevCalc c tbl veh adj.hwyInt adj.hwySlope buffer cdH (fun s => sim .hwy (some s))
  phevOut c tbl veh u h d

/-- simdrivelabel.py:87, 160: the choice between the two branches. -/
def labelBody (c : LabelConst K) (tbl : List (K × K)) (veh : LabelVeh K) (adj : AdjCoef K)
    (sim : LabelCyc → Option K → Except PyErr (LabelRun K)) (u h : LabelRun K) (d : PyDict (LabelVal K)) :
    Except PyErr (PyDict (LabelVal K)) :=
  if veh.ptType = .phev then labelPhev c tbl veh adj sim d else labelNonPhev c veh adj u h d

/-- simdrivelabel.py:16-484 `get_label_fe`. `sim` runs `sim_drive` on a copy of the bundled cycle; `accel` is the
acceleration test. With `full_detail` the simulations are returned as well; printing is left out. -/
def getLabelFe (c : LabelConst K) (tbl : List (K × K)) (veh : LabelVeh K)
    (sim : LabelCyc → Option K → Except PyErr (LabelRun K)) (accel : Except PyErr (List (K × K))) :
    Except PyErr (PyDict (LabelVal K)) := do
  let d : PyDict (LabelVal K) := PyDict.set [] "veh" .obj
  let u ← sim .udds none
  let h ← sim .hwy none
  let adj := adjParams veh.vehYear
  let d := PyDict.set d "adjParams" .obj
  let d ← labelBody c tbl veh adj sim u h d
  let a ← accel
  let d := setNums d [("netAccel", netAccel a)]
  .ok (PyDict.set d "resFound" .obj)

end Floor

end Fastsim
