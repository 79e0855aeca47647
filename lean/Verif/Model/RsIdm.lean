import Verif.Model.RsCycle

/-!
# Model of car following in the Rust core
(`rust/fastsim-core/src/simdrive/cyc_mods.rs`, below `mods`, and `step` in `simdrive_impl.rs`, below `impl`)

Written from the Rust source; array bounds are as in Model/RsRun.lean (steps inside the arrays, at least 1).
-/

namespace Fastsim

section Lawless
variable {K : Type*} [Zero K] [One K] [NatCast K] [Add K] [Sub K] [Mul K] [Div K] [Neg K]
  [LinearOrder K]

/-- `f64::abs` -/
def rsAbs (x : K) : K := if x < 0 then -x else x

/-- `next_speed_by_idm` (mods:99-139) for `i = self.i` inside the arrays, at least 1. The distance of the lead vehicle is read
from the cache that `init_arrays` makes of `cyc0`; `powf(0.5)` is `F.sqrt`, `powi(2)` a product. -/
def rsNextSpeedByIdm (F : Fns K) (s : Sim K) (a b headway s0 vDesired delta : K) : K :=
  if vDesired ≤ 0 then 0
  else
    let a := rsAbs a
    let b := rsAbs b
    let headway := max headway 0
    let s0 := max 0 s0
    let sqrtAb := F.sqrt (a * b)
    let v0 := (s.rows.getD (s.i - 1) Row.zero).ach.mpsAch
    let v0Lead := s.cyc0.speeds.getD (s.i - 1) 0
    let dv0 := v0 - v0Lead
    let d0Lead := (rsDistances s.cyc0).getD (s.i - 1) 0 + s0
    let d0 := rsStepStartDistance s.cyc s.i
    let sm := max (d0Lead - d0) (1 / 100)
    let sTarget := s0 + max 0 ((v0 * headway) + ((v0 * dv0) / (2 * sqrtAb)))
    let accel := a * (1 - F.pow (v0 / vDesired) delta - (sTarget / sm) * (sTarget / sm))
    max (v0 + (accel * rsDtAt s.cyc s.i)) 0

/-- `*self.cyc0.mps.max().unwrap()` (mods:162, `set_speed_for_target_gap_using_idm`): `None` of an empty array panics. -/
def rsMaxOf : List K → Except RsErr K
  | [] => .error .panic
  | x :: l => .ok (l.foldl (fun m y => if m < y then y else m) x)

/-- `set_speed_for_target_gap_using_idm` (mods:157-175). -/
def rsSetSpeedForTargetGap (F : Fns K) (P : SimParams K) (s : Sim K) : Except RsErr (Sim K) :=
  let t := s.idmTarget.getD s.i 0
  match (if 0 < t then .ok t else rsMaxOf s.cyc0.speeds) with
  | .error e => .error e
  | .ok vDesired =>
    let v := rsNextSpeedByIdm F s P.idmAccel P.idmDecel P.idmDtHeadway P.idmMinimumGap vDesired P.idmDelta
    .ok { s with cyc := s.cyc.modify s.i fun x => { x with v := v } }

/-- The loop over the table (impl:574-580). -/
def rsLookupTarget (d : K) : K → List (K × K) → K
  | found, [] => found
  | found, p :: r => if p.1 ≤ d then rsLookupTarget d p.2 r else found

/-- The desired speed (impl:569-584): `vtgt_by_dist[0]` of an empty table panics. -/
def rsIdmTarget (P : SimParams K) (s : Sim K) : Except RsErr K :=
  match P.idmByDistance with
  | some tbl =>
    match tbl with
    | [] => .error .panic
    | p :: r => .ok (rsLookupTarget (rsSum ((rsDist s.cyc).take s.i)) p.2 (p :: r))
  | none => .ok P.idmVDesired

/-- The car-following part of `step` (impl:568-586). -/
def rsIdmHook (F : Fns K) (P : SimParams K) (s : Sim K) : Except RsErr (Sim K) :=
  match rsIdmTarget P s with
  | .error e => .error e
  | .ok v => rsSetSpeedForTargetGap F P { s with idmTarget := s.idmTarget.set s.i v }

/-- `gap_to_lead_vehicle_m` (mods:15-24). -/
def rsGap (P : SimParams K) (s : Sim K) : List K :=
  let gaps := List.zipWith (fun a b => a - b) (rsDistances s.cyc0) (rsDistances s.cyc)
  if P.idmAllow then gaps.map (· + P.idmMinimumGap) else gaps

end Lawless

section Floor
variable {K : Type*} [Field K] [LinearOrder K] [FloorRing K]

/-- The mean speed of the whole cycle (mods:45-53). -/
def rsMeanSpeed (c : Cyc K) : K :=
  match c.times.getLast? with
  | some t => if 0 < t then rsSum ((rsDist c).take c.length) / t else 0
  | none => 0

/-- The end of `activate_eco_cruise_rust` (mods:72-83). -/
def rsEcoExtend (e : Eco K) (extendFraction : K) : Option RsErr × Eco K :=
  if ¬ 0 ≤ extendFraction then (some .err, e)
  else if 0 < extendFraction then
    match rsExtend e.cyc0 none (some extendFraction) with
    | .error er => (some er, e)
    | .ok c => (none, { e with cyc0 := c, cyc := c })
  else (none, e)

/-- `activate_eco_cruise_rust` (mods:35-84): the error, if any, and what is left in either case. -/
def rsActivateEcoCruise (e : Eco K) (byMicrotrip : Bool) (extendFraction blend minTarget : K) : Option RsErr × Eco K :=
  let e : Eco K := { e with params := { e.params with idmAllow := true } }
  if byMicrotrip = false then
    rsEcoExtend { e with params := { e.params with idmVDesired := rsMeanSpeed e.cyc0 } } extendFraction
  else if ¬ (0 ≤ blend ∧ blend ≤ 1) then (some .err, e)
  else if ¬ 0 ≤ minTarget then (some .err, e)
  else rsEcoExtend { e with params := { e.params with idmByDistance := some (rsTargets e.cyc0 blend minTarget) } }
    extendFraction

end Floor
end Fastsim
