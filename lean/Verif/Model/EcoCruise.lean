import Verif.Model.Resample
import Verif.Model.Run

/-!
# Model of the eco-cruise set-up (`cycle.py`, `simdrive.py`)
-/

namespace Fastsim

section Lawless
variable {K : Type*} [Zero K] [One K] [NatCast K] [Add K] [Sub K] [Mul K] [Div K] [Neg K]
  [LinearOrder K]

/-- `time_spent_moving` (cycle.py:945-951): time of the steps whose average speed is positive. -/
def timeSpentMoving : K → Cyc K → K
  | t, a :: b :: l => timeSpentMoving (if 0 < (b.v + a.v) / (1 + 1) then t + (b.t - a.t) else t) (b :: l)
  | t, _ => t

/-- `mt_cyc.time_s[-1] - mt_cyc.time_s[0]` (cycle.py:960). -/
def tripTime (m : Cyc K) : K := (m.times.getLast?.getD 0) - (m.times.head?.getD 0)

/-- Target speed of one microtrip before the minimum is applied (cycle.py:958-968). `sum(mt_cyc.dist_m)` adds from
the left starting at `0`. -/
def tripTarget (blend : K) (m : Cyc K) : K :=
  let dist := npSum (distM m)
  let time := tripTime m
  let moving := timeSpentMoving 0 m
  let avg := if 0 < time then dist / time else 0
  let mavg := if 0 < moving then dist / moving else 0
  max (min (blend * (mavg - avg) + avg) mavg) avg

/-- Loop over the microtrips (cycle.py:957-973), `d` being the distance at the start of the next one. -/
def targetLoop (blend minTarget : K) : K → List (Cyc K) → List (K × K)
  | _, [] => []
  | d, m :: ms =>
    if 0 < npSum (distM m) then
      (d, max (tripTarget blend m) minTarget) :: targetLoop blend minTarget (d + npSum (distM m)) ms
    else targetLoop blend minTarget d ms

/-- `create_dist_and_target_speeds_by_microtrip(cyc, blend_factor, min_target_speed_mps)` (cycle.py:929-974). -/
def targetTable (c : Cyc K) (blend minTarget : K) : List (K × K) :=
  targetLoop (max 0 (min 1 blend)) minTarget 0 (toMicrotrips (1 / 1000000) c)

end Lawless

/-- What `activate_eco_cruise` reads and writes of a `SimDrive`. -/
structure Eco (K : Type*) where
  params : SimParams K
  cyc0 : Cyc K
  cyc : Cyc K

section Floor
variable {K : Type*} [Field K] [LinearOrder K] [FloorRing K]

/-- The part after the speed has been set (simdrive.py:498-505). -/
def ecoExtend (e : Eco K) (extendFraction : K) : Option PyErr × Eco K :=
  if extendFraction < 0 then (some .typeError, e)
  else if 0 < extendFraction then
    match extendCycle e.cyc0 0 extendFraction with
    | .error er => (some er, e)
    | .ok c => (none, { e with cyc0 := c, cyc := c })
  else (none, e)

/-- `activate_eco_cruise(by_microtrip, extend_fraction, blend_factor, min_target_speed_m_per_s)` (simdrive.py:466-505):
the exception raised, if any, and the state left behind in either case (`sim_params` is modified in place). -/
def activateEcoCruise (e : Eco K) (byMicrotrip : Bool) (extendFraction blend minTarget : K) :
    Option PyErr × Eco K :=
  let e1 : Eco K := { e with params := { e.params with idmAllow := true } }
  if byMicrotrip = false then
    let last := e.cyc0.times.getLast?.getD 0
    let v := if 0 < e.cyc0.length ∧ 0 < last then npSum (distM e.cyc0) / last else 0
    ecoExtend { e1 with params := { e1.params with idmVDesired := v } } extendFraction
  else if 1 < blend ∨ blend < 0 then (some .typeError, e1)
  else if minTarget < 0 then (some .typeError, e1)
  else ecoExtend { e1 with params := { e1.params with idmByDistance := some (targetTable e.cyc0 blend minTarget) } }
    extendFraction

end Floor
end Fastsim
