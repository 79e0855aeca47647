import Verif.Model.Run

/-!
# Peak accelerations of a cycle, gap to the lead vehicle
-/

namespace Fastsim

section Lawless
variable {K : Type*} [Zero K] [One K] [NatCast K] [Add K] [Sub K] [Mul K] [Div K] [Neg K]
  [LinearOrder K]

/-- `np.max` of an array; empty arrays raise `ValueError`. -/
def npMax : List K → Except PyErr K
  | [] => .error .valueError
  | x :: l => .ok (l.foldl max x)

/-- `np.min` of an array; empty arrays raise `ValueError`. -/
def npMin : List K → Except PyErr K
  | [] => .error .valueError
  | x :: l => .ok (l.foldl min x)

/-- `peak_acceleration(cycle)` (cycle.py:663-671). Times that do not increase give numpy `inf` or `nan`, which
are not represented; the theorems assume increasing times. -/
def peakAcceleration (c : Cyc K) : Except PyErr K := npMax (accelerations c)

/-- `peak_deceleration(cycle)` (cycle.py:674-682). -/
def peakDeceleration (c : Cyc K) : Except PyErr K := npMin (accelerations c)

/-- `SimDrive.gap_to_lead_vehicle_m` (simdrive.py:335-342); the two cycles are equally long. -/
def gapToLead (P : SimParams K) (s : Sim K) : List K :=
  let gaps := List.zipWith (· - ·) (trapzDistances s.cyc0) (trapzDistances s.cyc)
  if P.idmAllow then gaps.map (· + P.idmMinimumGap) else gaps

end Lawless
end Fastsim
