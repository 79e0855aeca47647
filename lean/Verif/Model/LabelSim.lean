import Verif.Model.Label
import Verif.Model.Post
import Verif.Model.Coast

/-!
# The simulations behind the label (`simdrivelabel.py:54-86, 448-461`, `run_simdrive_for_accel_test`)

`Model/Label.lean` takes the simulations as an argument; here they are those of the vehicle. The code runs several simulations
with one object; runs do not influence each other (C28), and the model makes a new object for each.
-/

namespace Fastsim

section Lawless
variable {K : Type*} [Zero K] [One K] [NatCast K] [Add K] [Sub K] [Mul K] [Div K] [Neg K]
  [LinearOrder K]

/-- The starting charge of `run_simdrive_for_accel_test` (simdrive.py:2420-2432). -/
def accelTestSoc (V : Veh K) : K :=
  match V.ptType with
  | .conv => (V.maxSoc + V.minSoc) / 2
  | .hev => (V.maxSoc + V.minSoc) / 2
  | .phev => V.maxSoc
  | .bev => V.maxSoc

/-- `run_simdrive_for_accel_test(sd)` (simdrive.py:2420-2433): one walk, without charge balancing. `set_post_scalars` at the end
changes no record but `accel_kw`. -/
def accelTest (F : Fns K) (H : Hooks K) (V : Veh K) (P : SimParams K) (s : Sim K) : Except PyErr (Sim K) :=
  walk F H V P s (accelTestSoc V) none

/-- What the label reads from a finished run (simdrivelabel.py:95-99, 183-240). -/
def labelRun (kwhPerGge : K) (V : Veh K) (s : Sim K) : LabelRun K :=
  { mpgge := mpgge kwhPerGge s
    kwhPerMi := batteryKwhPerMi V s
    distMi := totalMiles s
    fsKwh := totalFuelKwh s
    minSoc := (s.rows.map fun r => r.dec.soc).foldl min s.firstRow.dec.soc
    firstSoc := s.firstRow.dec.soc
    lastSoc := s.lastRow.dec.soc }

end Lawless

section Floor
variable {K : Type*} [Field K] [LinearOrder K] [FloorRing K]

/-- `cyc['accel']` (simdrivelabel.py:55-60): one sample at rest, then 90 mph, every tenth of a second up to 300 s. Exact
arithmetic; numpy's `arange` gives as many samples. -/
def accelTrace : Cyc K :=
  match arange (0 : K) 300 (1 / 10) with
  | [] => []
  | t :: ts => ⟨t, 0, 0, 0⟩ :: ts.map fun x => ⟨x, 90 / mphPerMps, 0, 0⟩

/-- Achieved speeds (mph) of the acceleration test with the times of its trace (simdrivelabel.py:448-457). -/
def accelSpeeds (F : Fns K) (V : Veh K) (P : SimParams K) : Except PyErr (List (K × K)) :=
  match accelTest F (realHooks F V P) V P (Sim.new accelTrace) with
  | .error e => .error e
  | .ok s => .ok ((s.rows.map fun r => r.ach.mphAch).zip (Cyc.times (accelTrace : Cyc K)))

/-- `sd[cycle].sim_drive(init_soc)` (simdrivelabel.py:62-79, 86-90, 183-240) with the cycles `udds` and `hwy`. -/
def labelSim (F : Fns K) (V : Veh K) (P : SimParams K) (c : LabelConst K) (udds hwy : Cyc K) (k : LabelCyc)
    (init : Option K) : Except PyErr (LabelRun K) :=
  match simDrive F (realHooks F V P) V P (Sim.new (match k with | .udds => udds | .hwy => hwy)) init none with
  | .error e => .error e
  | .ok s => .ok (labelRun c.kwhPerGge V s)

/-- `get_label_fe(veh)` with the simulations of the vehicle `V`, whose attributes for the label are `veh`. -/
def vehicleLabel (F : Fns K) (V : Veh K) (P : SimParams K) (c : LabelConst K) (tbl : List (K × K)) (veh : LabelVeh K)
    (udds hwy : Cyc K) : Except PyErr (PyDict (LabelVal K)) :=
  getLabelFe c tbl veh (labelSim F V P c udds hwy) (accelSpeeds F V P)

end Floor
end Fastsim
