import Verif.Model.Np

/-!
# Model of `python/fastsim/cycle.py` (containers, splitting, joining, distances)

A cycle is a list of samples. Simplification: the code keeps four (equally long) numpy
arrays `time_s`, `mps`, `grade`, `road_type`; the model keeps one list of 4-tuples, i.e.
cycles with channels of different lengths are not represented (`make_cycle`,
cycle.py:451-459, asserts equal lengths). The `name` string is dropped.
-/

namespace Fastsim

/-- One sample of a cycle: `time_s[i], mps[i], grade[i], road_type[i]` (cycle.py:102-105). -/
@[ext] structure Sample (K : Type*) where
  t : K
  v : K
  g : K
  r : K
  deriving DecidableEq, Repr

/-- A drive cycle (cycle.py:97 `class Cycle`, also the dict form of `Cycle.to_dict`). -/
abbrev Cyc (K : Type*) := List (Sample K)

section Channels
variable {K : Type*}
/-- `cyc.time_s` -/
def Cyc.times (c : Cyc K) : List K := c.map Sample.t
/-- `cyc.mps` -/
def Cyc.speeds (c : Cyc K) : List K := c.map Sample.v
/-- `cyc.grade` -/
def Cyc.grades (c : Cyc K) : List K := c.map Sample.g
end Channels

section Lawless
variable {K : Type*} [Zero K] [One K] [NatCast K] [Add K] [Sub K] [Mul K] [Div K] [Neg K]
  [LinearOrder K]

/-- `mt['time_s'] - mt['time_s'][0]` (cycle.py:420, 431, 646): times relative to the first. -/
def rebase (c : Cyc K) : Cyc K :=
  match c with
  | [] => []
  | s :: _ => c.map fun x => { x with t := x.t - s.t }

/-- State of the loop of `to_microtrips` (cycle.py:405, 410-411). -/
structure MtState (K : Type*) where
  /-- `microtrips` -/
  done : List (Cyc K)
  /-- `mt` -/
  mt : Cyc K
  /-- `moving` -/
  moving : Bool

/-- Body of the loop of `to_microtrips` (cycle.py:412-429). -/
def mtStep (stop : K) (s : MtState K) (x : Sample K) : MtState K :=
  let s' : MtState K :=
    if stop < x.v ∧ s.moving = false ∧ 1 < s.mt.length then
      { done := s.done ++ [rebase s.mt], mt := s.mt.getLast?.toList, moving := s.moving }
    else s
  { done := s'.done, mt := s'.mt ++ [x], moving := decide (stop < x.v) }

/-- `to_microtrips(cycle, stop_speed_m__s)` (cycle.py:392-436); `keep_name` is dropped. -/
def toMicrotrips (stop : K) (c : Cyc K) : List (Cyc K) :=
  let s := c.foldl (mtStep stop) { done := [], mt := [], moving := false }
  if 0 < s.mt.length then s.done ++ [rebase s.mt] else s.done

/-- One iteration of `concat` for a cycle that is not the first (cycle.py:516-523):
`final_cycle['time_s'][-1]` raises `IndexError` when nothing has been collected yet. -/
def concatStep (acc : Cyc K) (c : Cyc K) : Except PyErr (Cyc K) :=
  match acc.getLast? with
  | none => .error .indexError
  | some l => .ok (acc ++ c.tail.map fun x => { x with t := x.t + l.t })

/-- The loop of `concat` after the first cycle (cycle.py:508-523). -/
def concatFrom (acc : Cyc K) : List (Cyc K) → Except PyErr (Cyc K)
  | [] => .ok acc
  | c :: cs =>
    match concatStep acc c with
    | .error e => .error e
    | .ok acc' => concatFrom acc' cs

/-- `concat(cycles)` (cycle.py:493-526). -/
def concat : List (Cyc K) → Except PyErr (Cyc K)
  | [] => .ok []
  | c :: cs => concatFrom c cs

/-- `clip_by_times(cycle, t_end, t_start)` (cycle.py:625-647). -/
def clipByTimes (c : Cyc K) (tEnd tStart : K) : Except PyErr (Cyc K) :=
  let kept := c.filter fun s => decide (tStart ≤ s.t ∧ s.t ≤ tEnd)
  match kept with
  | [] => .error .indexError
  | _ => .ok (rebase kept)

/-- `Cycle.dt_s` (cycle.py:198-199): `np.diff(time_s, prepend=0)`. -/
def dtS (c : Cyc K) : List K := diff (0 :: c.times)

/-- `Cycle.dt_s_at_i` (cycle.py:201-208). -/
def dtAt (c : Cyc K) (i : Nat) : K :=
  if i < 1 then 0
  else (c.times.getD i 0) - (c.times.getD (i - 1) 0)

/-- `average_step_speeds` (cycle.py:858-863). -/
def averageStepSpeeds (c : Cyc K) : List K :=
  0 :: List.zipWith (fun b a => 1 / 2 * (b + a)) c.speeds.tail c.speeds

/-- `average_step_speed_at` (cycle.py:865-870), for `1 ≤ i < len(cyc)`. -/
def averageStepSpeedAt (c : Cyc K) (i : Nat) : K :=
  1 / 2 * (c.speeds.getD i 0 + c.speeds.getD (i - 1) 0)

/-- `trapz_step_distances` (cycle.py:872-877). -/
def trapzStepDistances (c : Cyc K) : List K :=
  List.zipWith (· * ·) (averageStepSpeeds c) (dtS c)

/-- `trapz_step_distances(cyc).cumsum()` (cycle.py:53-54, 265-266, 305). -/
def trapzDistances (c : Cyc K) : List K := cumsum (trapzStepDistances c)

/-- `trapz_step_start_distance` (cycle.py:879-887), for `i ≤ len(cyc)` (numpy raises a shape
error beyond that; theorems assume `i ≤ length`). -/
def trapzStepStartDistance (c : Cyc K) (i : Nat) : K :=
  npSum (List.zipWith (· * ·) (diff (c.times.take i))
    ((List.zipWith (fun a b => 1 / 2 * (a + b)) (c.speeds.take (i - 1)) ((c.speeds.take i).drop 1))))

/-- `trapz_distance_for_step` (cycle.py:889-894). -/
def trapzDistanceForStep (c : Cyc K) (i : Nat) : K :=
  averageStepSpeedAt c i * dtAt c i

/-- `trapz_distance_over_range` (cycle.py:896-901). -/
def trapzDistanceOverRange (c : Cyc K) (iStart iEnd : Nat) : K :=
  npSum (((trapzStepDistances c).take iEnd).drop iStart)

/-- `Cycle.dist_m` (cycle.py:212-213). -/
def distM (c : Cyc K) : List K := List.zipWith (· * ·) c.speeds (dtS c)

/-- `Cycle.delta_elev_m` (cycle.py:216-220). -/
def deltaElevM (c : Cyc K) : List K := cumsum (List.zipWith (· * ·) (distM c) c.grades)

/-- `accelerations` (cycle.py:650-660). -/
def accelerations (c : Cyc K) : List K :=
  List.zipWith (· / ·) (diff c.speeds) (diff c.times)

end Lawless

end Fastsim
