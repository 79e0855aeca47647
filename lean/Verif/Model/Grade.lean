import Verif.Model.Cycle
import Verif.Model.Veh

/-!
# Model of `CycleCache` and of the grade, elevation and next-stop queries of `cycle.py`
-/

namespace Fastsim

section Lawless
variable {K : Type*} [Zero K] [One K] [NatCast K] [Add K] [Sub K] [Mul K] [Div K] [Neg K]
  [LinearOrder K]

/-- `(grade == 0.0).all()` (cycle.py:52, 261). -/
def gradeAllZero (c : Cyc K) : Bool := c.grades.all fun g => decide (g = 0)

/-- `np.cumsum(np.cos(np.arctan(grade)) * step_distances * grade)` (cycle.py:58, 280). -/
def trapzElevations (F : Fns K) (c : Cyc K) : List K :=
  cumsum (List.zipWith (fun g d => F.cosAtan g * d * g) c.grades (trapzStepDistances c))

/-- `cyc.mps <= tol` with `tol = 1e-6` (cycle.py:59, 306). -/
def stops (c : Cyc K) : List Bool := c.speeds.map fun v => decide (v ≤ 1 / 1000000)

/-- One sample of the knots the cache is built from: distance, sample index, elevation. -/
structure Knot (K : Type*) where
  d : K
  idx : Nat
  h : K

/-- Loop of `CycleCache.__init__` (cycle.py:63-67): keep a knot only if its distance exceeds that
of the last knot kept. -/
def keepKnots : List (Knot K) → List (Knot K) → List (Knot K)
  | acc, [] => acc
  | acc, k :: ks =>
    match acc.getLast? with
    | none => keepKnots (acc ++ [k]) ks
    | some l => if l.d < k.d then keepKnots (acc ++ [k]) ks else keepKnots acc ks

/-- All knots of a cycle, one per sample. -/
def allKnots (F : Fns K) (c : Cyc K) : List (Knot K) :=
  List.zipWith (fun (p : K × Nat) h => (⟨p.1, p.2, h⟩ : Knot K))
    (trapzDistances c).zipIdx (trapzElevations F c)

/-- The knots kept in a `CycleCache` (cycle.py:60-70). -/
def cacheKnots (F : Fns K) (c : Cyc K) : List (Knot K) := keepKnots [] (allKnots F c)

/-- `CycleCache.interp_grade` (cycle.py:73-85). The indices of kept knots are embedded in `K` by
the cast of natural numbers (`dtype=float`). Empty cycles (`IndexError` in the code) give `0`. -/
def interpGrade (F : Fns K) (c : Cyc K) (dist : K) : K :=
  if gradeAllZero c then 0
  else
    let ks := cacheKnots F c
    match ks with
    | [] => 0
    | k :: _ =>
      if dist ≤ k.d then c.grades.getD 0 0
      else if (ks.getLast?.map Knot.d).getD 0 < dist then c.grades.getLast?.getD 0
      else c.grades.getD (F.ceilNat (interp dist (ks.map fun x => (x.d, (x.idx : K))))) 0

/-- `CycleCache.interp_elevation` (cycle.py:87-93). -/
def interpElevation (F : Fns K) (c : Cyc K) (dist : K) : K :=
  if gradeAllZero c then 0
  else interp dist ((cacheKnots F c).map fun x => (x.d, x.h))

/-- The `for idx in range(1, len)` search of `average_grade_over_range` (cycle.py:272-275) over
the list of (distance, grade), `prev` being the previous distance. -/
def gradeSearch (x prev : K) : List (K × K) → Option K
  | [] => none
  | p :: r => if prev < x ∧ x ≤ p.1 then some p.2 else gradeSearch x p.1 r

/-- Single-point grade without cache (cycle.py:267-275). -/
def pointGrade (c : Cyc K) (x : K) : K :=
  match (trapzDistances c).zip c.grades with
  | [] => 0
  | p :: r =>
    if x ≤ p.1 then p.2
    else if ((p :: r).getLast?.map Prod.fst).getD 0 < x then c.grades.getLast?.getD 0
    else (gradeSearch x p.1 r).getD (c.grades.getLast?.getD 0)

/-- `average_grade_over_range(start, delta)` without cache (cycle.py:250-290). -/
def averageGrade (F : Fns K) (c : Cyc K) (start delta : K) : K :=
  if gradeAllZero c then 0
  else if delta ≤ 1 / 1000000 then pointGrade c start
  else
    let tbl := (trapzDistances c).zip (trapzElevations F c)
    F.tanAsin ((interp (start + delta) tbl - interp start tbl) / delta)

/-- `average_grade_over_range(start, delta, cache)` with the cycle's own cache
(cycle.py:284-290). -/
def averageGradeCached (F : Fns K) (c : Cyc K) (start delta : K) : K :=
  if gradeAllZero c then 0
  else if delta ≤ 1 / 1000000 then interpGrade F c start
  else F.tanAsin ((interpElevation F c (start + delta) - interpElevation F c start) / delta)

/-- `calc_distance_to_next_stop_from(distance)` (cycle.py:292-308). The cached variant reads the
same two arrays from the cache. -/
def distanceToNextStop (c : Cyc K) (x : K) : K :=
  let ds := trapzDistances c
  let k := argmaxBool (List.zipWith (fun d (s : Bool) => decide (x < d) && s) ds (stops c))
  ds.getD k 0 - x

/-- The two arrays of a `CycleCache` that the next-stop query reads (cycle.py:53-54, 59). -/
structure StopCache (K : Type*) where
  distances : List K
  stops : List Bool

/-- `build_cache()` (cycle.py:176-183, 50-59), restricted to those arrays. -/
def buildStopCache (c : Cyc K) : StopCache K := { distances := trapzDistances c, stops := stops c }

/-- `calc_distance_to_next_stop_from(distance, cache)` (cycle.py:301-303, 307-308): the cycle itself is
not read. -/
def distanceToNextStopCached (q : StopCache K) (x : K) : K :=
  let k := argmaxBool (List.zipWith (fun d (s : Bool) => decide (x < d) && s) q.distances q.stops)
  q.distances.getD k 0 - x

end Lawless

end Fastsim
