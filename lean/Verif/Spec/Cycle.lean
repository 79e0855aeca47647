import Mathlib.Algebra.Order.Field.Basic
import Verif.Model.Cycle

/-!
# Independent specifications for drive cycles

Only the data type `Sample`/`Cyc` is taken from the model.
-/

namespace Fastsim.Spec
open Fastsim

section
variable {K : Type*} [Field K]

/-- The same trace with every time moved by `d`. -/
def shift (d : K) (c : Cyc K) : Cyc K := c.map fun s => ⟨s.t + d, s.v, s.g, s.r⟩

/-- Time of the first sample (`0` for the empty trace). -/
def startTime : Cyc K → K
  | [] => 0
  | s :: _ => s.t

/-- Time of the last sample (`0` for the empty trace). -/
def endTime : Cyc K → K
  | [] => 0
  | [s] => s.t
  | _ :: c => endTime c

/-- The same trace with times measured from its first sample. -/
def fromZero (c : Cyc K) : Cyc K := shift (-(startTime c)) c

/-- Distance by the trapezoidal rule over a whole trace. -/
def distance : Cyc K → K
  | a :: b :: l => (a.v + b.v) / 2 * (b.t - a.t) + distance (b :: l)
  | _ => 0

end

section
variable {K : Type*} [LinearOrder K]

/-- A sample counts as stopped. -/
def Stopped (stop : K) (s : Sample K) : Prop := s.v ≤ stop

/-- Times strictly increase. -/
def Increasing (c : Cyc K) : Prop := c.Pairwise fun a b => a.t < b.t

/-- Times never decrease. -/
def NonDecreasing (c : Cyc K) : Prop := c.Pairwise fun a b => a.t ≤ b.t

end

/-- Speeds are never negative. -/
def SpeedsNonneg {K : Type*} [Zero K] [LE K] (c : Cyc K) : Prop := ∀ s ∈ c, 0 ≤ s.v

end Fastsim.Spec
