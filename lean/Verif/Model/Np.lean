import Mathlib.Order.Lattice
import Mathlib.Order.Defs.LinearOrder
import Mathlib.Data.Nat.Cast.Defs
import Mathlib.Algebra.Order.Floor.Defs
import Mathlib.Algebra.Order.Floor.Ring
import Mathlib.Algebra.Field.Defs
import Mathlib.Order.Basic

/-!
# Numpy / Python primitives used by the code

Definitions are over an arbitrary linearly ordered type with *arbitrary* arithmetic
operations whenever possible, so that order-theoretic theorems hold for any rounding.
-/

namespace Fastsim

/-- Exceptions raised by the modelled code, as values. -/
inductive PyErr where
  | indexError | valueError | assertionError | typeError | keyError | attributeError
  | zeroDivision | other
  deriving DecidableEq, Repr

deriving instance DecidableEq for Except

section Lawless
variable {K : Type*} [Zero K] [One K] [NatCast K] [Add K] [Sub K] [Mul K] [Div K] [Neg K]
  [LinearOrder K]

/-- Python `abs` / `np.abs`. -/
def pabs (x : K) : K := if x < 0 then -x else x

/-- `np.diff` of a one-dimensional array. -/
def diff : List K → List K
  | a :: b :: l => (b - a) :: diff (b :: l)
  | _ => []

/-- `np.cumsum` starting from accumulated value `s`. -/
def cumsumFrom (s : K) : List K → List K
  | [] => []
  | x :: l => (s + x) :: cumsumFrom (s + x) l

/-- `np.cumsum` (also `ndarray.cumsum()`). -/
def cumsum (l : List K) : List K := cumsumFrom 0 l

/-- `np.sum` / Python `sum`: left-to-right sum starting from zero
(numpy uses pairwise summation; the order is irrelevant in exact arithmetic). -/
def npSum (l : List K) : K := l.foldl (· + ·) 0

/-- `np.argmax` of a boolean array: index of the first `True`, and `0` if there is none. -/
def argmaxBool (l : List Bool) : Nat :=
  match l.findIdx? id with
  | some i => i
  | none => 0

/-- Python's `l[i]` with a possibly negative integer index; `none` stands for `IndexError`. -/
def pyGet? {α : Type*} (l : List α) (i : Int) : Option α :=
  if 0 ≤ i then l[i.toNat]? else if -(l.length : Int) ≤ i then l[(l.length + i).toNat]? else none

/-- `np.interp(x, xp, fp)` for non-decreasing `xp`, given as the list of pairs `(xp[j], fp[j])`:
with `j` the largest index such that `xp[j] <= x`, the result is `fp[0]` left of the table,
`fp[-1]` right of it, `fp[j]` if `xp[j] = x` and the linear interpolant otherwise
(numpy `compiled_base.c: arr_interp`). numpy raises `ValueError` for an empty table; the
callers modelled never pass one and the model returns `0` there. -/
def interp (x : K) : List (K × K) → K
  | [] => 0
  | [p] => p.2
  | p :: q :: r =>
    if x < q.1 then
      (if x ≤ p.1 then p.2 else (q.2 - p.2) / (q.1 - p.1) * (x - p.1) + p.2)
    else interp x (q :: r)

/-- `np.trapz(y, x)` with the samples given as pairs `(x, y)`. -/
def trapz : List (K × K) → K
  | p :: q :: r => (q.1 - p.1) * (q.2 + p.2) / 2 + trapz (q :: r)
  | _ => 0

end Lawless

section Floor
variable {K : Type*} [Field K] [LinearOrder K] [FloorRing K]

/-- `np.arange(start, stop, step)`: `ceil((stop - start)/step)` values `start + k*step`. -/
def arange (start stop step : K) : List K :=
  (List.range (⌈(stop - start) / step⌉).toNat).map fun k : ℕ => start + (k : K) * step

/-- Python `round` / `np.round` to an integer: halves go to the even neighbour. -/
def pyRound (x : K) : Int :=
  let f := ⌊x⌋
  let d := x - (f : K)
  if d < 1 / 2 then f else if 1 / 2 < d then f + 1 else if f % 2 = 0 then f else f + 1

end Floor

end Fastsim
