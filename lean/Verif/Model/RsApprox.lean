import Verif.Model.Np

/-!
# Comparing with a tolerance in the Rust core

The trait `ApproxEq` (rust/fastsim-core/src/traits.rs:339-422, fastsim-proc-macros/src/approx_eq_derive.rs). Each instance of the
trait is a function of the instance for its parts. Numbers are finite.
-/

set_option linter.unusedSectionVars false

namespace Fastsim

/-- `approx_eq` for whole numbers, switches and text (traits.rs:343-357): equality, whatever the tolerance. -/
def apStrict {A K : Type*} [DecidableEq A] (a b : A) (_tol : K) : Bool := decide (a = b)

section
variable {K : Type*} [Zero K] [Add K] [Sub K] [Div K] [Neg K] [LinearOrder K]

/-- `approx_eq` for `f64` (traits.rs:359-369). With `self + other = 0` the quotient is `NaN` (both zero) or infinite, and not below
the tolerance. -/
def apNum (a b tol : K) : Bool :=
  (if a + b = 0 then false else decide (pabs ((b - a) / (a + b)) < tol)) || decide (pabs (b - a) < tol)

end

/-- `approx_eq` for `Vec` and `Array1` (traits.rs:373-392): `zip` ends with the shorter one. -/
def apVec {A K : Type*} (f : A → A → K → Bool) (a b : List A) (tol : K) : Bool := (a.zip b).all fun p => f p.1 p.2 tol

/-- `approx_eq` for `Option` (traits.rs:394-409). -/
def apOpt {A K : Type*} (f : A → A → K → Bool) (a b : Option A) (tol : K) : Bool :=
  if a.isNone && b.isNone then true
  else
    match a, b with
    | some x, some y => f x y tol
    | _, _ => false

/-- `approx_eq` for `HashMap` (traits.rs:411-425); a map is the list of its entries, every key once. -/
def apMap {A B K : Type*} [DecidableEq A] (f : B → B → K → Bool) (a b : List (A × B)) (tol : K) : Bool :=
  if a.length ≠ b.length then false
  else a.all fun p =>
    match b.lookup p.1 with
    | none => false
    | some v => f p.2 v tol

/-- The instance `#[derive(ApproxEq)]` makes for a struct (approx_eq_derive.rs:20-27): the results for all fields. -/
def apFields {A K : Type*} (fs : List (A → A → K → Bool)) (a b : A) (tol : K) : Bool :=
  (fs.map fun f => f a b tol).all id

end Fastsim
