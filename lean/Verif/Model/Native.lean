import Verif.Model.Names

/-!
# Model of the values a python vehicle hands to the Rust core

`to_native_type` (vehicle.py:767-779), which `copy_vehicle` applies to every attribute before the vehicle is written as yaml for the
Rust core (vehicle.py:859-862).

Simplifications: keys of dictionaries are texts, in the order of their insertion; whole numbers are those of `len`.
-/

namespace Fastsim

/-- A python value: a `np.float64`, a `float`, an `int`, a `np.ndarray`, a `list`, a `dict`, or another one (`None`, texts, truth
values, numpy numbers of other types). -/
inductive PyVal (X A : Type*)
  | np (x : X)
  | float (x : X)
  | int (n : Nat)
  | other (a : A)
  | arr (l : List (PyVal X A))
  | list (l : List (PyVal X A))
  | dict (d : List (String × PyVal X A))

variable {X A : Type*}

mutual

/-- vehicle.py:767-779 `to_native_type` -/
def toNative : PyVal X A → PyVal X A
  | .np x => .float x
  | .float x => .float x
  | .int n => .int n
  | .other a => .other a
  | .arr l => .dict [("v", .int 1), ("dim", .list [.int l.length]), ("data", .list (toNatives l))]
  | .list l => .dict [("v", .int 1), ("dim", .list [.int l.length]), ("data", .list (toNatives l))]
  | .dict d => .dict (toNativeItems d)

/-- vehicle.py:774, the elements. -/
def toNatives : List (PyVal X A) → List (PyVal X A)
  | [] => []
  | v :: l => toNative v :: toNatives l

/-- vehicle.py:778, the items; keys are texts and stay. -/
def toNativeItems : List (String × PyVal X A) → List (String × PyVal X A)
  | [] => []
  | (k, v) :: d => (k, toNative v) :: toNativeItems d

end

end Fastsim
