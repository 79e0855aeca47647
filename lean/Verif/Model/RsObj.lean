import Verif.Model.Path

/-!
# Model of the Rust objects as Python sees them

What `#[add_pyo3_api]` generates for the fields of a class
(rust/fastsim-core/fastsim-proc-macros/src/add_pyo3_api/mod.rs and pyo3_api_utils.rs, below `utils`): every Python variable
holds a Rust value of its own, reading a field gives a copy, writing a field stores a copy. A flag `orphaned` keeps users from
writing to the copy of a nested object. Then the accesses by path of python/fastsim/utils/utilities.py:203-329 on such
objects, and the arrays of the Rust core.

Simplifications: values that are written have the type of the field; setters written by hand that change several fields
(`fc_peak_eff`, `mc_peak_eff`, `mph`) change one attribute of that name; a Python variable may also hold a plain value.
-/

namespace Fastsim

/-! ### Objects -/

/-- A class: whether it has the field `orphaned` (mod.rs:29), which of its fields are marked `#[api(has_orphaned)]` (mod.rs:61),
which can be read and written (`skip_get`, `skip_set`, mod.rs:59-60), and which setters are written by hand without a look at the
flag. -/
structure RsClass where
  flag : Bool
  marked : String → Bool
  readable : String → Bool
  writable : String → Bool
  free : String → Bool

/-- A value: nothing (no such field), a number, text, array ..., or an object with its class, its flag and its fields. -/
inductive RObj (V : Type*) where
  | absent
  | prim (v : V)
  | obj (c : RsClass) (orphaned : Bool) (f : String → RObj V)

section
variable {V : Type*}

/-- `x.orphaned = b` in Rust, for the classes that have the flag. -/
def RObj.mark (b : Bool) : RObj V → RObj V
  | .obj c o f => .obj c (if c.flag = true then b else o) f
  | x => x

/-- The fields with one replaced. -/
def setField (f : String → RObj V) (n : String) (x : RObj V) : String → RObj V := fun m => if m = n then x else f m

/-- utils:73-99 `impl_get_body`: the object afterwards and what is read. Reading a marked field sets the flag of the nested
object where it is stored, then copies it. -/
def RObj.read : RObj V → String → Except PyErr (RObj V × RObj V)
  | .obj c o f, n =>
    match f n with
    | .absent => .error .attributeError
    | x =>
      if c.readable n = false then .error .attributeError
      else if c.marked n = true then .ok (.obj c o (setField f n (x.mark true)), x.mark true)
      else .ok (.obj c o f, x)
  | _, _ => .error .attributeError

/-- utils:110-150 `impl_set_body` and 1-60 `impl_vec_get_set`, and the setters written by hand (vehicle.rs:55-58, 65-68;
cycle.rs:592-595). -/
def RObj.write : RObj V → String → RObj V → Except PyErr (RObj V)
  | .obj c o f, n, v =>
    match f n with
    | .absent => .error .attributeError
    | _ =>
      if c.writable n = false then .error .attributeError
      else if c.free n = true then .ok (.obj c o (setField f n v))
      else if c.flag = true then
        if o = false then .ok (.obj c o (setField f n (if c.marked n = true then v.mark false else v)))
        else .error .attributeError
      else .ok (.obj c o (setField f n v))
  | _, _, _ => .error .attributeError

/-- mod.rs:399-402 `reset_orphaned`, of the classes that have the flag. -/
def RObj.reset : RObj V → Except PyErr (RObj V)
  | .obj c _ f => if c.flag = true then .ok (.obj c false f) else .error .attributeError
  | _ => .error .attributeError

/-! ### Programs -/

/-- What a program does with its variables: a variable with a plain value, reading `x.n` into a new variable, `x.n = y`,
`x.reset_orphaned()`, a new variable with `x.copy()` (mod.rs:205-207), a method that changes the fields. -/
inductive RsAct (V : Type*) where
  | plain (v : V)
  | read (x : Nat) (n : String)
  | write (x : Nat) (n : String) (y : Nat)
  | reset (x : Nat)
  | copy (x : Nat)
  | method (x : Nat) (g : (String → RObj V) → String → RObj V)

/-- A method acts on an object. -/
def RObj.apply (g : (String → RObj V) → String → RObj V) : RObj V → Except PyErr (RObj V)
  | .obj c o f => .ok (.obj c o (g f))
  | _ => .error .attributeError

/-- The variable `x` is given a new content if `r` succeeds. -/
def stored (h : List (RObj V)) (x : Nat) : Except PyErr (RObj V) → List (RObj V) × Except PyErr Unit
  | .error e => (h, .error e)
  | .ok o => (h.set x o, .ok ())

/-- One action on the variables. An exception leaves all as it is. A variable that does not exist is a `NameError`, `other`
here. -/
def rsAct (h : List (RObj V)) : RsAct V → List (RObj V) × Except PyErr Unit
  | .plain v => (h ++ [.prim v], .ok ())
  | .read x n => match h[x]? with
    | none => (h, .error .other)
    | some o => match o.read n with
      | .error e => (h, .error e)
      | .ok (o', v) => (h.set x o' ++ [v], .ok ())
  | .write x n y => match h[x]?, h[y]? with
    | some o, some v => stored h x (o.write n v)
    | _, _ => (h, .error .other)
  | .reset x => match h[x]? with
    | none => (h, .error .other)
    | some o => stored h x o.reset
  | .copy x => match h[x]? with
    | none => (h, .error .other)
    | some o => (h ++ [o], .ok ())
  | .method x g => match h[x]? with
    | none => (h, .error .other)
    | some o => stored h x (o.apply g)

/-- A program, with every exception caught: the variables afterwards. -/
def rsActs (h : List (RObj V)) : List (RsAct V) → List (RObj V)
  | [] => h
  | a :: as => rsActs (rsAct h a).1 as

/-! ### Access by path -/

/-- `getattr(x, name)`: the variables afterwards; the last one is new. -/
def readVar (h : List (RObj V)) (x : Nat) (n : String) : List (RObj V) × Except PyErr Nat :=
  match rsAct h (.read x n) with
  | (h, .error e) => (h, .error e)
  | (h, .ok ()) => (h, .ok (h.length - 1))

/-- utilities.py:225-228, the loop of `get_containers_with_path`. -/
def rsContainersLoop (h : List (RObj V)) (last : Nat) : List String → List (RObj V) × Except PyErr (List Nat)
  | [] => (h, .ok [])
  | n :: ns =>
    match readVar h last n with
    | (h, .error e) => (h, .error e)
    | (h, .ok c) => match rsContainersLoop h c ns with
      | (h, .error e) => (h, .error e)
      | (h, .ok cs) => (h, .ok (c :: cs))

/-- utilities.py:203-229 `get_containers_with_path` -/
def rsContainers (h : List (RObj V)) (s : Nat) (path : List String) : List (RObj V) × Except PyErr (List Nat) :=
  match path with
  | [] => (h, .error .indexError)
  | n :: ns =>
    match readVar h s n with
    | (h, .error e) => (h, .error e)
    | (h, .ok c) => match rsContainersLoop h c ns.dropLast with
      | (h, .error e) => (h, .error e)
      | (h, .ok cs) => (h, .ok (c :: cs))

/-- utilities.py:232-257 `get_attr_with_path` -/
def rsGetPath (h : List (RObj V)) (s : Nat) (path : List String) : List (RObj V) × Except PyErr Nat :=
  if path.length = 1 then readVar h s (path.headD "")
  else match rsContainers h s path with
    | (h, .error e) => (h, .error e)
    | (h, .ok cs) => readVar h (cs.getLastD s) (path.getLastD "")

/-- utilities.py:294-300, the loop over `zip(containers[-2::-1], path[-2::-1])`. -/
def rsWriteBack (s : Nat) : List (RObj V) → Nat → List (Nat × String) → List (RObj V) × Except PyErr Nat
  | h, nested, [] => (h, .ok nested)
  | h, nested, (c, n) :: rest =>
    match (if c = s then (h, .ok ()) else rsAct h (.reset c)) with
    | (h, .error e) => (h, .error e)
    | (h, .ok ()) => match rsAct h (.write c n nested) with
      | (h, .error e) => (h, .error e)
      | (h, .ok ()) => rsWriteBack s h c rest

/-- utilities.py:260-302 `set_attr_with_path`, the value being in the variable `v`. -/
def rsSetPath (h : List (RObj V)) (s : Nat) (path : List String) (v : Nat) : List (RObj V) × Except PyErr Nat :=
  if path.length = 1 then
    match rsAct h (.write s (path.headD "") v) with
    | (h, .error e) => (h, .error e)
    | (h, .ok ()) => (h, .ok s)
  else match rsContainers h s path with
    | (h, .error e) => (h, .error e)
    | (h, .ok cs) =>
      match rsAct h (.reset (cs.getLastD s)) with
      | (h, .error e) => (h, .error e)
      | (h, .ok ()) => match rsAct h (.write (cs.getLastD s) (path.getLastD "") v) with
        | (h, .error e) => (h, .error e)
        | (h, .ok ()) => rsWriteBack s h (cs.getLastD s) ((s :: cs).dropLast.reverse.zip path.dropLast.reverse)

/-- auxiliaries.py:234-238 `set_nested_values`, the values being in variables. -/
def rsSetNested (h : List (RObj V)) (x : Nat) (kw : List (String × Nat)) : List (RObj V) × Except PyErr Unit :=
  match rsAct h (.reset x) with
  | (h, .error e) => (h, .error e)
  | (h, .ok ()) => go h kw
where
  /-- The loop. -/
  go : List (RObj V) → List (String × Nat) → List (RObj V) × Except PyErr Unit
    | h, [] => (h, .ok ())
    | h, (n, v) :: kw => match rsAct h (.write x n v) with
      | (h, .error e) => (h, .error e)
      | (h, .ok ()) => go h kw

end

/-! ### The classes -/

/-- A class all of whose fields can be read and written. -/
def plainClass (flag : Bool) (marked free : List String) : RsClass :=
  ⟨flag, fun n => decide (n ∈ marked), fun _ => true, fun _ => true, fun n => decide (n ∈ free)⟩

/-- A class some of whose fields Python does not see. -/
def RsClass.hide (c : RsClass) (l : List String) : RsClass :=
  { c with readable := fun n => c.readable n && decide (n ∉ l), writable := fun n => c.writable n && decide (n ∉ l) }

/-- simdrive.rs:396-601 -/
def clsSimDrive : RsClass :=
  (plainClass true ["veh", "cyc", "cyc0", "sim_params", "props"] []).hide ["aux_in_kw_override"]
/-- vehicle.rs:55-58, 65-68, 109-565 -/
def clsVehicle : RsClass := plainClass true ["props"] ["mc_peak_eff", "fc_peak_eff"]
/-- cycle.rs:592-595, 624-642 -/
def clsCycle : RsClass := plainClass true [] ["mph"]
/-- simdrive.rs:21-97 -/
def clsParams : RsClass := plainClass true [] []
/-- params.rs:47-55 -/
def clsProps : RsClass := plainClass true [] []
/-- thermal.rs:186-200: no flag, and two fields that are not marked. -/
def clsSimDriveHot : RsClass := (plainClass false ["sd", "vehthrm", "state"] []).hide ["air", "amb_te_deg_c"]
/-- vehicle_thermal.rs:359-438; the models of the parts are set by the methods in 202-355. -/
def clsVehicleThermal : RsClass :=
  (plainClass true [] []).hide ["fc_model", "cabin_hvac_model", "exhport_model", "cat_model"]
/-- thermal.rs:1018-1095 (with history_vec_derive.rs:67-71, 35-38: the history has the flag). -/
def clsHistory : RsClass := plainClass true [] []
/-- simdrivelabel.rs:23-52: no flag, nothing marked. -/
def clsLabel : RsClass := plainClass false [] []

/-! ### Arrays -/

/-- mod.rs:155-163 `__getitem__`, in a release build, where adding `usize` wraps around; `bits` is the width of `usize`. An index
outside the array is a panic. -/
def rsGetItem {A : Type*} (bits : Nat) (l : List A) (i : Int) : Except (Option PyErr) A :=
  if (l.length : Int) ≤ i then .error (some .indexError)
  else
    let k : Nat := if 0 ≤ i then i.toNat else ((l.length : Int) + i % 2 ^ bits).toNat % 2 ^ bits
    match l[k]? with
    | some a => .ok a
    | none => .error none

/-- mod.rs:164-170 `__setitem__`: always `NotImplementedError`, `other` here. -/
def rsSetItem {A : Type*} (l : List A) (_i : Nat) (_a : A) : List A × Except PyErr Unit := (l, .error .other)

end Fastsim
