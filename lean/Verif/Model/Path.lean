import Verif.Model.Copy

/-!
# Attribute access by path (`utils/utilities.py:203-329`)

Python objects live in a heap and attributes hold references, so the model does too: assigning an attribute changes the
object for everyone who refers to it. Attributes implemented as properties, and the Rust classes (whose attribute reads
return copies), are left out.
-/

namespace Fastsim

/-- An attribute value: a number, string, array ... or a reference to an object. -/
inductive HVal (V : Type*) where
  | prim (v : V)
  | ref (a : Nat)
  deriving DecidableEq

/-- An object: its attributes and whether its class has a method `reset_orphaned` (`Cycle`, `Vehicle` and
`SimDriveParams` do, cycle.py:240, vehicle.py:742, simdrive.py:101, and it does nothing; `PhysicalProperties` and
`SimDrive` do not). -/
structure HObj (V : Type*) where
  attrs : PyDict (HVal V)
  canReset : Bool
  deriving DecidableEq

/-- The heap; an address is a position. -/
abbrev Heap (V : Type*) := List (HObj V)

section
variable {V : Type*}

/-- `getattr(x, name)` -/
def getattr (h : Heap V) (x : HVal V) (name : String) : Except PyErr (HVal V) :=
  match x with
  | .prim _ => .error .attributeError
  | .ref a =>
    match h[a]? with
    | none => .error .attributeError
    | some o =>
      match PyDict.get? o.attrs name with
      | none => .error .attributeError
      | some w => .ok w

/-- `setattr(x, name, w)`: creates the attribute if need be. -/
def setattr (h : Heap V) (x : HVal V) (name : String) (w : HVal V) : Except PyErr (Heap V) :=
  match x with
  | .prim _ => .error .attributeError
  | .ref a =>
    match h[a]? with
    | none => .error .attributeError
    | some o => .ok (h.set a { o with attrs := PyDict.set o.attrs name w })

/-- `x.reset_orphaned()`: no effect on Python objects, `AttributeError` if there is no such method. -/
def resetOrphaned (h : Heap V) (x : HVal V) : Except PyErr Unit :=
  match x with
  | .prim _ => .error .attributeError
  | .ref a =>
    match h[a]? with
    | none => .error .attributeError
    | some o => if o.canReset then .ok () else .error .attributeError

/-- The loop of `get_containers_with_path` (utilities.py:226-229): each further container is an attribute of the
previous one. -/
def containersLoop (h : Heap V) (last : HVal V) : List String → Except PyErr (List (HVal V))
  | [] => .ok []
  | name :: names => do
    let c ← getattr h last name
    let cs ← containersLoop h c names
    .ok (c :: cs)

/-- `s.split(".")` on the characters of `s`. -/
def splitDots : List Char → List (List Char)
  | [] => [[]]
  | c :: s =>
    if c = '.' then [] :: splitDots s
    else
      match splitDots s with
      | [] => [[c]]
      | w :: ws => (c :: w) :: ws

/-- `path`: dotted string or list of names. -/
inductive PathArg where
  | str (s : String)
  | names (l : List String)

/-- utilities.py:223-224: `path.split(".")` for strings. -/
def PathArg.toNames : PathArg → List String
  | .str s => (splitDots s.toList).map String.ofList
  | .names l => l

/-- utilities.py:203-230 `get_containers_with_path`; `path[1:-1]` is empty for a path of one name. -/
def getContainers (h : Heap V) (struct : HVal V) (path : List String) : Except PyErr (List (HVal V)) :=
  match path with
  | [] => .error .indexError
  | n :: ns => do
    let c ← getattr h struct n
    let cs ← containersLoop h c ns.dropLast
    .ok (c :: cs)

/-- utilities.py:233-259 `get_attr_with_path` -/
def getAttrWithPath (h : Heap V) (struct : HVal V) (p : PathArg) : Except PyErr (HVal V) :=
  let path := p.toNames
  if path.length = 1 then getattr h struct (path.headD "")
  else do
    let cs ← getContainers h struct path
    getattr h (cs.getLastD struct) (path.getLastD "")

/-- The write-back loop (utilities.py:294-300) over `zip(containers[-2::-1], path[-2::-1])`; `nested` is the container
of the level below. `x is struct` is equality of references. An exception leaves the heap as it is at that moment. -/
def writeBack (struct : HVal V) [DecidableEq V] : Heap V → HVal V → List (HVal V × String) → Heap V × Except PyErr (HVal V)
  | h, nested, [] => (h, .ok nested)
  | h, nested, (c, name) :: rest =>
    match (if c = struct then .ok () else resetOrphaned h c) with
    | .error e => (h, .error e)
    | .ok () =>
      match setattr h c name nested with
      | .error e => (h, .error e)
      | .ok h' => writeBack struct h' c rest

/-- utilities.py:262-302 `set_attr_with_path`: the heap afterwards and the object returned or the exception. -/
def setAttrWithPath [DecidableEq V] (h : Heap V) (struct : HVal V) (p : PathArg) (value : HVal V) :
    Heap V × Except PyErr (HVal V) :=
  let path := p.toNames
  if path.length = 1 then
    match setattr h struct (path.headD "") value with
    | .error e => (h, .error e)
    | .ok h' => (h', .ok struct)
  else
    match getContainers h struct path with
    | .error e => (h, .error e)
    | .ok cs =>
      let containers := struct :: cs
      let innermost := containers.getLastD struct
      match resetOrphaned h innermost with
      | .error e => (h, .error e)
      | .ok () =>
        match setattr h innermost (path.getLastD "") value with
        | .error e => (h, .error e)
        | .ok h' => writeBack struct h' innermost (containers.dropLast.reverse.zip path.dropLast.reverse)

/-- utilities.py:305-329 `set_attrs_with_path`: one path after the other, in the order of the dictionary. -/
def setAttrsWithPath [DecidableEq V] (h : Heap V) (struct : HVal V) : PyDict (HVal V) → Heap V × Except PyErr (HVal V)
  | [] => (h, .ok struct)
  | (p, v) :: d =>
    match setAttrWithPath h struct (.str p) v with
    | (h', .error e) => (h', .error e)
    | (h', .ok s) => setAttrsWithPath h' s d

end

end Fastsim
