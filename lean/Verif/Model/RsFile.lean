import Verif.Model.RsSaved
import Verif.Model.Load

/-!
# Model of the files of the Rust core

`SerdeAPI` (rust/fastsim-core/src/traits.rs:10-337) with the formats of cycles (cycle.rs:644-750) and the folders of the cache
(utils.rs:587-625).

Simplifications: a path is a Unix path given as a list of characters that are valid text; `at` says which file a path leads to
(working directory, links); what a format writes and reads is a parameter, and only whether a write fails half way matters; the
folders above a file are there, or `creatable` says that the file cannot be created; the default features of the crate are on,
and `bincode` is off as in the default build; URLs are in `RsWeb`.
-/

namespace Fastsim

/-! ### Paths (`std::path::Path` on Unix) -/

/-- `str::split('/')`: the pieces between the slashes. -/
def pieces : Txt → List Txt
  | [] => [[]]
  | c :: s =>
    match pieces s with
    | [] => [[c]]
    | p :: ps => if c = '/' then [] :: p :: ps else (c :: p) :: ps

/-- `Path::file_name`: the last component, if it is a normal one. Empty components and `.` are skipped. -/
def fileName (p : Txt) : Option Txt :=
  match ((pieces p).filter fun c => decide (c ≠ [] ∧ c ≠ ['.'])).getLast? with
  | none => none
  | some c => if c = ['.', '.'] then none else some c

/-- What is after the last dot of a file name, and what is before it (`rsplitn(2, '.')`); `none` without a dot. -/
def splitDot (s : Txt) : Option (Txt × Txt) :=
  match s.reverse.span (· ≠ '.') with
  | (_, []) => none
  | (after, _ :: before) => some (before.reverse, after.reverse)

/-- `Path::extension`: what follows the last dot of the file name, unless nothing precedes it. -/
def extOf (p : Txt) : Option Txt :=
  match fileName p with
  | none => none
  | some n =>
    match splitDot n with
    | none => none
    | some (before, after) => if before = [] then none else some after

/-- `Path::join`: an absolute path replaces what it is joined to. -/
def joinPath (a b : Txt) : Txt :=
  if b.head? = some '/' then b
  else if a = [] ∨ a.getLast? = some '/' then a ++ b
  else a ++ '/' :: b

/-! ### Formats -/

/-- The formats of the default build. -/
inductive Fmt
  | yaml
  | json
  | toml
  | csv
  deriving DecidableEq, Repr

/-- traits.rs:79-94, 123-131, 143-152, 167-180 and, with `csv`, cycle.rs:655-676, 683-695, 703-711, 720-743: the format a text
stands for. `trim_start_matches('.')` and `to_lowercase`. -/
def formatOf (csv : Bool) (s : Txt) : Option Fmt :=
  let t := (s.dropWhile (· = '.')).map Char.toLower
  if t = "yaml".toList ∨ t = "yml".toList then some .yaml
  else if t = "json".toList then some .json
  else if t = "toml".toList then some .toml
  else if csv = true ∧ t = "csv".toList then some .csv
  else none

/-- A kind of object: whether it has the format `csv`, its folder of resources and of the cache, what a format writes of it
(and whether writing succeeds), what it reads, and `init`. -/
structure Kind (T B : Type*) where
  csv : Bool
  prefixDir : Txt
  cacheDir : Txt
  write : Fmt → T → List B × Bool
  read : Fmt → List B → Except RsErr T
  init : T → Except RsErr T

/-- A file system: what the file at a place contains. -/
abbrev RsDisk (L B : Type*) := L → Option (List B)

section
variable {T B L : Type*} [DecidableEq L]

/-- A file replaced. -/
def RsDisk.put (d : RsDisk L B) (l : L) (b : List B) : RsDisk L B := fun l' => if l' = l then some b else d l'

/-- traits.rs:69-76 `to_file`, with `to_writer` (78-96): the file is created, which empties it, before the format is looked at.
Gives the disk afterwards and whether it succeeded. -/
def toFile (k : Kind T B) (place : Txt → L) (creatable : L → Bool) (d : RsDisk L B) (t : T) (p : Txt) : RsDisk L B × Except RsErr Unit :=
  match extOf p with
  | none => (d, .error .err)
  | some e =>
    if creatable (place p) = false then (d, .error .err)
    else
      let d1 := d.put (place p) []
      match formatOf k.csv e with
      | none => (d1, .error .err)
      | some f => (d1.put (place p) (k.write f t).1, if (k.write f t).2 = true then .ok () else .error .err)

/-- traits.rs:162-186 `from_reader` (cycle.rs:715-750): toml is read with `from_toml` (230-236), which calls `init` itself. -/
def fromReader (k : Kind T B) (b : List B) (format : Txt) (skipInit : Bool) : Except RsErr T :=
  match formatOf k.csv format with
  | none => .error .err
  | some f =>
    match k.read f b with
    | .error e => .error e
    | .ok t =>
      match (if f = .toml ∧ skipInit = false then k.init t else .ok t) with
      | .error e => .error e
      | .ok t => if skipInit = false then k.init t else .ok t

/-- traits.rs:100-116 `from_file`. -/
def fromFile (k : Kind T B) (place : Txt → L) (d : RsDisk L B) (p : Txt) (skipInit : Bool) : Except RsErr T :=
  match extOf p with
  | none => .error .err
  | some e =>
    match d (place p) with
    | none => .error .err
    | some b => fromReader k b e skipInit

/-- traits.rs:122-132 `to_str`. -/
def toStr (k : Kind T B) (t : T) (format : Txt) : Except RsErr (List B) :=
  match formatOf k.csv format with
  | none => .error .err
  | some f => if (k.write f t).2 = true then .ok (k.write f t).1 else .error .err

/-- traits.rs:141-154 `from_str` with `from_yaml`, `from_json`, `from_toml` (199-236) and, for csv, `from_reader`. -/
def fromStr (k : Kind T B) (b : List B) (format : Txt) (skipInit : Bool) : Except RsErr T :=
  match formatOf k.csv format with
  | none => .error .err
  | some f =>
    match k.read f b with
    | .error e => .error e
    | .ok t => if skipInit = false then k.init t else .ok t

/-! ### Resources -/

/-- What `split(".").last()` gives: the text after the last dot, or all of it. -/
def afterDot (s : Txt) : Txt :=
  match splitDot s with
  | none => s
  | some (_, a) => a

/-- `ACCEPTED_STR_FORMATS` (traits.rs:12, cycle.rs:646). -/
def listedFormats (csv : Bool) : List Txt :=
  if csv = true then ["yaml".toList, "json".toList, "toml".toList, "csv".toList]
  else ["yaml".toList, "json".toList, "toml".toList]

/-- traits.rs:25-41 `list_resources`: the names of the files of the folder that end in an accepted format, sorted. `names` are
the files of the folder, if there is one. -/
def listResources (k : Kind T B) (names : Option (List Txt)) : List Txt :=
  if k.prefixDir = [] then []
  else match names with
    | none => []
    | some ns => (ns.filter fun n => decide (afterDot n ∈ listedFormats k.csv)).mergeSort fun a b => decide (a ≤ b)

/-- traits.rs:49-60 `from_resource`: as `from_file` under the folder of resources. -/
def fromResource (k : Kind T B) (d : RsDisk Txt B) (p : Txt) (skipInit : Bool) : Except RsErr T :=
  fromFile k id d (joinPath k.prefixDir p) skipInit

/-! ### The cache -/

/-- traits.rs:289-313: the path `to_cache` writes to (with utils.rs:589-596 `create_project_subdir`); `root` is the data folder
of FASTSim. -/
def cacheTarget (cacheDir root p : Txt) : Option Txt :=
  match fileName p with
  | none => none
  | some n =>
    if n = p then some (joinPath (joinPath root cacheDir) n)
    else if n <:+ p then some (joinPath (joinPath root (joinPath cacheDir (p.take (p.length - n.length)))) n)
    else none

/-- traits.rs:332-336: the path `from_cache` reads from. -/
def cacheSource (cacheDir root p : Txt) : Txt := joinPath root (joinPath cacheDir p)

/-- traits.rs:289-313 `to_cache`. -/
def toCache (k : Kind T B) (place : Txt → L) (creatable : L → Bool) (d : RsDisk L B) (root : Txt) (t : T) (p : Txt) :
    RsDisk L B × Except RsErr Unit :=
  match cacheTarget k.cacheDir root p with
  | none => (d, .error .err)
  | some q => toFile k place creatable d t q

/-- traits.rs:332-336 `from_cache`. -/
def fromCache (k : Kind T B) (place : Txt → L) (d : RsDisk L B) (root p : Txt) (skipInit : Bool) : Except RsErr T :=
  fromFile k place d (cacheSource k.cacheDir root p) skipInit

end

/-- Vehicles (vehicle.rs:1112-1118): text formats that keep what serde writes; `arr` is the curve a text gives. -/
def vehKind {K B : Type*} [Zero K] [One K] [NatCast K] [Add K] [Sub K] [Mul K] [Div K] [Neg K] [LinearOrder K]
    (write : Fmt → VehObj K → List B × Bool) (read : Fmt → List B → Except RsErr (VehObj K)) : Kind (VehObj K) B :=
  ⟨false, "vehicles".toList, "vehicles".toList, write, read, VehObj.rsInitLoaded⟩

end Fastsim
