import Verif.Model.RsWeb

/-!
# Model of the import program (`rust/fastsim-cli/src/bin/vehicle-import-cli.rs`, below `cli`)

With `import_and_save_all_vehicles_from_file` and `import_and_save_all_vehicles` (rust/fastsim-core/src/vehicle_import.rs) and
their effect on the files.

Simplifications: the arguments have been parsed; paths are compared as texts, so links and names such as `a//b` are not
followed; a folder is made with `canMkdir`, files are created with `creatable`; what is printed is left out.
-/

namespace Fastsim

/-- cli:19-25 `Args` -/
structure ImportArgs where
  input : Txt
  output : Txt
  dataDir : Option Txt
  cacheUrl : Option Txt

/-- Files and folders. -/
structure Tree (B : Type*) where
  files : RsDisk Txt B
  dirs : Txt → Bool

/-- `Path::exists` -/
def Tree.there {B : Type*} (s : Tree B) (p : Txt) : Bool := (s.files p).isSome || s.dirs p

/-- What the machine provides: whether a folder, a file can be created, and the folder `fe_label_data` of the data of FASTSim
(utils.rs:589-596 `create_project_subdir`), if it can be made. -/
structure Machine where
  canMkdir : Txt → Bool
  creatable : Txt → Bool
  labelData : Option Txt

/-- A folder's path with a slash at its end. -/
def slashed (dir : Txt) : Txt := if dir.getLast? = some '/' then dir else dir ++ ['/']

/-- The files in a folder, by their names (`data_dir_path.join(name)`; the names that are asked for are not absolute). -/
def inDir {B : Type*} (dir : Txt) (d : RsDisk Txt B) : RsDisk Txt B := fun n => d (slashed dir ++ n)

/-- The files of a folder replaced. -/
def putDir {B : Type*} (dir : Txt) (D d : RsDisk Txt B) : RsDisk Txt B := fun p =>
  if slashed dir <+: p then D (p.drop (slashed dir).length) else d p

section
variable {K B : Type*} [Zero K] [One K] [NatCast K] [Add K] [Sub K] [Mul K] [Div K] [Neg K] [LinearOrder K]

/-- vehicle_import.rs:1095-1112 `read_vehicle_input_records_from_file`; `recs` is what `csv` reads, row by row. -/
def readRecords (recs : List B → List (Option (InputRecord K))) (b : List B) : Except RsErr (List (InputRecord K)) :=
  (recs b).mapM fun
    | none => .error .err
    | some r => .ok r

/-- vehicle_import.rs:1380-1410, the loop of `import_and_save_all_vehicles`: a file for each vehicle, until one fails. -/
def saveTo (k : Kind (ImportedVeh K) B) (creatable : Txt → Bool) (output : Txt) :
    Nat → List (InputRecord K × ImportedVeh K) → RsDisk Txt B → RsDisk Txt B × Except RsErr Unit
  | _, [], d => (d, .ok ())
  | idx, (r, v) :: l, d =>
    match saveName idx r.outputFileName with
    | .error x => (d, .error x)
    | .ok name =>
      match toFile k id creatable d v (joinPath output name) with
      | (d, .error e) => (d, .error e)
      | (d, .ok ()) => saveTo k creatable output (idx + 1) l d

/-- vehicle_import.rs:1338-1355 `import_and_save_all_vehicles_from_file` -/
def importFromFile (N : Net B) (R : ImportFns K) (fit : Fit K) (T : Tables K B) (k : Kind (ImportedVeh K) B)
    (recs : List B → List (Option (InputRecord K))) (creatable : Txt → Bool) (input data output : Txt) (url : Option Txt)
    (d : RsDisk Txt B) : RsDisk Txt B × Except RsErr Unit :=
  match d input with
  | none => (d, .error .err)
  | some b =>
    match readRecords recs b with
    | .error e => (d, .error e)
    | .ok l =>
      match withData N url (inDir data d) (l.map InputRecord.year).dedup (loadAll R T) fun Y => importRecords R fit Y l with
      | (D, .error e) => (putDir data D d, .error e)
      | (D, .ok vs) => saveTo k creatable output 0 vs (putDir data D d)

/-- cli:34-45: the folder of the data, made if it is not given. -/
def chooseData {B : Type*} (M : Machine) (a : ImportArgs) (s : Tree B) : Except RsErr (Txt × Tree B) :=
  match a.dataDir with
  | some p => if s.there p = true then .ok (p, s) else .error .err
  | none =>
    match M.labelData with
    | none => .error .err
    | some p => .ok (p, { s with dirs := fun q => if q = p then true else s.dirs q })

/-- cli:46-55: the folder of the results, made if there is nothing at its path. -/
def chooseOutput {B : Type*} (M : Machine) (a : ImportArgs) (s : Tree B) : Except RsErr (Tree B) :=
  if s.there a.output = false then
    if M.canMkdir a.output = true then .ok { s with dirs := fun q => if q = a.output then true else s.dirs q }
    else .error .err
  else if s.dirs a.output = false then .error .err
  else .ok s

/-- cli:27-69 `run_import` -/
def runImport (N : Net B) (R : ImportFns K) (fit : Fit K) (T : Tables K B) (k : Kind (ImportedVeh K) B)
    (recs : List B → List (Option (InputRecord K))) (M : Machine) (a : ImportArgs) (s : Tree B) : Tree B × Except RsErr Unit :=
  if s.there a.input = false then (s, .error .err)
  else
    match chooseData M a s with
    | .error e => (s, .error e)
    | .ok (data, s) =>
      match chooseOutput M a s with
      | .error e => (s, .error e)
      | .ok s =>
        let (d, r) := importFromFile N R fit T k recs M.creatable a.input data a.output
          (some (a.cacheUrl.getD defaultUrl)) s.files
        ({ s with files := d }, r)

end
end Fastsim
