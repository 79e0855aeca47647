import Verif.Model.Copy

/-! # Vehicle database and model files

`/repo/python/fastsim/utils/utilities.py:336-378`: adding a vehicle file to the
database, and writing the vehicles of the database as model files. -/

namespace Fastsim.VehDb

/-- A row of the database: its number in the column `selection`, and its other cells. -/
structure Entry where
  selection : Int
  cells : PyDict String
deriving DecidableEq

/-- The database as a session sees it: the file, and the data frame `DEFAULT_VEHDF` read
from it when the package is imported (vehicle.py:35-36).  The data frame also lives
through `from_vehdb` (vehicle.py:284-287), which sets its index and is not modelled
here. -/
structure Db where
  file : List Entry
  frame : List Entry
deriving DecidableEq

/-- A new session: the data frame is read from the file (vehicle.py:36). -/
def openDb (file : List Entry) : Db := ⟨file, file⟩

/-- `model_file_to_vehdb` (utilities.py:336-353), for a model file with the parameters
`cells`.  `DEFAULT_VEHDF = pd.concat(…)` binds a name of the function, so the data frame
of the module stays as it was; the file is written from the longer one.  A parameter
`selection` in the model file is replaced.  Columns that only some rows have are blank
in the others, which a dictionary of the filled cells does not show. -/
def modelFileToVehdb (db : Db) (cells : PyDict String) : Except PyErr Db :=
  match db.frame.getLast? with
  | none => .error .indexError
  | some last =>
    .ok { db with file := db.frame ++
      [⟨last.selection + 1, cells.filter fun p => p.1 ≠ "selection"⟩] }

/-- Why a model file was not written. -/
inductive ExportErr where
  | exists | notFound | other (e : PyErr)
deriving DecidableEq

/-- The file name of a vehicle (utilities.py:370-372): blanks become underscores, the
extension is added, then both parentheses are taken out. -/
def fileName (scenario ext : String) : String :=
  let filename := String.ofList (scenario.toList.map fun c => if c = ' ' then '_' else c)
    ++ "." ++ ext
  let filename := String.ofList (filename.toList.filter fun c => c ≠ '(')
  String.ofList (filename.toList.filter fun c => c ≠ ')')

/-- `vehdb_entry_to_model_file` (utilities.py:366-378).  `load` is
`Vehicle.from_vehdb(selection).to_rust()`: the scenario name and the text to be written,
or what it raises.  `open(…, "x")` raises if the file exists, and for a name with a
slash in it, of which the part before the slash would have to be a directory (the
directory `thermal` that is there is ignored). -/
def entryToModelFile (load : Int → Except PyErr (String × String)) (ext : String)
    (sel : Int) (files : PyDict String) : Except ExportErr (PyDict String) :=
  if ext = "yaml" ∨ ext = "json" then
    match load sel with
    | .error e => .error (.other e)
    | .ok (scenario, text) =>
      let name := fileName scenario ext
      if '/' ∈ name.toList then .error .notFound
      else match files.get? name with
        | some _ => .error .exists
        | none => .ok (files.set name text)
  else .error (.other .assertionError)

/-- `full_vehdb_to_model_files` (utilities.py:356-363) over the selections of the
database: the files afterwards, and what was raised, if anything.  Only
`FileExistsError` is caught. -/
def fullExport (load : Int → Except PyErr (String × String)) (ext : String) :
    List Int → PyDict String → PyDict String × Option ExportErr
  | [], files => (files, none)
  | sel :: sels, files =>
    match entryToModelFile load ext sel files with
    | .ok files => fullExport load ext sels files
    | .error .exists => fullExport load ext sels files
    | .error e => (files, some e)

end Fastsim.VehDb
