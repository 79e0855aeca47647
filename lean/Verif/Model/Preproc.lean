import Verif.Model.Copy

/-! # Pre-processing of the vehicle import data

`/repo/python/fastsim/utils/vehicle_import_preproc.py`: the tables of
fueleconomy.gov are split by model year, the EPA test files are renamed by model
year, and everything is packed into one archive per model year.

A csv file is the list of its rows, a row the list of its cells: reading and
writing of the csv syntax itself is the `csv` module's and is not modelled. -/

namespace Fastsim.Preproc

/-- A table as `csv.reader` yields it and `csv.writer` takes it. -/
abbrev Table := List (List String)

/-- A dictionary keyed by year, in insertion order, of lists. -/
abbrev ByYear (α : Type) := List (Int × List α)

/-- `if year not in d: d[year] = []` followed by `d[year].append(x)`
(vehicle_import_preproc.py:71-73, 80-83, 140-142).  The sets of identifiers
(lines 74-76) are only ever asked for membership and are lists here. -/
def addTo {α : Type} : ByYear α → Int → α → ByYear α
  | [], y, x => [(y, [x])]
  | (y', xs) :: d, y, x => if y' = y then (y', xs ++ [x]) :: d else (y', xs) :: addTo d y x

/-- `{h:v for (h, v) in zip(header, row)}` (vehicle_import_preproc.py:40). -/
def rowData (header row : List String) : PyDict String :=
  (header.zip row).foldl (fun d p => d.set p.1 p.2) []

/-- `int(data[key])` (vehicle_import_preproc.py:69-70, 78): a missing column is a
`KeyError`; `int` of a cell is the parameter `int`, `none` where it raises. -/
def intCell (int : String → Option Int) (data : PyDict String) (key : String) :
    Except PyErr Int :=
  match data.get? key with
  | none => .error .keyError
  | some c => match int c with
    | none => .error .valueError
    | some n => .ok n

/-- `process_csv` (vehicle_import_preproc.py:28-42): the first row, stripped, is the
header; `fn` is called with each further row.  `None` for an empty file.  The
effects of `fn` are threaded as a state. -/
def processCsv {S : Type} (strip : String → String)
    (fn : S → PyDict String → List String → Except PyErr S) (s : S) :
    Table → Except PyErr (Option (List String) × S)
  | [] => .ok (none, s)
  | h :: rows =>
    let header := h.map strip
    (rows.foldlM (fun s row => fn s (rowData header row) row) s).map fun s => (some header, s)

/-- `process_vehicles` (vehicle_import_preproc.py:68-76): state `(vehs_by_year,
veh_ids_by_year)`. -/
def processVehicles (int : String → Option Int)
    (s : ByYear (List String) × ByYear Int) (data : PyDict String) (row : List String) :
    Except PyErr (ByYear (List String) × ByYear Int) := do
  let year ← intCell int data "year"
  let id ← intCell int data "id"
  return (addTo s.1 year row, addTo s.2 year id)

/-- `process_emissions` (vehicle_import_preproc.py:77-83). -/
def processEmissions (int : String → Option Int) (ids : ByYear Int)
    (s : ByYear (List String)) (data : PyDict String) (row : List String) :
    Except PyErr (ByYear (List String)) := do
  let id ← intCell int data "id"
  return ids.foldl (fun s p => if id ∈ p.2 then addTo s p.1 row else s) s

/-- `str(year) + "-" + basename` (vehicle_import_preproc.py:49, 114). -/
def yearName (year : Int) (basename : String) : String :=
  year.repr ++ "-" ++ basename

/-- `write_csvs_for_each_year` (vehicle_import_preproc.py:45-54).  A directory is the
dictionary of its files.  A header of `None` would raise, but then there are no
rows and no years (`processCsv`), so the header is a list here. -/
def writeCsvs (dir : PyDict Table) (basename : String) (rows : ByYear (List String))
    (header : List String) : PyDict Table :=
  rows.foldl (fun dir p => dir.set (yearName p.1 basename) (header :: p.2)) dir

/-- `sort_fueleconomygov_data_by_year` (vehicle_import_preproc.py:57-87), from the
contents of `vehicles.csv` and `emissions.csv` and the output directory. -/
def sortByYear (strip : String → String) (int : String → Option Int)
    (vehicles emissions : Table) (out : PyDict Table) : Except PyErr (PyDict Table) := do
  let (vehHeader, vehs, ids) ← processCsv strip (processVehicles int) ([], []) vehicles
  let (emissHeader, emiss) ← processCsv strip (processEmissions int ids) [] emissions
  let out := writeCsvs out "vehicles.csv" vehs (vehHeader.getD [])
  return writeCsvs out "emissions.csv" emiss (emissHeader.getD [])

/-- A directory entry met by `process_epa_test_data`: `path.stem`, `path.suffix`,
`path.is_file()`, and the table it holds (for a spreadsheet, the cells of the
active sheet, which is what `xlsx_to_csv`, lines 90-98, writes). -/
structure InFile where
  stem : String
  suffix : String
  isFile : Bool
  table : Table

/-- `EPA_TEST_FILE_RX.search(path.stem)`, `^(\d\d)[^\d].*$`
(vehicle_import_preproc.py:101): the two leading digits.  Only ASCII digits, and no
line breaks in file names. -/
def epaYear2 (stem : String) : Option Nat :=
  match stem.toList with
  | a :: b :: c :: _ =>
    if a.isDigit && b.isDigit && !c.isDigit then
      some ((a.toNat - '0'.toNat) * 10 + (b.toNat - '0'.toNat))
    else none
  | _ => none

/-- `year2 + 1900 if year2 > 70 else year2 + 2000` (vehicle_import_preproc.py:113). -/
def century (year2 : Nat) : Int :=
  if year2 > 70 then (year2 : Int) + 1900 else (year2 : Int) + 2000

/-- One turn of the loop of `process_epa_test_data`
(vehicle_import_preproc.py:107-120). -/
def epaStep (out : PyDict Table) (f : InFile) : PyDict Table :=
  if f.isFile then
    match epaYear2 f.stem with
    | none => out
    | some y2 =>
      if f.suffix = ".csv" ∨ f.suffix = ".xlsx" then
        out.set (yearName (century y2) "testcar.csv") f.table
      else out
  else out

/-- `process_epa_test_data` (vehicle_import_preproc.py:104-120), for the entries of
the input directory in the order in which `iterdir` gives them. -/
def processEpa (inputs : List InFile) (out : PyDict Table) : PyDict Table :=
  inputs.foldl epaStep out

/-- `.csv` occurs somewhere in the characters. -/
def hasCsv : List Char → Bool
  | [] => false
  | c :: cs => ['.', 'c', 's', 'v'].isPrefixOf (c :: cs) || hasCsv cs

/-- `YEAR_PREFIX_CSV.match(path.name)`, `(\d\d\d\d)-.*\.csv`, then
`int(m.group(1))` (vehicle_import_preproc.py:123, 137-139).  `match` asks for no end
of the name: `2020-x.csv.bak` matches as well.  ASCII digits only. -/
def csvYear (name : String) : Option Nat :=
  match name.toList with
  | a :: b :: c :: d :: '-' :: rest =>
    if a.isDigit && b.isDigit && c.isDigit && d.isDigit && hasCsv rest then
      some (((((a.toNat - '0'.toNat) * 10 + (b.toNat - '0'.toNat)) * 10
        + (c.toNat - '0'.toNat)) * 10) + (d.toNat - '0'.toNat))
    else none
  | _ => none

/-- The grouping loop of `create_zip_archives_by_year`
(vehicle_import_preproc.py:133-142), over the files of the directory. -/
def filesByYear (files : PyDict Table) : ByYear (String × Table) :=
  files.foldl (fun d f => match csvYear f.1 with
    | none => d
    | some y => addTo d (y : Int) f) []

/-- `create_zip_archives_by_year` (vehicle_import_preproc.py:126-147): an archive is
the list of its members and replaces one of the same name. -/
def zipByYear (files : PyDict Table) (zips : PyDict (List (String × Table))) :
    PyDict (List (String × Table)) :=
  (filesByYear files).foldl (fun z p => z.set (p.1.repr ++ ".zip") p.2) zips

/-- `run` (vehicle_import_preproc.py:186-193), given the directories. -/
def run (strip : String → String) (int : String → Option Int)
    (vehicles emissions : Table) (inputs : List InFile) (out : PyDict Table)
    (zips : PyDict (List (String × Table))) :
    Except PyErr (PyDict Table × PyDict (List (String × Table))) := do
  let out ← sortByYear strip int vehicles emissions out
  let out := processEpa inputs out
  return (out, zipByYear out zips)

end Fastsim.Preproc
