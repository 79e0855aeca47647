import Verif.Model.Load

/-!
# Loading cycles and vehicles from files

`cycle.py` (`Cycle.from_file`) and `vehicle.py` (`Vehicle.from_file`).

Simplifications for the whole file: files are comma separated tables that `pd.read_csv` reads as `Csv`, with distinct
column names (pandas renames repeated ones); paths are text and `/` separates their parts; directories with the name of
a table are left out; the Rust vehicles are left out.
-/

namespace Fastsim

/-- What `pd.read_csv` gives for a file: column names and rows of cells. -/
structure Csv (K : Type*) where
  header : List String
  rows : List (List (LVal K))
  deriving DecidableEq

/-- The files that can be reached: by a path as it is written (from the working directory), and by the same path below
the directory of shipped tables (`CYCLES_DIR`, `VEHICLE_DIR`). -/
structure Disk (K : Type*) where
  here : Txt → Option (Csv K)
  shipped : Txt → Option (Csv K)

/-- cycle.py:122-123, vehicle.py:302-304: `.csv` is added unless the name ends so. -/
def withCsv (f : Txt) : Txt := if ".csv".toList <:+ f then f else f ++ ".csv".toList

/-- cycle.py:124-129: the file of a cycle. -/
def cycleFile {K : Type*} (D : Disk K) (f : Txt) : Except PyErr (Csv K) :=
  match D.here (withCsv f), D.shipped (withCsv f) with
  | none, some c => .ok c
  | some c, _ => .ok c
  | none, none => .error .valueError

/-- vehicle.py:305-310: the file of a vehicle. -/
def vehicleFile {K : Type*} (D : Disk K) (f : Txt) : Except PyErr (Csv K) :=
  match D.here (withCsv f) with
  | some c => .ok c
  | none => match D.shipped (withCsv f) with
    | some c => .ok c
    | none => .error .valueError

/-- `Path(f).name`: what follows the last `/`. -/
def baseName (f : Txt) : Txt := (f.reverse.takeWhile (· ≠ '/')).reverse

/-- cycle.py:135: `Path(f).stem` of a path that ends in `.csv`. A file called just `.csv` has no suffix. -/
def stem (f : Txt) : Txt :=
  if baseName f = ".csv".toList then ".csv".toList else (baseName f).take ((baseName f).length - 4)

section Lawless
variable {K : Type*} [Zero K] [One K] [NatCast K] [Add K] [Sub K] [Mul K] [Div K] [Neg K]
  [LinearOrder K]

/-- One element of `np.array(val, dtype=float)` (cycle.py:133-134). `nan` has no place in a cycle of the model and is
treated like text that is no number. -/
def cellFloat (R : Reader K) (v : LVal K) : Except PyErr K :=
  match toFloat R v with
  | .ok (.num x) => .ok x
  | _ => .error .valueError

/-- `[f(x) for x in l]`: the first exception ends it. -/
def traverseE {α β : Type*} (f : α → Except PyErr β) : List α → Except PyErr (List β)
  | [] => .ok []
  | a :: l => match f a with
    | .error e => .error e
    | .ok b => match traverseE f l with
      | .error e => .error e
      | .ok bs => .ok (b :: bs)

/-- The cells of column `j`; rows that are too short are filled up with `nan`. -/
def Csv.column (c : Csv K) (j : Nat) : List (LVal K) := c.rows.map fun row => row.getD j .nan

/-- cycle.py:132-134: a column as an entry of the dictionary. -/
def columnEntry (R : Reader K) (c : Csv K) (p : String × Nat) : Except PyErr (String × CVal K) :=
  match traverseE (cellFloat R) (c.column p.2) with
  | .error e => .error e
  | .ok l => .ok (p.1, .arr l)

/-- cycle.py:108-138 `Cycle.from_file`. -/
def cycFromFile (R : Reader K) (D : Disk K) (f : Txt) : Except PyErr (CycObj K) :=
  match cycleFile D f with
  | .error e => .error e
  | .ok c => match traverseE (columnEntry R c) c.header.zipIdx with
    | .error e => .error e
    | .ok d => cycFromDict (PyDict.set d "name" (.str (String.ofList (stem (withCsv f)))))

/-- vehicle.py:316: the parameter names, in the second column. `from_df` calls `replace` of every one of them
(vehicle.py:340), which only text has; if a name is no text and another one is not allowed, which of the two exceptions
comes first is not modelled. -/
def paramColumn (c : Csv K) : Except PyErr (List String) :=
  traverseE (fun v => match v with
    | LVal.text s => Except.ok (String.ofList s)
    | _ => .error .attributeError) (c.column 1)

/-- vehicle.py:318-319: `vehdf['selection'] = ...` in one row: an existing column is overwritten, otherwise a new one
appended. -/
def setSelection (names : List String) (cells : List (LVal K)) (v : LVal K) : List (LVal K) :=
  if "selection" ∈ names then List.zipWith (fun n x => if n = "selection" then v else x) names cells
  else cells ++ [v]

/-- vehicle.py:314-320: a file of one vehicle, turned into a table with one row for each column but the first. The row of
the column `Param Value` gets number 0; if there is no such column, a row of blanks does. -/
def singleTable (c : Csv K) : Except PyErr (VehTable K) :=
  if c.header.length < 2 then .error .indexError
  else match paramColumn c with
    | .error e => .error e
    | .ok names =>
      let row := fun p : String × Nat =>
        setSelection names (c.column p.2) (if p.1 = "Param Value" then .num 0 else .nan)
      let blank := if "Param Value" ∈ c.header.tail then []
        else [setSelection names (List.replicate names.length .nan) (.num 0)]
      .ok { cols := if "selection" ∈ names then names else names ++ ["selection"]
            rows := c.header.zipIdx.tail.map row ++ blank }

/-- vehicle.py:291-326 `Vehicle.from_file`: the arguments the constructor is called with. -/
def vehFromFile (R : Reader K) (D : Disk K) (f : Txt) (vnum : Option K) : Except PyErr (PyDict (LVal K)) :=
  match vehicleFile D f with
  | .error e => .error e
  | .ok c => match vnum with
    | some n => (fromTable R { cols := c.header, rows := c.rows } n).1
    | none => match singleTable c with
      | .error e => .error e
      | .ok T => (fromTable R T 0).1

end Lawless

end Fastsim
