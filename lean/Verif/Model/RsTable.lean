import Verif.Model.Cycle
import Verif.Model.RsVeh
import Verif.Model.Load

/-!
# Tables of the cycle of the Rust core

`RustCycle` of `fastsim-core` as a table of columns: reading and writing csv rows, dictionaries, maps of columns and the
serialised formats (rust/fastsim-core/src/cycle.rs:366-893). The text of a number and the layout of a file are not
modelled: a csv file is the list of its rows, a dictionary gives for each key a value or nothing.
-/

set_option linter.unusedSectionVars false

namespace Fastsim

/-- `RustCycle` (cycle.rs:617-640); `orphaned` is left out (never written to a file and always `false` after reading). The
arrays may have different lengths. -/
structure RsTable (K : Type*) where
  timeS : List K
  mps : List K
  grade : List K
  roadType : List K
  name : Txt
  deriving DecidableEq

/-- `RustCycleElement` (cycle.rs:366-380): a row of a csv file. An empty cell and a missing column both give `None`. A row whose
time or speed is missing or no number stops the reading with an error (cycle.rs:727 `result?`); such files are left out. -/
structure RsElem (K : Type*) where
  timeS : K
  mps : K
  grade : Option K
  roadType : Option K
  deriving DecidableEq

section
variable {K : Type*} [Zero K] [LT K] [DecidableLT K]

/-- `is_sorted` (cycle.rs:866-872): `windows(2).all(|w| w[0] < w[1])`. -/
def rsIsSorted : List K → Bool
  | a :: b :: l => decide (a < b) && rsIsSorted (b :: l)
  | _ => true

/-- `are_fields_equal_length` (cycle.rs:874-879). -/
def rsEqualLength (t : RsTable K) : Bool :=
  [t.mps.length, t.grade.length, t.roadType.length].all fun n => n == t.timeS.length

/-- `init_checks` (cycle.rs:805-817): not empty, sorted in time, columns of one length. -/
def rsInitChecks (t : RsTable K) : Except RsErr Unit :=
  if t.timeS.length = 0 then .error .err
  else if !rsIsSorted t.timeS then .error .err
  else if !rsEqualLength t then .error .err
  else .ok ()

/-- `if !skip_init { cyc.init()?; } Ok(cyc)` (cycle.rs:738-741 and 518-521). -/
def rsInitUnless (skip : Bool) (t : RsTable K) : Except RsErr (RsTable K) :=
  if skip then .ok t
  else
    match rsInitChecks t with
    | .error e => .error e
    | .ok () => .ok t

/-- `push` (cycle.rs:842-856): a missing grade or road type adds nothing to its column. -/
def rsPush (t : RsTable K) (e : RsElem K) : RsTable K :=
  { t with
    timeS := t.timeS ++ [e.timeS]
    mps := t.mps ++ [e.mps]
    grade := match e.grade with | some g => t.grade ++ [g] | none => t.grade
    roadType := match e.roadType with | some r => t.roadType ++ [r] | none => t.roadType }

/-- `from_reader(…, "csv", skip_init)` (cycle.rs:707-742, also `from_str` with format csv, 694-697): rows are pushed onto the
empty cycle, which has the empty name. -/
def rsReadCsv (rows : List (RsElem K)) (skip : Bool) : Except RsErr (RsTable K) :=
  rsInitUnless skip (rows.foldl rsPush ⟨[], [], [], [], []⟩)

/-- `from_csv_str(csv_str, name, skip_init)` (cycle.rs:833-842); `from_csv_file` (819-830) is the same with the stem of the file
name as name. -/
def rsFromCsv (rows : List (RsElem K)) (name : Txt) (skip : Bool) : Except RsErr (RsTable K) :=
  match rsReadCsv rows skip with
  | .error e => .error e
  | .ok t => .ok { t with name := name }

/-- `to_writer(…, "csv")` and `to_csv` (cycle.rs:657-671, 844-848): one row for each time; `self.mps[i]` beyond the end of a
column panics. -/
def rsToCsv (t : RsTable K) : Except RsErr (List (RsElem K)) :=
  rsMapM (fun i =>
    match t.timeS[i]?, t.mps[i]?, t.grade[i]?, t.roadType[i]? with
    | some a, some v, some g, some r => .ok ⟨a, v, some g, some r⟩
    | _, _, _, _ => .error .panic) (List.range t.timeS.length)

/-- `from_dict(dict, skip_init)` (cycle.rs:499-522): times and speeds must be there; grade and road type default to zeros, the
name to the empty text. A value that is no list of numbers is left out (an error for the arrays, the empty name for a name). -/
def rsReadDict (time mps grade road : Option (List K)) (name : Option Txt) (skip : Bool) : Except RsErr (RsTable K) :=
  match time with
  | none => .error .err
  | some t =>
    match mps with
    | none => .error .err
    | some m =>
      rsInitUnless skip
        ⟨t, m, grade.getD (List.replicate t.length 0), road.getD (List.replicate t.length 0), name.getD []⟩

/-- `to_dict` (cycle.rs:524-532), as the five values. -/
def rsWriteDict (t : RsTable K) : Option (List K) × Option (List K) × Option (List K) × Option (List K) × Option Txt :=
  (some t.timeS, some t.mps, some t.grade, some t.roadType, some t.name)

/-- `RustCycle::try_from(hashmap)` (cycle.rs:745-785): as `from_dict`, always checked, without a name. -/
def rsTryFromMap (h : String → Option (List K)) : Except RsErr (RsTable K) :=
  match h "time_s" with
  | none => .error .err
  | some t =>
    match h "mps" with
    | none => .error .err
    | some m =>
      rsInitUnless false
        ⟨t, m, (h "grade").getD (List.replicate t.length 0), (h "road_type").getD (List.replicate t.length 0), []⟩

/-- `HashMap::from(cyc)` (cycle.rs:787-796). -/
def rsIntoMap (t : RsTable K) (key : String) : Option (List K) :=
  if key = "time_s" then some t.timeS else if key = "mps" then some t.mps
  else if key = "grade" then some t.grade else if key = "road_type" then some t.roadType else none

/-- Reading json or yaml (cycle.rs:712-742 over the serde attributes of 617-640): times, speeds and the name must be there
(no `serde(default)`); a missing grade or road type is the *empty* array. -/
def rsFromSerde (time mps grade road : Option (List K)) (name : Option Txt) (skip : Bool) : Except RsErr (RsTable K) :=
  match time, mps, name with
  | some t, some m, some n => rsInitUnless skip ⟨t, m, grade.getD [], road.getD [], n⟩
  | _, _, _ => .error .err

end

section
variable {K : Type*} [Zero K] [One K] [NatCast K] [Add K] [Sub K] [Mul K] [Div K] [Neg K] [LinearOrder K]

/-- `get_mph` (cycle.rs:587-589) -/
def rsGetMph (t : RsTable K) : List K := t.mps.map fun v => v * mphPerMps

/-- `set_mph` (cycle.rs:591-594): no check of the length. -/
def rsSetMph (t : RsTable K) (l : List K) : RsTable K := { t with mps := l.map fun v => v / mphPerMps }

end

end Fastsim
