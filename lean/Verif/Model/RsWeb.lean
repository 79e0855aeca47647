import Verif.Model.RsImport
import Verif.Model.RsFile
import Mathlib.Data.List.Dedup

/-!
# Model of what the Rust core gets from the net

The files of a model year from fueleconomy.gov and EPA, their download and reading (rust/fastsim-core/src/vehicle_import.rs
300-364, 763-809, 1083-1285, 1287-1355, 1412-1496; utils.rs:549-585), and the list of vehicles in a repository with the URL of
one of them (vehicle_utils.rs:251-309, vehicle.rs:566-567, 1067-1084, 1128-1141).

Simplifications: the answers of the net do not change during a call; the folder of data is there and only creating a file in it
can fail; what `csv`, `zip` and `url` make of bytes and text is a parameter; the set of years, whose order Rust leaves open, is
a list.
-/

namespace Fastsim

/-! ### The files of a year -/

/-- The files of a year in the folder of data. -/
inductive DataFile
  | emissions
  | vehicles
  | tests
  | zip
  deriving DecidableEq, Repr

/-- vehicle_import.rs:1428-1445: the names. -/
def DataFile.ending : DataFile → Txt
  | .emissions => "-emissions.csv".toList
  | .vehicles => "-vehicles.csv".toList
  | .tests => "-testcar.csv".toList
  | .zip => ".zip".toList

/-- `format!("{year}…")` -/
def dataName (y : Nat) (f : DataFile) : Txt := (toString y).toList ++ f.ending

/-- What the world answers: the body curl gets from a URL (`none`: the transfer failed; the page of an error, as for a file
that is not there, is a body), the text of a file in a zip archive (`none`: no archive, no such file, or no text), and whether
a file can be created. -/
structure Net (B : Type*) where
  body : Txt → Option (List B)
  unzip : List B → Txt → Option (List B)
  creatable : Txt → Bool

/-- vehicle_import.rs:1412-1416 `get_cache_url_for_year` -/
def yearUrl (url : Txt) (y : Nat) : Txt :=
  url ++ (if ['/'] <:+ url then [] else ['/']) ++ dataName y .zip

section Fetch
variable {B : Type*}

/-- utils.rs:551-585 `download_file_from_url`: nothing is written unless the body has come and is not empty. -/
def download (N : Net B) (d : RsDisk Txt B) (url name : Txt) : RsDisk Txt B × Except RsErr Unit :=
  match N.body url with
  | none => (d, .error .err)
  | some b =>
    if b = [] then (d, .error .err)
    else if N.creatable name = false then (d, .error .err)
    else (d.put name b, .ok ())

/-- vehicle_import.rs:1484-1496 `extract_file_from_zip` -/
def extractOne (N : Net B) (d : RsDisk Txt B) (y : Nat) (f : DataFile) : RsDisk Txt B × Except RsErr Unit :=
  match d (dataName y .zip) with
  | none => (d, .error .err)
  | some z => match N.unzip z (dataName y f) with
    | none => (d, .error .err)
    | some b => if N.creatable (dataName y f) = false then (d, .error .err) else (d.put (dataName y f) b, .ok ())

/-- One action after the other, until one fails. -/
def andThen {S E : Type*} (a : S × Except E Unit) (f : S → S × Except E Unit) : S × Except E Unit :=
  match a with
  | (s, .error e) => (s, .error e)
  | (s, .ok ()) => f s

/-- vehicle_import.rs:1428-1443: whether the three files are there. -/
def yearThere (d : RsDisk Txt B) (y : Nat) : Bool :=
  (d (dataName y .vehicles)).isSome && (d (dataName y .emissions)).isSome && (d (dataName y .tests)).isSome

/-- vehicle_import.rs:1444-1473: the archive of a year is downloaded and unpacked. -/
def fetchYear (N : Net B) (url : Txt) (d : RsDisk Txt B) (y : Nat) : RsDisk Txt B × Except RsErr Unit :=
  andThen (download N d (yearUrl url y) (dataName y .zip)) fun d =>
  andThen (extractOne N d y .emissions) fun d =>
  andThen (extractOne N d y .vehicles) fun d => extractOne N d y .tests

/-- vehicle_import.rs:1426-1475, the loop, with the flag `all_data_available`. -/
def populateLoop (N : Net B) (url : Txt) : RsDisk Txt B → Bool → List Nat → RsDisk Txt B × Except RsErr Bool
  | d, flag, [] => (d, .ok flag)
  | d, flag, y :: ys =>
    if yearThere d y = true then populateLoop N url d flag ys
    else match fetchYear N url d y with
      | (d, .error e) => (d, .error e)
      | (d, .ok ()) => populateLoop N url d true ys

/-- vehicle_import.rs:1421-1482 `populate_cache_for_given_years_if_needed` -/
def populate (N : Net B) (url : Txt) (d : RsDisk Txt B) (years : List Nat) : RsDisk Txt B × Except RsErr Unit :=
  match populateLoop N url d true years with
  | (d, .error e) => (d, .error e)
  | (d, .ok flag) => if flag = true then (d, .ok ()) else (d, .error .err)

end Fetch

/-! ### Reading them -/

/-- A row of a table: what stands under a heading (`HashMap<String, String>`). -/
abbrev CsvRow := Txt → Option Txt

/-- `item.get("…")` -/
def under (r : CsvRow) (h : String) : Option Txt := r h.toList

/-- The sign of a number (whether it is a minus) and what follows it. -/
def signed : Txt → Bool × Txt
  | '-' :: t => (true, t)
  | t => (false, unsigned t)

/-- `s.parse::<i32>()` -/
def parseI32 (s : Txt) : Option Int :=
  let d := (signed s).2
  let n : Int := if (signed s).1 = true then -(digitsNum d : Int) else digitsNum d
  if d ≠ [] ∧ d.all Char.isDigit = true ∧ -2147483648 ≤ n ∧ n ≤ 2147483647 then some n else none

/-- `s.parse::<bool>()` -/
def parseBool (s : Txt) : Option Bool :=
  if s = "true".toList then some true else if s = "false".toList then some false else none

/-- What `csv` makes of a file: its rows by heading (`none`: a row it cannot read, such as one with too few fields), and its
rows as test cars with the headings of vehicle_import.rs:228-283. -/
structure Tables (K B : Type*) where
  rows : List B → List (Option CsvRow)
  tests : List B → List (Option (EpaRow K))

section Read
variable {K B : Type*}

/-- vehicle_import.rs:1118-1141, the body of the loop: the identifier and engine family of a row of the emission tests. Rows
that cannot be read or without a number as identifier are skipped; a number that is missing after that is a panic. -/
def emissionRow (R : ImportFns K) : Option CsvRow → Except RsErr (List (Option Int × Txt))
  | none => .ok []
  | some r => match under r "id" with
    | none => .ok []
    | some t => match parseU32 t with
      | none => .ok []
      | some id => orPanic (
          if ((under r "score").bind R.parse).isSome && ((under r "smartwayScore").bind parseI32).isSome &&
            (under r "standard").isSome && (under r "stdText").isSome
          then (under r "efid").map fun efid => [(some (id : Int), efid)] else none)

/-- vehicle_import.rs:1114-1142 `read_fuelecon_gov_emissions_to_hashmap`, kept as the list of its entries. -/
def readEmissions (R : ImportFns K) (T : Tables K B) (b : List B) : Except RsErr (List (Option Int × Txt)) :=
  ((T.rows b).mapM (emissionRow R)).map List.flatten

/-- Headings of fueleconomy.gov that hold whole numbers nobody reads (vehicle_import.rs:1183-1185). -/
def unusedInts : List String := ["phevCity", "phevComb", "phevHwy"]

/-- Headings of fueleconomy.gov that hold numbers nobody reads (1191-1204). -/
def unusedNums : List String :=
  ["cityA08U", "UCity", "UCityA", "cityE", "highwayA08U", "UHighway",
    "UHighwayA", "highwayE", "combA08U", "combE"]

/-- Headings of fueleconomy.gov that hold text nobody reads (1165-1188). -/
def unusedTexts : List String :=
  ["VClass", "fuelType", "fuelType2", "eng_dscr", "sCharger", "tCharger",
    "evMotor"]

/-- vehicle_import.rs:1151-1210, the body of the loop: a row of the vehicles. The identifier is read twice, at first (1152)
as it stands and without a sign, to look up the emission tests, then (1161) without white space around it. Columns that no
other function reads must be there and be numbers where the code asks for it. -/
def vehicleRow (R : ImportFns K) (r : CsvRow) : Option (FeRow K) :=
  if ((under r "id").bind parseU32).isSome &&
      ((under r "phevBlended").bind fun t => parseBool (lowerTxt (trimTxt t))).isSome &&
      (unusedInts.all fun h => ((under r h).bind parseI32).isSome) && (unusedNums.all fun h => ((under r h).bind R.parse).isSome) &&
      (unusedTexts.all fun h => (under r h).isSome) then
    ((under r "id").bind fun t => parseI32 (trimTxt t)).bind fun id =>
    ((under r "year").bind parseU32).bind fun year =>
    (under r "make").bind fun make =>
    (under r "model").bind fun model =>
    (under r "drive").bind fun drive =>
    (under r "atvType").bind fun altVehType =>
    (under r "fuelType1").bind fun fuel1 =>
    (under r "cylinders").bind fun cylinders =>
    (under r "displ").bind fun displ =>
    (under r "trany").bind fun transmission =>
    (under r "startStop").bind fun startStop =>
    ((under r "range").bind parseI32).bind fun rangeEv =>
    ((under r "city08U").bind R.parse).bind fun cityMpg =>
    ((under r "highway08U").bind R.parse).bind fun highwayMpg =>
    ((under r "comb08U").bind R.parse).bind fun combMpg =>
    some ⟨id, year, make, model, drive, altVehType, fuel1, cylinders, displ, transmission, startStop, rangeEv, cityMpg,
      highwayMpg, combMpg⟩
  else none

/-- vehicle_import.rs:1144-1221 `read_fuelecon_gov_data_from_file`: a row that cannot be read is an error, a row whose
values do not fit is a panic. The join with the emission tests (1153-1159) is `YearTables.data`. -/
def readVehicles (R : ImportFns K) (T : Tables K B) (b : List B) : Except RsErr (List (FeRow K)) :=
  (T.rows b).mapM fun
    | none => .error .err
    | some r => orPanic (vehicleRow R r)

/-- vehicle_import.rs:1102-1112 `read_records_from_file`, for test cars. -/
def readTests (T : Tables K B) (b : List B) : Except RsErr (List (EpaRow K)) :=
  (T.tests b).mapM fun
    | none => .error .err
    | some e => .ok e

/-- `File::open(path)?` and reading. -/
def openWith {A : Type*} (read : List B → Except RsErr A) (d : RsDisk Txt B) (f : DataFile) (y : Nat) : Except RsErr (Nat × A) :=
  match d (dataName y f) with
  | none => .error .err
  | some b => match read b with
    | .error e => .error e
    | .ok a => .ok (y, a)

/-- `HashMap::get` of what was inserted year by year. -/
def ofYear {A : Type*} (l : List (Nat × A)) (y : Nat) : Option A := (l.find? fun p => decide (p.1 = y)).map Prod.snd

/-- vehicle_import.rs:1239-1261, 1263-1283: the emission tests of all years are loaded, then their vehicles. A year's archive
without tests of cars. -/
def loadFe (R : ImportFns K) (T : Tables K B) (d : RsDisk Txt B) (years : List Nat) : Except RsErr (Archive K) :=
  match years.mapM (openWith (readEmissions R T) d .emissions) with
  | .error x => .error x
  | .ok em => match years.mapM (openWith (readVehicles R T) d .vehicles) with
    | .error x => .error x
    | .ok ve => .ok fun y => match ofYear em y, ofYear ve y with
      | some e, some v => some ⟨v, e, []⟩
      | _, _ => none

/-- vehicle_import.rs:1327-1330, 1347-1350 with 1222-1233 `read_epa_test_data_for_given_years`: after these, the tests of cars. -/
def loadAll (R : ImportFns K) (T : Tables K B) (d : RsDisk Txt B) (years : List Nat) : Except RsErr (Archive K) :=
  match loadFe R T d years with
  | .error x => .error x
  | .ok fe => match years.mapM (openWith (readTests T) d .tests) with
    | .error x => .error x
    | .ok te => .ok fun y => match fe y, ofYear te y with
      | some Y, some t => some { Y with tests := t }
      | _, _ => none

end Read

/-! ### What users call -/

section Calls
variable {K B : Type*} [Zero K] [One K] [NatCast K] [Add K] [Sub K] [Mul K] [Div K] [Neg K] [LinearOrder K]

/-- vehicle_import.rs:811-813 `get_default_cache_url` -/
def defaultUrl : Txt := "https://github.com/NREL/vehicle-data/raw/main/".toList

/-- The years are populated, then something is done with the data. -/
def withData {A : Type*} (N : Net B) (url : Option Txt) (d : RsDisk Txt B) (years : List Nat)
    (load : RsDisk Txt B → List Nat → Except RsErr (Archive K)) (f : Archive K → Except RsErr A) :
    RsDisk Txt B × Except RsErr A :=
  match populate N (url.getD defaultUrl) d years with
  | (d, .error e) => (d, .error e)
  | (d, .ok ()) => (d, match load d years with
    | .error e => .error e
    | .ok Y => f Y)

/-- vehicle_import.rs:300-335 `get_options_for_year_make_model` -/
def netOptions (N : Net B) (R : ImportFns K) (T : Tables K B) (url : Option Txt) (d : RsDisk Txt B) (year make model : Txt) :
    RsDisk Txt B × Except RsErr (List (FeData K)) :=
  match parseU32 (trimTxt year) with
  | none => (d, .error .err)
  | some y => withData N url d [y] (loadFe R T) fun Y => optionsFor Y year make model

/-- vehicle_import.rs:338-364 `get_vehicle_data_for_id` -/
def netDataForId (N : Net B) (R : ImportFns K) (T : Tables K B) (url : Option Txt) (d : RsDisk Txt B) (id : Int) (year : Txt) :
    RsDisk Txt B × Except RsErr (FeData K) :=
  match parseU32 (trimTxt year) with
  | none => (d, .error .err)
  | some y => withData N url d [y] (loadFe R T) fun Y => dataForId Y id year

/-- vehicle_import.rs:763-809 `vehicle_import_by_id_and_year` -/
def netImportById (N : Net B) (R : ImportFns K) (fit : Fit K) (T : Tables K B) (url : Option Txt) (d : RsDisk Txt B) (id : Int)
    (year : Nat) (o : OtherInputs K) : RsDisk Txt B × Except RsErr (ImportedVeh K) :=
  withData N url d [year] (loadAll R T) fun Y => importById R fit Y id year o

/-- vehicle_import.rs:1287-1336 `import_all_vehicles` -/
def netImportAll (N : Net B) (R : ImportFns K) (fit : Fit K) (T : Tables K B) (url : Option Txt) (d : RsDisk Txt B) (year : Nat)
    (make model : Txt) (o : OtherInputs K) : RsDisk Txt B × Except RsErr (List (ImportedVeh K)) :=
  withData N url d [year] (loadAll R T) fun Y => importAll R fit Y year make model o

/-- vehicle_import.rs:1338-1355 `import_and_save_all_vehicles_from_file`, the records having been read, with 1235-1237
`determine_model_years_of_interest`. -/
def netImportAndSave (N : Net B) (R : ImportFns K) (fit : Fit K) (T : Tables K B) (url : Option Txt) (d : RsDisk Txt B)
    (l : List (InputRecord K)) : RsDisk Txt B × Except RsErr (List (Txt × ImportedVeh K)) :=
  withData N url d (l.map InputRecord.year).dedup (loadAll R T) fun Y => importAndSave R fit Y l

end Calls

/-! ### A repository of vehicles -/

/-- What the interface of GitHub lists: files with their path and the last part of their URL, folders, other things. -/
inductive GitObj
  | file (path last : Txt)
  | dir (l : List GitObj)
  | other

/-- vehicle_utils.rs:290-302: what a file adds to the list. A file without an extension makes the whole listing fail. -/
def listedFile (path last : Txt) : Except RsErr (List Txt) :=
  match extOf last with
  | none => .error .err
  | some e => match formatOf false e with
    | some .yaml => .ok [path]
    | some .json => .ok [path]
    | _ => .ok []

mutual
/-- vehicle_utils.rs:282-306, the body of the loop. -/
def listedObj : GitObj → Except RsErr (List Txt)
  | .file path last => listedFile path last
  | .dir l => fetchGithubList l
  | .other => .ok []
/-- vehicle_utils.rs:277-309 `fetch_github_list`. Simplification: folders are given by what their URL lists, and every URL is
answered. -/
def fetchGithubList : List GitObj → Except RsErr (List Txt)
  | [] => .ok []
  | o :: l => match listedObj o with
    | .error e => .error e
    | .ok a => match fetchGithubList l with
      | .error e => .error e
      | .ok b => .ok (a ++ b)
end

/-- vehicle_utils.rs:251-265 `get_response`: `answer` gives the status and answer of each call in turn. Gives the number of calls and
the answer. Statuses 503, 429 and 403 are tried again after a pause. -/
def getResponse {A : Type*} (answer : Nat → Nat × A) : Nat × (Nat × A) :=
  go 3 0
where
  /-- The loop `for _ in 1..4`. -/
  go : Nat → Nat → Nat × (Nat × A)
    | 0, i => (i + 1, answer i)
    | n + 1, i =>
      if (answer i).1 = 503 ∨ (answer i).1 = 429 ∨ (answer i).1 = 403 then go n (i + 1) else (i + 1, answer i)

/-- vehicle.rs:566-567 `VEHICLE_DIRECTORY_URL` -/
def vehicleRepo : Txt := "https://raw.githubusercontent.com/NREL/fastsim-vehicles/main/".toList

/-- vehicle.rs:1071-1078: the URL of a file. -/
def fileUrl (name : Txt) : Option Txt → Txt
  | some s => (s.reverse.dropWhile (· = '/')).reverse ++ '/' :: name.dropWhile (· = '/')
  | none => vehicleRepo ++ name

/-- A URL after parsing: its text, and the last segment of its path (`none`: it has no path). -/
structure ParsedUrl where
  text : Txt
  last : Option Txt

/-- vehicle.rs:1128-1141 `from_url`: the object, and the text put in `doc`. `call` is what the server answers. -/
def fromUrl {T B : Type*} (k : Kind T B) (parse : Txt → Option ParsedUrl) (call : Txt → Option (List B)) (url : Txt)
    (skipInit : Bool) : Except RsErr (T × Txt) :=
  match parse url with
  | none => .error .err
  | some u => match u.last.bind extOf with
    | none => .error .err
    | some e => match call u.text with
      | none => .error .err
      | some b => match fromReader k b e skipInit with
        | .error x => .error x
        | .ok t => .ok (t, "Vehicle from ".toList ++ u.text)

/-- vehicle.rs:1067-1084 `from_github_or_url` -/
def fromGithubOrUrl {T B : Type*} (k : Kind T B) (parse : Txt → Option ParsedUrl) (call : Txt → Option (List B)) (name : Txt)
    (url : Option Txt) : Except RsErr (T × Txt) :=
  match fromUrl k parse call (fileUrl name url) false with
  | .error x => .error x
  | .ok (t, _) => .ok (t, "Vehicle from ".toList ++ fileUrl name url)

/-- utils.rs:641-652 `url_to_cache`; `dir` is the folder of `subpath` in the data folder. -/
def urlToCache {B : Type*} (N : Net B) (parse : Txt → Option ParsedUrl) (d : RsDisk Txt B) (dir url : Txt) :
    RsDisk Txt B × Except RsErr Unit :=
  match parse url with
  | none => (d, .error .err)
  | some u => match u.last with
    | none => (d, .error .err)
    | some n => download N d u.text (joinPath dir n)

end Fastsim
