import Verif.Model.RsStep

/-!
# Model of the check made when the Rust core is built
(`rust/fastsim-core/build.rs`, below `build`)

The file system is given by what `PathBuf::exists` and `fs::read_to_string` answer; the latter is `none` for every failure. A path is
its text.
-/

namespace Fastsim

/-- What the check sees: the current folder (`none`: no current folder, or not a text), the paths that exist, the texts of files. -/
structure BuildFs where
  cwd : Option String
  found : String → Bool
  read : String → Option String

/-- `publish_path` and `build_path` (build:10-12). -/
def publishPath : String := "../../../../python/fastsim/resources"
def buildPath : String := "../../python/fastsim/resources"

/-- The files compared (build:32-73): the reference below the folder of the python package, the copy below the crate. -/
def buildPairs : List (String × String) :=
  [("vehdb/2017_Toyota_Highlander_3.5_L.yaml", "resources/vehicles/2017_Toyota_Highlander_3.5_L.yaml"),
   ("longparams.json", "resources/longparams.json"),
   ("cycles/udds.csv", "resources/cycles/udds.csv"),
   ("cycles/hwfet.csv", "resources/cycles/hwfet.csv")]

/-- The loop over the pairs (build:75-83). -/
def comparePairs (read : String → Option String) : List (String × String) → Except RsErr Unit
  | [] => .ok ()
  | (tf, cf) :: l =>
    match read tf with
    | none => .error .panic
    | some t =>
      match read cf with
      | none => .error .panic
      | some c => if t ≠ c then .error .panic else comparePairs read l

/-- `check_files_consistent` (build:31-84). -/
def checkFilesConsistent (fs : BuildFs) (prepath : String) : Except RsErr Unit :=
  match fs.cwd with
  | none => .error .panic
  | some d => comparePairs fs.read (buildPairs.map fun p => (d ++ "/" ++ prepath ++ "/" ++ p.1, d ++ "/" ++ p.2))

/-- `main` (build:8-28). -/
def buildMain (fs : BuildFs) : Except RsErr Unit :=
  let prepath := if fs.found publishPath then publishPath else buildPath
  if !fs.found prepath then .ok () else checkFilesConsistent fs prepath

end Fastsim
