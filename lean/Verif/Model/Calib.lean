import Verif.Model.Frame
import Verif.Model.Copy

/-!
# Calibration objectives (`calibration.py:74-289`, `468-472`, `520-524`)

The simulations are instances of Rust classes; what the calibration code asks of them is collected in `SimApi` and left
unspecified. Plots, timing output and the optimiser (pymoo) are left out.
-/

namespace Fastsim

/-- What `ModelObjectives` uses of a simulation class: reading it from JSON, setting attributes by path, deriving vehicle
quantities (calibration.py:266-285), `copy` followed by `sim_drive` (162-163), reading a signal by its path (204), and the
time points `cyc.time_s` (208-211). -/
structure SimApi (M SD K : Type*) where
  fromJson : M → Except PyErr SD
  setPaths : SD → PyDict K → Except PyErr SD
  setDerived : SD → Except PyErr SD
  run : SD → Except PyErr SD
  signal : SD → String → Except PyErr (List K)
  times : SD → List K

/-- An element of `params`: a dotted path, or a tuple as the comment in calibration.py:98-100 says. -/
inductive ParamName where
  | dotted (s : String)
  | tuple (l : List String)
  deriving DecidableEq

/-- The fields of `ModelObjectives` (calibration.py:80-110) that matter for the values: models, test data by column,
objectives (tuples of strings) and parameter names. -/
structure ModelObjectives (M K : Type*) where
  models : PyDict M
  dfs : PyDict (PyDict (List K))
  objNames : List (List String)
  params : List ParamName

/-- `__post_init__` (calibration.py:112-115): the number of objectives. -/
def ModelObjectives.nObj {M K : Type*} (P : ModelObjectives M K) : Except PyErr Nat :=
  if P.dfs.length = P.models.length then .ok (P.models.length * P.objNames.length) else .error .assertionError

section
variable {K : Type*} [Zero K] [One K] [NatCast K] [Add K] [Sub K] [Mul K] [Div K] [Neg K] [LinearOrder K]
variable {M SD : Type*}

/-- One objective of one trip (calibration.py:192-236, without plots). `ref_sig` is a local variable of `get_errors` that
keeps its value between objectives and trips; passing it to `update_plots` before it is set raises `UnboundLocalError`
(`.other`). -/
def objectiveStep (A : SimApi M SD K) (df : PyDict (List K)) (sd : SD) (st : Option (List K) × PyDict K)
    (obj : List String) : Except PyErr (Option (List K) × PyDict K) :=
  match obj with
  | [m] =>
    match A.signal sd m with
    | .error e => .error e
    | .ok _ => if st.1.isSome then .ok st else .error .other
  | [m, ref] =>
    match A.signal sd m with
    | .error e => .error e
    | .ok sig =>
      if ref = "" then if st.1.isSome then .ok st else .error .other
      else
        match PyDict.get? df ref with
        | none => .error .keyError
        | some r =>
          match getErrorVal sig r (A.times sd) with
          | .error e => .error e
          | .ok e => .ok (some r, PyDict.set st.2 m e)
  | _ => .error .assertionError

/-- The objectives of one trip, one after the other. -/
def objectivesLoop (A : SimApi M SD K) (df : PyDict (List K)) (sd : SD) :
    Option (List K) × PyDict K → List (List String) → Except PyErr (Option (List K) × PyDict K)
  | st, [] => .ok st
  | st, obj :: l =>
    match objectiveStep A df sd st obj with
    | .error e => .error e
    | .ok st' => objectivesLoop A df sd st' l

/-- The loop over the trips (calibration.py:160-251): test data and simulations are paired by position. -/
def tripsLoop (A : SimApi M SD K) (objNames : List (List String)) :
    Option (List K) → PyDict (PyDict K) → List ((String × PyDict (List K)) × SD) → Except PyErr (PyDict (PyDict K))
  | _, acc, [] => .ok acc
  | ref, acc, ((key, df), sd) :: l =>
    match A.run sd with
    | .error e => .error e
    | .ok sd' =>
      match objectivesLoop A df sd' (ref, []) objNames with
      | .error e => .error e
      | .ok (ref', inner) => tripsLoop A objNames ref' (PyDict.set acc key inner) l

/-- `get_errors` (calibration.py:117-256) without plots and without returning the solved models. -/
def getErrors (A : SimApi M SD K) (P : ModelObjectives M K) (simDrives : PyDict SD) :
    Except PyErr (PyDict (PyDict K)) :=
  tripsLoop A P.objNames none [] (P.dfs.zip (simDrives.map Prod.snd))

/-- `fullpath.split` for every parameter (calibration.py:263): tuples have no such method. -/
def dottedNames : List ParamName → Except PyErr (List String)
  | [] => .ok []
  | .tuple _ :: _ => .error .attributeError
  | .dotted s :: l =>
    match dottedNames l with
    | .error e => .error e
    | .ok l' => .ok (s :: l')

/-- A function that may raise applied to the values of a dictionary, in order. -/
def mapValues {α β : Type*} (f : α → Except PyErr β) : PyDict α → Except PyErr (PyDict β)
  | [] => .ok []
  | (k, a) :: d =>
    match f a with
    | .error e => .error e
    | .ok b =>
      match mapValues f d with
      | .error e => .error e
      | .ok d' => .ok ((k, b) :: d')

/-- `update_params` (calibration.py:258-289). -/
def updateParams (A : SimApi M SD K) (P : ModelObjectives M K) (xs : List K) : Except PyErr (PyDict SD) :=
  if xs.length = P.params.length then
    match dottedNames P.params with
    | .error e => .error e
    | .ok names =>
      match mapValues A.fromJson P.models with
      | .error e => .error e
      | .ok sds =>
        mapValues (fun sd =>
          match A.setPaths sd ((names.zip xs).foldl (fun d kv => PyDict.set d kv.1 kv.2) []) with
          | .error e => .error e
          | .ok sd' => A.setDerived sd') sds
  else .error .assertionError

/-- `CalibrationProblem._evaluate` (calibration.py:468-472): the vector handed to the optimiser. -/
def evaluateProblem (A : SimApi M SD K) (P : ModelObjectives M K) (xs : List K) : Except PyErr (List K) :=
  match updateParams A P xs with
  | .error e => .error e
  | .ok sds =>
    match getErrors A P sds with
    | .error e => .error e
    | .ok d => .ok (d.flatMap fun kv => kv.2.map Prod.snd)

end

/-- The column names `run_minimize` gives to the vector (calibration.py:520-524). -/
def objectiveColumns {M K : Type*} (P : ModelObjectives M K) : List String :=
  P.dfs.flatMap fun kv => P.objNames.map fun o => kv.1 ++ ": " ++ o.headD ""

end Fastsim
