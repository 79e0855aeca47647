import Verif.Model.Copy

/-!
# Resampling data frames (`resample.py`) and the calibration error (`calibration.py:52-71`)
-/

namespace Fastsim

section Lawless
variable {K : Type*} [Zero K] [One K] [NatCast K] [Add K] [Sub K] [Mul K] [Div K] [Neg K] [LinearOrder K]

/-- resample.py:35 `(df[time_col].diff().fillna(0) * df[col]).cumsum()`: the first difference is missing and
counts as zero. -/
def cumuVals (t y : List K) : List K :=
  cumsum (List.zipWith (· * ·) (match t with | [] => [] | _ => 0 :: diff t) y)

/-- resample.py:36-42: `np.diff(np.interp(new_time, time, cumu_vals), prepend=0) / dt_new` -/
def rateColumn (dt : K) (newT t y : List K) : List K :=
  (diff (0 :: newT.map fun x => interp x (t.zip (cumuVals t y)))).map (· / dt)

/-- resample.py:50-54 -/
def interpColumn (newT t y : List K) : List K := newT.map fun x => interp x (t.zip y)

/-- calibration.py:52-71 `get_error_val`. A duration of zero makes numpy return `nan` or `inf`; the model then
divides by zero in its own way, so theorems ask for a positive duration. -/
def getErrorVal (model test timeSteps : List K) : Except PyErr K :=
  if model.length = test.length ∧ test.length = timeSteps.length then
    match timeSteps.getLast?, timeSteps.head? with
    | some b, some a => .ok (trapz (timeSteps.zip (List.zipWith (fun m t => pabs (m - t)) model test)) / (b - a))
    | _, _ => .error .indexError
  else .error .assertionError

end Lawless

section Floor
variable {K : Type*} [Field K] [LinearOrder K] [FloorRing K]

/-- resample.py:27-30: `np.arange(0, np.floor(t[-1] / dt) * dt + dt, dt)` -/
def newTimes (tLast dt : K) : List K := arange 0 ((⌊tLast / dt⌋ : K) * dt + dt) dt

/-- resample.py:6-56 `resample` of a data frame given as columns of equal length in order. Columns named in
`hold_vars` are left out of the result (resample.py:44-46). -/
def resampleFrame (df : PyDict (List K)) (dt : K) (timeCol : String) (rateVars holdVars : List String) :
    Except PyErr (PyDict (List K)) :=
  match PyDict.get? df timeCol with
  | none => .error .keyError
  | some t =>
    match t.getLast? with
    | none => .error .indexError
    | some tLast =>
      let newT := newTimes tLast dt
      .ok (df.foldl (fun out kv =>
        if kv.1 ∈ rateVars then PyDict.set out kv.1 (rateColumn dt newT t kv.2)
        else if kv.1 ∈ holdVars then out
        else PyDict.set out kv.1 (interpColumn newT t kv.2)) [])

end Floor

end Fastsim
