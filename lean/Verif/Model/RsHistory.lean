import Verif.Model.RsThermal

/-!
# Model of the histories of the Rust core and of the setters of the thermal vehicle

`#[derive(HistoryVec)]` (rust/fastsim-core/fastsim-proc-macros/src/history_vec_derive.rs, below `derive`) makes, of a state with
fields, a history with a list for every field. Then the methods of `VehicleThermal` that set and get its models
(rust/fastsim-core/src/vehicle_thermal.rs:202-355).

Simplification: the fields of a state are values of one type in the order of their declaration, without the flag `orphaned`.
-/

namespace Fastsim

/-! ### Histories -/

/-- A state: its fields in order, and the flag. -/
structure RsState (A : Type*) where
  fields : List A
  orphaned : Bool

/-- derive:67-71: a list for every field, and the flag. -/
structure History (A : Type*) where
  cols : List (List A)
  orphaned : Bool

section
variable {A : Type*}

/-- derive:74-80 `new`, for states with `n` fields. -/
def History.new (n : Nat) : History A := ⟨List.replicate n [], false⟩

/-- derive:82-85 `push` -/
def History.push (h : History A) (s : RsState A) : History A :=
  { h with cols := List.zipWith (fun c a => c ++ [a]) h.cols s.fields }

/-- derive:87-90 `clear` -/
def History.clear (h : History A) : History A := { h with cols := h.cols.map fun _ => [] }

/-- derive:104-106 `len`: that of the first field. -/
def History.len (h : History A) : Nat := (h.cols.headD []).length

/-- derive:108-110 `is_empty` -/
def History.isEmpty (h : History A) : Bool := (h.cols.headD []).isEmpty

/-- derive:96-98: the last value of every list, taken off in order; an empty list is a panic. -/
def popCols : List (List A) → Except RsErr (List (List A) × List A)
  | [] => .ok ([], [])
  | c :: cs => match c.getLast? with
    | none => .error .panic
    | some a => match popCols cs with
      | .error e => .error e
      | .ok (ds, as) => .ok (c.dropLast :: ds, a :: as)

/-- derive:92-102 `pop`: the flag of the state is that of the history. -/
def History.pop (h : History A) : Except RsErr (History A × Option (RsState A)) :=
  if h.isEmpty = true then .ok (h, none)
  else match popCols h.cols with
    | .error e => .error e
    | .ok (cs, as) => .ok ({ h with cols := cs }, some ⟨as, h.orphaned⟩)

/-- The setter of the field at place `i` (pyo3_api_utils.rs:15-36, 37-58): the whole list is replaced. -/
def History.setCol (h : History A) (i : Nat) (c : List A) : Except RsErr (History A) :=
  if h.orphaned = false then .ok { h with cols := h.cols.set i c } else .error .err

end

/-! ### Setters of the thermal vehicle -/

/-- What the methods set: the model of the engine (`none`: `External`), the model of the cabin (`none`: `External`), the flag. -/
structure HeatModels (K : Type*) where
  fc : Option (TempEff K × TempEffComp)
  cabin : Option (Hvac K)
  orphaned : Bool

section
variable {K : Type*} [Zero K] [One K] [NatCast K] [Add K] [Div K]

/-- vehicle_thermal.rs:80-88, the default. -/
def expDefault : K × K × K := (0, 25, 1 / 5)

/-- vehicle_thermal.rs:202-207 `set_cabin_hvac_model_internal` (macros.rs:38-52). -/
def setCabinInternal (h : HeatModels K) (m : Hvac K) : Except RsErr (HeatModels K) :=
  if h.orphaned = false then .ok { h with cabin := some m } else .error .err

/-- vehicle_thermal.rs:217-219 `set_cabin_hvac_model_external` -/
def setCabinExternal (h : HeatModels K) : Except RsErr (HeatModels K) :=
  if h.orphaned = false then .ok { h with cabin := none } else .error .err

/-- vehicle_thermal.rs:209-215 `get_cabin_model_internal` -/
def getCabin (h : HeatModels K) : Except RsErr (Hvac K) :=
  match h.cabin with
  | some m => .ok m
  | none => .error .err

/-- vehicle_thermal.rs:228-233: the names of the components. -/
def compOf (s : String) : Option TempEffComp :=
  if s = "FuelConverter" then some .fuelConverter
  else if s = "Catalyst" then some .catalyst
  else if s = "CatAndFC" then some .catAndFc
  else none

/-- vehicle_thermal.rs:221-244 `set_fc_model_internal_exponential` -/
def setFcExponential (h : HeatModels K) (offset lag minimum : K) (comp : String) : Except RsErr (HeatModels K) :=
  match compOf comp with
  | none => .error .err
  | some c => if h.orphaned = false then .ok { h with fc := some (.exponential offset lag minimum, c) } else .error .err

/-- The three parameters of the exponential model. -/
inductive ExpParam
  | offset
  | lag
  | minimum
  deriving DecidableEq

/-- One of three values replaced. -/
def ExpParam.put (p : ExpParam) (x : K) (t : K × K × K) : K × K × K :=
  match p with
  | .offset => (x, t.2.1, t.2.2)
  | .lag => (t.1, x, t.2.2)
  | .minimum => (t.1, t.2.1, x)

/-- One of three values. -/
def ExpParam.pick (p : ExpParam) (t : K × K × K) : K :=
  match p with
  | .offset => t.1
  | .lag => t.2.1
  | .minimum => t.2.2

/-- vehicle_thermal.rs:247-272, 275-300, 303-328: `fc_exp_offset`, `fc_exp_lag`, `fc_exp_minimum` are set. A model that is not
exponential is replaced by the default one. -/
def setFcExp (h : HeatModels K) (p : ExpParam) (x : K) : Except RsErr (HeatModels K) :=
  if h.orphaned = false then
    let r : (K × K × K) × TempEffComp := match h.fc with
      | some (.exponential o l m, c) => (p.put x (o, l, m), c)
      | some (.linear _ _ _, c) => (p.put x expDefault, c)
      | none => (p.put x expDefault, .fuelConverter)
    .ok { h with fc := some (.exponential r.1.1 r.1.2.1 r.1.2.2, r.2) }
  else .error .err

/-- vehicle_thermal.rs:331-355: they are read. -/
def getFcExp (h : HeatModels K) (p : ExpParam) : Except RsErr K :=
  match h.fc with
  | some (.exponential o l m, _) => .ok (p.pick (o, l, m))
  | _ => .error .err

end
end Fastsim
