import Verif.Model.RsLabel
import Verif.Model.RsImport

/-!
# The command line program (`rust/fastsim-cli/src/bin/fastsim-cli.rs`, below `cli`)

The options, the rewriting of ADOPT vehicles, the split of the fuel of a hydrogen-diesel engine and what is printed.

Simplifications for the whole file: numbers are elements of an ordered type, so infinite values and NaN (which `json!` writes as
`null`) are left out, and a quotient by zero is whatever the type makes of it; text is a list of characters, and `to_lowercase`
is that of ASCII; a JSON object is a list of pairs, read at the first pair with a key (objects of `serde_json` have every key once).
What is read from disk, the parsing of JSON text and the reading of a vehicle out of JSON are arguments (`CliEnv`); the JSON text
between `json_rewrite` and `RustVehicle::from_json` is left out, the value it stands for is handed on.
-/

namespace Fastsim

/-- `serde_json::Value`. A number written as an integer of 64 bits is `int`, every other number is `float`. -/
inductive Json (K : Type*) where
  | null
  | bool (b : Bool)
  | int (n : Int)
  | float (x : K)
  | str (s : Txt)
  | arr (l : List (Json K))
  | obj (l : List (Txt × Json K))

/-- cli:105-114 `H2AndDieselResults` -/
structure H2Diesel (K : Type*) where
  h2Kwh : K
  h2Gge : K
  h2Mpgge : K
  dieselKwh : K
  dieselGals : K
  dieselGge : K
  dieselMpg : K
  deriving DecidableEq

/-- cli:78-88 `AdoptResults` -/
structure AdoptResults (K : Type*) where
  adjCombMpgge : K
  rangeMiles : K
  uf : K
  adjCombKwhPerMile : K
  accel : K
  traceMissInMph : K
  h2AndDiesel : Option (H2Diesel K)
  deriving DecidableEq

/-- What the program prints before it ends without an error. -/
inductive CliOut (K : Type*) where
  | coefficients (drag rr : K)
  | adopt (r : AdoptResults K)
  | mpgge (x : K)

/-- cli:45-76 the options, without `res_fmt`, which nothing reads. -/
structure CliArgs (K : Type*) where
  cyc : Option Txt
  cycFile : Option Txt
  adopt : Option Bool
  adoptHd : Option Txt
  veh : Option Txt
  vehFile : Option Txt
  a : Option K
  b : Option K
  c : Option K

/-- The vehicle that is simulated (`sim`) and what the label reads of it (`label`). -/
structure CliVeh (K : Type*) where
  sim : Veh K
  label : LabelVeh K

/-- What the program gets from outside: files, parsing, the bundled cycles and the table of utility factors, and the minimisation
behind the coast-down coefficients. -/
structure CliEnv (K : Type*) where
  cycFile : Txt → Except RsErr (Cyc K)
  text : Txt → Except RsErr Txt
  parse : Txt → Except RsErr (Json K)
  /-- `RustVehicle::from_json` of JSON text and `set_derived` -/
  vehOf : Json K → Except RsErr (CliVeh K)
  /-- `RustVehicle::from_file` -/
  vehFile : Txt → Except RsErr (CliVeh K)
  hhddt : Except RsErr (Cyc K)
  udds : Cyc K
  hwy : Cyc K
  ufTable : List (K × K)
  fit : Fit K

section Lawless
variable {K : Type*} [Zero K] [One K] [NatCast K] [Add K] [Sub K] [Mul K] [Div K] [Neg K]
  [LinearOrder K]

/-! ### Hydrogen and diesel -/

/-- The totals that the loop of cli:129-153 adds to. -/
structure H2Totals (K : Type*) where
  h2Kwh : K
  h2Gge : K
  dieselKwh : K
  dieselGals : K
  dieselGge : K

/-- cli:135-152: one step. `interp` is `interpolate_vectors`, the same text as `interpolate` (utils.rs:176-219). -/
def h2DieselStep (maxKw kwhPerGge : K) (perc share : List K) (t : H2Totals K) (fcKw fsKwh : K) : Except RsErr (H2Totals K) :=
  match rsInterpolate (fcKw / maxKw) perc share with
  | .error e => .error e
  | .ok p =>
    let ggePerKwh := 1 / kwhPerGge
    let h2 := p * fsKwh
    let diesel := (1 - p) * fsKwh
    .ok { h2Kwh := t.h2Kwh + h2
          h2Gge := t.h2Gge + ggePerKwh * h2
          dieselKwh := t.dieselKwh + diesel
          dieselGals := t.dieselGals + diesel / dec 3795 100
          dieselGge := t.dieselGge + diesel * ggePerKwh }

/-- cli:134-153: the loop. -/
def h2DieselLoop (maxKw kwhPerGge : K) (perc share : List K) : H2Totals K → List (K × K) → Except RsErr (H2Totals K)
  | t, [] => .ok t
  | t, s :: l =>
    match h2DieselStep maxKw kwhPerGge perc share t s.1 s.2 with
    | .error e => .error e
    | .ok t' => h2DieselLoop maxKw kwhPerGge perc share t' l

/-- cli:116-169 `calculate_mpgge_for_h2_diesel_ice` -/
def h2Diesel (distMi maxKw kwhPerGge : K) (fcKw fsKwh perc share : List K) : Except RsErr (H2Diesel K) :=
  if fcKw.length ≠ fsKwh.length then .error .err
  else if perc.length ≠ share.length then .error .err
  else
    match h2DieselLoop maxKw kwhPerGge perc share ⟨0, 0, 0, 0, 0⟩ (fcKw.zip fsKwh) with
    | .error e => .error e
    | .ok t =>
      .ok { h2Kwh := t.h2Kwh
            h2Gge := t.h2Gge
            h2Mpgge := if 0 < t.h2Gge then distMi / t.h2Gge else 0
            dieselKwh := t.dieselKwh
            dieselGals := t.dieselGals
            dieselGge := t.dieselGge
            dieselMpg := if 0 < t.dieselGals then distMi / t.dieselGals else 0 }

/-- cli:171-180 `integrate_power_to_kwh` -/
def powerToKwh (dts ps : List K) : Except RsErr (List K) :=
  if dts.length ≠ ps.length then .error .err
  else .ok (List.zipWith (fun d p => p * d / (3600 : ℕ)) dts ps)

/-! ### JSON -/

/-- `&v[key]`: `null` for anything but an object, and for a key that is not there. -/
def Json.at (v : Json K) (key : String) : Json K :=
  match v with
  | .obj l => match l.find? (fun p => decide (p.1 = key.toList)) with
    | some p => p.2
    | none => .null
  | _ => .null

/-- Replaces the value of a key, or adds the key. -/
def setPair (key : Txt) (x : Json K) : List (Txt × Json K) → List (Txt × Json K)
  | [] => [(key, x)]
  | p :: l => if p.1 = key then (key, x) :: l else p :: setPair key x l

/-- `v[key] = x`: `null` becomes an object, anything else that is not an object panics. -/
def Json.put (v : Json K) (key : String) (x : Json K) : Except RsErr (Json K) :=
  match v with
  | .obj l => .ok (.obj (setPair key.toList x l))
  | .null => .ok (.obj [(key.toList, x)])
  | _ => .error .panic

/-- An integer as a number of the type. -/
def numOfInt (n : Int) : K := if n < 0 then -((n.natAbs : ℕ) : K) else ((n.natAbs : ℕ) : K)

/-- `as_f64` where `is_number` -/
def Json.number : Json K → Option K
  | .int n => some (numOfInt n)
  | .float x => some x
  | _ => none

/-- cli:378-388 `transform_array_of_value_to_vec_of_f64`: what is not a number is dropped. -/
def numbersOf : List (Json K) → List K
  | [] => []
  | v :: l => match v.number with
    | some x => x :: numbersOf l
    | none => numbersOf l

/-- `json!` of a vector of numbers -/
def Json.ofNums (xs : List K) : Json K := .arr (xs.map .float)

/-- cli:361-376 and 390-392: the object that stands for an array of `ndarray`. -/
def ndarrayOf (xs : List K) : Json K :=
  .obj [("v".toList, .int 1), ("dim".toList, .arr [.int xs.length]), ("data".toList, .ofNums xs)]

/-- cli:347-359 `translate_veh_pt_type` -/
def ptTypeText (x : Int) : Txt :=
  if x = 1 then "Conv".toList else if x = 2 then "HEV".toList else if x = 3 then "PHEV".toList
  else if x = 4 then "BEV".toList else (toString x).toList

/-- cli:409-414: the powertrain. -/
def rewritePtType (v : Json K) : Except RsErr (Json K) :=
  match v.at "vehPtType" with
  | .int n => v.put "vehPtType" (.str (ptTypeText n))
  | _ => .ok v

/-- cli:416-420: the type of the engine. -/
def rewriteFcEffType (v : Json K) : Except RsErr (Json K) :=
  match (v.at "fuelConverter").at "fcEffType" with
  | .str s => v.put "fcEffType" (.str s)
  | _ => .ok v

/-- cli:421-434: a table of a hydrogen-diesel engine. -/
def h2Table (v : Json K) (key : String) : Option (List K) :=
  match (v.at "fuelConverter").at "fcEffType" with
  | .str s =>
    if s = "HDH2DieselIce".toList then
      match (v.at "fuelConverter").at key with
      | .arr l => some (numbersOf l)
      | _ => none
    else none
  | _ => none

/-- cli:437-441: accessories on the engine. -/
def rewriteForceAux (v : Json K) : Except RsErr (Json K) :=
  match v.at "forceAuxOnFC" with
  | .int n => v.put "forceAuxOnFC" (.bool (decide (n ≠ 0)))
  | _ => .ok v

/-- cli:443-448: two and three are rear and all wheels. -/
def rearDriven (v : Json K) : Bool :=
  match v.at "fwd1rwd2awd3" with
  | .int n => decide (n = 2) || decide (n = 3)
  | _ => false

/-- cli:449-455: the height of the centre of mass is negative for vehicles driven at the rear. -/
def rewriteCg (v : Json K) : Except RsErr (Json K) :=
  match (v.at "vehCgM").number with
  | some x => if rearDriven v ∧ 0 < x then v.put "vehCgM" (.float (-1 * x)) else .ok v
  | none => .ok v

/-- cli:457-462 and 471-483: an array of `part` as an array of `ndarray` at the top. -/
def liftNdarray (part key : String) (v : Json K) : Except RsErr (Json K) :=
  match (v.at part).at key with
  | .arr l => v.put key (ndarrayOf (numbersOf l))
  | _ => .ok v

/-- cli:464-469: the efficiencies of the engine, a plain vector. -/
def liftVector (part key : String) (v : Json K) : Except RsErr (Json K) :=
  match (v.at part).at key with
  | .arr l => v.put key (.ofNums (numbersOf l))
  | _ => .ok v

/-- cli:485-495: a number of `part` at the top. -/
def liftNumber (part key : String) (v : Json K) : Except RsErr (Json K) :=
  match ((v.at part).at key).number with
  | some x => v.put key (.float x)
  | none => .ok v

/-- cli:401-502 `json_rewrite`, after parsing and before printing: the value, and the tables of a hydrogen-diesel engine. -/
def jsonRewrite (v : Json K) : Except RsErr (Json K × Option (List K) × Option (List K)) :=
  match rewritePtType v with
  | .error e => .error e
  | .ok v => match rewriteFcEffType v with
    | .error e => .error e
    | .ok v =>
      let perc := h2Table v "fcPwrOutPerc"
      let share := h2Table v "HDH2DieselIceH2Share"
      match rewriteForceAux v with
      | .error e => .error e
      | .ok v => match rewriteCg v with
        | .error e => .error e
        | .ok v => match liftNdarray "fuelConverter" "fcPwrOutPerc" v with
          | .error e => .error e
          | .ok v => match liftVector "fuelConverter" "fcEffArray" v with
            | .error e => .error e
            | .ok v => match liftNdarray "motor" "mcEffArray" v with
              | .error e => .error e
              | .ok v => match liftNdarray "motor" "mcPwrOutPerc" v with
                | .error e => .error e
                | .ok v => match liftNumber "fuelConverter" "idleFcKw" v with
                  | .error e => .error e
                  | .ok v => match liftNumber "motor" "mcMaxElecInKw" v with
                    | .error e => .error e
                    | .ok v => match v.put "stop_start" (.bool false) with
                      | .error e => .error e
                      | .ok v => .ok (v, perc, share)

/-! ### The program -/

/-- How many of some options are given. -/
def given (l : List Bool) : Nat := (l.filter id).length

/-- cli:26-40: the groups of options. One of the four cycles and one of the two vehicles has to be given, and not more. -/
def CliArgs.accepted (g : CliArgs K) : Bool :=
  decide (given [g.cyc.isSome, g.cycFile.isSome, g.adopt.isSome, g.adoptHd.isSome] = 1)
    && decide (given [g.veh.isSome, g.vehFile.isSome] = 1)

/-- cli:193-198: whether the text after `--adopt-hd` is the path of a cycle. -/
def hdHasCycle (s : Txt) : Bool :=
  decide (lowerTxt s ≠ []) && decide (lowerTxt s ≠ "true".toList) && decide (lowerTxt s ≠ "false".toList)

/-- cli:231-238 a cycle of a single sample at rest. -/
def emptyCyc : Cyc K := [⟨0, 0, 0, 0⟩]

/-- cli:203-239: the cycle. -/
def CliArgs.cycle (E : CliEnv K) (g : CliArgs K) : Except RsErr (Cyc K) :=
  match g.cycFile with
  | some f => E.cycFile f
  | none =>
    match g.adoptHd with
    | some s => if hdHasCycle s then E.cycFile s else .ok emptyCyc
    | none => .ok emptyCyc

/-- cli:243: a flag that is given and true. -/
def CliArgs.isAdopt (g : CliArgs K) : Bool := g.adopt = some true

/-- The vehicle of a JSON value, and its tables of hydrogen (cli:247-253, 260-267; 254-258 without rewriting). -/
def CliEnv.vehJson (E : CliEnv K) (rewrite : Bool) (v : Json K) :
    Except RsErr (CliVeh K × Option (List K) × Option (List K)) :=
  if rewrite then
    match jsonRewrite v with
    | .error e => .error e
    | .ok (w, t) => match E.vehOf w with
      | .error e => .error e
      | .ok x => .ok (x, t)
  else
    match E.vehOf v with
    | .error e => .error e
    | .ok x => .ok (x, none, none)

/-- cli:244-273: the vehicle, and its tables of hydrogen. Without a vehicle, which the groups of options exclude, the program
takes the mock vehicle; here it stops with an error. -/
def CliArgs.vehicle (E : CliEnv K) (g : CliArgs K) : Except RsErr (CliVeh K × Option (List K) × Option (List K)) :=
  let rewrite := g.isAdopt || g.adoptHd.isSome
  match g.veh with
  | some s => match E.parse s with
    | .error e => .error e
    | .ok v => E.vehJson rewrite v
  | none =>
    match g.vehFile with
    | none => .error .err
    | some f =>
      if rewrite then
        match E.text f with
        | .error e => .error e
        | .ok s => match E.parse s with
          | .error e => .error e
          | .ok v => E.vehJson true v
      else
        match E.vehFile f with
        | .error e => .error e
        | .ok x => .ok (x, none, none)

/-- cli:204-223: the coefficients of a coast-down, of the mock vehicle. -/
def coastDownOf (E : CliEnv K) (g : CliArgs K) : Except RsErr (CliOut K) :=
  match g.a, g.b, g.c with
  | some a, some b, some c =>
    match (mockInputs : VehObj K).rsSetDerived with
    | .error _ => .error .panic
    | .ok d => match E.fit d a b c with
      | .error e => .error e
      | .ok (cd, rr) => .ok (.coefficients cd rr)
  | _, _, _ => .error .err

/-- cli:298-317: the split, where the vehicle has both tables. -/
def splitOf (tables : Option (List K) × Option (List K)) (f : List K → List K → Except RsErr (H2Diesel K)) :
    Except RsErr (Option (H2Diesel K)) :=
  match tables.2, tables.1 with
  | some share, some perc => match f perc share with
    | .error e => .error e
    | .ok r => .ok (some r)
  | _, _ => .ok none

end Lawless

section Floor
variable {K : Type*} [Field K] [LinearOrder K] [IsStrictOrderedRing K] [FloorRing K]

/-- `RustSimDrive::new(cyc, veh)` and `sim_drive(None, None)` -/
def cliRun (F : Fns K) (H : RsHooks K) (T : MissTols K) (V : Veh K) (c : Cyc K) : Except RsErr (Sim K × RsPost K) :=
  rsSimDrive F H V rsNewParams T rsLabelConst.kwhPerGge (Sim.new c) none none

/-- cli:287-334: a run of a heavy-duty cycle. `veh.fs_kwh` and `veh.ess_max_kwh` are those that the label reads. -/
def adoptHdRun (F : Fns K) (H : RsHooks K) (T : MissTols K) (veh : CliVeh K) (tables : Option (List K) × Option (List K))
    (c : Cyc K) : Except RsErr (AdoptResults K) :=
  let gge : K := rsLabelConst.kwhPerGge
  match cliRun F H T veh.sim c with
  | .error e => .error e
  | .ok (s, p) => match rsAccelSpeeds F H veh.sim T rsLabelConst with
    | .error e => .error e
    | .ok a => match rsNetAccel a.1 a.2 with
      | .error e => .error e
      | .ok accel =>
        let dist := rsSum (s.rows.map fun r => r.ach.distMi)
        match splitOf tables fun perc share => h2Diesel dist veh.sim.fcMaxKw gge (s.rows.map fun r => r.fc.fcKwOutAch)
            (s.rows.map fun r => r.fc.fsKwhOutAch) perc share with
        | .error e => .error e
        | .ok split =>
          let mpgge := match split with
            | some r => dist / (r.dieselGge + r.h2Gge)
            | none => p.mpgge
          .ok { adjCombMpgge := mpgge
                rangeMiles := if 0 < mpgge then veh.label.fsKwh / gge * mpgge
                  else if 0 < p.batteryKwhPerMi then veh.label.essMaxKwh / p.batteryKwhPerMi else 0
                uf := 0
                adjCombKwhPerMile := p.batteryKwhPerMi
                accel := accel
                traceMissInMph := p.traceMissSpeedMps * mphPerMps
                h2AndDiesel := split }

/-- cli:275-286: the label. -/
def adoptLabel (F : Fns K) (H : RsHooks K) (T : MissTols K) (E : CliEnv K) (veh : CliVeh K) : Except RsErr (AdoptResults K) :=
  match rsVehicleLabel F H veh.sim T rsLabelConst E.ufTable veh.label E.udds E.hwy with
  | .error e => .error e
  | .ok l => .ok ⟨l.adjCombMpgge, l.netRangeMiles, l.uf, l.adjCombKwhPerMi, l.netAccel, l.traceMissSpeedMph, none⟩

/-- cli:275-344: what is printed for a cycle and a vehicle. -/
def CliArgs.report (F : Fns K) (H : RsHooks K) (T : MissTols K) (E : CliEnv K) (g : CliArgs K) (c : Cyc K)
    (v : CliVeh K × Option (List K) × Option (List K)) : Except RsErr (CliOut K) :=
  if g.isAdopt then
    match adoptLabel F H T E v.1 with
    | .error e => .error e
    | .ok r => .ok (.adopt r)
  else
    match g.adoptHd with
    | some s =>
      match (if hdHasCycle s then .ok c else E.hhddt) with
      | .error e => .error e
      | .ok c => match adoptHdRun F H T v.1 v.2 c with
        | .error e => .error e
        | .ok r => .ok (.adopt r)
    | none =>
      match cliRun F H T v.1.sim c with
      | .error e => .error e
      | .ok (_, p) => .ok (.mpgge p.mpgge)

/-- cli:203-344: the cycle, the vehicle, and what is printed for them. -/
def CliArgs.drive (F : Fns K) (H : RsHooks K) (T : MissTols K) (E : CliEnv K) (g : CliArgs K) : Except RsErr (CliOut K) :=
  match g.cycle E with
  | .error e => .error e
  | .ok c => match g.vehicle E with
    | .error e => .error e
    | .ok v => g.report F H T E c v

/-- cli:182-345 `main`. Options that the groups do not accept end in an error. -/
def cliMain (F : Fns K) (H : RsHooks K) (T : MissTols K) (E : CliEnv K) (g : CliArgs K) : Except RsErr (CliOut K) :=
  if !g.accepted then .error .err
  else if g.cyc.isSome then .error .err
  else if g.cycFile = some "coastdown".toList then coastDownOf E g
  else g.drive F H T E

end Floor
end Fastsim
