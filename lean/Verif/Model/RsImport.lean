import Verif.Model.RsVeh
import Verif.Model.Load

/-!
# Vehicles from the tables of fueleconomy.gov and the EPA

`rust/fastsim-core/src/vehicle_import.rs`: `get_options_for_year_make_model`, `get_vehicle_data_for_id`,
`vehicle_import_by_id_and_year`, `import_all_vehicles` and `import_and_save_all_vehicles`, which the python package exports.

Simplifications for the whole file: text is a list of characters, all of them ASCII (so positions are those of bytes, and upper
and lower case those of ASCII letters); the three csv files of a year are given as records (reading csv, downloading and
unpacking the archives are left out; a year without files is an error); columns that nothing here reads are left out, and so are
rows that cannot be read and numbers that are not finite; numbers
are elements of an ordered type; `f64::round` and reading a number from text are unspecified (`ImportFns`), and so is the
Nelder-Mead minimisation in `abc_to_drag_coeffs` (`Fit`).
-/

namespace Fastsim

/-! ### Text -/

/-- `s.contains(p)` -/
def hasPart (p : String) (s : Txt) : Bool := decide (p.toList <:+: s)

/-- `s.find(p)`: where `p` starts first. -/
def findPart (p : Txt) : Txt → Option Nat
  | [] => if p = [] then some 0 else none
  | c :: s => if p <+: c :: s then some 0 else (findPart p s).map (· + 1)

/-- `s[a..b]`, which panics outside of the text. -/
def sliceOf (s : Txt) (a b : Nat) : Except RsErr Txt :=
  if a ≤ b ∧ b ≤ s.length then .ok ((s.drop a).take (b - a)) else .error .panic

/-- `unwrap()` -/
def orPanic {A : Type*} : Option A → Except RsErr A
  | some a => .ok a
  | none => .error .panic

/-- The text after a plus sign. -/
def unsigned : Txt → Txt
  | '+' :: t => t
  | t => t

/-- `s.parse::<u32>()`: digits, perhaps after a plus sign, of a number below 2^32. -/
def parseU32 (s : Txt) : Option Nat :=
  let d := unsigned s
  if d ≠ [] ∧ d.all Char.isDigit = true ∧ digitsNum d < 4294967296 then some (digitsNum d) else none

/-- White space of ASCII, without the vertical tab. -/
def isWs (c : Char) : Bool := c = ' ' || c = '\t' || c = '\n' || c = '\r' || c = Char.ofNat 12

/-- `s.trim()` -/
def trimTxt (s : Txt) : Txt := ((s.dropWhile isWs).reverse.dropWhile isWs).reverse

/-- `s.to_uppercase()` -/
def upperTxt (s : Txt) : Txt := s.map Char.toUpper

/-- `s.replace("4WD", "AWD")` -/
def awd : Txt → Txt
  | '4' :: 'W' :: 'D' :: s => 'A' :: 'W' :: 'D' :: awd s
  | c :: s => c :: awd s
  | [] => []

/-- `s.split_ascii_whitespace().collect()` -/
def wordsOf (s : Txt) : List Txt := (s.splitOnP isWs).filter fun w => decide (w ≠ [])

/-- `a.eq_ignore_ascii_case(b)` -/
def sameFolded (a b : Txt) : Bool := decide (lowerTxt a = lowerTxt b)

/-! ### Records -/

/-- vehicle_import.rs:72-192 `VehicleDataFE`, a row of `<year>-vehicles.csv` from fueleconomy.gov. -/
structure FeRow (K : Type*) where
  id : Int
  year : Nat
  make : Txt
  model : Txt
  drive : Txt
  altVehType : Txt
  fuel1 : Txt
  cylinders : Txt
  displ : Txt
  transmission : Txt
  startStop : Txt
  rangeEv : Int
  cityMpg : K
  highwayMpg : K
  combMpg : K

/-- A row of fueleconomy.gov with its emission tests (vehicle_import.rs:188-191), of which only the engine family is kept. -/
structure FeData (K : Type*) extends FeRow K where
  efids : List Txt

/-- vehicle_import.rs:228-283 `VehicleDataEPA`, a row of `<year>-testcar.csv`. -/
structure EpaRow (K : Type*) where
  year : Nat
  make : Txt
  model : Txt
  testId : Txt
  displ : K
  engPwrHp : Nat
  cylinders : Txt
  transmissionCode : Txt
  transmissionType : Txt
  gears : Nat
  driveCode : Txt
  drive : Txt
  testWeightLbs : K
  testFuelType : Txt
  aLbf : K
  bLbfPerMph : K
  cLbfPerMph2 : K
  deriving DecidableEq

/-- vehicle_import.rs:739-747 `OtherVehicleInputs` -/
structure OtherInputs (K : Type*) where
  widthIn : K
  heightIn : K
  fuelTankGal : K
  essMaxKwh : K
  mcMaxKw : K
  essMaxKw : K
  fcMaxKw : Option K

/-- vehicle_import.rs:1067-1080 `VehicleInputRecord` -/
structure InputRecord (K : Type*) where
  make : Txt
  model : Txt
  year : Nat
  outputFileName : Txt
  other : OtherInputs K

/-- The three files of a year. An emission row has its identifier (`none` if it is no number; such rows are skipped) and its
engine family. -/
structure YearTables (K : Type*) where
  vehicles : List (FeRow K)
  emissions : List (Option Int × Txt)
  tests : List (EpaRow K)

/-- The directory of data. -/
abbrev Archive (K : Type*) := Nat → Option (YearTables K)

/-- Functions on numbers that are left open. -/
structure ImportFns (K : Type*) where
  /-- `s.parse::<f64>()` -/
  parse : Txt → Option K
  /-- `x.round()` -/
  round : K → K

/-- A vehicle that was imported: its attributes and the ones that no simulation reads. -/
structure ImportedVeh (K : Type*) where
  obj : VehObj K
  name : Txt
  year : Nat
  fcEffType : Txt
  valUddsMpgge : K
  valHwyMpgge : K
  valCombMpgge : K
  valRangeMiles : K

/-- vehicle_import.rs:1114-1159: every vehicle gets the emission rows with its identifier, in their order. -/
def YearTables.data {K : Type*} (T : YearTables K) : List (FeData K) :=
  T.vehicles.map fun v => { v with efids := (T.emissions.filter fun e => decide (e.1 = some v.id)).map Prod.snd }

/-- vehicle_import.rs:307-334 `get_options_for_year_make_model` -/
def optionsFor {K : Type*} (A : Archive K) (year make model : Txt) : Except RsErr (List (FeData K)) :=
  match parseU32 (trimTxt year) with
  | none => .error .err
  | some y => match A y with
    | none => .error .err
    | some T => .ok (T.data.filter fun v => decide (v.make = make ∧ v.model = model))

/-- vehicle_import.rs:338-364 `get_vehicle_data_for_id` -/
def dataForId {K : Type*} (A : Archive K) (id : Int) (year : Txt) : Except RsErr (FeData K) :=
  match parseU32 (trimTxt year) with
  | none => .error .err
  | some y => match A y with
    | none => .error .err
    | some T => match T.data.find? fun v => decide (v.id = id) with
      | none => .error .err
      | some v => .ok v

/-! ### Matching -/

/-- vehicle_import.rs:373-376, 403-406: the character before `-spd`, read as a number. `None` of `find` panics, and so does a
subtraction below zero or text that is no number. -/
def gearsBeforeSpd (t : Txt) : Except RsErr Nat := do
  let k ← orPanic (findPart "-spd".toList t)
  if k = 0 then .error .panic
  else
    let w ← sliceOf t (k - 1) k
    orPanic (parseU32 w)

/-- vehicle_import.rs:382-385, 388-391, 394-397: the number between the first `S` and the first closing parenthesis. -/
def gearsAfterS (t : Txt) : Except RsErr Nat := do
  let a ← orPanic (findPart "S".toList t)
  let b ← orPanic (findPart ")".toList t)
  let w ← sliceOf t (a + 1) b
  orPanic (parseU32 w)

/-- vehicle_import.rs:366-415 `derive_transmission_specs` -/
def transmissionSpecs (t : Txt) : Except RsErr (Nat × Txt) :=
  if hasPart "Manual" t then (gearsBeforeSpd t).map fun n => (n, "M".toList)
  else if hasPart "variable gear ratios" t then .ok (1, "CVT".toList)
  else if hasPart "AV-S" t then (gearsAfterS t).map fun n => (n, "SCV".toList)
  else if hasPart "AM-S" t then (gearsAfterS t).map fun n => (n, "AMS".toList)
  else if hasPart "S" t then (gearsAfterS t).map fun n => (n, "SA".toList)
  else if hasPart "-spd" t then (gearsBeforeSpd t).map fun n => (n, "A".toList)
  else do
    let a ← orPanic (findPart "(A".toList t)
    let b ← orPanic (findPart ")".toList t)
    let w ← sliceOf t (a + 2) b
    .ok ((parseU32 w).getD 1, "A".toList)

section Lawless
variable {K : Type*} [Zero K] [One K] [NatCast K] [Add K] [Sub K] [Mul K] [Div K] [Neg K]
  [LinearOrder K]

/-- vehicle_import.rs:467-472: whether the test group ends in the engine family of the first emission row without its first
character. -/
def sameTestId (fe : FeData K) (e : EpaRow K) : Bool :=
  let efid := fe.efids.headD []
  !e.testId.isEmpty && !efid.isEmpty && decide (efid.tail <:+ e.testId)

/-- vehicle_import.rs:473-489: how well the names match; `none` is `NaN` (a name without words). -/
def nameMatch (fe : FeData K) (e : EpaRow K) : Option K :=
  if sameTestId fe e || sameFolded e.model fe.model then some 1
  else
    let feWords := wordsOf (awd (upperTxt fe.model))
    let epaWords := wordsOf (awd (upperTxt e.model))
    let count := epaWords.countP fun w => decide (w ∈ feWords)
    if epaWords.length = 0 ∨ feWords.length = 0 then none
    else some (((count : K) * (count : K)) / ((epaWords.length : K) * (feWords.length : K)))

/-- vehicle_import.rs:493-502: the point for the engine. -/
def engineScore (R : ImportFns K) (fe : FeData K) (e : EpaRow K) : K :=
  if fe.altVehType = "EV".toList then
    if e.cylinders.isEmpty && decide (R.round e.displ = 0) then 1 else 0
  else if e.cylinders = fe.cylinders ∧
      R.round (e.displ * ((10 : Nat) : K)) / ((10 : Nat) : K) = (R.parse fe.displ).getD 0 then 1
  else 0

/-- vehicle_import.rs:441-450, 504-514: the point for the drive. -/
def driveScore (fe : FeData K) (e : EpaRow K) : K :=
  let code := if hasPart "4WD" e.model || hasPart "AWD" e.model || hasPart "4-Wheel Drive" e.drive then "A".toList else e.drive
  if code = fe.drive.take 1 then 1 else 0

/-- vehicle_import.rs:516-520: the points for the kind of transmission. -/
def transmissionScore (kind : Txt) (e : EpaRow K) : K :=
  if e.transmissionCode = kind then dec 1 2
  else if decide (e.transmissionType <+: kind) then dec 1 4
  else 0

/-- vehicle_import.rs:521-523: the points for the number of gears. -/
def gearScore (gears : Nat) (e : EpaRow K) : K := if e.gears = gears then dec 1 2 else 0

/-- vehicle_import.rs:490-523: the score of a test. -/
def epaScore (R : ImportFns K) (fe : FeData K) (spec : Nat × Txt) (e : EpaRow K) : K :=
  0 + engineScore R fe e + driveScore fe e + transmissionScore spec.2 e + gearScore spec.1 e

/-- vehicle_import.rs:453-528: the tests that are considered, with how well their names match and their scores. -/
def epaCandidates (R : ImportFns K) (fe : FeData K) (spec : Nat × Txt) (tests : List (EpaRow K)) :
    List (Option K × K × EpaRow K) :=
  tests.filterMap fun e =>
    if e.year = fe.year ∧ sameFolded e.make fe.make = true ∧ hasPart "Cold CO" e.testFuelType = false then
      let n := nameMatch fe e
      if n = some 0 then none else some (n, epaScore R fe spec e, e)
    else none

/-- vehicle_import.rs:533-543: one round of the search for the best candidate; comparisons with `NaN` are false. -/
def bestRound (best : K × K × Option (EpaRow K)) (c : Option K × K × EpaRow K) : K × K × Option (EpaRow K) :=
  match c.1 with
  | none => best
  | some n => if best.1 < n ∨ n = best.1 ∧ best.2.1 < c.2.1 then (n, c.2.1, some c.2.2) else best

/-- vehicle_import.rs:427-551 `match_epatest_with_fegov_v2`. The index of the best candidate starts at 0, but is only used if
some round was won. -/
def matchEpa (R : ImportFns K) (fe : FeData K) (tests : List (EpaRow K)) : Except RsErr (Option (EpaRow K)) :=
  match transmissionSpecs fe.transmission with
  | .error e => .error e
  | .ok spec =>
    let best := (epaCandidates R fe spec tests).foldl bestRound (0, 0, none)
    .ok (if best.1 = 0 then none else best.2.2)

/-! ### Building a vehicle -/

/-- vehicle.rs:863-986: the inputs of `mock_vehicle` with the changes of `default` (1087-1110). -/
def mockInputs : VehObj K where
  ptType := .conv
  fcType := .other
  stopStart := false
  noElecSys := false
  noElecAux := false
  chargingOn := false
  vehKg := 0
  dragCoef := dec 355 1000
  frontalAreaM2 := dec 3066 1000
  vehCgM := dec 53 100
  driveAxleWeightFrac := dec 59 100
  wheelBaseM := dec 26 10
  wheelInertiaKgM2 := dec 815 1000
  numWheels := dec 4 1
  wheelRrCoef := dec 6 1000
  wheelRadiusM := dec 336 1000
  wheelCoefOfFric := dec 7 10
  maxTracMps2 := 0
  fsMaxKw := dec 2000 1
  fsSecsToPeakPwr := dec 1 1
  fcMaxKw := dec 125 1
  fcSecToPeakPwr := dec 6 1
  fcKwOutArray := []
  fcEffArray := []
  maxFcEffKw := 0
  minFcTimeOn := dec 30 1
  idleFcKw := dec 25 10
  mcMaxKw := 0
  mcSecToPeakPwr := dec 4 1
  mcKwInArray := []
  mcKwOutArray := []
  mcFullEffArray := []
  mcMaxElecInKw := 0
  mcPeakEff := 0
  essMaxKw := 0
  essMaxKwh := 0
  essRoundTripEff := dec 97 100
  minSoc := dec 4 10
  maxSoc := dec 8 10
  essDischgToFcMaxEffPerc := 0
  essChgToFcMaxEffPerc := 0
  maxAccelBufferMph := dec 60 1
  maxAccelBufferPercOfUseableSoc := dec 2 10
  percHighAccBuf := 0
  mphFcOn := dec 30 1
  kwDemandFcOn := dec 100 1
  maxRegen := dec 98 100
  maxRegenKwh := 0
  regenA := dec 500 1
  regenB := dec 99 100
  auxKw := dec 7 10
  altEff := dec 1 1
  chgEff := dec 86 100
  transEff := dec 92 100
  essToFuelOkError := dec 5 1000
  template := false
  forceAuxOnFc := true
  aGravMps2 := dec 981 100
  fsKwh := dec 504 1
  fsKwhPerKg := dec 989 100
  fcPwrOutPerc := defaultFcPwrOutPerc
  fcEffMap := ([100, 120, 160, 220, 280, 330, 350, 360, 350, 340, 320, 300] : List Nat).map fun k => dec k 1000
  fcBaseKg := dec 61 1
  fcKwPerKg := dec 213 100
  mcPwrOutPerc := defaultMcPwrOutPerc
  mcEffMap := some rsSmallBaselineEff
  mcPeKgPerKw := dec 833 1000
  mcPeBaseKg := dec 216 10
  essKgPerKwh := dec 8 1
  essBaseKg := dec 75 1
  gliderKg := dec 1359166 1000
  cargoKg := dec 136 1
  transKg := dec 114 1
  compMassMultiplier := dec 14 10
  vehOverrideKg := none
  fcPeakEffOverride := none
  mcPeakEffOverride := none
  inputKwOutArray := []
  mcEffArray := []
  essMassKg := 0
  mcMassKg := 0
  fcMassKg := 0
  fsMassKg := 0

/-- vehicle_import.rs:844-849: the type of powertrain. -/
def importedType (fe : FeRow K) : PtType :=
  if fe.altVehType = "Hybrid".toList then .hev
  else if fe.altVehType = "Plug-in Hybrid".toList then .phev
  else if fe.altVehType = "EV".toList then .bev
  else .conv

/-- vehicle_import.rs:877, 902, 927, 951: the rated power of the test vehicle in kW. -/
def ratedKw (e : EpaRow K) : K := (e.engPwrHp : K) / dec 134102 100000

/-- vehicle_import.rs:880-882, 954-956: the efficiencies of a gasoline engine. -/
def importSi : List K := ([100, 120, 160, 220, 280, 330, 350, 360, 350, 340, 320, 300] : List Nat).map fun k => dec k 1000

/-- vehicle_import.rs:905-907, 930-932: the efficiencies of an Atkinson engine. -/
def importAtkinson : List K := ([100, 120, 280, 350, 375, 390, 400, 400, 380, 370, 360, 350] : List Nat).map fun k => dec k 1000

/-- vehicle_import.rs:874-968: the attributes that depend on the type of powertrain, put into the vehicle `v`. -/
def byPowertrain (fe : FeRow K) (e : EpaRow K) (o : OtherInputs K) (v : VehObj K) : VehObj K :=
  match importedType fe with
  | .conv => { v with
      fsMaxKw := dec 2000 1, fsKwh := o.fuelTankGal * dec 337 10, fcMaxKw := ratedKw e, fcEffMap := importSi
      mcMaxKw := 0, minSoc := 0, maxSoc := 1, essDischgToFcMaxEffPerc := 0, mphFcOn := dec 55 1
      kwDemandFcOn := dec 100 1, auxKw := dec 7 10, transEff := dec 92 100, essMaxKw := 0, essMaxKwh := 0 }
  | .hev => { v with
      fsMaxKw := dec 2000 1, fsKwh := o.fuelTankGal * dec 337 10, fcMaxKw := o.fcMaxKw.getD (ratedKw e)
      fcEffMap := importAtkinson, mcMaxKw := o.mcMaxKw, minSoc := 0, maxSoc := 1, essDischgToFcMaxEffPerc := 0
      mphFcOn := dec 1 1, kwDemandFcOn := dec 100 1, auxKw := dec 5 10, transEff := dec 95 100
      essMaxKw := o.essMaxKw, essMaxKwh := o.essMaxKwh }
  | .phev => { v with
      fsMaxKw := dec 2000 1, fsKwh := o.fuelTankGal * dec 337 10, fcMaxKw := o.fcMaxKw.getD (ratedKw e)
      fcEffMap := importAtkinson, mcMaxKw := o.mcMaxKw, minSoc := 0, maxSoc := 1, essDischgToFcMaxEffPerc := 1
      mphFcOn := dec 85 1, kwDemandFcOn := dec 120 1, auxKw := dec 3 10, transEff := dec 98 100
      essMaxKw := o.essMaxKw, essMaxKwh := o.essMaxKwh }
  | .bev => { v with
      fsMaxKw := 0, fsKwh := 0, fcMaxKw := 0, fcEffMap := importSi
      mcMaxKw := ratedKw e, minSoc := 0, maxSoc := 1, essDischgToFcMaxEffPerc := 0, mphFcOn := dec 1 1
      kwDemandFcOn := dec 100 1, auxKw := dec 25 100, transEff := dec 98 100
      essMaxKw := dec 105 100 * ratedKw e, essMaxKwh := o.essMaxKwh }

/-- vehicle_import.rs:986-1033: what `set_derived` is called on: the given attributes over those of the default vehicle `d`,
derived ones included. -/
def importInputs (fe : FeRow K) (e : EpaRow K) (o : OtherInputs K) (d : VehObj K) : VehObj K :=
  byPowertrain fe e o { d with
    ptType := importedType fe
    vehOverrideKg := some (e.testWeightLbs / dec 220462 100000)
    vehCgM := if fe.drive = "Front-Wheel Drive".toList then dec 53 100 else -dec 53 100
    dragCoef := 0
    frontalAreaM2 := dec 85 100 * (o.widthIn * o.heightIn) / (dec 393701 10000 * dec 393701 10000)
    idleFcKw := 0
    mcEffMap := some (List.replicate 11 0)
    wheelRrCoef := 0
    stopStart := false
    forceAuxOnFc := false
    fcPeakEffOverride := none
    mcPeakEffOverride := some (dec 95 100) }

/-- `abc_to_drag_coeffs(veh, a, b, c, …)` with `simdrive_optimize` (vehicle_utils.rs:28-110): the drag and the rolling
coefficient that the minimisation finds. -/
abbrev Fit (K : Type*) := VehObj K → K → K → K → Except RsErr (K × K)

/-- vehicle_import.rs:833-1023 `try_make_single_vehicle`. The default vehicle is `mock_vehicle` after `set_derived`. -/
def makeVehicle (fit : Fit K) (fe : FeRow K) (e : EpaRow K) (o : OtherInputs K) : Except RsErr (Option (ImportedVeh K)) :=
  if e = ⟨0, [], [], [], 0, 0, [], [], [], 0, [], [], 0, [], 0, 0, 0⟩ then .ok none
  else match (mockInputs : VehObj K).rsSetDerived with
    | .error _ => .error .panic
    | .ok d => match (importInputs fe e o d).rsSetDerived with
      | .error _ => .error .panic
      | .ok v => match fit v e.aLbf e.bLbfPerMph e.cLbfPerMph2 with
        | .error x => .error x
        | .ok (cd, rr) => .ok (some {
            obj := { v with dragCoef := cd, wheelRrCoef := rr }
            name := (toString fe.year).toList ++ ' ' :: fe.make ++ ' ' :: fe.model
            year := fe.year
            fcEffType := match importedType fe with
              | .hev => "Atkinson".toList
              | .phev => "Atkinson".toList
              | _ => "SI".toList
            valUddsMpgge := fe.cityMpg
            valHwyMpgge := fe.highwayMpg
            valCombMpgge := fe.combMpg
            valRangeMiles := match importedType fe with
              | .bev => if fe.rangeEv < 0 then -((fe.rangeEv.natAbs : Nat) : K) else ((fe.rangeEv.natAbs : Nat) : K)
              | _ => 0 })

/-- vehicle_import.rs:763-809 `vehicle_import_by_id_and_year` -/
def importById (R : ImportFns K) (fit : Fit K) (A : Archive K) (id : Int) (year : Nat) (o : OtherInputs K) :
    Except RsErr (ImportedVeh K) :=
  match A year with
  | none => .error .err
  | some T => match T.data.find? fun v => decide (v.id = id) with
    | none => .error .err
    | some fe => match matchEpa R fe T.tests with
      | .error x => .error x
      | .ok none => .error .err
      | .ok (some e) => match makeVehicle fit fe.toFeRow e o with
        | .error x => .error x
        | .ok none => .error .err
        | .ok (some v) => .ok v

/-- vehicle_import.rs:815-831: the rows that a record asks for. -/
def askedFor (r : InputRecord K) (l : List (FeData K)) : List (FeData K) :=
  l.filter fun v => decide (v.year = r.year ∧ trimTxt (lowerTxt v.make) = trimTxt (lowerTxt r.make) ∧
    trimTxt (lowerTxt v.model) = trimTxt (lowerTxt r.model))

/-- vehicle_import.rs:1038-1052: the longer name of a vehicle. -/
def fullName (fe : FeRow K) (name : Txt) : Txt :=
  if fe.altVehType = "EV".toList then name ++ " (EV)".toList
  else
    let alt := if fe.altVehType = [] then [] else fe.altVehType ++ ", ".toList
    name ++ " ( ".toList ++ alt ++ " ".toList ++ fe.cylinders ++ " cylinders, ".toList ++ fe.displ ++ " L, ".toList ++
      fe.transmission ++ " )".toList

/-- The body of the loop of `importRecord`: the vehicles made of one row. -/
def importRow (R : ImportFns K) (fit : Fit K) (r : InputRecord K) (tests : List (EpaRow K)) (fe : FeData K) :
    Except RsErr (List (ImportedVeh K)) :=
  match matchEpa R fe tests with
  | .error x => .error x
  | .ok none => .ok []
  | .ok (some e) => match makeVehicle fit fe.toFeRow e r.other with
    | .error x => .error x
    | .ok none => .ok []
    | .ok (some v) => .ok [{ v with name := fullName fe.toFeRow v.name }]

/-- vehicle_import.rs:1025-1066 `try_import_vehicles` -/
def importRecord (R : ImportFns K) (fit : Fit K) (r : InputRecord K) (tests : List (EpaRow K)) :
    List (FeData K) → Except RsErr (List (ImportedVeh K))
  | [] => .ok []
  | fe :: l => do
    let hit ← importRow R fit r tests fe
    let rest ← importRecord R fit r tests l
    .ok (hit ++ rest)

/-- vehicle_import.rs:1357-1378 `import_all_vehicles_from_record`, all years having been loaded (1349-1352). -/
def importRecords (R : ImportFns K) (fit : Fit K) (A : Archive K) : List (InputRecord K) →
    Except RsErr (List (InputRecord K × ImportedVeh K))
  | [] => .ok []
  | r :: l => do
    let vs ← match A r.year with
      | none => .ok []
      | some T => importRecord R fit r T.tests (askedFor r T.data)
    let rest ← importRecords R fit A l
    .ok (vs.map (fun v => (r, v)) ++ rest)

/-- vehicle_import.rs:1287-1336 `import_all_vehicles` -/
def importAll (R : ImportFns K) (fit : Fit K) (A : Archive K) (year : Nat) (make model : Txt) (o : OtherInputs K) :
    Except RsErr (List (ImportedVeh K)) :=
  match A year with
  | none => .error .err
  | some _ => (importRecords R fit A [⟨make, model, year, [], o⟩]).map fun l => l.map Prod.snd

/-! ### Saving -/

/-- `Path::file_name`: what follows the last slash. Simplification: the name does not end in a slash and is not `..`. -/
def lastPart (s : Txt) : Txt := (s.reverse.takeWhile fun c => decide (c ≠ '/')).reverse

/-- `Path::file_stem` and `Path::extension` of a file name: split at the last dot, unless it is the first character. -/
def stemAndExt (n : Txt) : Txt × Option Txt :=
  let ext := (n.reverse.takeWhile fun c => decide (c ≠ '.')).reverse
  let stem := n.take (n.length - ext.length - 1)
  if ext.length = n.length ∨ stem = [] then (n, none) else (stem, some ext)

/-- vehicle_import.rs:1391-1401: the file for the vehicle with number `idx` among all that were imported. -/
def saveName (idx : Nat) (outputFileName : Txt) : Except RsErr Txt :=
  if 0 < idx then
    match stemAndExt (lastPart outputFileName) with
    | (_, none) => .error .panic
    | (stem, some ext) => .ok (stem ++ '-' :: (toString idx).toList ++ '.' :: ext)
  else .ok outputFileName

/-- vehicle_import.rs:1380-1410, the loop: files are written in order. -/
def saveLoop (idx : Nat) : List (InputRecord K × ImportedVeh K) → Except RsErr (List (Txt × ImportedVeh K))
  | [] => .ok []
  | (r, v) :: l => match saveName idx r.outputFileName with
    | .error x => .error x
    | .ok name => match saveLoop (idx + 1) l with
      | .error x => .error x
      | .ok rest => .ok ((name, v) :: rest)

/-- vehicle_import.rs:1338-1355, 1380-1410 `import_and_save_all_vehicles_from_file`: the files that are written into the output
directory, in order. All years of the records have to be there (1235-1285). -/
def importAndSave (R : ImportFns K) (fit : Fit K) (A : Archive K) (l : List (InputRecord K)) :
    Except RsErr (List (Txt × ImportedVeh K)) :=
  if ∀ r ∈ l, (A r.year).isSome = true then
    match importRecords R fit A l with
    | .error x => .error x
    | .ok vs => saveLoop 0 vs
  else .error .err

end Lawless
end Fastsim
