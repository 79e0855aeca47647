import Verif.Props.RustImport

/-!
# The vehicle that an import builds (C106)
-/

set_option linter.unusedSectionVars false

namespace Fastsim.Spec
variable {K : Type*} [Field K] [LinearOrder K] [IsStrictOrderedRing K]

/-- What every imported vehicle has of its two records and of the inputs of the user. -/
structure ImportedBody (fe : FeRow K) (e : EpaRow K) (o : OtherInputs K) (v : ImportedVeh K) : Prop where
  mass : v.obj.vehKg * (220462 / 100000) = e.testWeightLbs
  area : v.obj.frontalAreaM2 * (393701 / 10000) ^ 2 = 85 / 100 * (o.widthIn * o.heightIn)
  front : fe.drive = "Front-Wheel Drive".toList → v.obj.vehCgM = 53 / 100
  rear : fe.drive ≠ "Front-Wheel Drive".toList → v.obj.vehCgM = -(53 / 100)
  year : v.year = fe.year
  name : v.name = (toString fe.year).toList ++ " ".toList ++ fe.make ++ " ".toList ++ fe.model
  city : v.valUddsMpgge = fe.cityMpg
  highway : v.valHwyMpgge = fe.highwayMpg
  comb : v.valCombMpgge = fe.combMpg
  noStopStart : v.obj.stopStart = false
  idle : v.obj.idleFcKw = 0
  cargo : v.obj.cargoKg = 136
  transmission : v.obj.transKg = 114
  tires : v.obj.wheelRadiusM = 336 / 1000 ∧ v.obj.numWheels = 4 ∧ v.obj.wheelCoefOfFric = 7 / 10
  soc : v.obj.minSoc = 0 ∧ v.obj.maxSoc = 1

/-- Powers and capacities: engine, motor, battery (power and energy), fuel (power and energy), accessories, transmission. -/
structure Sizes (V : VehObj K) (fc mc essKw essKwh fsKw fsKwh aux trans : K) : Prop where
  fc : V.fcMaxKw = fc
  mc : V.mcMaxKw = mc
  essKw : V.essMaxKw = essKw
  essKwh : V.essMaxKwh = essKwh
  fsKw : V.fsMaxKw = fsKw
  fsKwh : V.fsKwh = fsKwh
  aux : V.auxKw = aux
  trans : V.transEff = trans

/-- Inputs that make sense: nothing is negative. -/
structure PlainInputs (e : EpaRow K) (o : OtherInputs K) : Prop where
  weight : 0 ≤ e.testWeightLbs
  width : 0 ≤ o.widthIn
  height : 0 ≤ o.heightIn
  tank : 0 ≤ o.fuelTankGal
  essKwh : 0 ≤ o.essMaxKwh
  essKw : 0 ≤ o.essMaxKw
  mc : 0 ≤ o.mcMaxKw
  fc : ∀ x, o.fcMaxKw = some x → 0 ≤ x

end Fastsim.Spec

namespace Fastsim.Props
open Fastsim Spec

variable {K : Type*} [Field K] [LinearOrder K] [IsStrictOrderedRing K]

/-! ### `set_derived` keeps inputs -/

set_option maxHeartbeats 2000000 in
/-- What `set_derived` leaves alone. -/
theorem rsSetDerived_inputs {o r : VehObj K} (h : o.rsSetDerived = .ok r) (hf : o.fcPeakEffOverride = none) :
    r = { o with
      noElecSys := r.noElecSys, noElecAux := r.noElecAux, inputKwOutArray := r.inputKwOutArray
      fcKwOutArray := r.fcKwOutArray, fcEffArray := r.fcEffArray, mcEffMap := r.mcEffMap, mcEffArray := r.mcEffArray
      mcKwOutArray := r.mcKwOutArray, mcFullEffArray := r.mcFullEffArray, mcKwInArray := r.mcKwInArray
      mcMaxElecInKw := r.mcMaxElecInKw, mcPeakEffOverride := none, vehKg := r.vehKg, maxTracMps2 := r.maxTracMps2
      essMassKg := r.essMassKg, mcMassKg := r.mcMassKg, fcMassKg := r.fcMassKg, fsMassKg := r.fsMassKg
      maxRegenKwh := r.maxRegenKwh } ∧
    (o.fcEffArray ≠ [] → r.fcEffArray = o.fcEffArray) ∧
    (∀ k, o.vehOverrideKg = some k → r.vehKg = k) := by
  obtain ⟨o1, h1, rfl⟩ := rsSetDerived_stages h
  unfold VehObj.rsSetCurves at h1
  have hb : ∃ fcEff eff, (o.fcEffArray ≠ [] → fcEff = o.fcEffArray) ∧ o1 = { o with
      noElecSys := decide (o.essMaxKwh = 0) || decide (o.essMaxKw = 0) || decide (o.mcMaxKw = 0)
      noElecAux := (decide (o.essMaxKwh = 0) || decide (o.essMaxKw = 0) || decide (o.mcMaxKw = 0)) ||
        decide (o.mcMaxKw ≤ o.auxKw) || o.forceAuxOnFc
      inputKwOutArray := o.fcPwrOutPerc.map (· * o.fcMaxKw)
      fcKwOutArray := rsFcPercOut.map (· * o.fcMaxKw)
      fcEffArray := fcEff
      mcEffMap := some o.rsMcMap, mcEffArray := o.rsMcMap
      mcKwOutArray := rsMcPercOut.map (· * o.mcMaxKw), mcFullEffArray := 0 :: eff
      mcKwInArray := 0 :: List.zipWith (· / ·) (rsMcPercOut.map (· * o.mcMaxKw)).tail eff
      mcMaxElecInKw := rsArrMax (0 :: List.zipWith (· / ·) (rsMcPercOut.map (· * o.mcMaxKw)).tail eff) } := by
    simp only at h1
    split at h1
    · rename_i he
      obtain ⟨fcEff, -, h1⟩ := rsBind_ok h1
      obtain ⟨eff, -, h1⟩ := rsBind_ok h1
      exact ⟨fcEff, eff, fun hne => absurd (List.isEmpty_iff.1 he) hne, (Except.ok.inj h1).symm⟩
    · obtain ⟨fcEff, h0, h1⟩ := rsBind_ok h1
      obtain ⟨eff, -, h1⟩ := rsBind_ok h1
      exact ⟨fcEff, eff, fun _ => (Except.ok.inj h0).symm, (Except.ok.inj h1).symm⟩
  obtain ⟨fcEff, eff, hk, rfl⟩ := hb
  unfold VehObj.rsSetOverrides VehObj.rsSetVehMass VehObj.rsSetMcPeak
  simp only [hf]
  rcases hm : o.mcPeakEffOverride with _ | x <;> rcases hv : o.vehOverrideKg with _ | k
  · exact ⟨rfl, hk, fun _ e => by cases e⟩
  · exact ⟨rfl, hk, fun _ e => by cases e; rfl⟩
  · exact ⟨rfl, hk, fun _ e => by cases e⟩
  · exact ⟨rfl, hk, fun _ e => by cases e; rfl⟩

/-- The inputs of two vehicles are the same. -/
structure SameGiven (o r : VehObj K) : Prop where
  ptType : r.ptType = o.ptType
  stopStart : r.stopStart = o.stopStart
  frontalAreaM2 : r.frontalAreaM2 = o.frontalAreaM2
  vehCgM : r.vehCgM = o.vehCgM
  driveAxleWeightFrac : r.driveAxleWeightFrac = o.driveAxleWeightFrac
  wheelBaseM : r.wheelBaseM = o.wheelBaseM
  wheelInertiaKgM2 : r.wheelInertiaKgM2 = o.wheelInertiaKgM2
  numWheels : r.numWheels = o.numWheels
  wheelRadiusM : r.wheelRadiusM = o.wheelRadiusM
  wheelCoefOfFric : r.wheelCoefOfFric = o.wheelCoefOfFric
  fsMaxKw : r.fsMaxKw = o.fsMaxKw
  fsSecsToPeakPwr : r.fsSecsToPeakPwr = o.fsSecsToPeakPwr
  fcMaxKw : r.fcMaxKw = o.fcMaxKw
  fcSecToPeakPwr : r.fcSecToPeakPwr = o.fcSecToPeakPwr
  minFcTimeOn : r.minFcTimeOn = o.minFcTimeOn
  idleFcKw : r.idleFcKw = o.idleFcKw
  mcMaxKw : r.mcMaxKw = o.mcMaxKw
  mcSecToPeakPwr : r.mcSecToPeakPwr = o.mcSecToPeakPwr
  essMaxKw : r.essMaxKw = o.essMaxKw
  essMaxKwh : r.essMaxKwh = o.essMaxKwh
  essRoundTripEff : r.essRoundTripEff = o.essRoundTripEff
  minSoc : r.minSoc = o.minSoc
  maxSoc : r.maxSoc = o.maxSoc
  essDischgToFcMaxEffPerc : r.essDischgToFcMaxEffPerc = o.essDischgToFcMaxEffPerc
  essChgToFcMaxEffPerc : r.essChgToFcMaxEffPerc = o.essChgToFcMaxEffPerc
  maxAccelBufferMph : r.maxAccelBufferMph = o.maxAccelBufferMph
  maxAccelBufferPercOfUseableSoc : r.maxAccelBufferPercOfUseableSoc = o.maxAccelBufferPercOfUseableSoc
  percHighAccBuf : r.percHighAccBuf = o.percHighAccBuf
  mphFcOn : r.mphFcOn = o.mphFcOn
  kwDemandFcOn : r.kwDemandFcOn = o.kwDemandFcOn
  maxRegen : r.maxRegen = o.maxRegen
  auxKw : r.auxKw = o.auxKw
  altEff : r.altEff = o.altEff
  chgEff : r.chgEff = o.chgEff
  transEff : r.transEff = o.transEff
  essToFuelOkError : r.essToFuelOkError = o.essToFuelOkError
  template : r.template = o.template
  fsKwh : r.fsKwh = o.fsKwh
  fsKwhPerKg : r.fsKwhPerKg = o.fsKwhPerKg
  fcPwrOutPerc : r.fcPwrOutPerc = o.fcPwrOutPerc
  fcEffMap : r.fcEffMap = o.fcEffMap
  fcBaseKg : r.fcBaseKg = o.fcBaseKg
  fcKwPerKg : r.fcKwPerKg = o.fcKwPerKg
  mcPwrOutPerc : r.mcPwrOutPerc = o.mcPwrOutPerc
  mcPeKgPerKw : r.mcPeKgPerKw = o.mcPeKgPerKw
  mcPeBaseKg : r.mcPeBaseKg = o.mcPeBaseKg
  essKgPerKwh : r.essKgPerKwh = o.essKgPerKwh
  essBaseKg : r.essBaseKg = o.essBaseKg
  gliderKg : r.gliderKg = o.gliderKg
  cargoKg : r.cargoKg = o.cargoKg
  transKg : r.transKg = o.transKg
  compMassMultiplier : r.compMassMultiplier = o.compMassMultiplier

theorem rsSetDerived_same {o r : VehObj K} (h : o.rsSetDerived = .ok r) (hf : o.fcPeakEffOverride = none) : SameGiven o r := by
  have j := (rsSetDerived_inputs h hf).1
  constructor
  · exact (congrArg (fun q : VehObj K => q.ptType) j :)
  · exact (congrArg (fun q : VehObj K => q.stopStart) j :)
  · exact (congrArg (fun q : VehObj K => q.frontalAreaM2) j :)
  · exact (congrArg (fun q : VehObj K => q.vehCgM) j :)
  · exact (congrArg (fun q : VehObj K => q.driveAxleWeightFrac) j :)
  · exact (congrArg (fun q : VehObj K => q.wheelBaseM) j :)
  · exact (congrArg (fun q : VehObj K => q.wheelInertiaKgM2) j :)
  · exact (congrArg (fun q : VehObj K => q.numWheels) j :)
  · exact (congrArg (fun q : VehObj K => q.wheelRadiusM) j :)
  · exact (congrArg (fun q : VehObj K => q.wheelCoefOfFric) j :)
  · exact (congrArg (fun q : VehObj K => q.fsMaxKw) j :)
  · exact (congrArg (fun q : VehObj K => q.fsSecsToPeakPwr) j :)
  · exact (congrArg (fun q : VehObj K => q.fcMaxKw) j :)
  · exact (congrArg (fun q : VehObj K => q.fcSecToPeakPwr) j :)
  · exact (congrArg (fun q : VehObj K => q.minFcTimeOn) j :)
  · exact (congrArg (fun q : VehObj K => q.idleFcKw) j :)
  · exact (congrArg (fun q : VehObj K => q.mcMaxKw) j :)
  · exact (congrArg (fun q : VehObj K => q.mcSecToPeakPwr) j :)
  · exact (congrArg (fun q : VehObj K => q.essMaxKw) j :)
  · exact (congrArg (fun q : VehObj K => q.essMaxKwh) j :)
  · exact (congrArg (fun q : VehObj K => q.essRoundTripEff) j :)
  · exact (congrArg (fun q : VehObj K => q.minSoc) j :)
  · exact (congrArg (fun q : VehObj K => q.maxSoc) j :)
  · exact (congrArg (fun q : VehObj K => q.essDischgToFcMaxEffPerc) j :)
  · exact (congrArg (fun q : VehObj K => q.essChgToFcMaxEffPerc) j :)
  · exact (congrArg (fun q : VehObj K => q.maxAccelBufferMph) j :)
  · exact (congrArg (fun q : VehObj K => q.maxAccelBufferPercOfUseableSoc) j :)
  · exact (congrArg (fun q : VehObj K => q.percHighAccBuf) j :)
  · exact (congrArg (fun q : VehObj K => q.mphFcOn) j :)
  · exact (congrArg (fun q : VehObj K => q.kwDemandFcOn) j :)
  · exact (congrArg (fun q : VehObj K => q.maxRegen) j :)
  · exact (congrArg (fun q : VehObj K => q.auxKw) j :)
  · exact (congrArg (fun q : VehObj K => q.altEff) j :)
  · exact (congrArg (fun q : VehObj K => q.chgEff) j :)
  · exact (congrArg (fun q : VehObj K => q.transEff) j :)
  · exact (congrArg (fun q : VehObj K => q.essToFuelOkError) j :)
  · exact (congrArg (fun q : VehObj K => q.template) j :)
  · exact (congrArg (fun q : VehObj K => q.fsKwh) j :)
  · exact (congrArg (fun q : VehObj K => q.fsKwhPerKg) j :)
  · exact (congrArg (fun q : VehObj K => q.fcPwrOutPerc) j :)
  · exact (congrArg (fun q : VehObj K => q.fcEffMap) j :)
  · exact (congrArg (fun q : VehObj K => q.fcBaseKg) j :)
  · exact (congrArg (fun q : VehObj K => q.fcKwPerKg) j :)
  · exact (congrArg (fun q : VehObj K => q.mcPwrOutPerc) j :)
  · exact (congrArg (fun q : VehObj K => q.mcPeKgPerKw) j :)
  · exact (congrArg (fun q : VehObj K => q.mcPeBaseKg) j :)
  · exact (congrArg (fun q : VehObj K => q.essKgPerKwh) j :)
  · exact (congrArg (fun q : VehObj K => q.essBaseKg) j :)
  · exact (congrArg (fun q : VehObj K => q.gliderKg) j :)
  · exact (congrArg (fun q : VehObj K => q.cargoKg) j :)
  · exact (congrArg (fun q : VehObj K => q.transKg) j :)
  · exact (congrArg (fun q : VehObj K => q.compMassMultiplier) j :)

/-! ### The default vehicle -/

/-- The curve of the default vehicle's engine. -/
def mockEff : List K := (fcPercOutArray : List K).map fun x => interp x (defaultFcPwrOutPerc.zip importSi)

theorem fcPerc_sorted : (defaultFcPwrOutPerc : List K).Pairwise (· < ·) := by
  unfold defaultFcPwrOutPerc dec
  simp only [List.pairwise_cons, List.mem_cons, List.not_mem_nil, or_false, forall_eq_or_imp, forall_eq, List.Pairwise.nil]
  norm_num

theorem mcPerc_sorted : (defaultMcPwrOutPerc : List K).Pairwise (· < ·) := by
  unfold defaultMcPwrOutPerc dec
  simp only [List.pairwise_cons, List.mem_cons, List.not_mem_nil, or_false, forall_eq_or_imp, forall_eq, List.Pairwise.nil]
  norm_num

theorem importSi_bounds : ∀ x ∈ (importSi : List K), 10 / 100 ≤ x ∧ x ≤ 36 / 100 := by
  intro x hx
  unfold importSi dec at hx
  simp only [List.map_cons, List.map_nil, List.mem_cons, List.not_mem_nil, or_false] at hx
  rcases hx with rfl | rfl | rfl | rfl | rfl | rfl | rfl | rfl | rfl | rfl | rfl | rfl <;> norm_num

theorem mockEff_bounds : ∀ x ∈ (mockEff : List K), 10 / 100 ≤ x ∧ x ≤ 36 / 100 := by
  intro x hx
  obtain ⟨y, -, rfl⟩ := List.mem_map.1 hx
  exact interp_bounds y _ _ _ (by simp [defaultFcPwrOutPerc, importSi]) fun p hp => importSi_bounds p.2 (List.of_mem_zip hp).2

theorem mockEff_ne : (mockEff : List K) ≠ [] := by
  intro h
  have := congrArg List.length h
  simp [mockEff, fcPercOutArray] at this

/-- Engine curves: what is there is kept, otherwise interpolated. -/
theorem rsSetCurves_run {o : VehObj K} {fcEff : List K}
    (hf : (o.fcEffArray = [] ∧ o.fcPwrOutPerc = defaultFcPwrOutPerc ∧ o.fcEffMap = importSi ∧ fcEff = mockEff) ∨
      (o.fcEffArray ≠ [] ∧ fcEff = o.fcEffArray))
    (hp : o.mcPwrOutPerc = defaultMcPwrOutPerc) (hm : o.rsMcMap.length = 11) :
    ∃ o1, o.rsSetCurves = .ok o1 ∧ o1.fcEffArray = fcEff ∧
      o1.mcFullEffArray = 0 :: (mcPercOutArray : List K).tail.map (fun x => interp x (defaultMcPwrOutPerc.zip o.rsMcMap)) ∧
      o1.fcPeakEffOverride = o.fcPeakEffOverride ∧ o1.mcPeakEffOverride = o.mcPeakEffOverride := by
  have r2 : rsMapM (fun x => rsInterpolate x o.mcPwrOutPerc o.rsMcMap) rsMcPercOut.tail =
      .ok ((mcPercOutArray : List K).tail.map fun x => interp x (defaultMcPwrOutPerc.zip o.rsMcMap)) := by
    rw [rsMcPercOut_eq, hp]
    exact rsMapM_ok fun x _ => rsInterpolate_eq mcPerc_sorted (by simp [defaultMcPwrOutPerc])
      (by rw [hm]; simp [defaultMcPwrOutPerc]) x
  unfold VehObj.rsSetCurves
  rcases hf with ⟨h1, h2, h3, h4⟩ | ⟨h1, h2⟩
  · have r1 : rsMapM (fun x => rsInterpolate x o.fcPwrOutPerc o.fcEffMap) rsFcPercOut = .ok fcEff := by
      rw [h2, h3, h4, rsFcPercOut_eq]
      exact rsMapM_ok fun x _ => rsInterpolate_eq fcPerc_sorted (by simp [defaultFcPwrOutPerc])
        (by simp [defaultFcPwrOutPerc, importSi]) x
    have he : o.fcEffArray.isEmpty = true := by rw [h1]; rfl
    simp only [if_pos he, r1, bind, Except.bind, r2]
    exact ⟨_, rfl, rfl, rfl, rfl, rfl⟩
  · have he : ¬ o.fcEffArray.isEmpty = true := by simpa using h1
    simp only [if_neg he, bind, Except.bind, r2]
    exact ⟨_, rfl, h2.symm, rfl, rfl, rfl⟩

theorem rsSetDerived_run {o o1 : VehObj K} (hv : o.rsValid = true) (ht : o.rsTypeOk = true) (hc : o.rsSetCurves = .ok o1)
    (he : o1.rsSetOverrides.rsEffOk = true) : ∃ r, o.rsSetDerived = .ok r := by
  unfold VehObj.rsSetDerived
  rw [if_neg (by rw [hv]; decide), if_neg (by rw [ht]; decide), hc]
  simp only
  rw [if_neg (by rw [he]; decide)]
  exact ⟨_, rfl⟩

theorem mock_map : (mockInputs : VehObj K).rsMcMap = rsSmallBaselineEff := by
  unfold VehObj.rsMcMap mockInputs
  simp only [Option.getD_some]
  rw [if_neg]
  rintro ⟨-, h⟩
  have : (dec 12 100 : K) = 0 := by simpa using List.all_eq_true.1 h (dec 12 100) (by simp [rsSmallBaselineEff])
  norm_num [dec] at this

theorem effOk_of {q : VehObj K} (h1 : ∀ x ∈ q.fcEffArray, 0 ≤ x ∧ x < 1) (h1' : q.fcEffArray ≠ [])
    (h2 : ∀ x ∈ q.mcFullEffArray, 0 ≤ x ∧ x < 1) (h2' : q.mcFullEffArray ≠ []) : q.rsEffOk = true := by
  unfold VehObj.rsEffOk
  rw [rsArrMin_eq, rsArrMax_eq, rsArrMin_eq, rsArrMax_eq]
  have a := h1 _ (listMin_mem h1')
  have b := h1 _ (listMax_mem h1')
  have c := h2 _ (listMin_mem h2')
  have d := h2 _ (listMax_mem h2')
  simp [a.1, b.2, c.1, d.2]

theorem small_bounds : ∀ x ∈ (rsSmallBaselineEff : List K), 12 / 100 ≤ x ∧ x ≤ 95 / 100 := by
  intro x hx
  unfold rsSmallBaselineEff dec at hx
  simp only [List.map_cons, List.map_nil, List.mem_cons, List.not_mem_nil, or_false] at hx
  rcases hx with rfl | rfl | rfl | rfl | rfl | rfl | rfl | rfl | rfl | rfl | rfl <;> norm_num

theorem motor_bounds {map : List K} (hl : map.length = 11) (hb : ∀ x ∈ map, 12 / 100 ≤ x ∧ x ≤ 95 / 100) :
    ∀ x ∈ (mcPercOutArray : List K).tail.map (fun x => interp x (defaultMcPwrOutPerc.zip map)),
      12 / 100 ≤ x ∧ x ≤ 95 / 100 := by
  intro x hx
  obtain ⟨y, -, rfl⟩ := List.mem_map.1 hx
  refine interp_bounds y _ _ _ (fun h => ?_) fun p hp => hb p.2 (List.of_mem_zip hp).2
  have := congrArg List.length h
  simp [hl, defaultMcPwrOutPerc] at this

/-- The default vehicle can be built. -/
theorem mock_built : ∃ d : VehObj K, (mockInputs : VehObj K).rsSetDerived = .ok d ∧ d.fcEffArray = mockEff := by
  obtain ⟨o1, h1, h2, h3, h4, h5⟩ := rsSetCurves_run (o := (mockInputs : VehObj K)) (fcEff := mockEff)
    (Or.inl ⟨rfl, rfl, rfl, rfl⟩) rfl (by rw [mock_map]; rfl)
  have hover : o1.rsSetOverrides = o1 := by
    unfold VehObj.rsSetOverrides
    rw [h4, show (mockInputs : VehObj K).fcPeakEffOverride = none from rfl]
    simp only
    rw [h5, show (mockInputs : VehObj K).mcPeakEffOverride = none from rfl]
  rw [mock_map] at h3
  have hv : (mockInputs : VehObj K).rsValid = true := by
    unfold VehObj.rsValid mockInputs VehObj.rsMin0 VehObj.rsUnit VehObj.rsOpt dec
    norm_num
  have ht : (mockInputs : VehObj K).rsTypeOk = true := by
    unfold VehObj.rsTypeOk mockInputs; simp
  have he : o1.rsSetOverrides.rsEffOk = true := by
    rw [hover]
    refine effOk_of (fun x hx => ?_) (by rw [h2]; exact mockEff_ne) (fun x hx => ?_) (by rw [h3]; simp)
    · rw [h2] at hx
      have := mockEff_bounds x hx
      exact ⟨by linarith [this.1], by linarith [this.2]⟩
    · rw [h3] at hx
      rcases List.mem_cons.1 hx with rfl | hx
      · exact ⟨le_rfl, zero_lt_one⟩
      · have := motor_bounds rfl small_bounds x hx
        exact ⟨by linarith [this.1], by linarith [this.2]⟩
  obtain ⟨d, hd⟩ := rsSetDerived_run hv ht h1 he
  refine ⟨d, hd, ?_⟩
  obtain ⟨q, hq, rfl⟩ := rsSetDerived_stages hd
  rw [h1] at hq
  cases hq
  rw [hover]
  show o1.rsSetVehMass.fcEffArray = _
  rw [← h2]
  unfold VehObj.rsSetVehMass
  cases o1.vehOverrideKg <;> rfl

/-! ### The imported vehicle -/

theorem makeVehicle_ok {fit : Fit K} {fe : FeRow K} {e : EpaRow K} {o : OtherInputs K} {v : ImportedVeh K}
    (h : makeVehicle fit fe e o = .ok (some v)) :
    ∃ d u, (mockInputs : VehObj K).rsSetDerived = .ok d ∧ (importInputs fe e o d).rsSetDerived = .ok u ∧
      fit u e.aLbf e.bLbfPerMph e.cLbfPerMph2 = .ok (v.obj.dragCoef, v.obj.wheelRrCoef) ∧
      v.obj = { u with dragCoef := v.obj.dragCoef, wheelRrCoef := v.obj.wheelRrCoef } ∧
      v.name = (toString fe.year).toList ++ ' ' :: fe.make ++ ' ' :: fe.model ∧ v.year = fe.year ∧
      v.valUddsMpgge = fe.cityMpg ∧ v.valHwyMpgge = fe.highwayMpg ∧ v.valCombMpgge = fe.combMpg := by
  unfold makeVehicle at h
  split at h
  · cases h
  · split at h
    · cases h
    · rename_i d hd
      split at h
      · cases h
      · rename_i u hu
        split at h
        · cases h
        · rename_i cd rr hf
          obtain rfl := Option.some.inj (Except.ok.inj h)
          exact ⟨d, u, hd, hu, hf, rfl, rfl, rfl, rfl, rfl, rfl⟩

theorem importInputs_override (fe : FeRow K) (e : EpaRow K) (o : OtherInputs K) (d : VehObj K) :
    (importInputs fe e o d).fcPeakEffOverride = none ∧ (importInputs fe e o d).fcEffArray = d.fcEffArray ∧
    (importInputs fe e o d).vehOverrideKg = some (e.testWeightLbs / dec 220462 100000) ∧
    (importInputs fe e o d).mcPeakEffOverride = some (dec 95 100) ∧
    (importInputs fe e o d).mcEffMap = some (List.replicate 11 0) ∧
    (importInputs fe e o d).mcPwrOutPerc = d.mcPwrOutPerc := by
  unfold importInputs byPowertrain
  cases importedType fe <;> exact ⟨rfl, rfl, rfl, rfl, rfl, rfl⟩

theorem mock_keeps {d : VehObj K} (hd : (mockInputs : VehObj K).rsSetDerived = .ok d) :
    SameGiven mockInputs d ∧ d.fcEffArray = mockEff := by
  refine ⟨rsSetDerived_same hd rfl, ?_⟩
  obtain ⟨d', hd', he⟩ := mock_built (K := K)
  rw [hd] at hd'
  cases hd'
  exact he

/-- **C106 (the vehicle).** Every imported vehicle has the weight of the test, the frontal area of the given width and height,
the drag and rolling coefficients that were fitted to the coefficients of the test, the name, year and fuel economies of
fueleconomy.gov, and the wheels and cargo of the default vehicle; it never stops its engine at rest. -/
theorem C106_vehicle {fit : Fit K} {fe : FeRow K} {e : EpaRow K} {o : OtherInputs K} {v : ImportedVeh K}
    (h : makeVehicle fit fe e o = .ok (some v)) :
    ImportedBody fe e o v ∧ ∃ u : VehObj K, u.vehKg = v.obj.vehKg ∧ u.frontalAreaM2 = v.obj.frontalAreaM2 ∧
      fit u e.aLbf e.bLbfPerMph e.cLbfPerMph2 = .ok (v.obj.dragCoef, v.obj.wheelRrCoef) := by
  obtain ⟨d, u, hd, hu, hf, hv, h1, h2, h3, h4, h5⟩ := makeVehicle_ok h
  obtain ⟨i1, i2, i3, -, -, -⟩ := importInputs_override fe e o d
  obtain ⟨-, -, j3⟩ := rsSetDerived_inputs hu i1
  have j1 := rsSetDerived_same hu i1
  obtain ⟨m1, -⟩ := mock_keeps hd
  have kmass : u.vehKg = e.testWeightLbs / dec 220462 100000 := j3 _ i3
  have q : (importInputs fe e o d).frontalAreaM2 =
        dec 85 100 * (o.widthIn * o.heightIn) / (dec 393701 10000 * dec 393701 10000) ∧
      (importInputs fe e o d).vehCgM = (if fe.drive = "Front-Wheel Drive".toList then dec 53 100 else -dec 53 100) ∧
      (importInputs fe e o d).stopStart = false ∧ (importInputs fe e o d).idleFcKw = 0 ∧
      (importInputs fe e o d).cargoKg = d.cargoKg ∧ (importInputs fe e o d).transKg = d.transKg ∧
      (importInputs fe e o d).wheelRadiusM = d.wheelRadiusM ∧ (importInputs fe e o d).numWheels = d.numWheels ∧
      (importInputs fe e o d).wheelCoefOfFric = d.wheelCoefOfFric ∧ (importInputs fe e o d).minSoc = 0 ∧
      (importInputs fe e o d).maxSoc = 1 := by
    unfold importInputs byPowertrain
    cases importedType fe <;> exact ⟨rfl, rfl, rfl, rfl, rfl, rfl, rfl, rfl, rfl, rfl, rfl⟩
  obtain ⟨q1, q2, q3, q4, q5, q6, q7, q8, q9, q10, q11⟩ := q
  refine ⟨?_, u, (congrArg (fun w : VehObj K => w.vehKg) hv :).symm, (congrArg (fun w : VehObj K => w.frontalAreaM2) hv :).symm, hf⟩
  constructor
  · rw [((congrArg (fun w : VehObj K => w.vehKg) hv :) : v.obj.vehKg = u.vehKg), kmass]; unfold dec; norm_num
  · rw [((congrArg (fun w : VehObj K => w.frontalAreaM2) hv :) : v.obj.frontalAreaM2 = u.frontalAreaM2), j1.frontalAreaM2, q1]
    unfold dec; norm_num
  · intro hd'
    rw [((congrArg (fun w : VehObj K => w.vehCgM) hv :) : v.obj.vehCgM = u.vehCgM), j1.vehCgM, q2, if_pos hd']
    unfold dec; norm_num
  · intro hd'
    rw [((congrArg (fun w : VehObj K => w.vehCgM) hv :) : v.obj.vehCgM = u.vehCgM), j1.vehCgM, q2, if_neg hd']
    unfold dec; norm_num
  · exact h2
  · rw [h1]; simp
  · exact h3
  · exact h4
  · exact h5
  · rw [((congrArg (fun w : VehObj K => w.stopStart) hv :) : v.obj.stopStart = u.stopStart), j1.stopStart, q3]
  · rw [((congrArg (fun w : VehObj K => w.idleFcKw) hv :) : v.obj.idleFcKw = u.idleFcKw), j1.idleFcKw, q4]
  · rw [((congrArg (fun w : VehObj K => w.cargoKg) hv :) : v.obj.cargoKg = u.cargoKg), j1.cargoKg, q5, m1.cargoKg]; norm_num [mockInputs, dec]
  · rw [((congrArg (fun w : VehObj K => w.transKg) hv :) : v.obj.transKg = u.transKg), j1.transKg, q6, m1.transKg]; norm_num [mockInputs, dec]
  · rw [((congrArg (fun w : VehObj K => w.wheelRadiusM) hv :) : v.obj.wheelRadiusM = u.wheelRadiusM), j1.wheelRadiusM, q7, m1.wheelRadiusM,
      ((congrArg (fun w : VehObj K => w.numWheels) hv :) : v.obj.numWheels = u.numWheels), j1.numWheels, q8, m1.numWheels,
      ((congrArg (fun w : VehObj K => w.wheelCoefOfFric) hv :) : v.obj.wheelCoefOfFric = u.wheelCoefOfFric), j1.wheelCoefOfFric, q9, m1.wheelCoefOfFric]
    norm_num [mockInputs, dec]
  · rw [((congrArg (fun w : VehObj K => w.minSoc) hv :) : v.obj.minSoc = u.minSoc), j1.minSoc, q10, ((congrArg (fun w : VehObj K => w.maxSoc) hv :) : v.obj.maxSoc = u.maxSoc), j1.maxSoc, q11]
    exact ⟨rfl, rfl⟩

/-- Powers and capacities of what is derived, by type. -/
theorem sizes_of {o u w : VehObj K} {a b : K} (j : SameGiven o u) (hw : w = { u with dragCoef := a, wheelRrCoef := b })
    {fc mc essKw essKwh fsKw fsKwh aux trans : K} (h : Sizes o fc mc essKw essKwh fsKw fsKwh aux trans) :
    Sizes w fc mc essKw essKwh fsKw fsKwh aux trans := by
  subst hw
  exact ⟨j.fcMaxKw.trans h.fc, j.mcMaxKw.trans h.mc, j.essMaxKw.trans h.essKw, j.essMaxKwh.trans h.essKwh,
    j.fsMaxKw.trans h.fsKw, j.fsKwh.trans h.fsKwh, j.auxKw.trans h.aux, j.transEff.trans h.trans⟩

theorem typed_of {o u w : VehObj K} {a b : K} (j : SameGiven o u) (hw : w = { u with dragCoef := a, wheelRrCoef := b }) :
    w.ptType = o.ptType ∧ w.fcEffMap = o.fcEffMap := by
  subst hw
  exact ⟨j.ptType, j.fcEffMap⟩

/-- **C106 (powertrains).** By the type of vehicle on fueleconomy.gov: a conventional one has the rated power of the test as its
engine and no battery, whatever the inputs; a hybrid has the motor and battery of the inputs, and the engine of the inputs if
one is given; an electric one has the rated power of the test as its motor and 1.05 times that as its battery power, and only
its capacity from the inputs. -/
theorem C106_by_type {fit : Fit K} {fe : FeRow K} {e : EpaRow K} {o : OtherInputs K} {v : ImportedVeh K}
    (h : makeVehicle fit fe e o = .ok (some v)) :
    (fe.altVehType = "Hybrid".toList → v.obj.ptType = .hev ∧
      Sizes v.obj (o.fcMaxKw.getD ((e.engPwrHp : K) / (134102 / 100000))) o.mcMaxKw o.essMaxKw o.essMaxKwh 2000
        (o.fuelTankGal * (337 / 10)) (5 / 10) (95 / 100)) ∧
    (fe.altVehType = "Plug-in Hybrid".toList → v.obj.ptType = .phev ∧
      Sizes v.obj (o.fcMaxKw.getD ((e.engPwrHp : K) / (134102 / 100000))) o.mcMaxKw o.essMaxKw o.essMaxKwh 2000
        (o.fuelTankGal * (337 / 10)) (3 / 10) (98 / 100)) ∧
    (fe.altVehType = "EV".toList → v.obj.ptType = .bev ∧
      Sizes v.obj 0 ((e.engPwrHp : K) / (134102 / 100000)) (105 / 100 * ((e.engPwrHp : K) / (134102 / 100000))) o.essMaxKwh 0 0
        (25 / 100) (98 / 100)) ∧
    (fe.altVehType ∉ ["Hybrid".toList, "Plug-in Hybrid".toList, "EV".toList] → v.obj.ptType = .conv ∧
      Sizes v.obj ((e.engPwrHp : K) / (134102 / 100000)) 0 0 0 2000 (o.fuelTankGal * (337 / 10)) (7 / 10) (92 / 100)) := by
  obtain ⟨d, u, hd, hu, hf, hv, -⟩ := makeVehicle_ok h
  obtain ⟨i1, -⟩ := importInputs_override fe e o d
  have j1 := rsSetDerived_same hu i1
  have hr : ratedKw e = (e.engPwrHp : K) / (134102 / 100000) := by unfold ratedKw dec; norm_num
  have hty0 := (typed_of j1 hv).1
  have hpt : (importInputs fe e o d).ptType = importedType fe := by
    unfold importInputs byPowertrain; cases importedType fe <;> rfl
  rw [hpt] at hty0
  refine ⟨fun ht => ?_, fun ht => ?_, fun ht => ?_, fun ht => ?_⟩
  · have hty : importedType fe = .hev := by unfold importedType; rw [if_pos ht]
    refine ⟨hty0.trans hty, sizes_of j1 hv ?_⟩
    unfold importInputs byPowertrain
    rw [hty, ← hr]
    exact ⟨rfl, rfl, rfl, rfl, (by norm_num [dec]), (by norm_num [dec]), (by norm_num [dec]), (by norm_num [dec])⟩
  · have hty : importedType fe = .phev := by unfold importedType; rw [ht]; rfl
    refine ⟨hty0.trans hty, sizes_of j1 hv ?_⟩
    unfold importInputs byPowertrain
    rw [hty, ← hr]
    exact ⟨rfl, rfl, rfl, rfl, (by norm_num [dec]), (by norm_num [dec]), (by norm_num [dec]), (by norm_num [dec])⟩
  · have hty : importedType fe = .bev := by unfold importedType; rw [ht]; rfl
    refine ⟨hty0.trans hty, sizes_of j1 hv ?_⟩
    unfold importInputs byPowertrain
    rw [hty, ← hr]
    exact ⟨rfl, rfl, (by norm_num [dec]), rfl, rfl, rfl, (by norm_num [dec]), (by norm_num [dec])⟩
  · simp only [List.mem_cons, List.not_mem_nil, or_false, not_or] at ht
    have hty : importedType fe = .conv := by
      unfold importedType; rw [if_neg ht.1, if_neg ht.2.1, if_neg ht.2.2]
    refine ⟨hty0.trans hty, sizes_of j1 hv ?_⟩
    unfold importInputs byPowertrain
    rw [hty, ← hr]
    exact ⟨rfl, rfl, rfl, rfl, (by norm_num [dec]), (by norm_num [dec]), (by norm_num [dec]), (by norm_num [dec])⟩

/-- **C106 (the engine's curve is always the same).** Whatever its type, an imported vehicle computes fuel with the curve of the
default vehicle's gasoline engine, whose best efficiency is 36 %: the map of an Atkinson engine (best 40 %) that hybrids are
given is stored, but a curve that is already there is not derived again. -/
theorem C106_engine_found {fit : Fit K} {fe : FeRow K} {e : EpaRow K} {o : OtherInputs K} {v : ImportedVeh K}
    (h : makeVehicle fit fe e o = .ok (some v)) :
    v.obj.fcEffArray = mockEff ∧ listMax v.obj.fcEffArray = 36 / 100 ∧
    (fe.altVehType = "Hybrid".toList ∨ fe.altVehType = "Plug-in Hybrid".toList →
      v.obj.fcEffMap = importAtkinson ∧ listMax v.obj.fcEffMap = 40 / 100) := by
  obtain ⟨d, u, hd, hu, hf, hv, -⟩ := makeVehicle_ok h
  obtain ⟨i1, i2, -⟩ := importInputs_override fe e o d
  obtain ⟨-, j2, -⟩ := rsSetDerived_inputs hu i1
  have j1 := rsSetDerived_same hu i1
  obtain ⟨-, m2⟩ := mock_keeps hd
  have hcurve : v.obj.fcEffArray = mockEff := by
    have : v.obj.fcEffArray = u.fcEffArray := (congrArg (fun w : VehObj K => w.fcEffArray) hv :)
    rw [this, j2 (by rw [i2, m2]; exact mockEff_ne), i2, m2]
  refine ⟨hcurve, ?_, fun ht => ?_⟩
  · rw [hcurve]
    refine listMax_eq ?_ fun x hx => (mockEff_bounds x hx).2
    refine List.mem_map.2 ⟨dec 200 1000, ?_, ?_⟩
    · unfold fcPercOutArray
      refine List.mem_append_left _ (List.mem_append_right _ (List.mem_map.2 ⟨13, by simp, rfl⟩))
    · unfold defaultFcPwrOutPerc importSi dec
      simp only [List.map_cons, List.map_nil, List.zip_cons_cons, List.zip_nil_left, interp]
      norm_num
  · have hm : v.obj.fcEffMap = importAtkinson := by
      rw [(typed_of j1 hv).2]
      unfold importInputs byPowertrain
      rcases ht with ht | ht
      · have hty : importedType fe = .hev := by unfold importedType; rw [if_pos ht]
        rw [hty]
      · have hty : importedType fe = .phev := by unfold importedType; rw [ht]; rfl
        rw [hty]
    refine ⟨hm, ?_⟩
    rw [hm]
    refine listMax_eq ?_ ?_
    · unfold importAtkinson dec
      simp only [List.map_cons, List.map_nil, List.mem_cons]
      right; right; right; right; right; right; left
      norm_num
    · intro x hx
      unfold importAtkinson dec at hx
      simp only [List.map_cons, List.map_nil, List.mem_cons, List.not_mem_nil, or_false] at hx
      rcases hx with rfl | rfl | rfl | rfl | rfl | rfl | rfl | rfl | rfl | rfl | rfl | rfl <;> norm_num

/-- **C106 (what is not read).** The fuel and the stop-start column of fueleconomy.gov have no influence: a diesel is imported
as a gasoline car. A conventional vehicle does not read the engine, motor and battery of the inputs, an electric one neither
engine and tank nor the powers. -/
theorem C106_unread (fit : Fit K) (fe : FeRow K) (e : EpaRow K) (o : OtherInputs K) :
    (∀ fuel ss, makeVehicle fit { fe with fuel1 := fuel, startStop := ss } e o = makeVehicle fit fe e o) ∧
    (fe.altVehType ∉ ["Hybrid".toList, "Plug-in Hybrid".toList, "EV".toList] → ∀ fc mc kw kwh,
      makeVehicle fit fe e { o with fcMaxKw := fc, mcMaxKw := mc, essMaxKw := kw, essMaxKwh := kwh } = makeVehicle fit fe e o) ∧
    (fe.altVehType = "EV".toList → ∀ fc mc kw tank,
      makeVehicle fit fe e { o with fcMaxKw := fc, mcMaxKw := mc, essMaxKw := kw, fuelTankGal := tank } =
        makeVehicle fit fe e o) := by
  refine ⟨fun _ _ => rfl, fun ht fc mc kw kwh => ?_, fun ht fc mc kw tank => ?_⟩
  · simp only [List.mem_cons, List.not_mem_nil, or_false, not_or] at ht
    have hty : importedType fe = .conv := by
      unfold importedType; rw [if_neg ht.1, if_neg ht.2.1, if_neg ht.2.2]
    unfold makeVehicle importInputs byPowertrain
    rw [hty]
  · have hty : importedType fe = .bev := by unfold importedType; rw [ht]; rfl
    unfold makeVehicle importInputs byPowertrain
    rw [hty]

/-! ### It is always built -/

theorem import_map (fe : FeRow K) (e : EpaRow K) (o : OtherInputs K) (d : VehObj K) :
    (importInputs fe e o d).rsMcMap = defaultMcEffMap (importInputs fe e o d).mcMaxKw := by
  unfold VehObj.rsMcMap
  rw [(importInputs_override fe e o d).2.2.2.2.1]
  simp only [Option.getD_some]
  rw [if_pos (by simp), rsLarge_eq, rsSmall_eq, rsArrMax_eq, List.zipWith_map_left]
  rfl

theorem import_typeOk (fe : FeRow K) (e : EpaRow K) (o : OtherInputs K) (d : VehObj K) :
    (importInputs fe e o d).rsTypeOk = true := by
  unfold VehObj.rsTypeOk importInputs byPowertrain
  cases importedType fe <;> simp

theorem import_valid {fe : FeRow K} {e : EpaRow K} {o : OtherInputs K} (h : PlainInputs e o) {d : VehObj K}
    (m : SameGiven mockInputs d) : (importInputs fe e o d).rsValid = true := by
  have hr : 0 ≤ ratedKw e := by unfold ratedKw dec; positivity
  have hw : 0 ≤ e.testWeightLbs / dec 220462 100000 := div_nonneg h.weight (by unfold dec; positivity)
  have ha : 0 ≤ dec 85 100 * (o.widthIn * o.heightIn) / (dec 393701 10000 * dec 393701 10000) := by
    have := mul_nonneg h.width h.height
    unfold dec; positivity
  have ht : 0 ≤ o.fuelTankGal * dec 337 10 := mul_nonneg h.tank (by unfold dec; positivity)
  have hb : 0 ≤ dec 105 100 * ratedKw e := mul_nonneg (by unfold dec; positivity) hr
  have hg : 0 ≤ o.fcMaxKw.getD (ratedKw e) := by
    cases hf : o.fcMaxKw with
    | none => exact hr
    | some x => exact h.fc x hf
  have e1 := h.essKwh
  have e2 := h.essKw
  have e3 := h.mc
  unfold VehObj.rsValid importInputs byPowertrain
  cases importedType fe <;>
    simp only [VehObj.rsMin0, VehObj.rsUnit, VehObj.rsOpt, m.gliderKg, m.driveAxleWeightFrac, m.wheelBaseM, m.cargoKg,
      m.compMassMultiplier, m.fsSecsToPeakPwr, m.fsKwhPerKg, m.fcSecToPeakPwr, m.fcBaseKg, m.fcKwPerKg, m.minFcTimeOn,
      m.mcSecToPeakPwr, m.mcPeKgPerKw, m.mcPeBaseKg, m.essKgPerKwh, m.essBaseKg, m.essRoundTripEff,
      m.essChgToFcMaxEffPerc, m.wheelInertiaKgM2, m.numWheels, m.wheelRadiusM, m.wheelCoefOfFric, m.maxAccelBufferMph,
      m.maxAccelBufferPercOfUseableSoc, m.percHighAccBuf, m.maxRegen, m.altEff, m.chgEff, m.transKg, m.essToFuelOkError,
      mockInputs, hr, hw, ha, ht, hb, hg, e1, e2, e3, decide_true, Bool.true_and, Bool.and_true, le_refl, zero_le_one] <;>
    norm_num [dec]

/-- **C106 (every match is built).** With inputs that are not negative, and coefficients that can be fitted, the vehicle can be
built from any test row that is not blank. Its motor has a best efficiency of 95 %, and all efficiencies are between 0 and 1. -/
theorem C106_builds {fit : Fit K} {fe : FeRow K} {e : EpaRow K} {o : OtherInputs K} (h : PlainInputs e o)
    (hfit : ∀ u : VehObj K, ∃ p, fit u e.aLbf e.bLbfPerMph e.cLbfPerMph2 = .ok p) (hrow : e.testId ≠ [] ∨ e.make ≠ []) :
    ∃ v, makeVehicle fit fe e o = .ok (some v) ∧ listMax v.obj.mcFullEffArray = 95 / 100 ∧
      (∀ x ∈ v.obj.mcFullEffArray, 0 ≤ x ∧ x < 1) ∧ ∀ x ∈ v.obj.fcEffArray, 0 ≤ x ∧ x < 1 := by
  obtain ⟨d, hd, hde⟩ := mock_built (K := K)
  have m := (mock_keeps hd).1
  obtain ⟨i1, i2, i3, i4, i5, i6⟩ := importInputs_override fe e o d
  have hmap := import_map fe e o d
  obtain ⟨o1, c1, c2, c3, c4, c5⟩ := rsSetCurves_run (o := importInputs fe e o d) (fcEff := mockEff)
    (Or.inr ⟨by rw [i2, hde]; exact mockEff_ne, by rw [i2, hde]⟩) (by rw [i6, m.mcPwrOutPerc]; rfl)
    (by rw [hmap]; exact defaultMcEffMap_length _)
  have hb := motor_bounds (defaultMcEffMap_length (importInputs fe e o d).mcMaxKw) (C46_default_map _).1
  rw [hmap] at c3
  rw [i1] at c4
  rw [i4] at c5
  generalize hE : (mcPercOutArray : List K).tail.map
    (fun x => interp x (defaultMcPwrOutPerc.zip (defaultMcEffMap (importInputs fe e o d).mcMaxKw))) = E at c3 hb
  have hEne : E ≠ [] := by
    intro h0
    have := congrArg List.length (hE.trans h0)
    simp [mcPercOutArray] at this
  have hmax : 0 < listMax (0 :: E) := by
    obtain ⟨x, hx⟩ := List.exists_mem_of_ne_nil _ hEne
    have h1 := le_listMax (List.mem_cons_of_mem (0 : K) hx)
    linarith [(hb x hx).1]
  have h95 : (dec 95 100 : K) = 95 / 100 := by norm_num [dec]
  have hover : o1.rsSetOverrides = { o1.rsSetMcPeak (dec 95 100) with mcPeakEffOverride := none } := by
    unfold VehObj.rsSetOverrides
    rw [c4]
    simp only
    rw [c5]
  have hfull : o1.rsSetOverrides.mcFullEffArray = (0 :: E).map fun x => x * (95 / 100 / listMax (0 :: E)) := by
    rw [hover]
    show o1.mcFullEffArray.map (fun e => e * (dec 95 100 / rsArrMax o1.mcFullEffArray)) = _
    rw [c3, rsArrMax_eq, h95]
  have hfc : o1.rsSetOverrides.fcEffArray = mockEff := by
    rw [hover]; exact c2
  have hpeak : listMax o1.rsSetOverrides.mcFullEffArray = 95 / 100 := by
    rw [hfull, listMax_scale _ (div_nonneg (by norm_num) hmax.le), mul_div_cancel₀ _ hmax.ne']
  have hmc : ∀ x ∈ o1.rsSetOverrides.mcFullEffArray, 0 ≤ x ∧ x < 1 := fun x hx => by
    constructor
    · rw [hfull] at hx
      obtain ⟨y, hy, rfl⟩ := List.mem_map.1 hx
      refine mul_nonneg ?_ (div_nonneg (by norm_num) hmax.le)
      rcases List.mem_cons.1 hy with rfl | hy
      · exact le_rfl
      · linarith [(hb y hy).1]
    · have := le_listMax hx
      rw [hpeak] at this
      linarith
  have hfce : ∀ x ∈ o1.rsSetOverrides.fcEffArray, 0 ≤ x ∧ x < 1 := fun x hx => by
    rw [hfc] at hx
    have := mockEff_bounds x hx
    exact ⟨by linarith [this.1], by linarith [this.2]⟩
  obtain ⟨u, hu⟩ := rsSetDerived_run (import_valid (fe := fe) h m) (import_typeOk fe e o d) c1
    (effOk_of hfce (by rw [hfc]; exact mockEff_ne) hmc (by rw [hfull]; simp))
  obtain ⟨⟨cd, rr⟩, hp⟩ := hfit u
  have harr : u.mcFullEffArray = o1.rsSetOverrides.mcFullEffArray ∧ u.fcEffArray = o1.rsSetOverrides.fcEffArray := by
    obtain ⟨q, hq, rfl⟩ := rsSetDerived_stages hu
    rw [c1] at hq
    cases hq
    unfold VehObj.rsSetVehMass
    cases o1.rsSetOverrides.vehOverrideKg <;> exact ⟨rfl, rfl⟩
  have hne : e ≠ ⟨0, [], [], [], 0, 0, [], [], [], 0, [], [], 0, [], 0, 0, 0⟩ := by
    intro h0
    rw [h0] at hrow
    simp at hrow
  unfold makeVehicle
  rw [if_neg hne, hd]
  simp only [hu, hp]
  refine ⟨_, rfl, ?_, ?_, ?_⟩
  · show listMax u.mcFullEffArray = _
    rw [harr.1, hpeak]
  · show ∀ x ∈ u.mcFullEffArray, _
    rw [harr.1]; exact hmc
  · show ∀ x ∈ u.fcEffArray, _
    rw [harr.2]; exact hfce

end Fastsim.Props
