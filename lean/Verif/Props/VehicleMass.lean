import Verif.Model.Vehicle
import Verif.Props.Battery
import Verif.Spec.Demo
import Mathlib.Tactic.Linarith
import Mathlib.Tactic.Ring
import Mathlib.Tactic.FieldSimp
import Mathlib.Tactic.Positivity

/-!
# C37: vehicle mass and derived switches

`o.setDerived = .ok o'` says that building (or re-deriving) the vehicle `o` succeeds and leaves `o'`.
-/

set_option linter.unusedSectionVars false

namespace Fastsim.Demo

/-- A parallel hybrid as a user would describe it: default breakpoints, the built-in map of a
spark-ignition engine, no motor map, no overrides. The derived attributes still hold the values of
`hev`; `set_derived` replaces them. -/
def hevObj : VehObj ℚ :=
  { hev with
    template := false, forceAuxOnFc := false, aGravMps2 := 981 / 100, fsKwh := 400, fsKwhPerKg := 10
    fcPwrOutPerc := defaultFcPwrOutPerc
    fcEffMap := [10 / 100, 12 / 100, 16 / 100, 22 / 100, 28 / 100, 33 / 100, 35 / 100, 36 / 100,
      35 / 100, 34 / 100, 32 / 100, 30 / 100]
    fcBaseKg := 60, fcKwPerKg := 2, mcPwrOutPerc := defaultMcPwrOutPerc, mcEffMap := none
    mcPeKgPerKw := 5 / 6, mcPeBaseKg := 20, essKgPerKwh := 8, essBaseKg := 75, gliderKg := 900
    cargoKg := 136, transKg := 114, compMassMultiplier := 7 / 5, vehOverrideKg := none
    fcPeakEffOverride := none, mcPeakEffOverride := none, inputKwOutArray := [], mcEffArray := []
    essMassKg := 0, mcMassKg := 0, fcMassKg := 0, fsMassKg := 0 }

/-- The same kind of description of a conventional car. -/
def convObj : VehObj ℚ := { hevObj with toVeh := conv }

end Fastsim.Demo

namespace Fastsim.Props
open Fastsim Spec

section Lawless
variable {K : Type*} [Zero K] [One K] [NatCast K] [Add K] [Sub K] [Mul K] [Div K] [Neg K]
  [LinearOrder K]

/-- The description of a vehicle that building it must not change: sizes, weights, road and wheel
data, control limits, overrides of efficiency. -/
structure _root_.Fastsim.Spec.SameBuild (o o' : VehObj K) : Prop where
  ptType : o'.ptType = o.ptType
  fcType : o'.fcType = o.fcType
  stopStart : o'.stopStart = o.stopStart
  template : o'.template = o.template
  forceAuxOnFc : o'.forceAuxOnFc = o.forceAuxOnFc
  essMaxKwh : o'.essMaxKwh = o.essMaxKwh
  essMaxKw : o'.essMaxKw = o.essMaxKw
  mcMaxKw : o'.mcMaxKw = o.mcMaxKw
  fcMaxKw : o'.fcMaxKw = o.fcMaxKw
  fsMaxKw : o'.fsMaxKw = o.fsMaxKw
  fsKwh : o'.fsKwh = o.fsKwh
  auxKw : o'.auxKw = o.auxKw
  cargoKg : o'.cargoKg = o.cargoKg
  gliderKg : o'.gliderKg = o.gliderKg
  transKg : o'.transKg = o.transKg
  compMassMultiplier : o'.compMassMultiplier = o.compMassMultiplier
  essKgPerKwh : o'.essKgPerKwh = o.essKgPerKwh
  essBaseKg : o'.essBaseKg = o.essBaseKg
  mcPeKgPerKw : o'.mcPeKgPerKw = o.mcPeKgPerKw
  mcPeBaseKg : o'.mcPeBaseKg = o.mcPeBaseKg
  fcKwPerKg : o'.fcKwPerKg = o.fcKwPerKg
  fcBaseKg : o'.fcBaseKg = o.fcBaseKg
  fsKwhPerKg : o'.fsKwhPerKg = o.fsKwhPerKg
  wheelCoefOfFric : o'.wheelCoefOfFric = o.wheelCoefOfFric
  driveAxleWeightFrac : o'.driveAxleWeightFrac = o.driveAxleWeightFrac
  vehCgM : o'.vehCgM = o.vehCgM
  wheelBaseM : o'.wheelBaseM = o.wheelBaseM
  aGravMps2 : o'.aGravMps2 = o.aGravMps2
  fcPwrOutPerc : o'.fcPwrOutPerc = o.fcPwrOutPerc
  mcPwrOutPerc : o'.mcPwrOutPerc = o.mcPwrOutPerc
  fcPeakEffOverride : o'.fcPeakEffOverride = o.fcPeakEffOverride
  mcPeakEffOverride : o'.mcPeakEffOverride = o.mcPeakEffOverride
  fcSecToPeakPwr : o'.fcSecToPeakPwr = o.fcSecToPeakPwr
  mcSecToPeakPwr : o'.mcSecToPeakPwr = o.mcSecToPeakPwr
  transEff : o'.transEff = o.transEff
  dragCoef : o'.dragCoef = o.dragCoef
  frontalAreaM2 : o'.frontalAreaM2 = o.frontalAreaM2
  wheelRrCoef : o'.wheelRrCoef = o.wheelRrCoef
  wheelInertiaKgM2 : o'.wheelInertiaKgM2 = o.wheelInertiaKgM2
  numWheels : o'.numWheels = o.numWheels
  wheelRadiusM : o'.wheelRadiusM = o.wheelRadiusM
  minSoc : o'.minSoc = o.minSoc
  maxSoc : o'.maxSoc = o.maxSoc
  essRoundTripEff : o'.essRoundTripEff = o.essRoundTripEff
  maxRegen : o'.maxRegen = o.maxRegen
  altEff : o'.altEff = o.altEff
  chgEff : o'.chgEff = o.chgEff

theorem sameBuild_refl (o : VehObj K) : SameBuild o o := by constructor <;> rfl

theorem sameBuild_trans {a b c : VehObj K} (h : SameBuild a b) (h' : SameBuild b c) :
    SameBuild a c := by
  obtain ⟨⟩ := h
  obtain ⟨⟩ := h'
  constructor <;> exact Eq.trans (by assumption) (by assumption)

theorem setVehMass_inputs (o : VehObj K) : SameBuild o o.setVehMass := by
  unfold VehObj.setVehMass
  rcases o.vehOverrideKg with _ | k
  · constructor <;> rfl
  · by_cases hk : 0 < k
    · simp only [if_pos hk]; constructor <;> rfl
    · simp only [if_neg hk]; constructor <;> rfl

theorem setSwitches_inputs (o : VehObj K) : SameBuild o o.setSwitches := by constructor <;> rfl

theorem setFcPeak_inputs (o : VehObj K) (x : K) : SameBuild o (o.setFcPeak x) := by
  constructor <;> rfl

theorem setMcPeak_inputs (o : VehObj K) (x : K) : SameBuild o (o.setMcPeak x) := by
  constructor <;> rfl

/-- The engine override as a function of the object alone. -/
def fcOverride (o : VehObj K) : VehObj K :=
  match o.fcPeakEffOverride with | none => o | some x => o.setFcPeak x

/-- The motor override as a function of the object alone. -/
def mcOverride (o : VehObj K) : VehObj K :=
  match o.mcPeakEffOverride with | none => o | some x => o.setMcPeak x

theorem setOverrides_eq (o : VehObj K) : o.setOverrides = mcOverride (fcOverride o) := rfl

theorem fcOverride_inputs (o : VehObj K) : SameBuild o (fcOverride o) := by
  unfold fcOverride
  split
  · exact sameBuild_refl o
  · exact setFcPeak_inputs o _

theorem mcOverride_inputs (o : VehObj K) : SameBuild o (mcOverride o) := by
  unfold mcOverride
  split
  · exact sameBuild_refl o
  · exact setMcPeak_inputs o _

theorem setOverrides_inputs (o : VehObj K) : SameBuild o o.setOverrides := by
  rw [setOverrides_eq]
  exact sameBuild_trans (fcOverride_inputs o) (mcOverride_inputs _)

/-- What building the curves writes. -/
structure CurvesSpec (o o1 : VehObj K) (fcEff mid map : List K) : Prop where
  fc : npInterp fcPercOutArray o.fcPwrOutPerc o.fcEffMap = .ok fcEff
  hmap : map = o.mcEffMap.getD (defaultMcEffMap o.mcMaxKw)
  mc : npInterp mcPercOutArray o.mcPwrOutPerc map = .ok mid
  eq : o1 = { o with
        inputKwOutArray := o.fcPwrOutPerc.map (· * o.fcMaxKw)
        fcKwOutArray := fcPercOutArray.map (o.fcMaxKw * ·)
        fcEffArray := fcEff
        mcEffMap := some map, mcEffArray := map
        mcKwOutArray := mcPercOutArray.map (· * o.mcMaxKw), mcFullEffArray := fullEff mid map
        mcKwInArray := kwInOf (mcPercOutArray.map (· * o.mcMaxKw)) (fullEff mid map)
        mcMaxElecInKw := listMax (kwInOf (mcPercOutArray.map (· * o.mcMaxKw)) (fullEff mid map)) }

theorem setCurves_spec {o o1 : VehObj K} (h : o.setCurves = .ok o1) :
    ∃ fcEff mid map, CurvesSpec o o1 fcEff mid map := by
  unfold VehObj.setCurves at h
  split at h
  · simp at h
  · rename_i fcEff hf
    simp only at h
    split at h
    · simp at h
    · rename_i mid hm
      simp only [Except.ok.injEq] at h
      exact ⟨fcEff, mid, _, hf, rfl, hm, h.symm⟩

theorem setCurves_inputs {o o1 : VehObj K} (h : o.setCurves = .ok o1) : SameBuild o o1 := by
  obtain ⟨_, _, _, hc⟩ := setCurves_spec h
  rw [hc.eq]
  constructor <;> rfl

/-- The stages of building a vehicle. -/
theorem setDerived_stages {o o' : VehObj K} (h : o.setDerived = .ok o') :
    o.typeOk = true ∧ ∃ o1, o.setSwitches.setCurves = .ok o1 ∧ o1.setOverrides.effOk = true ∧
      o' = o1.setOverrides.setVehMass := by
  unfold VehObj.setDerived at h
  split at h
  · rename_i ht
    split at h
    · simp at h
    · rename_i o1 h1
      split at h
      · rename_i he
        simp only [Except.ok.injEq] at h
        exact ⟨ht, o1, h1, he, h.symm⟩
      · simp at h
  · simp at h

/-- **C37 (inputs).** Building a vehicle changes none of its sizes, weights, road data, control
limits or overrides of efficiency. -/
theorem C37_inputs_kept {o o' : VehObj K} (h : o.setDerived = .ok o') : SameBuild o o' := by
  obtain ⟨-, o1, h1, -, rfl⟩ := setDerived_stages h
  exact sameBuild_trans (setSwitches_inputs o) (sameBuild_trans (setCurves_inputs h1)
    (sameBuild_trans (setOverrides_inputs o1) (setVehMass_inputs _)))

theorem preMass_override {o o1 : VehObj K} (h : o.setSwitches.setCurves = .ok o1) :
    o1.setOverrides.vehOverrideKg = o.vehOverrideKg := by
  obtain ⟨_, _, _, hc⟩ := setCurves_spec h
  have e : o1.vehOverrideKg = o.vehOverrideKg := by rw [hc.eq]; rfl
  rw [setOverrides_eq, ← e]
  unfold mcOverride
  split
  · unfold fcOverride; split <;> rfl
  · have : ∀ x, ((fcOverride o1).setMcPeak x).vehOverrideKg = (fcOverride o1).vehOverrideKg :=
      fun _ => rfl
    rw [this]; unfold fcOverride; split <;> rfl

/-- **C37 (override).** A positive mass override is the vehicle mass, is kept, and the component
masses are reported as zero. -/
theorem C37_override {o o' : VehObj K} (h : o.setDerived = .ok o') {m : K}
    (ho : o.vehOverrideKg = some m) (hm : 0 < m) :
    o'.vehKg = m ∧ o'.vehOverrideKg = some m ∧
    o'.essMassKg = 0 ∧ o'.mcMassKg = 0 ∧ o'.fcMassKg = 0 ∧ o'.fsMassKg = 0 := by
  obtain ⟨-, o1, h1, -, rfl⟩ := setDerived_stages h
  have hov : o1.setOverrides.vehOverrideKg = some m := (preMass_override h1).trans ho
  unfold VehObj.setVehMass
  simp only [hov, if_pos hm, and_self]

/-- Component masses as documented: nothing for a component of size zero, otherwise base mass plus
mass per size, times the multiplier. -/
structure _root_.Fastsim.Spec.ComponentMasses (o : VehObj K) (ess mc fc fs : K) : Prop where
  noEss : o.essMaxKwh = 0 ∨ o.essMaxKw = 0 → ess = 0
  ess : o.essMaxKwh ≠ 0 → o.essMaxKw ≠ 0 →
    ess = (o.essMaxKwh * o.essKgPerKwh + o.essBaseKg) * o.compMassMultiplier
  noMc : o.mcMaxKw = 0 → mc = 0
  mc : o.mcMaxKw ≠ 0 → mc = (o.mcPeBaseKg + o.mcPeKgPerKw * o.mcMaxKw) * o.compMassMultiplier
  noFc : o.fcMaxKw = 0 → fc = 0
  fc : o.fcMaxKw ≠ 0 → fc = (1 / o.fcKwPerKg * o.fcMaxKw + o.fcBaseKg) * o.compMassMultiplier
  noFs : o.fsMaxKw = 0 → fs = 0
  fs : o.fsMaxKw ≠ 0 → fs = 1 / o.fsKwhPerKg * o.fsKwh * o.compMassMultiplier

theorem setVehMass_sum (o : VehObj K) (ho : ∀ m, o.vehOverrideKg = some m → ¬ 0 < m) :
    ComponentMasses o o.setVehMass.essMassKg o.setVehMass.mcMassKg o.setVehMass.fcMassKg
      o.setVehMass.fsMassKg ∧
    o.setVehMass.vehKg = o.cargoKg + o.gliderKg + o.transKg * o.compMassMultiplier +
      o.setVehMass.essMassKg + o.setVehMass.mcMassKg + o.setVehMass.fcMassKg +
      o.setVehMass.fsMassKg ∧
    o.setVehMass.vehOverrideKg = some 0 := by
  unfold VehObj.setVehMass
  rcases hv : o.vehOverrideKg with _ | k
  · refine ⟨⟨fun h => if_pos h, fun h h' => if_neg (by simp [h, h']), fun h => if_pos h,
      fun h => if_neg h, fun h => if_pos h, fun h => if_neg h, fun h => if_pos h,
      fun h => if_neg h⟩, rfl, rfl⟩
  · simp only [if_neg (ho k hv)]
    refine ⟨⟨fun h => if_pos h, fun h h' => if_neg (by simp [h, h']), fun h => if_pos h,
      fun h => if_neg h, fun h => if_pos h, fun h => if_neg h, fun h => if_pos h,
      fun h => if_neg h⟩, trivial, trivial⟩

/-- **C37 (sum of components).** Without a positive override, vehicle mass is cargo, glider,
transmission and the component masses. The override is then recorded as zero, so that re-deriving
gives the sum again. -/
theorem C37_sum {o o' : VehObj K} (h : o.setDerived = .ok o')
    (ho : ∀ m, o.vehOverrideKg = some m → ¬ 0 < m) :
    ComponentMasses o o'.essMassKg o'.mcMassKg o'.fcMassKg o'.fsMassKg ∧
    o'.vehKg = o.cargoKg + o.gliderKg + o.transKg * o.compMassMultiplier +
      o'.essMassKg + o'.mcMassKg + o'.fcMassKg + o'.fsMassKg ∧
    o'.vehOverrideKg = some 0 := by
  obtain ⟨-, o1, h1, -, rfl⟩ := setDerived_stages h
  have hi : SameBuild o o1.setOverrides := sameBuild_trans (setSwitches_inputs o)
    (sameBuild_trans (setCurves_inputs h1) (setOverrides_inputs o1))
  obtain ⟨c, k, v⟩ := setVehMass_sum o1.setOverrides (by rw [preMass_override h1]; exact ho)
  rw [hi.cargoKg, hi.gliderKg, hi.transKg, hi.compMassMultiplier] at k
  refine ⟨?_, k, v⟩
  obtain ⟨a1, a2, a3, a4, a5, a6, a7, a8⟩ := c
  rw [hi.essMaxKwh, hi.essMaxKw] at a1 a2
  rw [hi.mcMaxKw] at a3 a4
  rw [hi.fcMaxKw] at a5 a6
  rw [hi.fsMaxKw] at a7 a8
  rw [hi.essKgPerKwh, hi.essBaseKg, hi.compMassMultiplier] at a2
  rw [hi.mcPeBaseKg, hi.mcPeKgPerKw, hi.compMassMultiplier] at a4
  rw [hi.fcKwPerKg, hi.fcBaseKg, hi.compMassMultiplier] at a6
  rw [hi.fsKwhPerKg, hi.fsKwh, hi.compMassMultiplier] at a8
  exact ⟨a1, a2, a3, a4, a5, a6, a7, a8⟩

/-- **C37 (mass again).** Recomputing the mass of an unchanged vehicle changes nothing. -/
theorem C37_mass_again (o : VehObj K) : o.setVehMass.setVehMass = o.setVehMass := by
  rcases hv : o.vehOverrideKg with _ | k
  · simp only [VehObj.setVehMass, hv, lt_irrefl, if_false]
  · by_cases hk : 0 < k
    · simp only [VehObj.setVehMass, hv, if_pos hk]
    · simp only [VehObj.setVehMass, hv, if_neg hk, lt_irrefl, if_false]

/-- **C37 (switches).** `no_elec_sys` says exactly that battery energy, battery power or motor power
is zero; `no_elec_aux` says exactly that, or that the motor is no stronger than the accessories, or
that accessories were forced onto the engine. -/
theorem C37_switches {o o' : VehObj K} (h : o.setDerived = .ok o') :
    (o'.noElecSys = true ↔ o.essMaxKwh = 0 ∨ o.essMaxKw = 0 ∨ o.mcMaxKw = 0) ∧
    (o'.noElecAux = true ↔
      (o.essMaxKwh = 0 ∨ o.essMaxKw = 0 ∨ o.mcMaxKw = 0) ∨ o.mcMaxKw ≤ o.auxKw ∨
        o.forceAuxOnFc = true) ∧
    o'.chargingOn = false := by
  obtain ⟨-, o1, h1, -, rfl⟩ := setDerived_stages h
  obtain ⟨_, _, _, hc⟩ := setCurves_spec h1
  have keep : ∀ q : VehObj K, q.setVehMass.noElecSys = q.noElecSys ∧
      q.setVehMass.noElecAux = q.noElecAux ∧ q.setVehMass.chargingOn = q.chargingOn := by
    intro q
    unfold VehObj.setVehMass
    rcases q.vehOverrideKg with _ | k
    · exact ⟨rfl, rfl, rfl⟩
    · by_cases hk : 0 < k
      · simp only [if_pos hk, and_self]
      · simp only [if_neg hk, and_self]
  have keep2 : o1.setOverrides.noElecSys = o1.noElecSys ∧ o1.setOverrides.noElecAux = o1.noElecAux ∧
      o1.setOverrides.chargingOn = o1.chargingOn := by
    rw [setOverrides_eq]
    unfold mcOverride fcOverride
    split <;> split <;> exact ⟨rfl, rfl, rfl⟩
  obtain ⟨k1, k2, k3⟩ := keep o1.setOverrides
  rw [k1, k2, k3, keep2.1, keep2.2.1, keep2.2.2, hc.eq]
  refine ⟨?_, ?_, rfl⟩ <;>
    simp [VehObj.setSwitches, or_assoc]

/-- **C37 (types).** A vehicle that could be built is what its type says: a battery-electric vehicle
has no fuel store and no engine, a conventional one without stop-start no motor and no battery. -/
theorem C37_types {o o' : VehObj K} (h : o.setDerived = .ok o') (ht : o.template = false) :
    (o.ptType = .bev → o'.fsMaxKw = 0 ∧ o'.fsKwh = 0 ∧ o'.fcMaxKw = 0) ∧
    (o.ptType = .conv → o.stopStart = false →
      o'.mcMaxKw = 0 ∧ o'.essMaxKw = 0 ∧ o'.essMaxKwh = 0 ∧ o'.noElecSys = true ∧
        o'.noElecAux = true) := by
  have hi := C37_inputs_kept h
  obtain ⟨hs, hx, -⟩ := C37_switches h
  obtain ⟨ho, -⟩ := setDerived_stages h
  unfold VehObj.typeOk at ho
  rw [ht] at ho
  refine ⟨fun hb => ?_, fun hc hss => ?_⟩
  · rw [hb] at ho
    simp only [Bool.false_or, decide_eq_true_eq] at ho
    rw [hi.fsMaxKw, hi.fsKwh, hi.fcMaxKw]
    exact ho
  · rw [hc, hss] at ho
    simp only [Bool.false_or, decide_eq_true_eq] at ho
    rw [hi.mcMaxKw, hi.essMaxKw, hi.essMaxKwh, hs, hx]
    exact ⟨ho.1, ho.2.1, ho.2.2, .inl ho.2.2, .inl (.inl ho.2.2)⟩

/-- **C37 (types, rejection).** A battery-electric vehicle with an engine or a fuel store, or a
conventional one without stop-start but with a motor or battery, is rejected with an
`AssertionError`. -/
theorem C37_types_rejected {o : VehObj K} (ht : o.template = false)
    (hb : (o.ptType = .bev ∧ (o.fsMaxKw ≠ 0 ∨ o.fsKwh ≠ 0 ∨ o.fcMaxKw ≠ 0)) ∨
      (o.ptType = .conv ∧ o.stopStart = false ∧
        (o.mcMaxKw ≠ 0 ∨ o.essMaxKw ≠ 0 ∨ o.essMaxKwh ≠ 0))) :
    o.setDerived = .error .assertionError := by
  have : o.typeOk = false := by
    unfold VehObj.typeOk
    rcases hb with ⟨hp, hx⟩ | ⟨hp, hs, hx⟩
    · rw [ht, hp]
      simp only [Bool.false_or, decide_eq_false_iff_not]
      tauto
    · rw [ht, hp, hs]
      simp only [Bool.false_or, decide_eq_false_iff_not]
      tauto
  unfold VehObj.setDerived
  rw [this]
  rfl

end Lawless

section Field
variable {K : Type*} [Field K] [LinearOrder K] [IsStrictOrderedRing K]

/-- No negative weight or size. -/
structure _root_.Fastsim.Spec.NonnegBuild (o : VehObj K) : Prop where
  mult : 0 ≤ o.compMassMultiplier
  essKwh : 0 ≤ o.essMaxKwh
  essKw : 0 ≤ o.essMaxKw
  essPer : 0 ≤ o.essKgPerKwh
  essBase : 0 ≤ o.essBaseKg
  mc : 0 ≤ o.mcMaxKw
  mcPer : 0 ≤ o.mcPeKgPerKw
  mcBase : 0 ≤ o.mcPeBaseKg
  fc : 0 ≤ o.fcMaxKw
  fcPer : 0 ≤ o.fcKwPerKg
  fcBase : 0 ≤ o.fcBaseKg
  fsKw : 0 ≤ o.fsMaxKw
  fsKwh : 0 ≤ o.fsKwh
  fsPer : 0 ≤ o.fsKwhPerKg

theorem masses_nonneg {o : VehObj K} (hn : NonnegBuild o) {ess mc fc fs : K}
    (hc : ComponentMasses o ess mc fc fs) : 0 ≤ ess ∧ 0 ≤ mc ∧ 0 ≤ fc ∧ 0 ≤ fs := by
  obtain ⟨⟩ := hn
  obtain ⟨a1, a2, a3, a4, a5, a6, a7, a8⟩ := hc
  refine ⟨?_, ?_, ?_, ?_⟩
  · by_cases h : o.essMaxKwh = 0 ∨ o.essMaxKw = 0
    · exact (a1 h).ge
    · push Not at h
      rw [a2 h.1 h.2]; positivity
  · by_cases h : o.mcMaxKw = 0
    · exact (a3 h).ge
    · rw [a4 h]; positivity
  · by_cases h : o.fcMaxKw = 0
    · exact (a5 h).ge
    · rw [a6 h]; positivity
  · by_cases h : o.fsMaxKw = 0
    · exact (a7 h).ge
    · rw [a8 h]; positivity

/-- **C37 (at least the body).** With non-negative inputs and no override, the vehicle is at least as
heavy as glider, cargo and transmission together. -/
theorem C37_at_least {o o' : VehObj K} (h : o.setDerived = .ok o')
    (ho : ∀ m, o.vehOverrideKg = some m → ¬ 0 < m) (hn : NonnegBuild o) :
    o.gliderKg + o.cargoKg + o.transKg * o.compMassMultiplier ≤ o'.vehKg := by
  obtain ⟨hc, hk, -⟩ := C37_sum h ho
  obtain ⟨b1, b2, b3, b4⟩ := masses_nonneg hn hc
  rw [hk]; linarith

/-- `p` is built like `o` (same weights per size) but no component is smaller. -/
structure _root_.Fastsim.Spec.Bigger (o p : VehObj K) : Prop where
  cargo : o.cargoKg ≤ p.cargoKg
  glider : o.gliderKg ≤ p.gliderKg
  trans : o.transKg ≤ p.transKg
  mult : p.compMassMultiplier = o.compMassMultiplier
  essKwh : o.essMaxKwh ≤ p.essMaxKwh
  essKw : o.essMaxKw ≤ p.essMaxKw
  essPer : p.essKgPerKwh = o.essKgPerKwh
  essBase : p.essBaseKg = o.essBaseKg
  mc : o.mcMaxKw ≤ p.mcMaxKw
  mcPer : p.mcPeKgPerKw = o.mcPeKgPerKw
  mcBase : p.mcPeBaseKg = o.mcPeBaseKg
  fc : o.fcMaxKw ≤ p.fcMaxKw
  fcPer : p.fcKwPerKg = o.fcKwPerKg
  fcBase : p.fcBaseKg = o.fcBaseKg
  fsKw : o.fsMaxKw ≤ p.fsMaxKw
  fsKwh : o.fsKwh ≤ p.fsKwh
  fsPer : p.fsKwhPerKg = o.fsKwhPerKg

/-- **C37 (bigger is heavier).** Enlarging the battery, the motor, the engine, the fuel store, the
glider, the cargo or the transmission never makes a vehicle lighter. -/
theorem C37_monotone {o o' p p' : VehObj K} (h : o.setDerived = .ok o') (h' : p.setDerived = .ok p')
    (ho : ∀ m, o.vehOverrideKg = some m → ¬ 0 < m) (hp : ∀ m, p.vehOverrideKg = some m → ¬ 0 < m)
    (hn : NonnegBuild o) (hb : Bigger o p) : o'.vehKg ≤ p'.vehKg := by
  have hn' : NonnegBuild p :=
    { mult := by rw [hb.mult]; exact hn.mult
      essKwh := hn.essKwh.trans hb.essKwh
      essKw := hn.essKw.trans hb.essKw
      essPer := by rw [hb.essPer]; exact hn.essPer
      essBase := by rw [hb.essBase]; exact hn.essBase
      mc := hn.mc.trans hb.mc
      mcPer := by rw [hb.mcPer]; exact hn.mcPer
      mcBase := by rw [hb.mcBase]; exact hn.mcBase
      fc := hn.fc.trans hb.fc
      fcPer := by rw [hb.fcPer]; exact hn.fcPer
      fcBase := by rw [hb.fcBase]; exact hn.fcBase
      fsKw := hn.fsKw.trans hb.fsKw
      fsKwh := hn.fsKwh.trans hb.fsKwh
      fsPer := by rw [hb.fsPer]; exact hn.fsPer }
  obtain ⟨hc, hk, -⟩ := C37_sum h ho
  obtain ⟨hc', hk', -⟩ := C37_sum h' hp
  obtain ⟨b1, b2, b3, b4⟩ := masses_nonneg hn' hc'
  have up : ∀ {x y : K}, 0 ≤ x → x ≤ y → x ≠ 0 → y ≠ 0 := fun h1 h2 h3 h4 =>
    h3 (le_antisymm (h2.trans h4.le) h1)
  have e1 : o'.essMassKg ≤ p'.essMassKg := by
    by_cases he : o.essMaxKwh = 0 ∨ o.essMaxKw = 0
    · rw [hc.noEss he]; exact b1
    · push Not at he
      rw [hc.ess he.1 he.2, hc'.ess (up hn.essKwh hb.essKwh he.1) (up hn.essKw hb.essKw he.2), hb.mult,
        hb.essPer, hb.essBase]
      exact mul_le_mul_of_nonneg_right
        (by linarith [mul_le_mul_of_nonneg_right hb.essKwh hn.essPer]) hn.mult
  have e2 : o'.mcMassKg ≤ p'.mcMassKg := by
    by_cases he : o.mcMaxKw = 0
    · rw [hc.noMc he]; exact b2
    · rw [hc.mc he, hc'.mc (up hn.mc hb.mc he), hb.mult, hb.mcPer, hb.mcBase]
      exact mul_le_mul_of_nonneg_right
        (by linarith [mul_le_mul_of_nonneg_left hb.mc hn.mcPer]) hn.mult
  have e3 : o'.fcMassKg ≤ p'.fcMassKg := by
    by_cases he : o.fcMaxKw = 0
    · rw [hc.noFc he]; exact b3
    · rw [hc.fc he, hc'.fc (up hn.fc hb.fc he), hb.mult, hb.fcPer, hb.fcBase]
      have := mul_le_mul_of_nonneg_left hb.fc (div_nonneg zero_le_one hn.fcPer)
      exact mul_le_mul_of_nonneg_right (by linarith) hn.mult
  have e4 : o'.fsMassKg ≤ p'.fsMassKg := by
    by_cases he : o.fsMaxKw = 0
    · rw [hc.noFs he]; exact b4
    · rw [hc.fs he, hc'.fs (up hn.fsKw hb.fsKw he), hb.mult, hb.fsPer]
      exact mul_le_mul_of_nonneg_right (mul_le_mul_of_nonneg_left hb.fsKwh
        (div_nonneg zero_le_one hn.fsPer)) hn.mult
  have e5 := mul_le_mul_of_nonneg_right hb.trans hn.mult
  rw [hk, hk', hb.mult]
  linarith [hb.cargo, hb.glider]

/-- **C37 (traction limit).** The acceleration at which the driven wheels slip depends on friction,
weight distribution and wheel base only, not on the mass. -/
theorem C37_traction {o o' : VehObj K} (h : o.setDerived = .ok o') (hm : o'.vehKg ≠ 0)
    (hg : o.aGravMps2 ≠ 0) :
    o'.maxTracMps2 = o.wheelCoefOfFric * o.driveAxleWeightFrac * o.aGravMps2 /
      (1 + o.vehCgM * o.wheelCoefOfFric / o.wheelBaseM) := by
  have hi := C37_inputs_kept h
  obtain ⟨-, o1, h1, -, e⟩ := setDerived_stages h
  have key : o'.maxTracMps2 = (o'.wheelCoefOfFric * o'.driveAxleWeightFrac * o'.vehKg * o'.aGravMps2 /
        (1 + o'.vehCgM * o'.wheelCoefOfFric / o'.wheelBaseM)) / (o'.vehKg * o'.aGravMps2) *
          o'.aGravMps2 := by
    rw [e]; rfl
  rw [hi.wheelCoefOfFric, hi.driveAxleWeightFrac, hi.vehCgM, hi.wheelBaseM, hi.aGravMps2] at key
  rw [key]
  generalize 1 + o.vehCgM * o.wheelCoefOfFric / o.wheelBaseM = d
  by_cases hd : d = 0
  · simp [hd]
  · field_simp

/-- **C37 (used by C23).** A vehicle that can be built as conventional without stop-start meets the
assumptions under which C23 is proved, if it has a combustion engine of positive power and sensible
time constants. -/
theorem C37_no_electric {o o' : VehObj K} {V : Veh K} (h : o.setDerived = .ok o')
    (hv : o'.view = .ok V) (ht : o.template = false) (hc : o.ptType = .conv)
    (hs : o.stopStart = false) (hf : o.fcType ≠ .h2fc) (hfc : 0 < o.fcMaxKw)
    (hsec : 0 ≤ o.mcSecToPeakPwr) (htr : 0 < o.transEff) : NoElec V := by
  obtain ⟨a1, a2, a3, a4, a5⟩ := (C37_types h ht).2 hc hs
  have hi := C37_inputs_kept h
  unfold VehObj.view at hv
  split at hv
  · simp at hv
  · simp only [Except.ok.injEq] at hv
    subst hv
    exact { sys := a4, aux := a5, why := .inl a3
            notH2 := by show o'.fcType ≠ _; rw [hi.fcType]; exact hf
            fc := by show 0 < o'.fcMaxKw; rw [hi.fcMaxKw]; exact hfc
            mc := a1.ge
            mcSec := by show 0 ≤ o'.mcSecToPeakPwr; rw [hi.mcSecToPeakPwr]; exact hsec
            ess := a2.ge
            trans := by show 0 < o'.transEff; rw [hi.transEff]; exact htr }

end Field

/-! ### The hypotheses are met -/

/-- The demo hybrid can be built; its mass is the sum of the components. -/
theorem demo_hev_built :
    (match Demo.hevObj.setDerived with
      | .ok o' => decide (o'.vehKg = 136 + 900 + 114 * (7/5) + (3/2*8+75)*(7/5) +
          (20 + 5/6*50)*(7/5) + (1/2*100+60)*(7/5) + 40*(7/5) ∧ o'.noElecSys = false ∧
          o'.noElecAux = false ∧ o'.fcEffArray.length = 100 ∧ o'.mcKwInArray.length = 101)
      | .error _ => false) = true := by decide +kernel

theorem demo_hev_override :
    (match { Demo.hevObj with vehOverrideKg := some 2000 }.setDerived with
      | .ok o' => decide (o'.vehKg = 2000 ∧ o'.essMassKg = 0)
      | .error _ => false) = true := by decide +kernel

theorem demo_conv_built :
    (match Demo.convObj.setDerived with
      | .ok o' => (match o'.view with
        | .ok V => decide (V.noElecSys = true ∧ V.maxFcEffKw = 20)
        | .error _ => false)
      | .error _ => false) = true := by decide +kernel

/-- Rejected: a battery-electric description with an engine. -/
theorem demo_bev_rejected :
    { Demo.hevObj with ptType := .bev }.setDerived = .error .assertionError :=
  C37_types_rejected rfl (.inl ⟨rfl, .inr (.inr (by decide +kernel))⟩)

example : NonnegBuild Demo.hevObj := by constructor <;> decide +kernel

example : Bigger Demo.hevObj { Demo.hevObj with essMaxKwh := 10, mcMaxKw := 80 } := by
  constructor <;> decide +kernel

end Fastsim.Props
