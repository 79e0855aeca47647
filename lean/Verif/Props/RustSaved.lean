import Verif.Model.RsSaved
import Verif.Props.RustImportRun

/-!
# C116: saving and loading a vehicle of the Rust core
-/

set_option linter.unusedSectionVars false

namespace Fastsim.Props
open Fastsim Spec

variable {K : Type*} [Field K] [LinearOrder K] [IsStrictOrderedRing K]

/-! ### What `set_derived` makes of a vehicle without overrides -/

/-- Switches and curves put into a vehicle. -/
def savedCurves (o : VehObj K) (fcEff eff : List K) : VehObj K :=
  { o with
    noElecSys := decide (o.essMaxKwh = 0) || decide (o.essMaxKw = 0) || decide (o.mcMaxKw = 0)
    noElecAux := (decide (o.essMaxKwh = 0) || decide (o.essMaxKw = 0) || decide (o.mcMaxKw = 0)) ||
      decide (o.mcMaxKw ≤ o.auxKw) || o.forceAuxOnFc
    inputKwOutArray := o.fcPwrOutPerc.map (· * o.fcMaxKw)
    fcKwOutArray := rsFcPercOut.map (· * o.fcMaxKw)
    fcEffArray := fcEff
    mcEffMap := some o.rsMcMap, mcEffArray := o.rsMcMap
    mcKwOutArray := rsMcPercOut.map (· * o.mcMaxKw), mcFullEffArray := 0 :: eff
    mcKwInArray := 0 :: List.zipWith (· / ·) (rsMcPercOut.map (· * o.mcMaxKw)).tail eff
    mcMaxElecInKw := rsArrMax (0 :: List.zipWith (· / ·) (rsMcPercOut.map (· * o.mcMaxKw)).tail eff) }

/-- The mass and the regeneration energy put into a vehicle. -/
def savedDone (q : VehObj K) : VehObj K :=
  { q.rsSetVehMass with
    maxRegenKwh := dec 1 2 * q.rsSetVehMass.vehKg * ((27 * 27 : Nat) : K) / ((3600 * 1000 : Nat) : K) }

theorem savedDerived_iff {o r : VehObj K} (hf : o.fcPeakEffOverride = none) (hm : o.mcPeakEffOverride = none) :
    o.rsSetDerived = .ok r ↔ o.rsValid = true ∧ o.rsTypeOk = true ∧ ∃ fcEff eff,
      (if o.fcEffArray.isEmpty then rsMapM (fun x => rsInterpolate x o.fcPwrOutPerc o.fcEffMap) rsFcPercOut
        else .ok o.fcEffArray) = .ok fcEff ∧
      rsMapM (fun x => rsInterpolate x o.mcPwrOutPerc o.rsMcMap) rsMcPercOut.tail = .ok eff ∧
      (savedCurves o fcEff eff).rsEffOk = true ∧ r = savedDone (savedCurves o fcEff eff) := by
  have hover : ∀ fcEff eff, (savedCurves o fcEff eff).rsSetOverrides = savedCurves o fcEff eff := by
    intro fcEff eff
    unfold VehObj.rsSetOverrides
    rw [show (savedCurves o fcEff eff).fcPeakEffOverride = none from hf]
    simp only
    rw [show (savedCurves o fcEff eff).mcPeakEffOverride = none from hm]
  constructor
  · intro h
    unfold VehObj.rsSetDerived at h
    split at h
    · cases h
    · rename_i h1
      split at h
      · cases h
      · rename_i h2
        split at h
        · cases h
        · rename_i o1 h3
          split at h
          · cases h
          · rename_i h4
            have key : ∃ fcEff eff,
                (if o.fcEffArray.isEmpty then rsMapM (fun x => rsInterpolate x o.fcPwrOutPerc o.fcEffMap) rsFcPercOut
                  else .ok o.fcEffArray) = .ok fcEff ∧
                rsMapM (fun x => rsInterpolate x o.mcPwrOutPerc o.rsMcMap) rsMcPercOut.tail = .ok eff ∧
                o1 = savedCurves o fcEff eff := by
              unfold VehObj.rsSetCurves at h3
              simp only at h3
              split at h3
              · rename_i he
                obtain ⟨fcEff, a1, h3⟩ := rsBind_ok h3
                obtain ⟨eff, a2, h3⟩ := rsBind_ok h3
                exact ⟨fcEff, eff, (if_pos he).trans a1, a2, (Except.ok.inj h3).symm⟩
              · rename_i he
                obtain ⟨fcEff, a1, h3⟩ := rsBind_ok h3
                obtain ⟨eff, a2, h3⟩ := rsBind_ok h3
                exact ⟨fcEff, eff, (if_neg he).trans a1, a2, (Except.ok.inj h3).symm⟩
            obtain ⟨fcEff, eff, a1, a2, rfl⟩ := key
            rw [hover] at h4 h
            exact ⟨by simpa using h1, by simpa using h2, fcEff, eff, a1, a2, by simpa using h4, (Except.ok.inj h).symm⟩
  · rintro ⟨h1, h2, fcEff, eff, a1, a2, h4, rfl⟩
    have h3 : o.rsSetCurves = .ok (savedCurves o fcEff eff) := by
      unfold VehObj.rsSetCurves
      split at a1
      · rename_i he
        simp only [if_pos he, a1, a2, bind, Except.bind]
        rfl
      · rename_i he
        cases a1
        simp only [if_neg he, a2, bind, Except.bind]
        rfl
    unfold VehObj.rsSetDerived
    rw [if_neg (by rw [h1]; decide), if_neg (by rw [h2]; decide), h3]
    simp only
    rw [hover, if_neg (by rw [h4]; decide)]
    rfl

/-! ### The motor map -/

/-- The mark for "no map given". -/
def IsMark (m : List K) : Prop := m.length = 11 ∧ (m.all fun e => decide (e = 0)) = true

theorem isMark_iff {m : List K} : IsMark m ↔ m = List.replicate 11 0 := by
  unfold IsMark
  constructor
  · rintro ⟨h1, h2⟩
    refine List.eq_replicate_iff.2 ⟨h1, fun b hb => ?_⟩
    simpa using List.all_eq_true.1 h2 b hb
  · rintro rfl
    simp

theorem rsMcMap_given {o : VehObj K} {m : List K} (h : o.mcEffMap = some m) (hm : ¬ IsMark m) : o.rsMcMap = m := by
  unfold VehObj.rsMcMap
  rw [h]
  exact if_neg hm

/-- The map of the large motor. -/
theorem loaded_mark {o : VehObj K} {m : List K} (h : o.mcEffMap = some m) (hm : IsMark m) :
    o.rsMcMapLoaded = (largeBaselineEff : List K).map (· + 1 / 100) := by
  unfold VehObj.rsMcMapLoaded
  rw [h]
  refine (if_pos hm).trans ?_
  have h94 : rsArrMax (rsLargeBaselineEff : List K) = 94 / 100 := by
    rw [rsArrMax_eq, rsLarge_eq]
    refine listMax_eq ?_ fun x hx => ?_
    · unfold largeBaselineEff dec
      simp only [List.mem_cons]
      right; right; right; right; right; right; right; left
      norm_num
    · unfold largeBaselineEff dec at hx
      simp only [List.mem_cons, List.not_mem_nil, or_false] at hx
      rcases hx with rfl | rfl | rfl | rfl | rfl | rfl | rfl | rfl | rfl | rfl | rfl <;> norm_num
  have h1 : (modernMax : K) - rsArrMax rsLargeBaselineEff = 1 / 100 := by
    rw [h94]; unfold modernMax dec; norm_num
  rw [h1, rsLarge_eq, rsSmall_eq]
  simp [largeBaselineEff, smallBaselineEff]

theorem loaded_given {o : VehObj K} {m : List K} (h : o.mcEffMap = some m) (hm : ¬ IsMark m) : o.rsMcMapLoaded = m := by
  unfold VehObj.rsMcMapLoaded
  rw [h]
  exact if_neg hm

theorem not_mark_of_first {m : List K} {x : K} (h : m.head? = some x) (hx : x ≠ 0) : ¬ IsMark m := by
  rw [isMark_iff]
  rintro rfl
  simp at h
  exact hx h.symm

theorem loaded_not_mark (o : VehObj K) : ¬ IsMark o.rsMcMapLoaded := by
  cases h : o.mcEffMap with
  | none =>
    intro hm
    unfold VehObj.rsMcMapLoaded at hm
    rw [h] at hm
    simp [IsMark] at hm
  | some m =>
    by_cases hm : IsMark m
    · rw [loaded_mark h hm]
      refine not_mark_of_first (x := dec 83 100 + 1 / 100) (by simp [largeBaselineEff]) ?_
      unfold dec; norm_num
    · rw [loaded_given h hm]; exact hm

theorem rsMcMap_not_mark (o : VehObj K) : ¬ IsMark o.rsMcMap := by
  by_cases hm : IsMark (o.mcEffMap.getD [])
  · have : o.rsMcMap = defaultMcEffMap o.mcMaxKw := by
      unfold VehObj.rsMcMap
      refine (if_pos hm).trans ?_
      unfold defaultMcEffMap mcKwAdjPerc
      rw [rsArrMax_eq, rsLarge_eq, rsSmall_eq]
      simp only [List.zipWith_map_left]
    rw [this, isMark_iff]
    exact default_not_mark _
  · have : o.rsMcMap = o.mcEffMap.getD [] := by
      unfold VehObj.rsMcMap
      exact if_neg hm
    rw [this]; exact hm

/-! ### Loading what was saved -/

/-- What a text keeps of a derived vehicle, whose map is not the mark, derives to the same. -/
theorem reload_of {o : VehObj K} {fcEff eff : List K} (hg : o.aGravMps2 = dec 981 100) (hf : o.fcPeakEffOverride = none)
    (hm : o.mcPeakEffOverride = none) (hc : o.chargingOn = false)
    (hz : o.essMassKg = 0 ∧ o.mcMassKg = 0 ∧ o.fcMassKg = 0 ∧ o.fsMassKg = 0)
    (hv : o.rsValid = true) (ht : o.rsTypeOk = true)
    (a1 : rsMapM (fun x => rsInterpolate x o.fcPwrOutPerc o.fcEffMap) rsFcPercOut = .ok fcEff)
    (a2 : rsMapM (fun x => rsInterpolate x o.mcPwrOutPerc o.rsMcMap) rsMcPercOut.tail = .ok eff)
    (he : (savedCurves o fcEff eff).rsEffOk = true) :
    (savedDone (savedCurves o fcEff eff)).rsReload = .ok (savedDone (savedCurves o fcEff eff)) := by
  have hmark := rsMcMap_not_mark o
  generalize hM : o.rsMcMap = M at *
  have hmap : (savedDone (savedCurves o fcEff eff)).mcEffMap = some M := by
    unfold savedDone VehObj.rsSetVehMass savedCurves
    rw [hM]
    cases o.vehOverrideKg <;> rfl
  have hmap' : ((savedDone (savedCurves o fcEff eff)).rsFromText []).rsMcMapLoaded = M := loaded_given hmap hmark
  unfold VehObj.rsReload VehObj.rsInitLoaded
  rw [hmap']
  refine (savedDerived_iff rfl rfl).2 ?_
  have hcong : ∀ q : VehObj K, q = ({ (savedDone (savedCurves o fcEff eff)).rsFromText [] with mcEffMap := some M } : VehObj K) →
      q = { o with
        noElecSys := false, noElecAux := false
        inputKwOutArray := [], fcKwOutArray := [], fcEffArray := []
        mcEffArray := [], mcKwInArray := [], mcKwOutArray := [], mcMaxElecInKw := 0, mcFullEffArray := []
        vehKg := 0, maxTracMps2 := 0, maxRegenKwh := 0, mcEffMap := some M } := by
    rintro q rfl
    unfold savedDone VehObj.rsSetVehMass savedCurves VehObj.rsFromText
    obtain ⟨z1, z2, z3, z4⟩ := hz
    simp only [hg, hf, hm, hc, z1, z2, z3, z4]
    cases o.vehOverrideKg <;> rfl
  rw [hcong _ rfl]
  generalize hq : ({ o with
        noElecSys := false, noElecAux := false
        inputKwOutArray := [], fcKwOutArray := [], fcEffArray := []
        mcEffArray := [], mcKwInArray := [], mcKwOutArray := [], mcMaxElecInKw := 0, mcFullEffArray := []
        vehKg := 0, maxTracMps2 := 0, maxRegenKwh := 0, mcEffMap := some M } : VehObj K) = q
  have hqm : q.rsMcMap = M := rsMcMap_given (by rw [← hq]) hmark
  have hcur : savedDone (savedCurves o fcEff eff) = savedDone (savedCurves q fcEff eff) := by
    unfold savedDone VehObj.rsSetVehMass savedCurves
    rw [hM, hqm, ← hq]
    cases o.vehOverrideKg <;> rfl
  refine ⟨?_, ?_, fcEff, eff, ?_, ?_, ?_, hcur⟩
  · rw [← hq]; exact hv
  · rw [← hq]; exact ht
  · rw [← hq]; exact a1
  · rw [hqm, ← hq]; exact a2
  · rw [← he, ← hq]; rfl

/-- What is known of a vehicle that was loaded from a text written by the program. -/
theorem reload_stages {w r : VehObj K} (h : w.rsReload = .ok r) : ∃ (o : VehObj K) (fcEff eff : List K),
    o = { w.rsFromText [] with mcEffMap := some (w.rsFromText []).rsMcMapLoaded } ∧ o.rsValid = true ∧ o.rsTypeOk = true ∧
    rsMapM (fun x => rsInterpolate x o.fcPwrOutPerc o.fcEffMap) rsFcPercOut = .ok fcEff ∧
    rsMapM (fun x => rsInterpolate x o.mcPwrOutPerc o.rsMcMap) rsMcPercOut.tail = .ok eff ∧
    (savedCurves o fcEff eff).rsEffOk = true ∧ r = savedDone (savedCurves o fcEff eff) := by
  obtain ⟨hv, ht, fcEff, eff, a1, a2, he, hr⟩ := (savedDerived_iff rfl rfl).1 h
  exact ⟨_, fcEff, eff, rfl, hv, ht, a1, a2, he, hr⟩

/-- **C116 (loading what was saved).** A vehicle that was loaded is, after saving and loading it again, the same vehicle in every
attribute a computation reads. -/
theorem C116_again {w r : VehObj K} (h : w.rsReload = .ok r) : r.rsReload = .ok r := by
  obtain ⟨o, fcEff, eff, ho, hv, ht, a1, a2, he, rfl⟩ := reload_stages h
  exact reload_of (by rw [ho]; rfl) (by rw [ho]; rfl) (by rw [ho]; rfl) (by rw [ho]; rfl)
    (by rw [ho]; exact ⟨rfl, rfl, rfl, rfl⟩) hv ht a1 a2 he

/-- **C116 (copies of python vehicles).** The Rust copy of a python vehicle without an override of the engine's peak is, after
saving and loading it, the same vehicle. -/
theorem C116_copy {o r : VehObj K} (h : o.toRust.rsSetDerived = .ok r) (hf : o.fcPeakEffOverride = none) :
    r.rsReload = .ok r := by
  obtain ⟨hv, ht, fcEff, eff, a1, a2, he, rfl⟩ := (savedDerived_iff (o := o.toRust) hf rfl).1 h
  have a1 : rsMapM (fun x => rsInterpolate x o.toRust.fcPwrOutPerc o.toRust.fcEffMap) rsFcPercOut = .ok fcEff := a1
  exact reload_of (o := o.toRust) rfl hf rfl rfl ⟨rfl, rfl, rfl, rfl⟩ hv ht a1 a2 he

/-- The mass part of a vehicle set to given values. -/
def savedMass (o : VehObj K) (v t e m f s g : K) : VehObj K :=
  { o with vehKg := v, maxTracMps2 := t, essMassKg := e, mcMassKg := m, fcMassKg := f, fsMassKg := s, maxRegenKwh := g }

theorem savedDone_mass (o : VehObj K) (a b : List K) : ∃ v t e m f s g,
    savedDone (savedCurves o a b) = savedMass (savedCurves o a b) v t e m f s g := by
  generalize savedCurves o a b = q
  unfold savedDone VehObj.rsSetVehMass
  split <;> exact ⟨_, _, _, _, _, _, _, rfl⟩

theorem savedCurves_mass (o : VehObj K) (a b : List K) (v t e m f s g : K) :
    savedCurves (savedMass (savedCurves o a b) v t e m f s g) a b = savedMass (savedCurves o a b) v t e m f s g := by
  have h : (savedMass (savedCurves o a b) v t e m f s g).rsMcMap = o.rsMcMap :=
    rsMcMap_given (m := o.rsMcMap) rfl (rsMcMap_not_mark o)
  unfold savedCurves at *
  rw [h]
  rfl

theorem savedDone_again (q : VehObj K) : savedDone (savedDone q) = savedDone q := by
  unfold savedDone VehObj.rsSetVehMass
  cases hk : q.vehOverrideKg <;> simp only [hk]

/-- Deriving again what was derived without overrides changes nothing. -/
theorem savedDerived_again {o r : VehObj K} (hf : o.fcPeakEffOverride = none) (hm : o.mcPeakEffOverride = none)
    (h : o.rsSetDerived = .ok r) : r.rsInitLoaded = .ok r := by
  obtain ⟨hv, ht, fcEff, eff, a1, a2, he, rfl⟩ := (savedDerived_iff hf hm).1 h
  have hmark := rsMcMap_not_mark o
  have hne : fcEff ≠ [] := by
    intro h0
    subst h0
    split at a1
    · have : ∀ (l : List K) (f : K → Except RsErr K) (r : List K), rsMapM f l = .ok r → r = [] → l = [] := by
        intro l f r hr h1
        cases l with
        | nil => rfl
        | cons a l =>
          unfold rsMapM at hr
          split at hr
          · cases hr
          · split at hr
            · cases hr
            · cases hr; cases h1
      have := this _ _ _ a1 rfl
      simp [rsFcPercOut] at this
    · rename_i he
      exact he (by rw [Except.ok.inj a1]; rfl)
  generalize hM : o.rsMcMap = M at *
  have hmap : (savedDone (savedCurves o fcEff eff)).mcEffMap = some M := by
    unfold savedDone VehObj.rsSetVehMass savedCurves
    rw [hM]
    cases o.vehOverrideKg <;> rfl
  unfold VehObj.rsInitLoaded
  rw [loaded_given hmap hmark]
  have heq : ({ savedDone (savedCurves o fcEff eff) with mcEffMap := some M } : VehObj K) = savedDone (savedCurves o fcEff eff) := by
    unfold savedDone VehObj.rsSetVehMass savedCurves
    rw [hM]
    cases o.vehOverrideKg <;> rfl
  rw [heq]
  generalize hq : savedDone (savedCurves o fcEff eff) = q at *
  have hqm : q.rsMcMap = M := rsMcMap_given hmap hmark
  have hqf : q.fcEffArray = fcEff := by
    rw [← hq]
    unfold savedDone VehObj.rsSetVehMass savedCurves
    cases o.vehOverrideKg <;> rfl
  have hpf : q.fcPeakEffOverride = none := by
    rw [← hf, ← hq]
    unfold savedDone VehObj.rsSetVehMass savedCurves
    cases o.vehOverrideKg <;> rfl
  have hpm : q.mcPeakEffOverride = none := by
    rw [← hm, ← hq]
    unfold savedDone VehObj.rsSetVehMass savedCurves
    cases o.vehOverrideKg <;> rfl
  have hcur : savedCurves q fcEff eff = q := by
    obtain ⟨v, t, e, m, f, s, g, hmass⟩ := savedDone_mass o fcEff eff
    rw [← hq, hmass]
    exact savedCurves_mass o fcEff eff v t e m f s g
  refine (savedDerived_iff hpf hpm).2 ⟨?_, ?_, fcEff, eff, ?_, ?_, ?_, ?_⟩
  · rw [← hv, ← hq]
    unfold savedDone VehObj.rsSetVehMass savedCurves
    cases hk : o.vehOverrideKg <;> simp only [VehObj.rsValid, hk]
  · rw [← ht, ← hq]
    unfold savedDone VehObj.rsSetVehMass savedCurves
    cases hk : o.vehOverrideKg <;> rfl
  · rw [hqf, if_neg (by simpa using hne)]
  · rw [hqm, ← a2, ← hq]
    unfold savedDone VehObj.rsSetVehMass savedCurves
    cases hk : o.vehOverrideKg <;> rfl
  · rw [← he, hcur, ← hq]
    unfold savedDone VehObj.rsSetVehMass savedCurves
    cases hk : o.vehOverrideKg <;> rfl
  · rw [hcur, ← hq, savedDone_again]

/-- **C116 (toml).** From toml a vehicle is initialised twice. It is the vehicle that yaml and json give. -/
theorem C116_toml (w : VehObj K) : w.rsReloadToml = w.rsReload := by
  unfold VehObj.rsReloadToml
  show (match w.rsReload with | .error e => Except.error e | .ok r => r.rsInitLoaded) = _
  cases h : w.rsReload with
  | error e => rfl
  | ok r => exact savedDerived_again rfl rfl h

/-! ### What a text does not keep -/

/-- **C116 (the text of a loaded vehicle, with derived attributes edited).** Whatever is written into the attributes that are
derived or skipped, loading gives the vehicle without these edits: the curves, the mass, the switches, the overrides and the
gravity. -/
theorem C116_derived_edits {w r : VehObj K} (h : w.rsReload = .ok r) {e : VehObj K}
    (he : e = { r with
      aGravMps2 := e.aGravMps2, fcPeakEffOverride := e.fcPeakEffOverride, mcPeakEffOverride := e.mcPeakEffOverride
      chargingOn := e.chargingOn, noElecSys := e.noElecSys, noElecAux := e.noElecAux, inputKwOutArray := e.inputKwOutArray
      fcKwOutArray := e.fcKwOutArray, fcEffArray := e.fcEffArray, mcEffArray := e.mcEffArray, mcKwInArray := e.mcKwInArray
      mcKwOutArray := e.mcKwOutArray, mcMaxElecInKw := e.mcMaxElecInKw, mcFullEffArray := e.mcFullEffArray, vehKg := e.vehKg
      maxTracMps2 := e.maxTracMps2, essMassKg := e.essMassKg, mcMassKg := e.mcMassKg, fcMassKg := e.fcMassKg
      fsMassKg := e.fsMassKg, maxRegenKwh := e.maxRegenKwh }) : e.rsReload = .ok r := by
  rw [← C116_again h]
  show (e.rsFromText []).rsInitLoaded = (r.rsFromText []).rsInitLoaded
  rw [he]
  rfl

/-- **C116 (gravity).** Other physical properties than the default ones are lost. -/
theorem C116_gravity_lost {w r : VehObj K} (h : w.rsReload = .ok r) (g : K) :
    ({ r with aGravMps2 := g } : VehObj K).rsReload = .ok r ∧ r.aGravMps2 = 981 / 100 := by
  refine ⟨C116_derived_edits h rfl, ?_⟩
  obtain ⟨o, fcEff, eff, ho, -, -, -, -, -, rfl⟩ := reload_stages h
  have : (savedDone (savedCurves o fcEff eff)).aGravMps2 = o.aGravMps2 := by
    unfold savedDone VehObj.rsSetVehMass savedCurves
    cases o.vehOverrideKg <;> rfl
  rw [this, ho]
  show (dec 981 100 : K) = _
  norm_num [dec]

/-- **C116 (the inputs).** Whatever vehicle is saved, the loaded one differs from it at most in the attributes that are derived or
skipped: all its inputs are the same, and its motor map is if one was given. -/
theorem C116_inputs {w r : VehObj K} (h : w.rsReload = .ok r) :
    r = { w with
      aGravMps2 := 981 / 100, fcPeakEffOverride := none, mcPeakEffOverride := none, chargingOn := false
      noElecSys := r.noElecSys, noElecAux := r.noElecAux, inputKwOutArray := r.inputKwOutArray
      fcKwOutArray := r.fcKwOutArray, fcEffArray := r.fcEffArray, mcEffMap := r.mcEffMap, mcEffArray := r.mcEffArray
      mcKwInArray := r.mcKwInArray, mcKwOutArray := r.mcKwOutArray, mcMaxElecInKw := r.mcMaxElecInKw
      mcFullEffArray := r.mcFullEffArray, vehKg := r.vehKg, maxTracMps2 := r.maxTracMps2, essMassKg := r.essMassKg
      mcMassKg := r.mcMassKg, fcMassKg := r.fcMassKg, fsMassKg := r.fsMassKg, maxRegenKwh := r.maxRegenKwh } ∧
    ∀ m, w.mcEffMap = some m → m ≠ List.replicate 11 0 → r.mcEffMap = some m := by
  obtain ⟨o, fcEff, eff, ho, -, -, -, -, -, hr⟩ := reload_stages h
  have hg : (981 / 100 : K) = dec 981 100 := by norm_num [dec]
  obtain ⟨v, t, e, m, f, s, g, hd⟩ := savedDone_mass o fcEff eff
  constructor
  · rw [hg, hr, hd, ho]
    rfl
  · intro m' hm hne
    have hmm : o.rsMcMap = m' := by
      refine rsMcMap_given ?_ (by rw [isMark_iff]; exact hne)
      rw [ho]
      exact congrArg some (loaded_given (o := w.rsFromText []) hm (by rw [isMark_iff]; exact hne))
    rw [hr, hd]
    show some o.rsMcMap = _
    rw [hmm]

/-- **C116 (the engine's peak).** Setting the peak efficiency of the engine gives a curve with that peak; saved and loaded, the
vehicle has the curve from before. -/
theorem C116_engine_peak_lost {w r : VehObj K} (h : w.rsReload = .ok r) (hp : 0 < listMax r.fcEffArray) {x : K} (hx : 0 < x) :
    listMax (r.rsSetFcPeak x).fcEffArray = x ∧ (r.rsSetFcPeak x).rsReload = .ok r := by
  have h1 : listMax (r.rsSetFcPeak x).fcEffArray = x := by
    show listMax (r.fcEffArray.map fun e => e * (x / rsArrMax r.fcEffArray)) = x
    rw [rsArrMax_eq]
    exact listMax_scaleTo hx.le hp
  refine ⟨h1, C116_derived_edits h ?_⟩
  have h2 : (r.rsSetFcPeak x).fcEffMap = r.fcEffMap := by
    show r.fcEffMap.map (fun e => e * (x / rsArrMax (r.rsSetFcPeak x).fcEffArray)) = _
    rw [rsArrMax_eq, h1, div_self hx.ne']
    simp
  conv_rhs => rw [← h2]
  rfl

/-- **C116 (the motor's peak).** The same for the motor. -/
theorem C116_motor_peak_lost {w r : VehObj K} (h : w.rsReload = .ok r) (hp : 0 < listMax r.mcFullEffArray) {x : K} (hx : 0 < x) :
    listMax (r.rsSetMcPeak x).mcFullEffArray = x ∧ (r.rsSetMcPeak x).rsReload = .ok r := by
  refine ⟨?_, C116_derived_edits h rfl⟩
  show listMax (r.mcFullEffArray.map fun e => e * (x / rsArrMax r.mcFullEffArray)) = x
  rw [rsArrMax_eq]
  exact listMax_scaleTo hx.le hp

/-- What the loaded vehicle has as its curves. -/
theorem init_curves {o r : VehObj K} (hf : o.fcPeakEffOverride = none) (hm : o.mcPeakEffOverride = none)
    (h : o.rsInitLoaded = .ok r) :
    (o.fcEffArray ≠ [] → r.fcEffArray = o.fcEffArray) ∧
    (o.fcEffArray = [] → rsMapM (fun x => rsInterpolate x o.fcPwrOutPerc o.fcEffMap) rsFcPercOut = .ok r.fcEffArray) ∧
    r.mcEffMap = some o.rsMcMapLoaded ∧ r.fcPwrOutPerc = o.fcPwrOutPerc ∧ r.fcEffMap = o.fcEffMap := by
  obtain ⟨-, -, fcEff, eff, a1, -, -, rfl⟩ := (savedDerived_iff (o := { o with mcEffMap := some o.rsMcMapLoaded }) hf hm).1 h
  have hmm : ({ o with mcEffMap := some o.rsMcMapLoaded } : VehObj K).rsMcMap = o.rsMcMapLoaded :=
    rsMcMap_given rfl (loaded_not_mark o)
  obtain ⟨v, t, e, m, f, s, g, hd⟩ := savedDone_mass ({ o with mcEffMap := some o.rsMcMapLoaded } : VehObj K) fcEff eff
  rw [hd]
  refine ⟨fun hne => ?_, fun he => ?_, ?_, rfl, rfl⟩
  · rw [if_neg (by simpa using hne)] at a1
    exact (Except.ok.inj a1).symm
  · rw [if_pos (by show o.fcEffArray.isEmpty = true; rw [he]; rfl)] at a1
    exact a1
  · show some _ = some _
    rw [hmm]

/-- **C116 (a curve in the file).** A file may give the curve of the engine itself; it is used as it stands. It is not saved:
loading the saved vehicle derives the curve from the map. -/
theorem C116_curve_in_file {w r : VehObj K} {arr : List K} (ha : arr ≠ []) (h : (w.rsFromText arr).rsInitLoaded = .ok r) :
    r.fcEffArray = arr ∧ ∀ r', r.rsReload = .ok r' →
      rsMapM (fun x => rsInterpolate x w.fcPwrOutPerc w.fcEffMap) rsFcPercOut = .ok r'.fcEffArray := by
  obtain ⟨h1, -, -, h4, h5⟩ := init_curves rfl rfl h
  refine ⟨h1 ha, fun r' hr => ?_⟩
  have := (init_curves (o := r.rsFromText []) rfl rfl hr).2.1 rfl
  rw [show (r.rsFromText []).fcPwrOutPerc = w.fcPwrOutPerc from h4, show (r.rsFromText []).fcEffMap = w.fcEffMap from h5] at this
  exact this

/-- **C116 (no motor map in the file).** A file that marks "no motor map" gets the map of a large motor, whatever the power of the
motor; python and its Rust copy give a motor of 7.5 kW or less the map of a small one. -/
theorem C116_no_map {w r : VehObj K} {arr : List K} (hm : w.mcEffMap = some (List.replicate 11 0))
    (h : (w.rsFromText arr).rsInitLoaded = .ok r) :
    r.mcEffMap = some ((largeBaselineEff : List K).map (· + 1 / 100)) ∧
    ∀ o q : VehObj K, o.mcEffMap = none → o.mcMaxKw = w.mcMaxKw → w.mcMaxKw ≤ 75 / 10 → o.fcPeakEffOverride = none →
      o.toRust.rsSetDerived = .ok q → q.mcEffMap = some smallBaselineEff := by
  constructor
  · rw [(init_curves rfl rfl h).2.2.1]
    exact congrArg some (loaded_mark (m := List.replicate 11 0) hm (isMark_iff.2 rfl))
  · intro o q ho hk hs hf hq
    obtain ⟨-, -, fcEff, eff, -, -, -, rfl⟩ := (savedDerived_iff (o := o.toRust) hf rfl).1 hq
    obtain ⟨v, t, e, m, f, s, g, hd⟩ := savedDone_mass o.toRust fcEff eff
    rw [hd]
    show some o.toRust.rsMcMap = _
    have : o.toRust.rsMcMap = defaultMcEffMap o.mcMaxKw := by
      unfold VehObj.rsMcMap
      refine (if_pos (isMark_iff.2 ?_)).trans ?_
      · show (some (o.mcEffMap.getD (List.replicate 11 0))).getD [] = _
        rw [ho]; rfl
      unfold defaultMcEffMap mcKwAdjPerc
      rw [rsArrMax_eq, rsLarge_eq, rsSmall_eq]
      simp only [List.zipWith_map_left]
      rfl
    rw [this]
    have hadj : mcKwAdjPerc o.mcMaxKw = 0 := by
      unfold mcKwAdjPerc
      have : (o.mcMaxKw - dec 75 10) / (dec 750 10 - dec 75 10) ≤ (0 : K) := by
        refine div_nonpos_of_nonpos_of_nonneg ?_ ?_
        · rw [hk]; unfold dec; push_cast; linarith
        · unfold dec; norm_num
      exact max_eq_left ((min_le_left _ _).trans this)
    unfold defaultMcEffMap
    rw [hadj]
    simp [largeBaselineEff, smallBaselineEff]

/-- **C116 (imported hybrids).** An imported hybrid computes fuel with the curve of a gasoline engine, best 36 %; after saving and
loading it computes fuel with that of an Atkinson engine, best 40 %. -/
theorem C116_imported {fit : Fit K} {fe : FeRow K} {e : EpaRow K} {o : OtherInputs K} {v : ImportedVeh K}
    (h : makeVehicle fit fe e o = .ok (some v)) (ht : fe.altVehType = "Hybrid".toList ∨ fe.altVehType = "Plug-in Hybrid".toList)
    {r : VehObj K} (hr : v.obj.rsReload = .ok r) :
    listMax v.obj.fcEffArray = 36 / 100 ∧ listMax r.fcEffArray = 40 / 100 := by
  obtain ⟨-, h36, hmap⟩ := C106_engine_found h
  refine ⟨h36, ?_⟩
  have hcur := (init_curves (o := v.obj.rsFromText []) rfl rfl hr).2.1 rfl
  obtain ⟨d, u, hd, hu, -, hv, -⟩ := makeVehicle_ok h
  obtain ⟨i1, -⟩ := importInputs_override fe e o d
  have hperc : v.obj.fcPwrOutPerc = defaultFcPwrOutPerc := by
    have e1 : v.obj.fcPwrOutPerc = u.fcPwrOutPerc := (congrArg (fun w : VehObj K => w.fcPwrOutPerc) hv :)
    have e2 : (importInputs fe e o d).fcPwrOutPerc = d.fcPwrOutPerc := by
      unfold importInputs byPowertrain
      cases importedType fe <;> rfl
    rw [e1, (rsSetDerived_same hu i1).fcPwrOutPerc, e2, (mock_keeps hd).1.fcPwrOutPerc]
    rfl
  rw [show (v.obj.rsFromText []).fcPwrOutPerc = defaultFcPwrOutPerc from hperc,
    show (v.obj.rsFromText []).fcEffMap = importAtkinson from (hmap ht).1, rsFcPercOut_eq,
    rsMapM_ok (g := fun x => interp x (defaultFcPwrOutPerc.zip importAtkinson)) fun x _ =>
      rsInterpolate_eq fcPerc_sorted (by simp [defaultFcPwrOutPerc]) (by simp [defaultFcPwrOutPerc, importAtkinson]) x] at hcur
  rw [← Except.ok.inj hcur]
  refine listMax_eq ?_ fun x hx => ?_
  · refine List.mem_map.2 ⟨dec 200 1000, ?_, ?_⟩
    · unfold fcPercOutArray
      refine List.mem_append_left _ (List.mem_append_right _ (List.mem_map.2 ⟨13, by simp, rfl⟩))
    · unfold defaultFcPwrOutPerc importAtkinson dec
      simp only [List.map_cons, List.map_nil, List.zip_cons_cons, List.zip_nil_left, interp]
      norm_num
  · obtain ⟨y, -, rfl⟩ := List.mem_map.1 hx
    refine (interp_bounds y 0 (40 / 100) (defaultFcPwrOutPerc.zip importAtkinson) (by simp [defaultFcPwrOutPerc, importAtkinson])
      fun p hp => ?_).2
    have hp2 := (List.of_mem_zip hp).2
    unfold importAtkinson dec at hp2
    simp only [List.map_cons, List.map_nil, List.mem_cons, List.not_mem_nil, or_false] at hp2
    rcases hp2 with q | q | q | q | q | q | q | q | q | q | q | q <;> rw [q] <;> norm_num

open Demo

/-- The hybrid of the demos is loaded from what is written for its Rust copy; the peaks of its engine and motor are positive. -/
theorem C116_demo : (match hevObj.toRust.rsSetDerived with
      | .ok q => (match q.rsReload with
        | .ok r => decide (0 < listMax r.fcEffArray ∧ 0 < listMax r.mcFullEffArray ∧ r.mcEffMap = q.mcEffMap ∧
            (r.rsSetMcPeak (1 / 2)).mcFullEffArray ≠ r.mcFullEffArray ∧ (r.rsSetFcPeak (1 / 2)).fcEffArray ≠ r.fcEffArray)
        | .error _ => false)
      | .error _ => false) = true ∧ hevObj.fcPeakEffOverride = none := by decide +kernel

/-- A file with the mark, and one with a curve of its own, are loaded. -/
theorem C116_demo_file : (match (({ hevObj with mcEffMap := some (List.replicate 11 0), mcMaxKw := 7 } : VehObj ℚ).rsFromText []).rsInitLoaded with
      | .ok r => decide (listMax r.mcFullEffArray = 95 / 100)
      | .error _ => false) = true ∧
    (match ({ hevObj with mcEffMap := none, mcMaxKw := 7 } : VehObj ℚ).toRust.rsSetDerived with
      | .ok r => decide (listMax r.mcFullEffArray = 93 / 100)
      | .error _ => false) = true ∧
    (match (({ hevObj with mcEffMap := some (List.replicate 11 0) } : VehObj ℚ).rsFromText (List.replicate 100 (1 / 3))).rsInitLoaded with
      | .ok r => (match r.rsReload with
        | .ok r' => decide (listMax r.fcEffArray = 1 / 3 ∧ listMax r'.fcEffArray ≠ 1 / 3)
        | .error _ => false)
      | .error _ => false) = true := by decide +kernel

open ImportDemo in
/-- An imported hybrid, saved and loaded. -/
theorem C116_demo_imported : (match makeVehicle fit { camry with altVehType := "Hybrid".toList } camryTest
        { other with essMaxKw := 50, essMaxKwh := 2, mcMaxKw := 60 } with
      | .ok (some v) => (match v.obj.rsReload with
        | .ok r => decide (listMax v.obj.fcEffArray = 36 / 100 ∧ listMax r.fcEffArray = 40 / 100)
        | .error _ => false)
      | _ => false) = true := by decide +kernel

end Fastsim.Props
