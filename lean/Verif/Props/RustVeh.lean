import Verif.Props.VehicleEff
import Verif.Props.RustStep
import Verif.Lemmas.RsVeh

/-!
# C97: the Rust copy of a vehicle
-/

set_option linter.unusedSectionVars false

namespace Fastsim.Spec
variable {K : Type*} [Field K] [LinearOrder K] [IsStrictOrderedRing K]

/-- Vehicles whose inputs survive the way to the Rust core: standard gravity, no override of the motor's peak, breakpoints that
strictly increase (those of the motor up to full power), and a motor map that is not the mark for "none given". -/
structure RustReady (o : VehObj K) : Prop where
  gravity : o.aGravMps2 = 981 / 100
  noOverride : o.mcPeakEffOverride = none
  fcTwo : 2 ≤ o.fcPwrOutPerc.length
  fcStrict : o.fcPwrOutPerc.Pairwise (· < ·)
  mcTwo : 2 ≤ o.mcPwrOutPerc.length
  mcStrict : o.mcPwrOutPerc.Pairwise (· < ·)
  mcEnd : o.mcPwrOutPerc.getLast? = some 1
  notMark : ∀ m, o.mcEffMap = some m → m ≠ List.replicate 11 0

end Fastsim.Spec

universe u

namespace Fastsim.Props
open Fastsim Spec

section Field
variable {K : Type*} [Field K] [LinearOrder K] [IsStrictOrderedRing K]

theorem rsTypeOk_toRust (o : VehObj K) : o.toRust.rsTypeOk = o.typeOk := by
  unfold VehObj.rsTypeOk VehObj.typeOk VehObj.toRust
  rcases o.template with _ | _
  · rcases o.ptType <;> rcases o.stopStart <;> simp [Bool.decide_and, Bool.and_assoc]
  · simp

theorem rsMcMap_toRust {o : VehObj K} (h : RustReady o) :
    o.toRust.rsMcMap = o.mcEffMap.getD (defaultMcEffMap o.mcMaxKw) := by
  unfold VehObj.rsMcMap
  have e : o.toRust.mcEffMap = some (o.mcEffMap.getD (List.replicate 11 0)) := rfl
  rw [e]
  cases hm : o.mcEffMap with
  | none =>
    simp only [Option.getD_some, Option.getD_none]
    rw [if_pos (by simp)]
    rw [rsLarge_eq, rsSmall_eq, rsArrMax_eq, List.zipWith_map_left]
    rfl
  | some m =>
    simp only [Option.getD_some]
    rw [if_neg]
    rintro ⟨h1, h2⟩
    refine h.notMark m hm ?_
    rw [List.eq_replicate_iff]
    simp only [List.all_eq_true, decide_eq_true_eq] at h2
    exact ⟨h1, h2⟩

theorem fullEff_rust {xs map : List K} (hs : xs.Pairwise (· < ·)) (h2 : 2 ≤ xs.length) (hl : xs.length = map.length)
    (he : xs.getLast? = some 1) :
    fullEff ((mcPercOutArray : List K).map fun x => interp x (xs.zip map)) map =
      0 :: (mcPercOutArray : List K).tail.map fun x => interp x (xs.zip map) := by
  have hlast : interp 1 (xs.zip map) = map.getLast?.getD 0 := by
    have hne : xs.zip map ≠ [] := by
      intro e
      have := congrArg List.length e
      rw [List.length_zip, ← hl, Nat.min_self, List.length_nil] at this
      omega
    have hx : xs ≠ [] := by rintro rfl; simp at h2
    have hm : map ≠ [] := by rintro rfl; simp at hl; exact hx hl
    have hg : (xs.zip map).getLast hne = (xs.getLast hx, map.getLast hm) := by
      simp only [List.getLast_eq_getElem, List.getElem_zip, List.length_zip]
      congr 2 <;> omega
    rw [List.getLast?_eq_some_getLast hx, Option.some.injEq] at he
    rw [interp_right (strictX_zip hs).sorted hne (by rw [hg, he]), hg, List.getLast?_eq_some_getLast hm]
    rfl
  apply List.ext_getElem?
  intro k
  unfold fullEff
  rw [List.length_map, mcPercOutArray_length]
  rcases Nat.eq_zero_or_pos k with rfl | hk
  · rw [List.getElem?_set_ne (by omega), List.getElem?_set_self (by simp [mcPercOutArray_length])]
    rfl
  · obtain ⟨n, rfl⟩ : ∃ n, k = n + 1 := ⟨k - 1, by omega⟩
    rw [List.getElem?_cons_succ, List.map_tail, List.getElem?_tail]
    rcases eq_or_ne (n + 1) 100 with e | e
    · rw [e, List.getElem?_set_self (by simp [mcPercOutArray_length]), List.getElem?_map, mcPercOutArray_get le_rfl,
        Option.map_some, dec_one (by norm_num), hlast]
    · rw [List.getElem?_set_ne (by omega), List.getElem?_set_ne (by omega)]

/-- The masses as `copy_vehicle` leaves them. -/
def rustMass (o : VehObj K) : MassPart K := ⟨o.toRust.vehOverrideKg, 0, 0, 0, 0, 0, 0⟩

theorem rsSetCurves_toRust {o o1 : VehObj K} (h : RustReady o) (h1 : o.setSwitches.setCurves = .ok o1) :
    o.toRust.rsSetCurves = .ok (withMass o1 (rustMass o)) := by
  obtain ⟨fcEff, mid, map, hc⟩ := setCurves_spec h1
  obtain ⟨w1, w2, w3, w4⟩ := hc
  obtain ⟨-, fl, rfl⟩ := npInterp_ok w1
  obtain ⟨-, ml, rfl⟩ := npInterp_ok w3
  have w2 : map = o.mcEffMap.getD (defaultMcEffMap o.mcMaxKw) := w2
  have fl : o.fcPwrOutPerc.length = o.fcEffMap.length := fl
  have ml : o.mcPwrOutPerc.length = map.length := ml
  have hmap := rsMcMap_toRust h
  rw [← w2] at hmap
  have r1 : rsMapM (fun x => rsInterpolate x o.toRust.fcPwrOutPerc o.toRust.fcEffMap) rsFcPercOut =
      .ok (fcPercOutArray.map fun x => interp x (o.fcPwrOutPerc.zip o.fcEffMap)) := by
    rw [rsFcPercOut_eq]
    exact rsMapM_ok fun x _ => rsInterpolate_eq h.fcStrict h.fcTwo fl x
  have r2 : rsMapM (fun x => rsInterpolate x o.toRust.mcPwrOutPerc map) rsMcPercOut.tail =
      .ok (mcPercOutArray.tail.map fun x => interp x (o.mcPwrOutPerc.zip map)) := by
    rw [rsMcPercOut_eq]
    exact rsMapM_ok fun x _ => rsInterpolate_eq h.mcStrict h.mcTwo ml x
  unfold VehObj.rsSetCurves
  have hemp : o.toRust.fcEffArray.isEmpty = true := rfl
  simp only [hemp, if_true, r1, hmap]
  show (rsMapM (fun x => rsInterpolate x o.toRust.mcPwrOutPerc map) rsMcPercOut.tail >>= _) = _
  rw [r2]
  show Except.ok _ = _
  rw [w4, Except.ok.injEq]
  have hfull := fullEff_rust h.mcStrict h.mcTwo ml h.mcEnd
  have hfull' : fullEff ((mcPercOutArray : List K).map fun x => interp x (o.setSwitches.mcPwrOutPerc.zip map)) map =
      0 :: (mcPercOutArray : List K).tail.map fun x => interp x (o.mcPwrOutPerc.zip map) := hfull
  have hcomm : (fcPercOutArray : List K).map (· * o.fcMaxKw) = fcPercOutArray.map (o.setSwitches.fcMaxKw * ·) :=
    List.map_congr_left fun x _ => mul_comm _ _
  have hg : (dec 981 100 : K) = o.aGravMps2 := by rw [h.gravity]; norm_num [dec]
  rw [hfull', ← hcomm, rsFcPercOut_eq, rsMcPercOut_eq, rsArrMax_eq]
  simp only [withMass, VehObj.setSwitches, VehObj.toRust, h.noOverride, hg]
  rfl

theorem rsSetOverrides_withMass {q : VehObj K} (h : q.mcPeakEffOverride = none) (p : MassPart K) :
    (withMass q p).rsSetOverrides = { withMass q.setOverrides p with fcPeakEffOverride := none } := by
  unfold VehObj.rsSetOverrides VehObj.setOverrides
  rcases hf : q.fcPeakEffOverride with _ | x
  · simp only [withMass, hf, h]
  · simp only [withMass, hf, h, VehObj.rsSetFcPeak, VehObj.setFcPeak, rsArrMax_eq, scaleTo]

theorem rsEffOk_of {q : VehObj K} {p : MassPart K} (h : q.effOk = true) :
    VehObj.rsEffOk { withMass q p with fcPeakEffOverride := none } = true := by
  unfold VehObj.effOk at h
  simp only [Bool.and_eq_true, decide_eq_true_eq] at h
  obtain ⟨⟨⟨h1, h2⟩, h3⟩, h4⟩ := h
  unfold VehObj.rsEffOk
  simp only [rsArrMin_eq, rsArrMax_eq, withMass, Bool.and_eq_true, Bool.or_eq_true, decide_eq_true_eq]
  refine ⟨⟨h1, h2⟩, .inr ⟨h3, ?_⟩⟩
  unfold VehObj.mcPeak at h4
  split at h4
  · rename_i x hx
    split at hx
    · simp only [Except.ok.injEq] at hx
      rw [hx]
      exact of_decide_eq_true h4
    · simp at hx
  · simp at h4

theorem rsSetVehMass_eq {q : VehObj K} {ov : Option K}
    (hov : ov = match q.vehOverrideKg with | none => none | some k => if k = 0 then none else some k)
    (hnn : ∀ k, q.vehOverrideKg = some k → 0 ≤ k) :
    VehObj.rsSetVehMass { withMass q ⟨ov, 0, 0, 0, 0, 0, 0⟩ with fcPeakEffOverride := none } =
      { q.setVehMass with fcPeakEffOverride := none, vehOverrideKg := ov } := by
  unfold VehObj.rsSetVehMass VehObj.setVehMass
  rcases hq : q.vehOverrideKg with _ | k
  · rw [hq] at hov
    subst hov
    rfl
  · rw [hq] at hov
    rcases (hnn k hq).lt_or_eq with hk | hk
    · have hov : ov = some k := by rw [hov]; exact if_neg hk.ne'
      subst hov
      simp only [withMass, if_pos hk]
    · have hov : ov = none := by rw [hov]; exact if_pos hk.symm
      subst hov
      simp only [withMass, if_neg (not_lt.2 hk.ge)]
      rfl

/-- **C97 (same vehicle).** Whenever the Rust core accepts the inputs, it derives from them what python derives: every
attribute of the Rust copy is that of the python vehicle, except that the override of the engine's peak is forgotten once used,
a mass override of zero is none, and `max_regen_kwh` is stored. -/
theorem C97_derive {o o' : VehObj K} (h : o.setDerived = .ok o') (hr : RustReady o) (hv : o.toRust.rsValid = true) :
    o.toRust.rsSetDerived = .ok { o' with
      fcPeakEffOverride := none
      vehOverrideKg := o.toRust.vehOverrideKg
      maxRegenKwh := 1 / 2 * o'.vehKg * (27 * 27) / (3600 * 1000) } := by
  obtain ⟨ht, o1, h1, he, heq⟩ := setDerived_stages h
  have hov : o1.mcPeakEffOverride = none := by
    obtain ⟨a, b, c, hc⟩ := setCurves_spec h1
    obtain ⟨-, -, -, -, e, -⟩ := curves_eff _ _ _ _ _ hc
    exact e.trans hr.noOverride
  have hkg : o1.setOverrides.vehOverrideKg = o.vehOverrideKg := by
    obtain ⟨a, b, c, hc⟩ := setCurves_spec h1
    rw [setOverrides_eq]
    unfold mcOverride fcOverride
    rw [hc.eq]
    split <;> split <;> rfl
  have hnn : ∀ k, o1.setOverrides.vehOverrideKg = some k → 0 ≤ k := by
    intro k hk
    rw [hkg] at hk
    unfold VehObj.rsValid at hv
    simp only [Bool.and_eq_true] at hv
    have hx : VehObj.rsOpt VehObj.rsMin0 o.toRust.vehOverrideKg = true := by tauto
    have e : o.toRust.vehOverrideKg = if k = 0 then none else some k := by
      unfold VehObj.toRust
      simp only [hk]
    rw [e] at hx
    by_cases h0 : k = 0
    · exact h0.ge
    · rw [if_neg h0] at hx
      exact of_decide_eq_true hx
  unfold VehObj.rsSetDerived
  rw [hv, rsTypeOk_toRust, ht, rsSetCurves_toRust hr h1]
  simp only [Bool.true_eq_false, if_false]
  rw [rsSetOverrides_withMass hov, rsEffOk_of he]
  simp only [Bool.true_eq_false, if_false]
  have hm := rsSetVehMass_eq (q := o1.setOverrides) (ov := o.toRust.vehOverrideKg) (by rw [hkg]; rfl) hnn
  unfold rustMass
  rw [hm, ← heq]
  simp only [Except.ok.injEq]
  norm_num [dec]

/-- **C97 (refused).** `to_rust` fails exactly when an input is out of its range: other vehicles that python could build are
copied. -/
theorem C97_refused {o o' : VehObj K} (h : o.setDerived = .ok o') (hr : RustReady o) :
    (o.toRust.rsSetDerived = .error .err ↔ o.toRust.rsValid = false) ∧
    ((∃ r, o.toRust.rsSetDerived = .ok r) ↔ o.toRust.rsValid = true) := by
  cases hv : o.toRust.rsValid
  · have : o.toRust.rsSetDerived = .error .err := by unfold VehObj.rsSetDerived; rw [hv]; rfl
    rw [this]; simp
  · rw [C97_derive h hr hv]; simp

theorem rsMaxFcEffKw_of {V : Veh K} (hl : V.fcEffArray.length = V.fcKwOutArray.length) (h0 : 0 < V.fcEffArray.length) :
    rsMaxFcEffKw V = .ok (V.fcKwOutArray.getD (argmaxIdx V.fcEffArray) 0) := by
  have hne : V.fcEffArray ≠ [] := List.ne_nil_of_length_pos h0
  have hlt : argmaxIdx V.fcEffArray < V.fcEffArray.length :=
    List.findIdx_lt_length.2 ⟨listMax V.fcEffArray, listMax_mem hne, by simp⟩
  have e : V.fcEffArray.findIdx? (fun x => decide (x = listMax V.fcEffArray)) = some (argmaxIdx V.fcEffArray) := by
    rw [List.findIdx?_eq_some_iff_getElem]
    refine ⟨hlt, ?_, fun j hj => ?_⟩
    · have := List.findIdx_getElem (w := hlt)
      simp only [decide_eq_true_eq] at this ⊢
      exact le_antisymm (le_listMax (List.getElem_mem _)) this
    · have := List.not_of_lt_findIdx hj
      simp only [decide_eq_true_eq, decide_eq_false_iff_not, Bool.not_eq_true] at this ⊢
      intro q
      exact this q.ge
  unfold rsMaxFcEffKw rsFirstEq
  rw [rsArrMax_eq, if_neg (by omega), e]
  simp only [Option.getD_some]
  rw [rsIdx_getD (by rw [← hl]; exact hlt)]

theorem fcEff_length {o o' : VehObj K} (h : o.setDerived = .ok o') : o'.fcEffArray.length = 100 := by
  obtain ⟨-, -, h3, -⟩ := C46_engine_table h
  obtain ⟨o1, fcEff, mid, map, hc, -, rfl⟩ := setDerived_curves h
  obtain ⟨-, a2, -⟩ := setVehMass_arrays o1.setOverrides
  obtain ⟨c1, -⟩ := lenTo o1 fcEff mid map _ hc
  rw [← h3, a2, c1]; simp [fcPercOutArray]

/-- **C97 (same to a simulation).** What a Rust simulation reads of the copy is what a python simulation reads of the vehicle,
value by value. -/
theorem C97_view {o o' : VehObj K} {V : Veh K} (h : o.setDerived = .ok o') (hview : o'.view = .ok V) (hr : RustReady o)
    (hv : o.toRust.rsValid = true) : ∃ r, o.toRust.rsSetDerived = .ok r ∧ r.rsView = .ok V := by
  refine ⟨_, C97_derive h hr hv, ?_⟩
  have hl := fcEff_length h
  have hl' := (C46_engine_table h).2.2.1
  unfold VehObj.view at hview
  split at hview
  · simp at hview
  · rename_i x hx
    simp only [Except.ok.injEq] at hview
    subst hview
    have hp : listMax o'.mcFullEffArray = x := by
      unfold VehObj.mcPeak at hx
      split at hx
      · simpa using hx
      · simp at hx
    set r : VehObj K := { o' with
      fcPeakEffOverride := none
      vehOverrideKg := o.toRust.vehOverrideKg
      maxRegenKwh := 1 / 2 * o'.vehKg * (27 * 27) / (3600 * 1000) } with hrr
    have e : rsMaxFcEffKw r.toVeh = .ok (o'.fcKwOutArray.getD (argmaxIdx o'.fcEffArray) 0) :=
      rsMaxFcEffKw_of (V := r.toVeh) hl'.symm (by show 0 < o'.fcEffArray.length; omega)
    unfold VehObj.rsView
    rw [e, hrr]
    simp only [Except.ok.injEq, rsMcPeakEff, rsArrMax_eq, hp]
    norm_num [dec]

/-! ### The conditions of C96 -/

theorem rsValid_signs {o : VehObj K} (h : o.toRust.rsValid = true) :
    0 ≤ o.mcSecToPeakPwr ∧ 0 ≤ o.essMaxKw ∧ 0 ≤ o.fcMaxKw ∧ 0 ≤ o.fcSecToPeakPwr ∧ 0 ≤ o.mcMaxKw := by
  unfold VehObj.rsValid at h
  simp only [Bool.and_eq_true] at h
  have h1 : VehObj.rsMin0 o.mcSecToPeakPwr = true := by tauto
  have h2 : VehObj.rsMin0 o.essMaxKw = true := by tauto
  have h3 : VehObj.rsMin0 o.fcMaxKw = true := by tauto
  have h4 : VehObj.rsMin0 o.fcSecToPeakPwr = true := by tauto
  have h5 : VehObj.rsMin0 o.mcMaxKw = true := by tauto
  exact ⟨of_decide_eq_true h1, of_decide_eq_true h2, of_decide_eq_true h3, of_decide_eq_true h4, of_decide_eq_true h5⟩

theorem mcFullEff_length {o o' : VehObj K} (h : o.setDerived = .ok o') : o'.mcFullEffArray.length = 101 := by
  obtain ⟨o1, fcEff, mid, map, hc, -, rfl⟩ := setDerived_curves h
  obtain ⟨-, -, a3, -⟩ := setVehMass_arrays o1.setOverrides
  obtain ⟨-, d2, -⟩ := override_cases o1
  obtain ⟨-, e2, -⟩ := curves_eff _ _ _ _ _ hc
  rw [a3, d2, e2, (npInterp_ok hc.mc).2.2]
  split <;> simp [scaleTo, fullEff_length, mcPercOutArray]

theorem mcMaxElecIn_eq {o o' : VehObj K} (h : o.setDerived = .ok o') : o'.mcMaxElecInKw = listMax o'.mcKwInArray := by
  obtain ⟨o1, fcEff, mid, map, hc, -, rfl⟩ := setDerived_curves h
  obtain ⟨-, -, -, -, a5, -, -, -, a9⟩ := setVehMass_arrays o1.setOverrides
  obtain ⟨-, -, c3, c4⟩ := lenTo o1 fcEff mid map _ hc
  rw [a9, c4, a5, c3]

/-- **C97 (C96 applies).** The copy of a vehicle whose motor has at least a kilowatt (or is absent) and a positive map, and
whose tabulated inputs keep their distance from the largest, satisfies the conditions under which a Rust step is the python
step (C96). -/
theorem C97_ok {o o' : VehObj K} {V : Veh K} (h : o.setDerived = .ok o') (hview : o'.view = .ok V) (hr : RustReady o)
    (hv : o.toRust.rsValid = true) (hmap : ∀ e ∈ o.mcEffMap.getD (defaultMcEffMap o.mcMaxKw), 0 < e)
    (hm : o.mcMaxKw = 0 ∨ 1 ≤ o.mcMaxKw ∧ ∀ a ∈ o'.mcKwInArray, a = listMax o'.mcKwInArray ∨
      (a ≤ listMax o'.mcKwInArray - 1 / 100 ∧ a ≤ listMax o'.mcKwInArray * (9999 / 10000))) : RsOk V := by
  obtain ⟨s1, s2, s3, s4, s5⟩ := rsValid_signs hv
  obtain ⟨t1, t2, t3, -, t5, t6⟩ := C46_motor_table h
  obtain ⟨q1, -, q3, -⟩ := C46_engine_table h
  have t6 := t6 hr.noOverride
  have hl := mcFullEff_length h
  have hfl := fcEff_length h
  obtain ⟨-, heff⟩ := C46_efficiencies h
  obtain ⟨m1, m2, m3, m4⟩ := C46_motor_range h hr.noOverride (lo := listMin (o.mcEffMap.getD (defaultMcEffMap o.mcMaxKw)))
    (hi := listMax (o.mcEffMap.getD (defaultMcEffMap o.mcMaxKw))) (fun e he => ⟨listMin_le he, le_listMax he⟩)
  have hmapne : o.mcEffMap.getD (defaultMcEffMap o.mcMaxKw) ≠ [] := by
    intro e
    rw [e, List.getLast?_nil, List.getLast?_eq_none_iff] at m4
    rw [m4] at hl; simp at hl
  have hpos : ∀ e ∈ o'.mcFullEffArray.tail, 0 < e := fun e he =>
    lt_of_lt_of_le (hmap _ (listMin_mem hmapne)) (m3 e he).1
  have hi := C37_inputs_kept h
  obtain ⟨w1, -⟩ := C37_switches h
  -- the inputs
  have hin : ∀ k : Nat, 1 ≤ k → k ≤ 100 → ∃ e, 0 < e ∧ e < 1 ∧ o'.mcKwInArray[k]? = some ((k : K) / 100 * o.mcMaxKw / e) := by
    intro k h1 h2
    have he : o'.mcFullEffArray[k]? = some (o'.mcFullEffArray[k]'(by omega)) := List.getElem?_eq_getElem _
    have hx : o'.mcKwInArray[k]? = some (o'.mcKwInArray[k]'(by omega)) := List.getElem?_eq_getElem _
    have hp : 0 < o'.mcFullEffArray[k]'(by omega) := by
      refine hpos _ ?_
      rw [List.mem_iff_getElem]
      exact ⟨k - 1, by rw [List.length_tail]; omega, by rw [List.getElem_tail]; congr 1; omega⟩
    refine ⟨_, hp, (heff _ (List.getElem_mem _)).2, ?_⟩
    rw [hx, Option.some.injEq, eq_div_iff hp.ne']
    exact t6 k h1 _ _ _ he hx (t3 k h2) hp.ne'
  have hinnn : ∀ a ∈ o'.mcKwInArray, 0 ≤ a := by
    intro a ha
    obtain ⟨k, hk, rfl⟩ := List.getElem_of_mem ha
    rcases Nat.eq_zero_or_pos k with rfl | h1
    · rw [List.getElem?_eq_getElem hk, Option.some.injEq] at t5
      exact t5.ge
    · obtain ⟨e, e1, -, e2⟩ := hin k h1 (by omega)
      rw [List.getElem?_eq_getElem hk, Option.some.injEq] at e2
      rw [e2]
      positivity
  have hinne : o'.mcKwInArray ≠ [] := by intro e; rw [e] at t2; simp at t2
  have hgap : ∀ a ∈ o'.mcKwInArray, a = listMax o'.mcKwInArray ∨
      (a ≤ listMax o'.mcKwInArray - 1 / 100 ∧ a ≤ listMax o'.mcKwInArray * (9999 / 10000)) := by
    rcases hm with h0 | ⟨-, hg⟩
    · have hz : ∀ a ∈ o'.mcKwInArray, a = 0 := by
        intro a ha
        obtain ⟨k, hk, rfl⟩ := List.getElem_of_mem ha
        rcases Nat.eq_zero_or_pos k with rfl | h1
        · rw [List.getElem?_eq_getElem hk, Option.some.injEq] at t5
          exact t5
        · obtain ⟨e, -, -, e2⟩ := hin k h1 (by omega)
          rw [List.getElem?_eq_getElem hk, Option.some.injEq] at e2
          rw [e2, h0]; simp
      intro a ha
      left
      rw [hz a ha, hz _ (listMax_mem hinne)]
    · exact hg
  have hout : TableOk o'.mcKwOutArray o.mcMaxKw := by
    refine ⟨by omega, ?_, ?_, ?_, ?_⟩
    · have := t3 0 (by omega)
      simpa using this
    · intro a ha
      obtain ⟨k, hk, rfl⟩ := List.getElem_of_mem ha
      have := t3 k (by omega)
      rw [List.getElem?_eq_getElem hk, Option.some.injEq] at this
      rw [this]; positivity
    · have := t3 100 le_rfl
      rw [List.mem_iff_getElem?]
      exact ⟨100, by rw [this]; norm_num⟩
    · intro a ha
      obtain ⟨k, hk, rfl⟩ := List.getElem_of_mem ha
      have := t3 k (by omega)
      rw [List.getElem?_eq_getElem hk, Option.some.injEq] at this
      rw [this]
      rcases hm with h0 | ⟨h1, -⟩
      · left; rw [h0]; simp
      · rcases (by omega : k = 100 ∨ k ≤ 99) with rfl | hk99
        · left; norm_num
        · right
          have : (k : K) ≤ 99 := by exact_mod_cast hk99
          constructor <;> nlinarith
  obtain ⟨b1, b2, b3, b4, b5, b6, b7, b8, b9⟩ := view_arrays hview
  have hV : V.mcMaxElecInKw = o'.mcMaxElecInKw ∧ V.mcSecToPeakPwr = o'.mcSecToPeakPwr ∧ V.essMaxKw = o'.essMaxKw ∧
      V.fcSecToPeakPwr = o'.fcSecToPeakPwr ∧ V.noElecSys = o'.noElecSys ∧ V.essMaxKwh = o'.essMaxKwh := by
    unfold VehObj.view at hview
    split at hview
    · simp at hview
    · simp only [Except.ok.injEq] at hview
      subst hview
      exact ⟨rfl, rfl, rfl, rfl, rfl, rfl⟩
  obtain ⟨v1, v2, v3, v4, v5, v6⟩ := hV
  constructor
  · rw [b4, b7, hi.mcMaxKw]; exact hout
  · rw [b5]
    exact ⟨by omega, t5, hinnn, listMax_mem hinne, hgap⟩
  · rw [b5, b4]; omega
  · rw [b3, b4]; omega
  · rw [b7, hi.mcMaxKw, b5]
    intro hne hz
    obtain ⟨e, e1, -, e2⟩ := hin 100 (by omega) le_rfl
    have : (100 : Nat) / (100 : K) * o.mcMaxKw / e ≤ listMax o'.mcKwInArray :=
      le_listMax (List.mem_of_getElem? e2)
    rw [hz] at this
    have hp : 0 < o.mcMaxKw := lt_of_le_of_ne s5 (Ne.symm hne)
    have : 0 < ((100 : Nat) : K) / 100 * o.mcMaxKw / e := by positivity
    linarith
  · rw [b3]; exact fun e he => (heff e he).1
  · rw [v1, mcMaxElecIn_eq h]
    exact hinnn _ (listMax_mem hinne)
  · rw [v2, hi.mcSecToPeakPwr]; exact s1
  · rw [v3, hi.essMaxKw]; exact s2
  · rw [b6, hi.fcMaxKw]; exact s3
  · rw [v4, hi.fcSecToPeakPwr]; exact s4
  · rw [b2]; omega
  · rw [b2]; exact q1
  · rw [b1, b2]; omega
  · rw [v5, v6, v3, b7, hi.essMaxKwh, hi.essMaxKw, hi.mcMaxKw]
    rw [Bool.eq_iff_iff, w1]
    simp [or_assoc]
  · unfold VehObj.mcPeak at b9
    split at b9
    · rw [Except.ok.injEq] at b9
      rw [b3, ← b9]
    · simp at b9
  · rw [b8, b1, b2]

/-- **C97 (built-in map).** Vehicles with the built-in motor map and breakpoints and a motor of at least a kilowatt keep that
distance. -/
theorem C97_default_gap {o o' : VehObj K} (h : o.setDerived = .ok o') (hm : o.mcEffMap = none)
    (hb : o.mcPwrOutPerc = defaultMcPwrOutPerc) (h1 : 1 ≤ o.mcMaxKw) :
    ∀ a ∈ o'.mcKwInArray, a = listMax o'.mcKwInArray ∨
      (a ≤ listMax o'.mcKwInArray - 1 / 100 ∧ a ≤ listMax o'.mcKwInArray * (9999 / 10000)) := by
  have hp : 0 < o.mcMaxKw := lt_of_lt_of_le one_pos h1
  have hlen := (C46_motor_table h).2.1
  have hget := fun k (hk : k ≤ 100) => default_input_get h hm hb hk
  set f : K → K := fun x => interp x ((defaultMcPwrOutPerc : List K).zip (defaultMcEffMap o.mcMaxKw)) with hf
  obtain ⟨a0, a1⟩ := adj_range o.mcMaxKw
  set q2 : K := mcKwAdjPerc o.mcMaxKw * (93 / 100) + (1 - mcKwAdjPerc o.mcMaxKw) * (92 / 100) with hq2
  have hq : 0 < q2 ∧ q2 < 1 := by constructor <;> rw [hq2] <;> linarith
  have hst := default_zip_strict o.mcMaxKw
  have hf1 : f 1 = q2 := by
    have := interp_knot hst (p := (dec 100 100, q2))
      (by rw [defaultMcEffMap_eq]; simp [defaultMcPwrOutPerc, hq2])
    rw [hf]
    simp only [dec_one (by norm_num : 0 < 100)] at this
    exact this
  have hf99 : q2 ≤ f (dec 99 100) := by
    have e : ∃ l, (defaultMcPwrOutPerc : List K).zip (defaultMcEffMap o.mcMaxKw) =
        l ++ (dec 80 100, q2 + 1 / 100) :: (dec 100 100, q2) :: [] := by
      refine ⟨((defaultMcPwrOutPerc : List K).zip (defaultMcEffMap o.mcMaxKw)).take 9, ?_⟩
      conv_lhs => rw [← List.take_append_drop 9 ((defaultMcPwrOutPerc : List K).zip (defaultMcEffMap o.mcMaxKw))]
      congr 1
      rw [defaultMcEffMap_eq]
      have e80 : mcKwAdjPerc o.mcMaxKw * (((94 : Nat) : K) / 100) + (1 - mcKwAdjPerc o.mcMaxKw) * (((93 : Nat) : K) / 100) =
          q2 + 1 / 100 := by rw [hq2]; push_cast; ring
      have e100 : mcKwAdjPerc o.mcMaxKw * (((93 : Nat) : K) / 100) + (1 - mcKwAdjPerc o.mcMaxKw) * (((92 : Nat) : K) / 100) =
          q2 := by rw [hq2]; push_cast; ring
      simp only [defaultMcPwrOutPerc, List.map_cons, List.map_nil, List.zip_cons_cons, List.zip_nil_left,
        List.drop_succ_cons, List.drop_zero, e80, e100]
    obtain ⟨l, e⟩ := e
    rw [hf]
    simp only [e]
    rw [interp_mid (by rw [← e]; exact hst.sorted) (dec_lt (by norm_num) (by norm_num)) (dec_lt (by norm_num) (by norm_num))]
    norm_num [dec]
    linarith
  have hmax : listMax o'.mcKwInArray = 1 / q2 * o.mcMaxKw := by
    have e := hget 100 le_rfl
    rw [dec_one (by norm_num)] at e
    change o'.mcKwInArray[100]? = some (1 / f 1 * o.mcMaxKw) at e
    rw [hf1] at e
    refine listMax_eq (List.mem_of_getElem? e) fun x hx => ?_
    obtain ⟨k, hk, rfl⟩ := List.getElem_of_mem hx
    rcases (by omega : k = 100 ∨ k < 100) with rfl | hk'
    · rw [List.getElem?_eq_getElem hk, Option.some.injEq] at e
      exact e.le
    · have hs := C46_default_inputs h hm hb hp
      have := List.pairwise_iff_getElem.1 hs k 100 hk (by omega) hk'
      rw [List.getElem?_eq_getElem (by omega), Option.some.injEq] at e
      rw [← e]; exact this.le
  intro a ha
  obtain ⟨k, hk, rfl⟩ := List.getElem_of_mem ha
  rcases (by omega : k = 100 ∨ k ≤ 99) with rfl | hk'
  · left
    have e := hget 100 le_rfl
    rw [dec_one (by norm_num)] at e
    change o'.mcKwInArray[100]? = some (1 / f 1 * o.mcMaxKw) at e
    rw [hf1, List.getElem?_eq_getElem hk, Option.some.injEq] at e
    rw [e, hmax]
  · right
    have e99 := hget 99 (by omega)
    rw [List.getElem?_eq_getElem (by omega), Option.some.injEq] at e99
    have hle : o'.mcKwInArray[k] ≤ o'.mcKwInArray[99]'(by omega) := by
      rcases (by omega : k = 99 ∨ k < 99) with rfl | hlt
      · exact le_rfl
      · exact (List.pairwise_iff_getElem.1 (C46_default_inputs h hm hb hp) k 99 hk (by omega) hlt).le
    have h99 : o'.mcKwInArray[99]'(by omega) ≤ 99 / 100 * (1 / q2 * o.mcMaxKw) := by
      rw [e99]
      change dec 99 100 / f (dec 99 100) * o.mcMaxKw ≤ _
      have : (dec 99 100 : K) / f (dec 99 100) ≤ 99 / 100 / q2 := by
        have e : (dec 99 100 : K) = 99 / 100 := by norm_num [dec]
        rw [e] at hf99 ⊢
        exact div_le_div_of_nonneg_left (by norm_num) hq.1 hf99
      calc _ ≤ 99 / 100 / q2 * o.mcMaxKw := mul_le_mul_of_nonneg_right this hp.le
        _ = _ := by ring
    rw [hmax]
    have hbig : 1 ≤ 1 / q2 * o.mcMaxKw := by
      rw [one_div_mul_eq_div, le_div_iff₀ hq.1]; linarith [hq.2]
    have hx := hle.trans h99
    constructor <;> linarith

/-! ### Copies of built vehicles -/

theorem default_not_mark (m : K) : defaultMcEffMap m ≠ List.replicate 11 0 := by
  intro e
  have h := (C46_default_map m).1 0 (by rw [e]; simp)
  linarith [h.1]

theorem rustReady_built {o o' : VehObj K} (h : o.setDerived = .ok o') (hr : RustReady o) : RustReady o' := by
  have hi := C37_inputs_kept h
  refine ⟨hi.aGravMps2.trans hr.gravity, hi.mcPeakEffOverride.trans hr.noOverride, ?_, ?_, ?_, ?_, ?_, ?_⟩
  · rw [hi.fcPwrOutPerc]; exact hr.fcTwo
  · rw [hi.fcPwrOutPerc]; exact hr.fcStrict
  · rw [hi.mcPwrOutPerc]; exact hr.mcTwo
  · rw [hi.mcPwrOutPerc]; exact hr.mcStrict
  · rw [hi.mcPwrOutPerc]; exact hr.mcEnd
  · intro m hm
    obtain ⟨o1, fcEff, mid, map, hc, -, rfl⟩ := setDerived_curves h
    obtain ⟨-, -, -, -, -, -, a7, -⟩ := setVehMass_arrays o1.setOverrides
    obtain ⟨-, -, -, -, g5, -, g7⟩ := curves_eff _ _ _ _ _ hc
    have e : o1.setOverrides.mcEffMap = o1.mcEffMap := by
      have g5 : o1.mcPeakEffOverride = none := g5.trans hr.noOverride
      unfold VehObj.setOverrides
      cases o1.fcPeakEffOverride <;> simp only [VehObj.setFcPeak, g5]
    rw [a7, e, g7, Option.some.injEq] at hm
    rw [← hm, show map = o.mcEffMap.getD (defaultMcEffMap o.mcMaxKw) from hc.hmap]
    cases ho : o.mcEffMap with
    | none => exact default_not_mark _
    | some m' => exact hr.notMark m' ho

/-- **C97 (`to_rust`).** `to_rust` of a vehicle that python has built is that vehicle, as far as a simulation can see: deriving
again on the Rust side changes nothing. -/
theorem C97_to_rust {o o' : VehObj K} {V : Veh K} (h : o.setDerived = .ok o') (hview : o'.view = .ok V) (hr : RustReady o)
    (hf : ∀ x, o.fcPeakEffOverride = some x → 0 < x ∧ (∀ e ∈ o.fcEffMap, 0 ≤ e) ∧ 0 < o'.fcPeak)
    (hv : o'.toRust.rsValid = true) :
    ∃ r, o'.toRust.rsSetDerived = .ok r ∧ r.rsView = .ok V ∧ r = { o' with
      fcPeakEffOverride := none
      vehOverrideKg := o'.toRust.vehOverrideKg
      maxRegenKwh := 1 / 2 * o'.vehKg * (27 * 27) / (3600 * 1000) } := by
  have h2 := C38_derive_again h hr.noOverride hf
  have hr2 := rustReady_built h hr
  obtain ⟨r, e1, e2⟩ := C97_view h2 hview hr2 hv
  refine ⟨r, e1, e2, ?_⟩
  have := C97_derive h2 hr2 hv
  rw [e1, Except.ok.injEq] at this
  exact this

/-- A vehicle whose stored `mc_peak_eff` and `max_fc_eff_kw` are replaced. -/
def withRead (V : Veh K) (a b : K) : Veh K := { V with mcPeakEff := a, maxFcEffKw := b }

/-- A step of the Rust core does not read `mc_peak_eff` and `max_fc_eff_kw` but computes them. -/
theorem rsSolveStep_withRead {F : Fns K} {P : StepParams K} {E : StepEnv K} {p : Row K} {st : Stale K} (V : Veh K) (a b : K) :
    rsSolveStep F (withRead V a b) P E p st = rsSolveStep F V P E p st := by
  have e1 : rsSetMisc (withRead V a b) E p = rsSetMisc V E p := rfl
  have e2 : ∀ M, rsSetCompLims F (withRead V a b) P E p M = rsSetCompLims F V P E p M := fun _ => rfl
  have e3 : ∀ L v, rsPowerAt F (withRead V a b) P E p L v = rsPowerAt F V P E p L v := fun _ _ => rfl
  have e4 : ∀ L pw, rsSetAchSpeed F (withRead V a b) P E p L pw st = rsSetAchSpeed F V P E p L pw st := by
    intro L pw
    have g1 : ∀ v0 m g, rsSpeedFor F (withRead V a b) P E.dt v0 m g = rsSpeedFor F V P E.dt v0 m g := fun _ _ _ => rfl
    have g2 : ∀ v0 m n g c, rsGradeLoop F (withRead V a b) P E v0 m n g c = rsGradeLoop F V P E v0 m n g c := by
      intro v0 m n
      induction n with
      | zero => intro g c; rfl
      | succ n ih => intro g c; simp only [rsGradeLoop, g1, ih]
    unfold rsSetAchSpeed
    simp only [e3, g1, g2]
  have e5 : ∀ L pw, rsSetHyb (withRead V a b) E p L pw = rsSetHyb V E p L pw := fun _ _ => rfl
  have e6 : ∀ pw h, rsSetForced (withRead V a b) E pw h = rsSetForced V E pw h := fun _ _ => rfl
  have e7 : ∀ M L pw h f, rsSetDec F (withRead V a b) E p M L pw h f st = rsSetDec F V E p M L pw h f st :=
    fun _ _ _ _ _ => rfl
  have e8 : ∀ M L pw d, rsSetFcPower (withRead V a b) E M L pw d = rsSetFcPower V E M L pw d := fun _ _ _ _ => rfl
  unfold rsSolveStep
  simp only [e1, e2, e3, e4, e5, e6, e7, e8]

/-- So it does the same with the stored attributes and with what is read. -/
theorem rsSolveStep_view {F : Fns K} {P : StepParams K} {E : StepEnv K} {p : Row K} {st : Stale K} {r : VehObj K} {V : Veh K}
    (h : r.rsView = .ok V) : rsSolveStep F r.toVeh P E p st = rsSolveStep F V P E p st := by
  unfold VehObj.rsView at h
  split at h
  · simp at h
  · rename_i x hx
    simp only [Except.ok.injEq] at h
    subst h
    exact (rsSolveStep_withRead r.toVeh (rsMcPeakEff r.toVeh) x).symm

/-- **C97 (steps of the copy).** So a step of the Rust core with the copy of a built vehicle is the python step with the vehicle
itself, with the last efficiency of the engine repeated (C96). -/
theorem C97_step {F : Fns K} {P : StepParams K} {E : StepEnv K} {p : Row K} (st : Stale K) {o o' : VehObj K} {V : Veh K}
    (h : o.setDerived = .ok o') (hview : o'.view = .ok V) (hr : RustReady o)
    (hf : ∀ x, o.fcPeakEffOverride = some x → 0 < x ∧ (∀ e ∈ o.fcEffMap, 0 ≤ e) ∧ 0 < o'.fcPeak)
    (hv : o'.toRust.rsValid = true) (hok : RsOk V) (hE : RsStepOk E p) :
    ∃ r, o'.toRust.rsSetDerived = .ok r ∧
      rsSolveStep F r.toVeh P E p st = .ok (solveStep F (lastEffRepeated V) P E p st) := by
  obtain ⟨r, e1, e2, -⟩ := C97_to_rust h hview hr hf hv
  exact ⟨r, e1, by rw [rsSolveStep_view e2, C96_step hok hE]⟩

/-! ### What gets lost -/

theorem rsSetDerived_stages {o r : VehObj K} (h : o.rsSetDerived = .ok r) : ∃ o1, o.rsSetCurves = .ok o1 ∧
    r = { o1.rsSetOverrides.rsSetVehMass with
      maxRegenKwh := dec 1 2 * o1.rsSetOverrides.rsSetVehMass.vehKg * ((27 * 27 : Nat) : K) / ((3600 * 1000 : Nat) : K) } := by
  unfold VehObj.rsSetDerived at h
  split at h
  · simp at h
  · split at h
    · simp at h
    · split at h
      · simp at h
      · rename_i o1 h1
        split at h
        · simp at h
        · exact ⟨o1, h1, (Except.ok.inj h).symm⟩

theorem rsBind_ok {A B : Type u} {x : Except RsErr A} {f : A → Except RsErr B} {b : B} (h : (x >>= f) = .ok b) :
    ∃ a, x = .ok a ∧ f a = .ok b := by
  cases x with
  | error e => exact absurd h (by simp [bind, Except.bind])
  | ok a => exact ⟨a, rfl, h⟩

/-- What the Rust curves are. -/
theorem rsSetCurves_spec {o o1 : VehObj K} (h : o.rsSetCurves = .ok o1) :
    o1.aGravMps2 = o.aGravMps2 ∧ o1.mcPeakEffOverride = o.mcPeakEffOverride ∧
    ∃ eff, o1.mcFullEffArray = 0 :: eff ∧ o1.mcKwOutArray = (rsMcPercOut : List K).map (· * o.mcMaxKw) ∧
      o1.mcKwInArray = 0 :: List.zipWith (· / ·) o1.mcKwOutArray.tail eff := by
  unfold VehObj.rsSetCurves at h
  simp only at h
  split at h
  · obtain ⟨fcEff, -, h⟩ := rsBind_ok h
    obtain ⟨eff, -, h⟩ := rsBind_ok h
    have h := Except.ok.inj h
    subst h
    exact ⟨rfl, rfl, eff, rfl, rfl, rfl⟩
  · obtain ⟨fcEff, -, h⟩ := rsBind_ok h
    obtain ⟨eff, -, h⟩ := rsBind_ok h
    have h := Except.ok.inj h
    subst h
    exact ⟨rfl, rfl, eff, rfl, rfl, rfl⟩

theorem rsSetVehMass_keeps (q : VehObj K) : q.rsSetVehMass.aGravMps2 = q.aGravMps2 ∧
    q.rsSetVehMass.mcFullEffArray = q.mcFullEffArray ∧ q.rsSetVehMass.mcKwInArray = q.mcKwInArray ∧
    q.rsSetVehMass.mcKwOutArray = q.mcKwOutArray := by
  unfold VehObj.rsSetVehMass
  cases q.vehOverrideKg <;> exact ⟨rfl, rfl, rfl, rfl⟩

theorem rsSetOverrides_keeps {q : VehObj K} (h : q.mcPeakEffOverride = none) : q.rsSetOverrides.aGravMps2 = q.aGravMps2 ∧
    q.rsSetOverrides.mcFullEffArray = q.mcFullEffArray ∧ q.rsSetOverrides.mcKwInArray = q.mcKwInArray ∧
    q.rsSetOverrides.mcKwOutArray = q.mcKwOutArray := by
  unfold VehObj.rsSetOverrides
  cases q.fcPeakEffOverride <;> simp only [VehObj.rsSetFcPeak, h, and_self]

/-- **C97 (gravity is lost).** Whatever the gravity of the vehicle, that of its Rust copy is 9.81 m/s². -/
theorem C97_gravity_lost {o r : VehObj K} (h : o.toRust.rsSetDerived = .ok r) : r.aGravMps2 = 981 / 100 := by
  obtain ⟨o1, h1, rfl⟩ := rsSetDerived_stages h
  obtain ⟨g1, g2, -⟩ := rsSetCurves_spec h1
  have e : o.toRust.mcPeakEffOverride = none := rfl
  show o1.rsSetOverrides.rsSetVehMass.aGravMps2 = _
  rw [(rsSetVehMass_keeps _).1, (rsSetOverrides_keeps (g2.trans e)).1, g1]
  show (dec 981 100 : K) = _
  norm_num [dec]

/-- **C97 (motor inputs).** In every Rust copy the tabulated motor input times its efficiency is the output. In a python vehicle
with an override of the motor's peak it is not (C38), so there the copy differs. -/
theorem C97_motor_inputs {o r : VehObj K} (h : o.toRust.rsSetDerived = .ok r) {k : Nat} (hk : 1 ≤ k) {e i p : K}
    (h1 : r.mcFullEffArray[k]? = some e) (h2 : r.mcKwInArray[k]? = some i) (h3 : r.mcKwOutArray[k]? = some p) (he : e ≠ 0) :
    i * e = p := by
  obtain ⟨o1, hc, rfl⟩ := rsSetDerived_stages h
  obtain ⟨-, g2, eff, g3, g4, g5⟩ := rsSetCurves_spec hc
  have hn : o1.mcPeakEffOverride = none := g2
  obtain ⟨-, m2, m3, m4⟩ := rsSetVehMass_keeps o1.rsSetOverrides
  obtain ⟨-, n2, n3, n4⟩ := rsSetOverrides_keeps hn
  change o1.rsSetOverrides.rsSetVehMass.mcFullEffArray[k]? = _ at h1
  change o1.rsSetOverrides.rsSetVehMass.mcKwInArray[k]? = _ at h2
  change o1.rsSetOverrides.rsSetVehMass.mcKwOutArray[k]? = _ at h3
  obtain ⟨n, rfl⟩ : ∃ n, k = n + 1 := ⟨k - 1, by omega⟩
  rw [m2, n2, g3, List.getElem?_cons_succ] at h1
  rw [m4, n4] at h3
  rw [m3, n3, g5, List.getElem?_cons_succ, List.getElem?_zipWith, List.getElem?_tail, h3, h1] at h2
  simp only [Option.some.injEq] at h2
  rw [← h2]
  field_simp

end Field

open Demo

/-- The hybrid of the demos, with a motor map of its own. -/
def hevMap : VehObj ℚ := { hevObj with mcEffMap := some (defaultMcEffMap 60) }

/-- The demo descriptions meet the conditions and are accepted by the Rust core. -/
theorem C97_demo : RustReady hevObj ∧ RustReady convObj ∧ RustReady hevMap ∧ hevObj.toRust.rsValid = true ∧
    convObj.toRust.rsValid = true ∧ hevMap.toRust.rsValid = true := by
  refine ⟨?_, ?_, ?_, by decide +kernel, by decide +kernel, by decide +kernel⟩ <;>
    refine ⟨by decide +kernel, by decide +kernel, by decide +kernel, by decide +kernel, by decide +kernel, by decide +kernel,
      by decide +kernel, ?_⟩
  · intro m hm; exact absurd hm (fun e => by cases e)
  · intro m hm; exact absurd hm (fun e => by cases e)
  · intro m hm
    have : m = defaultMcEffMap 60 := by
      have : some (defaultMcEffMap (60 : ℚ)) = some m := hm
      exact (Option.some.inj this).symm
    rw [this]
    exact default_not_mark _

/-- They can be built, and have the motor inputs that C97 asks for. -/
theorem C97_demo_built : (match hevObj.setDerived with
      | .ok o' => decide (∀ a ∈ o'.mcKwInArray, a = listMax o'.mcKwInArray ∨
          (a ≤ listMax o'.mcKwInArray - 1 / 100 ∧ a ≤ listMax o'.mcKwInArray * (9999 / 10000)))
      | .error _ => false) = true ∧ 1 ≤ hevObj.mcMaxKw := by decide +kernel

/-- A vehicle that python builds and the Rust core refuses: a regeneration share of 110 %. -/
theorem C97_demo_refused : (match ({ hevObj with maxRegen := 11 / 10 } : VehObj ℚ).setDerived with
      | .ok _ => true | .error _ => false) = true ∧
    ({ hevObj with maxRegen := 11 / 10 } : VehObj ℚ).toRust.rsValid = false := by decide +kernel

/-- An override of the motor's peak changes the motor inputs of the copy but not those of the vehicle. -/
theorem C97_demo_override : (match ({ hevObj with mcPeakEffOverride := some (1 / 2) } : VehObj ℚ).setDerived with
      | .ok o' => (match o'.toRust.rsSetDerived with
        | .ok r => decide (listMax r.mcFullEffArray = 1 / 2 ∧ listMax o'.mcFullEffArray = 1 / 2 ∧
            listMax o'.mcKwInArray < listMax r.mcKwInArray)
        | .error _ => false)
      | .error _ => false) = true := by decide +kernel

end Fastsim.Props
