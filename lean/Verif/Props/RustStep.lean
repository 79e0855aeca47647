import Verif.Lemmas.RsStep
import Verif.Spec.Demo

/-!
# C96: one step of the Rust core and one step of the python code
-/

set_option linter.unusedSectionVars false

namespace Fastsim.Spec
variable {K : Type*} [Field K] [LinearOrder K] [IsStrictOrderedRing K]

/-- What the agreement needs of a step: time does not run backwards, no charging from the road, the engine did not run
backwards, and the grade does not depend on the speed reached (driving as on the given cycle, or level road). -/
structure RsStepOk (E : StepEnv K) (p : Row K) : Prop where
  dt : 0 ≤ E.dt
  road : E.roadKw = 0
  fc : 0 ≤ p.fc.fcKwOutAch
  grade : ∀ v, E.gradeOf v = E.gradeEst

end Fastsim.Spec

namespace Fastsim.Props
open Fastsim.Spec
section Field
variable {K : Type*} [Field K] [LinearOrder K] [IsStrictOrderedRing K]
variable {F : Fns K} {V : Veh K} {P : StepParams K} {E : StepEnv K} {p : Row K}

theorem TableOk.max_nonneg {arr : List K} {m : K} (h : TableOk arr m) : 0 ≤ m := h.nonneg m h.max_mem

theorem pabs_nonneg' (x : K) : 0 ≤ pabs x := by
  unfold pabs
  split <;> rename_i h
  · linarith
  · exact not_lt.1 h

theorem rsSetMisc_eq : rsSetMisc V E p = setMisc V E p := by
  unfold rsSetMisc setMisc
  by_cases h : p.dec.soc < V.minSoc + V.percHighAccBuf
  · by_cases h' : p.dec.soc < V.minSoc <;> cases p.misc.highAccFcOnTag <;> simp [h, h']
  · by_cases h' : p.dec.soc < V.minSoc <;> cases p.misc.highAccFcOnTag <;> simp [h, h', not_lt.1 h]

theorem rsEssCapLimChgKw_eq : rsEssCapLimChgKw F V E p = essCapLimChgKw F V E p := by
  unfold rsEssCapLimChgKw essCapLimChgKw
  simp only [mul_one]

theorem rsCurMaxEssChgKw_eq : rsCurMaxEssChgKw F V E p = curMaxEssChgKw F V E p := by
  unfold rsCurMaxEssChgKw curMaxEssChgKw
  rw [rsEssCapLimChgKw_eq]

theorem curMaxEssChgKw_nn (h : RsOk V) : 0 ≤ curMaxEssChgKw F V E p := by
  unfold curMaxEssChgKw essCapLimChgKw
  refine le_min ?_ h.essMax
  split
  · exact le_refl _
  · exact le_max_right _ _

theorem getD_nn {l : List K} (h : ∀ a ∈ l, 0 ≤ a) (k : Nat) : 0 ≤ l.getD k 0 := by
  rw [List.getD_eq_getElem?_getD]
  cases hq : l[k]? with
  | none => exact le_refl _
  | some x => exact h x (List.mem_of_getElem? hq)

theorem getLast_nn {l : List K} (h : ∀ a ∈ l, 0 ≤ a) : 0 ≤ l.getLast?.getD 0 := by
  cases hq : l.getLast? with
  | none => exact le_refl _
  | some x => exact h x (List.mem_of_getLast? hq)

theorem lookupM1_nn {arr vals : List K} (h : ∀ a ∈ vals, 0 ≤ a) (x : K) : 0 ≤ lookupM1 arr vals x := by
  unfold lookupM1
  simp only
  split
  · exact getLast_nn h
  · exact getD_nn h _

theorem mcElecInLimKw_nn (h : RsOk V) : 0 ≤ mcElecInLimKw F V E p := by
  unfold mcElecInLimKw
  split
  · split
    · exact le_min (getLast_nn h.outTable.nonneg) (TableOk.max_nonneg h.outTable)
    · exact le_min (lookupM1_nn h.outTable.nonneg _) (TableOk.max_nonneg h.outTable)
  · exact le_refl _

theorem rsMcElecInLimKw_eq (h : RsOk V) : rsMcElecInLimKw F V E p = .ok (mcElecInLimKw F V E p) := by
  have hlen : 0 < V.mcKwOutArray.length := by have := h.outTable.two; omega
  unfold rsMcElecInLimKw mcElecInLimKw
  rw [rsArrMax_eq, rsLast_getD hlen]
  change (if 0 < curMaxElecKw F V E p then _ else _) = _
  by_cases h1 : 0 < curMaxElecKw F V E p
  · rw [if_pos h1, if_pos h1]
    change (if curMaxAvailElecKw F V E p = _ then _ else _) = _
    by_cases h2 : curMaxAvailElecKw F V E p = listMax V.mcKwInArray
    · rw [if_pos h2, if_pos h2]; rfl
    · rw [if_neg h2, if_neg h2]
      have hx : 0 ≤ curMaxAvailElecKw F V E p := le_min h1.le h.elecIn
      change (do return min (← rsLookup V.mcKwInArray V.mcKwOutArray
        (min (listMax V.mcKwInArray * rsBelow) (curMaxAvailElecKw F V E p))) V.mcMaxKw) = _
      by_cases hm : listMax V.mcKwInArray = 0
      · have hM : V.mcMaxKw = 0 := by
          by_contra q; exact h.inPos q hm
        have hz := h.inTable
        rw [hm] at hz
        have : rsFirstGrtr V.mcKwInArray (min (listMax V.mcKwInArray * rsBelow) (curMaxAvailElecKw F V E p))
            = some (V.mcKwInArray.length - 2 + 1) :=
          rsFirstGrtr_zero hz (by rw [hm, zero_mul]; exact le_min (le_refl _) hx)
        unfold rsLookup rsBefore
        rw [this]
        simp only
        have h2 := hz.two
        rw [rsIdx_getD (by rw [← h.lenIn]; omega), hM]
        change Except.ok (min (V.mcKwOutArray.getD _ 0) 0) = _
        rw [min_eq_right (getD_nn h.outTable.nonneg _), min_eq_right (lookupM1_nn h.outTable.nonneg _)]
      · have hm' : 0 < listMax V.mcKwInArray := lt_of_le_of_ne (TableOk.max_nonneg h.inTable) (Ne.symm hm)
        rw [rsLookup_eq h.inTable hm' hx h.lenIn.symm]
        rfl
  · rw [if_neg h1, if_neg h1]

theorem rsCurMaxMcKwOut_eq : rsCurMaxMcKwOut V E p (mcElecInLimKw F V E p) = curMaxMcKwOut F V E p := rfl

theorem curMaxMcKwOut_nn (h : RsOk V) (hE : RsStepOk E p) : 0 ≤ curMaxMcKwOut F V E p ∧
    (V.mcMaxKw = 0 → curMaxMcKwOut F V E p = 0) := by
  have hM := TableOk.max_nonneg h.outTable
  have h1 : 0 ≤ mcTransiLimKw V E p :=
    add_nonneg (pabs_nonneg' _) (mul_nonneg (div_nonneg hM h.mcTime) hE.dt)
  have h2 : 0 ≤ (if V.stopStart = true then 0 else 1) * V.mcMaxKw := by
    split
    · simp
    · simpa using hM
  have h3 : 0 ≤ min (min (mcElecInLimKw F V E p) (mcTransiLimKw V E p)) ((if V.stopStart = true then 0 else 1) * V.mcMaxKw) :=
    le_min (le_min (mcElecInLimKw_nn h) h1) h2
  refine ⟨h3.trans (le_max_left _ _), fun h0 => ?_⟩
  unfold curMaxMcKwOut
  rw [h0] at h3 ⊢
  rw [mul_zero] at h3 ⊢
  rw [neg_zero, max_eq_left h3]
  exact le_antisymm (min_le_right _ _) h3

theorem pos_of_ne {m : K} (h : 0 ≤ m) (h' : m ≠ 0) : 0 < m := lt_of_le_of_ne h (Ne.symm h')

theorem rsCurMaxMcElecKwIn_eq (h : RsOk V) (hE : RsStepOk E p) :
    rsCurMaxMcElecKwIn V (curMaxMcKwOut F V E p) = .ok (curMaxMcElecKwIn F V E p) := by
  obtain ⟨h1, h2⟩ := curMaxMcKwOut_nn (F := F) h hE
  have hlen : 0 < V.mcFullEffArray.length := by rw [h.lenEff]; have := h.outTable.two; omega
  unfold rsCurMaxMcElecKwIn curMaxMcElecKwIn
  simp only
  by_cases c1 : curMaxMcKwOut F V E p = 0
  · rw [if_pos c1, if_pos c1]
  · rw [if_neg c1, if_neg c1]
    have hM : 0 < V.mcMaxKw := pos_of_ne (TableOk.max_nonneg h.outTable) fun q => c1 (h2 q)
    rw [rsLast_getD hlen, rsLookup1_eq h.outTable hM h1 h.lenEff]
    split <;> rfl

theorem rsCurMaxMechMcKwIn_eq (h : RsOk V) (hE : RsStepOk E p) :
    rsCurMaxMechMcKwIn F V E p = .ok (curMaxMechMcKwIn F V E p) := by
  have hlen : 0 < V.mcFullEffArray.length := by rw [h.lenEff]; have := h.outTable.two; omega
  have hc := curMaxEssChgKw_nn (F := F) (E := E) (p := p) h
  unfold rsCurMaxMechMcKwIn curMaxMechMcKwIn
  rw [rsCurMaxEssChgKw_eq, rsLast_getD hlen, hE.road]
  simp only [sub_zero]
  by_cases c1 : curMaxEssChgKw F V E p = 0
  · rw [if_pos c1, if_pos c1]
  · rw [if_neg c1, if_neg c1]
    by_cases c2 : V.mcMaxKw = curMaxEssChgKw F V E p
    · rw [if_pos c2, if_pos c2]; rfl
    · rw [if_neg c2, if_neg c2]
      by_cases hM : V.mcMaxKw = 0
      · have hz := h.outTable
        rw [hM] at hz
        have : rsFirstGrtr V.mcKwOutArray (min (V.mcMaxKw * rsBelow) (curMaxEssChgKw F V E p))
            = some (V.mcKwOutArray.length - 2 + 1) :=
          rsFirstGrtr_zero hz (by rw [hM, zero_mul]; exact le_min (le_refl _) hc)
        unfold rsLookup10 rsBefore0
        rw [this]
        simp only
        have h2 := hz.two
        rw [rsIdx_getD (by rw [h.lenEff]; omega), hM]
        change Except.ok (min 0 (_ / V.mcFullEffArray.getD _ 0)) = _
        rw [min_eq_left (div_nonneg hc (getD_nn h.effNonneg _))]
        unfold lookupMax1
        rw [min_eq_left (div_nonneg hc (getD_nn h.effNonneg _))]
      · rw [rsLookup10_eq h.outTable (pos_of_ne (TableOk.max_nonneg h.outTable) hM) hc h.lenEff]
        rfl

theorem rsCurMaxTransKwOut_eq (m : Misc K) :
    rsCurMaxTransKwOut F V P E p m (curMaxMcKwOut F V E p) = curMaxTransKwOut F V P E p m := rfl

theorem rsSetCompLims_eq (h : RsOk V) (hE : RsStepOk E p) (m : Misc K) :
    rsSetCompLims F V P E p m = .ok (setCompLims F V P E p m) := by
  unfold rsSetCompLims
  rw [rsMcElecInLimKw_eq h]
  simp only [bind, Except.bind, rsCurMaxMcKwOut_eq, rsCurMaxMcElecKwIn_eq h hE, rsCurMaxMechMcKwIn_eq h hE, pure,
    Except.pure]
  unfold setCompLims rsEssLimMcRegenPercKw
  rw [rsEssCapLimChgKw_eq, rsCurMaxEssChgKw_eq, rsCurMaxTransKwOut_eq]
  rfl

theorem rsPowerAt_eq (L : Lims K) (v : K) : rsPowerAt F V P E p L v = powerAt F V P E p L v := by
  have e1 : P.aGrav * F.sinAtan (E.gradeOf v) * V.vehKg * (p.ach.mpsAch + v) / 2 / 1000
      = ascentKw F V P (E.gradeOf v) p.ach.mpsAch v := by unfold ascentKw; ring
  have e2 : 1 / 2 * V.wheelInertiaKgM2 * V.numWheels
      * (v / V.wheelRadiusM * (v / V.wheelRadiusM) - p.ach.mpsAch / V.wheelRadiusM * (p.ach.mpsAch / V.wheelRadiusM))
        / E.dt / 1000 = tireInertiaKw V E.dt p.ach.mpsAch v := by unfold tireInertiaKw; ring
  unfold rsPowerAt powerAt
  simp only [e1, e2]
  simp only [decide_eq_true_eq]
  rfl

theorem rsSetAchSpeed_eq (hE : RsStepOk E p) (L : Lims K) (pw : Pow K) (st : Stale K) :
    rsSetAchSpeed F V P E p L pw st = setAchSpeed F V P E p L pw st := by
  obtain ⟨h1, h2⟩ := rsGradeLoop_eq (F := F) (V := V) (P := P) (E := E) p.ach.mpsAch L.curMaxTransKwOut
    (st.newtonIters, st.mpsAch) hE.grade
  unfold rsSetAchSpeed setAchSpeed
  simp only [h1, h2, if_true, rsPowerAt_eq, mul_one, one_div, div_eq_mul_inv, one_mul]

theorem sys_of_not (h : RsOk V) (hs : V.noElecSys = false) : V.essMaxKwh ≠ 0 ∧ 0 < V.mcMaxKw := by
  have := h.noSys
  rw [hs] at this
  simp only [Bool.false_eq, Bool.or_eq_false_iff, decide_eq_false_iff_not] at this
  exact ⟨this.1.1, pos_of_ne (TableOk.max_nonneg h.outTable) this.2⟩

theorem rsRegenBuffSoc_eq (h : RsOk V) : rsRegenBuffSoc V E = regenBuffSoc V E := by
  unfold rsRegenBuffSoc regenBuffSoc rsMcPeakEff
  rw [rsArrMax_eq, ← h.peak]

theorem rsEssRegenBuffDischgKw_eq (h : RsOk V) (s : K) (L : Lims K) :
    rsEssRegenBuffDischgKw V E s L = essRegenBuffDischgKw V E s L := by
  unfold rsEssRegenBuffDischgKw essRegenBuffDischgKw
  rw [rsRegenBuffSoc_eq h]
  cases V.noElecSys <;> cases V.chargingOn <;> simp

theorem rsMaxEssRegenBuffChgKw_eq (h : RsOk V) (s : K) (L : Lims K) :
    rsMaxEssRegenBuffChgKw V E s L = maxEssRegenBuffChgKw V E s L := by
  unfold rsMaxEssRegenBuffChgKw maxEssRegenBuffChgKw
  rw [rsRegenBuffSoc_eq h]
  cases V.noElecSys <;> cases V.chargingOn <;> simp

theorem rsAccelBuffSoc_eq (h : RsOk V) : rsAccelBuffSoc V E = accelBuffSoc V E := by
  unfold rsAccelBuffSoc accelBuffSoc
  cases hs : V.noElecSys
  · simp only [mul_div_assoc, div_self (sys_of_not h hs).1, mul_one]
  · rfl

theorem rsEssAccelBuffChgKw_eq (h : RsOk V) (s : K) : rsEssAccelBuffChgKw V E s = essAccelBuffChgKw V E s := by
  unfold rsEssAccelBuffChgKw essAccelBuffChgKw
  rw [rsAccelBuffSoc_eq h]

theorem rsMaxEssAccellBuffDischgKw_eq (h : RsOk V) (s : K) (L : Lims K) :
    rsMaxEssAccellBuffDischgKw V E s L = maxEssAccellBuffDischgKw V E s L := by
  unfold rsMaxEssAccellBuffDischgKw maxEssAccellBuffDischgKw
  rw [rsAccelBuffSoc_eq h]

theorem rsEssAccelRegenDischgKw_eq (h : RsOk V) (s : K) (L : Lims K) :
    rsEssAccelRegenDischgKw V E s L = essAccelRegenDischgKw V E s L := by
  unfold rsEssAccelRegenDischgKw essAccelRegenDischgKw
  rw [rsAccelBuffSoc_eq h, rsRegenBuffSoc_eq h, rsEssRegenBuffDischgKw_eq h, rsEssAccelBuffChgKw_eq h]

theorem rsMaxFcEffKw_eq (h : RsOk V) : rsMaxFcEffKw V = .ok V.maxFcEffKw := by
  have hl : 0 < V.fcEffArray.length := by rw [h.fcLen]; have := h.fcTwo; omega
  have hne : V.fcEffArray ≠ [] := List.ne_nil_of_length_pos hl
  have hlt : argmaxIdx V.fcEffArray < V.fcEffArray.length :=
    List.findIdx_lt_length.2 ⟨listMax V.fcEffArray, listMax_mem hne, by simp⟩
  have e : V.fcEffArray.findIdx? (fun x => decide (x = listMax V.fcEffArray)) = some (argmaxIdx V.fcEffArray) := by
    rw [List.findIdx?_eq_some_iff_getElem]
    refine ⟨hlt, ?_, fun j hj => ?_⟩
    · have := List.findIdx_getElem (w := hlt)
      simp only [decide_eq_true_eq] at this ⊢
      exact le_antisymm (le_listMax (List.getElem_mem _)) this
    · have := List.not_of_lt_findIdx hj
      simp only [decide_eq_true_eq, decide_eq_false_iff_not, Bool.not_eq_true] at this ⊢
      intro q
      exact this q.ge
  unfold rsMaxFcEffKw rsFirstEq
  rw [rsArrMax_eq, if_neg (by omega), e]
  simp only [Option.getD_some]
  rw [rsIdx_getD (by rw [← h.fcLen]; exact hlt), ← h.best]

theorem rsMcElecInKwForMaxFcEff_eq (h : RsOk V) (pw : Pow K) :
    rsMcElecInKwForMaxFcEff V pw V.maxFcEffKw (pabs (pw.transKwOutAch - V.maxFcEffKw)) = .ok (mcElecInKwForMaxFcEff V pw) := by
  unfold rsMcElecInKwForMaxFcEff mcElecInKwForMaxFcEff
  cases hs : V.noElecSys
  · have hM := (sys_of_not h hs).2
    have h2 := h.outTable.two
    rw [rsLast_getD (by rw [h.lenEff]; omega), rsLast_getD (by rw [h.lenIn]; omega),
      rsLookup1_eq h.outTable hM (pabs_nonneg' _) h.lenEff, rsLookup0_eq h.outTable hM (pabs_nonneg' _) h.lenIn]
    simp only [Bool.false_eq_true, if_false]
    split_ifs <;> rfl
  · rfl

theorem rsElecKwReq4ae_eq (h : RsOk V) (pw : Pow K) : rsElecKwReq4ae V E pw = .ok (elecKwReq4ae V E pw) := by
  unfold rsElecKwReq4ae elecKwReq4ae
  cases hs : V.noElecSys
  · have hM := (sys_of_not h hs).2
    have h2 := h.outTable.two
    simp only [Bool.false_eq_true, if_false]
    by_cases c : 0 < pw.transKwInAch
    · rw [rsLast_getD (by rw [h.lenEff]; omega), rsLookup1_eq h.outTable hM c.le h.lenEff]
      simp only [c, if_true]
      split_ifs <;> rfl
    · simp only [c, if_false]
  · rfl

theorem rsCanPwrAllElec_eq (h : RsOk V) (s : K) (L : Lims K) (pw : Pow K) :
    rsCanPwrAllElec V E s L pw (elecKwReq4ae V E pw) = canPwrAllElec V E s L pw := by
  unfold rsCanPwrAllElec canPwrAllElec
  rw [rsAccelBuffSoc_eq h]

theorem rsDesired_eq (h : RsOk V) (s : K) (L : Lims K) (pw : Pow K) :
    rsDesiredEssKwOutForAe V E s L pw (canPwrAllElec V E s L pw) = desiredEssKwOutForAe V E s L pw := by
  unfold rsDesiredEssKwOutForAe desiredEssKwOutForAe
  rw [rsAccelBuffSoc_eq h, rsRegenBuffSoc_eq h, rsEssRegenBuffDischgKw_eq h, rsEssAccelBuffChgKw_eq h,
    rsEssAccelRegenDischgKw_eq h]

theorem rsEssAeKwOut_eq (h : RsOk V) (s : K) (L : Lims K) (pw : Pow K) :
    rsEssAeKwOut V E s L pw (canPwrAllElec V E s L pw) (desiredEssKwOutForAe V E s L pw) = essAeKwOut V E s L pw := by
  unfold rsEssAeKwOut essAeKwOut
  rw [rsMaxEssRegenBuffChgKw_eq h]
  simp only [max_assoc]

theorem rsSetHyb_eq (h : RsOk V) (L : Lims K) (pw : Pow K) : rsSetHyb V E p L pw = .ok (setHyb V E p L pw) := by
  unfold rsSetHyb
  simp only [rsMaxFcEffKw_eq h, bind, Except.bind, rsMcElecInKwForMaxFcEff_eq h, rsElecKwReq4ae_eq h, pure, Except.pure,
    rsCanPwrAllElec_eq h, rsDesired_eq h, rsEssAeKwOut_eq h, rsRegenBuffSoc_eq h, rsEssRegenBuffDischgKw_eq h,
    rsMaxEssRegenBuffChgKw_eq h, rsAccelBuffSoc_eq h, rsEssAccelBuffChgKw_eq h, rsMaxEssAccellBuffDischgKw_eq h,
    rsEssAccelRegenDischgKw_eq h]
  rfl

theorem rsSetForced_eq (h : RsOk V) (pw : Pow K) (hy : Hyb K) : rsSetForced V E pw hy = .ok (setForced V E pw hy) := by
  unfold rsSetForced setForced fcForcedOn
  simp only [rsMaxFcEffKw_eq h, bind, Except.bind, pure, Except.pure, Except.ok.injEq]
  by_cases c1 : 0 < hy.prevFcTimeOn <;> by_cases c2 : hy.prevFcTimeOn < V.minFcTimeOn - E.dt <;>
    cases hy.canPwrAllElec <;> simp [c1, c2]

theorem rsEssKwIfFcReq_eq (L : Lims K) (h : Hyb K) :
    rsEssKwIfFcReq V E L h (essDesiredKw4fcEff V E h) = essKwIfFcReq V E L h := by
  unfold rsEssKwIfFcReq essKwIfFcReq
  simp only [← min_assoc, neg_mul, one_mul]
  split_ifs <;> rfl

theorem rsErKwIfFcReq_eq (L : Lims K) (h : Hyb K) :
    rsErKwIfFcReq E L (essKwIfFcReq V E L h) = erKwIfFcReq V E L h := by
  unfold rsErKwIfFcReq erKwIfFcReq
  simp only [← min_assoc]

theorem inPos (h : RsOk V) (hM : V.mcMaxKw ≠ 0) : 0 < listMax V.mcKwInArray :=
  pos_of_ne (TableOk.max_nonneg h.inTable) (h.inPos hM)

theorem rsMcKwIfFcReq_eq (h : RsOk V) (L : Lims K) (hy : Hyb K) :
    rsMcKwIfFcReq V (mcElecKwInIfFcReq V E L hy) = .ok (mcKwIfFcReq V E L hy) := by
  unfold rsMcKwIfFcReq mcKwIfFcReq
  simp only
  generalize mcElecKwInIfFcReq V E L hy = x
  cases hs : V.noElecSys
  · have hM := inPos h (sys_of_not h hs).2.ne'
    have h2 := h.outTable.two
    have hl : V.mcFullEffArray.length = V.mcKwInArray.length := h.lenEff.trans h.lenIn.symm
    simp only [Bool.false_or, decide_eq_true_eq, Bool.false_eq_true, if_false, mul_neg, mul_one]
    by_cases c1 : x = 0
    · rw [if_pos c1, if_pos c1]
    · rw [if_neg c1, if_neg c1, rsArrMax_eq, rsLast_getD (by rw [h.lenEff]; omega)]
      by_cases c2 : 0 < x
      · rw [if_pos c2, if_pos c2, rsLookup1_eq h.inTable hM c2.le hl]
        split_ifs <;> rfl
      · rw [if_neg c2, if_neg c2, rsLookup1_eq h.inTable hM (by linarith [not_lt.1 c2]) hl]
        split_ifs <;> rfl
  · rfl

theorem rsMcElecKwInAch_eq (h : RsOk V) {m : K} (h0 : V.mcMaxKw = 0 → m = 0) :
    rsMcElecKwInAch V m = .ok (mcElecKwInAch V m) := by
  unfold rsMcElecKwInAch mcElecKwInAch
  by_cases c1 : m = 0
  · rw [if_pos c1, if_pos c1]
  · rw [if_neg c1, if_neg c1]
    have hM : V.mcMaxKw ≠ 0 := fun q => c1 (h0 q)
    have hMp := pos_of_ne (TableOk.max_nonneg h.outTable) hM
    have h2 := h.outTable.two
    have hl : V.mcFullEffArray.length = V.mcKwInArray.length := h.lenEff.trans h.lenIn.symm
    rw [rsArrMax_eq, rsLast_getD (by rw [h.lenEff]; omega)]
    simp only [mul_neg, mul_one]
    by_cases c2 : m < 0
    · rw [if_pos c2, if_pos c2, rsLookup1_eq h.inTable (inPos h hM) (by linarith) hl]
      split_ifs <;> rfl
    · rw [if_neg c2, if_neg c2, rsLookup1_eq h.outTable hMp (not_lt.1 c2) h.lenEff]
      split_ifs <;> rfl

theorem rsMcMech_eq (L : Lims K) (pw : Pow K) (hy : Hyb K) (f : Forced K) :
    rsMcMechKwOutAch V L pw hy f (mcKwIfFcReq V E L hy) = mcMechKwOutAch V E L pw hy f := rfl

theorem rsRoadway_eq (hE : RsStepOk E p) (L : Lims K) (hy : Hyb K) (x : K) :
    rsRoadwayChgKwOutAch V E hy x (erKwIfFcReq V E L hy) = roadwayChgKwOutAch V E L hy x := by
  unfold rsRoadwayChgKwOutAch roadwayChgKwOutAch
  simp only [hE.road, if_true]

theorem rsEssKwOutAch_eq (M : Misc K) (L : Lims K) (pw : Pow K) (hy : Hyb K) (x r : K) :
    rsEssKwOutAch V E M L pw hy x r (x + E.auxIn - L.curMaxFcKwOut - r) (essDesiredKw4fcEff V E hy)
      = essKwOutAch V E M L pw hy x r := by
  unfold rsEssKwOutAch essKwOutAch
  have : ∀ a b c d e : K, min d (min e (max a (max b c))) = min (min (max (max a b) c) d) e := by
    intro a b c d e
    rw [max_assoc, min_comm e, ← min_assoc, min_comm d]
  simp only [this]

theorem rsSetDec_eq (h : RsOk V) (hE : RsStepOk E p) (M : Misc K) (L : Lims K) (pw : Pow K) (hy : Hyb K) (f : Forced K)
    (st : Stale K) : rsSetDec F V E p M L pw hy f st = .ok (setDec F V E p M L pw hy f st) := by
  have hd : rsEssDesiredKw4fcEff V E hy = essDesiredKw4fcEff V E hy := rfl
  have hm : V.mcMaxKw = 0 → mcMechKwOutAch V E L pw hy f = 0 := fun q => by
    unfold mcMechKwOutAch
    simp only [if_pos q]
  unfold rsSetDec
  simp only [hd, rsEssKwIfFcReq_eq, rsErKwIfFcReq_eq]
  rw [show essKwIfFcReq V E L hy + erKwIfFcReq V E L hy - E.auxIn = mcElecKwInIfFcReq V E L hy from rfl,
    rsMcKwIfFcReq_eq h]
  simp only [bind, Except.bind, rsMcMech_eq, rsMcElecKwInAch_eq h hm, pure, Except.pure, rsRoadway_eq hE,
    rsEssKwOutAch_eq, Except.ok.injEq]
  unfold setDec socOf
  congr 1
  cases hy.canPwrAllElec <;> cases f.fcForcedOn <;> by_cases c : st.fcKwOutAch = 0 <;> simp [c]

theorem curMaxFcKwOut_nn (h : RsOk V) (hE : RsStepOk E p) : 0 ≤ curMaxFcKwOut V E p :=
  le_min h.fcMax (add_nonneg hE.fc (mul_nonneg (div_nonneg h.fcMax h.fcTime) hE.dt))

/-- The Rust core's lookup in the engine's curve is the python lookup in the curve with its last entry repeated. -/
theorem rsFcKwInAch_eq (h : RsOk V) {x : K} (hx : 0 ≤ x) :
    rsFcKwInAch V x = .ok (fcKwInAch (lastEffRepeated V) x) := by
  unfold rsFcKwInAch fcKwInAch
  by_cases c : x = 0
  · rw [if_pos c, if_pos c]
  · rw [if_neg c, if_neg c]
    have hcut : 0 ≤ min x V.fcMaxKw := le_min hx h.fcMax
    have h2 := h.fcTwo
    have hlen := h.fcLen
    have e : rsLookup V.fcKwOutArray V.fcEffArray (min x V.fcMaxKw) = .ok (fcEffAt (lastEffRepeated V) x) := by
      unfold rsLookup rsBefore fcEffAt lookupM1
      change _ = Except.ok (if argmaxGt V.fcKwOutArray (min x V.fcMaxKw) = 0 then _
        else (lastEffRepeated V).fcEffArray.getD (argmaxGt V.fcKwOutArray (min x V.fcMaxKw) - 1) 0)
      cases hq : V.fcKwOutArray.findIdx? (fun a => decide (min x V.fcMaxKw < a)) with
      | none =>
        have h0 : argmaxGt V.fcKwOutArray (min x V.fcMaxKw) = 0 := by
          rcases argmaxGt_spec V.fcKwOutArray (min x V.fcMaxKw) with ⟨-, q⟩ | ⟨⟨a, ha, q⟩, -⟩
          · exact q
          · have := List.findIdx?_eq_none_iff.1 hq a (List.mem_of_getElem? ha)
            simp only [decide_eq_false_iff_not] at this
            exact absurd q this
        have h1 : rsFirstGrtr V.fcKwOutArray (min x V.fcMaxKw) = some (V.fcKwOutArray.length - 2 + 1) := by
          unfold rsFirstGrtr
          rw [if_neg (by omega), hq]
          simp only [Option.getD_none, Option.some.injEq]
          omega
        rw [h1, h0, if_pos rfl]
        simp only
        rw [rsIdx_getD (by omega)]
        congr 1
        unfold lastEffRepeated
        simp only
        rw [List.getLast?_eq_getElem?, List.length_set, List.getElem?_set_self (by omega)]
        rw [Option.getD_some, hlen]
      | some k =>
        obtain ⟨hlt, h1, -⟩ := List.findIdx?_eq_some_iff_getElem.1 hq
        have h1 := of_decide_eq_true h1
        rw [rsFirstGrtr_some hq, argmaxGt_of_find hq]
        cases k with
        | zero =>
          have hh := h.fcHead
          rw [List.getElem?_eq_getElem hlt] at hh
          simp only [Option.some.injEq] at hh
          rw [hh] at h1
          exact absurd h1 (not_lt.2 hcut)
        | succ k =>
          simp only [Nat.add_sub_cancel, if_neg (Nat.succ_ne_zero k)]
          rw [rsIdx_getD (by omega)]
          congr 1
          unfold lastEffRepeated
          simp only
          rw [List.getD_eq_getElem?_getD, List.getD_eq_getElem?_getD, List.getElem?_set_ne (by omega)]
    rw [e]
    rfl

theorem rsSetFcPower_eq (h : RsOk V) (hE : RsStepOk E p) (M m : Misc K) (pw : Pow K) (d : Dec K) :
    rsSetFcPower V E M (setCompLims F V P E p m) pw d
      = .ok (setFcPower (lastEffRepeated V) E M (setCompLims F V P E p m) pw d) := by
  have hn : 0 ≤ fcKwOutAch V E M (setCompLims F V P E p m) pw d := by
    have hc := curMaxFcKwOut_nn h hE
    unfold fcKwOutAch
    split_ifs
    · exact le_refl _
    all_goals exact le_min hc (le_max_left _ _)
  have e : rsFcKwOutAch V E M (setCompLims F V P E p m) pw d = fcKwOutAch V E M (setCompLims F V P E p m) pw d := rfl
  unfold rsSetFcPower
  simp only [e, rsFcKwInAch_eq h hn, bind, Except.bind, pure, Except.pure, Except.ok.injEq]
  unfold setFcPower
  have e' : fcKwOutAch (lastEffRepeated V) E M (setCompLims F V P E p m) pw d
    = fcKwOutAch V E M (setCompLims F V P E p m) pw d := rfl
  simp only [e']
  congr 1
  · change _ = if _ then 0 else if V.fcMaxKw = 0 then 0 else _ / V.fcMaxKw
    by_cases c : fcKwOutAch V E M (setCompLims F V P E p m) pw d = 0
    · rw [c]; simp
    · rw [if_neg c]
  · rw [mul_one_div]

/-- **C96 (step).** One step of the Rust core computes, in every array, what one step of the python code computes, except
that an engine at full power is charged with the efficiency one entry below the end of its curve: the Rust step of a vehicle
is the python step of the vehicle with the last entry of the efficiency curve replaced by the one before it. -/
theorem C96_step (h : RsOk V) (hE : RsStepOk E p) (st : Stale K) :
    rsSolveStep F V P E p st = .ok (solveStep F (lastEffRepeated V) P E p st) := by
  unfold rsSolveStep
  simp only [rsSetMisc_eq, rsSetCompLims_eq h hE, bind, Except.bind, rsPowerAt_eq, rsSetAchSpeed_eq hE, rsSetHyb_eq h,
    rsSetForced_eq h, rsSetDec_eq h hE, rsSetFcPower_eq h hE, pure, Except.pure]
  have e1 : setMisc (lastEffRepeated V) E p = setMisc V E p := rfl
  have e2 : ∀ m, setCompLims F (lastEffRepeated V) P E p m = setCompLims F V P E p m := fun _ => rfl
  have e3 : ∀ L v, powerAt F (lastEffRepeated V) P E p L v = powerAt F V P E p L v := fun _ _ => rfl
  have e4 : ∀ L pw, setHyb (lastEffRepeated V) E p L pw = setHyb V E p L pw := fun _ _ => rfl
  have e5 : ∀ pw h, setForced (lastEffRepeated V) E pw h = setForced V E pw h := fun _ _ => rfl
  have e6 : ∀ M L pw h f, setDec F (lastEffRepeated V) E p M L pw h f st = setDec F V E p M L pw h f st :=
    fun _ _ _ _ _ => rfl
  have e7 : ∀ v0 m g r, gradeLoop F (lastEffRepeated V) P E v0 m 3 g r = gradeLoop F V P E v0 m 3 g r :=
    fun _ _ _ _ => rfl
  have e8 : ∀ L pw, setAchSpeed F (lastEffRepeated V) P E p L pw st = setAchSpeed F V P E p L pw st := by
    intro L pw
    unfold setAchSpeed
    simp only [e3, e7]
  unfold solveStep setPowerCalcs
  simp only [e1, e2, e3, e4, e5, e6, e8]

/-- The lookup in the curve with its last entry repeated is that in the curve itself, except above all the powers of the
table, where it is the entry before the last. -/
theorem fcEffAt_lastEffRepeated (h : RsOk V) {x : K} (hx : 0 ≤ x) :
    fcEffAt (lastEffRepeated V) x =
      if ∃ a ∈ V.fcKwOutArray, min x V.fcMaxKw < a then fcEffAt V x else V.fcEffArray.getD (V.fcEffArray.length - 2) 0 := by
  have h2 := h.fcTwo
  have hlen := h.fcLen
  have hcut : 0 ≤ min x V.fcMaxKw := le_min hx h.fcMax
  unfold fcEffAt lookupM1
  change (if argmaxGt V.fcKwOutArray (min x V.fcMaxKw) = 0 then _
      else (lastEffRepeated V).fcEffArray.getD (argmaxGt V.fcKwOutArray (min x V.fcMaxKw) - 1) 0) = _
  rcases _root_.Fastsim.argmaxGt_spec V.fcKwOutArray (min x V.fcMaxKw) with ⟨hall, q⟩ | ⟨⟨a, ha, q⟩, -⟩
  · have hex : ¬ ∃ a ∈ V.fcKwOutArray, min x V.fcMaxKw < a := by
      rintro ⟨a, ha, hlt⟩; exact absurd hlt (not_lt.2 (hall a ha))
    simp only [if_neg hex, if_pos q]
    unfold lastEffRepeated
    simp only
    rw [List.getLast?_eq_getElem?, List.length_set, List.getElem?_set_self (by omega), Option.getD_some]
  · have hlt := (List.getElem?_eq_some_iff.1 ha).1
    have c : argmaxGt V.fcKwOutArray (min x V.fcMaxKw) ≠ 0 := by
      intro c
      rw [c, h.fcHead] at ha
      cases ha
      exact absurd q (not_lt.2 hcut)
    have hex : ∃ a ∈ V.fcKwOutArray, min x V.fcMaxKw < a := ⟨a, List.mem_of_getElem? ha, q⟩
    simp only [if_neg c, if_pos hex]
    unfold lastEffRepeated
    simp only [List.getD_eq_getElem?_getD]
    rw [List.getElem?_set_ne (by omega)]

/-- The engine never runs backwards. -/
theorem solveStep_fc_nonneg (h : RsOk V) (hE : RsStepOk E p) (st : Stale K) :
    0 ≤ (solveStep F V P E p st).fc.fcKwOutAch := by
  have hc := curMaxFcKwOut_nn h hE
  unfold solveStep setFcPower
  simp only
  unfold fcKwOutAch
  split_ifs
  · exact le_refl _
  all_goals exact le_min hc (le_max_left _ _)

theorem solveStep_lastEffRepeated (st : Stale K) :
    solveStep F (lastEffRepeated V) P E p st =
      { solveStep F V P E p st with
        fc := { (solveStep F V P E p st).fc with
          fcKwInAch := fcKwInAch (lastEffRepeated V) (solveStep F V P E p st).fc.fcKwOutAch
          fsKwOutAch := fcKwInAch (lastEffRepeated V) (solveStep F V P E p st).fc.fcKwOutAch
          fsKwhOutAch := fcKwInAch (lastEffRepeated V) (solveStep F V P E p st).fc.fcKwOutAch * E.dt * (1 / 3600) } } := by
  have e1 : setMisc (lastEffRepeated V) E p = setMisc V E p := rfl
  have e2 : ∀ m, setCompLims F (lastEffRepeated V) P E p m = setCompLims F V P E p m := fun _ => rfl
  have e3 : ∀ L v, powerAt F (lastEffRepeated V) P E p L v = powerAt F V P E p L v := fun _ _ => rfl
  have e4 : ∀ L pw, setHyb (lastEffRepeated V) E p L pw = setHyb V E p L pw := fun _ _ => rfl
  have e5 : ∀ pw h, setForced (lastEffRepeated V) E pw h = setForced V E pw h := fun _ _ => rfl
  have e6 : ∀ M L pw h f, setDec F (lastEffRepeated V) E p M L pw h f st = setDec F V E p M L pw h f st :=
    fun _ _ _ _ _ => rfl
  have e7 : ∀ v0 m g r, gradeLoop F (lastEffRepeated V) P E v0 m 3 g r = gradeLoop F V P E v0 m 3 g r :=
    fun _ _ _ _ => rfl
  have e8 : ∀ L pw, setAchSpeed F (lastEffRepeated V) P E p L pw st = setAchSpeed F V P E p L pw st := by
    intro L pw
    unfold setAchSpeed
    simp only [e3, e7]
  have e9 : ∀ M L pw d, setFcPower (lastEffRepeated V) E M L pw d =
      { setFcPower V E M L pw d with
        fcKwInAch := fcKwInAch (lastEffRepeated V) (setFcPower V E M L pw d).fcKwOutAch
        fsKwOutAch := fcKwInAch (lastEffRepeated V) (setFcPower V E M L pw d).fcKwOutAch
        fsKwhOutAch := fcKwInAch (lastEffRepeated V) (setFcPower V E M L pw d).fcKwOutAch * E.dt * (1 / 3600) } :=
    fun _ _ _ _ => rfl
  unfold solveStep setPowerCalcs
  simp only [e1, e2, e3, e4, e5, e6, e8, e9]

/-- **C96 (drive).** The Rust step ends without error, and everything it records except the fuel - limits, powers, the speed
reached, every decision of the hybrid controller, battery power, state of charge, the output of the engine - is what the
python step records. -/
theorem C96_drive (h : RsOk V) (hE : RsStepOk E p) (st : Stale K) :
    ∃ fuel : K, rsSolveStep F V P E p st = .ok
      { solveStep F V P E p st with
        fc := { (solveStep F V P E p st).fc with
          fcKwInAch := fuel, fsKwOutAch := fuel, fsKwhOutAch := fuel * E.dt * (1 / 3600) } } :=
  ⟨_, by rw [C96_step h hE, solveStep_lastEffRepeated]⟩

/-- **C96 (same).** If the engine runs below the last power of its table, the two steps agree in the fuel as well. -/
theorem C96_same (h : RsOk V) (hE : RsStepOk E p) (st : Stale K)
    (hb : ∃ a ∈ V.fcKwOutArray, min (solveStep F V P E p st).fc.fcKwOutAch V.fcMaxKw < a) :
    rsSolveStep F V P E p st = .ok (solveStep F V P E p st) := by
  rw [C96_step h hE, solveStep_lastEffRepeated]
  have e : fcKwInAch (lastEffRepeated V) (solveStep F V P E p st).fc.fcKwOutAch =
      fcKwInAch V (solveStep F V P E p st).fc.fcKwOutAch := by
    unfold fcKwInAch
    rw [fcEffAt_lastEffRepeated h (solveStep_fc_nonneg h hE st), if_pos hb]
  rw [e]
  rfl

/-- **C96 (full power).** With the engine at the end of its table the python step divides the output by the last entry of the
efficiency curve, the Rust step by the one before it: the same fuel only if the two entries are the same. -/
theorem C96_full (h : RsOk V) (hE : RsStepOk E p) (st : Stale K) {out eLast ePrev : K}
    (ho : (solveStep F V P E p st).fc.fcKwOutAch = out) (h0 : out ≠ 0)
    (hb : ∀ a ∈ V.fcKwOutArray, a ≤ min out V.fcMaxKw)
    (hl : V.fcEffArray[V.fcEffArray.length - 1]? = some eLast) (hp : V.fcEffArray[V.fcEffArray.length - 2]? = some ePrev)
    (hl0 : eLast ≠ 0) (hp0 : ePrev ≠ 0) :
    (solveStep F V P E p st).fc.fsKwOutAch = out / eLast ∧
    ∃ r, rsSolveStep F V P E p st = .ok r ∧ r.fc.fcKwOutAch = out ∧ r.fc.fsKwOutAch = out / ePrev ∧
      (rsSolveStep F V P E p st = .ok (solveStep F V P E p st) ↔ ePrev = eLast) := by
  have h1 : (solveStep F V P E p st).fc.fsKwOutAch = fcKwInAch V (solveStep F V P E p st).fc.fcKwOutAch := rfl
  have h2 : fcKwInAch V out = out / eLast := by
    unfold fcKwInAch fcEffAt lookupM1
    rw [if_neg h0]
    have q : argmaxGt V.fcKwOutArray (min out V.fcMaxKw) = 0 := by
      rcases _root_.Fastsim.argmaxGt_spec V.fcKwOutArray (min out V.fcMaxKw) with ⟨-, q⟩ | ⟨⟨a, ha, q⟩, -⟩
      · exact q
      · exact absurd q (not_lt.2 (hb a (List.mem_of_getElem? ha)))
    simp only [q, if_true, List.getLast?_eq_getElem?, hl, Option.getD_some]
    rw [if_pos hl0]
  have h3 : fcKwInAch (lastEffRepeated V) out = out / ePrev := by
    unfold fcKwInAch
    rw [if_neg h0, fcEffAt_lastEffRepeated h (by rw [← ho]; exact solveStep_fc_nonneg h hE st),
      if_neg (c := ∃ a ∈ V.fcKwOutArray, min out V.fcMaxKw < a)
        (by rintro ⟨a, ha, hlt⟩; exact absurd hlt (not_lt.2 (hb a ha))), List.getD_eq_getElem?_getD, hp,
      Option.getD_some, if_pos hp0]
  have h4 := C96_step (F := F) (P := P) h hE st
  rw [solveStep_lastEffRepeated, ho, h3] at h4
  refine ⟨by rw [h1, ho, h2], _, h4, ho, rfl, ?_⟩
  rw [h4, Except.ok.injEq]
  constructor
  · intro q
    have q' := congrArg (fun r => r.fc.fsKwOutAch) q
    simp only [h1, ho, h2] at q'
    field_simp at q'
    exact q'.symm
  · intro q
    rw [q, ← h2, ← ho]
    rfl

end Field

open Demo

/-- The demo vehicles satisfy the conditions. -/
theorem C96_vehicles : RsOk conv ∧ RsOk hev ∧ RsOk { bev with maxFcEffKw := 0 } ∧ RsOk h2 := by
  refine ⟨?_, ?_, ?_, ?_⟩ <;>
    exact ⟨⟨by decide, by decide +kernel, by decide +kernel, by decide +kernel, by decide +kernel⟩,
      ⟨by decide, by decide +kernel, by decide +kernel, by decide +kernel, by decide +kernel⟩, by decide +kernel,
      by decide +kernel, by decide +kernel, by decide +kernel, by decide +kernel, by decide +kernel, by decide +kernel,
      by decide +kernel, by decide +kernel, by decide +kernel, by decide +kernel, by decide +kernel, by decide +kernel,
      by decide +kernel, by decide +kernel⟩

/-- What a hard acceleration reads, and the row before it. -/
def flatOut : StepEnv ℚ :=
  { dt := 1, mps := 45 / 2, gradeOf := fun _ => 0, gradeEst := 0, auxIn := 1061119 / 518400, coast := false, roadKw := 0 }
/-- The row before the hard acceleration. -/
def flatOutBefore : Row ℚ :=
  { (Row.zero : Row ℚ) with
    ach := { (Row.zero : Row ℚ).ach with mpsAch := 20 }
    fc := { (Row.zero : Row ℚ).fc with fcKwOutAch := 90 } }

/-- At full power the python step burns 100/0.3 kW and the Rust step 100/0.35 kW, for the same 100 kW of engine output. -/
theorem C96_differs : RsStepOk flatOut flatOutBefore ∧
    (solveStep fns conv params.toStepParams flatOut flatOutBefore ⟨0, 0, 0⟩).fc.fsKwOutAch = 1000 / 3 ∧
    (match rsSolveStep fns conv params.toStepParams flatOut flatOutBefore ⟨0, 0, 0⟩ with
      | .ok r => decide (r.fc.fcKwOutAch = 100 ∧ r.fc.fsKwOutAch = 2000 / 7)
      | .error _ => false) = true := by
  refine ⟨⟨by decide +kernel, rfl, by decide +kernel, fun _ => rfl⟩, ?_⟩
  decide +kernel

end Fastsim.Props
