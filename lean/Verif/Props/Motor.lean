import Verif.Props.Latch

/-!
# C68: motor limits, C69: motor losses
-/

set_option linter.unusedSectionVars false

namespace Fastsim.Props
open Fastsim Spec

section Field
variable {K : Type*} [Field K] [LinearOrder K] [IsStrictOrderedRing K]
variable {F : Fns K} {H : Hooks K} {V : Veh K} {P : SimParams K}

/-- **C68 (available electricity).** The electric power available to the motor in a step is what the
battery can deliver, plus what the fuel cell can deliver for fuel-cell vehicles, minus the accessory
load. -/
theorem C68_available (hH : H.Local) {s : Sim K} (h : Reachable F H V P s) {i : Nat} {p r : Row K}
    {dt a : K} (hs : StepAt s i p r dt a) :
    r.lims.curMaxElecKw + a =
      r.lims.curEssMaxKwOut + if V.fcType = .h2fc then r.lims.curMaxFcKwOut else 0 := by
  obtain ⟨E, st, -, hroad, hE, rfl⟩ := StepAt.solve hH h hs
  show curMaxElecKw F V E p + a = curEssMaxKwOut F V E p + if V.fcType = .h2fc then curMaxFcKwOut V E p else 0
  unfold curMaxElecKw
  rw [hroad, hE]
  split <;> ring

/-- **C68 (rating and ramp).** The power the motor may deliver in a step never exceeds its rating, nor the
magnitude of its power one step before by more than the ramp `mc_max_kw / mc_sec_to_peak_pwr` allows; it
is nil for stop-start systems and when no electricity is available. -/
theorem C68_limit (hH : H.Local) (hmc : 0 ≤ V.mcMaxKw) (hsec : 0 ≤ V.mcSecToPeakPwr)
    {s : Sim K} (h : Reachable F H V P s) {i : Nat} {p r : Row K} {dt a : K} (hs : StepAt s i p r dt a)
    (hdt : 0 ≤ dt) :
    -V.mcMaxKw ≤ r.lims.curMaxMcKwOut ∧ r.lims.curMaxMcKwOut ≤ V.mcMaxKw ∧
    r.lims.curMaxMcKwOut ≤ |p.dec.mcMechKwOutAch| + V.mcMaxKw / V.mcSecToPeakPwr * dt ∧
    (V.stopStart = true → r.lims.curMaxMcKwOut ≤ 0) ∧
    (r.lims.curMaxElecKw ≤ 0 → r.lims.curMaxMcKwOut ≤ 0) := by
  obtain ⟨E, st, hE, -, -, rfl⟩ := StepAt.solve hH h hs
  subst hE
  show -V.mcMaxKw ≤ curMaxMcKwOut F V E p ∧ curMaxMcKwOut F V E p ≤ V.mcMaxKw ∧
    curMaxMcKwOut F V E p ≤ _ ∧ (_ → curMaxMcKwOut F V E p ≤ 0) ∧
    (curMaxElecKw F V E p ≤ 0 → curMaxMcKwOut F V E p ≤ 0)
  have hneg : -V.mcMaxKw ≤ 0 := neg_nonpos.2 hmc
  have habs : pabs p.dec.mcMechKwOutAch = |p.dec.mcMechKwOutAch| := by
    unfold pabs; split
    · rw [abs_of_neg (by assumption)]
    · rw [abs_of_nonneg (not_lt.1 (by assumption))]
  have hramp : 0 ≤ V.mcMaxKw / V.mcSecToPeakPwr * E.dt := mul_nonneg (div_nonneg hmc hsec) hdt
  unfold curMaxMcKwOut
  refine ⟨le_max_right _ _, max_le ?_ (hneg.trans hmc), max_le ?_ ?_, fun hss => max_le ?_ hneg,
    fun he => max_le ?_ hneg⟩
  · refine (min_le_right _ _).trans ?_
    split
    · rw [zero_mul]; exact hmc
    · rw [one_mul]
  · refine (min_le_left _ _).trans ((min_le_right _ _).trans ?_)
    unfold mcTransiLimKw
    rw [habs]
  · have := abs_nonneg p.dec.mcMechKwOutAch; linarith
  · refine (min_le_right _ _).trans ?_
    rw [if_pos hss, zero_mul]
  · refine (min_le_left _ _).trans ((min_le_left _ _).trans ?_)
    unfold mcElecInLimKw
    rw [if_neg (not_lt.2 he)]

/-- The motor map of a vehicle: as many electric as mechanical powers, electric powers in increasing order
from zero to the largest electric input (which is not tiny). -/
structure MotorMap (V : Veh K) : Prop where
  sorted : V.mcKwInArray.Pairwise (· < ·)
  start : V.mcKwInArray.head? = some 0
  top : V.mcKwInArray.getLast? = some V.mcMaxElecInKw
  large : 1 / 100 < V.mcMaxElecInKw
  sameLength : V.mcKwOutArray.length = V.mcKwInArray.length
  outs : ∀ x ∈ V.mcKwOutArray, 0 ≤ x

theorem listMax_sorted : ∀ (l : List K), l.Pairwise (· < ·) → listMax l = l.getLast?.getD 0
  | [], _ => rfl
  | [a], _ => rfl
  | a :: b :: l, h => by
    have h' := List.pairwise_cons.1 h
    have ih := listMax_sorted (b :: l) h'.2
    rw [listMax, ih, List.getLast?_cons_cons]
    · have hm : (b :: l).getLast?.getD 0 ∈ b :: l := by
        rw [List.getLast?_eq_some_getLast (by simp)]
        exact List.getLast_mem _
      exact max_eq_right (h'.1 _ hm).le
    · simp

/-- The entry found by `np.argmax(arr > x) - 1` is at most `x`, and there is one if the array starts at or
below `x` and ends above it. -/
theorem argmaxGt_spec {arr : List K} {x z : K} (h0 : arr.head? = some z) (hz : z ≤ x)
    (hx : ∃ y ∈ arr, x < y) :
    argmaxGt arr x ≠ 0 ∧ argmaxGt arr x < arr.length ∧ arr.getD (argmaxGt arr x - 1) 0 ≤ x := by
  have hf : ∃ k, List.findIdx? id (arr.map fun a => decide (x < a)) = some k := by
    rw [← Option.isSome_iff_exists, List.findIdx?_isSome, List.any_map, List.any_eq_true]
    obtain ⟨y, hy, hxy⟩ := hx
    exact ⟨y, hy, by simpa using hxy⟩
  obtain ⟨k, hk⟩ := hf
  have he : argmaxGt arr x = k := by
    unfold argmaxGt argmaxBool
    rw [hk]
  obtain ⟨hlt, hat, hbefore⟩ := List.findIdx?_eq_some_iff_getElem.1 hk
  rw [List.length_map] at hlt
  have hk0 : k ≠ 0 := by
    rintro rfl
    rw [List.getElem_map] at hat
    have : arr[0] = z := by
      rw [List.head?_eq_getElem?, List.getElem?_eq_getElem hlt] at h0
      exact Option.some.inj h0
    rw [this] at hat
    simp only [id_eq, decide_eq_true_eq] at hat
    exact absurd hat (not_lt.2 hz)
  rw [he]
  refine ⟨hk0, hlt, ?_⟩
  have := hbefore (k - 1) (by omega)
  rw [List.getElem_map] at this
  rw [List.getD_eq_getElem?_getD, List.getElem?_eq_getElem (by omega)]
  simpa using this

/-- **C68 (backed by the map).** Whenever the motor may deliver power in a step, some point of the motor
map delivers at least that much and takes no more electricity than is available in the step and than the
motor can take at all. -/
theorem C68_backed (hH : H.Local) (hm : MotorMap V) {s : Sim K} (h : Reachable F H V P s) {i : Nat}
    {p r : Row K} {dt a : K} (hs : StepAt s i p r dt a) (hmc : 0 ≤ V.mcMaxKw)
    (hpos : 0 < r.lims.curMaxMcKwOut) :
    ∃ k, k < V.mcKwInArray.length ∧ r.lims.curMaxMcKwOut ≤ V.mcKwOutArray.getD k 0 ∧
      V.mcKwInArray.getD k 0 + a ≤
        r.lims.curEssMaxKwOut + (if V.fcType = .h2fc then r.lims.curMaxFcKwOut else 0) ∧
      V.mcKwInArray.getD k 0 ≤ V.mcMaxElecInKw := by
  have hav := C68_available hH h hs
  rw [← hav]
  clear hav
  obtain ⟨E, st, -, -, hE, rfl⟩ := StepAt.solve hH h hs
  change 0 < curMaxMcKwOut F V E p at hpos
  show ∃ k, k < V.mcKwInArray.length ∧ curMaxMcKwOut F V E p ≤ V.mcKwOutArray.getD k 0 ∧
    V.mcKwInArray.getD k 0 + a ≤ curMaxElecKw F V E p + a ∧ V.mcKwInArray.getD k 0 ≤ V.mcMaxElecInKw
  have hle : curMaxMcKwOut F V E p ≤ mcElecInLimKw F V E p := by
    unfold curMaxMcKwOut at hpos ⊢
    rcases max_cases (min (min (mcElecInLimKw F V E p) (mcTransiLimKw V E p))
      ((if V.stopStart then 0 else 1) * V.mcMaxKw)) (-V.mcMaxKw) with ⟨e, -⟩ | ⟨e, -⟩
    · rw [e]; exact (min_le_left _ _).trans (min_le_left _ _)
    · rw [e] at hpos; linarith
  have hel : 0 < mcElecInLimKw F V E p := lt_of_lt_of_le hpos hle
  have hmax : listMax V.mcKwInArray = V.mcMaxElecInKw := by
    rw [listMax_sorted _ hm.sorted, hm.top]; rfl
  have hne : V.mcKwInArray ≠ [] := by
    intro e; have := hm.start; rw [e] at this; simp at this
  have hlen : 0 < V.mcKwInArray.length := List.length_pos_iff.2 hne
  have hlast : V.mcKwInArray.getD (V.mcKwInArray.length - 1) 0 = V.mcMaxElecInKw := by
    rw [List.getD_eq_getElem?_getD, ← List.getLast?_eq_getElem?, hm.top]; rfl
  unfold mcElecInLimKw at hle hel
  by_cases hc : 0 < curMaxElecKw F V E p
  · rw [if_pos hc, hmax] at hle
    by_cases heq : curMaxAvailElecKw F V E p = V.mcMaxElecInKw
    · rw [if_pos heq] at hle
      refine ⟨V.mcKwInArray.length - 1, by omega, ?_, ?_, ?_⟩
      · rw [List.getD_eq_getElem?_getD, ← hm.sameLength, ← List.getLast?_eq_getElem?]
        exact hle.trans (min_le_left _ _)
      · rw [hlast, ← heq]
        exact add_le_add_left (min_le_left _ _) _
      · rw [hlast]
    · rw [if_neg heq] at hle
      generalize hx : min (V.mcMaxElecInKw - 1 / 100) (curMaxAvailElecKw F V E p) = x at hle
      have hav0 : 0 < curMaxAvailElecKw F V E p :=
        lt_min hc (lt_trans (by norm_num) hm.large)
      have hx0 : 0 ≤ x := by
        rw [← hx]; exact le_min (by have := hm.large; linarith) hav0.le
      have hx1 : x < V.mcMaxElecInKw := by
        rw [← hx]; exact lt_of_le_of_lt (min_le_left _ _) (by linarith)
      obtain ⟨h1, h2, h3⟩ := argmaxGt_spec (x := x) hm.start hx0
        ⟨V.mcMaxElecInKw, List.mem_of_getLast? hm.top, hx1⟩
      refine ⟨argmaxGt V.mcKwInArray x - 1, by omega, ?_, ?_, h3.trans hx1.le⟩
      · refine hle.trans ((min_le_left _ _).trans ?_)
        unfold lookupM1
        simp only [h1, if_false, le_refl]
      · refine add_le_add_left (h3.trans ?_) _
        rw [← hx]
        exact (min_le_right _ _).trans (min_le_left _ _)
  · rw [if_neg hc] at hel
    exact absurd hel (lt_irrefl _)

theorem curMaxMcKwOut_nonneg (hm : MotorMap V) (hmc : 0 ≤ V.mcMaxKw) (hsec : 0 ≤ V.mcSecToPeakPwr)
    {E : StepEnv K} {p : Row K} (hdt : 0 ≤ E.dt) : 0 ≤ curMaxMcKwOut F V E p := by
  have hne : V.mcKwOutArray ≠ [] := by
    intro e
    have h1 := hm.sameLength
    have h2 := hm.start
    rw [e] at h1
    rw [List.eq_nil_of_length_eq_zero h1.symm] at h2
    simp at h2
  have hel : 0 ≤ mcElecInLimKw F V E p := by
    unfold mcElecInLimKw
    split
    · split
      · refine le_min ?_ hmc
        rw [List.getLast?_eq_some_getLast hne]
        exact hm.outs _ (List.getLast_mem hne)
      · exact le_min (hm.outs _ (lookupM1_mem _ _ _ hne (by rw [hm.sameLength]))) hmc
    · exact le_rfl
  unfold curMaxMcKwOut
  refine le_max_of_le_left (le_min (le_min hel ?_) ?_)
  · unfold mcTransiLimKw
    have h1 : 0 ≤ pabs p.dec.mcMechKwOutAch := by
      unfold pabs; split
      · linarith
      · exact not_lt.1 (by assumption)
    exact add_nonneg h1 (mul_nonneg (div_nonneg hmc hsec) hdt)
  · split
    · rw [zero_mul]
    · rw [one_mul]; exact hmc

theorem mechIn_nonneg (hM : MotorOk V) (hmc : 0 ≤ V.mcMaxKw) (he : 0 ≤ V.essMaxKw)
    {E : StepEnv K} {p : Row K} : 0 ≤ curMaxMechMcKwIn F V E p := by
  have hc : 0 ≤ curMaxEssChgKw F V E p := by
    unfold curMaxEssChgKw essCapLimChgKw
    refine le_min ?_ he
    split
    · exact le_rfl
    · exact le_max_right _ _
  unfold curMaxMechMcKwIn
  simp only
  split
  · exact le_rfl
  · split
    · exact le_min hmc (div_nonneg hc (hM.pos _ hM.last_mem).le)
    · exact le_min hmc (div_nonneg hc (hM.pos _ (hM.out_mem _)).le)

/-- `trans_kw_in_ach` cannot exceed what the drive can deliver. -/
theorem transIn_le (hte : 0 < V.transEff) (E : StepEnv K) (p : Row K) (st : Stale K)
    (ha : 0 ≤ E.auxIn) (hel : 0 ≤ curMaxElecKw F V E p)
    (hpos : 0 < (solveStep F V P.toStepParams E p st).pow.transKwInAch) :
    (solveStep F V P.toStepParams E p st).pow.transKwInAch ≤
      curMaxMcKwOut F V E p + if V.fcType = .h2fc then 0 else curMaxFcKwOut V E p := by
  have hin := solveStep_in F V P.toStepParams E p st
  have hout := solveStep_out F V P.toStepParams E p st
  rw [hin] at hpos ⊢
  generalize hx : (solveStep F V P.toStepParams E p st).pow.transKwOutAch = x at *
  have hx0 : 0 < x := by
    by_contra hc
    unfold transKwIn at hpos
    rw [if_neg hc] at hpos
    exact absurd (mul_nonpos_of_nonpos_of_nonneg (not_lt.1 hc) hte.le) (not_le.2 hpos)
  unfold transKwIn
  rw [if_pos hx0, div_le_iff₀ hte]
  have hlim : x ≤ curMaxTransKwOut F V P.toStepParams E p (setMisc V E p) := by
    rw [hout]; exact min_le_right _ _
  refine hlim.trans ?_
  have hm0 : min (curMaxElecKw F V E p) 0 = 0 := min_eq_right hel
  unfold curMaxTransKwOut at hlim ⊢
  split at hlim
  · exact absurd hx0 (not_lt.2 hlim)
  · rename_i hco
    rw [if_neg hco]
    simp only [hm0]
    by_cases hz : V.fcType = .h2fc
    · simp only [hz, if_true]
      split
      · exact (min_le_left _ _).trans (mul_le_mul_of_nonneg_right (by linarith) hte.le)
      · exact (min_le_left _ _).trans (mul_le_mul_of_nonneg_right (by linarith) hte.le)
    · simp only [hz, if_false]
      split
      · exact (min_le_left _ _).trans (mul_le_mul_of_nonneg_right (by linarith) hte.le)
      · exact (min_le_left _ _).trans (mul_le_mul_of_nonneg_right (by linarith) hte.le)

/-- **C68 (motor output).** In a step driven electrically the motor delivers at most its limit (up to the
tolerance `1e-6` of the code). In any other step it exceeds its limit at most by the factor by which
efficiencies of its map differ. The hypothesis on the available electricity is what the code fails to
ensure on its own. -/
theorem C68_output (hH : H.Local) (hM : MotorOk V) (hm : MotorMap V) (hmc : 0 ≤ V.mcMaxKw)
    (hsec : 0 ≤ V.mcSecToPeakPwr) (he : 0 ≤ V.essMaxKw) (hte : 0 < V.transEff)
    (hmax : 0 ≤ V.maxFcEffKw) (hidle : 0 ≤ V.idleFcKw) {q : K}
    (hq : ∀ e ∈ V.mcFullEffArray.tail, ∀ e' ∈ V.mcFullEffArray.tail, e ≤ q * e')
    {s : Sim K} (h : Reachable F H V P s) {i : Nat} {p r : Row K} {dt a : K} (hs : StepAt s i p r dt a)
    (hdt : 0 ≤ dt) (ha : 0 ≤ a) (hel : 0 ≤ r.lims.curMaxElecKw) :
    (r.hyb.canPwrAllElec = true → r.dec.mcMechKwOutAch ≤ r.lims.curMaxMcKwOut + 1 / 1000000) ∧
    (r.hyb.canPwrAllElec = false → r.dec.mcMechKwOutAch ≤ q * r.lims.curMaxMcKwOut) := by
  obtain ⟨E, st, hE, hroad, hEa, rfl⟩ := StepAt.solve hH h hs
  have hlim0 : 0 ≤ curMaxMcKwOut F V E p := curMaxMcKwOut_nonneg hm hmc hsec (by rw [hE]; exact hdt)
  have hmech0 : 0 ≤ curMaxMechMcKwIn F V E p := mechIn_nonneg hM hmc he
  have htin := transIn_le (F := F) (P := P) hte E p st (by rw [hEa]; exact ha) hel
  have hlast := hM.last_mem
  have hq1 : 1 ≤ q := by
    have h1 := hq _ hlast _ hlast
    have h2 := hM.pos _ hlast
    by_contra hc
    rw [not_le] at hc
    nlinarith
  have hqlim : curMaxMcKwOut F V E p ≤ q * curMaxMcKwOut F V E p := le_mul_of_one_le_left hlim0 hq1
  -- what the motor delivers if the engine is required
  have hreq : ∀ h : Hyb K, mcKwIfFcReq V E (setCompLims F V P.toStepParams E p (setMisc V E p)) h ≤
      q * curMaxMcKwOut F V E p := by
    intro hy
    have hx : mcElecKwInIfFcReq V E (setCompLims F V P.toStepParams E p (setMisc V E p)) hy ≤
        curMaxMcElecKwIn F V E p := by
      unfold mcElecKwInIfFcReq
      have h1 : erKwIfFcReq V E (setCompLims F V P.toStepParams E p (setMisc V E p)) hy = 0 := by
        unfold erKwIfFcReq
        rw [hroad]
        exact max_eq_left ((min_le_left _ _).trans (min_le_left _ _))
      rw [h1, add_zero]
      have h2 : essKwIfFcReq V E (setCompLims F V P.toStepParams E p (setMisc V E p)) hy ≤
          curMaxMcElecKwIn F V E p + E.auxIn := (min_le_left _ _).trans (min_le_right _ _)
      linarith
    have hz : (0 : K) ≤ q * curMaxMcKwOut F V E p := hlim0.trans hqlim
    unfold mcKwIfFcReq
    simp only
    generalize mcElecKwInIfFcReq V E (setCompLims F V P.toStepParams E p (setMisc V E p)) hy = x at hx ⊢
    have hle : ∀ e ∈ V.mcFullEffArray.tail, 0 < x → x * e ≤ q * curMaxMcKwOut F V E p := by
      intro e hemem hx0
      have he0 := hM.pos e hemem
      refine (mul_le_mul_of_nonneg_right hx he0.le).trans ?_
      have hdiv : ∀ e' ∈ V.mcFullEffArray.tail, curMaxMcKwOut F V E p / e' * e ≤ q * curMaxMcKwOut F V E p := by
        intro e' he'
        have h' := hM.pos e' he'
        rw [div_mul_eq_mul_div, div_le_iff₀ h']
        calc curMaxMcKwOut F V E p * e ≤ curMaxMcKwOut F V E p * (q * e') :=
              mul_le_mul_of_nonneg_left (hq e hemem e' he') hlim0
          _ = q * curMaxMcKwOut F V E p * e' := by ring
      unfold curMaxMcElecKwIn
      simp only
      split
      · rw [zero_mul]; exact hlim0.trans hqlim
      · split
        · exact hdiv _ hlast
        · exact hdiv _ (hM.out_mem _)
    have hneg : x < 0 → ∀ e ∈ V.mcFullEffArray.tail, x / e ≤ q * curMaxMcKwOut F V E p := by
      intro hx0 e hemem
      exact (div_nonpos_of_nonpos_of_nonneg hx0.le (hM.pos e hemem).le).trans (hlim0.trans hqlim)
    split
    · exact hz
    · split
      · exact hz
      · rename_i hx0
        split
        · rename_i hxp
          split
          · exact hle _ hlast hxp
          · exact hle _ (hM.in_mem _) hxp
        · rename_i hxn
          have hxneg : x < 0 := lt_of_le_of_ne (not_lt.1 hxn) hx0
          split
          · exact hneg hxneg _ hlast
          · exact hneg hxneg _ (hM.in_mem _)
  have hae : (solveStep F V P.toStepParams E p st).hyb.canPwrAllElec = true →
      (solveStep F V P.toStepParams E p st).pow.transKwInAch ≤ curMaxMcKwOut F V E p + 1 / 1000000 := by
    intro hc
    change canPwrAllElec V E p.dec.soc _ _ = true at hc
    have hb : (solveStep F V P.toStepParams E p st).pow.transKwInAch - 1 / 1000000 ≤
        curMaxMcKwOut F V E p := by
      unfold canPwrAllElec at hc
      simp only [Bool.and_eq_true] at hc
      split at hc
      · simp only [Bool.and_eq_true, decide_eq_true_eq] at hc
        exact hc.1.2
      · simp only [Bool.and_eq_true, decide_eq_true_eq] at hc
        exact hc.1.1.1.2
    linarith
  have hforced : (solveStep F V P.toStepParams E p st).hyb.canPwrAllElec = true →
      (solveStep F V P.toStepParams E p st).forced.mcMechKw4forcedFc ≤
        curMaxMcKwOut F V E p + 1 / 1000000 := by
    intro hc
    have hle := hae hc
    have hz : (0 : K) ≤ curMaxMcKwOut F V E p + 1 / 1000000 := by linarith
    have e : (solveStep F V P.toStepParams E p st).forced =
      setForced V E (solveStep F V P.toStepParams E p st).pow
        (solveStep F V P.toStepParams E p st).hyb := rfl
    rw [e]
    unfold setForced
    simp only
    split
    · exact hz
    · split
      · exact hle
      · split
        · exact hz
        · split
          · simp only; linarith
          · split
            · exact hz
            · simp only; linarith
  have hpw : (solveStep F V P.toStepParams E p st).pow.minMcKw2helpFc ≤
      max (-(curMaxMechMcKwIn F V E p)) (max (curMaxMcKwOut F V E p)
        ((solveStep F V P.toStepParams E p st).pow.transKwInAch -
          if V.fcType = .h2fc then 0 else curMaxFcKwOut V E p)) := by
    obtain ⟨v, hv⟩ := solveStep_pow F V P.toStepParams E p st
    rw [hv]
    show (if (decide _ : Bool) = true then
        if V.fcType = .h2fc then max (powerAt F V P.toStepParams E p _ v).transKwInAch (-curMaxMechMcKwIn F V E p)
        else max ((powerAt F V P.toStepParams E p _ v).transKwInAch - curMaxFcKwOut V E p)
          (-curMaxMechMcKwIn F V E p)
      else max (curMaxMcKwOut F V E p) (-curMaxMechMcKwIn F V E p)) ≤ _
    split
    · split
      · rw [sub_zero]
        exact max_le (le_max_of_le_right (le_max_right _ _)) (le_max_left _ _)
      · exact max_le (le_max_of_le_right (le_max_right _ _)) (le_max_left _ _)
    · exact max_le (le_max_of_le_right (le_max_left _ _)) (le_max_left _ _)
  have hdec : (solveStep F V P.toStepParams E p st).dec.mcMechKwOutAch =
      mcMechKwOutAch V E (setCompLims F V P.toStepParams E p (setMisc V E p))
        (solveStep F V P.toStepParams E p st).pow (solveStep F V P.toStepParams E p st).hyb
        (solveStep F V P.toStepParams E p st).forced := rfl
  have hr1 : (solveStep F V P.toStepParams E p st).lims.curMaxMcKwOut = curMaxMcKwOut F V E p := rfl
  have hr2 : (setCompLims F V P.toStepParams E p (setMisc V E p)).curMaxMechMcKwIn =
    curMaxMechMcKwIn F V E p := rfl
  rw [hr1, hdec]
  clear hdec hr1
  generalize solveStep F V P.toStepParams E p st = r at *
  generalize setCompLims F V P.toStepParams E p (setMisc V E p) = L at *
  generalize curMaxMcKwOut F V E p = m at *
  rw [← hr2] at hmech0 hpw
  clear hr2
  have hz : (0 : K) ≤ m + 1 / 1000000 := by linarith
  have hqz : (0 : K) ≤ q * m := hlim0.trans hqlim
  have hbrake : ∀ t : K, t ≤ 0 → -(min L.curMaxMechMcKwIn (-t)) ≤ 0 := fun t ht =>
    neg_nonpos.2 (le_min hmech0 (by linarith))
  unfold mcMechKwOutAch
  simp only
  constructor
  · intro hc
    split
    · exact hz
    · split
      · exact hforced hc
      · split
        · rename_i ht
          have := hbrake _ ht
          split
          · exact this.trans hz
          · exact (min_le_left _ _).trans (this.trans hz)
        · exact hae hc
  · intro hc
    have hcn : ¬ r.hyb.canPwrAllElec = true := by rw [hc]; simp
    split
    · exact hqz
    · split
      · rename_i hf; exact absurd hf.2.1 hcn
      · split
        · rename_i ht
          have := hbrake _ ht
          split
          · exact (min_le_left _ _).trans (this.trans hqz)
          · exact (min_le_left _ _).trans (this.trans hqz)
        · rename_i ht
          refine max_le (hpw.trans (max_le (by linarith) (max_le hqlim ?_))) (hreq _)
          have := htin (not_le.1 ht)
          linarith

/-- **C68 (recuperation).** The mechanical power the motor may take up while braking is within its rating,
and there is an efficiency of its map at which that power does not charge the battery faster than its
limit. A vehicle without combustion engine never takes up more; nor does a hybrid in a step it drives
electrically, unless its engine is forced on. -/
theorem C68_recuperation (hH : H.Local) (hM : MotorOk V) (hmc : 0 < V.mcMaxKw) (he : 0 ≤ V.essMaxKw)
    {s : Sim K} (h : Reachable F H V P s) {i : Nat} {p r : Row K} {dt a : K} (hs : StepAt s i p r dt a) :
    0 ≤ r.lims.curMaxMechMcKwIn ∧ r.lims.curMaxMechMcKwIn ≤ V.mcMaxKw ∧
    (∃ e ∈ V.mcFullEffArray.tail, r.lims.curMaxMechMcKwIn * e ≤ r.lims.curMaxEssChgKw) ∧
    (V.fcType = .h2fc ∨ V.fcMaxKw = 0 ∨ (r.hyb.canPwrAllElec = true ∧ r.forced.fcForcedOn = false) →
      (V.ptType = .hev ∨ V.ptType = .phev → V.fcMaxKw = 0 → r.forced.fcForcedOn = false) →
      -r.lims.curMaxMechMcKwIn ≤ r.dec.mcMechKwOutAch) := by
  obtain ⟨E, st, -, -, -, rfl⟩ := StepAt.solve hH h hs
  have h0 : 0 ≤ curMaxMechMcKwIn F V E p := mechIn_nonneg hM hmc.le he
  have hchg : 0 ≤ curMaxEssChgKw F V E p := by
    unfold curMaxEssChgKw essCapLimChgKw
    refine le_min ?_ he
    split
    · exact le_rfl
    · exact le_max_right _ _
  refine ⟨h0, ?_, ?_, ?_⟩
  · show curMaxMechMcKwIn F V E p ≤ _
    unfold curMaxMechMcKwIn
    simp only
    split
    · exact hmc.le
    · split <;> exact min_le_left _ _
  · show ∃ e ∈ V.mcFullEffArray.tail, curMaxMechMcKwIn F V E p * e ≤ curMaxEssChgKw F V E p
    have hdiv : ∀ e ∈ V.mcFullEffArray.tail,
        min V.mcMaxKw (curMaxEssChgKw F V E p / e) * e ≤ curMaxEssChgKw F V E p := by
      intro e hm
      have hp := hM.pos e hm
      refine (mul_le_mul_of_nonneg_right (min_le_right _ _) hp.le).trans (le_of_eq ?_)
      exact div_mul_cancel₀ _ hp.ne'
    unfold curMaxMechMcKwIn
    simp only
    split
    · rename_i hc
      exact ⟨_, hM.last_mem, by rw [zero_mul]; exact hchg⟩
    · split
      · exact ⟨_, hM.last_mem, hdiv _ hM.last_mem⟩
      · exact ⟨_, hM.out_mem _, hdiv _ (hM.out_mem _)⟩
  · intro hwho hnf
    have hdec : (solveStep F V P.toStepParams E p st).dec.mcMechKwOutAch =
        mcMechKwOutAch V E (solveStep F V P.toStepParams E p st).lims
          (solveStep F V P.toStepParams E p st).pow (solveStep F V P.toStepParams E p st).hyb
          (solveStep F V P.toStepParams E p st).forced := rfl
    have hpw : -(curMaxMechMcKwIn F V E p) ≤ (solveStep F V P.toStepParams E p st).pow.minMcKw2helpFc := by
      obtain ⟨v, hv⟩ := solveStep_pow F V P.toStepParams E p st
      rw [hv]
      show _ ≤ (if (decide _ : Bool) = true then
          if V.fcType = .h2fc then max (powerAt F V P.toStepParams E p _ v).transKwInAch (-curMaxMechMcKwIn F V E p)
          else max ((powerAt F V P.toStepParams E p _ v).transKwInAch - curMaxFcKwOut V E p)
            (-curMaxMechMcKwIn F V E p)
        else max (curMaxMcKwOut F V E p) (-curMaxMechMcKwIn F V E p))
      split
      · split <;> exact le_max_right _ _
      · exact le_max_right _ _
    have h0 : 0 ≤ (solveStep F V P.toStepParams E p st).lims.curMaxMechMcKwIn := h0
    have hpw : -(solveStep F V P.toStepParams E p st).lims.curMaxMechMcKwIn ≤
      (solveStep F V P.toStepParams E p st).pow.minMcKw2helpFc := hpw
    rw [hdec]
    clear hdec
    generalize solveStep F V P.toStepParams E p st = r at *
    have hb : ∀ t : K, -r.lims.curMaxMechMcKwIn ≤ -(min r.lims.curMaxMechMcKwIn t) := fun t =>
      neg_le_neg (min_le_left _ _)
    unfold mcMechKwOutAch
    simp only
    rw [if_neg hmc.ne']
    split
    · rename_i hf
      exfalso
      rcases hwho with hw | hw | hw
      · exact hf.2.2.2 hw
      · have := hnf hf.2.2.1 hw; rw [this] at hf; simp at hf
      · rw [hw.2] at hf; simp at hf
    · split
      · rename_i ht
        split
        · rename_i hfc
          rcases hwho with hw | hw | hw
          · exact absurd hw hfc.1
          · rw [hw] at hfc; exact absurd hfc.2 (lt_irrefl _)
          · rw [if_pos hw.1]; exact hb _
        · exact le_min (hb _) (by linarith)
      · rename_i ht
        split
        · linarith
        · exact le_max_of_le_left hpw

/-- **C68 (share of braking).** The recorded share of the motor's rating that may be used for braking is
at most one, and is what the battery and the accessories can absorb. -/
theorem C68_share (hH : H.Local) (hmc : 0 < V.mcMaxKw)
    {s : Sim K} (h : Reachable F H V P s) {i : Nat} {p r : Row K} {dt a : K} (hs : StepAt s i p r dt a) :
    r.lims.essLimMcRegenPercKw ≤ 1 ∧
    r.lims.essLimMcRegenPercKw * V.mcMaxKw = min (r.lims.curMaxEssChgKw + a) V.mcMaxKw := by
  obtain ⟨E, st, -, -, hE, rfl⟩ := StepAt.solve hH h hs
  show essLimMcRegenPercKw F V E p ≤ 1 ∧
    essLimMcRegenPercKw F V E p * V.mcMaxKw = min (curMaxEssChgKw F V E p + a) V.mcMaxKw
  unfold essLimMcRegenPercKw
  rw [if_neg hmc.ne', hE]
  refine ⟨min_le_right _ _, ?_⟩
  rw [min_mul_of_nonneg _ _ hmc.le, one_mul, div_mul_cancel₀ _ hmc.ne']

/-- **C69 (motor losses).** In every step motor electric and mechanical power are related by an efficiency
of the motor map: driving, the electric power is larger by the loss; braking, less electricity is
recovered than is taken up at the shaft; a motor that does nothing takes nothing. -/
theorem C69_loss (hH : H.Local) (hM : MotorOk V) {s : Sim K} (h : Reachable F H V P s) {i : Nat}
    {p r : Row K} {dt a : K} (hs : StepAt s i p r dt a) :
    (0 < r.dec.mcMechKwOutAch → ∃ e ∈ V.mcFullEffArray.tail,
      r.dec.mcElecKwInAch * e = r.dec.mcMechKwOutAch) ∧
    (r.dec.mcMechKwOutAch < 0 → ∃ e ∈ V.mcFullEffArray.tail,
      r.dec.mcElecKwInAch = r.dec.mcMechKwOutAch * e) ∧
    (r.dec.mcMechKwOutAch = 0 → r.dec.mcElecKwInAch = 0) ∧
    r.dec.mcMechKwOutAch ≤ r.dec.mcElecKwInAch := by
  obtain ⟨E, st, -, -, -, hr⟩ := StepAt.solve hH h hs
  have he : r.dec.mcElecKwInAch = mcElecKwInAch V r.dec.mcMechKwOutAch := by rw [hr]; rfl
  rw [he]
  clear he hr
  generalize r.dec.mcMechKwOutAch = m
  refine ⟨fun hp => ?_, fun hn => ?_, fun h0 => ?_, (mcElec_sign hM m).2.2⟩
  · unfold mcElecKwInAch
    rw [if_neg hp.ne', if_neg (not_lt.2 hp.le)]
    split
    · exact ⟨_, hM.last_mem, div_mul_cancel₀ _ (hM.pos _ hM.last_mem).ne'⟩
    · exact ⟨_, hM.out_mem _, div_mul_cancel₀ _ (hM.pos _ (hM.out_mem _)).ne'⟩
  · unfold mcElecKwInAch
    rw [if_neg hn.ne, if_pos hn]
    split
    · exact ⟨_, hM.last_mem, rfl⟩
    · exact ⟨_, hM.in_mem _, rfl⟩
  · unfold mcElecKwInAch
    rw [if_pos h0]

end Field

/-! ### Non-vacuity and a refutation -/
open Demo

theorem hev_motorOk : MotorOk hev :=
  ⟨by decide, by decide, by decide, by decide +kernel, by decide +kernel⟩

theorem hev_motorMap : MotorMap hev :=
  ⟨by decide +kernel, rfl, rfl, by decide +kernel, rfl, by decide +kernel⟩

/-- The hybrid demo run meets the hypotheses: the motor drives, brakes, and stays below its limit. -/
theorem C68_demo : ∃ s, Demo.run hev (3 / 5) = .ok s ∧ Reachable fns noHooks hev params s ∧ s.i = 6 ∧
    MotorOk hev ∧ MotorMap hev ∧ 0 < hev.mcMaxKw ∧ 0 ≤ hev.mcSecToPeakPwr ∧ 0 ≤ hev.essMaxKw ∧
    0 < hev.transEff ∧ 0 ≤ hev.maxFcEffKw ∧ 0 ≤ hev.idleFcKw ∧
    (∀ e ∈ hev.mcFullEffArray.tail, ∀ e' ∈ hev.mcFullEffArray.tail, e ≤ 9 / 8 * e') ∧
    s.rows.tail.map (fun r => (r.hyb.canPwrAllElec, decide (0 ≤ r.lims.curMaxElecKw),
      decide (0 < r.lims.curMaxMcKwOut), decide (0 < r.dec.mcMechKwOutAch),
      decide (r.dec.mcMechKwOutAch < 0))) =
      [(true, true, true, true, false), (true, true, true, true, false), (true, true, true, true, false),
        (true, true, true, false, true), (true, true, true, false, true)] := by
  have hall : (match Demo.run hev (3 / 5) with
      | .ok s => decide (s.i = 6 ∧ s.rows.tail.map (fun r => (r.hyb.canPwrAllElec,
          decide (0 ≤ r.lims.curMaxElecKw), decide (0 < r.lims.curMaxMcKwOut),
          decide (0 < r.dec.mcMechKwOutAch), decide (r.dec.mcMechKwOutAch < 0))) =
        [(true, true, true, true, false), (true, true, true, true, false), (true, true, true, true, false),
          (true, true, true, false, true), (true, true, true, false, true)])
      | .error _ => false) = true := by decide +kernel
  split at hall
  · rename_i s hs
    obtain ⟨h1, h2⟩ := of_decide_eq_true hall
    exact ⟨s, hs, Reachable.simDrive noHooks_local rfl hs, h1, hev_motorOk, hev_motorMap,
      by decide +kernel, by decide +kernel, by decide +kernel, by decide +kernel, by decide +kernel,
      by decide +kernel, by decide +kernel, h2⟩
  · simp at hall

/-- A standing start at almost full power. -/
def fullPower : Cyc ℚ := [⟨0, 0, 0, 0⟩, ⟨1, 483 / 100, 0, 0⟩]

/-- **C68 refuted without the hypothesis on the available electricity.** With the battery exactly at
`min_soc` nothing is available (the accessories alone exceed it) and the motor limit is zero, yet the
negative surplus is *added* to the transmission limit (simdrive.py:848-869), and the motor delivers
power from the empty battery. -/
theorem C68_motor_beyond_limit :
    ∃ s r, simDrive fns noHooks hev params (Sim.new fullPower) (some hev.minSoc) none = .ok s ∧
      s.rows[1]? = some r ∧ r.lims.curMaxElecKw < 0 ∧ r.lims.curMaxMcKwOut = 0 ∧
      0 < r.dec.mcMechKwOutAch ∧ r.dec.soc < hev.minSoc := by
  have hall : (match simDrive fns noHooks hev params (Sim.new fullPower) (some hev.minSoc) none with
      | .ok s => (match s.rows[1]? with
        | some r => decide (r.lims.curMaxElecKw < 0 ∧ r.lims.curMaxMcKwOut = 0 ∧
          0 < r.dec.mcMechKwOutAch ∧ r.dec.soc < hev.minSoc)
        | none => false)
      | .error _ => false) = true := by decide +kernel
  split at hall
  · rename_i s hs
    split at hall
    · rename_i r hr
      exact ⟨s, r, hs, hr, of_decide_eq_true hall⟩
    · simp at hall
  · simp at hall

end Fastsim.Props
