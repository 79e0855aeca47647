import Verif.Props.PlugIn
import Verif.Props.Real

/-!
# C133: a vehicle with everything scaled up drives alike and uses energy in proportion

Masses, areas, powers and capacities of all components and the accessory load are multiplied by the same factor. Speeds, charges
in percent and times stay the same; every power and energy is multiplied.
-/

set_option linter.unusedSectionVars false
set_option linter.unusedVariables false

namespace Fastsim.Spec
open Fastsim
section Field
variable {K : Type*} [Field K] [LinearOrder K] [IsStrictOrderedRing K]

/-- The vehicle with masses, frontal area, powers, capacity and accessory load `l` times as large. -/
def scaledVeh (l : K) (V : Veh K) : Veh K :=
  { V with
    vehKg := l * V.vehKg
    frontalAreaM2 := l * V.frontalAreaM2
    wheelInertiaKgM2 := l * V.wheelInertiaKgM2
    fsMaxKw := l * V.fsMaxKw
    fcMaxKw := l * V.fcMaxKw
    fcKwOutArray := V.fcKwOutArray.map (l * ·)
    maxFcEffKw := l * V.maxFcEffKw
    idleFcKw := l * V.idleFcKw
    mcMaxKw := l * V.mcMaxKw
    mcKwInArray := V.mcKwInArray.map (l * ·)
    mcKwOutArray := V.mcKwOutArray.map (l * ·)
    mcMaxElecInKw := l * V.mcMaxElecInKw
    essMaxKw := l * V.essMaxKw
    essMaxKwh := l * V.essMaxKwh
    kwDemandFcOn := l * V.kwDemandFcOn
    maxRegenKwh := l * V.maxRegenKwh
    auxKw := l * V.auxKw }

/-- Powers and energies of a step `l` times as large; speeds, times, charges in percent and decisions as they are. -/
def scaledRow (l : K) (r : Row K) : Row K :=
  { auxInKw := l * r.auxInKw
    misc := r.misc
    lims :=
      { curMaxFsKwOut := l * r.lims.curMaxFsKwOut
        fcTransLimKw := l * r.lims.fcTransLimKw
        curMaxFcKwOut := l * r.lims.curMaxFcKwOut
        essCapLimDischgKw := l * r.lims.essCapLimDischgKw
        curEssMaxKwOut := l * r.lims.curEssMaxKwOut
        essCapLimChgKw := l * r.lims.essCapLimChgKw
        curMaxEssChgKw := l * r.lims.curMaxEssChgKw
        curMaxElecKw := l * r.lims.curMaxElecKw
        curMaxAvailElecKw := l * r.lims.curMaxAvailElecKw
        mcElecInLimKw := l * r.lims.mcElecInLimKw
        mcTransiLimKw := l * r.lims.mcTransiLimKw
        curMaxMcKwOut := l * r.lims.curMaxMcKwOut
        curMaxMcElecKwIn := l * r.lims.curMaxMcElecKwIn
        essLimMcRegenPercKw := r.lims.essLimMcRegenPercKw
        curMaxMechMcKwIn := l * r.lims.curMaxMechMcKwIn
        curMaxTracKw := l * r.lims.curMaxTracKw
        curMaxTransKwOut := l * r.lims.curMaxTransKwOut }
    pow :=
      { dragKw := l * r.pow.dragKw
        accelKw := l * r.pow.accelKw
        ascentKw := l * r.pow.ascentKw
        cycTracKwReq := l * r.pow.cycTracKwReq
        spareTracKw := l * r.pow.spareTracKw
        rrKw := l * r.pow.rrKw
        cycWhlRadPerSec := r.pow.cycWhlRadPerSec
        cycTireInertiaKw := l * r.pow.cycTireInertiaKw
        cycWhlKwReq := l * r.pow.cycWhlKwReq
        regenContrlLimKwPerc := r.pow.regenContrlLimKwPerc
        cycRegenBrakeKw := l * r.pow.cycRegenBrakeKw
        cycFricBrakeKw := l * r.pow.cycFricBrakeKw
        cycTransKwOutReq := l * r.pow.cycTransKwOutReq
        cycMet := r.pow.cycMet
        transKwOutAch := l * r.pow.transKwOutAch
        transKwInAch := l * r.pow.transKwInAch
        minMcKw2helpFc := l * r.pow.minMcKw2helpFc }
    ach := r.ach
    hyb :=
      { regenBuffSoc := r.hyb.regenBuffSoc
        essRegenBuffDischgKw := l * r.hyb.essRegenBuffDischgKw
        maxEssRegenBuffChgKw := l * r.hyb.maxEssRegenBuffChgKw
        accelBuffSoc := r.hyb.accelBuffSoc
        essAccelBuffChgKw := l * r.hyb.essAccelBuffChgKw
        maxEssAccellBuffDischgKw := l * r.hyb.maxEssAccellBuffDischgKw
        essAccelRegenDischgKw := l * r.hyb.essAccelRegenDischgKw
        fcKwGapFrEff := l * r.hyb.fcKwGapFrEff
        mcElecInKwForMaxFcEff := l * r.hyb.mcElecInKwForMaxFcEff
        elecKwReq4ae := l * r.hyb.elecKwReq4ae
        prevFcTimeOn := r.hyb.prevFcTimeOn
        canPwrAllElec := r.hyb.canPwrAllElec
        desiredEssKwOutForAe := l * r.hyb.desiredEssKwOutForAe
        essAeKwOut := l * r.hyb.essAeKwOut
        erAeKwOut := l * r.hyb.erAeKwOut }
    forced := { r.forced with mcMechKw4forcedFc := l * r.forced.mcMechKw4forcedFc }
    dec :=
      { essDesiredKw4fcEff := l * r.dec.essDesiredKw4fcEff
        essKwIfFcReq := l * r.dec.essKwIfFcReq
        erKwIfFcReq := l * r.dec.erKwIfFcReq
        mcElecKwInIfFcReq := l * r.dec.mcElecKwInIfFcReq
        mcKwIfFcReq := l * r.dec.mcKwIfFcReq
        mcMechKwOutAch := l * r.dec.mcMechKwOutAch
        mcElecKwInAch := l * r.dec.mcElecKwInAch
        roadwayChgKwOutAch := l * r.dec.roadwayChgKwOutAch
        minEssKw2helpFc := l * r.dec.minEssKw2helpFc
        essKwOutAch := l * r.dec.essKwOutAch
        essCurKwh := l * r.dec.essCurKwh
        soc := r.dec.soc
        fcTimeOn := r.dec.fcTimeOn }
    fc :=
      { fcKwOutAch := l * r.fc.fcKwOutAch
        fcKwOutAchPct := r.fc.fcKwOutAchPct
        fcKwInAch := l * r.fc.fcKwInAch
        fsKwOutAch := l * r.fc.fsKwOutAch
        fsKwhOutAch := l * r.fc.fsKwhOutAch } }

/-- The code steps back 0.01 kW from the end of a table of motor powers. Every entry of the table, of the vehicle and of the scaled
one, is at its end `m` or at least so far below it. -/
def WideTable (l m : K) (arr : List K) : Prop := ∀ a ∈ arr, a = m ∨ (a + 1 / 100 ≤ m ∧ l * a + 1 / 100 ≤ l * m)

/-- Both tables of the motor are wide. -/
def WideMaps (l : K) (V : Veh K) : Prop :=
  WideTable l V.mcMaxKw V.mcKwOutArray ∧ WideTable l (listMax V.mcKwInArray) V.mcKwInArray

/-- The code lets a motor drive alone up to 1e-6 kW beyond its limit. The step is not in between for either vehicle: its demand is
within the limit or more than that beyond it. -/
def OffLimit (l : K) (r : Row K) : Prop :=
  r.pow.transKwInAch ≤ r.lims.curMaxMcKwOut ∨
    (r.lims.curMaxMcKwOut + 1 / 1000000 < r.pow.transKwInAch ∧
      l * r.lims.curMaxMcKwOut + 1 / 1000000 < l * r.pow.transKwInAch)

end Field
end Fastsim.Spec

namespace Fastsim.Props
open Fastsim Spec
section Field
variable {K : Type*} [Field K] [LinearOrder K] [IsStrictOrderedRing K]
variable {F : Fns K} {V : Veh K} {P : StepParams K} {E : StepEnv K} {p : Row K} {l : K}

def scaledEnv (l : K) (E : StepEnv K) : StepEnv K := { E with auxIn := l * E.auxIn, roadKw := l * E.roadKw }

/-! ### Pulling the factor out -/

section pull
variable (hl : 0 < l) (a b : K)
include hl
theorem s_min : min (l * a) (l * b) = l * min a b := (mul_min_of_nonneg a b hl.le).symm
theorem s_max : max (l * a) (l * b) = l * max a b := (mul_max_of_nonneg a b hl.le).symm
theorem s_min0 : min (l * a) 0 = l * min a 0 := by rw [← s_min hl, mul_zero]
theorem s_0min : min 0 (l * a) = l * min 0 a := by rw [← s_min hl, mul_zero]
theorem s_max0 : max (l * a) 0 = l * max a 0 := by rw [← s_max hl, mul_zero]
theorem s_0max : max 0 (l * a) = l * max 0 a := by rw [← s_max hl, mul_zero]
theorem s_lt : l * a < l * b ↔ a < b := mul_lt_mul_iff_right₀ hl
theorem s_le : l * a ≤ l * b ↔ a ≤ b := mul_le_mul_iff_right₀ hl
theorem s_eq : l * a = l * b ↔ a = b := mul_right_inj' hl.ne'
theorem s_eq0 : l * a = 0 ↔ a = 0 := by rw [mul_eq_zero]; simp [hl.ne']
theorem s_pos : 0 < l * a ↔ 0 < a := mul_pos_iff_of_pos_left hl
theorem s_neg : l * a < 0 ↔ a < 0 := by have := s_lt hl a 0; rwa [mul_zero] at this
theorem s_nonpos : l * a ≤ 0 ↔ a ≤ 0 := by have := s_le hl a 0; rwa [mul_zero] at this
theorem s_nonneg : 0 ≤ l * a ↔ 0 ≤ a := by have := s_le hl 0 a; rwa [mul_zero] at this
theorem s_pabs : pabs (l * a) = l * pabs a := by
  unfold pabs
  by_cases h : a < 0
  · rw [if_pos h, if_pos ((s_neg hl a).2 h)]; ring
  · rw [if_neg h, if_neg (fun e => h ((s_neg hl a).1 e))]
theorem s_div : l * a / (l * b) = a / b := mul_div_mul_left a b hl.ne'
theorem s_div' : l * (a / (l * b)) = a / b := by rw [← mul_div_assoc, s_div hl]
end pull

theorem s_ite (l a b : K) (c : Prop) [Decidable c] : (if c then l * a else l * b) = l * if c then a else b := by split <;> rfl
theorem s_itez (l b : K) (c : Prop) [Decidable c] : (if c then 0 else l * b) = l * if c then 0 else b := by split <;> simp
theorem s_iteb (l b : K) (c : Prop) [Decidable c] : (if c then l * b else 0) = l * if c then b else 0 := by split <;> simp
theorem s_swap (l x y : K) : x * (l * y) = l * (x * y) := mul_left_comm x l y

set_option hygiene false in
macro "pull" : tactic => `(tactic| simp only [scaledVeh, scaledEnv, scaledRow, s_min hl, s_max hl, s_min0 hl, s_0min hl, s_max0 hl,
  s_0max hl, s_lt hl, s_le hl, s_eq hl, s_eq0 hl, s_pos hl, s_neg hl, s_nonpos hl, s_nonneg hl, s_pabs hl, s_div hl, s_div' hl, s_ite l,
  s_itez l, s_iteb l, s_swap l, ← mul_add l, ← mul_sub l, ← mul_neg l, mul_div_assoc l, mul_assoc l] <;> try rfl)

/-! ### Tables -/

theorem listMax_scale (hl : 0 < l) : ∀ a : List K, listMax (a.map (l * ·)) = l * listMax a
  | [] => by simp [listMax]
  | [a] => by simp [listMax]
  | a :: b :: t => by
    have ih := listMax_scale hl (b :: t)
    simp only [List.map_cons] at ih ⊢
    show max (l * a) (listMax (l * b :: t.map (l * ·))) = l * max a (listMax (b :: t))
    rw [ih, s_max hl]

theorem getLast_scale (l : K) (a : List K) : (a.map (l * ·)).getLast?.getD 0 = l * a.getLast?.getD 0 := by
  rw [List.getLast?_map]
  cases a.getLast? <;> simp

theorem getD_scale (l : K) (a : List K) (k : Nat) : (a.map (l * ·)).getD k 0 = l * a.getD k 0 := by
  rw [List.getD_eq_getElem?_getD, List.getD_eq_getElem?_getD, List.getElem?_map]
  cases a[k]? <;> simp

theorem argmaxGt_scale (hl : 0 < l) (arr : List K) (x : K) : argmaxGt (arr.map (l * ·)) (l * x) = argmaxGt arr x := by
  unfold argmaxGt
  rw [List.map_map]
  congr 1
  refine List.map_congr_left fun a _ => ?_
  simp only [Function.comp, s_lt hl]

theorem argmaxGt_wide (hl : 0 < l) {m : K} {arr : List K} (hw : WideTable l m arr) (x : K) :
    argmaxGt (arr.map (l * ·)) (min (l * m - 1 / 100) (l * x)) = argmaxGt arr (min (m - 1 / 100) x) := by
  unfold argmaxGt
  rw [List.map_map]
  congr 1
  refine List.map_congr_left fun a ha => ?_
  simp only [Function.comp, min_lt_iff, s_lt hl]
  rw [decide_eq_decide]
  rcases hw a ha with rfl | ⟨h1, h2⟩
  · have e1 : l * a - 1 / 100 < l * a := by norm_num
    have e2 : a - 1 / 100 < a := by norm_num
    simp only [e1, e2, true_or]
  · have e1 : ¬ l * m - 1 / 100 < l * a := by linarith
    have e2 : ¬ m - 1 / 100 < a := by linarith
    simp only [e1, e2, false_or]

theorem lookupMax1_wide (hl : 0 < l) {m : K} {arr : List K} (hw : WideTable l m arr) (vals : List K) (x : K) :
    lookupMax1 (arr.map (l * ·)) vals (min (l * m - 1 / 100) (l * x)) = lookupMax1 arr vals (min (m - 1 / 100) x) := by
  unfold lookupMax1
  rw [argmaxGt_wide hl hw]

theorem lookupM1_wide (hl : 0 < l) {m : K} {arr : List K} (hw : WideTable l m arr) (vals : List K) (x : K) :
    lookupM1 (arr.map (l * ·)) (vals.map (l * ·)) (min (l * m - 1 / 100) (l * x)) = l * lookupM1 arr vals (min (m - 1 / 100) x) := by
  unfold lookupM1
  simp only [argmaxGt_wide hl hw, getLast_scale, getD_scale, s_ite]

/-! ### Limits -/

theorem setMisc_scale : setMisc (scaledVeh l V) (scaledEnv l E) (scaledRow l p) = setMisc V E p := rfl

theorem curMaxFsKwOut_scale (hl : 0 < l) :
    curMaxFsKwOut (scaledVeh l V) (scaledEnv l E) (scaledRow l p) = l * curMaxFsKwOut V E p := by
  unfold curMaxFsKwOut; pull

theorem fcTransLimKw_scale (hl : 0 < l) :
    fcTransLimKw (scaledVeh l V) (scaledEnv l E) (scaledRow l p) = l * fcTransLimKw V E p := by
  unfold fcTransLimKw; pull

theorem curMaxFcKwOut_scale (hl : 0 < l) :
    curMaxFcKwOut (scaledVeh l V) (scaledEnv l E) (scaledRow l p) = l * curMaxFcKwOut V E p := by
  unfold curMaxFcKwOut; rw [fcTransLimKw_scale hl]; pull

theorem essCapLimDischgKw_scale (hl : 0 < l) :
    essCapLimDischgKw F (scaledVeh l V) (scaledEnv l E) (scaledRow l p) = l * essCapLimDischgKw F V E p := by
  unfold essCapLimDischgKw; pull

theorem curEssMaxKwOut_scale (hl : 0 < l) :
    curEssMaxKwOut F (scaledVeh l V) (scaledEnv l E) (scaledRow l p) = l * curEssMaxKwOut F V E p := by
  unfold curEssMaxKwOut; rw [essCapLimDischgKw_scale hl]; pull

theorem essCapLimChgKw_scale (hl : 0 < l) :
    essCapLimChgKw F (scaledVeh l V) (scaledEnv l E) (scaledRow l p) = l * essCapLimChgKw F V E p := by
  unfold essCapLimChgKw; pull

theorem curMaxEssChgKw_scale (hl : 0 < l) :
    curMaxEssChgKw F (scaledVeh l V) (scaledEnv l E) (scaledRow l p) = l * curMaxEssChgKw F V E p := by
  unfold curMaxEssChgKw; rw [essCapLimChgKw_scale hl]; pull

theorem curMaxElecKw_scale (hl : 0 < l) :
    curMaxElecKw F (scaledVeh l V) (scaledEnv l E) (scaledRow l p) = l * curMaxElecKw F V E p := by
  unfold curMaxElecKw; rw [curMaxFcKwOut_scale hl, curEssMaxKwOut_scale hl]; pull

theorem curMaxAvailElecKw_scale (hl : 0 < l) :
    curMaxAvailElecKw F (scaledVeh l V) (scaledEnv l E) (scaledRow l p) = l * curMaxAvailElecKw F V E p := by
  unfold curMaxAvailElecKw; rw [curMaxElecKw_scale hl]; pull

theorem mcElecInLimKw_scale (hl : 0 < l) (hw : WideMaps l V) :
    mcElecInLimKw F (scaledVeh l V) (scaledEnv l E) (scaledRow l p) = l * mcElecInLimKw F V E p := by
  unfold mcElecInLimKw
  rw [curMaxElecKw_scale hl, curMaxAvailElecKw_scale hl]
  simp only [scaledVeh, listMax_scale hl, getLast_scale, lookupM1_wide hl hw.2]
  pull

theorem mcTransiLimKw_scale (hl : 0 < l) :
    mcTransiLimKw (scaledVeh l V) (scaledEnv l E) (scaledRow l p) = l * mcTransiLimKw V E p := by
  unfold mcTransiLimKw; pull

theorem curMaxMcKwOut_scale (hl : 0 < l) (hw : WideMaps l V) :
    curMaxMcKwOut F (scaledVeh l V) (scaledEnv l E) (scaledRow l p) = l * curMaxMcKwOut F V E p := by
  unfold curMaxMcKwOut; rw [mcElecInLimKw_scale hl hw, mcTransiLimKw_scale hl]; pull

theorem curMaxMcElecKwIn_scale (hl : 0 < l) (hw : WideMaps l V) :
    curMaxMcElecKwIn F (scaledVeh l V) (scaledEnv l E) (scaledRow l p) = l * curMaxMcElecKwIn F V E p := by
  unfold curMaxMcElecKwIn
  rw [curMaxMcKwOut_scale hl hw]
  simp only [scaledVeh, lookupMax1_wide hl hw.1]
  pull

theorem essLimMcRegenPercKw_scale (hl : 0 < l) :
    essLimMcRegenPercKw F (scaledVeh l V) (scaledEnv l E) (scaledRow l p) = essLimMcRegenPercKw F V E p := by
  unfold essLimMcRegenPercKw; rw [curMaxEssChgKw_scale hl]; pull

theorem curMaxMechMcKwIn_scale (hl : 0 < l) (hw : WideMaps l V) :
    curMaxMechMcKwIn F (scaledVeh l V) (scaledEnv l E) (scaledRow l p) = l * curMaxMechMcKwIn F V E p := by
  unfold curMaxMechMcKwIn
  rw [curMaxEssChgKw_scale hl]
  simp only [scaledVeh, scaledEnv, ← mul_sub l, lookupMax1_wide hl hw.1]
  pull

theorem curMaxTracKw_scale (hl : 0 < l) (m : Misc K) : curMaxTracKw (scaledVeh l V) P m = l * curMaxTracKw V P m := by
  unfold curMaxTracKw; pull

theorem curMaxTransKwOut_scale (hl : 0 < l) (hw : WideMaps l V) (m : Misc K) :
    curMaxTransKwOut F (scaledVeh l V) P (scaledEnv l E) (scaledRow l p) m = l * curMaxTransKwOut F V P E p m := by
  unfold curMaxTransKwOut
  rw [curMaxMcKwOut_scale hl hw, curMaxFcKwOut_scale hl, curMaxTracKw_scale hl, curMaxElecKw_scale hl]
  pull

theorem setCompLims_scale (hl : 0 < l) (hw : WideMaps l V) (m : Misc K) :
    setCompLims F (scaledVeh l V) P (scaledEnv l E) (scaledRow l p) m =
      (scaledRow l { p with lims := setCompLims F V P E p m }).lims := by
  unfold setCompLims
  rw [curMaxFsKwOut_scale hl, fcTransLimKw_scale hl, curMaxFcKwOut_scale hl, essCapLimDischgKw_scale hl, curEssMaxKwOut_scale hl,
    essCapLimChgKw_scale hl, curMaxEssChgKw_scale hl, curMaxElecKw_scale hl, curMaxAvailElecKw_scale hl, mcElecInLimKw_scale hl hw,
    mcTransiLimKw_scale hl, curMaxMcKwOut_scale hl hw, curMaxMcElecKwIn_scale hl hw, essLimMcRegenPercKw_scale hl,
    curMaxMechMcKwIn_scale hl hw, curMaxTracKw_scale hl, curMaxTransKwOut_scale hl hw]
  rfl

def scaledLims (l : K) (L : Lims K) : Lims K := (scaledRow l { (Row.zero : Row K) with lims := L }).lims
def scaledPow (l : K) (w : Pow K) : Pow K := (scaledRow l { (Row.zero : Row K) with pow := w }).pow
def scaledHyb (l : K) (h : Hyb K) : Hyb K := (scaledRow l { (Row.zero : Row K) with hyb := h }).hyb
def scaledForced (l : K) (f : Forced K) : Forced K := (scaledRow l { (Row.zero : Row K) with forced := f }).forced
def scaledDec (l : K) (d : Dec K) : Dec K := (scaledRow l { (Row.zero : Row K) with dec := d }).dec
def scaledFc (l : K) (f : FcPow K) : FcPow K := (scaledRow l { (Row.zero : Row K) with fc := f }).fc
def scaledStale (l : K) (s : Stale K) : Stale K := { s with fcKwOutAch := l * s.fcKwOutAch }

/-! ### Road load and speed -/

theorem dragKw_scale (hl : 0 < l) (v0 v : K) : dragKw (scaledVeh l V) P v0 v = l * dragKw V P v0 v := by
  unfold dragKw; pull

theorem accelKw_scale (hl : 0 < l) (dt v0 v : K) : accelKw (scaledVeh l V) dt v0 v = l * accelKw V dt v0 v := by
  unfold accelKw; pull

theorem ascentKw_scale (hl : 0 < l) (g v0 v : K) : ascentKw F (scaledVeh l V) P g v0 v = l * ascentKw F V P g v0 v := by
  unfold ascentKw; pull

theorem rrKw_scale (hl : 0 < l) (g v0 v : K) : rrKw F (scaledVeh l V) P g v0 v = l * rrKw F V P g v0 v := by
  unfold rrKw; pull

theorem tireInertiaKw_scale (hl : 0 < l) (dt v0 v : K) : tireInertiaKw (scaledVeh l V) dt v0 v = l * tireInertiaKw V dt v0 v := by
  unfold tireInertiaKw; pull

theorem regenBrakeKw_scale (hl : 0 < l) (m q w : K) : regenBrakeKw (scaledVeh l V) (l * m) q (l * w) = l * regenBrakeKw V m q w := by
  unfold regenBrakeKw; pull

theorem fricBrakeKw_scale (hl : 0 < l) (r w : K) : fricBrakeKw (l * r) (l * w) = l * fricBrakeKw r w := by
  unfold fricBrakeKw; pull

theorem transKwIn_scale (hl : 0 < l) (x : K) : transKwIn (scaledVeh l V) (l * x) = l * transKwIn V x := by
  unfold transKwIn; pull

theorem powerAt_scale (hl : 0 < l) (L : Lims K) (v : K) :
    powerAt F (scaledVeh l V) P (scaledEnv l E) (scaledRow l p) (scaledLims l L) v = scaledPow l (powerAt F V P E p L v) := by
  have e1 : (scaledRow l p).ach = p.ach := rfl
  have e2 : (scaledEnv l E).dt = E.dt := rfl
  have e3 : (scaledEnv l E).gradeOf = E.gradeOf := rfl
  have e4 : (scaledEnv l E).mps = E.mps := rfl
  have e5 : (scaledLims l L).curMaxMechMcKwIn = l * L.curMaxMechMcKwIn := rfl
  have e6 : (scaledLims l L).curMaxTransKwOut = l * L.curMaxTransKwOut := rfl
  have e7 : (scaledLims l L).curMaxTracKw = l * L.curMaxTracKw := rfl
  have e8 : (scaledLims l L).curMaxFcKwOut = l * L.curMaxFcKwOut := rfl
  have e9 : (scaledLims l L).curMaxMcKwOut = l * L.curMaxMcKwOut := rfl
  have e10 : (scaledVeh l V).wheelRadiusM = V.wheelRadiusM := rfl
  have e11 : (scaledVeh l V).fcType = V.fcType := rfl
  have e12 : ∀ a b, regenContrlLimKwPerc F (scaledVeh l V) a b = regenContrlLimKwPerc F V a b := fun _ _ => rfl
  unfold powerAt
  simp only [e1, e2, e3, e4, e5, e6, e7, e8, e9, e10, e11, e12, dragKw_scale hl, accelKw_scale hl, ascentKw_scale hl, rrKw_scale hl,
    tireInertiaKw_scale hl, ← mul_add l, regenBrakeKw_scale hl, fricBrakeKw_scale hl, s_le hl, s_ite l, transKwIn_scale hl,
    ← mul_sub l, ← mul_neg l, s_max hl]
  rfl

theorem cubic_scale (l a b c d x : K) : cubic (l * a) (l * b) (l * c) (l * d) x = l * cubic a b c d x := by
  unfold cubic; ring

theorem cubicD_scale (l a b c x : K) : cubicD (l * a) (l * b) (l * c) x = l * cubicD a b c x := by
  unfold cubicD; ring

theorem newtonLoop_scale (hl : 0 < l) (a b c d x g : K) : ∀ (n i : Nat) (xs : List K),
    newtonLoop (l * a) (l * b) (l * c) (l * d) x g n i xs = newtonLoop a b c d x g n i xs
  | 0, _, _ => rfl
  | n + 1, i, xs => by
    unfold newtonLoop
    simp only [cubic_scale, cubicD_scale, s_swap l, ← mul_sub l, s_div hl, newtonLoop_scale hl a b c d x g n]

theorem argminBy_scale (hl : 0 < l) (f : K → K) : ∀ (xs : List K) (b : K), argminBy (fun x => l * f x) xs b = argminBy f xs b
  | [], _ => rfl
  | x :: xs, b => by
    unfold argminBy
    simp only [s_lt hl, argminBy_scale hl f xs]

theorem newtonMps_scale (hl : 0 < l) (v0 a b c d : K) : newtonMps P v0 (l * a) (l * b) (l * c) (l * d) = newtonMps P v0 a b c d := by
  unfold newtonMps
  simp only [newtonLoop_scale hl, cubic_scale, s_pabs hl, argminBy_scale hl]

theorem speedCoeffs_scale (dt v0 m g : K) : speedCoeffs F (scaledVeh l V) P dt v0 (l * m) g =
    (l * (speedCoeffs F V P dt v0 m g).1, l * (speedCoeffs F V P dt v0 m g).2.1, l * (speedCoeffs F V P dt v0 m g).2.2.1,
      l * (speedCoeffs F V P dt v0 m g).2.2.2) := by
  unfold speedCoeffs
  simp only [scaledVeh, Prod.mk.injEq]
  refine ⟨?_, ?_, ?_, ?_⟩ <;> ring

theorem gradeLoop_scale (hl : 0 < l) (v0 m : K) : ∀ (n : Nat) (g : K) (r : Nat × K),
    gradeLoop F (scaledVeh l V) P (scaledEnv l E) v0 (l * m) n g r = gradeLoop F V P E v0 m n g r
  | 0, _, _ => rfl
  | n + 1, g, r => by
    unfold gradeLoop
    have e2 : (scaledEnv l E).dt = E.dt := rfl
    have e3 : (scaledEnv l E).gradeOf = E.gradeOf := rfl
    simp only [e2, e3, speedCoeffs_scale, newtonMps_scale hl, gradeLoop_scale hl v0 m n]

theorem setAchSpeed_scale (hl : 0 < l) (L : Lims K) (w : Pow K) (st : Stale K) :
    setAchSpeed F (scaledVeh l V) P (scaledEnv l E) (scaledRow l p) (scaledLims l L) (scaledPow l w) (scaledStale l st) =
      ((setAchSpeed F V P E p L w st).1, scaledPow l (setAchSpeed F V P E p L w st).2) := by
  unfold setAchSpeed
  have e1 : (scaledPow l w).cycMet = w.cycMet := rfl
  have e6 : (scaledLims l L).curMaxTransKwOut = l * L.curMaxTransKwOut := rfl
  have e7 : (scaledRow l p).ach = p.ach := rfl
  have e8 : (scaledEnv l E).gradeEst = E.gradeEst := rfl
  have e9 : (scaledEnv l E).mps = E.mps := rfl
  have e10 : (scaledEnv l E).dt = E.dt := rfl
  have e11 : (scaledStale l st).newtonIters = st.newtonIters := rfl
  have e12 : (scaledStale l st).mpsAch = st.mpsAch := rfl
  simp only [e1, e6, e7, e8, e9, e10, e11, e12, gradeLoop_scale hl, powerAt_scale hl]
  split <;> rfl

theorem setPowerCalcs_scale (hl : 0 < l) (L : Lims K) (st : Stale K) :
    setPowerCalcs F (scaledVeh l V) P (scaledEnv l E) (scaledRow l p) (scaledLims l L) (scaledStale l st) =
      scaledPow l (setPowerCalcs F V P E p L st) := by
  unfold setPowerCalcs
  exact powerAt_scale hl L _

/-! ### Battery buffers -/

theorem regenBuffSoc_scale (hl : 0 < l) : regenBuffSoc (scaledVeh l V) (scaledEnv l E) = regenBuffSoc V E := by
  unfold regenBuffSoc; pull

theorem accelBuffSoc_scale (hl : 0 < l) : accelBuffSoc (scaledVeh l V) (scaledEnv l E) = accelBuffSoc V E := by
  unfold accelBuffSoc; pull


variable {L : Lims K} {pw : Pow K} {h : Hyb K} {f : Forced K} {d : Dec K} {M : Misc K}

theorem essRegenBuffDischgKw_scale (hl : 0 < l) (soc : K) : essRegenBuffDischgKw (scaledVeh l V) (scaledEnv l E) soc (scaledLims l L) =
    l * essRegenBuffDischgKw V E soc L := by
  unfold essRegenBuffDischgKw; rw [regenBuffSoc_scale hl]; simp only [scaledLims]; pull

theorem maxEssRegenBuffChgKw_scale (hl : 0 < l) (soc : K) : maxEssRegenBuffChgKw (scaledVeh l V) (scaledEnv l E) soc (scaledLims l L) =
    l * maxEssRegenBuffChgKw V E soc L := by
  unfold maxEssRegenBuffChgKw; rw [regenBuffSoc_scale hl]; simp only [scaledLims]; pull

theorem essAccelBuffChgKw_scale (hl : 0 < l) (soc : K) : essAccelBuffChgKw (scaledVeh l V) (scaledEnv l E) soc =
    l * essAccelBuffChgKw V E soc := by
  unfold essAccelBuffChgKw; rw [accelBuffSoc_scale hl]; pull

theorem maxEssAccellBuffDischgKw_scale (hl : 0 < l) (soc : K) :
    maxEssAccellBuffDischgKw (scaledVeh l V) (scaledEnv l E) soc (scaledLims l L) = l * maxEssAccellBuffDischgKw V E soc L := by
  unfold maxEssAccellBuffDischgKw; rw [accelBuffSoc_scale hl]; simp only [scaledLims]; pull

theorem essAccelRegenDischgKw_scale (hl : 0 < l) (soc : K) :
    essAccelRegenDischgKw (scaledVeh l V) (scaledEnv l E) soc (scaledLims l L) = l * essAccelRegenDischgKw V E soc L := by
  unfold essAccelRegenDischgKw
  rw [accelBuffSoc_scale hl, regenBuffSoc_scale hl, essRegenBuffDischgKw_scale hl, essAccelBuffChgKw_scale hl]
  simp only [scaledLims]; pull

theorem mcElecInKwForMaxFcEff_scale (hl : 0 < l) (hw : WideMaps l V) :
    mcElecInKwForMaxFcEff (scaledVeh l V) (scaledPow l pw) = l * mcElecInKwForMaxFcEff V pw := by
  unfold mcElecInKwForMaxFcEff
  simp only [scaledPow, scaledVeh, scaledRow, ← mul_sub l, s_pabs hl, getLast_scale, lookupM1_wide hl hw.1, lookupMax1_wide hl hw.1]
  pull

theorem elecKwReq4ae_scale (hl : 0 < l) (hw : WideMaps l V) :
    elecKwReq4ae (scaledVeh l V) (scaledEnv l E) (scaledPow l pw) = l * elecKwReq4ae V E pw := by
  unfold elecKwReq4ae
  simp only [scaledPow, scaledVeh, scaledRow, lookupMax1_wide hl hw.1]
  pull

theorem canPwrAllElec_scale (hl : 0 < l) (hw : WideMaps l V) (soc : K)
    (ho : pw.transKwInAch ≤ L.curMaxMcKwOut ∨
      (L.curMaxMcKwOut + 1 / 1000000 < pw.transKwInAch ∧ l * L.curMaxMcKwOut + 1 / 1000000 < l * pw.transKwInAch)) :
    canPwrAllElec (scaledVeh l V) (scaledEnv l E) soc (scaledLims l L) (scaledPow l pw) = canPwrAllElec V E soc L pw := by
  have key : (l * pw.transKwInAch - 1 / 1000000 ≤ l * L.curMaxMcKwOut) ↔ (pw.transKwInAch - 1 / 1000000 ≤ L.curMaxMcKwOut) := by
    rcases ho with ho | ⟨h1, h2⟩
    · have h3 := (s_le hl _ _).2 ho
      constructor <;> intro _ <;> linarith [show (0 : K) < 1 / 1000000 by norm_num]
    · constructor <;> intro h3 <;> exfalso <;> linarith
  unfold canPwrAllElec
  rw [accelBuffSoc_scale hl, elecKwReq4ae_scale hl hw]
  simp only [scaledLims, scaledPow, scaledRow, key]
  pull

theorem desiredEssKwOutForAe_scale (hl : 0 < l) (hw : WideMaps l V) (soc : K)
    (ho : pw.transKwInAch ≤ L.curMaxMcKwOut ∨
      (L.curMaxMcKwOut + 1 / 1000000 < pw.transKwInAch ∧ l * L.curMaxMcKwOut + 1 / 1000000 < l * pw.transKwInAch)) :
    desiredEssKwOutForAe (scaledVeh l V) (scaledEnv l E) soc (scaledLims l L) (scaledPow l pw) = l * desiredEssKwOutForAe V E soc L pw := by
  unfold desiredEssKwOutForAe
  rw [canPwrAllElec_scale hl hw soc ho, accelBuffSoc_scale hl, regenBuffSoc_scale hl, essAccelRegenDischgKw_scale hl,
    essRegenBuffDischgKw_scale hl, essAccelBuffChgKw_scale hl]
  simp only [scaledPow]; pull

theorem essAeKwOut_scale (hl : 0 < l) (hw : WideMaps l V) (soc : K)
    (ho : pw.transKwInAch ≤ L.curMaxMcKwOut ∨
      (L.curMaxMcKwOut + 1 / 1000000 < pw.transKwInAch ∧ l * L.curMaxMcKwOut + 1 / 1000000 < l * pw.transKwInAch)) :
    essAeKwOut (scaledVeh l V) (scaledEnv l E) soc (scaledLims l L) (scaledPow l pw) = l * essAeKwOut V E soc L pw := by
  unfold essAeKwOut
  rw [canPwrAllElec_scale hl hw soc ho, desiredEssKwOutForAe_scale hl hw soc ho, maxEssRegenBuffChgKw_scale hl]
  simp only [scaledPow, scaledLims]; pull

theorem setHyb_scale (hl : 0 < l) (hw : WideMaps l V)
    (ho : pw.transKwInAch ≤ L.curMaxMcKwOut ∨
      (L.curMaxMcKwOut + 1 / 1000000 < pw.transKwInAch ∧ l * L.curMaxMcKwOut + 1 / 1000000 < l * pw.transKwInAch)) :
    setHyb (scaledVeh l V) (scaledEnv l E) (scaledRow l p) (scaledLims l L) (scaledPow l pw) = scaledHyb l (setHyb V E p L pw) := by
  have e1 : (scaledRow l p).dec.soc = p.dec.soc := rfl
  have e2 : (scaledRow l p).dec.fcTimeOn = p.dec.fcTimeOn := rfl
  have e3 : (scaledPow l pw).transKwOutAch = l * pw.transKwOutAch := rfl
  have e4 : (scaledPow l pw).transKwInAch = l * pw.transKwInAch := rfl
  have e5 : (scaledVeh l V).maxFcEffKw = l * V.maxFcEffKw := rfl
  have e6 : (scaledEnv l E).auxIn = l * E.auxIn := rfl
  have e7 : (scaledEnv l E).roadKw = l * E.roadKw := rfl
  unfold setHyb
  simp only [e1, e2, e3, e4, e5, e6, e7, regenBuffSoc_scale hl, essRegenBuffDischgKw_scale hl, maxEssRegenBuffChgKw_scale hl,
    accelBuffSoc_scale hl, essAccelBuffChgKw_scale hl, maxEssAccellBuffDischgKw_scale hl, essAccelRegenDischgKw_scale hl,
    mcElecInKwForMaxFcEff_scale hl hw, elecKwReq4ae_scale hl hw, canPwrAllElec_scale hl hw _ ho,
    desiredEssKwOutForAe_scale hl hw _ ho, essAeKwOut_scale hl hw _ ho, ← mul_add l, ← mul_sub l, s_pabs hl, s_0max hl, s_min hl]
  rfl

/-! ### Decisions -/

theorem setForced_scale (hl : 0 < l) :
    setForced (scaledVeh l V) (scaledEnv l E) (scaledPow l pw) (scaledHyb l h) = scaledForced l (setForced V E pw h) := by
  have e0 : fcForcedOn (scaledVeh l V) (scaledEnv l E) (scaledHyb l h) = fcForcedOn V E h := rfl
  have e1 : (scaledHyb l h).canPwrAllElec = h.canPwrAllElec := rfl
  have e4 : (scaledPow l pw).transKwInAch = l * pw.transKwInAch := rfl
  have e3 : (scaledPow l pw).accelKw = l * pw.accelKw := rfl
  have e5 : (scaledVeh l V).maxFcEffKw = l * V.maxFcEffKw := rfl
  have e6 : (scaledVeh l V).idleFcKw = l * V.idleFcKw := rfl
  have e7 : ∀ g : Forced K, scaledForced l g = ⟨g.fcForcedOn, g.fcForcedState, l * g.mcMechKw4forcedFc⟩ := fun _ => rfl
  unfold setForced
  simp only [e0, e1, e3, e4, e5, e6, e7, s_neg hl, s_eq hl, s_lt hl, s_nonneg hl, ← mul_sub l]
  split_ifs <;> simp

theorem essDesiredKw4fcEff_scale (hl : 0 < l) :
    essDesiredKw4fcEff (scaledVeh l V) (scaledEnv l E) (scaledHyb l h) = l * essDesiredKw4fcEff V E h := by
  unfold essDesiredKw4fcEff; simp only [scaledHyb]; pull

theorem essKwIfFcReq_scale (hl : 0 < l) :
    essKwIfFcReq (scaledVeh l V) (scaledEnv l E) (scaledLims l L) (scaledHyb l h) = l * essKwIfFcReq V E L h := by
  unfold essKwIfFcReq; rw [essDesiredKw4fcEff_scale hl]; simp only [scaledHyb, scaledLims]; pull

theorem erKwIfFcReq_scale (hl : 0 < l) :
    erKwIfFcReq (scaledVeh l V) (scaledEnv l E) (scaledLims l L) (scaledHyb l h) = l * erKwIfFcReq V E L h := by
  unfold erKwIfFcReq; rw [essKwIfFcReq_scale hl]; simp only [scaledLims]; pull

theorem mcElecKwInIfFcReq_scale (hl : 0 < l) :
    mcElecKwInIfFcReq (scaledVeh l V) (scaledEnv l E) (scaledLims l L) (scaledHyb l h) = l * mcElecKwInIfFcReq V E L h := by
  unfold mcElecKwInIfFcReq; rw [essKwIfFcReq_scale hl, erKwIfFcReq_scale hl]; pull

theorem mcKwIfFcReq_scale (hl : 0 < l) (hw : WideMaps l V) :
    mcKwIfFcReq (scaledVeh l V) (scaledEnv l E) (scaledLims l L) (scaledHyb l h) = l * mcKwIfFcReq V E L h := by
  unfold mcKwIfFcReq
  rw [mcElecKwInIfFcReq_scale hl]
  simp only [scaledVeh, listMax_scale hl, mul_assoc l, lookupMax1_wide hl hw.2]
  pull

theorem mcMechKwOutAch_scale (hl : 0 < l) (hw : WideMaps l V) :
    mcMechKwOutAch (scaledVeh l V) (scaledEnv l E) (scaledLims l L) (scaledPow l pw) (scaledHyb l h) (scaledForced l f) =
      l * mcMechKwOutAch V E L pw h f := by
  unfold mcMechKwOutAch
  rw [mcKwIfFcReq_scale hl hw]
  simp only [scaledLims, scaledPow, scaledHyb, scaledForced]
  pull

theorem mcElecKwInAch_scale (hl : 0 < l) (hw : WideMaps l V) (m : K) : mcElecKwInAch (scaledVeh l V) (l * m) = l * mcElecKwInAch V m := by
  unfold mcElecKwInAch
  simp only [scaledVeh, listMax_scale hl, mul_assoc l, lookupMax1_wide hl hw.1, lookupMax1_wide hl hw.2]
  pull

theorem roadwayChgKwOutAch_scale (hl : 0 < l) (m : K) :
    roadwayChgKwOutAch (scaledVeh l V) (scaledEnv l E) (scaledLims l L) (scaledHyb l h) (l * m) = l * roadwayChgKwOutAch V E L h m := by
  unfold roadwayChgKwOutAch
  rw [erKwIfFcReq_scale hl]
  simp only [scaledHyb]
  pull
  split_ifs <;> first | rfl | exact (mul_zero l).symm | exact if_pos ‹_› | exact if_neg ‹_›

theorem essKwOutAch_scale (hl : 0 < l) (m r : K) :
    essKwOutAch (scaledVeh l V) (scaledEnv l E) M (scaledLims l L) (scaledPow l pw) (scaledHyb l h) (l * m) (l * r) =
      l * essKwOutAch V E M L pw h m r := by
  unfold essKwOutAch
  rw [essDesiredKw4fcEff_scale hl]
  simp only [scaledHyb, scaledLims, scaledPow]
  pull

theorem essCurKwh_scale (hl : 0 < l) (dt k e : K) : essCurKwh F (scaledVeh l V) dt (l * k) (l * e) = l * essCurKwh F V dt k e := by
  unfold essCurKwh; pull

theorem socOf_scale (hl : 0 < l) (k : K) : socOf (scaledVeh l V) (l * k) = socOf V k := by
  unfold socOf; pull

theorem setDec_scale (hl : 0 < l) (hw : WideMaps l V) (st : Stale K) :
    setDec F (scaledVeh l V) (scaledEnv l E) (scaledRow l p) M (scaledLims l L) (scaledPow l pw) (scaledHyb l h) (scaledForced l f)
      (scaledStale l st) = scaledDec l (setDec F V E p M L pw h f st) := by
  have e1 : (scaledRow l p).dec.essCurKwh = l * p.dec.essCurKwh := rfl
  have e2 : (scaledRow l p).dec.fcTimeOn = p.dec.fcTimeOn := rfl
  have e3 : (scaledEnv l E).dt = E.dt := rfl
  have e4 : (scaledEnv l E).auxIn = l * E.auxIn := rfl
  have e5 : (scaledLims l L).curMaxFcKwOut = l * L.curMaxFcKwOut := rfl
  have e6 : (scaledHyb l h).canPwrAllElec = h.canPwrAllElec := rfl
  have e7 : (scaledForced l f).fcForcedOn = f.fcForcedOn := rfl
  have e8 : (scaledStale l st).fcKwOutAch = l * st.fcKwOutAch := rfl
  unfold setDec
  simp only [e1, e2, e3, e4, e5, e6, e7, e8, mcMechKwOutAch_scale hl hw, mcElecKwInAch_scale hl hw, roadwayChgKwOutAch_scale hl,
    essKwOutAch_scale hl, essCurKwh_scale hl, socOf_scale hl, essDesiredKw4fcEff_scale hl, essKwIfFcReq_scale hl, erKwIfFcReq_scale hl,
    mcElecKwInIfFcReq_scale hl, mcKwIfFcReq_scale hl hw, s_eq0 hl, ← mul_add l, ← mul_sub l]
  rfl

/-! ### Engine -/

theorem fcKwOutAch_scale (hl : 0 < l) :
    fcKwOutAch (scaledVeh l V) (scaledEnv l E) M (scaledLims l L) (scaledPow l pw) (scaledDec l d) = l * fcKwOutAch V E M L pw d := by
  unfold fcKwOutAch; simp only [scaledLims, scaledPow, scaledDec]; pull

theorem fcEffAt_scale (hl : 0 < l) (x : K) : fcEffAt (scaledVeh l V) (l * x) = fcEffAt V x := by
  unfold fcEffAt lookupM1
  simp only [scaledVeh, s_min hl, argmaxGt_scale hl]

theorem fcKwInAch_scale (hl : 0 < l) (x : K) : fcKwInAch (scaledVeh l V) (l * x) = l * fcKwInAch V x := by
  unfold fcKwInAch; rw [fcEffAt_scale hl]; pull

theorem setFcPower_scale (hl : 0 < l) :
    setFcPower (scaledVeh l V) (scaledEnv l E) M (scaledLims l L) (scaledPow l pw) (scaledDec l d) =
      scaledFc l (setFcPower V E M L pw d) := by
  have e1 : (scaledVeh l V).fcMaxKw = l * V.fcMaxKw := rfl
  have e2 : (scaledEnv l E).dt = E.dt := rfl
  unfold setFcPower
  simp only [e1, e2, fcKwOutAch_scale hl, fcKwInAch_scale hl, s_eq0 hl, s_div hl, mul_assoc l]
  rfl

/-! ### The step -/

/-- **C133 (a step).** A step of the scaled vehicle, from the scaled state, with the scaled accessory load, is the scaled step:
the same speed, charge and decisions, all powers and energies `l` times as large. -/
theorem C133_step (hl : 0 < l) (hw : WideMaps l V) (st : Stale K) (ho : OffLimit l (solveStep F V P E p st)) :
    solveStep F (scaledVeh l V) P { E with auxIn := l * E.auxIn, roadKw := l * E.roadKw } (scaledRow l p)
      { st with fcKwOutAch := l * st.fcKwOutAch } = scaledRow l (solveStep F V P E p st) := by
  have eL : setCompLims F (scaledVeh l V) P (scaledEnv l E) (scaledRow l p) (setMisc V E p) =
      scaledLims l (setCompLims F V P E p (setMisc V E p)) := setCompLims_scale hl hw _
  show solveStep F (scaledVeh l V) P (scaledEnv l E) (scaledRow l p) (scaledStale l st) = _
  unfold OffLimit at ho
  unfold solveStep at ho ⊢
  simp only at ho ⊢
  rw [setMisc_scale, eL, setPowerCalcs_scale hl, setAchSpeed_scale hl]
  dsimp only
  rw [setHyb_scale hl hw ho, setForced_scale hl, setDec_scale hl hw, setFcPower_scale hl]
  rfl


/-! ### The run -/

theorem prescribed_scale (l : K) (n : Nat) (aux : Option (List K)) :
    prescribed n (aux.map fun a => a.map (l * ·)) = (prescribed n aux).map (l * ·) := by
  unfold prescribed
  cases aux with
  | none => simp
  | some a =>
    simp only [Option.map_some, List.length_map]
    split <;> simp

theorem loadAt_scale (hl : 0 < l) (a : List K) (i : Nat) :
    loadAt (scaledVeh l V) (a.map (l * ·)) i = (loadAt V a i).map (l * ·) := by
  unfold loadAt
  have hs : Silent (a.map (l * ·)) i ↔ Silent a i := by
    unfold Silent
    constructor
    · intro h j hj x hx
      have := h j hj (l * x) (by rw [List.getElem?_map, hx]; rfl)
      exact (s_eq0 hl x).1 this
    · intro h j hj x hx
      rw [List.getElem?_map] at hx
      obtain ⟨y, hy, rfl⟩ := Option.map_eq_some_iff.1 hx
      rw [h j hj y hy, mul_zero]
  have ho : ownAux (scaledVeh l V) = l * ownAux V := by
    unfold ownAux
    pull
  rw [List.length_map]
  rw [ho, List.getElem?_map]
  by_cases h : 1 ≤ i ∧ i < a.length ∧ Silent a i
  · rw [if_pos h, if_pos ⟨h.1, h.2.1, hs.2 h.2.2⟩]; rfl
  · rw [if_neg h, if_neg fun k => h ⟨k.1, k.2.1, hs.1 k.2.2⟩]

section run
variable [FloorRing K] {Q : SimParams K}

/-- **C133 (a run).** A vehicle with all masses, areas, powers, capacities and accessory loads `l` times as large drives the same trace
in the same way: the run completes if that of the vehicle does, and has at every sample the same speed, distance, charge and
decisions, and every power and energy `l` times as large. -/
theorem C133_run (hc : Q.coastAllow = false) (hd : Q.idmAllow = false) (hm : Q.missedTrace = false) (hl : 0 < l)
    (hw : WideMaps l V) {c : Cyc K} {init : Option K} {aux : Option (List K)} (hi : init = none → V.ptType ≠ .hev) {s : Sim K}
    (h : simDrive F (realHooks F V Q) V Q (Sim.new c) init aux = .ok s) (ho : ∀ r ∈ s.rows, OffLimit l r) :
    ∃ t, simDrive F (realHooks F (scaledVeh l V) Q) (scaledVeh l V) Q (Sim.new c) init (aux.map fun a => a.map (l * ·)) = .ok t ∧
      t.rows = s.rows.map (scaledRow l) ∧ t.cyc = s.cyc ∧ t.aux = s.aux.map (l * ·) := by
  have hH : (realHooks F V Q).Local := realHooks_local
  have hH' : (realHooks F (scaledVeh l V) Q).Local := realHooks_local
  have hi' : init = none → (scaledVeh l V).ptType ≠ .hev := hi
  have hw1 := h
  rw [C27_single_walk _ _ _ hi] at hw1
  have ds := walk_done hH (s := { Sim.new c with hevCount := 0 }) rfl hw1
  have hr : Runnable Q c := ⟨by simp [hd], by simp [hc], by simp [hc], by simp [hc]⟩
  obtain ⟨t, ht⟩ : ∃ t, simDrive F (realHooks F (scaledVeh l V) Q) (scaledVeh l V) Q (Sim.new c) init
      (aux.map fun a => a.map (l * ·)) = .ok t := by
    rw [C27_single_walk _ _ _ hi']
    rcases C51_walk (F := F) (V := scaledVeh l V) (P := Q) { Sim.new c with hevCount := 0 } rfl ds.nonempty
      (startSoc (scaledVeh l V) init (scaledVeh l V).ptType) (aux.map fun a => a.map (l * ·)) hr with ⟨-, e⟩ | ⟨⟨e1, e2⟩, -⟩
    · exact e
    · exfalso
      rcases ds.socOk with e | ⟨e3, e4⟩
      · exact e1 e
      · rcases e2 with e2 | e2
        · exact absurd e4 (not_le.2 e2)
        · exact absurd e3 (not_le.2 e2)
  have hw2 := ht
  rw [C27_single_walk _ _ _ hi'] at hw2
  have dt := walk_done hH' (s := { Sim.new c with hevCount := 0 }) rfl hw2
  have ks := simDrive_keeps hH (s := Sim.new c) rfl h
  have kt := simDrive_keeps hH' (s := Sim.new c) rfl ht
  have cs : s.cyc = c := ks.cyc (by unfold Resets; simp [hc, hd, hm])
  have ct : t.cyc = c := kt.cyc (by unfold Resets; simp [hc, hd, hm])
  have cs0 : s.cyc0 = c := ks.cyc0
  have ct0 : t.cyc0 = c := kt.cyc0
  have hls : s.rows.length = c.length := ds.lenRows
  have hlt : t.rows.length = c.length := dt.lenRows
  have haux : t.aux = s.aux.map (l * ·) := by
    refine List.ext_getElem? fun i => ?_
    rw [List.getElem?_map, (C33_load hH realHooks_keepAux (s := Sim.new c) rfl h).2 i,
      (C33_load hH' realHooks_keepAux (s := Sim.new c) rfl ht).2 i, prescribed_scale, loadAt_scale hl]
  have fs := Finished.simDrive hH (s := Sim.new c) rfl h
  have ft := Finished.simDrive hH' (s := Sim.new c) rfl ht
  obtain ⟨-, Rs⟩ := Reachable.recInv hc hd fs.reachable
  obtain ⟨-, Rt⟩ := Reachable.recInv hc hd ft.reachable
  have henv : ∀ i, recordedEnv t i = { recordedEnv s i with auxIn := l * (recordedEnv s i).auxIn, roadKw := l * (recordedEnv s i).roadKw } := by
    intro i
    unfold recordedEnv recordedGrade
    rw [ct, cs, ct0, cs0, haux, getD_scale, mul_zero]
  have rs : ∀ i, i + 1 < c.length →
      s.row (i + 1) = solveStep F V Q.toStepParams (recordedEnv s (i + 1)) (s.row i) Stale.fresh := by
    intro i hi
    obtain ⟨st, hst, e⟩ := Rs.solved (i + 1) (by omega) (by rw [fs.atEnd, cs]; exact hi)
    obtain rfl := hst hm
    rw [Sim.row, List.getD_eq_getElem?_getD, e]; rfl
  have rt : ∀ i, i + 1 < c.length →
      t.row (i + 1) = solveStep F (scaledVeh l V) Q.toStepParams (recordedEnv t (i + 1)) (t.row i) Stale.fresh := by
    intro i hi
    obtain ⟨st, hst, e⟩ := Rt.solved (i + 1) (by omega) (by rw [ft.atEnd, ct]; exact hi)
    obtain rfl := hst hm
    rw [Sim.row, List.getD_eq_getElem?_getD, e]; rfl
  have hfresh : (Stale.fresh : Stale K) = { (Stale.fresh : Stale K) with fcKwOutAch := l * (Stale.fresh : Stale K).fcKwOutAch } := by
    unfold Stale.fresh; simp
  have all : ∀ i, i < c.length → t.row i = scaledRow l (s.row i) := by
    intro i
    induction i with
    | zero =>
      intro _
      have e1 := ds.row0
      have e2 := dt.row0
      rw [Sim.row, Sim.row, List.getD_eq_getElem?_getD, List.getD_eq_getElem?_getD, e1, e2, haux, getD_scale,
        Option.getD_some, Option.getD_some]
      unfold Row.init scaledRow Row.zero scaledVeh startSoc
      simp [mul_left_comm]
    | succ i ih =>
      intro hi
      have hoff := ho (s.row (i + 1)) (by
        rw [Sim.row, List.getD_eq_getElem?_getD, List.getElem?_eq_getElem (by rw [hls]; exact hi)]
        exact List.getElem_mem _)
      rw [rs i hi] at hoff ⊢
      rw [rt i hi, ih (by omega), henv]
      conv_lhs => rw [hfresh]
      exact C133_step hl hw _ hoff
  refine ⟨t, ht, ?_, by rw [ct, cs], haux⟩
  refine List.ext_getElem? fun i => ?_
  by_cases hi : i < c.length
  · have := all i hi
    rw [Sim.row, Sim.row, List.getD_eq_getElem?_getD, List.getD_eq_getElem?_getD] at this
    rw [List.getElem?_map]
    rw [List.getElem?_eq_getElem (by omega), List.getElem?_eq_getElem (by omega)] at this ⊢
    simpa using this
  · rw [List.getElem?_eq_none (by omega), List.getElem?_eq_none (by rw [List.length_map]; omega)]

end run

theorem npSum_scale (l : K) (a : List K) : npSum (a.map (l * ·)) = l * npSum a := by
  rw [npSum_eq, npSum_eq, List.sum_map_mul_left, List.map_id']

theorem npSum_rows_scale (f g : Row K → K) (l : K) (h : ∀ r, f (scaledRow l r) = l * g r) (rows : List (Row K)) :
    npSum ((rows.map (scaledRow l)).map f) = l * npSum (rows.map g) := by
  rw [← npSum_scale, List.map_map, List.map_map]
  congr 1
  exact List.map_congr_left fun r _ => h r

theorem sumDt_scale {s t : Sim K} (hr : t.rows = s.rows.map (scaledRow l)) (hcy : t.cyc = s.cyc) (f g : Row K → K)
    (h : ∀ r, f (scaledRow l r) = l * g r) : sumDt t f = l * sumDt s g := by
  unfold sumDt
  rw [hr, hcy, ← npSum_scale]
  congr 1
  generalize dtS s.cyc = d
  induction s.rows generalizing d with
  | nil => rfl
  | cons r rs ih =>
    cases d with
    | nil => rfl
    | cons x d =>
      simp only [List.map_cons, List.zipWith_cons_cons, h, ih, mul_assoc]

/-- **C133 (the figures of a run).** In a run with the rows of `C133_run`, the distance, the start and end charge and the energy
audit error are those of the vehicle. The fuel, the energy taken from the battery and its use per mile are `l` times as large
and the miles per gallon `l` times smaller. -/
theorem C133_figures (hl : 0 < l) {s t : Sim K} (hr : t.rows = s.rows.map (scaledRow l)) (hcy : t.cyc = s.cyc)
    (ha : t.aux = s.aux.map (l * ·)) :
    totalMiles t = totalMiles s ∧ t.lastRow.dec.soc = s.lastRow.dec.soc ∧ t.firstRow.dec.soc = s.firstRow.dec.soc ∧
    fuelKj t = l * fuelKj s ∧ totalFuelKwh t = l * totalFuelKwh s ∧ (∀ g, mpgge g t = mpgge g s / l) ∧
    essDischgKj (scaledVeh l V) t = l * essDischgKj V s ∧ batteryKwhPerMi (scaledVeh l V) t = l * batteryKwhPerMi V s ∧
    electricKwhPerMi (scaledVeh l V) t = l * electricKwhPerMi V s ∧ netKj F (scaledVeh l V) t = l * netKj F V s ∧
    suppliedKj (scaledVeh l V) t = l * suppliedKj V s ∧
    energyAuditError F (scaledVeh l V) t = energyAuditError F V s := by
  have e1 : totalMiles t = totalMiles s := by
    unfold totalMiles; rw [hr, List.map_map]; rfl
  have zrow : scaledRow l (Row.zero : Row K) = Row.zero := by unfold scaledRow Row.zero; simp
  have lrow : t.lastRow = scaledRow l s.lastRow := by
    unfold Sim.lastRow
    rw [hr, List.getLast?_map]
    cases s.rows.getLast? with
    | none => exact zrow.symm
    | some r => rfl
  have frow : t.firstRow = scaledRow l s.firstRow := by
    unfold Sim.firstRow
    rw [hr, List.getD_eq_getElem?_getD, List.getD_eq_getElem?_getD, List.getElem?_map]
    cases s.rows[0]? with
    | none => exact zrow.symm
    | some r => rfl
  have e2 : t.lastRow.dec.soc = s.lastRow.dec.soc := by rw [lrow]; rfl
  have e3 : t.firstRow.dec.soc = s.firstRow.dec.soc := by rw [frow]; rfl
  have e4 : fuelKj t = l * fuelKj s := sumDt_scale hr hcy _ _ fun r => rfl
  have e5 : totalFuelKwh t = l * totalFuelKwh s := by
    unfold totalFuelKwh; rw [hr]; exact npSum_rows_scale _ _ l (fun r => rfl) _
  have e6 : ∀ g, mpgge g t = mpgge g s / l := by
    intro g
    unfold mpgge
    rw [e1, e5]
    simp only [s_eq0 hl]
    split
    · simp
    · rw [div_div_eq_mul_div, div_div_eq_mul_div, div_div, mul_comm l]
  have e7 : essDischgKj (scaledVeh l V) t = l * essDischgKj V s := by
    unfold essDischgKj
    rw [e2, e3]
    show _ * (l * V.essMaxKwh) * 3600 = _
    ring
  have e8 : batteryKwhPerMi (scaledVeh l V) t = l * batteryKwhPerMi V s := by
    unfold batteryKwhPerMi
    rw [e1, e7]
    split
    · ring
    · simp
  have er : roadwayChgKj t = l * roadwayChgKj s := sumDt_scale hr hcy _ _ fun r => rfl
  have e9 : electricKwhPerMi (scaledVeh l V) t = l * electricKwhPerMi V s := by
    unfold electricKwhPerMi
    rw [e1, e7, er]
    split
    · ring
    · simp
  have d1 : dragKj t = l * dragKj s := sumDt_scale hr hcy _ _ fun r => rfl
  have d2 : ascentKj t = l * ascentKj s := sumDt_scale hr hcy _ _ fun r => rfl
  have d3 : rrKj t = l * rrKj s := sumDt_scale hr hcy _ _ fun r => rfl
  have d4 : brakeKj t = l * brakeKj s := sumDt_scale hr hcy _ _ fun r => rfl
  have d5 : transKj t = l * transKj s := sumDt_scale hr hcy _ _ fun r => (mul_sub l _ _).symm
  have d6 : mcKj t = l * mcKj s := sumDt_scale hr hcy _ _ fun r => (mul_sub l _ _).symm
  have d7 : fcKj t = l * fcKj s := sumDt_scale hr hcy _ _ fun r => (mul_sub l _ _).symm
  have d8 : essEffKj F (scaledVeh l V) t = l * essEffKj F V s := by
    refine sumDt_scale hr hcy _ _ fun r => ?_
    unfold essLossKw
    simp only [scaledVeh, scaledRow, s_eq0 hl, s_neg hl]
    split
    · simp
    · split <;> ring
  have d9 : auxKj t = l * auxKj s := by
    unfold auxKj
    rw [ha, hcy, ← npSum_scale]
    congr 1
    generalize dtS s.cyc = d
    induction s.aux generalizing d with
    | nil => rfl
    | cons r rs ih =>
      cases d with
      | nil => rfl
      | cons x d => simp only [List.map_cons, List.zipWith_cons_cons, ih, mul_assoc]
  have e10 : netKj F (scaledVeh l V) t = l * netKj F V s := by
    unfold netKj
    rw [d1, d2, d3, d4, d5, d6, d7, d8, d9]
    ring
  have e11 : suppliedKj (scaledVeh l V) t = l * suppliedKj V s := by
    unfold suppliedKj keKj
    rw [er, e7, e4, lrow, frow]
    show _ + 1 / 2 * (l * V.vehKg) * (s.firstRow.ach.mpsAch * s.firstRow.ach.mpsAch - s.lastRow.ach.mpsAch * s.lastRow.ach.mpsAch) / 1000 = _
    ring
  refine ⟨e1, e2, e3, e4, e5, e6, e7, e8, e9, e10, e11, ?_⟩
  unfold energyAuditError
  rw [e10, e11, ← mul_sub, s_div hl]

end Field

/-! ### Cases -/

namespace ScaleDemo
open Demo

instance (l m : ℚ) (a : List ℚ) : Decidable (WideTable l m a) := by unfold WideTable; infer_instance
instance (l : ℚ) (V : Veh ℚ) : Decidable (WideMaps l V) := by unfold WideMaps; infer_instance
instance (l : ℚ) (r : Row ℚ) : Decidable (OffLimit l r) := by unfold OffLimit; infer_instance

/-- Accessory loads prescribed along the trace. -/
def loads : Option (List ℚ) := some [1, 2, 1, 1, 3, 2]

/-- A conventional, a hybrid, a battery-electric and a fuel-cell vehicle of twice the size meet the hypotheses of `C133_run` on
the demo trace with prescribed loads, and `C133_step` at each of its steps. The hypotheses of `C133_figures` are its
conclusions. -/
theorem C133_demo : ∀ V ∈ [conv, hev, bev, h2],
    WideMaps 2 V ∧
    (match simDrive fns (realHooks fns V params) V params (Sim.new cyc) (some (1 / 2)) loads with
      | .ok s => decide ((∀ r ∈ s.rows, OffLimit 2 r) ∧ (0 < fuelKj s ∨ 0 < essDischgKj V s))
      | .error _ => false) = true := by decide +kernel

/-- A battery-electric car with a finer table of motor powers. -/
def bevFine : Veh ℚ :=
  { bev with
    mcKwOutArray := [0, 10, 30, 50], mcKwInArray := [0, 100 / 7, 75 / 2, 500 / 9]
    mcFullEffArray := [0, 7 / 10, 4 / 5, 9 / 10] }

/-- Accelerates to 9 m/s. -/
def quick : Cyc ℚ := [⟨0, 0, 0, 0⟩, ⟨1, 3, 0, 0⟩, ⟨2, 6, 0, 0⟩, ⟨3, 9, 0, 0⟩]

/-- **C133 needs wide tables.** At a thousandth of its size the car uses a thousandth of the energy. At a ten-thousandth, where its
motor has 0.005 kW, it uses more than its share: the code looks efficiencies up no further than 0.01 kW below the end of the
table, which is now below its start. -/
theorem C133_small_motor : WideMaps (1 / 1000) bevFine ∧ ¬ WideMaps (1 / 10000) bevFine ∧
    (match simDrive fns noHooks bevFine params (Sim.new quick) (some (1 / 2)) none,
        simDrive fns noHooks (scaledVeh (1 / 1000) bevFine) params (Sim.new quick) (some (1 / 2)) none,
        simDrive fns noHooks (scaledVeh (1 / 10000) bevFine) params (Sim.new quick) (some (1 / 2)) none with
      | .ok s, .ok t, .ok u => decide (essDischgKj (scaledVeh (1 / 1000) bevFine) t = 1 / 1000 * essDischgKj bevFine s ∧
          1 / 10000 * essDischgKj bevFine s < essDischgKj (scaledVeh (1 / 10000) bevFine) u)
      | _, _, _ => false) = true := by decide +kernel

end ScaleDemo
end Fastsim.Props
