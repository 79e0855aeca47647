import Verif.Props.BevMass
import Verif.Props.Within
import Verif.Lemmas.Vehicle

/-!
# C122: which trips a battery-electric vehicle can make

Whether a trip can be driven without any limit of battery and motor being felt can be read off the trip, the vehicle and
the charge at the start. If the first and the last of a number of repetitions of a trip can be driven, all can.
-/

set_option linter.unusedSectionVars false

namespace Fastsim.Spec
open Fastsim
section Field
variable {K : Type*} [Field K] [LinearOrder K] [IsStrictOrderedRing K]

/-- The battery can feed the motor at its rating together with the accessories and take up what the motor can recover at
its rating; the table of the motor ends at the rating. -/
structure StrongBattery (V : Veh K) : Prop where
  motor : 0 < V.mcMaxKw
  inTop : V.mcMaxElecInKw ∈ V.mcKwInArray
  inMax : ∀ x ∈ V.mcKwInArray, x ≤ V.mcMaxElecInKw
  outTop : V.mcKwOutArray.getLast? = some V.mcMaxKw
  elec : 0 < V.mcMaxElecInKw
  power : V.mcMaxElecInKw + V.auxKw ≤ V.essMaxKw
  brake : V.mcMaxKw ≤ V.essMaxKw
  always : V.stopStart = false
  rise : 0 < V.mcSecToPeakPwr
  window : V.minSoc ≤ V.maxSoc
  buffer : 0 ≤ V.maxAccelBufferPercOfUseableSoc
  regen : 0 ≤ V.maxRegenKwh

/-- Energy (kJ) in the cells between two states of charge. -/
def cellKj (V : Veh K) (lo hi : K) : K := (hi - lo) * V.essMaxKwh * 3600

/-- The leg can be driven from the charge `soc` after a motor power `m`, with accessories `a`: there is enough charge for
the motor at its rating for the whole leg and more than the controller reserves for accelerating; the motor reaches the
power it needs from what it gave before; the tires have grip; and if there is something to brake, the motor is strong
enough for its share and the battery has room for the motor at its rating. -/
structure BevLegWithin (F : Fns K) (V : Veh K) (P : StepParams K) (a soc m : K) (l : Leg K) : Prop where
  time : 0 < l.dt
  charge : (V.mcMaxElecInKw + a) * l.dt ≤ cellKj V V.minSoc soc * F.sqrt V.essRoundTripEff
  reserve : V.minSoc + V.maxAccelBufferPercOfUseableSoc * (V.maxSoc - V.minSoc) < soc
  drive : max 0 (roadLoadKw F V P l.dt l.grade l.v0 l.v) / V.transEff ≤
    min V.mcMaxKw (|m| + V.mcMaxKw * l.dt / V.mcSecToPeakPwr)
  grip : max 0 (roadLoadKw F V P l.dt l.grade l.v0 l.v) ≤ gripKw V P l / V.transEff
  brake : roadLoadKw F V P l.dt l.grade l.v0 l.v < 0 →
    regenShare F V l.v0 l.v * -roadLoadKw F V P l.dt l.grade l.v0 l.v ≤ V.mcMaxKw * V.transEff ∧
    V.mcMaxKw * l.dt * F.sqrt V.essRoundTripEff ≤ cellKj V soc V.maxSoc

/-- The legs can be driven one after the other from the charge `soc`, after a motor power `m`: each leg takes its charge
(`legCellKj`). -/
def BevLegsWithin (F : Fns K) (V : Veh K) (P : StepParams K) (elec : K → K) (a : K) : K → K → List (Leg K) → Prop
  | _, _, [] => True
  | soc, m, l :: ls => BevLegWithin F V P a soc m l ∧
      BevLegsWithin F V P elec a (soc - legCellKj F V P elec a l / (V.essMaxKwh * 3600))
        (motorDutyKw F V P l.dt l.grade l.v0 l.v) ls

/-- The state of charge a run starts with: the given one, or the upper end of the window. -/
def bevStartSoc (V : Veh K) (init : Option K) : K := init.getD V.maxSoc

end Field
end Fastsim.Spec

namespace Fastsim.Props
open Fastsim Spec

section Field
variable {K : Type*} [Field K] [LinearOrder K] [IsStrictOrderedRing K]
variable {F : Fns K} {H : Hooks K} {V : Veh K} {P : SimParams K}

theorem pabs_eq_abs' (x : K) : pabs x = |x| := by
  unfold pabs
  split
  · rename_i h; rw [abs_of_neg h]
  · rename_i h; rw [abs_of_nonneg (not_lt.1 h)]

/-- The charge reserved for accelerating is bounded. -/
theorem accelBuff_lt (hV : BevData V) (hB : StrongBattery V) (E : StepEnv K) {soc : K}
    (h : V.minSoc + V.maxAccelBufferPercOfUseableSoc * (V.maxSoc - V.minSoc) < soc) : accelBuffSoc V E < soc := by
  unfold accelBuffSoc
  rw [if_neg (by rw [hV.system]; simp)]
  simp only
  set b := V.maxAccelBufferMph / mphPerMps with hb
  have hA : 0 ≤ V.maxAccelBufferPercOfUseableSoc * (V.maxSoc - V.minSoc) :=
    mul_nonneg hB.buffer (sub_nonneg.2 hB.window)
  have hBn : 0 ≤ V.maxRegenKwh / V.essMaxKwh := div_nonneg hB.regen hV.capacity.le
  have hy : 0 ≤ min (V.maxAccelBufferPercOfUseableSoc * (V.maxSoc - V.minSoc)) (V.maxRegenKwh / V.essMaxKwh) :=
    le_min hA hBn
  have hx : (b * b - E.mps * E.mps) / (b * b) ≤ 1 := by
    rcases eq_or_ne b 0 with h0 | h0
    · rw [h0]; simp
    · have : 0 < b * b := mul_self_pos.2 h0
      rw [div_le_one this]
      have := mul_self_nonneg E.mps
      linarith
  refine lt_of_le_of_lt (min_le_left _ _) (max_lt ?_ (by linarith))
  rw [mul_div_assoc, div_self hV.capacity.ne', mul_one]
  have k : (b * b - E.mps * E.mps) / (b * b) *
      min (V.maxAccelBufferPercOfUseableSoc * (V.maxSoc - V.minSoc)) (V.maxRegenKwh / V.essMaxKwh) ≤
      V.maxAccelBufferPercOfUseableSoc * (V.maxSoc - V.minSoc) :=
    (mul_le_of_le_one_left hy hx).trans (min_le_left _ _)
  linarith

/-- One step from a charge and a motor power for which the leg is within the limits: no limit is felt. -/
theorem bev_step (hc : P.coastAllow = false) (hd : P.idmAllow = false) (hm : P.missedTrace = false)
    (hV : BevData V) (hB : StrongBattery V) (hM : MotorOk V) (hR : BrakeShareOk F V)
    (hq : 0 < F.sqrt V.essRoundTripEff) {s : Sim K} (h : Reachable F H V P s) {i : Nat} {p r : Row K} {dt : K}
    (hs : StepAt s i p r dt V.auxKw) (htag : p.misc.highAccFcOnTag = false) (hfc : p.fc.fcKwOutAch = 0)
    (hw : BevLegWithin F V P.toStepParams V.auxKw p.dec.soc p.dec.mcMechKwOutAch
      ⟨dt, p.ach.mpsAch, askedMps s i, recordedGrade s i⟩) :
    r.ach.mpsAch = askedMps s i ∧ r.pow.cycTransKwOutReq ≤ r.lims.curMaxTransKwOut ∧
    r.hyb.canPwrAllElec = true ∧
    r.pow.regenContrlLimKwPerc * -r.pow.cycWhlKwReq ≤ r.lims.curMaxMechMcKwIn * V.transEff ∧
    r.misc.highAccFcOnTag = false ∧ r.fc.fcKwOutAch = 0 ∧
    r.lims.curMaxElecKw =
      min V.essMaxKw (cellKj V V.minSoc p.dec.soc * F.sqrt V.essRoundTripEff / dt) - V.auxKw := by
  obtain ⟨-, hRc⟩ := Reachable.recInv hc hd h
  obtain ⟨st, hst, hrow⟩ := hRc.solved i hs.pos hs.lt
  obtain rfl := hst hm
  rw [hs.row, List.getD_eq_getElem?_getD (i := i - 1), hs.prev] at hrow
  have hr := Option.some.inj hrow
  simp only [Option.getD_some] at hr
  have hdt : (recordedEnv s i).dt = dt := hs.dt.symm
  have hg : ∀ v, (recordedEnv s i).gradeOf v = recordedGrade s i := fun _ => rfl
  have hmps : (recordedEnv s i).mps = askedMps s i := rfl
  have haux : (recordedEnv s i).auxIn = V.auxKw := by
    show s.aux.getD i 0 = V.auxKw
    rw [List.getD_eq_getElem?_getD, hs.aux]; rfl
  have hco : (recordedEnv s i).coast = false := rfl
  have hroad : (recordedEnv s i).roadKw = 0 := rfl
  generalize recordedEnv s i = E at *
  obtain ⟨w1, w2, w3, w4, w5, w6⟩ := hw
  simp only at w1 w2 w3 w4 w5 w6
  have hmin : V.minSoc < p.dec.soc := by
    have := mul_nonneg hB.buffer (sub_nonneg.2 hB.window)
    linarith
  -- accessories stay on the battery
  have tag : (setMisc V E p).highAccFcOnTag = false := by
    show (if p.dec.soc < V.minSoc ∨ (p.misc.highAccFcOnTag = true ∧ _) then true else false) = false
    rw [if_neg]
    rintro (h1 | h1)
    · exact absurd hmin (not_lt.2 h1.le)
    · rw [htag] at h1; exact absurd h1.1 (by simp)
  -- what the battery can give
  have hdis : V.mcMaxElecInKw + V.auxKw ≤ curEssMaxKwOut F V E p := by
    refine le_min hB.power ?_
    unfold essCapLimDischgKw
    rw [if_neg (by rintro (h1 | h1); exacts [hV.capacity.ne' h1, absurd hmin (not_lt.2 h1.le)]), hdt, le_div_iff₀ w1]
    refine w2.trans (le_of_eq ?_)
    unfold cellKj; ring
  have helec : V.mcMaxElecInKw ≤ curMaxElecKw F V E p := by
    unfold curMaxElecKw
    rw [if_neg hV.cell, hroad, haux]
    linarith
  have hlm : listMax V.mcKwInArray = V.mcMaxElecInKw := listMax_eq hB.inTop hB.inMax
  have hin : mcElecInLimKw F V E p = V.mcMaxKw := by
    unfold mcElecInLimKw
    rw [if_pos (lt_of_lt_of_le hB.elec helec)]
    have : curMaxAvailElecKw F V E p = listMax V.mcKwInArray := by
      unfold curMaxAvailElecKw; rw [hlm]; exact min_eq_right helec
    rw [if_pos this, hB.outTop]
    exact min_self _
  have htr : mcTransiLimKw V E p = |p.dec.mcMechKwOutAch| + V.mcMaxKw * dt / V.mcSecToPeakPwr := by
    unfold mcTransiLimKw
    rw [pabs_eq_abs', hdt]
    ring
  have htr0 : 0 ≤ mcTransiLimKw V E p := by
    rw [htr]
    exact add_nonneg (abs_nonneg _) (div_nonneg (mul_nonneg hB.motor.le w1.le) hB.rise.le)
  have hmc : curMaxMcKwOut F V E p =
      min V.mcMaxKw (|p.dec.mcMechKwOutAch| + V.mcMaxKw * dt / V.mcSecToPeakPwr) := by
    unfold curMaxMcKwOut
    rw [hin, hB.always, if_neg (by simp), one_mul, htr]
    rw [htr] at htr0
    rw [min_eq_left (min_le_left _ _)]
    exact max_eq_left ((neg_nonpos.2 hB.motor.le).trans (le_min hB.motor.le htr0))
  have hfcm : curMaxFcKwOut V E p = 0 := by
    unfold curMaxFcKwOut fcTransLimKw
    rw [hV.engine, hfc]; simp
  have htrac : curMaxTracKw V P.toStepParams (setMisc V E p) =
      gripKw V P.toStepParams ⟨dt, p.ach.mpsAch, askedMps s i, recordedGrade s i⟩ := by
    unfold curMaxTracKw gripKw setMisc
    simp only [hdt]
    ring
  have hlim : curMaxTransKwOut F V P.toStepParams E p (setMisc V E p) =
      min (curMaxMcKwOut F V E p * V.transEff)
        (gripKw V P.toStepParams ⟨dt, p.ach.mpsAch, askedMps s i, recordedGrade s i⟩ / V.transEff) := by
    unfold curMaxTransKwOut
    simp only [hco, hV.system, hV.aux, tag, hV.cell, Bool.or_false, if_false, Bool.false_eq_true]
    rw [htrac, hfcm, add_zero, min_eq_right (hB.elec.le.trans helec), sub_zero]
  set load := roadLoadKw F V P.toStepParams dt (recordedGrade s i) p.ach.mpsAch (askedMps s i) with hload
  have hwhl : ∀ v, (powerAt F V P.toStepParams E p (setCompLims F V P.toStepParams E p (setMisc V E p)) v).cycWhlKwReq
      = roadLoadKw F V P.toStepParams dt (recordedGrade s i) p.ach.mpsAch v := by
    intro v; rw [whlReq_eq, hg, hdt]
  have hreg0 : ∀ v, 0 ≤
      (powerAt F V P.toStepParams E p (setCompLims F V P.toStepParams E p (setMisc V E p)) v).cycRegenBrakeKw :=
    fun v => le_max_right _ _
  have hout : ∀ v, (powerAt F V P.toStepParams E p (setCompLims F V P.toStepParams E p (setMisc V E p)) v).cycTransKwOutReq
      ≤ max 0 (roadLoadKw F V P.toStepParams dt (recordedGrade s i) p.ach.mpsAch v) := by
    intro v
    rw [outReq_eq, hg, hdt]
    have := hreg0 v
    exact max_le (le_max_right _ _) ((neg_nonpos.2 this).trans (le_max_left _ _))
  have hle : max 0 load ≤ curMaxTransKwOut F V P.toStepParams E p (setMisc V E p) := by
    rw [hlim]
    refine le_min ?_ w5
    rw [← div_le_iff₀ hV.trans0, hmc]
    exact w4
  have hmet : (setPowerCalcs F V P.toStepParams E p
      (setCompLims F V P.toStepParams E p (setMisc V E p)) Stale.fresh).cycMet = true := by
    show decide ((powerAt F V P.toStepParams E p
      (setCompLims F V P.toStepParams E p (setMisc V E p)) E.mps).cycTransKwOutReq ≤
        curMaxTransKwOut F V P.toStepParams E p (setMisc V E p)) = true
    rw [hmps]
    exact decide_eq_true ((hout _).trans hle)
  have hv : r.ach.mpsAch = askedMps s i := by
    rw [hr]
    simp only [solveStep, setAchSpeed, if_pos hmet]
    exact hmps
  have e := solveStep_pow_fresh (F := F) (V := V) P.toStepParams E p Stale.fresh rfl
  rw [← hr, hv] at e
  have hrl : r.lims = setCompLims F V P.toStepParams E p (setMisc V E p) := by rw [hr]; rfl
  have hrt : r.lims.curMaxTransKwOut = curMaxTransKwOut F V P.toStepParams E p (setMisc V E p) := by rw [hrl]; rfl
  have hreq : r.pow.cycTransKwOutReq ≤ r.lims.curMaxTransKwOut := by
    rw [hrt, e]
    exact (hout _).trans hle
  have htin : r.pow.transKwInAch ≤ curMaxMcKwOut F V E p := by
    have k1 : r.pow.transKwInAch = transKwIn V r.pow.transKwOutAch := by rw [hr, solveStep_in]
    have k2 : r.pow.transKwOutAch ≤ max 0 load := by
      have : r.pow.transKwOutAch = if r.pow.cycTransKwOutReq ≤ r.lims.curMaxTransKwOut then r.pow.cycTransKwOutReq
          else r.lims.curMaxTransKwOut := by rw [hrl, e]; rfl
      rw [this, if_pos hreq, e]
      exact hout _
    rw [k1, hmc]
    refine le_trans ?_ w4
    unfold transKwIn
    split
    · exact div_le_div_of_nonneg_right k2 hV.trans0.le
    · rename_i hn
      exact (mul_nonpos_of_nonpos_of_nonneg (not_lt.1 hn) hV.trans0.le).trans
        (div_nonneg (le_max_left _ _) hV.trans0.le)
  refine ⟨hv, hreq, ?_, ?_, by rw [hr]; exact tag, ?_, ?_⟩
  · have k : r.hyb.canPwrAllElec = canPwrAllElec V E p.dec.soc r.lims r.pow := by rw [hr]; rfl
    rw [k]
    unfold canPwrAllElec
    simp only
    rw [if_pos hV.engine]
    have b1 := accelBuff_lt hV hB E w3
    have b2 : r.pow.transKwInAch - 1 / 1000000 ≤ r.lims.curMaxMcKwOut := by
      rw [hrl]
      show _ ≤ curMaxMcKwOut F V E p
      have : (0 : K) < 1 / 1000000 := by norm_num
      linarith
    rw [decide_eq_true b1, decide_eq_true b2, decide_eq_true hV.engine]
    simp
  · have hw' : r.pow.cycWhlKwReq = load := by rw [e, hwhl]
    have hp : r.pow.regenContrlLimKwPerc = regenShare F V p.ach.mpsAch (askedMps s i) := by
      have : r.pow.regenContrlLimKwPerc = regenContrlLimKwPerc F V p.ach.mpsAch E.mps := by rw [e]; rfl
      rw [this, hmps]
      unfold regenContrlLimKwPerc regenShare avgSpeed
      rw [show (askedMps s i * mphPerMps + p.ach.mpsAch * mphPerMps) / 2 + 1 =
        (p.ach.mpsAch + askedMps s i) / 2 * mphPerMps + 1 by ring]
    have hml : r.lims.curMaxMechMcKwIn = curMaxMechMcKwIn F V E p := by rw [hrl]; rfl
    have hchg0 : 0 ≤ curMaxEssChgKw F V E p := by
      refine le_min ?_ hV.battery.le
      unfold essCapLimChgKw
      split
      · exact le_rfl
      · exact le_max_right _ _
    have hc0 : ∀ e ∈ V.mcFullEffArray.tail, curMaxEssChgKw F V E p ≤ curMaxEssChgKw F V E p / e := by
      intro e he
      rw [le_div_iff₀ (hM.pos e he)]
      exact mul_le_of_le_one_right hchg0 (hM.le_one e he)
    have hmech : min V.mcMaxKw (curMaxEssChgKw F V E p) ≤ curMaxMechMcKwIn F V E p := by
      unfold curMaxMechMcKwIn
      simp only
      split
      · rename_i h0; rw [h0]; exact min_le_right _ _
      · split
        · exact min_le_min_left _ (hc0 _ hM.last_mem)
        · exact min_le_min_left _ (hc0 _ (hM.out_mem _))
    rw [hw', hp, hml]
    rcases lt_or_ge load 0 with hn | hn
    · obtain ⟨b1, b2⟩ := w6 hn
      refine b1.trans (mul_le_mul_of_nonneg_right ?_ hV.trans0.le)
      refine le_trans ?_ hmech
      refine le_min le_rfl (le_min ?_ hB.brake)
      unfold essCapLimChgKw
      rw [if_neg (by rintro (h1 | h1); exacts [hV.capacity.ne' h1, hV.battery.ne' h1]), hdt]
      refine le_trans ?_ (le_max_left _ _)
      rw [mul_one, mul_one, div_div, le_div_iff₀ (mul_pos hq (div_pos w1 (by norm_num)))]
      unfold cellKj at b2
      rw [show V.mcMaxKw * (F.sqrt V.essRoundTripEff * (dt / 3600)) = V.mcMaxKw * dt * F.sqrt V.essRoundTripEff / 3600 by
        ring, div_le_iff₀ (by norm_num)]
      exact b2
    · have k1 := (regenShare_bounds hR p.ach.mpsAch (askedMps s i)).1
      have k2 : regenShare F V p.ach.mpsAch (askedMps s i) * -load ≤ 0 :=
        mul_nonpos_of_nonneg_of_nonpos k1 (neg_nonpos.2 hn)
      exact k2.trans (mul_nonneg ((le_min hB.motor.le hchg0).trans hmech) hV.trans0.le)
  · have : r.fc.fcKwOutAch = fcKwOutAch V E r.misc r.lims r.pow r.dec := by rw [hr]; rfl
    rw [this, fcKwOutAch, if_pos hV.engine]
  · rw [hrl]
    show curMaxElecKw F V E p = _
    unfold curMaxElecKw curEssMaxKwOut essCapLimDischgKw
    rw [if_neg hV.cell, hroad, haux, zero_add,
      if_neg (by rintro (h1 | h1); exacts [hV.capacity.ne' h1, absurd hmin (not_lt.2 h1.le)]), hdt]
    congr 3
    unfold cellKj; ring

/-- Charge and motor power after some of the legs. -/
def bevAfter (F : Fns K) (V : Veh K) (Q : StepParams K) (elec : K → K) (a : K) : K × K → List (Leg K) → Nat → K × K
  | st, [], _ => st
  | st, _ :: _, 0 => st
  | st, l :: ls, i + 1 => bevAfter F V Q elec a
      (st.1 - legCellKj F V Q elec a l / (V.essMaxKwh * 3600), motorDutyKw F V Q l.dt l.grade l.v0 l.v) ls i

theorem bevAfter_zero {Q : StepParams K} {elec : K → K} {a : K} (st : K × K) (ls : List (Leg K)) :
    bevAfter F V Q elec a st ls 0 = st := by cases ls <;> rfl

theorem bevAfter_succ {Q : StepParams K} {elec : K → K} {a : K} (ls : List (Leg K)) (st : K × K) (i : Nat) (l : Leg K)
    (hl : ls[i]? = some l) :
    bevAfter F V Q elec a st ls (i + 1) =
      ((bevAfter F V Q elec a st ls i).1 - legCellKj F V Q elec a l / (V.essMaxKwh * 3600),
        motorDutyKw F V Q l.dt l.grade l.v0 l.v) := by
  induction ls generalizing st i with
  | nil => simp at hl
  | cons x ls ih =>
    cases i with
    | zero =>
      simp only [List.getElem?_cons_zero, Option.some.injEq] at hl
      subst hl
      rw [bevAfter_zero]
      show bevAfter F V Q elec a _ ls 0 = _
      rw [bevAfter_zero]
    | succ i =>
      rw [bevAfter, ih _ _ (by simpa using hl), bevAfter]

theorem bevLegsWithin_get {Q : StepParams K} {elec : K → K} {a : K} (ls : List (Leg K)) (st : K × K)
    (h : BevLegsWithin F V Q elec a st.1 st.2 ls) (i : Nat) (l : Leg K) (hl : ls[i]? = some l) :
    BevLegWithin F V Q a (bevAfter F V Q elec a st ls i).1 (bevAfter F V Q elec a st ls i).2 l := by
  induction ls generalizing st i with
  | nil => simp at hl
  | cons x ls ih =>
    cases i with
    | zero =>
      simp only [List.getElem?_cons_zero, Option.some.injEq] at hl
      subst hl
      rw [bevAfter_zero]; exact h.1
    | succ i => exact ih (_, _) h.2 i (by simpa using hl)

/-- The charge of the first row is the one the run was started with. -/
theorem start_charge (hV : BevData V) (hH : H.Local) {c : Cyc K} {init : Option K} {s : Sim K}
    (h : simDrive F H V P (Sim.new c) init none = .ok s) : (s.row 0).dec.soc = bevStartSoc V init := by
  have key : ∀ soc, walk F H V P { Sim.new c with hevCount := 0 } soc none = .ok s → (s.row 0).dec.soc = soc := by
    intro soc hw
    have := (walk_done hH (s := { Sim.new c with hevCount := 0 }) rfl hw).row0
    rw [Sim.row, List.getD_eq_getElem?_getD, this]
    rfl
  unfold simDrive at h
  simp only at h
  cases init with
  | some soc => exact key soc h
  | none =>
    rw [hV.type] at h
    exact key V.maxSoc h

/-- What the rows of a run over a trip within the limits hold. -/
theorem bev_rows (hc : P.coastAllow = false) (hd : P.idmAllow = false) (hm : P.missedTrace = false)
    (hV : BevData V) (hB : StrongBattery V) (hM : MotorOk V) (hR : BrakeShareOk F V)
    (hq : 0 < F.sqrt V.essRoundTripEff) (hH : H.Local) (hA : Hooks.KeepAux H V) {c : Cyc K} {init : Option K} {s : Sim K}
    (h : simDrive F H V P (Sim.new c) init none = .ok s)
    (hw : BevLegsWithin F V P.toStepParams (mcElecKwInAch V) V.auxKw (bevStartSoc V init) 0 (legs c)) (i : Nat)
    (hi : i < c.length) :
    ((s.row i).ach.mpsAch = c.speeds.getD i 0 ∧
      (s.row i).dec.soc = (bevAfter F V P.toStepParams (mcElecKwInAch V) V.auxKw (bevStartSoc V init, 0) (legs c) i).1 ∧
      (s.row i).dec.mcMechKwOutAch =
        (bevAfter F V P.toStepParams (mcElecKwInAch V) V.auxKw (bevStartSoc V init, 0) (legs c) i).2 ∧
      (s.row i).misc.highAccFcOnTag = false ∧ (s.row i).fc.fcKwOutAch = 0) ∧
    (1 ≤ i → (s.row i).ach.mpsAch = askedMps s i ∧
      (s.row i).pow.cycTransKwOutReq ≤ (s.row i).lims.curMaxTransKwOut ∧
      (s.row i).hyb.canPwrAllElec = true ∧
      (s.row i).pow.regenContrlLimKwPerc * -(s.row i).pow.cycWhlKwReq ≤
        (s.row i).lims.curMaxMechMcKwIn * V.transEff ∧
      (s.row i).misc.highAccFcOnTag = false ∧
      (s.row i).lims.curMaxElecKw = min V.essMaxKw
        (cellKj V V.minSoc (s.row (i - 1)).dec.soc * F.sqrt V.essRoundTripEff / dtAt c i) - V.auxKw ∧
      (s.row i).dec.essKwOutAch = mcElecKwInAch V (s.row i).dec.mcMechKwOutAch + V.auxKw) := by
  have hk := simDrive_keeps hH (s := Sim.new c) rfl h
  have hcyc : s.cyc = c := hk.cyc (by unfold Resets; simp [hc, hd, hm])
  have hcyc0 : s.cyc0 = c := hk.cyc0
  have fin := Finished.simDrive hH (s := Sim.new c) rfl h
  have hlen := fin.lenRows hH
  obtain ⟨-, -, soc, -, t0⟩ := Reachable.inv hH fin.reachable
  have r0 : s.row 0 = Row.init V soc (s.cyc0.speeds.getD 0 0) (s.aux.getD 0 0) := by
    rw [Sim.row, List.getD_eq_getElem?_getD, t0]; rfl
  have hown : ownAux V = V.auxKw := by unfold ownAux; rw [hV.aux]; rfl
  have haux : ∀ i, 1 ≤ i → i < c.length → s.aux[i]? = some V.auxKw := by
    intro i h1 h2
    have := (C33_load hH hA (s := Sim.new c) rfl h).2 i
    rw [this, ← hown]
    unfold loadAt
    rw [if_pos]
    refine ⟨h1, by rw [show (Sim.new c).cyc0 = c from rfl]; simpa [prescribed] using h2, fun j _ x hx => ?_⟩
    have := List.mem_of_getElem? hx
    exact List.eq_of_mem_replicate this
  have hgrade : ∀ i, recordedGrade s i = c.grades.getD i 0 := by
    intro i
    unfold recordedGrade
    rw [hcyc, hcyc0]
    split
    · rename_i hz
      rw [List.getD_eq_getElem?_getD]
      cases hx : c.grades[i]? with
      | none => rfl
      | some g =>
        have := List.all_eq_true.1 hz g (List.mem_of_getElem? hx)
        exact (of_decide_eq_true this).symm
    · rfl
  have step : ∀ i, i + 1 < c.length → StepAt s (i + 1) (s.row i) (s.row (i + 1)) (dtAt c (i + 1)) V.auxKw := by
    intro i hi
    obtain ⟨p, r, dt, a, hs⟩ := stepAt_exists hH fin.reachable (i := i + 1) (by omega)
      (by rw [fin.atEnd, hcyc]; omega)
    have e1 : s.row (i + 1) = r := by rw [Sim.row, List.getD_eq_getElem?_getD, hs.row]; rfl
    have e3 : s.row i = p := by
      have := hs.prev
      rw [Nat.add_sub_cancel] at this
      rw [Sim.row, List.getD_eq_getElem?_getD, this]; rfl
    have ea : a = V.auxKw := by
      have := hs.aux
      rw [haux _ (by omega) (by omega)] at this
      exact (Option.some.inj this).symm
    have edt : dt = dtAt c (i + 1) := by rw [hs.dt, hcyc]
    rw [e1, e3, ← ea, ← edt]; exact hs
  have asked : ∀ i, askedMps s i = c.speeds.getD i 0 := fun i => by rw [askedMps, hcyc]
  have hcap : V.essMaxKwh * 3600 ≠ 0 := (mul_pos hV.capacity (by norm_num)).ne'
  set A := bevAfter F V P.toStepParams (mcElecKwInAch V) V.auxKw (bevStartSoc V init, 0) (legs c) with hAdef
  revert hi
  induction i with
  | zero =>
    intro _
    refine ⟨⟨by rw [r0, hcyc0]; rfl, ?_, ?_, by rw [r0]; rfl, by rw [r0]; rfl⟩, fun h => absurd h (by omega)⟩
    · rw [start_charge hV hH h, hAdef, bevAfter_zero]
    · rw [r0, hAdef, bevAfter_zero]; rfl
  | succ i ih =>
    intro hi
    obtain ⟨⟨i1, i2, i3, i4, i5⟩, -⟩ := ih (by omega)
    have hl := legs_get c i hi
    have hleg := bevLegsWithin_get (legs c) (bevStartSoc V init, 0) hw i _ hl
    rw [← hAdef, ← i2, ← i3, ← i1, ← asked, ← hgrade] at hleg
    obtain ⟨k1, k2, k3, k4, k5, k6, k7⟩ := bev_step hc hd hm hV hB hM hR hq fin.reachable (step i hi) i4 i5 hleg
    obtain ⟨w1, w2, w3⟩ := motor_duty_step hH hc hd hm hV fin.reachable (step i hi) k1 k2 (fun _ => k3) k4 k5
    have cs := cell_step hH hV fin.reachable (step i hi)
    have ea : A (i + 1) = _ := bevAfter_succ (legs c) (bevStartSoc V init, 0) i _ hl
    have sp : (s.row (i + 1)).ach.mpsAch = c.speeds.getD (i + 1) 0 := by rw [k1, asked]
    rw [hgrade, i1, sp] at w1
    refine ⟨⟨sp, ?_, ?_, k5, k6⟩, fun _ => ⟨k1, k2, k3, k4, k5, k7, by rw [w2, w3]⟩⟩
    · rw [ea]
      simp only
      rw [← hAdef, ← i2]
      unfold legCellKj
      simp only
      rw [← w1, ← w3, ← w2, ← cs, mul_assoc, mul_div_cancel_right₀ _ hcap]
      ring
    · rw [ea, w1]

/-- `C122_free` with the electric powers of the code. -/
theorem bev_free (hc : P.coastAllow = false) (hd : P.idmAllow = false) (hm : P.missedTrace = false)
    (hV : BevData V) (hB : StrongBattery V) (hM : MotorOk V) (hR : BrakeShareOk F V)
    (hq : 0 < F.sqrt V.essRoundTripEff) (hH : H.Local) (hA : Hooks.KeepAux H V) {c : Cyc K} {init : Option K} {s : Sim K}
    (h : simDrive F H V P (Sim.new c) init none = .ok s)
    (hw : BevLegsWithin F V P.toStepParams (mcElecKwInAch V) V.auxKw (bevStartSoc V init) 0 (legs c)) :
    Unlimited V s ∧ essDischgKj V s = traceCellKj F V P.toStepParams (mcElecKwInAch V) V.auxKw c := by
  have hcyc : s.cyc = c := (simDrive_keeps hH (s := Sim.new c) rfl h).cyc (by unfold Resets; simp [hc, hd, hm])
  have fin := Finished.simDrive hH (s := Sim.new c) rfl h
  have hlen := fin.lenRows hH
  have all := bev_rows hc hd hm hV hB hM hR hq hH hA h hw
  have hu : Unlimited V s := by
    have get : ∀ i p r dt a, StepAt s i p r dt a → i < c.length ∧ s.row i = r := by
      intro i p r dt a hs
      refine ⟨by have := hs.lt; rw [fin.atEnd, hcyc] at this; exact this, ?_⟩
      rw [Sim.row, List.getD_eq_getElem?_getD, hs.row]; rfl
    refine ⟨fun i p r dt a hs => ?_, fun i p r dt a hs => ?_, fun i p r dt a hs => ?_, fun i p r dt a hs => ?_⟩ <;>
    · obtain ⟨hi, e⟩ := get i p r dt a hs
      have := (all i hi).2 hs.pos
      rw [e] at this
      first
        | exact ⟨this.1, this.2.1⟩
        | exact fun _ => this.2.2.1
        | exact this.2.2.2.1
        | exact this.2.2.2.2.1
  refine ⟨hu, ?_⟩
  obtain ⟨-, hpos, hl⟩ := leg_charge hc hd hm hV hH hA h hu
  have := hl (c.length - 1) (by omega)
  unfold traceCellKj
  rw [legs_sum, ← this]
  unfold essDischgKj
  have last : s.lastRow = s.row (c.length - 1) := by
    unfold Sim.lastRow Sim.row
    rw [List.getLast?_eq_getElem?, hlen, List.getD_eq_getElem?_getD, hcyc]
  rw [last, show s.firstRow = s.row 0 from rfl]
  ring

/-- **C122 (no limit is felt).** A run of a battery-electric vehicle over a trip that is within the limits from the charge it
starts with feels no limit: the trace is met and every leg takes its own charge (C118). -/
theorem C122_free (hc : P.coastAllow = false) (hd : P.idmAllow = false) (hm : P.missedTrace = false)
    (hV : BevData V) (hB : StrongBattery V) (hM : MotorOk V) (hR : BrakeShareOk F V)
    (hq : 0 < F.sqrt V.essRoundTripEff) :
    ∃ elec : K → K, MotorTable V elec ∧
      ∀ (H : Hooks K) (c : Cyc K) (init : Option K) (s : Sim K), H.Local → Hooks.KeepAux H V →
        simDrive F H V P (Sim.new c) init none = .ok s →
        BevLegsWithin F V P.toStepParams elec V.auxKw (bevStartSoc V init) 0 (legs c) →
        Unlimited V s ∧ essDischgKj V s = traceCellKj F V P.toStepParams elec V.auxKw c := by
  exact ⟨mcElecKwInAch V, motorTable hM, fun H c init s hH hA h hw => bev_free hc hd hm hV hB hM hR hq hH hA h hw⟩

/-- **C122 (runs exist).** `sim_drive` completes for every trip within the limits from a charge in the window, meets it, and
the charge taken is the sum over the legs: nothing about the run has to be assumed. -/
theorem C122_run [FloorRing K] (hc : P.coastAllow = false) (hd : P.idmAllow = false) (hm : P.missedTrace = false)
    (hV : BevData V) (hB : StrongBattery V) (hM : MotorOk V) (hR : BrakeShareOk F V)
    (hq : 0 < F.sqrt V.essRoundTripEff) :
    ∃ elec : K → K, MotorTable V elec ∧
      ∀ (c : Cyc K) (init : Option K), c ≠ [] → V.minSoc ≤ bevStartSoc V init → bevStartSoc V init ≤ V.maxSoc →
        BevLegsWithin F V P.toStepParams elec V.auxKw (bevStartSoc V init) 0 (legs c) →
        ∃ s, simDrive F (realHooks F V P) V P (Sim.new c) init none = .ok s ∧ Unlimited V s ∧
          (s.row 0).dec.soc = bevStartSoc V init ∧
          essDischgKj V s = traceCellKj F V P.toStepParams elec V.auxKw c := by
  obtain ⟨elec, he, hF⟩ := C122_free (F := F) hc hd hm hV hB hM hR hq
  refine ⟨elec, he, fun c init hne h0 h1 hw => ?_⟩
  obtain ⟨s, h, -, -⟩ := C51_run (F := F) (V := V) (P := P) (Sim.new c) rfl
    (show 0 < c.length from List.length_pos_iff.2 hne) init none hB.window
    (fun soc e => Or.inr (by rw [e] at h0 h1; exact ⟨h0, h1⟩)) (fun _ => by rw [hV.type]; decide)
    ⟨fun e => absurd e (by simp [hd]), fun e => absurd e (by simp [hc]), fun e => absurd e (by simp [hc]),
      fun e => absurd e (by simp [hc])⟩
  obtain ⟨hu, hch⟩ := hF _ c init s realHooks_local realHooks_keepAux h hw
  exact ⟨s, h, hu, start_charge hV realHooks_local h, hch⟩

/-- Limits are an interval of charges. -/
theorem bevLegsWithin_between (hV : BevData V) (hB : StrongBattery V) (hq : 0 < F.sqrt V.essRoundTripEff)
    {Q : StepParams K} {elec : K → K} {a : K} (ls : List (Leg K)) {lo soc hi m m' : K} (h1 : lo ≤ soc) (h2 : soc ≤ hi)
    (hm : |m| ≤ |m'|) (hlo : BevLegsWithin F V Q elec a lo m ls) (hhi : BevLegsWithin F V Q elec a hi m ls) :
    BevLegsWithin F V Q elec a soc m' ls := by
  induction ls generalizing lo soc hi m m' with
  | nil => trivial
  | cons l ls ih =>
    obtain ⟨⟨t, c, r, d, g, b⟩, hlo⟩ := hlo
    obtain ⟨⟨-, -, -, -, -, b'⟩, hhi⟩ := hhi
    have cell : ∀ {x y z : K}, y ≤ z → cellKj V x y ≤ cellKj V x z := by
      intro x y z h
      unfold cellKj
      exact mul_le_mul_of_nonneg_right (mul_le_mul_of_nonneg_right (by linarith) hV.capacity.le) (by norm_num)
    have cell' : ∀ {x y z : K}, x ≤ y → cellKj V y z ≤ cellKj V x z := by
      intro x y z h
      unfold cellKj
      exact mul_le_mul_of_nonneg_right (mul_le_mul_of_nonneg_right (by linarith) hV.capacity.le) (by norm_num)
    refine ⟨⟨t, c.trans (mul_le_mul_of_nonneg_right (cell h1) hq.le), r.trans_le h1, d.trans ?_, g, fun hn => ?_⟩,
      ih (by linarith) (by linarith) le_rfl hlo hhi⟩
    · exact min_le_min_left _ (by linarith)
    · exact ⟨(b hn).1, (b' hn).2.trans (cell' h2)⟩

theorem bevLegsWithin_append {Q : StepParams K} {elec : K → K} {a : K} (ls ls' : List (Leg K)) {soc m : K}
    (h : BevLegsWithin F V Q elec a soc m ls)
    (h' : ∀ m', BevLegsWithin F V Q elec a
      (soc - (ls.map (legCellKj F V Q elec a)).sum / (V.essMaxKwh * 3600)) m' ls') :
    BevLegsWithin F V Q elec a soc m (ls ++ ls') := by
  induction ls generalizing soc m with
  | nil => simpa using h' m
  | cons l ls ih =>
    refine ⟨h.1, ih h.2 fun m' => ?_⟩
    have := h' m'
    rw [List.map_cons, List.sum_cons, add_div, ← sub_sub] at this
    exact this

/-- The same legs again and again. -/
theorem bevLegsWithin_repeat (hV : BevData V) (hB : StrongBattery V) (hq : 0 < F.sqrt V.essRoundTripEff)
    {Q : StepParams K} {elec : K → K} {a : K} (ls : List (Leg K)) (n : Nat) {soc : K}
    (h : BevLegsWithin F V Q elec a soc 0 ls)
    (h' : BevLegsWithin F V Q elec a
      (soc - n * ((ls.map (legCellKj F V Q elec a)).sum / (V.essMaxKwh * 3600))) 0 ls) (m : K) :
    BevLegsWithin F V Q elec a soc m (List.replicate (n + 1) ls).flatten := by
  have free : ∀ {x : K}, BevLegsWithin F V Q elec a x 0 ls → ∀ m, BevLegsWithin F V Q elec a x m ls := fun hx m =>
    bevLegsWithin_between hV hB hq ls le_rfl le_rfl (by simp) hx hx
  set q := (ls.map (legCellKj F V Q elec a)).sum / (V.essMaxKwh * 3600) with hqdef
  induction n generalizing soc m with
  | zero => simpa using free h m
  | succ n ih =>
    rw [List.replicate_succ, List.flatten_cons]
    refine bevLegsWithin_append _ _ (free h m) fun m' => ?_
    rw [← hqdef]
    refine ih (m := m') ?_ ?_
    · rcases le_total 0 q with hq0 | hq0
      · refine bevLegsWithin_between hV hB hq ls ?_ ?_ le_rfl h' h
        · push_cast
          have : 0 ≤ (n : K) * q := mul_nonneg (Nat.cast_nonneg n) hq0
          linarith
        · linarith
      · refine bevLegsWithin_between hV hB hq ls ?_ ?_ le_rfl h h'
        · linarith
        · push_cast
          have : (n : K) * q ≤ 0 := mul_nonpos_of_nonneg_of_nonpos (Nat.cast_nonneg n) hq0
          linarith
    · have : soc - q - n * q = soc - ((n + 1 : Nat) : K) * q := by push_cast; ring
      rw [this]; exact h'

/-- **C122 (range).** Let a trip between standstills take the share `q` of the battery. If it can be driven once from the
charge `soc` and once from `soc - n * q`, what `n` trips leave, then it can be driven `n + 1` times in a row from `soc`:
the run exists, feels no limit and ends at `soc - (n + 1) * q`. -/
theorem C122_range [FloorRing K] (hc : P.coastAllow = false) (hd : P.idmAllow = false) (hm : P.missedTrace = false)
    (hV : BevData V) (hB : StrongBattery V) (hM : MotorOk V) (hR : BrakeShareOk F V)
    (hq : 0 < F.sqrt V.essRoundTripEff) :
    ∃ elec : K → K, MotorTable V elec ∧
      ∀ (c all : Cyc K) (n : Nat) (soc q : K), c ≠ [] → startTime c = 0 → StandingEnds c →
        concat (List.replicate (n + 1) c) = .ok all → V.minSoc ≤ soc → soc ≤ V.maxSoc →
        q * (V.essMaxKwh * 3600) = traceCellKj F V P.toStepParams elec V.auxKw c →
        BevLegsWithin F V P.toStepParams elec V.auxKw soc 0 (legs c) →
        BevLegsWithin F V P.toStepParams elec V.auxKw (soc - n * q) 0 (legs c) →
        ∃ s, simDrive F (realHooks F V P) V P (Sim.new all) (some soc) none = .ok s ∧ Unlimited V s ∧
          (s.row 0).dec.soc = soc ∧ (s.row (all.length - 1)).dec.soc = soc - (n + 1) * q := by
  obtain ⟨elec, he, hF⟩ := C122_run (F := F) hc hd hm hV hB hM hR hq
  refine ⟨elec, he, fun c all n soc q hne h0 hst hall hlo hhi hqc hw hw' => ?_⟩
  have hcap : V.essMaxKwh * 3600 ≠ 0 := (mul_pos hV.capacity (by norm_num)).ne'
  have hq' : q = ((legs c).map (legCellKj F V P.toStepParams elec V.auxKw)).sum / (V.essMaxKwh * 3600) := by
    rw [eq_div_iff hcap, hqc]; rfl
  have hl : legs all = (List.replicate (n + 1) (legs c)).flatten := by
    rw [legs_concat_standing _ all (fun d hd' => by rw [List.eq_of_mem_replicate hd']; exact hne)
      (fun d hd' => by rw [List.eq_of_mem_replicate hd']; exact h0)
      (fun d hd' => by rw [List.eq_of_mem_replicate hd']; exact hst) hall, List.map_replicate]
  have hwa : BevLegsWithin F V P.toStepParams elec V.auxKw soc 0 (legs all) := by
    rw [hl]
    exact bevLegsWithin_repeat hV hB hq (legs c) n hw (by rw [← hq']; exact hw') 0
  have hna : all ≠ [] := by
    rintro rfl
    rw [List.replicate_succ, concat] at hall
    exact concatFrom_induct (P := fun acc _ => acc ≠ []) (fun acc c pre h1 _ => by simp [h1]) _ c [] [] hne hall rfl
  obtain ⟨s, h, hu, hs0, hch⟩ := hF all (some soc) hna hlo hhi hwa
  refine ⟨s, h, hu, hs0, ?_⟩
  have e : essDischgKj V s = (soc - (s.row (all.length - 1)).dec.soc) * (V.essMaxKwh * 3600) := by
    have hlen := (leg_charge hc hd hm hV realHooks_local realHooks_keepAux h hu).1
    unfold essDischgKj
    have last : s.lastRow = s.row (all.length - 1) := by
      unfold Sim.lastRow Sim.row
      rw [List.getLast?_eq_getElem?, hlen, List.getD_eq_getElem?_getD]
    rw [last, show s.firstRow = s.row 0 from rfl, hs0]
    show _ = (soc - _) * _
    simp only [bevStartSoc, Option.getD_some]
    ring
  have tot : traceCellKj F V P.toStepParams elec V.auxKw all = (n + 1) * (q * (V.essMaxKwh * 3600)) := by
    rw [hqc]
    unfold traceCellKj
    rw [hl, List.map_flatten, List.sum_flatten, List.map_replicate, List.map_replicate, List.sum_replicate, nsmul_eq_mul]
    push_cast; ring
  rw [e, tot, show ((n : K) + 1) * (q * (V.essMaxKwh * 3600)) = (n + 1) * q * (V.essMaxKwh * 3600) by ring] at hch
  have := mul_right_cancel₀ hcap hch
  linarith

end Field

/-! ### Concrete cases -/

open Demo

instance (F : Fns ℚ) (V : Veh ℚ) (Q : StepParams ℚ) (a soc m : ℚ) (l : Leg ℚ) :
    Decidable (BevLegWithin F V Q a soc m l) :=
  decidable_of_iff (0 < l.dt ∧ (V.mcMaxElecInKw + a) * l.dt ≤ cellKj V V.minSoc soc * F.sqrt V.essRoundTripEff ∧
    V.minSoc + V.maxAccelBufferPercOfUseableSoc * (V.maxSoc - V.minSoc) < soc ∧
    max 0 (roadLoadKw F V Q l.dt l.grade l.v0 l.v) / V.transEff ≤
      min V.mcMaxKw (|m| + V.mcMaxKw * l.dt / V.mcSecToPeakPwr) ∧
    max 0 (roadLoadKw F V Q l.dt l.grade l.v0 l.v) ≤ gripKw V Q l / V.transEff ∧
    (roadLoadKw F V Q l.dt l.grade l.v0 l.v < 0 →
      regenShare F V l.v0 l.v * -roadLoadKw F V Q l.dt l.grade l.v0 l.v ≤ V.mcMaxKw * V.transEff ∧
      V.mcMaxKw * l.dt * F.sqrt V.essRoundTripEff ≤ cellKj V soc V.maxSoc))
    ⟨fun h => ⟨h.1, h.2.1, h.2.2.1, h.2.2.2.1, h.2.2.2.2.1, h.2.2.2.2.2⟩, fun h => ⟨h.1, h.2, h.3, h.4, h.5, h.6⟩⟩

instance decBevLegsWithin (F : Fns ℚ) (V : Veh ℚ) (Q : StepParams ℚ) (elec : ℚ → ℚ) (a : ℚ) :
    (soc m : ℚ) → (ls : List (Leg ℚ)) → Decidable (BevLegsWithin F V Q elec a soc m ls)
  | _, _, [] => isTrue trivial
  | soc, m, l :: ls =>
    have := decBevLegsWithin F V Q elec a (soc - legCellKj F V Q elec a l / (V.essMaxKwh * 3600))
      (motorDutyKw F V Q l.dt l.grade l.v0 l.v) ls
    (inferInstance : Decidable (BevLegWithin F V Q a soc m l ∧ BevLegsWithin F V Q elec a _ _ ls))

/-- The battery-electric demo car meets the hypotheses of `C122_free`, `C122_run` and `C122_range`: with the electric
powers of its motor the trips are within the limits from a charge of 3/5, among them one driven twice; from a full battery
they are not, because there is no room for what braking recovers, and neither are they from 1/5. -/
theorem C122_demo : BevData bev ∧ StrongBattery bev ∧ MotorOk bev ∧ BrakeShareOk fns bev ∧
    0 < fns.sqrt bev.essRoundTripEff ∧ MotorTable bev (mcElecKwInAch bev) ∧
    (∀ c ∈ [hop, hopFine, skip, hopSkip, skipHop, hopHop], c ≠ [] ∧
      BevLegsWithin fns bev params.toStepParams (mcElecKwInAch bev) bev.auxKw (bevStartSoc bev (some (3 / 5))) 0 (legs c) ∧
      ¬ BevLegsWithin fns bev params.toStepParams (mcElecKwInAch bev) bev.auxKw (bevStartSoc bev none) 0 (legs c) ∧
      ¬ BevLegsWithin fns bev params.toStepParams (mcElecKwInAch bev) bev.auxKw (1 / 5) 0 (legs c)) ∧
    concat (List.replicate (1 + 1) hop) = .ok hopHop ∧ startTime hop = 0 ∧ StandingEnds hop ∧
    ∃ q : ℚ, 0 < q ∧
      q * (bev.essMaxKwh * 3600) = traceCellKj fns bev params.toStepParams (mcElecKwInAch bev) bev.auxKw hop ∧
      BevLegsWithin fns bev params.toStepParams (mcElecKwInAch bev) bev.auxKw (3 / 5 - (1 : Nat) * q) 0 (legs hop) := by
  refine ⟨C118_demo.1, ⟨by decide +kernel, by decide +kernel, by decide +kernel, by decide +kernel, by decide +kernel,
    by decide +kernel, by decide +kernel, rfl, by decide +kernel, by decide +kernel, by decide +kernel,
    by decide +kernel⟩, C118_demo.2.1, C119_demo_bev.2.1, by decide +kernel, motorTable C118_demo.2.1,
    by decide +kernel, C118_demo.2.2.2.2.2.2.2.1, rfl, C118_demo.2.2.2.2.2.2.2.2.2.2.1,
    traceCellKj fns bev params.toStepParams (mcElecKwInAch bev) bev.auxKw hop / (bev.essMaxKwh * 3600),
    by decide +kernel, by decide +kernel, by decide +kernel⟩

end Fastsim.Props
