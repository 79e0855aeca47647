import Verif.Props.BevWithin
import Verif.Props.Hybrid

/-!
# C123: a hybrid that stays below its thresholds drives like the battery-electric vehicle without its engine

While the speed stays below `mph_fc_on`, the electric demand below `kw_demand_fc_on`, and the battery can carry the trip, the
engine of a hybrid never runs: speeds, motor and battery are those of the vehicle whose engine is taken out.
-/

set_option linter.unusedSectionVars false

namespace Fastsim.Spec
open Fastsim
section Field
variable {K : Type*} [Field K] [LinearOrder K] [IsStrictOrderedRing K]

/-- The battery-electric vehicle that is left when the engine is taken out; the mass stays the same. -/
def withoutEngine (V : Veh K) : Veh K := { V with ptType := .bev, fcMaxKw := 0 }

/-- A hybrid with combustion engine, motor and battery that runs its accessories from the battery. -/
structure HybridData (V : Veh K) : Prop where
  type : V.ptType = .hev ∨ V.ptType = .phev
  engine : 0 < V.fcMaxKw
  ramp : 0 < V.fcSecToPeakPwr
  cell : V.fcType ≠ .h2fc
  motor : 0 < V.mcMaxKw
  battery : 0 < V.essMaxKw
  capacity : 0 < V.essMaxKwh
  system : V.noElecSys = false
  aux : V.noElecAux = false
  trans0 : 0 < V.transEff
  trans1 : V.transEff ≤ 1

/-- Electric power (kW) a step takes for driving: that of the battery while the motor drives. -/
def driveDemandKw (r : Row K) : K := if 0 < r.dec.mcMechKwOutAch then r.dec.essKwOutAch else 0

/-- The hybrid `V` has no reason to start its engine in the run `s` of the vehicle without it: there is charge to drive by
the motor alone, the trace is not faster than `mph_fc_on`, the electric demand does not exceed `kw_demand_fc_on`, and it is
less than the battery can give beyond the accessories. -/
structure StaysElectric (V : Veh K) (s : Sim K) : Prop where
  time : ∀ i p r dt a, StepAt s i p r dt a → 0 ≤ dt
  enough : ∀ i p r dt a, StepAt s i p r dt a → r.hyb.canPwrAllElec = true
  slow : ∀ i p r dt a, StepAt s i p r dt a → askedMps s i * mphPerMps ≤ V.mphFcOn
  light : ∀ i p r dt a, StepAt s i p r dt a → driveDemandKw r ≤ V.kwDemandFcOn
  spare : ∀ i p r dt a, StepAt s i p r dt a → driveDemandKw r < r.lims.curMaxElecKw

/-- Electric power (kW) a leg takes for driving, with the electric powers `elec` of the motor and accessories `a`. -/
def legDemandKw (F : Fns K) (V : Veh K) (P : StepParams K) (elec : K → K) (a : K) (l : Leg K) : K :=
  if 0 < motorDutyKw F V P l.dt l.grade l.v0 l.v then elec (motorDutyKw F V P l.dt l.grade l.v0 l.v) + a else 0

/-- The hybrid drives the leg on electricity from the charge `soc`, after a motor power `m`: the leg is within the limits of
battery, motor and tires (C122) and below the thresholds of the engine. -/
structure PlugLegWithin (F : Fns K) (V : Veh K) (P : StepParams K) (elec : K → K) (a soc m : K) (l : Leg K) : Prop where
  drive : BevLegWithin F V P a soc m l
  slow : l.v * mphPerMps ≤ V.mphFcOn
  light : legDemandKw F V P elec a l ≤ V.kwDemandFcOn
  power : legDemandKw F V P elec a l + a < V.essMaxKw
  charge : (legDemandKw F V P elec a l + a) * l.dt < cellKj V V.minSoc soc * F.sqrt V.essRoundTripEff

/-- The legs can be driven on electricity one after the other from the charge `soc`, after a motor power `m`. -/
def PlugLegsWithin (F : Fns K) (V : Veh K) (P : StepParams K) (elec : K → K) (a : K) : K → K → List (Leg K) → Prop
  | _, _, [] => True
  | soc, m, l :: ls => PlugLegWithin F V P elec a soc m l ∧
      PlugLegsWithin F V P elec a (soc - legCellKj F V P elec a l / (V.essMaxKwh * 3600))
        (motorDutyKw F V P l.dt l.grade l.v0 l.v) ls

/-- Two records agree in speed, motor and battery, and the first one's engine is off. -/
structure DrivesAs (t r : Row K) : Prop where
  speed : t.ach.mpsAch = r.ach.mpsAch
  soc : t.dec.soc = r.dec.soc
  kwh : t.dec.essCurKwh = r.dec.essCurKwh
  motor : t.dec.mcMechKwOutAch = r.dec.mcMechKwOutAch
  elec : t.dec.mcElecKwInAch = r.dec.mcElecKwInAch
  battery : t.dec.essKwOutAch = r.dec.essKwOutAch
  engine : t.fc.fcKwOutAch = 0
  fuel : t.fc.fsKwOutAch = 0
  fuelKwh : t.fc.fsKwhOutAch = 0

end Field
end Fastsim.Spec

namespace Fastsim.Props
open Fastsim Spec

section Field
variable {K : Type*} [Field K] [LinearOrder K] [IsStrictOrderedRing K]
variable {F : Fns K} {H H' : Hooks K} {V : Veh K} {P : SimParams K}

theorem hybrid_bev (hV : HybridData V) : BevData (withoutEngine V) :=
  ⟨rfl, rfl, hV.cell, hV.motor.ne', hV.battery, hV.capacity, hV.system, hV.aux, hV.trans0, hV.trans1⟩

/-- What is carried from step to step. -/
structure Coupled (t r : Row K) : Prop extends DrivesAs t r where
  tag : t.misc.highAccFcOnTag = r.misc.highAccFcOnTag
  off : r.fc.fcKwOutAch = 0
  never : t.dec.fcTimeOn = 0

/-- One step of the hybrid beside one of the vehicle without its engine. -/
theorem coupled_step (hV : HybridData V) (hM : MotorOk V) {Q : StepParams K} {E : StepEnv K} {p q r : Row K}
    (hr : r = solveStep F (withoutEngine V) Q E q Stale.fresh) (h : Coupled p q) (hdt : 0 ≤ E.dt) (hco : E.coast = false)
    (hroad : E.roadKw = 0) (hask : r.ach.mpsAch = E.mps) (hmet : r.pow.cycTransKwOutReq ≤ r.lims.curMaxTransKwOut)
    (hcan : r.hyb.canPwrAllElec = true) (htag : r.misc.highAccFcOnTag = false) (hslow : E.mps * mphPerMps ≤ V.mphFcOn)
    (hlight : driveDemandKw r ≤ V.kwDemandFcOn) (hspare : driveDemandKw r < r.lims.curMaxElecKw) :
    Coupled (solveStep F V Q E p Stale.fresh) r ∧
      (solveStep F V Q E p Stale.fresh).pow.cycTransKwOutReq ≤
        (solveStep F V Q E p Stale.fresh).lims.curMaxTransKwOut := by
  set B := withoutEngine V with hB
  -- latch
  have hmisc : setMisc V E p = setMisc B E q := by
    unfold setMisc
    rw [h.soc, h.tag, h.speed]
    rfl
  have hrm : r.misc = setMisc B E q := by rw [hr]; rfl
  have hrl : r.lims = setCompLims F B Q E q (setMisc B E q) := by rw [hr]; rfl
  -- limits
  have l1 : essCapLimDischgKw F V E p = essCapLimDischgKw F B E q := by unfold essCapLimDischgKw; rw [h.soc]; rfl
  have l2 : curEssMaxKwOut F V E p = curEssMaxKwOut F B E q := by unfold curEssMaxKwOut; rw [l1]; rfl
  have l3 : essCapLimChgKw F V E p = essCapLimChgKw F B E q := by unfold essCapLimChgKw; rw [h.soc]; rfl
  have l4 : curMaxEssChgKw F V E p = curMaxEssChgKw F B E q := by unfold curMaxEssChgKw; rw [l3]; rfl
  have l5 : curMaxElecKw F V E p = curMaxElecKw F B E q := by
    unfold curMaxElecKw
    rw [if_neg hV.cell, if_neg (show B.fcType ≠ .h2fc from hV.cell), l2]
  have l6 : curMaxAvailElecKw F V E p = curMaxAvailElecKw F B E q := by unfold curMaxAvailElecKw; rw [l5]; rfl
  have l7 : mcElecInLimKw F V E p = mcElecInLimKw F B E q := by unfold mcElecInLimKw; rw [l5, l6]; rfl
  have l8 : mcTransiLimKw V E p = mcTransiLimKw B E q := by unfold mcTransiLimKw; rw [h.motor]; rfl
  have l9 : curMaxMcKwOut F V E p = curMaxMcKwOut F B E q := by unfold curMaxMcKwOut; rw [l7, l8]; rfl
  have l10 : curMaxMechMcKwIn F V E p = curMaxMechMcKwIn F B E q := by unfold curMaxMechMcKwIn; rw [l4]; rfl
  have hfcB : curMaxFcKwOut B E q = 0 := by
    unfold curMaxFcKwOut fcTransLimKw
    rw [h.off]
    simp [hB, withoutEngine]
  have hfcV : 0 ≤ curMaxFcKwOut V E p := by
    refine le_min hV.engine.le ?_
    unfold fcTransLimKw
    rw [h.engine, zero_add]
    exact mul_nonneg (div_nonneg hV.engine.le hV.ramp.le) hdt
  have ltr : curMaxTransKwOut F B Q E q (setMisc B E q) ≤ curMaxTransKwOut F V Q E p (setMisc V E p) := by
    have ht : (setMisc V E p).highAccFcOnTag = false := by rw [hmisc, ← hrm]; exact htag
    have ht' : (setMisc B E q).highAccFcOnTag = false := by rw [← hrm]; exact htag
    unfold curMaxTransKwOut
    simp only [hco, hV.system, hV.aux, ht, ht', hV.cell, show B.noElecSys = false from hV.system,
      show B.noElecAux = false from hV.aux, show B.fcType ≠ .h2fc from hV.cell, Bool.or_false, if_false, Bool.false_eq_true]
    rw [hfcB, l9, l5, show curMaxTracKw V Q (setMisc V E p) = curMaxTracKw B Q (setMisc B E q) by rw [hmisc]; rfl]
    refine min_le_min_right _ (mul_le_mul_of_nonneg_right ?_ hV.trans0.le)
    linarith
  -- powers at the speed of the trace
  have eB := solveStep_pow_fresh (F := F) (V := B) Q E q Stale.fresh rfl
  rw [← hr, hask, ← hrl] at eB
  set LV := setCompLims F V Q E p (setMisc V E p) with hLV
  set pw := powerAt F V Q E p LV E.mps with hpw
  have hreq : pw.cycTransKwOutReq = r.pow.cycTransKwOutReq := by
    rw [eB, hpw]
    simp only [powerAt, hLV, hrl, setCompLims, l10, h.speed]
    rfl
  have hltr : r.lims.curMaxTransKwOut ≤ LV.curMaxTransKwOut := by rw [hrl]; exact ltr
  have hmetV : pw.cycTransKwOutReq ≤ LV.curMaxTransKwOut := by rw [hreq]; exact hmet.trans hltr
  have hcm : (setPowerCalcs F V Q E p LV Stale.fresh).cycMet = true := decide_eq_true hmetV
  set t := solveStep F V Q E p Stale.fresh with ht
  have tpow : t.pow = pw := by
    rw [ht]
    simp only [solveStep]
    rw [← hLV, setAchSpeed, if_pos hcm]
    rfl
  have tspeed : t.ach.mpsAch = E.mps := by
    rw [ht]
    simp only [solveStep]
    rw [← hLV, setAchSpeed, if_pos hcm]
  have tout : pw.transKwOutAch = r.pow.transKwOutAch := by
    have a1 : pw.transKwOutAch = if pw.cycTransKwOutReq ≤ LV.curMaxTransKwOut then pw.cycTransKwOutReq
      else LV.curMaxTransKwOut := rfl
    have a2 : r.pow.transKwOutAch = if r.pow.cycTransKwOutReq ≤ r.lims.curMaxTransKwOut then r.pow.cycTransKwOutReq
      else r.lims.curMaxTransKwOut := by rw [eB]; rfl
    rw [a1, a2, if_pos hmetV, if_pos hmet, hreq]
  have tin : pw.transKwInAch = r.pow.transKwInAch := by
    have a1 : pw.transKwInAch = transKwIn V pw.transKwOutAch := rfl
    have a2 : r.pow.transKwInAch = transKwIn B r.pow.transKwOutAch := by rw [eB]; rfl
    rw [a1, a2, tout]; rfl
  set x := r.pow.transKwInAch with hx
  -- decisions of the vehicle without engine
  have hrd : r.dec.mcMechKwOutAch = mcMechKwOutAch B E r.lims r.pow r.hyb r.forced := by rw [hr]; rfl
  have hre : r.dec.mcElecKwInAch = mcElecKwInAch B r.dec.mcMechKwOutAch := by rw [hr]; rfl
  have hL0 : 0 ≤ r.lims.curMaxMechMcKwIn := by
    rw [hrl]
    show 0 ≤ curMaxMechMcKwIn F B E q
    exact mechIn_nonneg (V := B) ⟨hM.len, hM.lenIn, hM.lenOut, hM.pos, hM.le_one⟩ hV.motor.le hV.battery.le
  have hBm : r.dec.mcMechKwOutAch = if x ≤ 0 then -(min r.lims.curMaxMechMcKwIn (-x)) else x := by
    rw [hrd]
    unfold mcMechKwOutAch
    simp only
    rw [if_neg (show ¬ B.mcMaxKw = 0 from hV.motor.ne'), if_neg (by simp [hB, withoutEngine]), ← hx]
    by_cases h0 : x ≤ 0
    · rw [if_pos h0, if_pos h0, if_neg (by simp [hB, withoutEngine]), min_eq_left]
      have : 0 ≤ min r.lims.curMaxMechMcKwIn (-x) := le_min hL0 (by linarith)
      linarith
    · rw [if_neg h0, if_neg h0, if_pos hcan]
  have hbat : r.dec.essKwOutAch = r.dec.mcElecKwInAch + E.auxIn := by
    have : r.dec.essKwOutAch = essKwOutAch B E r.misc r.lims r.pow r.hyb r.dec.mcElecKwInAch r.dec.roadwayChgKwOutAch := by
      rw [hr]; rfl
    have hrw : r.dec.roadwayChgKwOutAch = 0 := by
      have : r.dec.roadwayChgKwOutAch = roadwayChgKwOutAch B E r.lims r.hyb r.dec.mcElecKwInAch := by rw [hr]; rfl
      rw [this, roadwayChgKwOutAch, if_pos hroad]
    rw [this, hrw, essKwOutAch, if_neg (by rintro (h1 | h1); exacts [hV.battery.ne' h1, hV.capacity.ne' h1]),
      if_neg (show B.fcType ≠ .h2fc from hV.cell), if_neg (by rw [htag, show B.noElecAux = false from hV.aux]; simp), sub_zero]
  -- the electric demand
  have hdem : elecKwReq4ae V E pw = driveDemandKw r := by
    unfold elecKwReq4ae driveDemandKw
    rw [hV.system, if_neg (by simp), tin]
    by_cases h0 : 0 < x
    · have hm : r.dec.mcMechKwOutAch = x := by rw [hBm, if_neg (not_le.2 h0)]
      rw [if_pos h0, hm, if_pos h0, hbat, hre, hm]
      unfold mcElecKwInAch
      rw [if_neg h0.ne', if_neg (not_lt.2 h0.le)]
      by_cases h1 : x = V.mcMaxKw
      · rw [if_pos h1, if_pos (show B.mcMaxKw = x from h1.symm)]; rfl
      · rw [if_neg h1, if_neg (show ¬ B.mcMaxKw = x from fun e => h1 e.symm)]; rfl
    · rw [if_neg h0, if_neg]
      rw [hBm, if_pos (not_lt.1 h0)]
      have : 0 ≤ min r.lims.curMaxMechMcKwIn (-x) := le_min hL0 (by linarith [not_lt.1 h0])
      linarith
  -- electricity alone
  have tcan : t.hyb.canPwrAllElec = true := by
    have e1 : t.hyb.canPwrAllElec = canPwrAllElec V E p.dec.soc LV pw := by rw [← tpow]; rfl
    have e2 : r.hyb.canPwrAllElec = canPwrAllElec B E q.dec.soc r.lims r.pow := by rw [hr]; rfl
    rw [e2] at hcan
    rw [e1]
    unfold canPwrAllElec at hcan ⊢
    simp only at hcan ⊢
    rw [if_pos (show B.fcMaxKw = 0 from rfl)] at hcan
    rw [if_neg hV.engine.ne']
    simp only [Bool.and_eq_true, decide_eq_true_eq, Bool.or_eq_true] at hcan ⊢
    obtain ⟨⟨c1, c2⟩, -⟩ := hcan
    have e5 : LV.curMaxMcKwOut = r.lims.curMaxMcKwOut := by rw [hrl]; exact l9
    have e6 : LV.curMaxElecKw = r.lims.curMaxElecKw := by rw [hrl]; exact l5
    refine ⟨⟨⟨⟨?_, ?_⟩, Or.inl ?_⟩, Or.inl ?_⟩, ?_⟩
    · rw [h.soc]; exact c1
    · rw [tin, e5]; exact c2
    · rw [hdem, e6]; exact hspare
    · have : (0 : K) < 1 / 1000000 := by norm_num
      linarith
    · rw [hdem]; exact hlight
  have toff : t.forced.fcForcedOn = false := by
    have e1 : t.forced.fcForcedOn = fcForcedOn V E t.hyb := rfl
    have e2 : t.hyb.prevFcTimeOn = p.dec.fcTimeOn := rfl
    rw [e1, fcForcedOn, e2, h.never, if_neg (by simp)]
  have tmech : t.dec.mcMechKwOutAch = r.dec.mcMechKwOutAch := by
    have e1 : t.dec.mcMechKwOutAch = mcMechKwOutAch V E LV t.pow t.hyb t.forced := rfl
    have e2 : LV.curMaxMechMcKwIn = r.lims.curMaxMechMcKwIn := by rw [hrl]; exact l10
    rw [e1, hBm, tpow]
    unfold mcMechKwOutAch
    simp only
    rw [if_neg hV.motor.ne', if_neg (by rw [toff]; simp), tin, e2]
    simp only [tcan, hV.cell, hV.engine, ne_eq, not_false_eq_true, and_self, if_true]
  have telec : t.dec.mcElecKwInAch = r.dec.mcElecKwInAch := by
    have : t.dec.mcElecKwInAch = mcElecKwInAch V t.dec.mcMechKwOutAch := rfl
    rw [this, tmech, hre]; rfl
  have ttag : t.misc.highAccFcOnTag = r.misc.highAccFcOnTag := by
    rw [hrm, ← hmisc]; rfl
  have tbat : t.dec.essKwOutAch = r.dec.essKwOutAch := by
    have e1 : t.dec.essKwOutAch = essKwOutAch V E t.misc LV t.pow t.hyb t.dec.mcElecKwInAch t.dec.roadwayChgKwOutAch := rfl
    have e2 : t.dec.roadwayChgKwOutAch = roadwayChgKwOutAch V E LV t.hyb t.dec.mcElecKwInAch := rfl
    rw [e1, e2, roadwayChgKwOutAch, if_pos hroad, essKwOutAch,
      if_neg (by rintro (h1 | h1); exacts [hV.battery.ne' h1, hV.capacity.ne' h1]), if_neg hV.cell,
      if_neg (by rw [ttag, htag, hV.aux]; simp), sub_zero, telec, hbat]
  have tkwh : t.dec.essCurKwh = r.dec.essCurKwh := by
    have e1 : t.dec.essCurKwh = essCurKwh F V E.dt p.dec.essCurKwh t.dec.essKwOutAch := rfl
    have e2 : r.dec.essCurKwh = essCurKwh F B E.dt q.dec.essCurKwh r.dec.essKwOutAch := by rw [hr]; rfl
    rw [e1, e2, tbat, h.kwh]; rfl
  have tsoc : t.dec.soc = r.dec.soc := by
    have e1 : t.dec.soc = socOf V t.dec.essCurKwh := rfl
    have e2 : r.dec.soc = socOf B r.dec.essCurKwh := by rw [hr]; rfl
    rw [e1, e2, tkwh]; rfl
  have tfc : t.fc.fcKwOutAch = 0 := by
    have e1 : t.fc.fcKwOutAch = fcKwOutAch V E t.misc LV t.pow t.dec := rfl
    have e2 : LV.curMaxFcKwOut = curMaxFcKwOut V E p := rfl
    rw [e1, fcKwOutAch, if_neg hV.engine.ne', if_neg hV.cell,
      if_neg (by rw [ttag, htag, hV.aux, hV.system]; simp), tpow, tin, tmech, hBm, e2]
    have : x - (if x ≤ 0 then -(min r.lims.curMaxMechMcKwIn (-x)) else x) ≤ 0 := by
      split
      · have := min_le_right r.lims.curMaxMechMcKwIn (-x)
        linarith
      · rw [sub_self]
    rw [max_eq_left this, min_eq_right hfcV]
  have tfs : t.fc.fsKwOutAch = 0 := by
    have e1 : t.fc.fsKwOutAch = fcKwInAch V t.fc.fcKwOutAch := rfl
    rw [e1, tfc, fcKwInAch, if_pos rfl]
  have tfk : t.fc.fsKwhOutAch = 0 := by
    have e1 : t.fc.fsKwhOutAch = t.fc.fsKwOutAch * E.dt * (1 / 3600) := rfl
    rw [e1, tfs]; simp
  refine ⟨⟨⟨by rw [tspeed, hask], tsoc, tkwh, tmech, telec, tbat, tfc, tfs, tfk⟩, ttag, ?_, ?_⟩, ?_⟩
  · have : r.fc.fcKwOutAch = fcKwOutAch B E r.misc r.lims r.pow r.dec := by rw [hr]; rfl
    rw [this, fcKwOutAch, if_pos (show B.fcMaxKw = 0 from rfl)]
  · have : t.dec.fcTimeOn = if t.hyb.canPwrAllElec ∧ t.forced.fcForcedOn = false ∧ (Stale.fresh : Stale K).fcKwOutAch = 0 then 0
        else p.dec.fcTimeOn + E.dt := rfl
    rw [this, if_pos ⟨tcan, toff, rfl⟩]
  · rw [tpow]; exact hmetV

/-- The charge of the first row is the one the run was started with. -/
theorem start_charge_plug (hi : V.ptType = .phev ∨ ∃ soc, init = some soc) (hH : H.Local) {c : Cyc K} {s : Sim K}
    (h : simDrive F H V P (Sim.new c) init none = .ok s) : (s.row 0).dec.soc = bevStartSoc V init := by
  have key : ∀ soc, walk F H V P { Sim.new c with hevCount := 0 } soc none = .ok s → (s.row 0).dec.soc = soc := by
    intro soc hw
    have := (walk_done hH (s := { Sim.new c with hevCount := 0 }) rfl hw).row0
    rw [Sim.row, List.getD_eq_getElem?_getD, this]
    rfl
  unfold simDrive at h
  simp only at h
  rcases init with _ | soc
  · rcases hi with e | ⟨_, e⟩
    · rw [e] at h; exact key V.maxSoc h
    · exact absurd e (by simp)
  · exact key soc h

/-- **C123 (a hybrid without reason to start its engine is a battery-electric vehicle).** Let the vehicle without its engine
meet a trace from some charge, in a run that gives the hybrid no reason to start its engine. Then the hybrid's run over the
trace from that charge has, at every sample, the same speed, motor power, battery power and charge; it meets the trace and
burns nothing. -/
theorem C123_same (hc : P.coastAllow = false) (hd : P.idmAllow = false) (hm : P.missedTrace = false)
    (hV : HybridData V) (hM : MotorOk V) (hwin : V.minSoc ≤ V.maxSoc) (hH : H.Local) (hA : Hooks.KeepAux H V)
    (hH' : H'.Local) (hA' : Hooks.KeepAux H' (withoutEngine V)) {c : Cyc K} {init : Option K}
    (hi : V.ptType = .phev ∨ ∃ soc, init = some soc) {t s : Sim K}
    (h : simDrive F H V P (Sim.new c) init none = .ok t)
    (h' : simDrive F H' (withoutEngine V) P (Sim.new c) init none = .ok s) (hmet : MeetsTrace s) (he : StaysElectric V s) :
    t.rows.length = s.rows.length ∧ (∀ i, i < s.rows.length → DrivesAs (t.row i) (s.row i)) ∧ MeetsTrace t ∧
      fuelKj t = 0 ∧ essDischgKj V t = essDischgKj (withoutEngine V) s := by
  have kt := simDrive_keeps hH (s := Sim.new c) rfl h
  have ks := simDrive_keeps hH' (s := Sim.new c) rfl h'
  have ct : t.cyc = c := kt.cyc (by unfold Resets; simp [hc, hd, hm])
  have cs : s.cyc = c := ks.cyc (by unfold Resets; simp [hc, hd, hm])
  have ct0 : t.cyc0 = c := kt.cyc0
  have cs0 : s.cyc0 = c := ks.cyc0
  have ft := Finished.simDrive hH (s := Sim.new c) rfl h
  have fs := Finished.simDrive hH' (s := Sim.new c) rfl h'
  have lt := ft.lenRows hH
  have ls := fs.lenRows hH'
  rw [ct] at lt
  rw [cs] at ls
  obtain ⟨-, -, soct, -, t0⟩ := Reachable.inv hH ft.reachable
  obtain ⟨-, -, socs, -, s0⟩ := Reachable.inv hH' fs.reachable
  have rt0 : t.row 0 = Row.init V soct (t.cyc0.speeds.getD 0 0) (t.aux.getD 0 0) := by
    rw [Sim.row, List.getD_eq_getElem?_getD, t0]; rfl
  have rs0 : s.row 0 = Row.init (withoutEngine V) socs (s.cyc0.speeds.getD 0 0) (s.aux.getD 0 0) := by
    rw [Sim.row, List.getD_eq_getElem?_getD, s0]; rfl
  have hsoc : soct = socs := by
    have e1 := start_charge_plug hi hH h
    have e2 := start_charge (hybrid_bev hV) hH' h'
    rw [rt0] at e1
    rw [rs0] at e2
    exact e1.trans e2.symm
  have haux : ∀ i, t.aux.getD i 0 = s.aux.getD i 0 := by
    intro i
    rw [List.getD_eq_getElem?_getD, List.getD_eq_getElem?_getD, (C33_load hH hA (s := Sim.new c) rfl h).2 i,
      (C33_load hH' hA' (s := Sim.new c) rfl h').2 i]
    rfl
  have henv : ∀ i, recordedEnv t i = recordedEnv s i := by
    intro i
    unfold recordedEnv recordedGrade
    rw [ct, cs, ct0, cs0, haux]
  obtain ⟨-, Rt⟩ := Reachable.recInv hc hd ft.reachable
  obtain ⟨-, Rs⟩ := Reachable.recInv hc hd fs.reachable
  have rowt : ∀ i, i + 1 < c.length →
      t.row (i + 1) = solveStep F V P.toStepParams (recordedEnv s (i + 1)) (t.row i) Stale.fresh := by
    intro i hi
    obtain ⟨st, hst, e⟩ := Rt.solved (i + 1) (by omega) (by rw [ft.atEnd, ct]; exact hi)
    obtain rfl := hst hm
    rw [henv] at e
    rw [Sim.row, List.getD_eq_getElem?_getD, e]; rfl
  have rows' : ∀ i, i + 1 < c.length →
      s.row (i + 1) = solveStep F (withoutEngine V) P.toStepParams (recordedEnv s (i + 1)) (s.row i) Stale.fresh := by
    intro i hi
    obtain ⟨st, hst, e⟩ := Rs.solved (i + 1) (by omega) (by rw [fs.atEnd, cs]; exact hi)
    obtain rfl := hst hm
    rw [Sim.row, List.getD_eq_getElem?_getD, e]; rfl
  have step : ∀ i, i + 1 < c.length → ∃ a, StepAt s (i + 1) (s.row i) (s.row (i + 1)) (dtAt c (i + 1)) a := by
    intro i hi
    obtain ⟨p, r, dt, a, hs⟩ := stepAt_exists hH' fs.reachable (i := i + 1) (by omega)
      (by rw [fs.atEnd, cs]; omega)
    have e1 : s.row (i + 1) = r := by rw [Sim.row, List.getD_eq_getElem?_getD, hs.row]; rfl
    have e3 : s.row i = p := by
      have := hs.prev
      rw [Nat.add_sub_cancel] at this
      rw [Sim.row, List.getD_eq_getElem?_getD, this]; rfl
    have edt : dt = dtAt c (i + 1) := by rw [hs.dt, cs]
    exact ⟨a, by rw [e1, e3, ← edt]; exact hs⟩
  have all : ∀ i, i < c.length → (Coupled (t.row i) (s.row i) ∧ (s.row i).misc.highAccFcOnTag = false) ∧
      (1 ≤ i → (t.row i).pow.cycTransKwOutReq ≤ (t.row i).lims.curMaxTransKwOut) := by
    intro i
    induction i with
    | zero =>
      intro _
      refine ⟨⟨?_, by rw [rs0]; rfl⟩, fun h => absurd h (by omega)⟩
      rw [rt0, rs0, ct0, cs0, hsoc]
      exact ⟨⟨rfl, rfl, rfl, rfl, rfl, rfl, rfl, rfl, rfl⟩, rfl, rfl, rfl⟩
    | succ i ih =>
      intro hi'
      obtain ⟨⟨ih, itag⟩, -⟩ := ih (by omega)
      obtain ⟨a, hs⟩ := step i hi'
      have hr := rows' i hi'
      have hcan := he.enough _ _ _ _ _ hs
      have htag : (s.row (i + 1)).misc.highAccFcOnTag = false := by
        have hb : accelBuffSoc (withoutEngine V) (recordedEnv s (i + 1)) < (s.row i).dec.soc := by
          rw [hr] at hcan
          change canPwrAllElec (withoutEngine V) (recordedEnv s (i + 1)) (s.row i).dec.soc _ _ = true at hcan
          unfold canPwrAllElec at hcan
          simp only at hcan
          rw [if_pos (show (withoutEngine V).fcMaxKw = 0 from rfl)] at hcan
          simp only [Bool.and_eq_true, decide_eq_true_eq, Bool.or_eq_true] at hcan
          exact hcan.1.1
        have hlo : V.minSoc ≤ accelBuffSoc (withoutEngine V) (recordedEnv s (i + 1)) := by
          unfold accelBuffSoc
          rw [if_neg (by rw [show (withoutEngine V).noElecSys = false from hV.system]; simp)]
          exact le_min (le_max_right _ _) hwin
        rw [hr]
        show (setMisc (withoutEngine V) (recordedEnv s (i + 1)) (s.row i)).highAccFcOnTag = false
        unfold setMisc
        simp only [itag, Bool.false_eq_true, false_and, or_false]
        exact if_neg (not_lt.2 (hlo.trans hb.le))
      have hk := coupled_step (F := F) (Q := P.toStepParams) hV hM hr ih
        (show 0 ≤ (recordedEnv s (i + 1)).dt by
          show 0 ≤ dtAt s.cyc (i + 1)
          rw [cs]; exact he.time _ _ _ _ _ hs)
        rfl rfl (hmet _ _ _ _ _ hs).1 (hmet _ _ _ _ _ hs).2 hcan htag (he.slow _ _ _ _ _ hs) (he.light _ _ _ _ _ hs)
        (he.spare _ _ _ _ _ hs)
      rw [← rowt i hi'] at hk
      exact ⟨⟨hk.1, htag⟩, fun _ => hk.2⟩
  have hpos : 0 < c.length := by have := ft.pos hH; rwa [ct] at this
  refine ⟨by rw [lt, ls], fun i hi => (all i (by rw [← ls]; exact hi)).1.1.toDrivesAs, ?_, ?_, ?_⟩
  · intro i p r dt a hs
    have hi : i < c.length := by have := hs.lt; rw [ft.atEnd, ct] at this; exact this
    have e : t.row i = r := by rw [Sim.row, List.getD_eq_getElem?_getD, hs.row]; rfl
    have k := all i hi
    obtain ⟨j, rfl⟩ : ∃ j, i = j + 1 := ⟨i - 1, by have := hs.pos; omega⟩
    obtain ⟨a', hs'⟩ := step j hi
    rw [← e]
    refine ⟨?_, k.2 (by omega)⟩
    rw [k.1.1.speed, (hmet _ _ _ _ _ hs').1, askedMps, askedMps, cs, ct]
  · unfold fuelKj
    rw [sumDt_eq t _ (by rw [lt, ct])]
    refine Finset.sum_eq_zero fun i hi => ?_
    rw [(all i (by rw [← ct]; exact Finset.mem_range.1 hi)).1.1.fuel, zero_mul]
  · unfold essDischgKj
    have last : ∀ u : Sim K, u.rows.length = c.length → u.lastRow = u.row (c.length - 1) := by
      intro u hu
      unfold Sim.lastRow Sim.row
      rw [List.getLast?_eq_getElem?, hu, List.getD_eq_getElem?_getD]
    rw [last t lt, last s ls, show t.firstRow = t.row 0 from rfl, show s.firstRow = s.row 0 from rfl,
      (all _ (show c.length - 1 < c.length by omega)).1.1.soc, (all 0 hpos).1.1.soc]
    rfl

theorem plug_bev {Q : StepParams K} {elec : K → K} {a : K} (ls : List (Leg K)) {soc m : K}
    (h : PlugLegsWithin F V Q elec a soc m ls) : BevLegsWithin F V Q elec a soc m ls := by
  induction ls generalizing soc m with
  | nil => trivial
  | cons l ls ih => exact ⟨h.1.drive, ih h.2⟩

theorem bev_without {Q : StepParams K} {elec : K → K} {a : K} (ls : List (Leg K)) {soc m : K}
    (h : BevLegsWithin F V Q elec a soc m ls) : BevLegsWithin F (withoutEngine V) Q elec a soc m ls := by
  induction ls generalizing soc m with
  | nil => trivial
  | cons l ls ih =>
    obtain ⟨⟨h1, h2, h3, h4, h5, h6⟩, h⟩ := h
    exact ⟨⟨h1, h2, h3, h4, h5, h6⟩, ih h⟩

theorem plugLegsWithin_get {Q : StepParams K} {elec : K → K} {a : K} (ls : List (Leg K)) (st : K × K)
    (h : PlugLegsWithin F V Q elec a st.1 st.2 ls) (i : Nat) (l : Leg K) (hl : ls[i]? = some l) :
    PlugLegWithin F V Q elec a (bevAfter F V Q elec a st ls i).1 (bevAfter F V Q elec a st ls i).2 l := by
  induction ls generalizing st i with
  | nil => simp at hl
  | cons x ls ih =>
    cases i with
    | zero =>
      simp only [List.getElem?_cons_zero, Option.some.injEq] at hl
      subst hl
      rw [bevAfter_zero]; exact h.1
    | succ i => exact ih (_, _) h.2 i (by simpa using hl)

theorem bevAfter_without {Q : StepParams K} {elec : K → K} {a : K} (ls : List (Leg K)) (st : K × K) (i : Nat) :
    bevAfter F (withoutEngine V) Q elec a st ls i = bevAfter F V Q elec a st ls i := by
  induction ls generalizing st i with
  | nil => rfl
  | cons x ls ih =>
    cases i with
    | zero => rfl
    | succ i => exact ih _ i

/-- **C123 (electric trips).** A trip whose legs are, one after the other, within the limits of battery, motor and tires and
below the thresholds of the engine is driven without fuel: `sim_drive` completes, meets the trace, burns nothing, and
takes the sum of the charges of the legs. Nothing about the run has to be assumed. -/
theorem C123_run [FloorRing K] (hc : P.coastAllow = false) (hd : P.idmAllow = false) (hm : P.missedTrace = false)
    (hV : HybridData V) (hB : StrongBattery V) (hM : MotorOk V) (hR : BrakeShareOk F V)
    (hq : 0 < F.sqrt V.essRoundTripEff) :
    ∃ elec : K → K, MotorTable V elec ∧
      ∀ (c : Cyc K) (init : Option K), c ≠ [] → (V.ptType = .phev ∨ ∃ soc, init = some soc) →
        V.minSoc ≤ bevStartSoc V init → bevStartSoc V init ≤ V.maxSoc →
        PlugLegsWithin F V P.toStepParams elec V.auxKw (bevStartSoc V init) 0 (legs c) →
        ∃ t, simDrive F (realHooks F V P) V P (Sim.new c) init none = .ok t ∧ MeetsTrace t ∧ fuelKj t = 0 ∧
          (∀ r ∈ t.rows, r.fc.fcKwOutAch = 0 ∧ r.fc.fsKwhOutAch = 0) ∧ (t.row 0).dec.soc = bevStartSoc V init ∧
          essDischgKj V t = traceCellKj F V P.toStepParams elec V.auxKw c := by
  have hB' : StrongBattery (withoutEngine V) := ⟨hB.motor, hB.inTop, hB.inMax, hB.outTop, hB.elec, hB.power, hB.brake,
    hB.always, hB.rise, hB.window, hB.buffer, hB.regen⟩
  have hM' : MotorOk (withoutEngine V) := ⟨hM.len, hM.lenIn, hM.lenOut, hM.pos, hM.le_one⟩
  have hR' : BrakeShareOk F (withoutEngine V) := ⟨hR.exp, hR.a, hR.lo, hR.hi⟩
  refine ⟨mcElecKwInAch V, motorTable hM, fun c init hne hi h0 h1 hw => ?_⟩
  have run : ∀ W : Veh K, W.minSoc ≤ W.maxSoc → (∀ soc, init = some soc → W.minSoc ≤ soc ∧ soc ≤ W.maxSoc) →
      (init = none → W.ptType ≠ .hev) →
      ∃ t, simDrive F (realHooks F W P) W P (Sim.new c) init none = .ok t := by
    intro W hwin hin hh
    obtain ⟨t, h, -, -⟩ := C51_run (F := F) (V := W) (P := P) (Sim.new c) rfl
      (show 0 < c.length from List.length_pos_iff.2 hne) init none hwin (fun soc e => Or.inr (hin soc e)) hh
      ⟨fun e => absurd e (by simp [hd]), fun e => absurd e (by simp [hc]), fun e => absurd e (by simp [hc]),
        fun e => absurd e (by simp [hc])⟩
    exact ⟨t, h⟩
  have hin : ∀ soc, init = some soc → V.minSoc ≤ soc ∧ soc ≤ V.maxSoc := fun soc e => by
    rw [e] at h0 h1; exact ⟨h0, h1⟩
  obtain ⟨t, h⟩ := run V hB.window hin (fun e => by
    rcases hi with k | ⟨_, k⟩
    · rw [k]; decide
    · rw [e] at k; exact absurd k (by simp))
  obtain ⟨s, h'⟩ := run (withoutEngine V) hB.window hin (fun _ => by show PtType.bev ≠ .hev; decide)
  have hw' : BevLegsWithin F (withoutEngine V) P.toStepParams (mcElecKwInAch (withoutEngine V)) (withoutEngine V).auxKw
      (bevStartSoc (withoutEngine V) init) 0 (legs c) := bev_without _ (plug_bev _ hw)
  have rows := bev_rows hc hd hm (hybrid_bev hV) hB' hM' hR' hq realHooks_local realHooks_keepAux h' hw'
  have hcyc : s.cyc = c := (simDrive_keeps realHooks_local (s := Sim.new c) rfl h').cyc
    (by unfold Resets; simp [hc, hd, hm])
  have fin := Finished.simDrive realHooks_local (s := Sim.new c) rfl h'
  have hlen := fin.lenRows realHooks_local
  rw [hcyc] at hlen
  have get : ∀ i p r dt a, StepAt s i p r dt a → ∃ j, i = j + 1 ∧ j + 1 < c.length ∧ s.row (j + 1) = r ∧ dt = dtAt c (j + 1) := by
    intro i p r dt a hs
    obtain ⟨j, rfl⟩ : ∃ j, i = j + 1 := ⟨i - 1, by have := hs.pos; omega⟩
    refine ⟨j, rfl, by have := hs.lt; rw [fin.atEnd, hcyc] at this; exact this, ?_, by rw [hs.dt, hcyc]⟩
    rw [Sim.row, List.getD_eq_getElem?_getD, hs.row]; rfl
  have leg : ∀ j, j + 1 < c.length → PlugLegWithin F V P.toStepParams (mcElecKwInAch V) V.auxKw (s.row j).dec.soc
      (s.row j).dec.mcMechKwOutAch
      ⟨dtAt c (j + 1), c.speeds.getD j 0, c.speeds.getD (j + 1) 0, c.grades.getD (j + 1) 0⟩ := by
    intro j hj
    have := plugLegsWithin_get (legs c) (bevStartSoc V init, 0) hw j _ (legs_get c j hj)
    have k := (rows j (by omega)).1
    rw [bevAfter_without] at k
    rw [k.2.1, k.2.2.1]
    exact this
  have duty : ∀ j, j + 1 < c.length → driveDemandKw (s.row (j + 1)) = legDemandKw F V P.toStepParams (mcElecKwInAch V) V.auxKw
      ⟨dtAt c (j + 1), c.speeds.getD j 0, c.speeds.getD (j + 1) 0, c.grades.getD (j + 1) 0⟩ := by
    intro j hj
    obtain ⟨k, k'⟩ := rows (j + 1) hj
    have hmc := k.2.2.1
    rw [bevAfter_without] at hmc
    have hess := (k' (by omega)).2.2.2.2.2.2
    have e : (bevAfter F V P.toStepParams (mcElecKwInAch V) V.auxKw (bevStartSoc V init, 0) (legs c) (j + 1)).2 = _ :=
      congrArg Prod.snd (bevAfter_succ (legs c) (bevStartSoc V init, 0) j _ (legs_get c j hj))
    have hmc' : (s.row (j + 1)).dec.mcMechKwOutAch = motorDutyKw F V P.toStepParams (dtAt c (j + 1))
        (c.grades.getD (j + 1) 0) (c.speeds.getD j 0) (c.speeds.getD (j + 1) 0) := hmc.trans e
    unfold driveDemandKw legDemandKw
    simp only
    rw [hess, hmc']
    rfl
  have hmet : MeetsTrace s := by
    intro i p r dt a hs
    obtain ⟨j, rfl, hj, rfl, -⟩ := get i p r dt a hs
    have := (rows (j + 1) hj).2 (by omega)
    exact ⟨this.1, this.2.1⟩
  have he : StaysElectric V s := by
    refine ⟨?_, ?_, ?_, ?_, ?_⟩ <;> intro i p r dt a hs <;> obtain ⟨j, rfl, hj, rfl, hdt⟩ := get i p r dt a hs
    · rw [hdt]; exact (leg j hj).drive.time.le
    · exact ((rows (j + 1) hj).2 (by omega)).2.2.1
    · rw [askedMps, hcyc]; exact (leg j hj).slow
    · rw [duty j hj]; exact (leg j hj).light
    · have e := ((rows (j + 1) hj).2 (by omega)).2.2.2.2.2.1
      rw [duty j hj, e, lt_sub_iff_add_lt]
      refine lt_min (leg j hj).power ?_
      have := (leg j hj).charge
      rw [Nat.add_sub_cancel]
      exact (lt_div_iff₀ (leg j hj).drive.time).2 this
  have same := C123_same hc hd hm hV hM hB.window realHooks_local realHooks_keepAux realHooks_local realHooks_keepAux hi h h'
    hmet he
  obtain ⟨s1, s2, s3, s4, s5⟩ := same
  refine ⟨t, h, s3, s4, fun r hr => ?_, start_charge_plug hi realHooks_local h, ?_⟩
  · obtain ⟨i, hi', rfl⟩ := List.getElem_of_mem hr
    have := s2 i (by rw [← s1]; exact hi')
    rw [show t.row i = t.rows[i] by rw [Sim.row, List.getD_eq_getElem?_getD, List.getElem?_eq_getElem hi']; rfl] at this
    exact ⟨this.engine, this.fuelKwh⟩
  · rw [s5]
    exact (bev_free hc hd hm (hybrid_bev hV) hB' hM' hR' hq realHooks_local realHooks_keepAux h' hw').2

/-- Limits are an interval of charges. -/
theorem plugLegsWithin_between (hV : HybridData V) (hq : 0 < F.sqrt V.essRoundTripEff) {Q : StepParams K} {elec : K → K}
    {a : K} (ls : List (Leg K)) {lo soc hi m m' : K} (h1 : lo ≤ soc) (h2 : soc ≤ hi) (hm : |m| ≤ |m'|)
    (hlo : PlugLegsWithin F V Q elec a lo m ls) (hhi : PlugLegsWithin F V Q elec a hi m ls) :
    PlugLegsWithin F V Q elec a soc m' ls := by
  induction ls generalizing lo soc hi m m' with
  | nil => trivial
  | cons l ls ih =>
    obtain ⟨⟨⟨t, c, r, d, g, b⟩, k1, k2, k3, k4⟩, hlo⟩ := hlo
    obtain ⟨⟨⟨-, -, -, -, -, b'⟩, -, -, -, -⟩, hhi⟩ := hhi
    have cell : ∀ {x y z : K}, y ≤ z → cellKj V x y ≤ cellKj V x z := by
      intro x y z h
      unfold cellKj
      exact mul_le_mul_of_nonneg_right (mul_le_mul_of_nonneg_right (by linarith) hV.capacity.le) (by norm_num)
    have cell' : ∀ {x y z : K}, x ≤ y → cellKj V y z ≤ cellKj V x z := by
      intro x y z h
      unfold cellKj
      exact mul_le_mul_of_nonneg_right (mul_le_mul_of_nonneg_right (by linarith) hV.capacity.le) (by norm_num)
    refine ⟨⟨⟨t, c.trans (mul_le_mul_of_nonneg_right (cell h1) hq.le), r.trans_le h1, d.trans ?_, g, fun hn => ?_⟩, k1, k2,
      k3, k4.trans_le (mul_le_mul_of_nonneg_right (cell h1) hq.le)⟩, ih (by linarith) (by linarith) le_rfl hlo hhi⟩
    · exact min_le_min_left _ (by linarith)
    · exact ⟨(b hn).1, (b' hn).2.trans (cell' h2)⟩

theorem plugLegsWithin_append {Q : StepParams K} {elec : K → K} {a : K} (ls ls' : List (Leg K)) {soc m : K}
    (h : PlugLegsWithin F V Q elec a soc m ls)
    (h' : ∀ m', PlugLegsWithin F V Q elec a
      (soc - (ls.map (legCellKj F V Q elec a)).sum / (V.essMaxKwh * 3600)) m' ls') :
    PlugLegsWithin F V Q elec a soc m (ls ++ ls') := by
  induction ls generalizing soc m with
  | nil => simpa using h' m
  | cons l ls ih =>
    refine ⟨h.1, ih h.2 fun m' => ?_⟩
    have := h' m'
    rw [List.map_cons, List.sum_cons, add_div, ← sub_sub] at this
    exact this

/-- The same legs again and again. -/
theorem plugLegsWithin_repeat (hV : HybridData V) (hq : 0 < F.sqrt V.essRoundTripEff)
    {Q : StepParams K} {elec : K → K} {a : K} (ls : List (Leg K)) (n : Nat) {soc : K}
    (h : PlugLegsWithin F V Q elec a soc 0 ls)
    (h' : PlugLegsWithin F V Q elec a
      (soc - n * ((ls.map (legCellKj F V Q elec a)).sum / (V.essMaxKwh * 3600))) 0 ls) (m : K) :
    PlugLegsWithin F V Q elec a soc m (List.replicate (n + 1) ls).flatten := by
  have free : ∀ {x : K}, PlugLegsWithin F V Q elec a x 0 ls → ∀ m, PlugLegsWithin F V Q elec a x m ls := fun hx m =>
    plugLegsWithin_between hV hq ls le_rfl le_rfl (by simp) hx hx
  set q := (ls.map (legCellKj F V Q elec a)).sum / (V.essMaxKwh * 3600) with hqdef
  induction n generalizing soc m with
  | zero => simpa using free h m
  | succ n ih =>
    rw [List.replicate_succ, List.flatten_cons]
    refine plugLegsWithin_append _ _ (free h m) fun m' => ?_
    rw [← hqdef]
    refine ih (m := m') ?_ ?_
    · rcases le_total 0 q with hq0 | hq0
      · refine plugLegsWithin_between hV hq ls ?_ ?_ le_rfl h' h
        · push_cast
          have : 0 ≤ (n : K) * q := mul_nonneg (Nat.cast_nonneg n) hq0
          linarith
        · linarith
      · refine plugLegsWithin_between hV hq ls ?_ ?_ le_rfl h h'
        · linarith
        · push_cast
          have : (n : K) * q ≤ 0 := mul_nonpos_of_nonneg_of_nonpos (Nat.cast_nonneg n) hq0
          linarith
    · have : soc - q - n * q = soc - ((n + 1 : Nat) : K) * q := by push_cast; ring
      rw [this]; exact h'

/-- **C123 (electric range).** Let a trip between standstills take the share `q` of the battery. If the hybrid can drive it on
electricity once from the charge `soc` and once from `soc - n * q`, it can drive it `n + 1` times in a row from `soc`
without fuel, and the run ends at `soc - (n + 1) * q`. -/
theorem C123_range [FloorRing K] (hc : P.coastAllow = false) (hd : P.idmAllow = false) (hm : P.missedTrace = false)
    (hV : HybridData V) (hB : StrongBattery V) (hM : MotorOk V) (hR : BrakeShareOk F V)
    (hq : 0 < F.sqrt V.essRoundTripEff) :
    ∃ elec : K → K, MotorTable V elec ∧
      ∀ (c all : Cyc K) (n : Nat) (soc q : K), c ≠ [] → startTime c = 0 → StandingEnds c →
        concat (List.replicate (n + 1) c) = .ok all → V.minSoc ≤ soc → soc ≤ V.maxSoc →
        q * (V.essMaxKwh * 3600) = traceCellKj F V P.toStepParams elec V.auxKw c →
        PlugLegsWithin F V P.toStepParams elec V.auxKw soc 0 (legs c) →
        PlugLegsWithin F V P.toStepParams elec V.auxKw (soc - n * q) 0 (legs c) →
        ∃ t, simDrive F (realHooks F V P) V P (Sim.new all) (some soc) none = .ok t ∧ MeetsTrace t ∧ fuelKj t = 0 ∧
          (t.row 0).dec.soc = soc ∧ (t.row (all.length - 1)).dec.soc = soc - (n + 1) * q := by
  obtain ⟨elec, he, hF⟩ := C123_run (F := F) hc hd hm hV hB hM hR hq
  refine ⟨elec, he, fun c all n soc q hne h0 hst hall hlo hhi hqc hw hw' => ?_⟩
  have hcap : V.essMaxKwh * 3600 ≠ 0 := (mul_pos hV.capacity (by norm_num)).ne'
  have hq' : q = ((legs c).map (legCellKj F V P.toStepParams elec V.auxKw)).sum / (V.essMaxKwh * 3600) := by
    rw [eq_div_iff hcap, hqc]; rfl
  have hl : legs all = (List.replicate (n + 1) (legs c)).flatten := by
    rw [legs_concat_standing _ all (fun d hd' => by rw [List.eq_of_mem_replicate hd']; exact hne)
      (fun d hd' => by rw [List.eq_of_mem_replicate hd']; exact h0)
      (fun d hd' => by rw [List.eq_of_mem_replicate hd']; exact hst) hall, List.map_replicate]
  have hwa : PlugLegsWithin F V P.toStepParams elec V.auxKw soc 0 (legs all) := by
    rw [hl]
    exact plugLegsWithin_repeat hV hq (legs c) n hw (by rw [← hq']; exact hw') 0
  have hna : all ≠ [] := by
    rintro rfl
    rw [List.replicate_succ, concat] at hall
    exact concatFrom_induct (P := fun acc _ => acc ≠ []) (fun acc c pre h1 _ => by simp [h1]) _ c [] [] hne hall rfl
  obtain ⟨s, h, hmet, hfuel, -, hs0, hch⟩ := hF all (some soc) hna (Or.inr ⟨soc, rfl⟩) hlo hhi hwa
  refine ⟨s, h, hmet, hfuel, hs0, ?_⟩
  have e : essDischgKj V s = (soc - (s.row (all.length - 1)).dec.soc) * (V.essMaxKwh * 3600) := by
    have hlen := (Finished.simDrive realHooks_local (s := Sim.new all) rfl h).lenRows realHooks_local
    rw [(simDrive_keeps realHooks_local (s := Sim.new all) rfl h).cyc (by unfold Resets; simp [hc, hd, hm])] at hlen
    change s.rows.length = all.length at hlen
    unfold essDischgKj
    have last : s.lastRow = s.row (all.length - 1) := by
      unfold Sim.lastRow Sim.row
      rw [List.getLast?_eq_getElem?, hlen, List.getD_eq_getElem?_getD]
    rw [last, show s.firstRow = s.row 0 from rfl, hs0]
    simp only [bevStartSoc, Option.getD_some]
    ring
  have tot : traceCellKj F V P.toStepParams elec V.auxKw all = (n + 1) * (q * (V.essMaxKwh * 3600)) := by
    rw [hqc]
    unfold traceCellKj
    rw [hl, List.map_flatten, List.sum_flatten, List.map_replicate, List.map_replicate, List.sum_replicate, nsmul_eq_mul]
    push_cast; ring
  rw [e, tot, show ((n : K) + 1) * (q * (V.essMaxKwh * 3600)) = (n + 1) * q * (V.essMaxKwh * 3600) by ring] at hch
  have := mul_right_cancel₀ hcap hch
  linarith

end Field

/-! ### Concrete cases -/

open Demo

instance (F : Fns ℚ) (V : Veh ℚ) (Q : StepParams ℚ) (elec : ℚ → ℚ) (a soc m : ℚ) (l : Leg ℚ) :
    Decidable (PlugLegWithin F V Q elec a soc m l) :=
  decidable_of_iff (BevLegWithin F V Q a soc m l ∧ l.v * mphPerMps ≤ V.mphFcOn ∧
    legDemandKw F V Q elec a l ≤ V.kwDemandFcOn ∧ legDemandKw F V Q elec a l + a < V.essMaxKw ∧
    (legDemandKw F V Q elec a l + a) * l.dt < cellKj V V.minSoc soc * F.sqrt V.essRoundTripEff)
    ⟨fun h => ⟨h.1, h.2.1, h.2.2.1, h.2.2.2.1, h.2.2.2.2⟩, fun h => ⟨h.1, h.2, h.3, h.4, h.5⟩⟩

instance decPlugLegsWithin (F : Fns ℚ) (V : Veh ℚ) (Q : StepParams ℚ) (elec : ℚ → ℚ) (a : ℚ) :
    (soc m : ℚ) → (ls : List (Leg ℚ)) → Decidable (PlugLegsWithin F V Q elec a soc m ls)
  | _, _, [] => isTrue trivial
  | soc, m, l :: ls =>
    have := decPlugLegsWithin F V Q elec a (soc - legCellKj F V Q elec a l / (V.essMaxKwh * 3600))
      (motorDutyKw F V Q l.dt l.grade l.v0 l.v) ls
    (inferInstance : Decidable (PlugLegWithin F V Q elec a soc m l ∧ PlugLegsWithin F V Q elec a _ _ ls))

/-- The battery-electric demo car with an engine: a plug-in hybrid. -/
def plug : Veh ℚ :=
  { bev with ptType := .phev, fcMaxKw := 60, fsMaxKw := 500, fcKwOutArray := [0, 1, 30, 60] }

/-- The plug-in hybrid meets the hypotheses of `C123_run` and `C123_range`: the trips can be driven on electricity from a
charge of 3/5, among them one driven twice. `C123_run` is proved by way of `C123_same`, whose hypotheses these trips
therefore meet as well. -/
theorem C123_demo : HybridData plug ∧ StrongBattery plug ∧ MotorOk plug ∧ BrakeShareOk fns plug ∧
    0 < fns.sqrt plug.essRoundTripEff ∧ MotorTable plug (mcElecKwInAch plug) ∧
    (∀ c ∈ [hop, hopFine, skip, hopSkip, skipHop, hopHop], c ≠ [] ∧
      PlugLegsWithin fns plug params.toStepParams (mcElecKwInAch plug) plug.auxKw (bevStartSoc plug (some (3 / 5))) 0
        (legs c)) ∧
    ∃ q : ℚ, 0 < q ∧
      q * (plug.essMaxKwh * 3600) = traceCellKj fns plug params.toStepParams (mcElecKwInAch plug) plug.auxKw hop ∧
      PlugLegsWithin fns plug params.toStepParams (mcElecKwInAch plug) plug.auxKw (3 / 5 - (1 : Nat) * q) 0 (legs hop) := by
  refine ⟨⟨Or.inr rfl, by decide +kernel, by decide +kernel, by decide, by decide +kernel, by decide +kernel,
    by decide +kernel, rfl, rfl, by decide +kernel, by decide +kernel⟩,
    ⟨by decide +kernel, by decide +kernel, by decide +kernel, by decide +kernel, by decide +kernel,
    by decide +kernel, by decide +kernel, rfl, by decide +kernel, by decide +kernel, by decide +kernel,
    by decide +kernel⟩, ⟨by decide, by decide, by decide, by decide +kernel, by decide +kernel⟩,
    ⟨C119_demo_bev.2.1.exp, by decide +kernel, by decide +kernel, by decide +kernel⟩, by decide +kernel,
    motorTable ⟨by decide, by decide, by decide, by decide +kernel, by decide +kernel⟩, by decide +kernel,
    traceCellKj fns plug params.toStepParams (mcElecKwInAch plug) plug.auxKw hop / (plug.essMaxKwh * 3600),
    by decide +kernel, by decide +kernel, by decide +kernel⟩

/-- **C123 needs the thresholds.** On the same trip from the same charge the engine of a hybrid whose `kw_demand_fc_on` is lower
starts and burns fuel, as does that of one whose `mph_fc_on` is lower. -/
theorem C123_thresholds :
    (match simDrive fns noHooks plug params (Sim.new hop) (some (3 / 5)) none,
        simDrive fns noHooks { plug with kwDemandFcOn := 1 } params (Sim.new hop) (some (3 / 5)) none,
        simDrive fns noHooks { plug with mphFcOn := 1 } params (Sim.new hop) (some (3 / 5)) none with
      | .ok t, .ok t1, .ok t2 => decide (fuelKj t = 0 ∧ 0 < essDischgKj plug t ∧ 0 < fuelKj t1 ∧ 0 < fuelKj t2)
      | _, _, _ => false) = true := by decide +kernel

end Fastsim.Props
