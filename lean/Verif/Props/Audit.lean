import Verif.Lemmas.Once
import Verif.Props.Post
import Verif.Spec.Road
import Mathlib.Tactic.LinearCombination
import Mathlib.Tactic.Positivity
import Mathlib.Tactic.FieldSimp

/-!
# C22: the energy audit
-/

set_option linter.unusedSectionVars false

namespace Fastsim.Spec

section
variable {K : Type*} [Field K]

/-- Power that enters the two buses (driveline and electrical) of a step without leaving them:
roadway charging, battery, engine and motor shaft, minus motor supply, accessories `a` and
transmission input. -/
def unbalancedKw (r : Row K) (a : K) : K :=
  r.dec.roadwayChgKwOutAch + r.dec.essKwOutAch + r.fc.fcKwOutAch + r.dec.mcMechKwOutAch
    - r.dec.mcElecKwInAch - a - r.pow.transKwInAch

/-- Sum over the steps of a run. -/
def overSteps (s : Sim K) (f : Nat → K) : K := ∑ i ∈ Finset.Ico 1 s.cyc.length, f i

end
end Fastsim.Spec

namespace Fastsim.Props
open Fastsim Spec

section Field
variable {K : Type*} [Field K] [LinearOrder K] [IsStrictOrderedRing K]
variable {F : Fns K} {H : Hooks K} {V : Veh K} {P : SimParams K}

theorem overSteps_eq (s : Sim K) (f : Nat → K) :
    overSteps s f = ∑ i ∈ Finset.range (s.cyc.length - 1), f (i + 1) := by
  unfold overSteps
  rw [Finset.sum_Ico_eq_sum_range]
  exact Finset.sum_congr rfl fun i _ => by rw [add_comm]

theorem overSteps_telescope (s : Sim K) (f : Nat → K) (hpos : 0 < s.cyc.length) :
    overSteps s (fun i => f i - f (i - 1)) = f (s.cyc.length - 1) - f 0 := by
  rw [overSteps_eq]
  simp only [Nat.add_sub_cancel]
  exact Finset.sum_range_sub f _

theorem auxKj_steps (s : Sim K) (h : s.aux.length = s.cyc.length) (hpos : 0 < s.cyc.length) :
    auxKj s = overSteps s (fun i => s.aux.getD i 0 * dtAt s.cyc i)
      + s.aux.getD 0 0 * s.cyc.times.getD 0 0 := by
  unfold auxKj
  rw [npSum_eq, zipWith_sum _ 0 0 _ _ (by rw [h, dtS_length]), h, overSteps_eq]
  obtain ⟨n, hn⟩ : ∃ n, s.cyc.length = n + 1 := ⟨s.cyc.length - 1, by omega⟩
  rw [hn, Finset.sum_range_succ', Nat.add_sub_cancel, dtS_zero]
  congr 1
  refine Finset.sum_congr rfl fun i hi => ?_
  rw [dtS_get _ _ (by omega) (by have := Finset.mem_range.1 hi; omega)]

theorem Finished.last (hH : H.Local) {s : Sim K} (h : Finished F H V P s) :
    s.lastRow = s.row (s.cyc.length - 1) := by
  unfold Sim.lastRow Sim.row
  rw [List.getLast?_eq_getElem?, h.lenRows hH, List.getD_eq_getElem?_getD]

/-- The vehicle has a working battery or none at all. -/
def BatteryOrNone (V : Veh K) : Prop := HasBattery V ∨ V.essMaxKwh = 0

theorem dischg_balance (hH : H.Local) (hb : BatteryOrNone V) {s : Sim K} (h : Finished F H V P s) :
    essDischgKj V s = sumDt s (fun r => r.dec.essKwOutAch) + essEffKj F V s := by
  rcases hb with hb | hb
  · exact C20_run_balance hH hb h
  · have hlen := h.lenRows hH
    obtain ⟨soc, -, hrow0⟩ := Reachable.row0 hH h.reachable
    have h1 : essEffKj F V s = 0 := by
      unfold essEffKj
      rw [sumDt_eq s _ hlen]
      exact Finset.sum_eq_zero fun i _ => by simp [essLossKw, hb]
    have h2 : sumDt s (fun r => r.dec.essKwOutAch) = 0 := by
      rw [sumDt_steps s _ hlen (by rw [Sim.row, hrow0]; rfl)]
      refine Finset.sum_eq_zero fun i hi => ?_
      have hi' := Finset.mem_range.1 hi
      obtain ⟨E, st, -, -, -, hr⟩ := Reachable.rowS hH h.reachable (i + 1) (by omega)
        (by rw [h.atEnd]; omega)
      have : (s.row (i + 1)).dec.essKwOutAch = 0 := by
        rw [Sim.row, hr]
        show essKwOutAch V E _ _ _ _ _ _ = 0
        simp [essKwOutAch, hb]
      rw [this, zero_mul]
    rw [h1, h2]
    simp [essDischgKj, hb]

/-- **C22 (identity, every driving mode).** What the audit calls supplied minus used energy is, for
every finished run: the unbalanced bus power of all steps, plus transmission output minus requested
output of all steps, plus the energy that went into acceleration and wheels minus the kinetic energy
the audit credits, minus the accessory load of index 0 times the first time stamp. -/
theorem C22_identity (hH : H.Local) (hb : BatteryOrNone V) {s : Sim K} (h : Finished F H V P s) :
    suppliedKj V s - netKj F V s =
      overSteps s (fun i => unbalancedKw (s.row i) (s.aux.getD i 0) * dtAt s.cyc i)
      + overSteps s (fun i => ((s.row i).pow.transKwOutAch - (s.row i).pow.cycTransKwOutReq) * dtAt s.cyc i)
      + (overSteps s (fun i => ((s.row i).pow.accelKw + (s.row i).pow.cycTireInertiaKw) * dtAt s.cyc i)
        - V.vehKg * ((s.row (s.cyc.length - 1)).ach.mpsAch ^ 2 - (s.row 0).ach.mpsAch ^ 2) / 2 / 1000)
      - s.aux.getD 0 0 * s.cyc.times.getD 0 0 := by
  have hlen := h.lenRows hH
  have hpos := h.pos hH
  obtain ⟨soc, -, hrow0⟩ := Reachable.row0 hH h.reachable
  have e : ∀ f : Row K → K, f (Row.init V soc (s.cyc0.speeds.getD 0 0) (s.aux.getD 0 0)) = 0 →
      sumDt s f = overSteps s (fun i => f (s.row i) * dtAt s.cyc i) := by
    intro f hf
    rw [sumDt_steps s f hlen (by rw [Sim.row, hrow0, hf]), overSteps_eq]
  have hreq : ∀ i, 1 ≤ i → i < s.cyc.length →
      (s.row i).pow.cycTransKwOutReq = (s.row i).pow.dragKw + (s.row i).pow.accelKw
        + (s.row i).pow.ascentKw + (s.row i).pow.rrKw + (s.row i).pow.cycTireInertiaKw
        + (s.row i).pow.cycFricBrakeKw := by
    intro i h1 h2
    obtain ⟨E, st, -, -, -, hr⟩ := Reachable.rowS hH h.reachable i h1 (by rw [h.atEnd]; omega)
    obtain ⟨v, hv⟩ := solveStep_pow F V P.toStepParams E (s.rows.getD (i - 1) Row.zero) st
    rw [Sim.row, hr, hv]
    rfl
  have hfs : ∀ i, 1 ≤ i → i < s.cyc.length → (s.row i).fc.fsKwOutAch = (s.row i).fc.fcKwInAch := by
    intro i h1 h2
    obtain ⟨E, st, -, -, -, hr⟩ := Reachable.rowS hH h.reachable i h1 (by rw [h.atEnd]; omega)
    rw [Sim.row, hr]; rfl
  have hlast := Finished.last hH h
  have hfirst : s.firstRow = s.row 0 := rfl
  unfold suppliedKj netKj
  rw [dischg_balance hH hb h]
  unfold roadwayChgKj fuelKj keKj dragKj ascentKj rrKj brakeKj transKj mcKj fcKj
  rw [auxKj_steps s (h.lenAux hH) hpos, hlast, hfirst]
  rw [e (fun r => r.dec.roadwayChgKwOutAch) rfl, e (fun r => r.dec.essKwOutAch) rfl,
    e (fun r => r.fc.fsKwOutAch) rfl, e (fun r => r.pow.dragKw) rfl, e (fun r => r.pow.ascentKw) rfl,
    e (fun r => r.pow.rrKw) rfl, e (fun r => r.pow.cycFricBrakeKw) rfl,
    e (fun r => r.pow.transKwInAch - r.pow.transKwOutAch) (sub_self _),
    e (fun r => r.dec.mcElecKwInAch - r.dec.mcMechKwOutAch) (sub_self _),
    e (fun r => r.fc.fcKwInAch - r.fc.fcKwOutAch) (sub_self _)]
  have key : overSteps s (fun i => (s.row i).dec.roadwayChgKwOutAch * dtAt s.cyc i)
      + overSteps s (fun i => (s.row i).dec.essKwOutAch * dtAt s.cyc i)
      + overSteps s (fun i => (s.row i).fc.fsKwOutAch * dtAt s.cyc i)
      - (overSteps s (fun i => (s.row i).pow.dragKw * dtAt s.cyc i)
        + overSteps s (fun i => (s.row i).pow.ascentKw * dtAt s.cyc i)
        + overSteps s (fun i => (s.row i).pow.rrKw * dtAt s.cyc i)
        + overSteps s (fun i => (s.row i).pow.cycFricBrakeKw * dtAt s.cyc i)
        + overSteps s (fun i => ((s.row i).pow.transKwInAch - (s.row i).pow.transKwOutAch) * dtAt s.cyc i)
        + overSteps s (fun i => ((s.row i).dec.mcElecKwInAch - (s.row i).dec.mcMechKwOutAch) * dtAt s.cyc i)
        + overSteps s (fun i => s.aux.getD i 0 * dtAt s.cyc i)
        + overSteps s (fun i => ((s.row i).fc.fcKwInAch - (s.row i).fc.fcKwOutAch) * dtAt s.cyc i)) =
      overSteps s (fun i => unbalancedKw (s.row i) (s.aux.getD i 0) * dtAt s.cyc i)
      + overSteps s (fun i => ((s.row i).pow.transKwOutAch - (s.row i).pow.cycTransKwOutReq) * dtAt s.cyc i)
      + overSteps s (fun i => ((s.row i).pow.accelKw + (s.row i).pow.cycTireInertiaKw) * dtAt s.cyc i) := by
    unfold overSteps
    simp only [← Finset.sum_add_distrib, ← Finset.sum_sub_distrib]
    refine Finset.sum_congr rfl fun i hi => ?_
    have hi' := Finset.mem_Ico.1 hi
    rw [hreq i hi'.1 hi'.2, hfs i hi'.1 hi'.2]
    unfold unbalancedKw
    ring
  linear_combination key

/-- All step durations of the run are non-zero. -/
def DtPos (s : Sim K) : Prop := ∀ i, 1 ≤ i → i < s.i → 0 < dtAt s.cyc i

/-- **C22 (without missed-trace correction).** Without missed-trace correction the acceleration terms cancel
against the kinetic energy, and what is left besides unbalanced buses and unmet requests is the change
of the wheels' rotational energy, which the audit omits. -/
theorem C22_wheels (hH : H.Local) (hK : H.KeepRows) (hm : P.missedTrace = false) (hb : BatteryOrNone V)
    {s : Sim K} (h : Finished F H V P s) (hdt : DtPos s) (h0 : s.cyc.times.getD 0 0 = 0) :
    suppliedKj V s - netKj F V s =
      overSteps s (fun i => unbalancedKw (s.row i) (s.aux.getD i 0) * dtAt s.cyc i)
      + overSteps s (fun i => ((s.row i).pow.transKwOutAch - (s.row i).pow.cycTransKwOutReq) * dtAt s.cyc i)
      + (wheelKj V s.lastRow.ach.mpsAch - wheelKj V s.firstRow.ach.mpsAch) := by
  rw [C22_identity hH hb h, h0, mul_zero, sub_zero, Finished.last hH h]
  congr 1
  have hpos := h.pos hH
  have hk : overSteps s (fun i => ((s.row i).pow.accelKw + (s.row i).pow.cycTireInertiaKw) * dtAt s.cyc i)
      = overSteps s (fun i => (V.vehKg * (s.row i).ach.mpsAch ^ 2 / 2 / 1000 + wheelKj V (s.row i).ach.mpsAch)
        - (V.vehKg * (s.row (i - 1)).ach.mpsAch ^ 2 / 2 / 1000 + wheelKj V (s.row (i - 1)).ach.mpsAch)) := by
    unfold overSteps
    refine Finset.sum_congr rfl fun i hi => ?_
    have hi' := Finset.mem_Ico.1 hi
    obtain ⟨E, st, hst, hE, -, -, hr⟩ := (Reachable.once hH hK hm h.reachable).2 i hi'.1 (by rw [h.atEnd]; omega)
    have hrow : s.row i = solveStep F V P.toStepParams E (s.row (i - 1)) st := by
      rw [Sim.row, List.getD_eq_getElem?_getD, hr]; rfl
    have hp := solveStep_pow_fresh (F := F) (V := V) P.toStepParams E (s.row (i - 1)) st hst
    rw [← hrow] at hp
    have hd := hdt i hi'.1 (by rw [h.atEnd]; omega)
    have hd' : E.dt ≠ 0 := by rw [hE]; exact ne_of_gt hd
    have ha : (s.row i).pow.accelKw = accelKw V E.dt (s.row (i - 1)).ach.mpsAch (s.row i).ach.mpsAch := by
      rw [hp]; rfl
    have ht : (s.row i).pow.cycTireInertiaKw =
        tireInertiaKw V E.dt (s.row (i - 1)).ach.mpsAch (s.row i).ach.mpsAch := by rw [hp]; rfl
    show ((s.row i).pow.accelKw + (s.row i).pow.cycTireInertiaKw) * dtAt s.cyc i = _
    rw [ha, ht, ← hE]
    unfold accelKw tireInertiaKw wheelKj
    have e1 : V.vehKg / (2 * E.dt) * E.dt = V.vehKg / 2 := by field_simp
    have e2 : ∀ x : K, x / E.dt * E.dt = x := fun x => div_mul_cancel₀ x hd'
    beta_reduce
    generalize (s.row i).ach.mpsAch = v
    generalize (s.row (i - 1)).ach.mpsAch = u
    linear_combination (v * v - u * u) / 1000 * e1
      + (e2 (1 / 2 * V.wheelInertiaKgM2 * V.numWheels * (v / V.wheelRadiusM * (v / V.wheelRadiusM)))
        - e2 (1 / 2 * V.wheelInertiaKgM2 * V.numWheels * (u / V.wheelRadiusM * (u / V.wheelRadiusM)))) / 1000
  rw [hk, overSteps_telescope s (fun i => V.vehKg * (s.row i).ach.mpsAch ^ 2 / 2 / 1000
    + wheelKj V (s.row i).ach.mpsAch) hpos]
  show _ = wheelKj V (s.row (s.cyc.length - 1)).ach.mpsAch - wheelKj V (s.row 0).ach.mpsAch
  ring

/-- Demand on the engine of a vehicle without fuel cell: driveline demand not covered by the motor,
plus the accessories if they hang on the engine. -/
def engineDemand (V : Veh K) (r : Row K) (a : K) : K :=
  r.pow.transKwInAch - r.dec.mcMechKwOutAch
    + if r.misc.highAccFcOnTag = true ∨ V.noElecAux = true then a else 0

/-- **C22 (buses).** For a vehicle with engine (no fuel cell), a battery and an electrical system, the
buses of a step balance exactly when the demand on the engine is between zero and the engine's
current limit. -/
theorem C22_bus (hH : H.Local) (hb : HasBattery V) (hz : V.fcType ≠ .h2fc) (hf : V.fcMaxKw ≠ 0)
    {s : Sim K} (h : Reachable F H V P s) {i : Nat} {p r : Row K} {dt a : K}
    (hs : StepAt s i p r dt a) :
    unbalancedKw r a = min r.lims.curMaxFcKwOut (max 0 (engineDemand V r a)) - engineDemand V r a ∧
    (0 ≤ r.lims.curMaxFcKwOut →
      (unbalancedKw r a = 0 ↔ 0 ≤ engineDemand V r a ∧ engineDemand V r a ≤ r.lims.curMaxFcKwOut)) := by
  have h1 : unbalancedKw r a =
      min r.lims.curMaxFcKwOut (max 0 (engineDemand V r a)) - engineDemand V r a := by
    obtain ⟨E, st, -, hroad, hE, rfl⟩ := StepAt.solve hH h hs
    have hR : (solveStep F V P.toStepParams E p st).dec.roadwayChgKwOutAch = 0 := by
      show roadwayChgKwOutAch V E _ _ _ = 0
      simp [roadwayChgKwOutAch, hroad]
    have hess : (solveStep F V P.toStepParams E p st).dec.essKwOutAch =
        essKwOutAch V E (solveStep F V P.toStepParams E p st).misc
          (solveStep F V P.toStepParams E p st).lims (solveStep F V P.toStepParams E p st).pow
          (solveStep F V P.toStepParams E p st).hyb
          (solveStep F V P.toStepParams E p st).dec.mcElecKwInAch
          (solveStep F V P.toStepParams E p st).dec.roadwayChgKwOutAch := rfl
    have hfc : (solveStep F V P.toStepParams E p st).fc.fcKwOutAch =
        fcKwOutAch V E (solveStep F V P.toStepParams E p st).misc
          (solveStep F V P.toStepParams E p st).lims (solveStep F V P.toStepParams E p st).pow
          (solveStep F V P.toStepParams E p st).dec := rfl
    rw [hR] at hess
    generalize solveStep F V P.toStepParams E p st = r at *
    unfold essKwOutAch at hess
    unfold fcKwOutAch at hfc
    rw [if_neg (by have := hb.kw; have := hb.kwh; tauto), if_neg hz] at hess
    rw [if_neg hf, if_neg hz, hb.sys] at hfc
    unfold unbalancedKw engineDemand
    rw [hR]
    by_cases hc : r.misc.highAccFcOnTag = true ∨ V.noElecAux = true
    · have hc1 : (r.misc.highAccFcOnTag || V.noElecAux) = true := by
        rcases hc with hc | hc <;> simp [hc]
      have hc2 : (false || V.noElecAux || r.misc.highAccFcOnTag) = true := by
        rcases hc with hc | hc <;> simp [hc]
      rw [if_pos hc1] at hess
      rw [if_pos hc2, hE] at hfc
      rw [if_pos hc, hess, hfc]
      ring
    · have hc1 : ¬ (r.misc.highAccFcOnTag || V.noElecAux) = true := by
        rw [Bool.or_eq_true]; exact hc
      have hc2 : ¬ (false || V.noElecAux || r.misc.highAccFcOnTag) = true := by
        rw [Bool.false_or, Bool.or_eq_true]; tauto
      rw [if_neg hc1, hE] at hess
      rw [if_neg hc2] at hfc
      rw [if_neg hc, hess, hfc, add_zero]
      ring
  refine ⟨h1, fun hcap => ?_⟩
  rw [h1]
  generalize engineDemand V r a = d
  generalize r.lims.curMaxFcKwOut = c at hcap ⊢
  constructor
  · intro he
    rw [sub_eq_zero] at he
    rw [← he]
    exact ⟨le_min hcap (le_max_left _ _), min_le_left _ _⟩
  · rintro ⟨a1, a2⟩
    rw [max_eq_right a1, min_eq_right a2, sub_self]

/-- A conventional vehicle: engine, no battery, no motor. -/
structure Conventional (V : Veh K) : Prop where
  noElecSys : V.noElecSys = true
  notH2 : V.fcType ≠ .h2fc
  kwh : V.essMaxKwh = 0
  kw : V.essMaxKw = 0
  motor : V.mcMaxKw = 0
  engine : 0 < V.fcMaxKw
  eff : 0 < V.transEff

/-- **C22 (conventional vehicles, one step).** The buses of a conventional vehicle balance in every
step that meets the trace, whatever the accessory load (as long as it is not negative). -/
theorem C22_conventional_bus (hH : H.Local) (hV : Conventional V)
    {s : Sim K} (h : Reachable F H V P s) {i : Nat} {p r : Row K} {dt a : K}
    (hs : StepAt s i p r dt a) (ha : 0 ≤ a) (hcoast : P.coastAllow = false) (hidm : P.idmAllow = false)
    (hmet : r.pow.cycTransKwOutReq ≤ r.lims.curMaxTransKwOut) :
    unbalancedKw r a = 0 ∧ r.pow.transKwOutAch = r.pow.cycTransKwOutReq := by
  obtain ⟨hI, hR⟩ := Reachable.recInv hcoast hidm h
  obtain ⟨st, -, hr⟩ := hR.solved i hs.pos hs.lt
  rw [List.getD_eq_getElem?_getD, hs.prev, hs.row] at hr
  have hr := Option.some.inj hr
  simp only [Option.getD_some] at hr
  have hE : (recordedEnv s i).auxIn = a := by
    show s.aux.getD i 0 = a
    rw [List.getD_eq_getElem?_getD, hs.aux]; rfl
  have hroad : (recordedEnv s i).roadKw = 0 := rfl
  have hEc : (recordedEnv s i).coast = false := rfl
  generalize recordedEnv s i = E at *
  have hout : r.pow.transKwOutAch = r.pow.cycTransKwOutReq := by
    rw [hr, solveStep_out, ← hr, min_eq_left hmet]
  refine ⟨?_, hout⟩
  -- limits
  have hchg : curMaxEssChgKw F V E p = 0 := by
    simp [curMaxEssChgKw, essCapLimChgKw, hV.kwh, hV.kw]
  have hmech : curMaxMechMcKwIn F V E p = 0 := by simp [curMaxMechMcKwIn, hchg]
  have hmc : curMaxMcKwOut F V E p ≤ 0 := by
    unfold curMaxMcKwOut
    rw [hV.motor, mul_zero, neg_zero]
    exact max_le (min_le_right _ _) le_rfl
  have hlim : r.lims.curMaxTransKwOut ≤ (r.lims.curMaxFcKwOut - a) * V.transEff := by
    rw [hr]
    show curMaxTransKwOut F V P.toStepParams E p (setMisc V E p) ≤ (curMaxFcKwOut V E p - a) * V.transEff
    unfold curMaxTransKwOut
    simp only [hEc, hV.noElecSys, hV.notH2, Bool.true_or, if_true, if_false, Bool.false_eq_true]
    refine (min_le_left _ _).trans (mul_le_mul_of_nonneg_right ?_ hV.eff.le)
    rw [hE]; linarith
  -- requested output is non-negative
  have hreq0 : 0 ≤ r.pow.cycTransKwOutReq := by
    obtain ⟨v, hv⟩ := solveStep_pow F V P.toStepParams E p st
    rw [← hr] at hv
    have e1 : r.pow.cycTransKwOutReq = r.pow.cycWhlKwReq + fricBrakeKw r.pow.cycRegenBrakeKw r.pow.cycWhlKwReq := by
      rw [hv]; rfl
    have e2 : r.pow.cycRegenBrakeKw =
        regenBrakeKw V (curMaxMechMcKwIn F V E p) r.pow.regenContrlLimKwPerc r.pow.cycWhlKwReq := by
      rw [hv]; rfl
    rw [hmech, regenBrakeKw, zero_mul, max_eq_right (min_le_left _ _)] at e2
    rw [e1, e2, fricBrakeKw, zero_add]
    have := min_le_left r.pow.cycWhlKwReq 0
    linarith
  have hin : r.pow.transKwInAch = r.pow.transKwOutAch / V.transEff := by
    have : r.pow.transKwInAch = transKwIn V r.pow.transKwOutAch := by rw [hr, solveStep_in]
    rw [this, transKwIn]
    split
    · rfl
    · have h0 : r.pow.transKwOutAch = 0 := by
        rename_i hn
        rw [hout] at hn ⊢
        exact le_antisymm (not_lt.1 hn) hreq0
      rw [h0]; simp
  have hcap : r.pow.transKwInAch ≤ r.lims.curMaxFcKwOut - a := by
    rw [hin, div_le_iff₀ hV.eff, hout]
    exact hmet.trans hlim
  have hin0 : 0 ≤ r.pow.transKwInAch := by
    rw [hin, hout]; exact div_nonneg hreq0 hV.eff.le
  -- power flows
  have hm : r.dec.mcMechKwOutAch = 0 := by
    rw [hr]; show mcMechKwOutAch V E _ _ _ _ = 0
    simp [mcMechKwOutAch, hV.motor]
  have hel : r.dec.mcElecKwInAch = 0 := by
    have : r.dec.mcElecKwInAch = mcElecKwInAch V r.dec.mcMechKwOutAch := by rw [hr]; rfl
    rw [this, hm]; simp [mcElecKwInAch]
  have hess : r.dec.essKwOutAch = 0 := by
    rw [hr]; show essKwOutAch V E _ _ _ _ _ _ = 0
    simp [essKwOutAch, hV.kw]
  have hro : r.dec.roadwayChgKwOutAch = 0 := by
    rw [hr]; show roadwayChgKwOutAch V E _ _ _ = 0
    simp [roadwayChgKwOutAch, hroad]
  have hfc : r.fc.fcKwOutAch = r.pow.transKwInAch + a := by
    have e : r.fc.fcKwOutAch = fcKwOutAch V E r.misc r.lims r.pow r.dec := by rw [hr]; rfl
    rw [e]
    unfold fcKwOutAch
    rw [if_neg (ne_of_gt hV.engine), if_neg hV.notH2, hV.noElecSys]
    simp only [Bool.true_or, if_true]
    rw [hm, hE, sub_zero, max_eq_right (by linarith), min_eq_right (by linarith)]
  unfold unbalancedKw
  rw [hro, hess, hfc, hm, hel]
  ring

/-- **C22 (conventional vehicles).** If a conventional vehicle meets the trace in every step, supplied
minus used energy is exactly the change of the wheels' rotational energy. -/
theorem C22_conventional (hH : H.Local) (hK : H.KeepRows) (hm : P.missedTrace = false)
    (hcoast : P.coastAllow = false) (hidm : P.idmAllow = false) (hV : Conventional V)
    {s : Sim K} (h : Finished F H V P s) (hdt : DtPos s) (h0 : s.cyc.times.getD 0 0 = 0)
    (ha : ∀ x ∈ s.aux, 0 ≤ x)
    (hmet : ∀ r ∈ s.rows.tail, r.pow.cycTransKwOutReq ≤ r.lims.curMaxTransKwOut) :
    suppliedKj V s - netKj F V s = wheelKj V s.lastRow.ach.mpsAch - wheelKj V s.firstRow.ach.mpsAch := by
  have hstep : ∀ i, 1 ≤ i → i < s.cyc.length → unbalancedKw (s.row i) (s.aux.getD i 0) = 0 ∧
      (s.row i).pow.transKwOutAch = (s.row i).pow.cycTransKwOutReq := by
    intro i h1 h2
    obtain ⟨p, r, dt, a, hs⟩ := stepAt_exists hH h.reachable h1 (by rw [h.atEnd]; exact h2)
    have e1 : s.row i = r := by rw [Sim.row, List.getD_eq_getElem?_getD, hs.row]; rfl
    have e2 : s.aux.getD i 0 = a := by rw [List.getD_eq_getElem?_getD, hs.aux]; rfl
    rw [e1, e2]
    refine C22_conventional_bus hH hV h.reachable hs (ha a (List.mem_of_getElem? hs.aux)) hcoast hidm
      (hmet r ?_)
    refine List.mem_of_getElem? (i := i - 1) ?_
    rw [List.getElem?_tail, show i - 1 + 1 = i from by omega]
    exact hs.row
  rw [C22_wheels hH hK hm (Or.inr hV.kwh) h hdt h0]
  have z : ∀ f : Nat → K, (∀ i, 1 ≤ i → i < s.cyc.length → f i = 0) → overSteps s f = 0 := by
    intro f hf
    exact Finset.sum_eq_zero fun i hi => hf i (Finset.mem_Ico.1 hi).1 (Finset.mem_Ico.1 hi).2
  rw [z _ (fun i a b => by rw [(hstep i a b).1, zero_mul]),
    z _ (fun i a b => by rw [(hstep i a b).2, sub_self, zero_mul]), zero_add, zero_add]

/-- **C22 (zero error).** Hence, for such a run with supplied energy, the audit error is zero exactly
when the run ends at the speed it started with (up to sign), for wheels with inertia. -/
theorem C22_error_zero (hH : H.Local) (hK : H.KeepRows) (hm : P.missedTrace = false)
    (hcoast : P.coastAllow = false) (hidm : P.idmAllow = false) (hV : Conventional V)
    {s : Sim K} (h : Finished F H V P s) (hdt : DtPos s) (h0 : s.cyc.times.getD 0 0 = 0)
    (ha : ∀ x ∈ s.aux, 0 ≤ x)
    (hmet : ∀ r ∈ s.rows.tail, r.pow.cycTransKwOutReq ≤ r.lims.curMaxTransKwOut)
    (hsup : suppliedKj V s ≠ 0) (hw : 0 < V.numWheels) (hi : 0 < V.wheelInertiaKgM2)
    (hrad : V.wheelRadiusM ≠ 0) :
    energyAuditError F V s = 0 ↔ s.lastRow.ach.mpsAch ^ 2 = s.firstRow.ach.mpsAch ^ 2 := by
  unfold energyAuditError
  rw [C22_conventional hH hK hm hcoast hidm hV h hdt h0 ha hmet, div_eq_zero_iff, or_iff_left hsup]
  unfold wheelKj
  have hw' := ne_of_gt hw
  have hi' := ne_of_gt hi
  constructor
  · intro e
    have : V.numWheels * V.wheelInertiaKgM2 / 2 / 1000 / V.wheelRadiusM ^ 2 *
        (s.lastRow.ach.mpsAch ^ 2 - s.firstRow.ach.mpsAch ^ 2) = 0 := by
      rw [← e]; field_simp
    rcases mul_eq_zero.1 this with h1 | h1
    · exfalso
      have : V.numWheels * V.wheelInertiaKgM2 / 2 / 1000 / V.wheelRadiusM ^ 2 ≠ 0 := by positivity
      exact this h1
    · exact sub_eq_zero.1 h1
  · intro e
    rw [div_pow, div_pow, e, sub_self]

end Field

/-! ### Concrete cases -/

open Demo

theorem noHooks_keepRows : Hooks.KeepRows noHooks :=
  ⟨.of_eq fun s s' h => by cases h; rfl, .of_eq fun s s' h => by cases h; rfl⟩

/-- The demo conventional car, run on the demo cycle up to its last braking sample (so that the wheels
still turn), meets all hypotheses of `C22_conventional`; its audit error is not zero. -/
theorem C22_demo : ∃ s, simDrive fns noHooks conv params (Sim.new (cyc.take 5)) none none = .ok s ∧
    Finished fns noHooks conv params s ∧ Conventional conv ∧ DtPos s ∧ s.cyc.times.getD 0 0 = 0 ∧
    (∀ x ∈ s.aux, 0 ≤ x) ∧
    (∀ r ∈ s.rows.tail, r.pow.cycTransKwOutReq ≤ r.lims.curMaxTransKwOut) ∧
    suppliedKj conv s ≠ 0 ∧ suppliedKj conv s - netKj fns conv s ≠ 0 := by
  have hall : (match simDrive fns noHooks conv params (Sim.new (cyc.take 5)) none none with
      | .ok s => decide ((∀ i < s.i, 1 ≤ i → 0 < dtAt s.cyc i) ∧ s.cyc.times.getD 0 0 = 0 ∧
          (∀ x ∈ s.aux, 0 ≤ x) ∧
          (∀ r ∈ s.rows.tail, r.pow.cycTransKwOutReq ≤ r.lims.curMaxTransKwOut) ∧
          suppliedKj conv s ≠ 0 ∧ suppliedKj conv s - netKj fns conv s ≠ 0)
      | .error _ => false) = true := by decide +kernel
  split at hall
  · rename_i s hs
    obtain ⟨h1, h2⟩ := of_decide_eq_true hall
    refine ⟨s, hs, Finished.simDrive noHooks_local rfl hs, ?_, fun i a b => h1 i b a, h2⟩
    exact ⟨rfl, by decide, rfl, rfl, rfl, by decide +kernel, by decide +kernel⟩
  · simp at hall

end Fastsim.Props
