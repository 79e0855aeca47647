import Verif.Props.Resume

/-!
# C79: standing still costs only the accessories
-/

set_option linter.unusedSectionVars false

namespace Fastsim.Props
open Fastsim Spec

section Field
variable {K : Type*} [Field K] [LinearOrder K] [IsStrictOrderedRing K]
variable {F : Fns K} {H : Hooks K} {V : Veh K} {P : SimParams K}

/-- **C79 (no load).** In a step from standstill to standstill nothing is needed at the wheels, no brake is
applied and the driveline carries nothing. -/
theorem C79_no_load (hc : P.coastAllow = false) (hd : P.idmAllow = false) (hm : P.missedTrace = false)
    {s : Sim K} (h : Reachable F H V P s) {i : Nat} {p r : Row K} {dt a : K} (hs : StepAt s i p r dt a)
    (hp : p.ach.mpsAch = 0) (hr0 : r.ach.mpsAch = 0) (h1 : 0 ≤ r.lims.curMaxTransKwOut) :
    r.pow.dragKw = 0 ∧ r.pow.accelKw = 0 ∧ r.pow.ascentKw = 0 ∧ r.pow.rrKw = 0 ∧ r.pow.cycTireInertiaKw = 0 ∧
      r.pow.cycWhlKwReq = 0 ∧ r.pow.cycRegenBrakeKw = 0 ∧ r.pow.cycFricBrakeKw = 0 ∧
      r.pow.cycTransKwOutReq = 0 ∧ r.pow.cycMet = true ∧ r.pow.transKwOutAch = 0 ∧ r.pow.transKwInAch = 0 := by
  obtain ⟨E, st, -, -, -, -, -, hst, hr⟩ := stepAt_recorded hc hd h hs
  have e := solveStep_pow_fresh (F := F) (V := V) P.toStepParams E p st (by rw [hst hm]; rfl)
  rw [← hr, hr0] at e
  have hL : r.lims = (solveStep F V P.toStepParams E p st).lims := by rw [hr]
  rw [hL] at h1
  rw [e]
  exact standstill_powers E p _ hp h1

/-- **C79 (engine only).** Without an electric drive, the engine delivers the accessory load at a standstill, as
far as its momentary limit allows. -/
theorem C79_engine (hc : P.coastAllow = false) (hd : P.idmAllow = false) (hm : P.missedTrace = false)
    (hsys : V.noElecSys = true) (hz : V.fcType ≠ .h2fc) (hmc : V.mcMaxKw = 0) (hfc : V.fcMaxKw ≠ 0)
    {s : Sim K} (h : Reachable F H V P s) {i : Nat} {p r : Row K} {dt a : K} (hs : StepAt s i p r dt a)
    (hp : p.ach.mpsAch = 0) (hr0 : r.ach.mpsAch = 0) (h1 : 0 ≤ r.lims.curMaxTransKwOut) (ha : 0 ≤ a) :
    r.fc.fcKwOutAch = min r.lims.curMaxFcKwOut a := by
  have hin := (C79_no_load hc hd hm h hs hp hr0 h1).2.2.2.2.2.2.2.2.2.2.2
  obtain ⟨E, st, -, -, hE, -, -, hst, hr⟩ := stepAt_recorded hc hd h hs
  have e1 : r.dec.mcMechKwOutAch = mcMechKwOutAch V E r.lims r.pow r.hyb r.forced := by rw [hr]; rfl
  have e2 : r.fc.fcKwOutAch = fcKwOutAch V E r.misc r.lims r.pow r.dec := by rw [hr]; rfl
  have hm0 : r.dec.mcMechKwOutAch = 0 := by rw [e1]; unfold mcMechKwOutAch; rw [if_pos hmc]
  rw [e2]
  unfold fcKwOutAch
  rw [if_neg hfc, if_neg hz, hsys, hin, hm0, hE]
  simp [ha]

/-- **C79 (electric).** A standstill of an electric car, or of a hybrid driving on electricity alone, draws
exactly the accessory load from the battery and uses no fuel, unless low charge has handed the accessories to
the engine. -/
theorem C79_battery (hc : P.coastAllow = false) (hd : P.idmAllow = false) (hm : P.missedTrace = false)
    (hsys : V.noElecSys = false) (haux : V.noElecAux = false) (hz : V.fcType ≠ .h2fc)
    (hb : V.essMaxKw ≠ 0) (hb' : V.essMaxKwh ≠ 0)
    {s : Sim K} (h : Reachable F H V P s) {i : Nat} {p r : Row K} {dt a : K} (hs : StepAt s i p r dt a)
    (hp : p.ach.mpsAch = 0) (hr0 : r.ach.mpsAch = 0)
    (hel : V.fcMaxKw = 0 ∨ (r.hyb.canPwrAllElec = true ∧ r.forced.fcForcedOn = false))
    (hbev : V.fcMaxKw = 0 → V.ptType = .bev) (htag : r.misc.highAccFcOnTag = false)
    (h1 : 0 ≤ r.lims.curMaxTransKwOut) (h2 : 0 ≤ r.lims.curMaxMechMcKwIn) (h3 : 0 ≤ r.lims.curMaxFcKwOut) :
    r.dec.essKwOutAch = a ∧ r.dec.mcMechKwOutAch = 0 ∧ r.fc.fcKwOutAch = 0 ∧ r.fc.fsKwOutAch = 0 := by
  have hin := (C79_no_load hc hd hm h hs hp hr0 h1).2.2.2.2.2.2.2.2.2.2.2
  obtain ⟨E, st, -, hroad, hE, -, -, hst, hr⟩ := stepAt_recorded hc hd h hs
  have hmech : r.dec.mcMechKwOutAch = 0 := by
    have e2 : r.dec.mcMechKwOutAch = mcMechKwOutAch V E r.lims r.pow r.hyb r.forced := by rw [hr]; rfl
    rw [e2]
    unfold mcMechKwOutAch
    rcases hel with e0 | ⟨hel, hon⟩
    · simp only [hbev e0, hin, e0, lt_irrefl, and_false, if_false, le_refl, if_true, neg_zero, min_eq_right h2,
        min_self, reduceCtorEq, or_self, false_and, ite_self]
    · simp only [hon, hel, hin, Bool.false_eq_true, false_and, if_false, le_refl, if_true, neg_zero, min_eq_right h2,
        min_self]
      split <;> simp
  have helec : r.dec.mcElecKwInAch = 0 := by
    have e2 : r.dec.mcElecKwInAch = mcElecKwInAch V r.dec.mcMechKwOutAch := by rw [hr]; rfl
    rw [e2, hmech]; unfold mcElecKwInAch; simp
  have hrd : r.dec.roadwayChgKwOutAch = 0 := by
    have e2 : r.dec.roadwayChgKwOutAch = roadwayChgKwOutAch V E r.lims r.hyb r.dec.mcElecKwInAch := by rw [hr]; rfl
    rw [e2]; unfold roadwayChgKwOutAch; rw [if_pos hroad]
  have hess : r.dec.essKwOutAch = a := by
    have e2 : r.dec.essKwOutAch = essKwOutAch V E r.misc r.lims r.pow r.hyb r.dec.mcElecKwInAch
        r.dec.roadwayChgKwOutAch := by rw [hr]; rfl
    rw [e2, helec, hrd]
    unfold essKwOutAch
    rw [if_neg (by tauto), if_neg hz, htag, haux, hE]
    simp
  have hout : r.fc.fcKwOutAch = 0 := by
    have e2 : r.fc.fcKwOutAch = fcKwOutAch V E r.misc r.lims r.pow r.dec := by rw [hr]; rfl
    rw [e2]
    unfold fcKwOutAch
    rw [if_neg hz, hsys, haux, htag, hin, hmech]
    simp only [Bool.or_self, Bool.false_eq_true, if_false, sub_zero, max_self, min_eq_right h3, ite_self]
  refine ⟨hess, hmech, hout, ?_⟩
  have e2 : r.fc.fsKwOutAch = fcKwInAch V r.fc.fcKwOutAch := by rw [hr]; rfl
  rw [e2, hout]
  unfold fcKwInAch
  simp

/-- **C79 (staying).** A standing vehicle that is asked to stand stands, whatever the slope. -/
theorem C79_stays (hc : P.coastAllow = false) (hd : P.idmAllow = false) (hm : P.missedTrace = false)
    {s : Sim K} (h : Reachable F H V P s) {i : Nat} {p r : Row K} {dt a : K} (hs : StepAt s i p r dt a)
    (hp : p.ach.mpsAch = 0) (hask : askedMps s i = 0) (h1 : 0 ≤ r.lims.curMaxTransKwOut) :
    r.ach.mpsAch = 0 := by
  obtain ⟨E, st, -, -, -, hmps, -, hst, hr⟩ := stepAt_recorded hc hd h hs
  have hst := hst hm
  have hL : r.lims = setCompLims F V P.toStepParams E p (setMisc V E p) := by rw [hr]; rfl
  rw [hL] at h1
  have hmet : (setPowerCalcs F V P.toStepParams E p (setCompLims F V P.toStepParams E p (setMisc V E p)) st).cycMet
      = true := by
    unfold setPowerCalcs
    rw [if_neg (by rw [hst]; exact lt_irrefl _), hmps, hask]
    exact (standstill_powers E p _ hp h1).2.2.2.2.2.2.2.2.2.1
  rw [hr]
  simp only [solveStep, setAchSpeed, if_pos hmet]
  rw [hmps, hask]

/-- **C79 (parked).** An electric car parked for a whole cycle, or a hybrid with its engine off, drives no
distance, burns no fuel and takes from its battery the energy of the accessories and the loss of delivering
it. -/
theorem C79_parked (hH : H.Local) (hc : P.coastAllow = false) (hd : P.idmAllow = false)
    (hm : P.missedTrace = false) (hb : HasBattery V) (haux : V.noElecAux = false) (hz : V.fcType ≠ .h2fc)
    (hbev : V.fcMaxKw = 0 → V.ptType = .bev) (heff : 0 < F.sqrt V.essRoundTripEff)
    {s : Sim K} (h : Finished F H V P s) (hv0 : s.cyc0.speeds.getD 0 0 = 0)
    (hask : ∀ i, 1 ≤ i → i < s.cyc.length → askedMps s i = 0) (ha : ∀ a ∈ s.aux, 0 ≤ a)
    (hrow : ∀ i p r dt a, StepAt s i p r dt a → r.misc.highAccFcOnTag = false ∧
      (V.fcMaxKw = 0 ∨ (r.hyb.canPwrAllElec = true ∧ r.forced.fcForcedOn = false)) ∧
      0 ≤ r.lims.curMaxTransKwOut ∧ 0 ≤ r.lims.curMaxMechMcKwIn ∧ 0 ≤ r.lims.curMaxFcKwOut) :
    (∀ r ∈ s.rows, r.ach.mpsAch = 0) ∧ sumDt s (fun r => r.fc.fsKwOutAch) = 0 ∧
      essDischgKj V s * F.sqrt V.essRoundTripEff = overSteps s fun i => s.aux.getD i 0 * dtAt s.cyc i := by
  have hlen := h.lenRows hH
  obtain ⟨-, -, soc, -, h0⟩ := Reachable.inv hH h.reachable
  have hR0 : s.row 0 = Row.init V soc (s.cyc0.speeds.getD 0 0) (s.aux.getD 0 0) := by
    rw [Sim.row, List.getD_eq_getElem?_getD, h0]; rfl
  have stand : ∀ (i : Nat) (r : Row K), s.rows[i]? = some r → r.ach.mpsAch = 0 := by
    intro i
    induction i with
    | zero => intro r hr; rw [h0] at hr; rw [← Option.some.inj hr]; exact hv0
    | succ n ih =>
      intro r hr
      have hlt := (List.getElem?_eq_some_iff.1 hr).1
      obtain ⟨p, r', dt, a, hs⟩ := stepAt_exists hH h.reachable (i := n + 1) (by omega) (by rw [h.atEnd]; omega)
      have := hs.row
      rw [hr] at this
      obtain rfl := Option.some.inj this
      exact C79_stays hc hd hm h.reachable hs (ih p hs.prev) (hask _ (by omega) (by omega)) (hrow _ _ _ _ _ hs).2.2.1
  have step : ∀ i p r dt a, StepAt s i p r dt a → r.dec.essKwOutAch = a ∧ r.fc.fsKwOutAch = 0 := by
    intro i p r dt a hs
    obtain ⟨htag, hel, h1, h2, h3⟩ := hrow i p r dt a hs
    have := C79_battery hc hd hm hb.sys haux hz hb.kw hb.kwh h.reachable hs (stand _ _ hs.prev) (stand _ _ hs.row)
      hel hbev htag h1 h2 h3
    exact ⟨this.1, this.2.2.2⟩
  refine ⟨fun r hr => ?_, ?_, ?_⟩
  · obtain ⟨i, hi⟩ := List.getElem?_of_mem hr
    exact stand i r hi
  · rw [sumDt_steps s _ hlen (by rw [hR0]; rfl)]
    refine Finset.sum_eq_zero fun i hi => ?_
    have hi' := Finset.mem_range.1 hi
    have := Finished.forall_rows hH h (fun r _ => r.fc.fsKwOutAch = 0)
      (fun i p r dt a hs => (step i p r dt a hs).2) (i + 1) (by omega) (by omega)
    rw [Sim.row, this, zero_mul]
  · rw [C20_run_balance hH hb h]
    unfold essEffKj
    have hi0 : (s.row 0).dec.essKwOutAch = 0 := by rw [hR0]; rfl
    rw [sumDt_steps s _ hlen hi0, sumDt_steps s _ hlen (by unfold essLossKw; rw [hi0]; simp),
      ← Finset.sum_add_distrib, Finset.sum_mul]
    unfold overSteps
    rw [Finset.sum_Ico_eq_sum_range]
    refine Finset.sum_congr rfl fun i hi => ?_
    have hi' := Finset.mem_range.1 hi
    obtain ⟨p, r, dt, a, hs⟩ := stepAt_exists hH h.reachable (i := i + 1) (by omega) (by rw [h.atEnd]; omega)
    have hrr : s.row (i + 1) = r := by rw [Sim.row, List.getD_eq_getElem?_getD, hs.row]; rfl
    have haa : s.aux.getD (1 + i) 0 = a := by rw [Nat.add_comm, List.getD_eq_getElem?_getD, hs.aux]; rfl
    have hnn : 0 ≤ a := ha a (List.mem_of_getElem? hs.aux)
    rw [hrr, haa, Nat.add_comm 1 i]
    unfold essLossKw
    rw [(step _ _ _ _ _ hs).1, if_neg (by simp [hb.kw, hb.kwh]), if_neg (not_lt.2 hnn)]
    field_simp
    ring

end Field

/-! ### Concrete cases -/

open Demo

/-- Four seconds parked on a slope. -/
def parkedTrace : Cyc ℚ := [⟨0, 0, 1 / 50, 0⟩, ⟨1, 0, 1 / 50, 0⟩, ⟨3, 0, 1 / 50, 0⟩, ⟨4, 0, 1 / 50, 0⟩]

/-- A parked electric car and a parked hybrid meet the hypotheses of `C79_parked`; half a kilowatt for four
seconds costs them 2 kJ at the terminals. -/
theorem C79_demo : ∀ V ∈ [hev, bev], HasBattery V ∧ V.noElecAux = false ∧ V.fcType ≠ .h2fc ∧
    (V.fcMaxKw = 0 → V.ptType = .bev) ∧ 0 < fns.sqrt V.essRoundTripEff ∧
    ∃ s, simDrive fns noHooks V params (Sim.new parkedTrace) (some (3 / 5)) none = .ok s ∧
      (∀ a ∈ s.aux, 0 ≤ a) ∧
      (∀ r ∈ s.rows.tail, r.misc.highAccFcOnTag = false ∧
        (V.fcMaxKw = 0 ∨ (r.hyb.canPwrAllElec = true ∧ r.forced.fcForcedOn = false)) ∧
        0 ≤ r.lims.curMaxTransKwOut ∧ 0 ≤ r.lims.curMaxMechMcKwIn ∧ 0 ≤ r.lims.curMaxFcKwOut) ∧
      essDischgKj V s * fns.sqrt V.essRoundTripEff = 2 := by
  have key : ∀ V : Veh ℚ, (match simDrive fns noHooks V params (Sim.new parkedTrace) (some (3 / 5)) none with
      | .ok s => decide (∀ a ∈ s.aux, 0 ≤ a) && decide (∀ r ∈ s.rows.tail, r.misc.highAccFcOnTag = false ∧
        (V.fcMaxKw = 0 ∨ (r.hyb.canPwrAllElec = true ∧ r.forced.fcForcedOn = false)) ∧
        0 ≤ r.lims.curMaxTransKwOut ∧ 0 ≤ r.lims.curMaxMechMcKwIn ∧ 0 ≤ r.lims.curMaxFcKwOut) &&
        decide (essDischgKj V s * fns.sqrt V.essRoundTripEff = 2)
      | .error _ => false) = true → ∃ s,
      simDrive fns noHooks V params (Sim.new parkedTrace) (some (3 / 5)) none = .ok s ∧
      (∀ a ∈ s.aux, 0 ≤ a) ∧
      (∀ r ∈ s.rows.tail, r.misc.highAccFcOnTag = false ∧
        (V.fcMaxKw = 0 ∨ (r.hyb.canPwrAllElec = true ∧ r.forced.fcForcedOn = false)) ∧
        0 ≤ r.lims.curMaxTransKwOut ∧ 0 ≤ r.lims.curMaxMechMcKwIn ∧ 0 ≤ r.lims.curMaxFcKwOut) ∧
      essDischgKj V s * fns.sqrt V.essRoundTripEff = 2 := by
    intro V hall
    cases hs : simDrive fns noHooks V params (Sim.new parkedTrace) (some (3 / 5)) none with
    | error e => rw [hs] at hall; exact absurd hall (by simp)
    | ok s =>
      rw [hs] at hall
      rw [Bool.and_eq_true, Bool.and_eq_true, decide_eq_true_eq, decide_eq_true_eq, decide_eq_true_eq] at hall
      exact ⟨s, rfl, hall.1.1, hall.1.2, hall.2⟩
  intro V hV
  simp only [List.mem_cons, List.not_mem_nil, or_false] at hV
  rcases hV with rfl | rfl
  · exact ⟨⟨rfl, by decide +kernel, by decide +kernel⟩, rfl, by decide, by decide +kernel, by decide +kernel,
      key hev (by decide +kernel)⟩
  · exact ⟨⟨rfl, by decide +kernel, by decide +kernel⟩, rfl, by decide, by decide +kernel, by decide +kernel,
      key bev (by decide +kernel)⟩

/-- A conventional car standing at the end of `stopGo`'s stop meets the hypotheses of `C79_engine` and idles at
the accessory load of half a kilowatt. -/
theorem C79_engine_demo : conv.noElecSys = true ∧ conv.fcType ≠ .h2fc ∧ conv.mcMaxKw = 0 ∧ conv.fcMaxKw ≠ 0 ∧
    (((rowsOf (simDrive fns noHooks conv params (Sim.new stopGo) (some (1 / 2)) none)).map fun r =>
      (r.ach.mpsAch, decide (0 ≤ r.lims.curMaxTransKwOut), r.fc.fcKwOutAch)).drop 2).take 2 =
      [(0, true, 1 / 2), (0, true, 1 / 2)] := by
  refine ⟨rfl, by decide, by decide +kernel, by decide +kernel, by decide +kernel⟩

end Fastsim.Props
