import Verif.Props.Hybrid
import Verif.Lemmas.Once

/-!
# C73: where the charge of a running hybrid is steered, C74: the battery and the engine's best efficiency,
C75: recorded wheel speed and spare traction power
-/

set_option linter.unusedSectionVars false

namespace Fastsim.Spec
section Field
variable {K : Type*} [Field K] [LinearOrder K] [IsStrictOrderedRing K]

/-- Charge a hybrid aims at when its engine runs: the middle if the room kept for braking overlaps with the
reserve kept for acceleration, otherwise the nearest charge between reserve (`lo`) and room (`hi`). -/
def aimSoc (lo hi soc : K) : K := if hi < lo then (hi + lo) / 2 else max lo (min hi soc)

/-- Power (kW) that takes a battery of `kwh` from charge `soc` to `aim` in `dt` seconds, discharging
counted positive. -/
def powerTo (kwh dt soc aim : K) : K := (soc - aim) * kwh * 3600 / dt

/-- Largest battery power usable when the engine runs: the battery's limit, and what motor and accessories
can take up. -/
def usableKw (V : Veh K) (r : Row K) (a : K) : K :=
  min (min r.lims.curEssMaxKwOut (V.mcMaxElecInKw + a)) (r.lims.curMaxMcElecKwIn + a)

end Field
end Fastsim.Spec

namespace Fastsim.Props
open Fastsim Spec

section Field
variable {K : Type*} [Field K] [LinearOrder K] [IsStrictOrderedRing K]
variable {F : Fns K} {H : Hooks K} {V : Veh K} {P : SimParams K}

/-- **C73 (where the charge is steered).** Without best-efficiency steering (the default), the battery
power requested while the engine runs is the power that takes the charge to its aim within the step,
within what the battery can take up and deliver and what motor and accessories can use; when discharging
down to the braking room, also not above the motor's momentary *output* limit plus accessories. -/
theorem C73_request (hH : H.Local) (hsys : V.noElecSys = false) (hch : V.chargingOn = false)
    (hk : 0 < V.essMaxKwh) (h1 : V.essDischgToFcMaxEffPerc = 0) (h2 : V.essChgToFcMaxEffPerc = 0)
    {s : Sim K} (h : Reachable F H V P s) {i : Nat} {p r : Row K} {dt a : K} (hs : StepAt s i p r dt a)
    (hdt : 0 < dt) (hout : 0 ≤ r.lims.curEssMaxKwOut) (hin : 0 ≤ r.lims.curMaxEssChgKw)
    (hml : 0 ≤ r.lims.mcElecInLimKw + a) :
    r.dec.essKwIfFcReq = min (usableKw V r a) (max (-r.lims.curMaxEssChgKw)
      (let x := powerTo V.essMaxKwh dt p.dec.soc
          (aimSoc r.hyb.accelBuffSoc r.hyb.regenBuffSoc p.dec.soc)
        if r.hyb.accelBuffSoc ≤ r.hyb.regenBuffSoc ∧ r.hyb.regenBuffSoc < p.dec.soc then
          min x (r.lims.mcElecInLimKw + a) else x)) := by
  obtain ⟨E, st, hE, hroad, hEa, hr⟩ := StepAt.solve hH h hs
  have e0 : r.dec.essKwIfFcReq = essKwIfFcReq V E r.lims r.hyb := by rw [hr]; rfl
  have eA : r.hyb.essAccelRegenDischgKw = essAccelRegenDischgKw V E p.dec.soc r.lims := by rw [hr]; rfl
  have eR : r.hyb.regenBuffSoc = regenBuffSoc V E := by rw [hr]; rfl
  have eB : r.hyb.accelBuffSoc = accelBuffSoc V E := by rw [hr]; rfl
  have eRD : r.hyb.essRegenBuffDischgKw = min r.lims.curEssMaxKwOut
      (max 0 (powerTo V.essMaxKwh dt p.dec.soc (regenBuffSoc V E))) := by
    rw [hr, ← hE]
    show essRegenBuffDischgKw V E p.dec.soc _ = _
    unfold essRegenBuffDischgKw
    simp only [hsys, hch, Bool.or_self, Bool.false_eq_true, if_false]
    rfl
  have eRC : r.hyb.maxEssRegenBuffChgKw = min (max 0 (-powerTo V.essMaxKwh dt p.dec.soc
      (regenBuffSoc V E))) r.lims.curMaxEssChgKw := by
    rw [hr, ← hE]
    show maxEssRegenBuffChgKw V E p.dec.soc _ = _
    unfold maxEssRegenBuffChgKw powerTo
    simp only [hsys, hch, Bool.or_self, Bool.false_eq_true, if_false]
    congr 2
    ring
  have eAC : r.hyb.essAccelBuffChgKw = max 0 (-powerTo V.essMaxKwh dt p.dec.soc (accelBuffSoc V E)) := by
    rw [hr, ← hE]
    show essAccelBuffChgKw V E p.dec.soc = _
    unfold essAccelBuffChgKw powerTo
    simp only [hsys, Bool.false_eq_true, if_false]
    congr 1
    ring
  have eAC' : essAccelBuffChgKw V E p.dec.soc = r.hyb.essAccelBuffChgKw := by rw [hr]; rfl
  have eRD' : essRegenBuffDischgKw V E p.dec.soc r.lims = r.hyb.essRegenBuffDischgKw := by rw [hr]; rfl
  have hd : essDesiredKw4fcEff V E r.hyb = 0 := by
    unfold essDesiredKw4fcEff
    simp [h1, h2]
  have hmono : ∀ x y : K, x ≤ y → powerTo V.essMaxKwh dt p.dec.soc y ≤ powerTo V.essMaxKwh dt p.dec.soc x := by
    intro x y hxy
    unfold powerTo
    have := hk.le
    have := hdt.le
    gcongr
  have hself : powerTo V.essMaxKwh dt p.dec.soc p.dec.soc = 0 := by unfold powerTo; simp
  rw [e0]
  unfold essKwIfFcReq
  simp only [hd, lt_irrefl, if_false]
  rw [hEa, eA, eR, eB]
  have hU : usableKw V r a ≤ r.lims.curEssMaxKwOut := (min_le_left _ _).trans (min_le_left _ _)
  change min (usableKw V r a) _ = _
  generalize usableKw V r a = U at hU ⊢
  have hcap : ∀ x y : K, min U (max y (min x r.lims.curEssMaxKwOut)) = min U (max y x) := by
    intro x y
    rcases le_total x r.lims.curEssMaxKwOut with c | c
    · rw [min_eq_left c]
    · rw [min_eq_right c, min_eq_left (le_max_of_le_right hU),
        min_eq_left (le_max_of_le_right (hU.trans c))]
  have hcap0 : ∀ x : K, r.lims.curEssMaxKwOut ≤ x → U ≤ x := fun x hx => hU.trans hx
  unfold essAccelRegenDischgKw
  simp only [eAC', eRD']
  generalize r.lims.curEssMaxKwOut = M at *
  generalize r.lims.curMaxEssChgKw = C at *
  generalize r.lims.mcElecInLimKw + a = Q at *
  by_cases c : regenBuffSoc V E < accelBuffSoc V E
  · rw [if_pos c, if_pos c, if_neg (by rintro ⟨x, -⟩; exact absurd c (not_lt.2 x)), max_left_comm,
      max_self, max_comm, hcap]
    congr 2
    unfold aimSoc powerTo
    rw [if_pos c, hE]
  rw [if_neg c, if_neg c]
  have hle := not_lt.1 c
  have haim : aimSoc (accelBuffSoc V E) (regenBuffSoc V E) p.dec.soc =
      max (accelBuffSoc V E) (min (regenBuffSoc V E) p.dec.soc) := by unfold aimSoc; rw [if_neg c]
  rw [haim]
  by_cases c2 : regenBuffSoc V E < p.dec.soc
  · -- above the room kept for braking
    have hpos : 0 < powerTo V.essMaxKwh dt p.dec.soc (regenBuffSoc V E) := by
      unfold powerTo
      have := sub_pos.2 c2
      positivity
    rw [min_eq_left c2.le, max_eq_right hle, if_pos c2]
    simp only [if_pos (show accelBuffSoc V E ≤ regenBuffSoc V E ∧ regenBuffSoc V E < p.dec.soc from ⟨hle, c2⟩)]
    have hRD : r.hyb.essRegenBuffDischgKw = min M (powerTo V.essMaxKwh dt p.dec.soc (regenBuffSoc V E)) := by
      rw [eRD, max_eq_right hpos.le]
    by_cases c3 : 0 < M
    · have hRDp : 0 < r.hyb.essRegenBuffDischgKw := by rw [hRD]; exact lt_min c3 hpos
      have hRDm : r.hyb.essRegenBuffDischgKw ≤ M := by rw [hRD]; exact min_le_left _ _
      rw [if_pos hRDp, max_eq_left hRDp.le, min_eq_left hRDm,
        max_eq_left (a := r.hyb.essRegenBuffDischgKw) (b := -C) (by linarith), min_assoc,
        min_comm Q, ← min_assoc, min_self, hRD, min_comm M, min_right_comm, hcap]
    · have hM0 : M = 0 := le_antisymm (not_lt.1 c3) hout
      have hRD0 : r.hyb.essRegenBuffDischgKw = 0 := by rw [hRD, hM0]; exact min_eq_left hpos.le
      have hpa : 0 ≤ powerTo V.essMaxKwh dt p.dec.soc (accelBuffSoc V E) := hpos.le.trans (hmono _ _ hle)
      have hAC0 : r.hyb.essAccelBuffChgKw = 0 := by rw [eAC]; exact max_eq_left (by linarith)
      rw [hRD0, if_neg (lt_irrefl _), hAC0, if_neg (lt_irrefl _)]
      have hU0 : U ≤ 0 := hM0 ▸ hU
      rw [min_eq_left (hU0.trans (le_max_of_le_right (le_max_left _ _))),
        min_eq_left (hU0.trans (le_max_of_le_right (le_min hpos.le hml)))]
  · have hsoc := not_lt.1 c2
    have hneg : powerTo V.essMaxKwh dt p.dec.soc (regenBuffSoc V E) ≤ 0 := by
      rw [← hself]; exact hmono _ _ hsoc
    have hRD0 : r.hyb.essRegenBuffDischgKw = 0 := by rw [eRD, max_eq_left hneg]; exact min_eq_right hout
    rw [hRD0, if_neg (lt_irrefl _), min_eq_right hsoc]
    simp only [if_neg (show ¬ (accelBuffSoc V E ≤ regenBuffSoc V E ∧ regenBuffSoc V E < p.dec.soc) from
      fun x => c2 x.2)]
    have hRC : r.hyb.maxEssRegenBuffChgKw = min (-powerTo V.essMaxKwh dt p.dec.soc (regenBuffSoc V E)) C := by
      rw [eRC, max_eq_right (by linarith)]
    by_cases c4 : p.dec.soc < accelBuffSoc V E
    · -- below the reserve kept for acceleration
      have hlt : powerTo V.essMaxKwh dt p.dec.soc (accelBuffSoc V E) < 0 := by
        unfold powerTo
        have h3 := sub_neg.2 c4
        have : (p.dec.soc - accelBuffSoc V E) * (V.essMaxKwh * 3600 / dt) < 0 :=
          mul_neg_of_neg_of_pos h3 (by positivity)
        calc _ = (p.dec.soc - accelBuffSoc V E) * (V.essMaxKwh * 3600 / dt) := by ring
          _ < 0 := this
      have hAC : r.hyb.essAccelBuffChgKw = -powerTo V.essMaxKwh dt p.dec.soc (accelBuffSoc V E) := by
        rw [eAC, max_eq_right (by linarith)]
      have hAp : 0 < r.hyb.essAccelBuffChgKw := by rw [hAC]; linarith
      have hmon := hmono _ _ hle
      rw [if_pos hAp, max_eq_left c4.le, min_eq_left (a := -r.hyb.essAccelBuffChgKw) (by linarith), hAC, hRC]
      congr 1
      rw [neg_neg]
      rcases min_choice (-powerTo V.essMaxKwh dt p.dec.soc (regenBuffSoc V E)) C with q | q
      · rw [q, max_eq_right (a := -1 * _) (by linarith)]
      · rw [q, ← max_assoc, neg_one_mul, max_self]
    · have hacc := not_lt.1 c4
      have hAC0 : r.hyb.essAccelBuffChgKw = 0 := by
        rw [eAC]
        refine max_eq_left ?_
        have : powerTo V.essMaxKwh dt p.dec.soc p.dec.soc ≤ _ := hmono _ _ hacc
        linarith
      rw [hAC0, if_neg (lt_irrefl _), max_eq_right hacc, hself, hRC, max_eq_left (b := -min _ C)
        (by have := le_min (neg_nonneg.2 hneg) hin; linarith)]

/-- **C73 (the motor follows the request).** In a driving step of a hybrid that is not driven on
electricity alone, the motor delivers the larger of the power the engine lacks and the power that meets
the requested battery power: what is left after the accessories, reduced by an efficiency of the motor map
(increased when generating). -/
theorem C73_follow (hH : H.Local) (hM : MotorOk V) (hsys : V.noElecSys = false) (hmc : V.mcMaxKw ≠ 0)
    {s : Sim K} (h : Reachable F H V P s) {i : Nat} {p r : Row K} {dt a : K} (hs : StepAt s i p r dt a)
    (hel : r.hyb.canPwrAllElec = false) (ht : 0 < r.pow.transKwInAch) :
    r.dec.mcMechKwOutAch = max r.pow.minMcKw2helpFc r.dec.mcKwIfFcReq ∧
    ∃ e ∈ V.mcFullEffArray.tail,
      (a ≤ r.dec.essKwIfFcReq → r.dec.mcKwIfFcReq = (r.dec.essKwIfFcReq - a) * e) ∧
      (r.dec.essKwIfFcReq ≤ a → r.dec.mcKwIfFcReq * e = r.dec.essKwIfFcReq - a) := by
  obtain ⟨E, st, -, hroad, hEa, hr⟩ := StepAt.solve hH h hs
  have hdec : r.dec.mcMechKwOutAch = mcMechKwOutAch V E r.lims r.pow r.hyb r.forced := by rw [hr]; rfl
  have hreq : r.dec.mcKwIfFcReq = mcKwIfFcReq V E r.lims r.hyb := by rw [hr]; rfl
  have hess : r.dec.essKwIfFcReq = essKwIfFcReq V E r.lims r.hyb := by rw [hr]; rfl
  have hcn : ¬ r.hyb.canPwrAllElec = true := by rw [hel]; simp
  have hx : mcElecKwInIfFcReq V E r.lims r.hyb = r.dec.essKwIfFcReq - a := by
    unfold mcElecKwInIfFcReq
    rw [hess, hEa, sub_left_inj, add_eq_left]
    unfold erKwIfFcReq
    rw [hroad]
    exact max_eq_left ((min_le_left _ _).trans (min_le_left _ _))
  constructor
  · rw [hdec, hreq]
    unfold mcMechKwOutAch
    simp only
    rw [if_neg hmc, if_neg (by tauto), if_neg (not_le.2 ht), if_neg hcn]
  · rw [hreq]
    unfold mcKwIfFcReq
    simp only [hsys, Bool.false_eq_true, if_false]
    rw [hx]
    by_cases h0 : r.dec.essKwIfFcReq - a = 0
    · exact ⟨_, hM.last_mem, fun _ => by rw [if_pos h0, h0, zero_mul], fun _ => by
        rw [if_pos h0, h0, zero_mul]⟩
    rw [if_neg h0]
    by_cases hp : 0 < r.dec.essKwIfFcReq - a
    · rw [if_pos hp]
      split
      · exact ⟨_, hM.last_mem, fun _ => rfl, fun hn => absurd hn (by linarith)⟩
      · exact ⟨_, hM.in_mem _, fun _ => rfl, fun hn => absurd hn (by linarith)⟩
    · rw [if_neg hp]
      have hlt : r.dec.essKwIfFcReq - a < 0 := lt_of_le_of_ne (not_lt.1 hp) h0
      split
      · exact ⟨_, hM.last_mem, fun hn => absurd hn (by linarith), fun _ =>
          div_mul_cancel₀ _ (hM.pos _ hM.last_mem).ne'⟩
      · exact ⟨_, hM.in_mem _, fun hn => absurd hn (by linarith), fun _ =>
          div_mul_cancel₀ _ (hM.pos _ (hM.in_mem _)).ne'⟩

/-- **C74 (off by default).** With both shares at their default of zero, no battery power is asked for in
order to move the engine towards its best efficiency. -/
theorem C74_off (hH : H.Local) (h1 : V.essDischgToFcMaxEffPerc = 0) (h2 : V.essChgToFcMaxEffPerc = 0)
    {s : Sim K} (h : Reachable F H V P s) {i : Nat} {p r : Row K} {dt a : K} (hs : StepAt s i p r dt a) :
    r.dec.essDesiredKw4fcEff = 0 := by
  obtain ⟨E, st, -, -, -, rfl⟩ := StepAt.solve hH h hs
  show essDesiredKw4fcEff V E _ = 0
  unfold essDesiredKw4fcEff
  simp [h1, h2]

/-- **C74 (the amount below best efficiency).** If the transmission output is below the power of best
engine efficiency, the battery is asked to *deliver* the missing power (times a share, at an efficiency of
the motor map), although the engine would come nearer to its best power only if the battery were charged:
the direction is the opposite of what the parameters' description says (see `C74_wrong_way`). -/
theorem C74_below (hH : H.Local) (hM : MotorOk V) (hsys : V.noElecSys = false)
    {s : Sim K} (h : Reachable F H V P s) {i : Nat} {p r : Row K} {dt a : K} (hs : StepAt s i p r dt a)
    (hlt : r.pow.transKwOutAch < V.maxFcEffKw) :
    ∃ e ∈ V.mcFullEffArray.tail, r.dec.essDesiredKw4fcEff * e =
      (V.maxFcEffKw - r.pow.transKwOutAch) * V.essDischgToFcMaxEffPerc := by
  obtain ⟨E, st, -, hroad, -, hr⟩ := StepAt.solve hH h hs
  have e0 : r.dec.essDesiredKw4fcEff = essDesiredKw4fcEff V E r.hyb := by rw [hr]; rfl
  have e1 : r.hyb.mcElecInKwForMaxFcEff = mcElecInKwForMaxFcEff V r.pow := by rw [hr]; rfl
  have hgap : pabs (r.pow.transKwOutAch - V.maxFcEffKw) = V.maxFcEffKw - r.pow.transKwOutAch := by
    unfold pabs
    rw [if_pos (by linarith), neg_sub]
  have hpos : 0 < V.maxFcEffKw - r.pow.transKwOutAch := sub_pos.2 hlt
  have key : ∀ e ∈ V.mcFullEffArray.tail,
      r.hyb.mcElecInKwForMaxFcEff = -(V.maxFcEffKw - r.pow.transKwOutAch) / e →
      r.dec.essDesiredKw4fcEff * e =
        (V.maxFcEffKw - r.pow.transKwOutAch) * V.essDischgToFcMaxEffPerc := by
    intro e he hh
    have hep := hM.pos e he
    rw [e0]
    unfold essDesiredKw4fcEff
    simp only [hroad, sub_zero, hh]
    rw [neg_div, neg_neg, if_pos (div_pos hpos hep)]
    field_simp
  unfold mcElecInKwForMaxFcEff at e1
  simp only [hsys, Bool.false_eq_true, if_false, if_pos hlt, hgap] at e1
  split at e1
  · exact ⟨_, hM.last_mem, key _ hM.last_mem e1⟩
  · exact ⟨_, hM.out_mem _, key _ (hM.out_mem _) e1⟩

/-- **C74 (the amount above best efficiency).** At or above the power of best efficiency, the battery is
asked to *take up* a share of an entry of the motor's input map. -/
theorem C74_above (hH : H.Local) (hlen : V.mcKwOutArray.length ≤ V.mcKwInArray.length)
    (hne : V.mcKwInArray ≠ []) (hnn : ∀ x ∈ V.mcKwInArray, 0 ≤ x) (hsys : V.noElecSys = false)
    {s : Sim K} (h : Reachable F H V P s) {i : Nat} {p r : Row K} {dt a : K} (hs : StepAt s i p r dt a)
    (hle : V.maxFcEffKw ≤ r.pow.transKwOutAch) :
    ∃ x ∈ V.mcKwInArray, r.dec.essDesiredKw4fcEff = -x * V.essChgToFcMaxEffPerc := by
  obtain ⟨E, st, -, hroad, -, hr⟩ := StepAt.solve hH h hs
  have e0 : r.dec.essDesiredKw4fcEff = essDesiredKw4fcEff V E r.hyb := by rw [hr]; rfl
  have e1 : r.hyb.mcElecInKwForMaxFcEff = mcElecInKwForMaxFcEff V r.pow := by rw [hr]; rfl
  have hmem : r.hyb.mcElecInKwForMaxFcEff ∈ V.mcKwInArray := by
    rw [e1]
    unfold mcElecInKwForMaxFcEff
    simp only [hsys, Bool.false_eq_true, if_false, if_neg (not_lt.2 hle)]
    split
    · rw [List.getLast?_eq_some_getLast hne]; exact List.getLast_mem hne
    · exact lookupM1_mem _ _ _ hne hlen
  refine ⟨_, hmem, ?_⟩
  rw [e0]
  unfold essDesiredKw4fcEff
  simp only [hroad, sub_zero]
  rw [if_neg (by have := hnn _ hmem; linarith)]

/-- **C75 (wheel speed and spare traction power).** The recorded spare traction power is the traction limit
less the power asked for traction, and the recorded wheel speed is the achieved speed over the wheel
radius. -/
theorem C75_wheels (hc : P.coastAllow = false) (hd : P.idmAllow = false) (hm : P.missedTrace = false)
    (hw : V.wheelRadiusM ≠ 0) {s : Sim K} (h : Reachable F H V P s) {i : Nat} {p r : Row K} {dt a : K}
    (hs : StepAt s i p r dt a) :
    r.pow.spareTracKw + r.pow.cycTracKwReq = r.lims.curMaxTracKw ∧
    r.pow.cycWhlRadPerSec * V.wheelRadiusM = r.ach.mpsAch := by
  obtain ⟨E, st, -, -, -, -, -, hst, hr⟩ := stepAt_recorded hc hd h hs
  have e := solveStep_pow_fresh (F := F) (V := V) P.toStepParams E p st (by rw [hst hm]; rfl)
  have hl : r.lims = setCompLims F V P.toStepParams E p (setMisc V E p) := by rw [hr]; rfl
  rw [← hr, ← hl] at e
  rw [e]
  exact ⟨sub_add_cancel _ _, div_mul_cancel₀ _ hw⟩

end Field
end Fastsim.Props

/-! ### Concrete cases -/

namespace Fastsim.Props
open Fastsim Spec Demo

theorem hev_reserveData : ReserveData hev := by
  constructor <;> decide +kernel

/-- A drive with acceleration above the engine-on speed. -/
def cruise : Cyc ℚ :=
  [⟨0, 0, 0, 0⟩, ⟨1, 4, 0, 0⟩, ⟨2, 8, 0, 0⟩, ⟨3, 12, 0, 0⟩, ⟨4, 16, 0, 0⟩, ⟨5, 16, 0, 0⟩, ⟨6, 16, 0, 0⟩]

theorem not_engineCarriesAux {F : Fns ℚ} {H : Hooks ℚ} {V : Veh ℚ} {P : SimParams ℚ} (hH : H.Local)
    {s : Sim ℚ} (h : Reachable F H V P s) {i : Nat} (hi : i < s.i) (hn : V.noElecAux = false)
    (ht : (s.row i).misc.highAccFcOnTag = false) : ¬ EngineCarriesAux V s i := by
  rintro (x | x)
  · rw [hn] at x; exact absurd x (by simp)
  · rw [(C67_latch hH h i hi).2 x] at ht; exact absurd ht (by simp)

/-- Hypotheses of `C70_*`, `C71_*`, `C72_split` and `C75_wheels` are met: in this drive of the demo hybrid
some steps are driven on electricity alone with the engine off and some not; the thresholds lie strictly
inside the window; in sample 5 the engine delivers more than the demand and drives the generator. -/
theorem C71_demo : ∃ s, simDrive fns noHooks hev params (Sim.new hillStart) (some (3 / 5)) none = .ok s ∧
    Finished fns noHooks hev params s ∧ ReserveData hev ∧ MotorOk hev ∧
    s.rows.map (fun r => r.hyb.canPwrAllElec) = [false, true, false, false, true, false, true, true, true] ∧
    (∀ i < 9, ¬ EngineCarriesAux hev s i) ∧
    (∀ r ∈ s.rows.tail, hev.minSoc < r.hyb.accelBuffSoc ∧ r.hyb.accelBuffSoc < r.hyb.regenBuffSoc ∧
      0 < r.lims.curMaxElecKw ∧ 0 < r.lims.curMaxFcKwOut) ∧
    (s.row 1).fc.fcKwOutAch = 0 ∧ 0 < (s.row 1).pow.transKwInAch ∧
    (s.row 5).dec.mcMechKwOutAch < 0 ∧ (s.row 5).pow.transKwInAch < (s.row 5).fc.fcKwOutAch := by
  have hall : (match simDrive fns noHooks hev params (Sim.new hillStart) (some (3 / 5)) none with
      | .ok s => decide (s.i = 9 ∧ s.rows.map (fun r => r.hyb.canPwrAllElec) =
            [false, true, false, false, true, false, true, true, true]) &&
          ((List.range 9).all fun i => !(s.row i).misc.highAccFcOnTag) &&
          (s.rows.tail.all fun r => decide (hev.minSoc < r.hyb.accelBuffSoc ∧
            r.hyb.accelBuffSoc < r.hyb.regenBuffSoc ∧
            0 < r.lims.curMaxElecKw ∧ 0 < r.lims.curMaxFcKwOut)) &&
          decide ((s.row 1).fc.fcKwOutAch = 0 ∧ 0 < (s.row 1).pow.transKwInAch ∧
          (s.row 5).dec.mcMechKwOutAch < 0 ∧ (s.row 5).pow.transKwInAch < (s.row 5).fc.fcKwOutAch)
      | .error _ => false) = true := by decide +kernel
  split at hall
  · rename_i s hs
    simp only [Bool.and_eq_true, decide_eq_true_eq, List.all_eq_true, List.mem_range,
      Bool.not_eq_true'] at hall
    obtain ⟨⟨⟨⟨h0, h1⟩, h2⟩, h3⟩, h4⟩ := hall
    have hF := Finished.simDrive noHooks_local rfl hs
    exact ⟨s, hs, hF, hev_reserveData, hev_motorOk, h1, fun i hi =>
      not_engineCarriesAux noHooks_local (Reachable.simDrive noHooks_local rfl hs) (by omega) rfl (h2 i hi),
      h3, h4⟩
  · simp at hall

/-- Hypotheses of `C72_fuel_cell` are met: in samples 2 and 3 the fuel cell supplies motor and
accessories, in sample 7 the battery does. -/
theorem C72_demo : ∃ s, simDrive fns noHooks h2 params (Sim.new hillStart) (some (3 / 5)) none = .ok s ∧
    Finished fns noHooks h2 params s ∧
    (∀ r ∈ s.rows.tail, 0 ≤ r.lims.curMaxFcKwOut ∧
      r.dec.mcElecKwInAch + 1 / 2 ≤ r.lims.curMaxFcKwOut + r.lims.curEssMaxKwOut) ∧
    0 < (s.row 2).fc.fcKwOutAch ∧ (s.row 7).fc.fcKwOutAch = 0 ∧ 0 < (s.row 7).dec.essKwOutAch := by
  have hall : (match simDrive fns noHooks h2 params (Sim.new hillStart) (some (3 / 5)) none with
      | .ok s => (s.rows.tail.all fun r => decide (0 ≤ r.lims.curMaxFcKwOut ∧
            r.dec.mcElecKwInAch + 1 / 2 ≤ r.lims.curMaxFcKwOut + r.lims.curEssMaxKwOut)) &&
          decide (0 < (s.row 2).fc.fcKwOutAch ∧ (s.row 7).fc.fcKwOutAch = 0 ∧
            0 < (s.row 7).dec.essKwOutAch)
      | .error _ => false) = true := by decide +kernel
  split at hall
  · rename_i s hs
    simp only [Bool.and_eq_true, decide_eq_true_eq, List.all_eq_true] at hall
    exact ⟨s, hs, Finished.simDrive noHooks_local rfl hs, hall⟩
  · simp at hall

/-- A slow start downhill. -/
def crawl : Cyc ℚ := [⟨0, 0, 0, 0⟩, ⟨1, 2, -(1 / 5), 0⟩]

/-- **C72 refuted as an equality.** A hybrid with a full battery whose engine runs at any speed: to make
room for braking energy the motor delivers more than the driveline takes in; the difference vanishes. -/
theorem C72_surplus_vanishes : ∃ s,
    simDrive fns noHooks { hev with mphFcOn := 1 } params (Sim.new crawl) (some (4 / 5)) none = .ok s ∧
      0 < (s.row 1).pow.transKwInAch ∧ (s.row 1).fc.fcKwOutAch = 0 ∧
      (s.row 1).pow.transKwInAch + 1 < (s.row 1).dec.mcMechKwOutAch ∧
      (s.row 1).pow.cycFricBrakeKw = 0 := by
  have hall : (match simDrive fns noHooks { hev with mphFcOn := 1 } params (Sim.new crawl)
        (some (4 / 5)) none with
      | .ok s => decide (0 < (s.row 1).pow.transKwInAch ∧ (s.row 1).fc.fcKwOutAch = 0 ∧
          (s.row 1).pow.transKwInAch + 1 < (s.row 1).dec.mcMechKwOutAch ∧
          (s.row 1).pow.cycFricBrakeKw = 0)
      | .error _ => false) = true := by decide +kernel
  split at hall
  · rename_i s hs
    exact ⟨s, hs, of_decide_eq_true hall⟩
  · simp at hall

/-- Hypotheses of `C73_request` and `C73_follow` are met: in sample 4 the charge is above the room kept
for braking and discharging is requested, in sample 5 it is in the window and nothing is requested. -/
theorem C73_demo : ∃ s, simDrive fns noHooks hev params (Sim.new cruise) (some (78 / 100)) none = .ok s ∧
    Finished fns noHooks hev params s ∧
    (∀ r ∈ s.rows.tail, 0 ≤ r.lims.curEssMaxKwOut ∧ 0 ≤ r.lims.curMaxEssChgKw ∧
      0 ≤ r.lims.mcElecInLimKw + 1 / 2 ∧ r.hyb.canPwrAllElec = false ∧ 0 < r.pow.transKwInAch) ∧
    (s.row 4).dec.essKwIfFcReq = 51 / 2 ∧ (s.row 4).hyb.regenBuffSoc < (s.row 3).dec.soc ∧
    (s.row 5).dec.essKwIfFcReq = 0 := by
  have hall : (match simDrive fns noHooks hev params (Sim.new cruise) (some (78 / 100)) none with
      | .ok s => (s.rows.tail.all fun r => decide (0 ≤ r.lims.curEssMaxKwOut ∧
            0 ≤ r.lims.curMaxEssChgKw ∧ 0 ≤ r.lims.mcElecInLimKw + 1 / 2 ∧
            r.hyb.canPwrAllElec = false ∧ 0 < r.pow.transKwInAch)) &&
          decide ((s.row 4).dec.essKwIfFcReq = 51 / 2 ∧ (s.row 4).hyb.regenBuffSoc < (s.row 3).dec.soc ∧
            (s.row 5).dec.essKwIfFcReq = 0)
      | .error _ => false) = true := by decide +kernel
  split at hall
  · rename_i s hs
    simp only [Bool.and_eq_true, decide_eq_true_eq, List.all_eq_true] at hall
    exact ⟨s, hs, Finished.simDrive noHooks_local rfl hs, hall⟩
  · simp at hall

/-- **C74 (the wrong way).** With the discharge share at one, the battery of a hybrid cruising *below* the
engine's best power is discharged so that the engine moves *away* from its best power (from 4.9 kW to
standstill, best power 50 kW); most of the motor's power vanishes. Without the share the engine runs and
charges. -/
theorem C74_wrong_way : ∃ s s',
    simDrive fns noHooks { hev with essDischgToFcMaxEffPerc := 1 } params (Sim.new cruise) (some (3 / 5))
      none = .ok s ∧
    simDrive fns noHooks hev params (Sim.new cruise) (some (3 / 5)) none = .ok s' ∧
    (s.row 6).pow.transKwInAch = (s'.row 6).pow.transKwInAch ∧
    0 < (s.row 6).pow.transKwInAch ∧ (s.row 6).pow.transKwOutAch < hev.maxFcEffKw ∧
    (s.row 6).fc.fcKwOutAch = 0 ∧ 31 < (s.row 6).dec.essKwOutAch ∧
    (s.row 6).pow.transKwInAch + 20 < (s.row 6).dec.mcMechKwOutAch ∧
    4 < (s'.row 6).fc.fcKwOutAch ∧ (s'.row 6).fc.fcKwOutAch < hev.maxFcEffKw := by
  have hall : (match simDrive fns noHooks { hev with essDischgToFcMaxEffPerc := 1 } params
        (Sim.new cruise) (some (3 / 5)) none,
        simDrive fns noHooks hev params (Sim.new cruise) (some (3 / 5)) none with
      | .ok s, .ok s' => decide (
        (s.row 6).pow.transKwInAch = (s'.row 6).pow.transKwInAch ∧
        0 < (s.row 6).pow.transKwInAch ∧ (s.row 6).pow.transKwOutAch < hev.maxFcEffKw ∧
        (s.row 6).fc.fcKwOutAch = 0 ∧ 31 < (s.row 6).dec.essKwOutAch ∧
        (s.row 6).pow.transKwInAch + 20 < (s.row 6).dec.mcMechKwOutAch ∧
        4 < (s'.row 6).fc.fcKwOutAch ∧ (s'.row 6).fc.fcKwOutAch < hev.maxFcEffKw)
      | _, _ => false) = true := by decide +kernel
  split at hall
  · rename_i s s' hs hs'
    exact ⟨s, s', hs, hs', of_decide_eq_true hall⟩
  · simp at hall

end Fastsim.Props
