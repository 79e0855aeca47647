import Verif.Props.Engine

/-!
# C18, C19: braking and transmission
-/

set_option linter.unusedSectionVars false

namespace Fastsim.Props
open Fastsim Spec

section Lawless
variable {K : Type*} [Zero K] [One K] [NatCast K] [Add K] [Sub K] [Mul K] [Div K] [Neg K]
  [LinearOrder K]
variable {F : Fns K} {H : Hooks K} {V : Veh K} {P : SimParams K}

/-- **C19 (limits, any rounding).** Achieved transmission output exceeds neither the current limit
nor the request; the step is reported as met exactly when the request is within the limit, and then
the request is achieved. -/
theorem C19_transmission_limit (hH : H.Local) {s : Sim K} (h : Reachable F H V P s) {i : Nat}
    {p r : Row K} {dt a : K} (hs : StepAt s i p r dt a) :
    r.pow.transKwOutAch ≤ r.lims.curMaxTransKwOut ∧
    r.pow.transKwOutAch ≤ r.pow.cycTransKwOutReq ∧
    (r.pow.cycMet = true ↔ r.pow.cycTransKwOutReq ≤ r.lims.curMaxTransKwOut) ∧
    (r.pow.cycMet = true ↔ r.pow.transKwOutAch = r.pow.cycTransKwOutReq) := by
  obtain ⟨E, st, -, -, -, rfl⟩ := StepAt.solve hH h hs
  obtain ⟨v, hv⟩ := solveStep_pow F V P.toStepParams E p st
  have hmet : (solveStep F V P.toStepParams E p st).pow.cycMet =
      decide ((solveStep F V P.toStepParams E p st).pow.cycTransKwOutReq ≤
        (solveStep F V P.toStepParams E p st).lims.curMaxTransKwOut) := by
    rw [hv]; rfl
  rw [hmet, decide_eq_true_iff, solveStep_out]
  exact ⟨min_le_right _ _, min_le_left _ _, Iff.rfl, min_eq_left_iff.symm⟩

/-- **C18 (any rounding).** Regenerative braking is non-negative and at most what the motor can
absorb through the transmission (or zero); the transmission request is wheel power plus friction
braking. -/
theorem C18_regen_bound (hH : H.Local) {s : Sim K} (h : Reachable F H V P s) {i : Nat}
    {p r : Row K} {dt a : K} (hs : StepAt s i p r dt a) :
    0 ≤ r.pow.cycRegenBrakeKw ∧
    r.pow.cycRegenBrakeKw ≤ max (r.lims.curMaxMechMcKwIn * V.transEff) 0 ∧
    r.pow.cycTransKwOutReq = r.pow.cycWhlKwReq + r.pow.cycFricBrakeKw := by
  obtain ⟨E, st, -, -, -, rfl⟩ := StepAt.solve hH h hs
  obtain ⟨v, hv⟩ := solveStep_pow F V P.toStepParams E p st
  rw [hv, solveStep_lims]
  refine ⟨le_max_right _ _, max_le_max (min_le_left _ _) le_rfl, rfl⟩

end Lawless

section Field
variable {K : Type*} [Field K] [LinearOrder K] [IsStrictOrderedRing K]
variable {F : Fns K} {H : Hooks K} {V : Veh K} {P : SimParams K}

/-- The share of braking power that may be regenerated is between 0 and 1: `max_regen` is, and
`regen_a` and the exponential are non-negative. -/
structure RegenOk (F : Fns K) (V : Veh K) : Prop where
  nonneg : 0 ≤ V.maxRegen
  le_one : V.maxRegen ≤ 1
  a : 0 ≤ V.regenA
  exp : ∀ x, 0 ≤ F.exp x

theorem regenPerc_range (hR : RegenOk F V) (v0 m : K) :
    0 ≤ regenContrlLimKwPerc F V v0 m ∧ regenContrlLimKwPerc F V v0 m ≤ 1 := by
  unfold regenContrlLimKwPerc
  have h : 1 ≤ 1 + V.regenA * F.exp (-V.regenB * ((m * mphPerMps + v0 * mphPerMps) / 2 + 1)) :=
    le_add_of_nonneg_right (mul_nonneg hR.a (hR.exp _))
  have hp := lt_of_lt_of_le zero_lt_one h
  exact ⟨div_nonneg hR.nonneg hp.le, (div_le_one hp).2 (hR.le_one.trans h)⟩

/-- **C18.** In every simulated step friction and regenerative braking are non-negative. When the
wheels demand power both are zero. When the wheels must be braked, the two together are exactly the
braking demand, regeneration takes the smaller of what the motor can absorb through the transmission
and its speed-dependent share of the demand, and friction takes the rest; the power passed to the
transmission is minus the regenerated power. -/
theorem C18_brakes_share (hH : H.Local) (hR : RegenOk F V) {s : Sim K} (h : Reachable F H V P s)
    {i : Nat} {p r : Row K} {dt a : K} (hs : StepAt s i p r dt a) :
    0 ≤ r.pow.cycRegenBrakeKw ∧ 0 ≤ r.pow.cycFricBrakeKw ∧
    (0 ≤ r.pow.cycWhlKwReq → r.pow.cycRegenBrakeKw = 0 ∧ r.pow.cycFricBrakeKw = 0 ∧
      r.pow.cycTransKwOutReq = r.pow.cycWhlKwReq) ∧
    (r.pow.cycWhlKwReq < 0 →
      r.pow.cycRegenBrakeKw + r.pow.cycFricBrakeKw = -r.pow.cycWhlKwReq ∧
      r.pow.cycTransKwOutReq = -r.pow.cycRegenBrakeKw ∧
      r.pow.cycRegenBrakeKw = max 0 (min (r.lims.curMaxMechMcKwIn * V.transEff)
        (r.pow.regenContrlLimKwPerc * -r.pow.cycWhlKwReq)) ∧
      0 ≤ r.pow.regenContrlLimKwPerc ∧ r.pow.regenContrlLimKwPerc ≤ 1) := by
  obtain ⟨hg0, -, hreq⟩ := C18_regen_bound hH h hs
  obtain ⟨E, st, -, -, -, rfl⟩ := StepAt.solve hH h hs
  obtain ⟨v, hv⟩ := solveStep_pow F V P.toStepParams E p st
  rw [hv] at hg0 hreq ⊢
  rw [solveStep_lims]
  generalize hL : setCompLims F V P.toStepParams E p (setMisc V E p) = L at *
  have hperc := regenPerc_range hR p.ach.mpsAch E.mps
  have hpe : (powerAt F V P.toStepParams E p L v).regenContrlLimKwPerc =
    regenContrlLimKwPerc F V p.ach.mpsAch E.mps := rfl
  have hg : (powerAt F V P.toStepParams E p L v).cycRegenBrakeKw =
    max (min (L.curMaxMechMcKwIn * V.transEff)
      ((powerAt F V P.toStepParams E p L v).regenContrlLimKwPerc *
        -(powerAt F V P.toStepParams E p L v).cycWhlKwReq)) 0 := rfl
  have hf : (powerAt F V P.toStepParams E p L v).cycFricBrakeKw =
    -(min ((powerAt F V P.toStepParams E p L v).cycRegenBrakeKw +
        (powerAt F V P.toStepParams E p L v).cycWhlKwReq) 0) := rfl
  rw [← hpe] at hperc
  generalize powerAt F V P.toStepParams E p L v = w at *
  have hf0 : 0 ≤ w.cycFricBrakeKw := by
    rw [hf]; exact neg_nonneg.2 (min_le_right _ _)
  refine ⟨hg0, hf0, fun hw => ?_, fun hw => ?_⟩
  · have hz : w.cycRegenBrakeKw = 0 := by
      rw [hg]
      refine max_eq_right ((min_le_right _ _).trans ?_)
      exact mul_nonpos_of_nonneg_of_nonpos hperc.1 (by linarith)
    have hfz : w.cycFricBrakeKw = 0 := by
      rw [hf, hz, zero_add, min_eq_right hw, neg_zero]
    exact ⟨hz, hfz, by rw [hreq, hfz, add_zero]⟩
  · have hle : w.cycRegenBrakeKw ≤ -w.cycWhlKwReq := by
      rw [hg]
      refine max_le ((min_le_right _ _).trans ?_) (by linarith)
      exact mul_le_of_le_one_left (by linarith) hperc.2
    have hfe : w.cycFricBrakeKw = -(w.cycRegenBrakeKw + w.cycWhlKwReq) := by
      rw [hf, min_eq_left (by linarith)]
    refine ⟨by rw [hfe]; ring, by rw [hreq, hfe]; ring, ?_, hperc.1, hperc.2⟩
    rw [max_comm]; exact hg

/-- **C19 (losses).** With an efficiency in `(0,1]` the transmission never delivers more than it
receives, whichever way power flows; input and output have the same sign. -/
theorem C19_transmission_loss (hH : H.Local) (h0 : 0 < V.transEff) (h1 : V.transEff ≤ 1) {s : Sim K}
    (h : Reachable F H V P s) {i : Nat} {p r : Row K} {dt a : K} (hs : StepAt s i p r dt a) :
    r.pow.transKwOutAch ≤ r.pow.transKwInAch ∧
    (0 < r.pow.transKwOutAch → 0 < r.pow.transKwInAch) ∧
    (r.pow.transKwOutAch < 0 → r.pow.transKwInAch < 0) ∧
    (r.pow.transKwOutAch = 0 → r.pow.transKwInAch = 0) := by
  obtain ⟨E, st, -, -, -, rfl⟩ := StepAt.solve hH h hs
  rw [solveStep_in]
  generalize (solveStep F V P.toStepParams E p st).pow.transKwOutAch = x
  unfold transKwIn
  split
  · rename_i hx
    refine ⟨?_, fun _ => div_pos hx h0, fun hn => by linarith, fun hz => by linarith⟩
    rw [le_div_iff₀ h0]; exact mul_le_of_le_one_right hx.le h1
  · rename_i hx
    have hx := not_lt.1 hx
    refine ⟨le_mul_of_le_one_right hx h1, fun hp => by linarith,
      fun hn => mul_neg_of_neg_of_pos hn h0, fun hz => by rw [hz, zero_mul]⟩

/-- **C18/C19 (totals).** Over a run, energies lost in friction brakes, transmission and motor are
non-negative. -/
theorem C19_losses_nonneg (hH : H.Local) (h0 : 0 < V.transEff) (h1 : V.transEff ≤ 1)
    (hR : RegenOk F V) (hM : MotorOk V) {s : Sim K} (h : Finished F H V P s) (hdt : DtNonneg s) :
    0 ≤ brakeKj s ∧ 0 ≤ transKj s ∧ 0 ≤ mcKj s := by
  have hd : ∀ i p r dt a, StepAt s i p r dt a → 0 ≤ dt := fun i p r dt a hs => by
    rw [hs.dt]; exact hdt i hs.pos hs.lt
  refine ⟨?_, ?_, ?_⟩
  · exact Finished.sumDt_nonneg hH h _ (fun _ _ _ => rfl) fun i p r dt a hs =>
      mul_nonneg (C18_brakes_share hH hR h.reachable hs).2.1 (hd _ _ _ _ _ hs)
  · refine Finished.sumDt_nonneg hH h _ (fun _ _ _ => sub_self _) fun i p r dt a hs =>
      mul_nonneg ?_ (hd _ _ _ _ _ hs)
    have := (C19_transmission_loss hH h0 h1 h.reachable hs).1
    linarith
  · refine Finished.sumDt_nonneg hH h _ (fun _ _ _ => sub_self _) fun i p r dt a hs =>
      mul_nonneg ?_ (hd _ _ _ _ _ hs)
    obtain ⟨E, st, -, -, -, rfl⟩ := StepAt.solve hH h.reachable hs
    exact sub_nonneg.2 (mcElec_sign hM _).2.2

end Field

/-! ### Non-vacuity -/
open Demo

/-- In the hybrid demo run the fourth step brakes with both friction and regeneration. -/
example : RegenOk fns hev ∧ MotorOk hev ∧ (0:ℚ) < hev.transEff ∧ hev.transEff ≤ 1 ∧
    (rowsOf (Demo.run hev (3 / 5))).map (fun r =>
      (decide (r.pow.cycWhlKwReq < 0), decide (0 < r.pow.cycRegenBrakeKw),
        decide (0 < r.pow.cycFricBrakeKw))) =
      [(false, false, false), (false, false, false), (false, false, false), (false, false, false),
        (true, true, true), (true, true, true)] := by
  refine ⟨⟨by decide +kernel, by decide +kernel, by decide +kernel, fun x => ?_⟩,
    ⟨by decide, by decide, by decide, by decide +kernel, by decide +kernel⟩, by decide +kernel,
    by decide +kernel, by decide +kernel⟩
  show (0:ℚ) ≤ if x < 0 then 1 / (1 - x) else 1 + x
  split
  · exact div_nonneg zero_le_one (by linarith)
  · linarith

end Fastsim.Props
