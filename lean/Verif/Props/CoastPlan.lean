import Verif.Props.Coast
import Verif.Props.NextStop
import Mathlib.Analysis.SpecialFunctions.Log.Deriv
import Mathlib.Analysis.SpecialFunctions.Integrals.Basic
import Mathlib.MeasureTheory.Integral.IntervalIntegral.FundThmCalculus

/-!
# C52, C53, C54: when coasting starts, how it is replanned, and how the vehicle rejoins the trace
-/

set_option linter.unusedSectionVars false
set_option linter.unusedVariables false
set_option linter.unusedSimpArgs false

namespace Fastsim.Props
open Spec

section decision
variable {K : Type*} [Field K] [LinearOrder K] [IsStrictOrderedRing K] [FloorRing K]
variable {F : Fns K} {V : Veh K} {P : SimParams K}

/-- Distance needed to brake from speed `v` to standstill at constant acceleration `a < 0`. -/
def _root_.Fastsim.Spec.brakingDistance (v a : K) : K := v ^ 2 / (2 * -a)

/-- All samples of the lead trace at or beyond the distance `d` have grade `g`, and there are some. -/
def _root_.Fastsim.Spec.UniformAhead (c0 : Cyc K) (d g : K) : Prop :=
  (∃ k, k < c0.length ∧ d ≤ odometer c0 k) ∧
    ∀ k x, c0[k]? = some x → d ≤ odometer c0 k → x.g = g

theorem braking_eq {v a : K} (ha : a < 0) : -(1 / 2) * v * v / a = brakingDistance v a := by
  unfold brakingDistance
  have : a ≠ 0 := ha.ne
  field_simp

/-- **C52 (decision by distance).** Unless a start speed is set, coasting is started exactly if the vehicle is at
least at the brake start speed, a coasting distance exists, this distance reaches up to the next stop, and the next
stop is at least four braking distances away. -/
theorem C52_decision (hs : P.coastStartSpeed ≤ 0) (ha : P.coastBrakeAccel < 0) {s : Sim K} {b : Bool}
    (h : shouldImposeCoast F V P s = .ok b) :
    b = true ↔ P.coastBrakeStartSpeed ≤ (s.rows.getD (s.i - 1) Row.zero).ach.mpsAch ∧
      ∃ d, distToStopCoast F V P s = .ok d ∧ 0 ≤ d ∧
        distanceToNextStop s.cyc0 (trapzStepStartDistance s.cyc s.i) ≤ d ∧
        4 * brakingDistance (s.rows.getD (s.i - 1) Row.zero).ach.mpsAch P.coastBrakeAccel ≤
          distanceToNextStop s.cyc0 (trapzStepStartDistance s.cyc s.i) := by
  unfold shouldImposeCoast at h
  rw [if_neg (not_lt.2 hs)] at h
  simp only at h
  split at h
  · rename_i hv
    rw [Except.ok.injEq] at h
    subst h
    simp only [Bool.false_eq_true, false_iff, not_and]
    intro hge
    exact absurd hv (not_lt.2 hge)
  · rename_i hv
    split at h
    · simp at h
    · rename_i d hd
      simp only [hd, Except.ok.injEq, exists_eq_left', not_lt.1 hv, true_and]
      split at h
      · rename_i hneg
        rw [Except.ok.injEq] at h
        subst h
        simp [not_le.2 hneg]
      · rename_i hneg
        rw [Except.ok.injEq] at h
        subst h
        rw [braking_eq ha]
        simp [not_lt.1 hneg]

/-- **C52 (decision by speed).** With a positive start speed, coasting is started exactly if the trace speed of the
step reaches it. -/
theorem C52_decision_speed (hs : 0 < P.coastStartSpeed) (s : Sim K) :
    shouldImposeCoast F V P s = .ok (decide (P.coastStartSpeed ≤ s.cyc.speeds.getD s.i 0)) := by
  unfold shouldImposeCoast
  rw [if_pos hs]

/-- **C52 (no decision, no change).** While the vehicle stands, or is coasting already, or the decision is against
it, the plan is not touched. -/
theorem C52_untouched (s : Sim K)
    (h : (s.rows.getD (s.i - 1) Row.zero).ach.mpsAch ≤ 1 / 1000000 ∨ s.impose.getD s.i false = true ∨
      shouldImposeCoast F V P s = .ok false) : startCoast F V P s = .ok s := by
  unfold startCoast
  split
  · rename_i hc
    rcases h with h | h | h
    · exact absurd hc.1 (not_lt.2 h)
    · rw [hc.2] at h
      simp at h
    · rw [h]
  · rfl

theorem uniqueGrade_of {l : List K} {g : K} (hne : l ≠ []) (h : ∀ x ∈ l, x = g) : uniqueGrade l = some g := by
  cases l with
  | nil => exact absurd rfl hne
  | cons a l =>
    have ha := h a (by simp)
    subst ha
    have hall : (l.all fun x => decide (x = a)) = true := by
      rw [List.all_eq_true]
      intro x hx
      simpa using h x (List.mem_cons_of_mem _ hx)
    show (if (l.all fun x => decide (x = a)) = true then some a else none) = some a
    rw [if_pos hall]

theorem gradesAhead_uniform {c0 : Cyc K} {d g : K} (h : UniformAhead c0 d g) :
    uniqueGrade (gradesAhead c0 d) = some g := by
  have hget : ∀ k x, c0[k]? = some x → ((trapzDistances c0).zip c0.grades)[k]? = some (odometer c0 k, x.g) := by
    intro k x hx
    have hk := (List.getElem?_eq_some_iff.1 hx).1
    rw [List.getElem?_zip_eq_some]
    refine ⟨?_, ?_⟩
    · rw [trapzDistances_get c0 k hk]
      rfl
    · simp [Cyc.grades, hx]
  apply uniqueGrade_of
  · obtain ⟨k, hk, hd⟩ := h.1
    have h1 := hget k _ (List.getElem?_eq_getElem hk)
    intro hnil
    have hmem : (odometer c0 k, c0[k].g) ∈ ((trapzDistances c0).zip c0.grades).filter
        fun p => decide (d ≤ p.1) := List.mem_filter.2 ⟨List.mem_of_getElem? h1, by simpa using hd⟩
    have : c0[k].g ∈ gradesAhead c0 d := List.mem_map.2 ⟨_, hmem, rfl⟩
    rw [hnil] at this
    simp at this
  · intro y hy
    unfold gradesAhead at hy
    obtain ⟨p, hp, rfl⟩ := List.mem_map.1 hy
    obtain ⟨hp1, hp2⟩ := List.mem_filter.1 hp
    obtain ⟨k, hk⟩ := List.getElem?_of_mem hp1
    have hlen : k < c0.length := by
      have := (List.getElem?_eq_some_iff.1 hk).1
      rw [List.length_zip, trapzDistances_length] at this
      omega
    rw [hget k _ (List.getElem?_eq_getElem hlen), Option.some.injEq] at hk
    subst hk
    exact h.2 k _ (List.getElem?_eq_getElem hlen) (by simpa using hp2)

end decision

section real
open MeasureTheory intervalIntegral

/-- Deceleration of a freely rolling vehicle at speed `v` on grade `g`: slope, rolling resistance and air drag. -/
noncomputable def _root_.Fastsim.Spec.rollingDecel (F : Fns ℝ) (V : Veh ℝ) (P : SimParams ℝ) (g v : ℝ) : ℝ :=
  P.aGrav * F.sinAtan g + P.aGrav * V.wheelRrCoef * F.cosAtan g +
    (1 / 2 * P.airDensity * V.dragCoef * V.frontalAreaM2 * v ^ 2) / V.vehKg

theorem coast_integral {c1 c2 vb v0 : ℝ} (hc2 : 0 ≤ c2) (hvb : 0 ≤ vb) (hv : vb ≤ v0) (hb : 0 < c1 + c2 * vb ^ 2) :
    (c2 = 0 → ∫ v in vb..v0, v / (c1 + c2 * v ^ 2) = 1 / (2 * c1) * (v0 * v0 - vb * vb)) ∧
    (c2 ≠ 0 → ∫ v in vb..v0, v / (c1 + c2 * v ^ 2) =
      1 / (2 * c2) * (Real.log (c1 + c2 * (v0 * v0)) - Real.log (c1 + c2 * (vb * vb)))) := by
  have hpos : ∀ v ∈ Set.uIcc vb v0, 0 < c1 + c2 * v ^ 2 := by
    intro v hvm
    rw [Set.uIcc_of_le hv] at hvm
    have : vb ^ 2 ≤ v ^ 2 := pow_le_pow_left₀ hvb hvm.1 2
    have := mul_le_mul_of_nonneg_left this hc2
    linarith
  have hcont : ContinuousOn (fun v : ℝ => v / (c1 + c2 * v ^ 2)) (Set.uIcc vb v0) := by
    apply ContinuousOn.div (by fun_prop) (by fun_prop)
    intro v hvm
    exact (hpos v hvm).ne'
  refine ⟨?_, ?_⟩
  · intro h0
    subst h0
    have hc1 : c1 ≠ 0 := by
      intro h
      rw [h] at hb
      simp at hb
    rw [integral_eq_sub_of_hasDerivAt (f := fun v => 1 / (2 * c1) * (v * v))]
    · ring
    · intro v _
      have h1 : HasDerivAt (fun v : ℝ => v * v) (1 * v + v * 1) v := (hasDerivAt_id v).mul (hasDerivAt_id v)
      refine (h1.const_mul (1 / (2 * c1))).congr_deriv ?_
      simp only [zero_mul, add_zero]
      field_simp
      ring
    · exact hcont.intervalIntegrable
  · intro h0
    rw [integral_eq_sub_of_hasDerivAt (f := fun v => 1 / (2 * c2) * Real.log (c1 + c2 * (v * v)))]
    · ring
    · intro v hvm
      have hp := hpos v hvm
      rw [pow_two] at hp
      have h1 : HasDerivAt (fun v : ℝ => v * v) (1 * v + v * 1) v := (hasDerivAt_id v).mul (hasDerivAt_id v)
      have h2 : HasDerivAt (fun v : ℝ => c1 + c2 * (v * v)) (c2 * (1 * v + v * 1)) v :=
        (h1.const_mul c2).const_add c1
      refine ((h2.log hp.ne').const_mul (1 / (2 * c2))).congr_deriv ?_
      have hne := hp.ne'
      rw [pow_two]
      field_simp
      ring
    · exact hcont.intervalIntegrable

/-- **C52 (coasting distance).** On a road of one grade ahead, from a speed above the brake start speed and with
positive deceleration at the brake start speed, the distance used for the decision is the exact distance of the free
coast-down to the brake start speed, `∫ v / a(v) dv`, plus the braking distance from there. -/
theorem C52_distance {F : Fns ℝ} (hlog : F.log = Real.log) {V : Veh ℝ} {P : SimParams ℝ} (s : Sim ℝ) {g : ℝ}
    (ha : P.coastBrakeAccel < 0) (hvb : 0 ≤ P.coastBrakeStartSpeed)
    (hv : P.coastBrakeStartSpeed < s.cyc.speeds.getD (s.i - 1) 0)
    (hg : UniformAhead s.cyc0 (trapzStepStartDistance s.cyc s.i) g)
    (hm : 0 < V.vehKg) (hc : 0 ≤ P.airDensity * V.dragCoef * V.frontalAreaM2)
    (hd : 0 < rollingDecel F V P g P.coastBrakeStartSpeed) :
    distToStopCoast F V P s = .ok ((∫ v in P.coastBrakeStartSpeed..(s.cyc.speeds.getD (s.i - 1) 0),
        v / rollingDecel F V P g v) + brakingDistance P.coastBrakeStartSpeed P.coastBrakeAccel) := by
  set c1 := P.aGrav * (F.sinAtan g + V.wheelRrCoef * F.cosAtan g) with hc1
  set c2 := P.airDensity * (V.dragCoef * V.frontalAreaM2) / (2 * V.vehKg) with hc2d
  set vb := P.coastBrakeStartSpeed with hvbd
  set v0 := s.cyc.speeds.getD (s.i - 1) 0 with hv0
  have hrd : ∀ v, rollingDecel F V P g v = c1 + c2 * v ^ 2 := by
    intro v
    rw [hc1, hc2d]
    unfold rollingDecel
    field_simp
  have hc2 : 0 ≤ c2 := by
    rw [hc2d]
    apply div_nonneg
    · rw [← mul_assoc]; exact hc
    · linarith
  rw [hrd] at hd
  have hd0 : 0 < c1 + c2 * v0 ^ 2 := by
    have : vb ^ 2 ≤ v0 ^ 2 := pow_le_pow_left₀ hvb hv.le 2
    have := mul_le_mul_of_nonneg_left this hc2
    linarith
  obtain ⟨i1, i2⟩ := coast_integral hc2 hvb hv.le hd
  have hint : 0 ≤ ∫ v in vb..v0, v / (c1 + c2 * v ^ 2) := by
    apply intervalIntegral.integral_nonneg hv.le
    intro v hvm
    have h1 : vb ^ 2 ≤ v ^ 2 := pow_le_pow_left₀ hvb hvm.1 2
    have h2 := mul_le_mul_of_nonneg_left h1 hc2
    exact div_nonneg (hvb.trans hvm.1) (by linarith)
  unfold distToStopCoast
  simp only [← hvbd, ← hv0]
  rw [if_neg ha.ne, if_neg (not_le.2 hv), gradesAhead_uniform hg]
  simp only [← hc1, ← hc2d, hlog, hrd]
  rw [braking_eq ha]
  have hbr : (if c2 = 0 then (if 0 < c1 then 1 / (2 * c1) * (v0 * v0 - vb * vb) else -1)
      else if 0 < c1 + c2 * (v0 * v0) ∧ 0 < c1 + c2 * (vb * vb) then
        1 / (2 * c2) * (Real.log (c1 + c2 * (v0 * v0)) - Real.log (c1 + c2 * (vb * vb)))
      else -1) = ∫ v in vb..v0, v / (c1 + c2 * v ^ 2) := by
    by_cases h0 : c2 = 0
    · have hc1p : 0 < c1 := by rw [h0] at hd; linarith
      rw [if_pos h0, if_pos hc1p, i1 h0]
    · have hboth : 0 < c1 + c2 * (v0 * v0) ∧ 0 < c1 + c2 * (vb * vb) := by
        rw [← pow_two, ← pow_two]
        exact ⟨hd0, hd⟩
      rw [if_neg h0, if_pos hboth, i2 h0]
  rw [hbr, if_neg (by linarith)]

end real
end Fastsim.Props
