import Mathlib.Algebra.Order.Field.Basic
import Mathlib.Tactic.Linarith
import Mathlib.Tactic.FieldSimp
import Mathlib.Tactic.Positivity
import Mathlib.Tactic.NormNum
import Mathlib.Tactic.Ring
import Verif.Props.Follow
import Verif.Props.Gap

/-!
# C130: when a following vehicle stays behind its lead vehicle
-/

set_option linter.unusedSectionVars false

namespace Fastsim.Spec
open Fastsim

section
variable {K : Type*} [Field K] [LinearOrder K] [IsStrictOrderedRing K]

/-- Settings of car following that suit steps of duration `dt`: the time headway is at least one step, the minimum gap at least
what `idm_accel` covers in a step (and ten centimetres), the comfortable braking strength about 1.5 to 4 times `idm_accel`
(what the driver model uses is the root of the product of both), and steps are not so short that `idm_accel` covers less than a
millimetre in a step. -/
structure SuitsSteps (F : Fns K) (P : SimParams K) (dt : K) : Prop where
  step : 0 < dt
  accel : 0 < P.idmAccel
  headway : dt ≤ P.idmDtHeadway
  minGap : P.idmAccel * dt * dt ≤ P.idmMinimumGap
  tenCm : 1 / 10 ≤ P.idmMinimumGap
  millimetre : 1 / 1000 ≤ P.idmAccel * dt * dt
  decel : 0 ≤ P.idmDecel
  rootLo : 61 / 50 * P.idmAccel ≤ F.sqrt (P.idmAccel * P.idmDecel)
  rootHi : F.sqrt (P.idmAccel * P.idmDecel) ≤ 2 * P.idmAccel
  power : ∀ x y : K, 0 ≤ x → 0 ≤ F.pow x y

/-- A lead vehicle that never goes backwards and never brakes harder than `decel`, sampled every `dt`. -/
def GentleLead (decel dt : K) (c : Cyc K) : Prop :=
  (∀ x ∈ c, 0 ≤ x.v) ∧ ∀ j a b, c[j]? = some a → c[j + 1]? = some b → b.t - a.t = dt ∧ a.v - decel * dt ≤ b.v

/-- Every simulated step was driven at the speed that was asked for (`newton_iters` is zero). -/
def AllMet (s : Sim K) : Prop := ∀ j r, 1 ≤ j → j < s.i → s.rows[j]? = some r → r.ach.newtonIters = 0

end
end Fastsim.Spec

namespace Fastsim.Props
open Fastsim Spec

section Core
variable {K : Type*} [Field K] [LinearOrder K] [IsStrictOrderedRing K]

/-- Lead no faster than the follower, follower at most one step from the lead. -/
theorem gap_core_slow {x ρ e S L σ : K} (hx : 0 < x) (hσ : σ * x = 1) (hρ : 0 ≤ ρ) (hρ1 : ρ ≤ 1) (he : 0 ≤ e)
    (hev : e ≤ ρ * x) (hS : σ + ρ + ρ * e / 4 ≤ S) (hL : (ρ * x - e) / 2 ≤ L) :
    3 / 2 * (ρ * x) + (1 - S * S) < x + L := by
  have hσ0 : 0 < σ := by by_contra h; have := mul_nonpos_of_nonpos_of_nonneg (not_lt.1 h) hx.le; linarith
  have h1 : 1 - S * S ≤ 2 * (1 - S) := by nlinarith [sq_nonneg (S - 1)]
  have h2 : (1 - ρ) * e ≤ (1 - ρ) * (ρ * x) := mul_le_mul_of_nonneg_left hev (by linarith)
  -- t = 1 - ρ
  have key : 2 * (1 - ρ) - 2 * σ < x * (1 - ρ) * (1 - ρ / 2) := by
    have hp : 0 < x * (x * (1 - ρ) * (1 - ρ / 2) - 2 * (1 - ρ) + 2 * σ) := by
      have : x * (x * (1 - ρ) * (1 - ρ / 2) - 2 * (1 - ρ) + 2 * σ) =
          ((1 - ρ) * x - 1) ^ 2 + 1 + (x * x) * ((1 - ρ) * ρ) / 2 + 2 * (σ * x - 1) := by ring
      rw [this, hσ]
      have : 0 ≤ (x * x) * ((1 - ρ) * ρ) := mul_nonneg (mul_nonneg hx.le hx.le) (mul_nonneg (by linarith) hρ)
      nlinarith [sq_nonneg ((1 - ρ) * x - 1)]
    have := (mul_pos_iff_of_pos_left hx).1 hp
    linarith
  nlinarith

/-- Lead no faster than the follower, follower less than two but more than one step from the lead. -/
theorem gap_core_near {x ρ e S L σ : K} (hx : 0 < x) (hσ : 0 ≤ σ) (hρ1 : 1 < ρ) (hρ2 : ρ < 2) (he : 0 ≤ e)
    (hS : σ + ρ + ρ * e / 4 ≤ S) (hL : (ρ * x - e) / 2 ≤ L) (hL' : ρ * x - e - 1 ≤ L) :
    3 / 2 * (ρ * x) + (1 - S * S) < x + L := by
  have hS2 : ρ * ρ + ρ * ρ * e / 2 ≤ S * S := by
    have h0 : 0 ≤ ρ * e / 4 := by positivity
    have h1 : ρ + ρ * e / 4 ≤ S := by linarith
    have h2 : (ρ + ρ * e / 4) * (ρ + ρ * e / 4) ≤ S * S := mul_self_le_mul_self (by linarith) h1
    nlinarith [mul_nonneg h0 h0]
  -- the mean of both bounds with weights (2 - ρ) / ρ and 2 (ρ - 1) / ρ
  have hw : (2 - ρ) * ((ρ * x - e) / 2) + 2 * (ρ - 1) * (ρ * x - e - 1) ≤ ρ * L := by nlinarith
  have goal : ρ * (3 / 2 * (ρ * x) + (1 - S * S)) < ρ * (x + L) := by
    have hc : 0 ≤ e * ((ρ - 1) ^ 2 * (ρ + 2)) := by positivity
    have hd : 0 < (ρ - 1) * (ρ * (ρ + 1) - 2) := mul_pos (by linarith) (by nlinarith)
    nlinarith
  exact lt_of_mul_lt_mul_left goal (by linarith)

/-- Lead faster than the follower, by so much that the wanted gap is the minimum gap. -/
theorem gap_core_away {x ρ m S L : K} (hx : 0 < x) (hρ2 : ρ < 2) (hm : 61 / 25 ≤ m) (hL' : ρ * x + m - 1 ≤ L) :
    3 / 2 * (ρ * x) + (1 - S * S) < x + L := by
  have : ρ * x < 2 * x := mul_lt_mul_of_pos_right hρ2 hx
  nlinarith [mul_self_nonneg S]

/-- Lead faster than the follower, but not by that much; `u` is the share of the headway that is left. -/
theorem gap_core_fast {x ρ u m S L σ : K} (hx : 0 < x) (hσ : σ * x = 1) (hρ : 0 ≤ ρ) (hρ2 : ρ < 2) (hu : 0 ≤ u)
    (hu1 : u ≤ 1) (hm : 61 / 25 * (1 - u) ≤ m) (hS : σ + ρ * u ≤ S) (hL : (ρ * x + m) / 2 ≤ L)
    (hL' : ρ * x + m - 1 ≤ L) : 3 / 2 * (ρ * x) + (1 - S * S) < x + L := by
  have hσ0 : 0 < σ := by by_contra h; have := mul_nonpos_of_nonpos_of_nonneg (not_lt.1 h) hx.le; linarith
  have hρu : 0 ≤ ρ * u := mul_nonneg hρ hu
  have tangent : ∀ c : K, 0 ≤ c → 2 * c * (σ + ρ * u) - c * c ≤ S * S := fun c hc => by
    have h1 : 2 * c * (σ + ρ * u) ≤ 2 * c * S := mul_le_mul_of_nonneg_left hS (by linarith)
    nlinarith [sq_nonneg (S - c)]
  rcases le_or_gt 3 x with h3 | h3
  · have t := tangent (61 / 100) (by norm_num)
    have h1 : 3 * (1 - ρ / 2) ≤ x * (1 - ρ / 2) := mul_le_mul_of_nonneg_right h3 (by linarith)
    have h2 : (2 - ρ) * u ≤ (2 - ρ) * 1 := mul_le_mul_of_nonneg_left hu1 (by linarith)
    nlinarith
  have hσ3 : 1 / 3 < σ := by
    by_contra h
    have := mul_le_mul_of_nonneg_right (not_lt.1 h) hx.le
    linarith
  have amgm : ∀ c : K, 0 < c → 2 * c ≤ x + c * c * σ := fun c hc => by
    have h1 : 0 ≤ σ * (x - c) ^ 2 := by positivity
    have h2 : σ * (x - c) ^ 2 = (σ * x) * x - 2 * c * (σ * x) + c * c * σ := by ring
    rw [h2, hσ] at h1
    linarith
  rcases le_or_gt ρ 1 with h1 | h1
  · have t := tangent (61 / 100) (by norm_num)
    have a1 := amgm 1 one_pos
    have h2 : (1 - ρ) * u ≤ (1 - ρ) * 1 := mul_le_mul_of_nonneg_left hu1 (by linarith)
    have h4 : (1 - ρ) * (2 - σ) ≤ (1 - ρ) * x := mul_le_mul_of_nonneg_left (by linarith) (by linarith)
    nlinarith
  · have hρ0 : 0 < ρ := by linarith
    have t := tangent (61 / 50 / ρ) (by positivity)
    have e1 : ρ * ρ * (2 * (61 / 50 / ρ) * (σ + ρ * u) - 61 / 50 / ρ * (61 / 50 / ρ)) =
        61 / 25 * (σ * ρ) + 61 / 25 * u * (ρ * ρ) - 61 / 50 * (61 / 50) := by
      field_simp
      ring
    have t' := mul_le_mul_of_nonneg_left t (mul_self_nonneg ρ)
    rw [e1] at t'
    suffices goal : ρ * ρ * (3 / 2 * (ρ * x) + (1 - S * S)) < ρ * ρ * (x + L) from
      lt_of_mul_lt_mul_left goal (mul_self_nonneg ρ)
    have key : 0 < ρ * ρ * (x * (1 - ρ / 2)) + 11 / 25 * (ρ * ρ) + 61 / 25 * (σ * ρ) - 61 / 50 * (61 / 50) := by
      have hp : 0 ≤ ρ * ρ * (x * (1 - ρ / 2)) := mul_nonneg (mul_self_nonneg ρ) (mul_nonneg hx.le (by linarith))
      have hs : 1 / 3 * ρ ≤ σ * ρ := mul_le_mul_of_nonneg_right hσ3.le hρ
      rcases le_or_gt (6 / 5) ρ with h6 | h6
      · nlinarith
      · have h2 : 2 / 5 * x ≤ ρ * ρ * (x * (1 - ρ / 2)) := by
          have q1 : x * (2 / 5) ≤ x * (1 - ρ / 2) := mul_le_mul_of_nonneg_left (by linarith) hx.le
          have q2 : 1 * (x * (2 / 5)) ≤ ρ * ρ * (x * (1 - ρ / 2)) :=
            mul_le_mul (by nlinarith) q1 (by positivity) (mul_self_nonneg ρ)
          linarith
        have a1 := amgm 2 two_pos
        have h7 : σ * 1 ≤ σ * ρ := mul_le_mul_of_nonneg_left h1.le hσ0.le
        nlinarith
    have hL2 := mul_le_mul_of_nonneg_left hL' (mul_self_nonneg ρ)
    have hm2 := mul_le_mul_of_nonneg_left hm (mul_self_nonneg ρ)
    nlinarith

end Core

section Field
variable {K : Type*} [Field K] [LinearOrder K] [IsStrictOrderedRing K]
variable {F : Fns K} {H : Hooks K} {V : Veh K} {P : SimParams K}

/-- **C130 (the root).** With an exact square root the condition on it is that `idm_decel` is between 1.5 and 4 times
`idm_accel`. -/
theorem C130_root {dt : K} (hr : ∀ x : K, 0 ≤ x → 0 ≤ F.sqrt x ∧ F.sqrt x * F.sqrt x = x) (ha : 0 < P.idmAccel)
    (h1 : 3 / 2 * P.idmAccel ≤ P.idmDecel) (h2 : P.idmDecel ≤ 4 * P.idmAccel) (hdt : 0 < dt) (hh : dt ≤ P.idmDtHeadway)
    (hg : P.idmAccel * dt * dt ≤ P.idmMinimumGap) (ht : 1 / 10 ≤ P.idmMinimumGap) (hm : 1 / 1000 ≤ P.idmAccel * dt * dt)
    (hp : ∀ x y : K, 0 ≤ x → 0 ≤ F.pow x y) : SuitsSteps F P dt := by
  have hb : 0 ≤ P.idmDecel := by linarith
  obtain ⟨k0, kk⟩ := hr _ (mul_nonneg ha.le hb)
  refine ⟨hdt, ha, hh, hg, ht, hm, hb, ?_, ?_, hp⟩
  · by_contra h
    have h3 := mul_self_lt_mul_self k0 (not_le.1 h)
    rw [kk] at h3
    nlinarith
  · by_contra h
    have h3 := mul_self_lt_mul_self (by linarith) (not_le.1 h)
    rw [kk] at h3
    nlinarith

/-- The wanted speed in a gap of at least a centimetre, in units of the step and of what `idm_accel` covers in it. -/
theorem idm_gap_core {dt : K} (hS : SuitsSteps F P dt) {v w L gap q : K} (hv : 0 ≤ v) (hw : 0 ≤ w) (hL : w * dt / 2 ≤ L)
    (hL' : w * dt - P.idmAccel * dt * dt ≤ L) (hg : v * dt / 2 < gap)
    (hq : (P.idmMinimumGap + max 0 (v * P.idmDtHeadway + v * (v - w) / (2 * F.sqrt (P.idmAccel * P.idmDecel)))) ≤ q * gap) :
    3 / 2 * (v * dt) + P.idmAccel * dt * dt * (1 - q * q) < gap + L := by
  obtain ⟨hdt, ha, hh, hmg, -, -, -, hlo, hhi, -⟩ := hS
  generalize F.sqrt (P.idmAccel * P.idmDecel) = k at *
  generalize P.idmAccel = a at *
  have hgap : 0 < gap := lt_of_le_of_lt (by positivity) hg
  have hk : 0 < k := by nlinarith
  have hA : 0 < a * dt * dt := by positivity
  set A := a * dt * dt with hAdef
  suffices goal : 3 / 2 * (v * dt / gap * (gap / A)) + (1 - q * q) < gap / A + L / A by
    have := mul_lt_mul_of_pos_left goal hA
    have e1 : A * (3 / 2 * (v * dt / gap * (gap / A)) + (1 - q * q)) = 3 / 2 * (v * dt) + A * (1 - q * q) := by
      field_simp
    have e2 : A * (gap / A + L / A) = gap + L := by field_simp
    rwa [e1, e2] at this
  have hx : 0 < gap / A := div_pos hgap hA
  have hσ : A / gap * (gap / A) = 1 := by field_simp
  have hρ : 0 ≤ v * dt / gap := by positivity
  have hρ2 : v * dt / gap < 2 := by rw [div_lt_iff₀ hgap]; linarith
  have hρx : v * dt / gap * (gap / A) = v * dt / A := by field_simp
  have hhv : v * dt ≤ v * P.idmDtHeadway := mul_le_mul_of_nonneg_left hh hv
  rcases le_or_gt w v with hwv | hwv
  · have e0 : 0 ≤ (v - w) * dt / A := div_nonneg (mul_nonneg (by linarith) hdt.le) hA.le
    have hS : A / gap + v * dt / gap + v * dt / gap * ((v - w) * dt / A) / 4 ≤ q := by
      have e1 : A / gap + v * dt / gap + v * dt / gap * ((v - w) * dt / A) / 4 =
          (A + (v * dt + v * (v - w) / (4 * a))) / gap := by
        rw [hAdef]
        field_simp
        ring
      rw [e1, div_le_iff₀ hgap]
      refine le_trans ?_ hq
      have e2 : v * (v - w) / (4 * a) ≤ v * (v - w) / (2 * k) :=
        div_le_div_of_nonneg_left (mul_nonneg hv (by linarith)) (by linarith) (by linarith)
      have := le_max_right 0 (v * P.idmDtHeadway + v * (v - w) / (2 * k))
      linarith
    have hL1 : (v * dt / gap * (gap / A) - (v - w) * dt / A) / 2 ≤ L / A := by
      rw [hρx, show (v * dt / A - (v - w) * dt / A) / 2 = (w * dt / 2) / A by ring]
      exact div_le_div_of_nonneg_right hL hA.le
    have hL2 : v * dt / gap * (gap / A) - (v - w) * dt / A - 1 ≤ L / A := by
      rw [hρx, show v * dt / A - (v - w) * dt / A - 1 = w * dt / A - A / A by rw [div_self hA.ne']; ring, ← sub_div]
      exact div_le_div_of_nonneg_right hL' hA.le
    rcases le_or_gt (v * dt / gap) 1 with h1 | h1
    · refine gap_core_slow hx hσ hρ h1 e0 ?_ hS hL1
      rw [hρx]
      exact div_le_div_of_nonneg_right (mul_le_mul_of_nonneg_right (by linarith) hdt.le) hA.le
    · exact gap_core_near hx (by positivity) h1 hρ2 e0 hS hL1 hL2
  · have hL1 : (v * dt / gap * (gap / A) + (w - v) * dt / A) / 2 ≤ L / A := by
      rw [hρx, show (v * dt / A + (w - v) * dt / A) / 2 = (w * dt / 2) / A by ring]
      exact div_le_div_of_nonneg_right hL hA.le
    have hL2 : v * dt / gap * (gap / A) + (w - v) * dt / A - 1 ≤ L / A := by
      rw [hρx, show v * dt / A + (w - v) * dt / A - 1 = w * dt / A - A / A by rw [div_self hA.ne']; ring, ← sub_div]
      exact div_le_div_of_nonneg_right hL' hA.le
    have hm : ∀ y : K, 0 ≤ y → y * (2 * k * dt) ≤ w - v → 61 / 25 * y ≤ (w - v) * dt / A := fun y hy h => by
      rw [le_div_iff₀ hA, hAdef]
      have h1 : y * (2 * k * dt) * dt ≤ (w - v) * dt := mul_le_mul_of_nonneg_right h hdt.le
      have h2 : y * (dt * dt) * (61 / 50 * a) ≤ y * (dt * dt) * k := mul_le_mul_of_nonneg_left hlo (by positivity)
      linarith
    rcases le_or_gt (2 * k * dt) (w - v) with hfar | hfar
    · refine gap_core_away hx hρ2 ?_ hL2
      have := hm 1 zero_le_one (by linarith)
      linarith
    · have hkd : 0 < 2 * k * dt := by positivity
      have hu1 : (w - v) / (2 * k * dt) ≤ 1 := (div_le_one hkd).2 hfar.le
      have hu0 : 0 ≤ (w - v) / (2 * k * dt) := div_nonneg (by linarith) hkd.le
      refine gap_core_fast (u := 1 - (w - v) / (2 * k * dt)) hx hσ hρ hρ2 (by linarith) (by linarith) ?_ ?_ hL1 hL2
      · rw [sub_sub_cancel]
        exact hm _ hu0 (by rw [div_mul_cancel₀ _ hkd.ne'])
      · have e1 : A / gap + v * dt / gap * (1 - (w - v) / (2 * k * dt)) = (A + (v * dt + v * (v - w) / (2 * k))) / gap := by
          field_simp
          ring
        rw [e1, div_le_iff₀ hgap]
        refine le_trans ?_ hq
        have := le_max_right 0 (v * P.idmDtHeadway + v * (v - w) / (2 * k))
        linarith

/-- **C130 (one step).** A follower that is more than half a step behind the lead vehicle, and then drives no faster than the
driver model says, is so again at the end of the step, if the lead vehicle goes forwards and brakes by no more than twice
`idm_accel`. -/
theorem C130_step {dt : K} (hS : SuitsSteps F P dt) {v w w' gap v1 vDesired : K} (hv : 0 ≤ v) (hw : 0 ≤ w) (hw' : 0 ≤ w')
    (hb : w - 2 * P.idmAccel * dt ≤ w') (hg : v * dt / 2 < gap)
    (h1 : v1 ≤ idmSpeed F P.idmAccel P.idmDecel P.idmDtHeadway P.idmMinimumGap vDesired P.idmDelta v w gap dt) :
    v1 * dt / 2 < gap + (w + w') / 2 * dt - (v + v1) / 2 * dt := by
  have hdt := hS.step
  have hL0 : 0 ≤ (w + w') / 2 * dt := by positivity
  suffices goal : idmSpeed F P.idmAccel P.idmDecel P.idmDtHeadway P.idmMinimumGap vDesired P.idmDelta v w gap dt * dt
      + v * dt / 2 < gap + (w + w') / 2 * dt by
    have := mul_le_mul_of_nonneg_right h1 hdt.le
    linarith
  unfold idmSpeed
  split
  · linarith
  rename_i hvd
  have hp := hS.power (v / vDesired) P.idmDelta (div_nonneg hv (not_le.1 hvd).le)
  have hsg : 0 < P.idmMinimumGap := lt_of_lt_of_le (by norm_num) hS.tenCm
  simp only [pabs_eq_abs, abs_of_pos hS.accel, abs_of_nonneg hS.decel, max_eq_right hsg.le,
    max_eq_right (hdt.le.trans hS.headway)]
  generalize hq : (P.idmMinimumGap + max 0 (v * P.idmDtHeadway + v * (v - w) / (2 * F.sqrt (P.idmAccel * P.idmDecel)))) /
    max gap (1 / 100) = q
  rw [max_mul_of_nonneg _ _ hdt.le, zero_mul]
  rcases le_total ((v + P.idmAccel * (1 - F.pow (v / vDesired) P.idmDelta - q * q) * dt) * dt) 0 with hneg | hpos
  · rw [max_eq_right hneg]; linarith
  rw [max_eq_left hpos]
  have hA : 0 < P.idmAccel * dt * dt := mul_pos (mul_pos hS.accel hdt) hdt
  have hpow : 0 ≤ P.idmAccel * dt * dt * F.pow (v / vDesired) P.idmDelta := mul_nonneg hA.le hp
  suffices main : 3 / 2 * (v * dt) + P.idmAccel * dt * dt * (1 - q * q) < gap + (w + w') / 2 * dt by
    nlinarith
  have hmax : 0 < max gap (1 / 100) := lt_of_lt_of_le (by norm_num) (le_max_right _ _)
  have hqm : P.idmMinimumGap + max 0 (v * P.idmDtHeadway + v * (v - w) / (2 * F.sqrt (P.idmAccel * P.idmDecel))) =
      q * max gap (1 / 100) := by rw [← hq, div_mul_cancel₀ _ hmax.ne']
  rcases le_or_gt (1 / 100) gap with hcm | hcm
  · rw [max_eq_left hcm] at hqm
    refine idm_gap_core hS hv hw ?_ ?_ hg hqm.le
    · have := mul_nonneg hw' hdt.le
      linarith
    · have := mul_le_mul_of_nonneg_right hb hdt.le
      linarith
  · rw [max_eq_right hcm.le] at hqm
    have h0 := le_max_left 0 (v * P.idmDtHeadway + v * (v - w) / (2 * F.sqrt (P.idmAccel * P.idmDecel)))
    have hq10 : 10 ≤ q := by have := hS.tenCm; linarith
    have hqq : 99 ≤ q * q - 1 := by nlinarith
    have := hS.millimetre
    have : 1 / 1000 * 99 ≤ P.idmAccel * dt * dt * (q * q - 1) := mul_le_mul this hqq (by norm_num) hA.le
    linarith

/-- One step of car following, seen from the object. -/
theorem follow_step (hH : H.Local) (hidm : P.idmAllow = true) (hh : H.idm = idmHook F P) (hc : P.coastAllow = false)
    (hm : P.missedTrace = false) {s s' : Sim K} (h : Reachable F H V P s) (hlt : s.i < s.cyc.length)
    (hstep : simDriveStep F H V P s = .ok s') :
    Cyc.times s'.cyc = Cyc.times s.cyc ∧ ∃ vd r, s'.rows[s.i]? = some r ∧ (r.ach.newtonIters = 0 →
      r.ach.mpsAch = idmSpeed F P.idmAccel P.idmDecel P.idmDtHeadway P.idmMinimumGap vd P.idmDelta
        (s.rows.getD (s.i - 1) Row.zero).ach.mpsAch (s.cyc0.speeds.getD (s.i - 1) 0)
        ((trapzDistances s.cyc0).getD (s.i - 1) 0 + max 0 P.idmMinimumGap - trapzStepStartDistance s.cyc s.i)
        (dtAt s.cyc s.i)) := by
  have hI := (Reachable.inv hH h).1
  have hpos := hI.pos
  have hr : s.i < s.rows.length := by rw [hI.lenRows]; exact hlt
  unfold simDriveStep at hstep
  rw [hidm, hh, hc] at hstep
  simp only [if_true, Bool.false_eq_true, if_false] at hstep
  split at hstep
  · simp at hstep
  rename_i s1 h1
  simp only [Except.ok.injEq] at hstep
  obtain ⟨tgt, vd, v, -, -, hv, hs1⟩ := C30_hook h1
  have hsol : solveAndCorrect F V P s1 = Sim.solve F V P s1 := by
    unfold solveAndCorrect; simp [hm]
  have hrows : s'.rows = (Sim.solve F V P s1).rows := by
    rw [← hstep, hsol]; exact finishStep_rows ..
  have hi1 : s1.i = s.i := by rw [hs1]
  have hrw1 : s1.rows = s.rows := by rw [hs1]
  refine ⟨?_, vd, solveStep F V P.toStepParams (stepEnv F V P s1) (s1.rows.getD (s1.i - 1) Row.zero)
    (s1.rows.getD s1.i Row.zero).stale, ?_, ?_⟩
  · rw [← hstep, hsol, finishStep_times]
    show Cyc.times s1.cyc = _
    rw [hs1]
    exact times_setSpeed ..
  · rw [hrows]
    simp only [Sim.solve]
    rw [hi1, hrw1, List.getElem?_set_self hr]
  · rw [← hv]
    generalize hE : stepEnv F V P s1 = E
    generalize (s1.rows.getD (s1.i - 1) Row.zero) = q
    generalize (s1.rows.getD s1.i Row.zero).stale = st
    intro hit
    have hmps : E.mps = v := by
      rw [← hE]
      simp only [stepEnv]
      rw [hi1, hs1]
      simp only [Cyc.speeds, setSpeed]
      rw [List.getD_eq_getElem?_getD, List.getElem?_map, List.getElem?_modify,
        List.getElem?_eq_getElem hlt]
      simp
    by_cases hmet : (setPowerCalcs F V P.toStepParams E q
        (setCompLims F V P.toStepParams E q (setMisc V E q)) st).cycMet = true
    · simp only [solveStep, setAchSpeed, if_pos hmet]; exact hmps
    · exfalso
      obtain ⟨g, -, f', -, hN⟩ := achieved_newton (F := F) (V := V) (P := P) E q.ach.mpsAch
        (setCompLims F V P.toStepParams E q (setMisc V E q)).curMaxTransKwOut
        (st.newtonIters, st.mpsAch)
      have h2 := (C26_answer _ _ _ _ _ _ _ _ hN).2.1
      simp only [solveStep, setAchSpeed, if_neg hmet] at hit
      omega

theorem follow_times (hH : H.Local) (hidm : P.idmAllow = true) (hh : H.idm = idmHook F P) (hc : P.coastAllow = false)
    (hm : P.missedTrace = false) {s : Sim K} (h : Reachable F H V P s) : Cyc.times s.cyc = Cyc.times s.cyc0 := by
  induction h with
  | @init s s' soc aux hlen h =>
    have q := initForStep_spec hlen h
    rw [q.cyc0, q.eq]
    simp [initState, hidm]
  | @step s s' hs hlt h ih =>
    obtain ⟨hW, -⟩ := Reachable.inv hH hs
    rw [(follow_step hH hidm hh hc hm hs hlt h).1, ih, (simDriveStep_inv hH hW hlt h).2.2.cyc0]

/-- **C130 (whole runs).** Car following with settings that suit the steps of the trace, behind a lead vehicle that brakes by at
most twice `idm_accel` and is not too fast at the start: as long as the vehicle drives the speeds asked for, it stays more than
half a step behind the lead vehicle, so the gap is positive at every sample. -/
theorem C130_run (hH : H.Local) (hidm : P.idmAllow = true) (hh : H.idm = idmHook F P) (hc : P.coastAllow = false)
    (hm : P.missedTrace = false) {dt : K} (hS : SuitsSteps F P dt) {s : Sim K} (h : Reachable F H V P s)
    (hlead : GentleLead (2 * P.idmAccel) dt s.cyc0) (hstart : s.cyc0.speeds.getD 0 0 * dt / 2 < P.idmMinimumGap)
    (hmet : AllMet s) {j : Nat} {r : Row K} {gap : K} (hj : j < s.i) (hr : s.rows[j]? = some r)
    (hg : (gapToLead P s)[j]? = some gap) : 0 < gap ∧ r.ach.mpsAch * dt / 2 < gap := by
  have hI : P.idmAllow = true → KeepPast H.idm := fun _ => hh ▸ idmHook_keepPast
  have hC : P.coastAllow = true → KeepPast H.coast := fun e => by rw [hc] at e; simp at e
  have hnn : ∀ {s : Sim K}, Reachable F H V P s → GentleLead (2 * P.idmAccel) dt s.cyc0 →
      ∀ r ∈ s.rows, 0 ≤ r.ach.mpsAch := fun h hl =>
    C25_speed_nonneg hH (fun _ => hh ▸ idmHook_forward) (fun e => by rw [hc] at e; simp at e) h
      hl.1
      (fun e => by rw [hidm] at e; simp at e)
  have hlen : ∀ {s : Sim K}, Reachable F H V P s → s.cyc.length = s.cyc0.length := fun h => by
    have := congrArg List.length (follow_times hH hidm hh hc hm h)
    simpa [Cyc.times] using this
  suffices main : r.ach.mpsAch * dt / 2 < gap by
    have := hnn h hlead r (List.mem_of_getElem? hr)
    have : 0 ≤ r.ach.mpsAch * dt / 2 := div_nonneg (mul_nonneg this hS.step.le) (by norm_num)
    exact ⟨by linarith, main⟩
  induction h generalizing j r gap with
  | @init s s' soc aux hlen' h =>
    have q := initForStep_spec hlen' h
    have : j = 0 := by have := q.i; omega
    subst this
    rw [q.row0] at hr
    have hgap := C61_start (P := P) (s := s') (by rw [q.lenCyc, q.cyc0]) (by rw [q.lenCyc]; exact q.pos)
    rw [hg, hidm] at hgap
    simp only [if_true, Option.some.injEq] at hgap hr
    rw [← hr, hgap]
    rw [q.cyc0] at hstart
    exact hstart
  | @step s s' hs hlt h ih =>
    obtain ⟨hW, -⟩ := Reachable.inv hH hs
    obtain ⟨-, hi, ha⟩ := simDriveStep_inv hH hW hlt h
    rw [ha.cyc0] at hlead hstart
    have hmet' : AllMet s := fun k q h1 h2 h3 => hmet k q h1 (by omega) (by rw [ha.rows k h2]; exact h3)
    have hms : P.coastAllow = true ∨ P.idmAllow = true := .inr hidm
    rcases Nat.lt_or_ge j s.i with hji | hji
    · rw [C61_frozen hH hI hC hms hs (hlen hs) hlt h hji] at hg
      rw [ha.rows j hji] at hr
      exact ih hlead hstart hmet' hji hr hg
    · have hje : j = s.i := by omega
      subst hje
      have hpos := hW.pos
      obtain ⟨k, hk⟩ : ∃ k, s.i = k + 1 := ⟨s.i - 1, by omega⟩
      obtain ⟨-, vd, r', hr', hsp⟩ := follow_step hH hidm hh hc hm hs hlt h
      rw [hr] at hr'
      obtain rfl := Option.some.inj hr'
      have hv1 := hsp (hmet s.i r (by omega) hj hr)
      -- the row, the lead sample and the gap before
      have hkr : k < s.rows.length := by rw [hW.lenRows]; omega
      have hrk : s.rows[k]? = some s.rows[k] := List.getElem?_eq_getElem hkr
      have hgk := gapToLead_get (P := P) (hlen hs) (j := k) (by omega)
      have hsafe := ih hlead hstart hmet' (by omega) hrk hgk
      have hk0 : k + 1 < s.cyc0.length := by rw [← hlen hs]; omega
      have hx0 : s.cyc0[k]? = some s.cyc0[k] := List.getElem?_eq_getElem (by omega)
      have hx1 : s.cyc0[k + 1]? = some s.cyc0[k + 1] := List.getElem?_eq_getElem hk0
      obtain ⟨hdt, hbr⟩ := hlead.2 k _ _ hx0 hx1
      have hw := hlead.1 _ (List.mem_of_getElem? hx0)
      have hw' := hlead.1 _ (List.mem_of_getElem? hx1)
      have hs' := hs.step hlt h
      -- samples of the working cycle
      have hlc : s'.cyc.length = s'.cyc0.length := hlen hs'
      have hk1 : k + 1 < s'.cyc.length := by rw [hlc, ha.cyc0]; exact hk0
      have hk2 : k < s'.cyc.length := by omega
      have hc0 : s'.cyc[k]? = some s'.cyc[k] := List.getElem?_eq_getElem hk2
      have hc1 : s'.cyc[k + 1]? = some s'.cyc[k + 1] := List.getElem?_eq_getElem hk1
      have hd' := driven_speeds hH hI hC (by simp [hidm]) hs'
      have hv0 : s'.cyc[k].v = s.rows[k].ach.mpsAch := by
        have := hd' k (by omega)
        rw [ha.rows k (by omega), hrk, Cyc.speeds, List.getElem?_map, hc0] at this
        simpa using this
      have hvv : s'.cyc[k + 1].v = r.ach.mpsAch := by
        have := hd' (k + 1) (by omega)
        rw [← hk, hr, Cyc.speeds, List.getElem?_map, hk, hc1] at this
        simpa using this
      have htt : ∀ m (hm0 : m < s.cyc0.length) (hm1 : m < s'.cyc.length), s'.cyc[m].t = s.cyc0[m].t := fun m hm0 hm1 => by
        have := congrArg (fun l : List K => l[m]?) (follow_times hH hidm hh hc hm hs')
        simp only [Cyc.times, List.getElem?_map, ha.cyc0, List.getElem?_eq_getElem hm0, List.getElem?_eq_getElem hm1,
          Option.map_some, Option.some.injEq] at this
        exact this
      have hg' := gapToLead_get (P := P) hlc (j := k + 1) hk1
      rw [← hk, hg, hk, ha.cyc0, Option.some.injEq, distance_take_succ hx0 hx1, distance_take_succ hc0 hc1, hv0, hvv,
        htt k (by omega) hk2, htt (k + 1) hk0 hk1, hdt, hidm] at hg'
      -- the gap before did not move
      have hfro := C61_frozen hH hI hC hms hs (hlen hs) hlt h (j := k) (by omega)
      have hgk' := gapToLead_get (P := P) hlc (j := k) hk2
      rw [hfro, hgk, ha.cyc0, hidm, Option.some.injEq] at hgk'
      have hmg : 0 ≤ P.idmMinimumGap := le_trans (by norm_num) hS.tenCm
      have hgd : (trapzDistances s.cyc0).getD (s.i - 1) 0 + max 0 P.idmMinimumGap - trapzStepStartDistance s.cyc s.i =
          distance (s.cyc0.take (k + 1)) - distance (s.cyc.take (k + 1)) + P.idmMinimumGap := by
        rw [hk, Nat.add_sub_cancel, List.getD_eq_getElem?_getD, trapzDistances_get _ _ (by omega),
          trapzStepStartDistance_eq, max_eq_right hmg]
        simp only [Option.getD_some]
        ring
      have hdta : dtAt s.cyc s.i = dt := by
        unfold dtAt
        rw [if_neg (by omega), follow_times hH hidm hh hc hm hs, hk, Nat.add_sub_cancel]
        simp only [Cyc.times, List.getD_eq_getElem?_getD, List.getElem?_map, hx0, hx1, Option.map_some, Option.getD_some]
        exact hdt
      have hrowd : (s.rows.getD (s.i - 1) Row.zero) = s.rows[k] := by
        rw [hk, Nat.add_sub_cancel, List.getD_eq_getElem?_getD, hrk]; rfl
      have hspd : s.cyc0.speeds.getD (s.i - 1) 0 = s.cyc0[k].v := by
        rw [hk, Nat.add_sub_cancel, List.getD_eq_getElem?_getD, Cyc.speeds, List.getElem?_map, hx0]; rfl
      rw [hgd, hdta, hrowd, hspd] at hv1
      rw [hidm] at hsafe
      simp only [if_true] at hsafe hg' hgk'
      have hfin := C130_step hS (hnn hs hlead _ (List.mem_of_getElem? hrk)) hw hw' hbr hsafe hv1.le
      linarith

end Field
section Floor
variable {K : Type*} [Field K] [LinearOrder K] [IsStrictOrderedRing K] [FloorRing K]
variable {F : Fns K} {V : Veh K} {P : SimParams K}

/-- **C130 for the driving modes of the code.** `sim_drive` behind a lead vehicle: all reported gaps are positive. -/
theorem C130_real (hidm : P.idmAllow = true) (hc : P.coastAllow = false) (hm : P.missedTrace = false) {dt : K}
    (hS : SuitsSteps F P dt) {c : Cyc K} {init : Option K} {aux : Option (List K)} {s : Sim K}
    (h : simDrive F (realHooks F V P) V P (Sim.new c) init aux = .ok s) (hlead : GentleLead (2 * P.idmAccel) dt c)
    (hstart : c.speeds.getD 0 0 * dt / 2 < P.idmMinimumGap) (hmet : AllMet s) :
    (gapToLead P s).length = c.length ∧ ∀ gap ∈ gapToLead P s, 0 < gap := by
  obtain ⟨soc, w⟩ := simDrive_done realHooks_local rfl h
  have hw0 : s.cyc0 = c := w.cyc0
  have hR := Reachable.simDrive realHooks_local rfl h
  have hlen : (gapToLead P s).length = c.length := by
    have hl : s.cyc.length = c.length := w.lenCyc
    simp [gapToLead, hidm, trapzDistances_length, hl, hw0]
  refine ⟨hlen, fun gap hgap => ?_⟩
  obtain ⟨j, hj, rfl⟩ := List.mem_iff_getElem.1 hgap
  have hjs : j < s.i := by rw [w.atEnd]; exact hlen ▸ hj
  have hjr : j < s.rows.length := by
    have hI := (Reachable.inv realHooks_local hR).1
    have := hI.le
    rw [hI.lenRows]; omega
  exact (C130_run realHooks_local hidm rfl hc hm hS hR (by rw [hw0]; exact hlead) (by rw [hw0]; exact hstart) hmet hjs
    (List.getElem?_eq_getElem hjr) (List.getElem?_eq_getElem hj)).1

end Floor

/-! ### Concrete cases -/
open Demo

/-- The functions of the demos with the root of the default settings to four digits. -/
def rootFns : Fns ℚ := { fns with sqrt := fun x => if x = 3 / 2 then 12247 / 10000 else fns.sqrt x }

/-- Car following with the default settings. -/
def behind : SimParams ℚ := { params with idmAllow := true }

/-- A lead vehicle that drives off, brakes and stops, every second. -/
def shortHop : Cyc ℚ := [⟨0, 0, 0, 0⟩, ⟨1, 2, 0, 0⟩, ⟨2, 4, 0, 0⟩, ⟨3, 3, 0, 0⟩, ⟨4, 1, 0, 0⟩, ⟨5, 0, 0, 0⟩, ⟨6, 0, 0, 0⟩]

/-- A lead vehicle that moves up a little, every two seconds. -/
def moveUp : Cyc ℚ := [⟨0, 0, 0, 0⟩, ⟨2, 2, 0, 0⟩, ⟨4, 0, 0, 0⟩, ⟨6, 0, 0, 0⟩, ⟨8, 0, 0, 0⟩]

/-- What a run with car following reports: are all steps met, and the gaps. -/
def behindRun (c : Cyc ℚ) : Option (Bool × List ℚ) :=
  match simDrive rootFns (realHooks rootFns conv behind) conv behind (Sim.new c) none none with
  | .ok s => some (decide (∀ r ∈ s.rows, r.ach.newtonIters = 0), gapToLead behind s)
  | .error _ => none

theorem behind_gentle {c : Cyc ℚ} {d dt : ℚ} (h0 : ∀ x ∈ c, 0 ≤ x.v)
    (h : ∀ j ∈ List.range c.length, match c[j]?, c[j + 1]? with
      | some a, some b => b.t - a.t = dt ∧ a.v - d * dt ≤ b.v
      | _, _ => True) : GentleLead d dt c := by
  refine ⟨h0, fun j a b ha hb => ?_⟩
  have hj : j < c.length := (List.getElem?_eq_some_iff.1 ha).1
  have := h j (List.mem_range.2 hj)
  rwa [ha, hb] at this

/-- The default settings suit steps of one second. -/
theorem C130_defaults : SuitsSteps rootFns behind 1 where
  step := by norm_num
  accel := by decide +kernel
  headway := by decide +kernel
  minGap := by decide +kernel
  tenCm := by decide +kernel
  millimetre := by decide +kernel
  decel := by decide +kernel
  rootLo := by decide +kernel
  rootHi := by decide +kernel
  power := fun x y _ => by
    show (0 : ℚ) ≤ x * x * (x * x)
    positivity

/-- The hypotheses of `C130_run` and `C130_real` are met by a run of the demo car. -/
theorem C130_demo : GentleLead (2 * behind.idmAccel) 1 shortHop ∧ shortHop.speeds.getD 0 0 * 1 / 2 < behind.idmMinimumGap ∧
    ∃ gaps, behindRun shortHop = some (true, gaps) := by
  refine ⟨behind_gentle (by decide +kernel) ?_, by decide +kernel, ?_⟩
  · have e : ∀ j ∈ List.range shortHop.length, (match shortHop[j]?, shortHop[j + 1]? with
      | some a, some b => decide (b.t - a.t = 1 ∧ a.v - 2 * behind.idmAccel * 1 ≤ b.v)
      | _, _ => true) = true := by decide +kernel
    intro j hj
    have := e j hj
    split at this
    · simpa using this
    · trivial
  · have e : ((behindRun shortHop).map Prod.fst) = some true := by decide +kernel
    cases h : behindRun shortHop with
    | none => rw [h] at e; simp at e
    | some p =>
      rw [h] at e
      simp only [Option.map_some, Option.some.injEq] at e
      exact ⟨p.2, by rw [← e]⟩

/-- **C130 (finding).** With the default settings and steps of two seconds, longer than the headway, the vehicle drives through a
lead vehicle that moves up two metres and brakes no harder than `idm_accel`. -/
theorem C130_long_steps : ∃ gaps, behindRun moveUp = some (true, gaps) ∧ ∃ gap ∈ gaps, gap < 0 := by
  have e : ((behindRun moveUp).map fun p => (p.1, p.2.any (· < 0))) = some (true, true) := by decide +kernel
  cases h : behindRun moveUp with
  | none => rw [h] at e; simp at e
  | some p =>
    rw [h] at e
    simp only [Option.map_some, Option.some.injEq, Prod.mk.injEq, List.any_eq_true, decide_eq_true_eq] at e
    exact ⟨p.2, by rw [← e.1], e.2⟩

end Fastsim.Props
