import Verif.Props.Battery
import Verif.Lemmas.Newton
import Verif.Lemmas.Nonneg
import Verif.Spec.Road
import Mathlib.Algebra.Polynomial.Derivative

/-!
# C25, C26: achieved speed and the Newton solve; sign of the fuel economy (C17)
-/

set_option linter.unusedSectionVars false

namespace Fastsim.Props
open Fastsim Spec

section Field
variable {K : Type*} [Field K] [LinearOrder K] [IsStrictOrderedRing K]
variable {F : Fns K} {H : Hooks K} {V : Veh K} {P : SimParams K}

/-- The wheel power recorded by a power evaluation is the physical road load. -/
theorem whlReq_eq (E : StepEnv K) (p : Row K) (L : Lims K) (v : K) :
    (powerAt F V P.toStepParams E p L v).cycWhlKwReq =
      roadLoadKw F V P.toStepParams E.dt (E.gradeOf v) p.ach.mpsAch v := by
  show dragKw V P.toStepParams p.ach.mpsAch v + accelKw V E.dt p.ach.mpsAch v
    + ascentKw F V P.toStepParams (E.gradeOf v) p.ach.mpsAch v
    + rrKw F V P.toStepParams (E.gradeOf v) p.ach.mpsAch v
    + tireInertiaKw V E.dt p.ach.mpsAch v = _
  unfold dragKw accelKw ascentKw rrKw tireInertiaKw roadLoadKw aeroKw kineticKw climbKw rollKw wheelKj
    avgSpeed
  by_cases hd : E.dt = 0
  · rw [hd]; simp; try ring
  · field_simp; try ring

/-- The cubic solved for the achieved speed is road load minus available power. -/
theorem cubic_eq (dt v0 maxOut g v : K) :
    cubic (speedCoeffs F V P.toStepParams dt v0 maxOut g).1
      (speedCoeffs F V P.toStepParams dt v0 maxOut g).2.1
      (speedCoeffs F V P.toStepParams dt v0 maxOut g).2.2.1
      (speedCoeffs F V P.toStepParams dt v0 maxOut g).2.2.2 v =
    roadLoadKw F V P.toStepParams dt g v0 v - maxOut := by
  unfold cubic speedCoeffs roadLoadKw aeroKw kineticKw climbKw rollKw wheelKj avgSpeed
  simp only
  by_cases hd : dt = 0
  · rw [hd]; by_cases hr : V.wheelRadiusM = 0
    · rw [hr]; simp; ring
    · simp; ring
  · by_cases hr : V.wheelRadiusM = 0
    · rw [hr]; simp; field_simp; ring
    · field_simp; ring


/-- `f` is a polynomial function with derivative `f'`. -/
def PolyDeriv (f f' : K → K) : Prop :=
  ∃ q : Polynomial K, (∀ x, f x = q.eval x) ∧ ∀ x, f' x = q.derivative.eval x

theorem cubic_polyDeriv (t3 t2 t1 t0 : K) : PolyDeriv (cubic t3 t2 t1 t0) (cubicD t3 t2 t1) := by
  refine ⟨Polynomial.C t3 * Polynomial.X ^ 3 + Polynomial.C t2 * Polynomial.X ^ 2
    + Polynomial.C t1 * Polynomial.X + Polynomial.C t0, fun x => ?_, fun x => ?_⟩
  · simp [cubic]; ring
  · simp [cubicD, Polynomial.derivative_pow]; ring

/-- **C26 (the update is Newton's).** Where the slope does not vanish, one update is the damped
Newton update `x - g·f(x)/f'(x)`. -/
theorem C26_newton_update (f f' : K → K) (g x : K) (h : f' x ≠ 0) :
    newtonNext f f' g x = x - g * (f x / f' x) := by
  unfold newtonNext; field_simp; ring

/-- The available transmission power is spent on the road load of the achieved speed: what the model
computes when the trace is missed. -/
theorem achieved_newton (E : StepEnv K) (v0 maxOut : K) (r : Nat × K) :
    ∃ g, (g = E.gradeEst ∨ ∃ v, g = E.gradeOf v) ∧ ∃ f', PolyDeriv
        (fun v => roadLoadKw F V P.toStepParams E.dt g v0 v - maxOut) f' ∧
      NewtonAnswer (fun v => roadLoadKw F V P.toStepParams E.dt g v0 v - maxOut) f' P.newtonMaxIter
        P.newtonXtol P.newtonGain v0
        (gradeLoop F V P.toStepParams E v0 maxOut 3 E.gradeEst r).1
        (gradeLoop F V P.toStepParams E v0 maxOut 3 E.gradeEst r).2 := by
  obtain ⟨g, hg, he⟩ := gradeLoop_spec F V P.toStepParams E v0 maxOut 3 E.gradeEst r (by omega)
  have hf : (fun v => roadLoadKw F V P.toStepParams E.dt g v0 v - maxOut) =
      cubic (speedCoeffs F V P.toStepParams E.dt v0 maxOut g).1
      (speedCoeffs F V P.toStepParams E.dt v0 maxOut g).2.1
      (speedCoeffs F V P.toStepParams E.dt v0 maxOut g).2.2.1
      (speedCoeffs F V P.toStepParams E.dt v0 maxOut g).2.2.2 :=
    funext fun v => (cubic_eq _ _ _ _ _).symm
  refine ⟨g, hg, cubicD (speedCoeffs F V P.toStepParams E.dt v0 maxOut g).1
      (speedCoeffs F V P.toStepParams E.dt v0 maxOut g).2.1
      (speedCoeffs F V P.toStepParams E.dt v0 maxOut g).2.2.1, ?_, ?_⟩
  · rw [hf]; exact cubic_polyDeriv _ _ _ _
  · rw [hf, he]; exact newtonMps_answer P.toStepParams _ _ _ _ _

/-- **C26 (any run, any mode).** A step that is not reported as met has as achieved speed the answer
of the Newton search for the speed whose road load equals the transmission limit of the step. -/
theorem C26_missed_is_newton (hH : H.Local) {s : Sim K} (h : Reachable F H V P s) {i : Nat}
    {p r : Row K} {dt a : K} (hs : StepAt s i p r dt a) (hmiss : r.pow.cycMet = false) :
    ∃ g f', PolyDeriv (fun v => roadLoadKw F V P.toStepParams dt g p.ach.mpsAch v
          - r.lims.curMaxTransKwOut) f' ∧
      NewtonAnswer (fun v => roadLoadKw F V P.toStepParams dt g p.ach.mpsAch v
          - r.lims.curMaxTransKwOut) f' P.newtonMaxIter P.newtonXtol P.newtonGain p.ach.mpsAch
        r.ach.newtonIters r.ach.mpsAch := by
  obtain ⟨E, st, hE, -, -, rfl⟩ := StepAt.solve hH h hs
  subst hE
  by_cases hc : (setPowerCalcs F V P.toStepParams E p
      (setCompLims F V P.toStepParams E p (setMisc V E p)) st).cycMet = true
  · have : (solveStep F V P.toStepParams E p st).pow.cycMet = true := by
      simp only [solveStep, setAchSpeed, if_pos hc]; exact hc
    rw [this] at hmiss; simp at hmiss
  · obtain ⟨g, -, f', h1, h2⟩ := achieved_newton (F := F) (V := V) (P := P) E p.ach.mpsAch
      (setCompLims F V P.toStepParams E p (setMisc V E p)).curMaxTransKwOut
      (st.newtonIters, st.mpsAch)
    refine ⟨g, f', h1, ?_⟩
    have e1 : (solveStep F V P.toStepParams E p st).ach.newtonIters = (gradeLoop F V P.toStepParams E
        p.ach.mpsAch (setCompLims F V P.toStepParams E p (setMisc V E p)).curMaxTransKwOut 3
        E.gradeEst (st.newtonIters, st.mpsAch)).1 := by
      simp only [solveStep, setAchSpeed, if_neg hc]
    have e2 : (solveStep F V P.toStepParams E p st).ach.mpsAch = (gradeLoop F V P.toStepParams E
        p.ach.mpsAch (setCompLims F V P.toStepParams E p (setMisc V E p)).curMaxTransKwOut 3
        E.gradeEst (st.newtonIters, st.mpsAch)).2 := by
      simp only [solveStep, setAchSpeed, if_neg hc]
    rw [e1, e2]
    exact h2

/-- What a Newton answer guarantees by itself: a non-negative speed, at most `maxIter` iterations,
and an exact zero if one of the iterates is an exact zero. -/
theorem C26_answer (f f' : K → K) (m : Nat) (xtol g v0 : K) (n : Nat) (v : K)
    (h : NewtonAnswer f f' m xtol g v0 n v) :
    0 ≤ v ∧ 1 ≤ n ∧ n ≤ max 1 m ∧
    (∀ k, k < n → f ((newtonNext f f' g)^[k] (max 1 v0)) = 0 →
      ∃ x, f x = 0 ∧ v = max x 0) := by
  obtain ⟨j, rfl, h2, -, -, k, hk, rfl, h4⟩ := h
  refine ⟨le_max_right _ _, by omega, by omega, fun l hl hz => ⟨_, ?_, rfl⟩⟩
  have := h4 l (by omega)
  rw [hz] at this
  unfold pabs at this
  rw [if_neg (lt_irrefl _)] at this
  split at this <;> linarith

/-- The demand a step puts on the transmission output is road load, or minus the regenerative power
if braking. -/
theorem outReq_eq (E : StepEnv K) (p : Row K) (L : Lims K) (v : K) :
    (powerAt F V P.toStepParams E p L v).cycTransKwOutReq =
      max (roadLoadKw F V P.toStepParams E.dt (E.gradeOf v) p.ach.mpsAch v)
        (-(powerAt F V P.toStepParams E p L v).cycRegenBrakeKw) := by
  rw [← whlReq_eq (L := L)]
  show (powerAt F V P.toStepParams E p L v).cycWhlKwReq
    + -(min ((powerAt F V P.toStepParams E p L v).cycRegenBrakeKw
      + (powerAt F V P.toStepParams E p L v).cycWhlKwReq) 0) = _
  generalize (powerAt F V P.toStepParams E p L v).cycWhlKwReq = w
  generalize (powerAt F V P.toStepParams E p L v).cycRegenBrakeKw = b
  rcases le_total (b + w) 0 with h | h
  · rw [min_eq_left h, max_eq_right (by linarith)]; ring
  · rw [min_eq_right h, max_eq_left (by linarith)]; ring

/-- The grade loop stops after one pass on a road of constant grade. -/
theorem gradeLoop_const (E : StepEnv K) (v0 maxOut g : K) (r : Nat × K) (hg : ∀ v, E.gradeOf v = g) :
    gradeLoop F V P.toStepParams E v0 maxOut 3 g r =
      newtonMps P.toStepParams v0 (speedCoeffs F V P.toStepParams E.dt v0 maxOut g).1
        (speedCoeffs F V P.toStepParams E.dt v0 maxOut g).2.1
        (speedCoeffs F V P.toStepParams E.dt v0 maxOut g).2.2.1
        (speedCoeffs F V P.toStepParams E.dt v0 maxOut g).2.2.2 := by
  unfold gradeLoop
  simp only [hg, sub_self]
  rw [if_neg]
  unfold pabs
  simp

/-- **C25 (plain runs).** Without trace-miss correction, car following and coasting, for a
non-negative transmission limit: if the road load of the cycle speed (at the recorded grade) is within
the limit, the step is met and the achieved speed is exactly the cycle speed, without iterating; if it
is not, the achieved speed is the Newton answer for that grade. -/
theorem C25_speed_exact (hc : P.coastAllow = false) (hd : P.idmAllow = false)
    (hm : P.missedTrace = false) {s : Sim K} (h : Reachable F H V P s) {i : Nat} {p r : Row K}
    {dt a : K} (hs : StepAt s i p r dt a) (hlim : 0 ≤ r.lims.curMaxTransKwOut) :
    (roadLoadKw F V P.toStepParams dt (recordedGrade s i) p.ach.mpsAch (s.cyc.speeds.getD i 0)
        ≤ r.lims.curMaxTransKwOut →
      r.pow.cycMet = true ∧ r.ach.mpsAch = s.cyc.speeds.getD i 0 ∧ r.ach.newtonIters = 0) ∧
    (r.lims.curMaxTransKwOut <
        roadLoadKw F V P.toStepParams dt (recordedGrade s i) p.ach.mpsAch (s.cyc.speeds.getD i 0) →
      ∃ f', PolyDeriv (fun v => roadLoadKw F V P.toStepParams dt (recordedGrade s i) p.ach.mpsAch v
          - r.lims.curMaxTransKwOut) f' ∧
        NewtonAnswer (fun v => roadLoadKw F V P.toStepParams dt (recordedGrade s i) p.ach.mpsAch v
          - r.lims.curMaxTransKwOut) f' P.newtonMaxIter P.newtonXtol P.newtonGain p.ach.mpsAch
          r.ach.newtonIters r.ach.mpsAch) := by
  obtain ⟨-, hR⟩ := Reachable.recInv hc hd h
  obtain ⟨st, hst, hrow⟩ := hR.solved i hs.pos hs.lt
  obtain rfl := hst hm
  rw [hs.row, List.getD_eq_getElem?_getD (i := i - 1), hs.prev] at hrow
  obtain rfl := Option.some.inj hrow
  obtain rfl := hs.dt
  simp only [Option.getD_some] at hlim ⊢
  set E := recordedEnv s i with hE
  have hmet : (setPowerCalcs F V P.toStepParams E p
      (setCompLims F V P.toStepParams E p (setMisc V E p)) Stale.fresh).cycMet =
      decide (roadLoadKw F V P.toStepParams (dtAt s.cyc i) (recordedGrade s i) p.ach.mpsAch
        (s.cyc.speeds.getD i 0) ≤ curMaxTransKwOut F V P.toStepParams E p (setMisc V E p)) := by
    show decide ((powerAt F V P.toStepParams E p
      (setCompLims F V P.toStepParams E p (setMisc V E p)) E.mps).cycTransKwOutReq ≤
        curMaxTransKwOut F V P.toStepParams E p (setMisc V E p)) = _
    rw [outReq_eq]
    have hreg : -(powerAt F V P.toStepParams E p
        (setCompLims F V P.toStepParams E p (setMisc V E p)) E.mps).cycRegenBrakeKw ≤
        curMaxTransKwOut F V P.toStepParams E p (setMisc V E p) := by
      have : 0 ≤ (powerAt F V P.toStepParams E p
        (setCompLims F V P.toStepParams E p (setMisc V E p)) E.mps).cycRegenBrakeKw := le_max_right _ _
      have h2 : 0 ≤ curMaxTransKwOut F V P.toStepParams E p (setMisc V E p) := hlim
      linarith
    simp only [max_le_iff, hreg, and_true]
    rfl
  constructor
  · intro hle
    have hmet' := hmet.trans (decide_eq_true hle)
    refine ⟨?_, ?_, ?_⟩
    · simp only [solveStep, setAchSpeed, if_pos hmet']; exact hmet'
    · simp only [solveStep, setAchSpeed, if_pos hmet']; rfl
    · simp only [solveStep, setAchSpeed, if_pos hmet']; rfl
  · intro hgt
    have hmet' : ¬ (setPowerCalcs F V P.toStepParams E p
      (setCompLims F V P.toStepParams E p (setMisc V E p)) Stale.fresh).cycMet = true := by
      rw [hmet]; simp only [decide_eq_true_eq]; exact not_le.2 hgt
    have e1 : (solveStep F V P.toStepParams E p Stale.fresh).ach.newtonIters =
        (gradeLoop F V P.toStepParams E p.ach.mpsAch
        (setCompLims F V P.toStepParams E p (setMisc V E p)).curMaxTransKwOut 3
        (recordedGrade s i) (0, 0)).1 := by
      simp only [solveStep, setAchSpeed, if_neg hmet']; rfl
    have e2 : (solveStep F V P.toStepParams E p Stale.fresh).ach.mpsAch =
        (gradeLoop F V P.toStepParams E p.ach.mpsAch
        (setCompLims F V P.toStepParams E p (setMisc V E p)).curMaxTransKwOut 3
        (recordedGrade s i) (0, 0)).2 := by
      simp only [solveStep, setAchSpeed, if_neg hmet']; rfl
    rw [gradeLoop_const E _ _ (recordedGrade s i) _ (fun _ => rfl)] at e1 e2
    have hf : (fun v => roadLoadKw F V P.toStepParams (dtAt s.cyc i) (recordedGrade s i) p.ach.mpsAch v
        - (solveStep F V P.toStepParams E p Stale.fresh).lims.curMaxTransKwOut) = cubic _ _ _ _ :=
      funext fun v => (cubic_eq _ _ _ _ _).symm
    rw [e1, e2, hf]
    exact ⟨_, cubic_polyDeriv _ _ _ _, newtonMps_answer P.toStepParams _ _ _ _ _⟩

/-- **C25 (any mode).** Achieved speed is never negative: the original cycle does not go backwards,
car following and coasting (if switched on) never command it, and without them neither does the cycle
being simulated. Holds for any rounding of the arithmetic. -/
theorem C25_speed_nonneg {K : Type*} [Zero K] [One K] [NatCast K] [Add K] [Sub K] [Mul K] [Div K]
    [Neg K] [LinearOrder K] {F : Fns K} {H : Hooks K} {V : Veh K} {P : SimParams K} (hH : H.Local)
    (hI : P.idmAllow = true → HookForward H.idm) (hC : P.coastAllow = true → HookForward H.coast)
    {s : Sim K} (h : Reachable F H V P s) (h0 : SpeedsNonneg s.cyc0)
    (h1 : P.idmAllow = false → P.coastAllow = false → SpeedsNonneg s.cyc) :
    ∀ r ∈ s.rows, 0 ≤ r.ach.mpsAch := by
  have conv : ∀ c : Cyc K, SpeedsNonneg c → ∀ v ∈ Cyc.speeds c, 0 ≤ v := by
    intro c hc v hv
    obtain ⟨x, hx, rfl⟩ := List.mem_map.1 hv
    exact hc x hx
  exact (Reachable.forward hI hC h (conv _ h0) (fun a b => conv _ (h1 a b)) (fun _ => hH)).rows

/-- **C25 (distance).** Every recorded distance is achieved speed times step duration, and travelled
distance never decreases along the run (time never runs backwards). -/
theorem C25_distance (hH : H.Local) (hI : P.idmAllow = true → HookForward H.idm)
    (hC : P.coastAllow = true → HookForward H.coast) {s : Sim K} (h : Reachable F H V P s)
    (h0 : SpeedsNonneg s.cyc0)
    (h1 : P.idmAllow = false → P.coastAllow = false → SpeedsNonneg s.cyc) (hdt : DtNonneg s) :
    (∀ i p r dt a, StepAt s i p r dt a → r.ach.distM = r.ach.mpsAch * dt ∧
      r.ach.distMi = r.ach.distM / 1609 ∧ r.ach.mphAch = r.ach.mpsAch * (22369 / 10000)) ∧
    (∀ i j, i ≤ j → j ≤ s.i →
      0 ≤ ((s.rows.take i).map fun r => r.ach.distM).sum ∧
      ((s.rows.take i).map fun r => r.ach.distM).sum ≤
        ((s.rows.take j).map fun r => r.ach.distM).sum) := by
  have hsp := C25_speed_nonneg hH hI hC h h0 h1
  have hstep : ∀ i p r dt a, StepAt s i p r dt a → r.ach.distM = r.ach.mpsAch * dt ∧
      r.ach.distMi = r.ach.distM / 1609 ∧ r.ach.mphAch = r.ach.mpsAch * (22369 / 10000) := by
    intro i p r dt a hs
    obtain ⟨E, st, hE, -, -, rfl⟩ := StepAt.solve hH h hs
    subst hE
    refine ⟨rfl, ?_, rfl⟩
    show (solveStep F V P.toStepParams E p st).ach.mpsAch * E.dt * (1 / mPerMi) =
      (solveStep F V P.toStepParams E p st).ach.mpsAch * E.dt / 1609
    unfold mPerMi; ring
  refine ⟨hstep, ?_⟩
  have hrow : ∀ i r, i < s.i → s.rows[i]? = some r → 0 ≤ r.ach.distM := by
    intro i r hi hr
    rcases Nat.eq_zero_or_pos i with rfl | hp
    · obtain ⟨soc, -, he⟩ := Reachable.row0 hH h
      rw [List.getD_eq_getElem?_getD, hr] at he
      simp only [Option.getD_some] at he
      rw [he]; exact le_rfl
    · obtain ⟨p, r', dt, a, hs⟩ := stepAt_exists hH h (i := i) hp hi
      have : r' = r := by
        have := hs.row; rw [hr] at this; exact (Option.some.inj this).symm
      subst this
      rw [(hstep _ _ _ _ _ hs).1, hs.dt]
      exact mul_nonneg (hsp _ (List.mem_of_getElem? hr)) (hdt i hp hi)
  have hnn : ∀ i, i ≤ s.i → ∀ x ∈ (s.rows.take i).map (fun r => r.ach.distM), 0 ≤ x := by
    intro i hi x hx
    obtain ⟨r, hr, rfl⟩ := List.mem_map.1 hx
    obtain ⟨k, hk⟩ := List.getElem?_of_mem hr
    rw [List.getElem?_take] at hk
    split at hk
    · exact hrow k r (by omega) hk
    · simp at hk
  intro i j hij hj
  refine ⟨List.sum_nonneg (hnn i (by omega)), ?_⟩
  have : s.rows.take j = s.rows.take i ++ (s.rows.take j).drop i := by
    conv_lhs => rw [← List.take_append_drop i (s.rows.take j), List.take_take, min_eq_left hij]
  rw [this, List.map_append, List.sum_append]
  have : 0 ≤ (((s.rows.take j).drop i).map fun r => r.ach.distM).sum := by
    refine List.sum_nonneg fun x hx => hnn j hj x ?_
    obtain ⟨r, hr, rfl⟩ := List.mem_map.1 hx
    exact List.mem_map.2 ⟨r, List.mem_of_mem_drop hr, rfl⟩
  linarith

/-- **C17 (fuel economy).** The reported fuel economy is non-negative, is zero only if no fuel was
burnt or nothing was travelled, and is miles per gallon-equivalent of the fuel used. -/
theorem C17_mpgge (hH : H.Local) (hI : P.idmAllow = true → HookForward H.idm)
    (hC : P.coastAllow = true → HookForward H.coast) (hV : EngineOk V) (hE : EffOk V) {s : Sim K}
    (h : Finished F H V P s) (h0 : SpeedsNonneg s.cyc0)
    (h1 : P.idmAllow = false → P.coastAllow = false → SpeedsNonneg s.cyc) (hdt : DtNonneg s)
    (kwhPerGge : K) (hk : 0 < kwhPerGge) :
    0 ≤ mpgge kwhPerGge s ∧ (totalFuelKwh s ≠ 0 →
      mpgge kwhPerGge s * (totalFuelKwh s / kwhPerGge) = totalMiles s) := by
  have hf := (C17_totals hH hV hE h hdt).2.2.1
  have hm : 0 ≤ totalMiles s := by
    obtain ⟨a, b⟩ := C25_distance hH hI hC h.reachable h0 h1 hdt
    have hlen := h.lenRows hH
    have htot := (b s.i s.i le_rfl le_rfl).1
    have : totalMiles s = ((s.rows.take s.i).map fun r => r.ach.distM).sum / 1609 := by
      unfold totalMiles
      rw [npSum_eq, h.atEnd, ← hlen, List.take_length]
      have hall : ∀ r ∈ s.rows, r.ach.distMi = r.ach.distM / 1609 := by
        intro r hr
        obtain ⟨k, hk⟩ := List.getElem?_of_mem hr
        have hlt : k < s.i := by
          rw [h.atEnd, ← hlen]; exact (List.getElem?_eq_some_iff.1 hk).1
        rcases Nat.eq_zero_or_pos k with rfl | hp
        · obtain ⟨soc, -, he⟩ := Reachable.row0 hH h.reachable
          rw [List.getD_eq_getElem?_getD, hk] at he
          simp only [Option.getD_some] at he
          rw [he]; simp [Row.init, Row.zero]
        · obtain ⟨p, r', dt, a', hs⟩ := stepAt_exists hH h.reachable (i := k) hp hlt
          have : r' = r := by
            have := hs.row; rw [hk] at this; exact (Option.some.inj this).symm
          subst this
          exact (a _ _ _ _ _ hs).2.1
      generalize s.rows = l at hall
      induction l with
      | nil => simp
      | cons x l ih =>
        rw [List.map_cons, List.sum_cons, List.map_cons, List.sum_cons, add_div,
          ih (fun r hr => hall r (List.mem_cons_of_mem _ hr)), hall x (by simp)]
    rw [this]; exact div_nonneg htot (by norm_num)
  unfold mpgge
  constructor
  · split
    · exact le_rfl
    · exact div_nonneg hm (div_nonneg hf hk.le)
  · intro hne
    rw [if_neg hne]
    exact div_mul_cancel₀ _ (div_ne_zero hne hk.ne')

end Field

/-! ### Non-vacuity -/
open Demo

theorem noHooks_forward : HookForward noHooks.idm ∧ HookForward noHooks.coast :=
  ⟨fun s s' hf h => by cases h; exact hf, fun s s' hf h => by cases h; exact hf⟩

/-- A cycle the conventional demo car cannot follow in its last step. -/
def sprint : Cyc ℚ := [⟨0, 0, 0, 0⟩, ⟨1, 2, 0, 0⟩, ⟨2, 30, 0, 0⟩]

/-- The demo car meets the first step exactly and misses the second; both transmission limits are
non-negative, the second is exceeded by the road load of the cycle speed. -/
theorem C25_demo : ∃ s, simDrive fns noHooks conv params (Sim.new sprint) none none = .ok s ∧
    Finished fns noHooks conv params s ∧ SpeedsNonneg s.cyc0 ∧ SpeedsNonneg s.cyc ∧
    (∀ r ∈ s.rows, 0 ≤ r.lims.curMaxTransKwOut) ∧
    (s.rows.map fun r => r.pow.cycMet) = [true, true, false] ∧
    (s.rows.map fun r => r.ach.newtonIters) = [0, 0, 3] ∧
    (s.rows.getD 1 Row.zero).ach.mpsAch = 2 ∧ 5 < (s.rows.getD 2 Row.zero).ach.mpsAch ∧
    (s.rows.getD 2 Row.zero).ach.mpsAch < 30 := by
  have hall : (match simDrive fns noHooks conv params (Sim.new sprint) none none with
      | .ok s => decide ((∀ x ∈ s.cyc0, 0 ≤ x.v) ∧ (∀ x ∈ s.cyc, 0 ≤ x.v) ∧
        (∀ r ∈ s.rows, 0 ≤ r.lims.curMaxTransKwOut) ∧
        (s.rows.map fun r => r.pow.cycMet) = [true, true, false] ∧
        (s.rows.map fun r => r.ach.newtonIters) = [0, 0, 3] ∧
        (s.rows.getD 1 Row.zero).ach.mpsAch = 2 ∧ 5 < (s.rows.getD 2 Row.zero).ach.mpsAch ∧
        (s.rows.getD 2 Row.zero).ach.mpsAch < 30)
      | .error _ => false) = true := by decide +kernel
  split at hall
  · rename_i s hs
    obtain ⟨a, b, c⟩ := of_decide_eq_true hall
    exact ⟨s, hs, Finished.simDrive noHooks_local rfl hs, a, b, c⟩
  · simp at hall

end Fastsim.Props
