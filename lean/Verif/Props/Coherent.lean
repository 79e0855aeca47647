import Verif.Props.Real
import Verif.Props.Dilation
import Verif.Props.Speed

/-!
# C49: recorded powers belong to the achieved speed
-/

set_option linter.unusedSectionVars false

namespace Fastsim.Spec

variable {K : Type*} [Field K]

/-- The powers recorded for a step are those needed to go from speed `v0` to speed `v` in `dt` seconds
on grade `g`. -/
structure PowersOf (F : Fns K) (V : Veh K) (P : StepParams K) (dt g v0 v : K) (r : Row K) : Prop where
  drag : r.pow.dragKw = aeroKw V P v0 v
  accel : r.pow.accelKw = kineticKw V dt v0 v
  ascent : r.pow.ascentKw = climbKw F V P g v0 v
  roll : r.pow.rrKw = rollKw F V P g v0 v
  wheels : r.pow.cycTireInertiaKw = (wheelKj V v - wheelKj V v0) / dt
  whole : r.pow.cycWhlKwReq = roadLoadKw F V P dt g v0 v

/-- Kinetic energy of the vehicle, kJ. -/
def vehicleKj (V : Veh K) (v : K) : K := V.vehKg * v ^ 2 / 2 / 1000

end Fastsim.Spec

namespace Fastsim.Props
open Fastsim Spec

section Field
variable {K : Type*} [Field K] [LinearOrder K] [IsStrictOrderedRing K]
variable {F : Fns K} {H : Hooks K} {V : Veh K} {P : SimParams K}

theorem powerAt_powersOf (E : StepEnv K) (p r : Row K) (L : Lims K) (v : K)
    (h : r.pow = powerAt F V P.toStepParams E p L v) :
    PowersOf F V P.toStepParams E.dt (E.gradeOf v) p.ach.mpsAch v r := by
  refine ⟨?_, ?_, ?_, ?_, ?_, ?_⟩
  · rw [h]
    show dragKw V P.toStepParams p.ach.mpsAch v = _
    unfold dragKw aeroKw avgSpeed; ring
  · rw [h]
    show accelKw V E.dt p.ach.mpsAch v = _
    unfold accelKw kineticKw
    by_cases hd : E.dt = 0
    · rw [hd]; simp
    · field_simp
  · rw [h]
    show ascentKw F V P.toStepParams (E.gradeOf v) p.ach.mpsAch v = _
    unfold ascentKw climbKw avgSpeed; ring
  · rw [h]
    show rrKw F V P.toStepParams (E.gradeOf v) p.ach.mpsAch v = _
    unfold rrKw rollKw avgSpeed; ring
  · rw [h]
    show tireInertiaKw V E.dt p.ach.mpsAch v = _
    unfold tireInertiaKw wheelKj; ring
  · rw [h]; exact whlReq_eq E p L v

/-- **C49 (any driving mode without missed-trace correction).** The powers recorded for a step are those
of the achieved speed. -/
theorem C49_coherent (hH : H.Local) (hK : H.KeepRows) (hm : P.missedTrace = false) {s : Sim K}
    (h : Reachable F H V P s) {i : Nat} {p r : Row K} {dt a : K} (hs : StepAt s i p r dt a) :
    ∃ g, PowersOf F V P.toStepParams dt g p.ach.mpsAch r.ach.mpsAch r := by
  obtain ⟨E, st, h0, h1, -, -, h4⟩ := (Reachable.once hH hK hm h).2 i hs.pos hs.lt
  rw [hs.row, List.getD_eq_getElem?_getD (i := i - 1), hs.prev] at h4
  obtain rfl := Option.some.inj h4
  have e := powerAt_powersOf (P := P) E p (solveStep F V P.toStepParams E p st) _ _
    (solveStep_pow_fresh (F := F) (V := V) P.toStepParams E p st h0)
  rw [h1, ← hs.dt] at e
  exact ⟨_, e⟩

/-- **C49 (any run).** With missed-trace correction as well, the powers recorded for a step are those of
some speed; it is the achieved speed unless the step is reported as met although its speed was iterated
in an earlier attempt. -/
theorem C49_correction (hH : H.Local) {s : Sim K} (h : Reachable F H V P s) {i : Nat} {p r : Row K}
    {dt a : K} (hs : StepAt s i p r dt a) :
    ∃ v g, PowersOf F V P.toStepParams dt g p.ach.mpsAch v r ∧
      (v = r.ach.mpsAch ∨ (r.pow.cycMet = true ∧ 0 < r.ach.newtonIters)) := by
  obtain ⟨E, st, rfl, -, -, rfl⟩ := StepAt.solve hH h hs
  by_cases hc : (setPowerCalcs F V P.toStepParams E p
      (setCompLims F V P.toStepParams E p (setMisc V E p)) st).cycMet = true
  · have hp : (solveStep F V P.toStepParams E p st).pow = powerAt F V P.toStepParams E p
        (setCompLims F V P.toStepParams E p (setMisc V E p))
        (if 0 < st.newtonIters then st.mpsAch else E.mps) := by
      simp only [solveStep, setAchSpeed, if_pos hc]; rfl
    refine ⟨_, _, powerAt_powersOf E p _ _ _ hp, ?_⟩
    by_cases h0 : 0 < st.newtonIters
    · right
      constructor
      · simp only [solveStep, setAchSpeed, if_pos hc]; exact hc
      · have : (solveStep F V P.toStepParams E p st).ach.newtonIters = st.newtonIters := by
          simp only [solveStep, setAchSpeed, if_pos hc]
        rw [this]; exact h0
    · left
      simp only [solveStep, setAchSpeed, if_pos hc, if_neg h0]
  · have hp : (solveStep F V P.toStepParams E p st).pow = powerAt F V P.toStepParams E p
        (setCompLims F V P.toStepParams E p (setMisc V E p))
        (solveStep F V P.toStepParams E p st).ach.mpsAch := by
      simp only [solveStep, setAchSpeed, if_neg hc]
    exact ⟨_, _, powerAt_powersOf E p _ _ _ hp, Or.inl rfl⟩

/-- **C49 (energy at the wheels).** In a run without missed-trace correction whose steps all get the
transmission output they ask for, what the transmission delivers is exactly what goes into kinetic energy
of vehicle and wheels, drag, climbing, rolling and friction brakes. -/
theorem C49_energy (hH : H.Local) (hK : H.KeepRows) (hm : P.missedTrace = false) {s : Sim K}
    (h : Finished F H V P s) (hdt : DtPos s)
    (hmet : ∀ i, 1 ≤ i → i < s.cyc.length → (s.row i).pow.transKwOutAch = (s.row i).pow.cycTransKwOutReq) :
    overSteps s (fun i => (s.row i).pow.transKwOutAch * dtAt s.cyc i) =
      (vehicleKj V s.lastRow.ach.mpsAch + wheelKj V s.lastRow.ach.mpsAch)
      - (vehicleKj V s.firstRow.ach.mpsAch + wheelKj V s.firstRow.ach.mpsAch)
      + overSteps s (fun i => ((s.row i).pow.dragKw + (s.row i).pow.ascentKw + (s.row i).pow.rrKw
        + (s.row i).pow.cycFricBrakeKw) * dtAt s.cyc i) := by
  have hpos := h.pos hH
  have hreq : ∀ i, 1 ≤ i → i < s.cyc.length →
      (s.row i).pow.cycTransKwOutReq = (s.row i).pow.dragKw + (s.row i).pow.accelKw
        + (s.row i).pow.ascentKw + (s.row i).pow.rrKw + (s.row i).pow.cycTireInertiaKw
        + (s.row i).pow.cycFricBrakeKw := by
    intro i h1 h2
    obtain ⟨E, st, -, -, -, hr⟩ := Reachable.rowS hH h.reachable i h1 (by rw [h.atEnd]; omega)
    obtain ⟨v, hv⟩ := solveStep_pow F V P.toStepParams E (s.rows.getD (i - 1) Row.zero) st
    rw [Sim.row, hr, hv]
    rfl
  have key : ∀ i, 1 ≤ i → i < s.cyc.length → (s.row i).pow.transKwOutAch * dtAt s.cyc i =
      ((vehicleKj V (s.row i).ach.mpsAch + wheelKj V (s.row i).ach.mpsAch)
        - (vehicleKj V (s.row (i - 1)).ach.mpsAch + wheelKj V (s.row (i - 1)).ach.mpsAch))
      + ((s.row i).pow.dragKw + (s.row i).pow.ascentKw + (s.row i).pow.rrKw
        + (s.row i).pow.cycFricBrakeKw) * dtAt s.cyc i := by
    intro i h1 h2
    obtain ⟨p, r, dt, a, hs⟩ := stepAt_exists hH h.reachable (i := i) h1 (by rw [h.atEnd]; omega)
    obtain ⟨g, hg⟩ := C49_coherent hH hK hm h.reachable hs
    have er : s.row i = r := by rw [Sim.row, List.getD_eq_getElem?_getD, hs.row]; rfl
    have ep : s.row (i - 1) = p := by rw [Sim.row, List.getD_eq_getElem?_getD, hs.prev]; rfl
    rw [hmet i h1 h2, hreq i h1 h2, er, ep, ← hs.dt, hg.accel, hg.wheels]
    have hd : dt ≠ 0 := by rw [hs.dt]; exact ne_of_gt (hdt i h1 (by rw [h.atEnd]; omega))
    unfold kineticKw vehicleKj
    field_simp
    ring
  have hsum : overSteps s (fun i => (s.row i).pow.transKwOutAch * dtAt s.cyc i) =
      overSteps s (fun i => (vehicleKj V (s.row i).ach.mpsAch + wheelKj V (s.row i).ach.mpsAch)
        - (vehicleKj V (s.row (i - 1)).ach.mpsAch + wheelKj V (s.row (i - 1)).ach.mpsAch))
      + overSteps s (fun i => ((s.row i).pow.dragKw + (s.row i).pow.ascentKw + (s.row i).pow.rrKw
        + (s.row i).pow.cycFricBrakeKw) * dtAt s.cyc i) := by
    unfold overSteps
    rw [← Finset.sum_add_distrib]
    exact Finset.sum_congr rfl fun i hi => key i (Finset.mem_Ico.1 hi).1 (Finset.mem_Ico.1 hi).2
  rw [hsum, overSteps_telescope s (fun i => vehicleKj V (s.row i).ach.mpsAch
    + wheelKj V (s.row i).ach.mpsAch) hpos, Finished.last hH h]
  rfl

end Field

section Real
variable {K : Type*} [Field K] [LinearOrder K] [IsStrictOrderedRing K] [FloorRing K]
variable {F : Fns K} {V : Veh K} {P : SimParams K}

/-- **C49 (the code's driving modes).** Same, for car following and coasting as the code does them. -/
theorem C49_real (hm : P.missedTrace = false) {s : Sim K} (h : Reachable F (realHooks F V P) V P s)
    {i : Nat} {p r : Row K} {dt a : K} (hs : StepAt s i p r dt a) :
    ∃ g, PowersOf F V P.toStepParams dt g p.ach.mpsAch r.ach.mpsAch r :=
  C49_coherent realHooks_local realHooks_keepRows hm h hs

end Real

/-! ### Concrete cases -/
open Demo

/-- A trace that jumps from 4 to 20 m/s in its second step. -/
def jump : Cyc ℚ := [⟨0, 0, 0, 0⟩, ⟨1, 4, 0, 0⟩, ⟨2, 20, 0, 0⟩, ⟨3, 20, 0, 0⟩]

/-- A run without correction in which every step gets the output it asks for. -/
theorem C49_demo : ∃ s, run conv (1 / 2) = .ok s ∧ Finished fns noHooks conv params s ∧ DtPos s ∧
    (∀ i, 1 ≤ i → i < s.cyc.length → (s.row i).pow.transKwOutAch = (s.row i).pow.cycTransKwOutReq) := by
  have hall : (match run conv (1 / 2) with
      | .ok s => decide ((∀ i ∈ List.range s.i, 1 ≤ i → 0 < dtAt s.cyc i) ∧
          (∀ i ∈ List.range s.cyc.length, 1 ≤ i →
            (s.row i).pow.transKwOutAch = (s.row i).pow.cycTransKwOutReq))
      | .error _ => false) = true := by decide +kernel
  split at hall
  · rename_i s hs
    obtain ⟨a, b⟩ := of_decide_eq_true hall
    exact ⟨s, hs, Finished.simDrive noHooks_local rfl hs,
      fun i h1 h2 => a i (List.mem_range.2 h2) h1, fun i h1 h2 => b i (List.mem_range.2 h2) h1⟩
  · simp at hall

/-- **C49 (refuted with missed-trace correction).** With the library's default correction parameters: the
demo car, asked to jump from 4 to 20 m/s, cannot follow. The correction doubles the step and
solves it again; the speed of the first attempt, not the trace speed, is then checked against the power
limit, the step counts as met and the vehicle is given the trace speed. It ends at 20 m/s, 300 kJ of
kinetic energy on a level road, from less than 60 kJ delivered by the transmission in the whole run; the
recorded acceleration power of the step is that of a speed below 9 m/s. -/
theorem C49_free_energy : ∃ s, simDrive fns noHooks conv dilParams (Sim.new jump) none none = .ok s ∧
    Finished fns noHooks conv dilParams s ∧
    (∀ x ∈ s.cyc0, x.g = 0) ∧
    (s.rows.map fun r => r.pow.cycMet) = [true, true, true, true] ∧
    (s.rows.map fun r => r.ach.mpsAch) = [0, 4, 20, 20] ∧
    vehicleKj conv s.lastRow.ach.mpsAch = 300 ∧
    sumDt s (fun r => r.pow.transKwOutAch) < 60 ∧
    (s.row 2).pow.accelKw < kineticKw conv (dtAt s.cyc 2) 4 9 ∧
    ¬ (s.row 2).pow.accelKw = kineticKw conv (dtAt s.cyc 2) 4 (s.row 2).ach.mpsAch := by
  have hall : (match simDrive fns noHooks conv dilParams (Sim.new jump) none none with
      | .ok s => decide ((∀ x ∈ s.cyc0, x.g = 0) ∧
        (s.rows.map fun r => r.pow.cycMet) = [true, true, true, true] ∧
        (s.rows.map fun r => r.ach.mpsAch) = [0, 4, 20, 20] ∧
        vehicleKj conv s.lastRow.ach.mpsAch = 300 ∧
        sumDt s (fun r => r.pow.transKwOutAch) < 60 ∧
        (s.row 2).pow.accelKw < kineticKw conv (dtAt s.cyc 2) 4 9 ∧
        ¬ (s.row 2).pow.accelKw = kineticKw conv (dtAt s.cyc 2) 4 (s.row 2).ach.mpsAch)
      | .error _ => false) = true := by decide +kernel
  split at hall
  · rename_i s hs
    exact ⟨s, hs, Finished.simDrive noHooks_local rfl hs, of_decide_eq_true hall⟩
  · simp at hall

end Fastsim.Props
