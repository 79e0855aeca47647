import Verif.Props.Hybrid
import Verif.Props.Audit

/-!
# C90: nobody drives on less energy than the road takes
-/

set_option linter.unusedSectionVars false

namespace Fastsim.Spec
section
variable {K : Type*} [Field K]

/-- Energy, in kJ, that a finished run took at the wheels: air drag, climbing, rolling resistance, and what the
vehicle and its wheels gained in kinetic energy from the first sample to the last. -/
def motionKj (V : Veh K) (s : Sim K) : K :=
  dragKj s + ascentKj s + rrKj s
    + V.vehKg * (s.lastRow.ach.mpsAch ^ 2 - s.firstRow.ach.mpsAch ^ 2) / 2 / 1000
    + (wheelKj V s.lastRow.ach.mpsAch - wheelKj V s.firstRow.ach.mpsAch)

end
end Fastsim.Spec

namespace Fastsim.Props
open Fastsim Spec

section Field
variable {K : Type*} [Field K] [LinearOrder K] [IsStrictOrderedRing K]
variable {F : Fns K} {H : Hooks K} {V : Veh K} {P : SimParams K}

theorem sumDt_sub (s : Sim K) (f g : Row K → K) (h : s.rows.length = s.cyc.length) :
    sumDt s (fun r => f r - g r) = sumDt s f - sumDt s g := by
  rw [sumDt_eq _ _ h, sumDt_eq _ _ h, sumDt_eq _ _ h, ← Finset.sum_sub_distrib]
  exact Finset.sum_congr rfl fun i _ => sub_mul _ _ _

theorem sumDt_mul (s : Sim K) (f : Row K → K) (c : K) (h : s.rows.length = s.cyc.length) :
    sumDt s (fun r => c * f r) = c * sumDt s f := by
  rw [sumDt_eq _ _ h, sumDt_eq _ _ h, Finset.mul_sum]
  exact Finset.sum_congr rfl fun i _ => mul_assoc _ _ _

theorem keKj_eq (V : Veh K) (s : Sim K) :
    keKj V s = -(V.vehKg * (s.lastRow.ach.mpsAch ^ 2 - s.firstRow.ach.mpsAch ^ 2) / 2 / 1000) := by
  unfold keKj; ring

theorem DtPos.nonneg {s : Sim K} (h : DtPos s) : DtNonneg s := fun i a b => (h i a b).le

theorem friction_nonneg (hH : H.Local) {s : Sim K} (h : Finished F H V P s) (hdt : DtNonneg s) : 0 ≤ brakeKj s := by
  refine Finished.sumDt_nonneg hH h _ (fun _ _ _ => rfl) fun i p r dt a hs => mul_nonneg ?_ ?_
  · obtain ⟨E, st, -, -, -, rfl⟩ := StepAt.solve hH h.reachable hs
    obtain ⟨v, hv⟩ := solveStep_pow F V P.toStepParams E p st
    rw [hv]
    show 0 ≤ fricBrakeKw _ _
    exact neg_nonneg.2 (min_le_right _ _)
  · rw [hs.dt]; exact hdt i hs.pos hs.lt

theorem trans_loss_nonneg (hH : H.Local) (h0 : 0 < V.transEff) (h1 : V.transEff ≤ 1) {s : Sim K}
    (h : Finished F H V P s) (hdt : DtNonneg s) : 0 ≤ transKj s := by
  refine Finished.sumDt_nonneg hH h _ (fun _ _ _ => sub_self _) fun i p r dt a hs => mul_nonneg ?_ ?_
  · have := (C19_transmission_loss hH h0 h1 h.reachable hs).1
    linarith
  · rw [hs.dt]; exact hdt i hs.pos hs.lt

/-- **C90 (conventional vehicles).** Let `η` be the best efficiency of the engine's map. If the trace is met in
every step, the fuel's energy times `η` covers the energy at the wheels divided by the transmission's efficiency, and
the accessories on top. -/
theorem C90_fuel_floor (hH : H.Local) (hK : H.KeepRows) (hm : P.missedTrace = false)
    (hcoast : P.coastAllow = false) (hidm : P.idmAllow = false) (hV : Conventional V)
    (hE : EffOk V) (hsec : 0 ≤ V.fcSecToPeakPwr) (ht1 : V.transEff ≤ 1) {η : K} (hη : ∀ e ∈ V.fcEffArray, e ≤ η)
    {s : Sim K} (h : Finished F H V P s) (hdt : DtPos s) (h0 : s.cyc.times.getD 0 0 = 0)
    (ha : ∀ x ∈ s.aux, 0 ≤ x)
    (hmet : ∀ r ∈ s.rows.tail, r.pow.cycTransKwOutReq ≤ r.lims.curMaxTransKwOut) :
    motionKj V s / V.transEff + auxKj s ≤ η * fuelKj s := by
  have hlen := h.lenRows hH
  have hdt' := hdt.nonneg
  have haud := C22_conventional hH hK hm hcoast hidm hV h hdt h0 ha hmet
  have hbr := friction_nonneg hH h hdt'
  have hEng : EngineOk V := ⟨hV.engine.le, hsec⟩
  -- no electric power
  have hmem : ∀ i p r dt a, StepAt s i p r dt a → r ∈ s.rows.tail := by
    intro i p r dt a hs
    refine List.mem_of_getElem? (i := i - 1) ?_
    rw [List.getElem?_tail, show i - 1 + 1 = i from by have := hs.pos; omega]
    exact hs.row
  have hstep : ∀ i p r dt a, StepAt s i p r dt a → 0 ≤ dt := fun i p r dt a hs => by
    rw [hs.dt]; exact hdt' i hs.pos hs.lt
  have hpos : ∀ e ∈ V.fcEffArray, 0 < e := fun e he => (hE.range e he).1
  -- the engine turns at most `η` of the fuel into work
  have hwork : sumDt s (fun r => r.fc.fcKwOutAch) ≤ η * fuelKj s := by
    have := Finished.sumDt_nonneg hH h (fun r => η * r.fc.fsKwOutAch - r.fc.fcKwOutAch)
      (fun _ _ _ => by show η * 0 - 0 = 0; ring) fun i p r dt a hs => mul_nonneg ?_ (hstep _ _ _ _ _ hs)
    · rw [sumDt_sub s (fun r => η * r.fc.fsKwOutAch) _ hlen, sumDt_mul _ _ _ hlen] at this
      exact sub_nonneg.1 this
    · have hx := (C17_fuel_power hH hEng hE h.reachable hdt' hs).1
      obtain ⟨E, st, -, -, -, hr⟩ := StepAt.solve hH h.reachable hs
      have hfs : r.fc.fsKwOutAch = fcKwInAch V r.fc.fcKwOutAch := by rw [hr]; rfl
      rw [hfs, sub_nonneg]
      generalize r.fc.fcKwOutAch = x at hx
      have hmem : fcEffAt V x ∈ V.fcEffArray := lookupM1_mem _ _ _ hE.nonempty hE.len
      unfold fcKwInAch
      split
      · rename_i hz; rw [hz, mul_zero]
      · have he : 0 < fcEffAt V x := (fcEffAt_range hE x).1
        rw [if_pos he.ne', mul_div_assoc', le_div_iff₀ he, mul_comm η]
        exact mul_le_mul_of_nonneg_left (hη _ hmem) hx
  -- transmission
  have htrans : sumDt s (fun r => r.pow.transKwOutAch) / V.transEff ≤ sumDt s (fun r => r.pow.transKwInAch) := by
    have := Finished.sumDt_nonneg hH h (fun r => r.pow.transKwInAch - (1 / V.transEff) * r.pow.transKwOutAch)
      (fun _ _ _ => by show 0 - 1 / V.transEff * 0 = 0; ring) fun i p r dt a hs => mul_nonneg ?_ (hstep _ _ _ _ _ hs)
    · rw [sumDt_sub s _ (fun r => (1 / V.transEff) * r.pow.transKwOutAch) hlen, sumDt_mul _ _ _ hlen] at this
      rw [div_eq_inv_mul, ← one_div]
      exact sub_nonneg.1 this
    · obtain ⟨E, st, -, -, -, hr⟩ := StepAt.solve hH h.reachable hs
      have hin : r.pow.transKwInAch = transKwIn V r.pow.transKwOutAch := by rw [hr, solveStep_in]
      rw [hin, transKwIn, sub_nonneg, one_div, ← div_eq_inv_mul]
      split
      · exact le_rfl
      · rename_i hx
        rw [div_le_iff₀ hV.eff, mul_assoc]
        nlinarith [not_lt.1 hx, hV.eff, mul_le_one₀ ht1 hV.eff.le ht1]
  -- zero electric terms
  have hnone : ∀ i p r dt a, StepAt s i p r dt a → r.dec.mcElecKwInAch = 0 ∧ r.dec.mcMechKwOutAch = 0 ∧
      r.dec.roadwayChgKwOutAch = 0 ∧ r.dec.essKwOutAch = 0 := by
    intro i p r dt a hs
    obtain ⟨E, st, -, hroad, -, hr⟩ := StepAt.solve hH h.reachable hs
    have hm : r.dec.mcMechKwOutAch = 0 := by
      rw [hr]; show mcMechKwOutAch V E _ _ _ _ = 0
      simp [mcMechKwOutAch, hV.motor]
    refine ⟨?_, hm, ?_, ?_⟩
    · have : r.dec.mcElecKwInAch = mcElecKwInAch V r.dec.mcMechKwOutAch := by rw [hr]; rfl
      rw [this, hm]; simp [mcElecKwInAch]
    · rw [hr]; show roadwayChgKwOutAch V E _ _ _ = 0
      simp [roadwayChgKwOutAch, hroad]
    · rw [hr]; show essKwOutAch V E _ _ _ _ _ _ = 0
      simp [essKwOutAch, hV.kw]
  have hz : roadwayChgKj s = 0 ∧ essDischgKj V s = 0 ∧ mcKj s = 0 ∧ essEffKj F V s = 0 := by
    have z : ∀ f : Row K → K, (∀ soc m a, f (Row.init V soc m a) = 0) →
        (∀ i p r dt a, StepAt s i p r dt a → f r = 0) → sumDt s f = 0 := by
      intro f hf0 hf
      have a1 := Finished.sumDt_nonneg hH h f hf0 fun i p r dt a hs => by rw [hf _ _ _ _ _ hs, zero_mul]
      have a2 := Finished.sumDt_nonneg hH h (fun r => 0 - f r) (fun soc m a => by rw [hf0, sub_zero])
        fun i p r dt a hs => by rw [hf _ _ _ _ _ hs, sub_zero, zero_mul]
      rw [sumDt_sub s (fun _ => 0) f hlen] at a2
      have a3 : sumDt s (fun _ => (0:K)) = 0 := by
        rw [sumDt_eq _ _ hlen]; simp
      linarith
    refine ⟨z _ (fun _ _ _ => rfl) fun i p r dt a hs => ?_, by simp [essDischgKj, hV.kwh],
      z _ (fun _ _ _ => sub_self _) fun i p r dt a hs => ?_, ?_⟩
    · exact (hnone i p r dt a hs).2.2.1
    · rw [(hnone i p r dt a hs).1, (hnone i p r dt a hs).2.1, sub_zero]
    · unfold essEffKj
      rw [sumDt_eq _ _ hlen]
      exact Finset.sum_eq_zero fun i _ => by simp [essLossKw, hV.kwh]
  have hfc : fcKj s = fuelKj s - sumDt s (fun r => r.fc.fcKwOutAch) := by
    unfold fcKj fuelKj
    rw [sumDt_sub s _ _ hlen]
    congr 1
    obtain ⟨soc, -, hrow0⟩ := Reachable.row0 hH h.reachable
    rw [sumDt_steps _ _ hlen (by rw [Sim.row, hrow0]; rfl), sumDt_steps _ _ hlen (by rw [Sim.row, hrow0]; rfl)]
    refine Finset.sum_congr rfl fun i hi => ?_
    have hi' := Finset.mem_range.1 hi
    obtain ⟨E, st, -, -, -, hr⟩ := Reachable.rowS hH h.reachable (i + 1) (by omega) (by rw [h.atEnd]; omega)
    rw [Sim.row, hr]; rfl
  have htk : transKj s = sumDt s (fun r => r.pow.transKwInAch) - sumDt s (fun r => r.pow.transKwOutAch) :=
    sumDt_sub s _ _ hlen
  have hbus : sumDt s (fun r => r.fc.fcKwOutAch) = sumDt s (fun r => r.pow.transKwInAch) + auxKj s := by
    obtain ⟨soc, -, hrow0⟩ := Reachable.row0 hH h.reachable
    rw [sumDt_steps _ _ hlen (by rw [Sim.row, hrow0]; rfl), sumDt_steps _ _ hlen (by rw [Sim.row, hrow0]; rfl),
      auxKj_steps s (h.lenAux hH) (h.pos hH), h0, mul_zero, add_zero, overSteps_eq, ← Finset.sum_add_distrib]
    refine Finset.sum_congr rfl fun i hi => ?_
    have hi' := Finset.mem_range.1 hi
    obtain ⟨p, r, dt, a, hs⟩ := stepAt_exists hH h.reachable (i := i + 1) (by omega) (by rw [h.atEnd]; omega)
    have e1 : s.row (i + 1) = r := by rw [Sim.row, List.getD_eq_getElem?_getD, hs.row]; rfl
    have e2 : s.aux.getD (i + 1) 0 = a := by rw [List.getD_eq_getElem?_getD, hs.aux]; rfl
    rw [e1, e2, ← add_mul]
    congr 1
    have hb := (C22_conventional_bus hH hV h.reachable hs (ha a (List.mem_of_getElem? hs.aux)) hcoast hidm
      (hmet r (hmem _ _ _ _ _ hs))).1
    obtain ⟨z1, z2, z3, z4⟩ := hnone _ _ _ _ _ hs
    unfold unbalancedKw at hb
    rw [z1, z2, z3, z4] at hb
    linarith
  unfold suppliedKj netKj at haud
  rw [hz.1, hz.2.1, hz.2.2.1, hz.2.2.2, hfc, htk, keKj_eq] at haud
  have hout : sumDt s (fun r => r.pow.transKwOutAch) = motionKj V s + brakeKj s := by
    unfold motionKj
    linarith
  have : motionKj V s / V.transEff ≤ sumDt s (fun r => r.pow.transKwOutAch) / V.transEff := by
    rw [hout]
    exact div_le_div_of_nonneg_right (by linarith) hV.eff.le
  linarith

theorem totalFuel_eq (hH : H.Local) {s : Sim K} (h : Finished F H V P s) : totalFuelKwh s = fuelKj s / 3600 := by
  have hlen := h.lenRows hH
  obtain ⟨soc, -, hrow0⟩ := Reachable.row0 hH h.reachable
  unfold fuelKj
  rw [sumDt_steps _ _ hlen (by rw [Sim.row, hrow0]; rfl)]
  unfold totalFuelKwh
  have hpos := h.pos hH
  obtain ⟨n, hn⟩ : ∃ n, s.cyc.length = n + 1 := ⟨s.cyc.length - 1, by omega⟩
  have e : s.rows.map (fun r => r.fc.fsKwhOutAch) =
      (List.range (n + 1)).map fun i => (s.row i).fc.fsKwhOutAch := by
    apply List.ext_getElem
    · simp [hlen, hn]
    · intro i h1 h2
      simp only [List.length_map] at h1
      simp only [List.getElem_map, List.getElem_range, Sim.row, List.getD_eq_getElem?_getD,
        List.getElem?_eq_getElem h1, Option.getD_some]
  rw [npSum_eq, e, hn, Nat.add_sub_cancel, div_eq_mul_inv, Finset.sum_mul]
  have e2 : ∀ (m : Nat) (g : Nat → K), ((List.range m).map g).sum = ∑ i ∈ Finset.range m, g i := by
    intro m g
    induction m with
    | zero => rfl
    | succ m ih => rw [List.range_succ, List.map_append, List.sum_append, ih, Finset.sum_range_succ]; simp
  rw [e2, Finset.sum_range_succ']
  have z : (s.row 0).fc.fsKwhOutAch = 0 := by rw [Sim.row, hrow0]; rfl
  rw [z, add_zero]
  refine Finset.sum_congr rfl fun i hi => ?_
  have hi' := Finset.mem_range.1 hi
  obtain ⟨E, st, hE, -, -, hr⟩ := Reachable.rowS hH h.reachable (i + 1) (by omega) (by rw [h.atEnd]; omega)
  have : (s.row (i + 1)).fc.fsKwhOutAch = (s.row (i + 1)).fc.fsKwOutAch * E.dt * (1 / 3600) := by
    rw [Sim.row, hr]; rfl
  rw [this, hE]
  ring

/-- **C90 (fuel economy).** Hence a ceiling on miles per gallon equivalent. -/
theorem C90_mpg_ceiling (hH : H.Local) (hK : H.KeepRows) (hm : P.missedTrace = false)
    (hcoast : P.coastAllow = false) (hidm : P.idmAllow = false) (hV : Conventional V)
    (hE : EffOk V) (hsec : 0 ≤ V.fcSecToPeakPwr) (ht1 : V.transEff ≤ 1) {η : K} (hη : ∀ e ∈ V.fcEffArray, e ≤ η)
    {s : Sim K} (h : Finished F H V P s) (hdt : DtPos s) (h0 : s.cyc.times.getD 0 0 = 0)
    (ha : ∀ x ∈ s.aux, 0 ≤ x)
    (hmet : ∀ r ∈ s.rows.tail, r.pow.cycTransKwOutReq ≤ r.lims.curMaxTransKwOut)
    {gge : K} (hg : 0 < gge) (hmi : 0 ≤ totalMiles s) (hpos : 0 < motionKj V s / V.transEff + auxKj s) :
    mpgge gge s ≤ totalMiles s * (gge * 3600) * η / (motionKj V s / V.transEff + auxKj s) := by
  have hfl := C90_fuel_floor hH hK hm hcoast hidm hV hE hsec ht1 hη h hdt h0 ha hmet
  have hη0 : 0 ≤ η := by
    obtain ⟨e, he⟩ := List.exists_mem_of_ne_nil _ hE.nonempty
    exact (hE.range e he).1.le.trans (hη e he)
  have hfuel : 0 < fuelKj s := by
    by_contra hc
    have := mul_nonpos_of_nonneg_of_nonpos hη0 (not_lt.1 hc)
    linarith
  unfold mpgge
  rw [totalFuel_eq hH h, if_neg (by positivity), div_div_eq_mul_div, div_div_eq_mul_div, div_le_div_iff₀ hfuel hpos]
  have := mul_le_mul_of_nonneg_left hfl (mul_nonneg hmi (mul_pos hg (by norm_num : (0:K) < 3600)).le)
  nlinarith [this]

/-- Energy balance of a finished run that meets the trace, if no bus takes more than it gets. -/
theorem energy_floor (hH : H.Local) (hK : H.KeepRows) (hm : P.missedTrace = false) (hb : HasBattery V)
    (hr0 : 0 < F.sqrt V.essRoundTripEff) (hr1 : F.sqrt V.essRoundTripEff ≤ 1)
    (ht0 : 0 < V.transEff) (ht1 : V.transEff ≤ 1) (hM : MotorOk V)
    {s : Sim K} (h : Finished F H V P s) (hdt : DtPos s) (h0 : s.cyc.times.getD 0 0 = 0) (hfc : 0 ≤ fcKj s)
    (hmet : ∀ r ∈ s.rows.tail, r.pow.cycTransKwOutReq ≤ r.lims.curMaxTransKwOut)
    (hbus : ∀ i p r dt a, StepAt s i p r dt a → 0 ≤ unbalancedKw r a) :
    motionKj V s + auxKj s ≤ fuelKj s + essDischgKj V s := by
  have hlen := h.lenRows hH
  have hdt' := hdt.nonneg
  have hw := C22_wheels hH hK hm (Or.inl hb) h hdt h0
  have hbr := friction_nonneg hH h hdt'
  have htr := trans_loss_nonneg hH ht0 ht1 h hdt'
  have hstep : ∀ i p r dt a, StepAt s i p r dt a → 0 ≤ dt := fun i p r dt a hs => by
    rw [hs.dt]; exact hdt' i hs.pos hs.lt
  have hmc : 0 ≤ mcKj s := by
    refine Finished.sumDt_nonneg hH h _ (fun _ _ _ => sub_self _) fun i p r dt a hs =>
      mul_nonneg ?_ (hstep _ _ _ _ _ hs)
    obtain ⟨E, st, -, -, -, rfl⟩ := StepAt.solve hH h.reachable hs
    exact sub_nonneg.2 (mcElec_sign hM _).2.2
  have hes : 0 ≤ essEffKj F V s := by
    refine Finished.sumDt_nonneg hH h _ (fun _ _ _ => ?_) fun i p r dt a hs =>
      mul_nonneg (C20_step hH hb hr0 hr1 h.reachable hs).2.1 (hstep _ _ _ _ _ hs)
    show (if V.essMaxKw = 0 ∨ V.essMaxKwh = 0 then (0:K) else if (0:K) < 0 then _ else 0 * _ - 0) = 0
    simp
  have hroad : roadwayChgKj s = 0 := by
    unfold roadwayChgKj
    obtain ⟨soc, -, hrow0⟩ := Reachable.row0 hH h.reachable
    rw [sumDt_steps _ _ hlen (by rw [Sim.row, hrow0]; rfl)]
    refine Finset.sum_eq_zero fun i hi => ?_
    have hi' := Finset.mem_range.1 hi
    obtain ⟨E, st, -, hroad, -, hr⟩ := Reachable.rowS hH h.reachable (i + 1) (by omega) (by rw [h.atEnd]; omega)
    have : (s.row (i + 1)).dec.roadwayChgKwOutAch = 0 := by
      rw [Sim.row, hr]; show roadwayChgKwOutAch V E _ _ _ = 0
      simp [roadwayChgKwOutAch, hroad]
    rw [this, zero_mul]
  have hsum : ∀ f : Nat → K, (∀ i p r dt a, StepAt s i p r dt a → s.row i = r → s.aux.getD i 0 = a → 0 ≤ f i) →
      0 ≤ overSteps s (fun i => f i * dtAt s.cyc i) := by
    intro f hf
    refine Finset.sum_nonneg fun i hi => ?_
    have hi' := Finset.mem_Ico.1 hi
    obtain ⟨p, r, dt, a, hs⟩ := stepAt_exists hH h.reachable hi'.1 (by rw [h.atEnd]; exact hi'.2)
    refine mul_nonneg (hf i p r dt a hs ?_ ?_) (by rw [← hs.dt]; exact hstep _ _ _ _ _ hs)
    · rw [Sim.row, List.getD_eq_getElem?_getD, hs.row]; rfl
    · rw [List.getD_eq_getElem?_getD, hs.aux]; rfl
  have hu := hsum (fun i => unbalancedKw (s.row i) (s.aux.getD i 0)) fun i p r dt a hs e1 e2 => by
    rw [e1, e2]; exact hbus i p r dt a hs
  have ho := hsum (fun i => (s.row i).pow.transKwOutAch - (s.row i).pow.cycTransKwOutReq)
    fun i p r dt a hs e1 e2 => by
      have hmr := hmet r (by
        refine List.mem_of_getElem? (i := i - 1) ?_
        rw [List.getElem?_tail, show i - 1 + 1 = i from by have := hs.pos; omega]
        exact hs.row)
      obtain ⟨E, st, -, -, -, hr⟩ := StepAt.solve hH h.reachable hs
      rw [e1]
      have : r.pow.transKwOutAch = r.pow.cycTransKwOutReq := by
        rw [hr, solveStep_out, ← hr, min_eq_left hmr]
      rw [this, sub_self]
  unfold suppliedKj netKj at hw
  rw [hroad, keKj_eq] at hw
  unfold motionKj
  linarith

/-- **C90 (hybrids).** Fuel and battery together supply at least the energy at the wheels and the accessories, in
every run that meets the trace and asks no more of the engine than it can give. -/
theorem C90_hybrid (hH : H.Local) (hK : H.KeepRows) (hm : P.missedTrace = false) (hb : HasBattery V)
    (hr0 : 0 < F.sqrt V.essRoundTripEff) (hr1 : F.sqrt V.essRoundTripEff ≤ 1)
    (ht0 : 0 < V.transEff) (ht1 : V.transEff ≤ 1) (hM : MotorOk V) (hz : V.fcType ≠ .h2fc) (hf : 0 < V.fcMaxKw)
    (hsec : 0 ≤ V.fcSecToPeakPwr) (hE : EffOk V)
    {s : Sim K} (h : Finished F H V P s) (hdt : DtPos s) (h0 : s.cyc.times.getD 0 0 = 0)
    (hmet : ∀ r ∈ s.rows.tail, r.pow.cycTransKwOutReq ≤ r.lims.curMaxTransKwOut)
    (hcap : ∀ i p r dt a, StepAt s i p r dt a → engineDemand V r a ≤ r.lims.curMaxFcKwOut) :
    motionKj V s + auxKj s ≤ fuelKj s + essDischgKj V s := by
  have hEng : EngineOk V := ⟨hf.le, hsec⟩
  refine energy_floor hH hK hm hb hr0 hr1 ht0 ht1 hM h hdt h0 (C17_totals hH hEng hE h hdt.nonneg).2.1 hmet
    fun i p r dt a hs => ?_
  rw [(C22_bus hH hb hz hf.ne' h.reachable hs).1, sub_nonneg]
  exact le_min (hcap i p r dt a hs) (le_max_right _ _)

/-- **C90 (battery-electric vehicles).** The battery supplies at least the energy at the wheels and the accessories,
in every run that meets the trace and never drops the accessories for lack of charge. -/
theorem C90_bev (hH : H.Local) (hK : H.KeepRows) (hm : P.missedTrace = false) (hb : HasBattery V)
    (hr0 : 0 < F.sqrt V.essRoundTripEff) (hr1 : F.sqrt V.essRoundTripEff ≤ 1)
    (ht0 : 0 < V.transEff) (ht1 : V.transEff ≤ 1) (hM : MotorOk V) (hz : V.fcType ≠ .h2fc) (hpt : V.ptType = .bev)
    (hf : V.fcMaxKw = 0) (hmc : V.mcMaxKw ≠ 0) (hx : V.noElecAux = false)
    {s : Sim K} (h : Finished F H V P s) (hdt : DtPos s) (h0 : s.cyc.times.getD 0 0 = 0)
    (hmet : ∀ r ∈ s.rows.tail, r.pow.cycTransKwOutReq ≤ r.lims.curMaxTransKwOut)
    (htag : ∀ r ∈ s.rows.tail, r.misc.highAccFcOnTag = false) :
    motionKj V s + auxKj s ≤ essDischgKj V s ∧
    (0 < totalMiles s → (motionKj V s + auxKj s) / 3600 / totalMiles s ≤ batteryKwhPerMi V s) := by
  have hlen := h.lenRows hH
  have hnf := C24_no_fuel_total hH hf h 1
  have hmem : ∀ i p r dt a, StepAt s i p r dt a → r ∈ s.rows.tail := by
    intro i p r dt a hs
    refine List.mem_of_getElem? (i := i - 1) ?_
    rw [List.getElem?_tail, show i - 1 + 1 = i from by have := hs.pos; omega]
    exact hs.row
  have hfc0 : ∀ i p r dt a, StepAt s i p r dt a → r.fc.fcKwOutAch = 0 ∧ r.fc.fcKwInAch = 0 := by
    intro i p r dt a hs
    have := C24_no_fuel hH (fun x => zero_mul x) hf h.reachable hs
    exact ⟨this.1, this.2.1⟩
  have key : motionKj V s + auxKj s ≤ fuelKj s + essDischgKj V s := by
    refine energy_floor hH hK hm hb hr0 hr1 ht0 ht1 hM h hdt h0 ?_ hmet fun i p r dt a hs => ?_
    · refine Finished.sumDt_nonneg hH h _ (fun _ _ _ => sub_self _) fun i p r dt a hs => ?_
      rw [(hfc0 i p r dt a hs).1, (hfc0 i p r dt a hs).2, sub_zero, zero_mul]
    · have hbat := (C24_battery_power hH hz hb.kw hb.kwh hx h.reachable hs).1 (htag r (hmem _ _ _ _ _ hs))
      have hmr := hmet r (hmem _ _ _ _ _ hs)
      obtain ⟨E, st, -, hroad, -, hr⟩ := StepAt.solve hH h.reachable hs
      have hR : r.dec.roadwayChgKwOutAch = 0 := by
        rw [hr]; show roadwayChgKwOutAch V E _ _ _ = 0
        simp [roadwayChgKwOutAch, hroad]
      unfold unbalancedKw
      rw [hR, hbat, (hfc0 i p r dt a hs).1]
      have hge : r.pow.transKwInAch ≤ r.dec.mcMechKwOutAch := by
        have hdec : r.dec.mcMechKwOutAch = mcMechKwOutAch V E r.lims r.pow r.hyb r.forced := by rw [hr]; rfl
        unfold mcMechKwOutAch at hdec
        simp only at hdec
        rw [if_neg hmc, if_neg (by simp [hpt])] at hdec
        rw [hdec]
        split
        · rename_i htin
          rw [if_neg (by simp [hf])]
          refine le_min ?_ (by linarith)
          have := min_le_right r.lims.curMaxMechMcKwIn (-r.pow.transKwInAch)
          linarith
        · split
          · exact le_rfl
          · refine le_max_of_le_left ?_
            obtain ⟨v, hv⟩ := solveStep_pow F V P.toStepParams E p st
            have e : r.pow.minMcKw2helpFc = if r.pow.cycTransKwOutReq ≤ r.lims.curMaxTransKwOut then
                if V.fcType = .h2fc then max r.pow.transKwInAch (-r.lims.curMaxMechMcKwIn)
                else max (r.pow.transKwInAch - r.lims.curMaxFcKwOut) (-r.lims.curMaxMechMcKwIn)
                else max r.lims.curMaxMcKwOut (-r.lims.curMaxMechMcKwIn) := by
              have hl : r.lims = setCompLims F V P.toStepParams E p (setMisc V E p) := by rw [hr]; rfl
              rw [← hr] at hv
              rw [hl, hv]
              simp only [powerAt, decide_eq_true_eq]
            rw [e, if_pos hmr, if_neg hz]
            refine le_max_of_le_left ?_
            have : r.lims.curMaxFcKwOut ≤ 0 := by
              rw [hr]
              show min V.fcMaxKw _ ≤ 0
              rw [hf]
              exact min_le_left _ _
            linarith
      linarith
  rw [hnf.1, zero_add] at key
  refine ⟨key, fun hmi => ?_⟩
  unfold batteryKwhPerMi
  rw [if_pos hmi]
  gcongr

end Field

/-! ### Concrete cases -/

open Demo

/-- The demo conventional car meets all hypotheses of `C90_fuel_floor` and `C90_mpg_ceiling`; the floor is
positive. -/
theorem C90_demo : ∃ s, Demo.run conv 0 = .ok s ∧ Finished fns noHooks conv params s ∧ Conventional conv ∧
    EffOk conv ∧ 0 ≤ conv.fcSecToPeakPwr ∧ conv.transEff ≤ 1 ∧ (∀ e ∈ conv.fcEffArray, e ≤ 7 / 20) ∧ DtPos s ∧
    s.cyc.times.getD 0 0 = 0 ∧ (∀ x ∈ s.aux, 0 ≤ x) ∧
    (∀ r ∈ s.rows.tail, r.pow.cycTransKwOutReq ≤ r.lims.curMaxTransKwOut) ∧ 0 < totalMiles s ∧
    0 < motionKj conv s / conv.transEff + auxKj s := by
  have hall : (match Demo.run conv 0 with
      | .ok s => decide ((∀ i < s.i, 1 ≤ i → 0 < dtAt s.cyc i) ∧ s.cyc.times.getD 0 0 = 0 ∧
          (∀ x ∈ s.aux, 0 ≤ x) ∧
          (∀ r ∈ s.rows.tail, r.pow.cycTransKwOutReq ≤ r.lims.curMaxTransKwOut) ∧ 0 < totalMiles s ∧
          0 < motionKj conv s / conv.transEff + auxKj s)
      | .error _ => false) = true := by decide +kernel
  split at hall
  · rename_i s hs
    obtain ⟨h1, h2⟩ := of_decide_eq_true hall
    refine ⟨s, hs, Finished.simDrive noHooks_local rfl hs, ?_, ⟨by decide, by decide, by decide +kernel⟩,
      by decide +kernel, by decide +kernel, by decide +kernel, fun i a b => h1 i b a, h2⟩
    exact ⟨rfl, by decide, rfl, rfl, rfl, by decide +kernel, by decide +kernel⟩
  · simp at hall

/-- The demo hybrid meets the hypotheses of `C90_hybrid`. -/
theorem C90_demo_hybrid : ∃ s, Demo.run hev (3 / 5) = .ok s ∧ Finished fns noHooks hev params s ∧ HasBattery hev ∧
    EffOk hev ∧ MotorOk hev ∧ DtPos s ∧ s.cyc.times.getD 0 0 = 0 ∧
    (∀ r ∈ s.rows.tail, r.pow.cycTransKwOutReq ≤ r.lims.curMaxTransKwOut) ∧
    (∀ i p r dt a, StepAt s i p r dt a → engineDemand hev r a ≤ r.lims.curMaxFcKwOut) ∧
    0 < motionKj hev s + auxKj s := by
  have hall : (match Demo.run hev (3 / 5) with
      | .ok s => decide ((∀ i < s.i, 1 ≤ i → 0 < dtAt s.cyc i) ∧ s.cyc.times.getD 0 0 = 0 ∧
          (∀ r ∈ s.rows.tail, r.pow.cycTransKwOutReq ≤ r.lims.curMaxTransKwOut) ∧
          (∀ i < s.i, 1 ≤ i → engineDemand hev (s.rows.getD i Row.zero) (s.aux.getD i 0) ≤
            (s.rows.getD i Row.zero).lims.curMaxFcKwOut) ∧
          0 < motionKj hev s + auxKj s)
      | .error _ => false) = true := by decide +kernel
  split at hall
  · rename_i s hs
    obtain ⟨h1, h2, h3, h4, h5⟩ := of_decide_eq_true hall
    refine ⟨s, hs, Finished.simDrive noHooks_local rfl hs, ⟨rfl, by decide +kernel, by decide +kernel⟩,
      ⟨by decide, by decide, by decide +kernel⟩, hev_motorOk, fun i a b => h1 i b a, h2, h3,
      fun i p r dt a hst => ?_, h5⟩
    have := h4 i hst.lt hst.pos
    rwa [List.getD_eq_getElem?_getD, List.getD_eq_getElem?_getD, hst.row, hst.aux] at this
  · simp at hall

/-- The demo battery-electric car meets the hypotheses of `C90_bev`. -/
theorem C90_demo_bev : ∃ s, Demo.run bev (3 / 5) = .ok s ∧ Finished fns noHooks bev params s ∧ HasBattery bev ∧
    MotorOk bev ∧ DtPos s ∧ s.cyc.times.getD 0 0 = 0 ∧
    (∀ r ∈ s.rows.tail, r.pow.cycTransKwOutReq ≤ r.lims.curMaxTransKwOut) ∧
    (∀ r ∈ s.rows.tail, r.misc.highAccFcOnTag = false) ∧ 0 < totalMiles s ∧ 0 < motionKj bev s + auxKj s := by
  have hall : (match Demo.run bev (3 / 5) with
      | .ok s => decide ((∀ i < s.i, 1 ≤ i → 0 < dtAt s.cyc i) ∧ s.cyc.times.getD 0 0 = 0 ∧
          (∀ r ∈ s.rows.tail, r.pow.cycTransKwOutReq ≤ r.lims.curMaxTransKwOut) ∧
          (∀ r ∈ s.rows.tail, r.misc.highAccFcOnTag = false) ∧ 0 < totalMiles s ∧ 0 < motionKj bev s + auxKj s)
      | .error _ => false) = true := by decide +kernel
  split at hall
  · rename_i s hs
    obtain ⟨h1, h2⟩ := of_decide_eq_true hall
    exact ⟨s, hs, Finished.simDrive noHooks_local rfl hs, ⟨rfl, by decide +kernel, by decide +kernel⟩,
      ⟨by decide, by decide, by decide, by decide +kernel, by decide +kernel⟩, fun i a b => h1 i b a, h2⟩
  · simp at hall

end Fastsim.Props
