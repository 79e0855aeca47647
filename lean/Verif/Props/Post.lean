import Verif.Props.Accessory
import Verif.Props.Battery

/-!
# C34, C35, C36: diagnostics, charge-corrected fuel, battery wear
-/

set_option linter.unusedSectionVars false

namespace Fastsim.Spec

section
variable {K : Type*} [Field K]

/-- Trapezoidal integral of the samples `y i` at times `t i`, `i < n`. -/
def integral (t y : List K) : K :=
  ∑ i ∈ Finset.range (t.length - 1), (t.getD (i + 1) 0 - t.getD i 0) * (y.getD i 0 + y.getD (i + 1) 0) / 2

end
end Fastsim.Spec

namespace Fastsim.Props
open Fastsim Spec

section Field
variable {K : Type*} [Field K] [LinearOrder K] [IsStrictOrderedRing K]
variable {F : Fns K} {H : Hooks K} {V : Veh K} {P : SimParams K}

/-! ### C34 -/

theorem trapz_eq : ∀ (t y : List K), t.length = y.length → trapz (t.zip y) = integral t y
  | [], [], _ => by simp [trapz, integral]
  | [a], [b], _ => by simp [trapz, integral]
  | a :: a' :: t, b :: b' :: y, h => by
    have ih := trapz_eq (a' :: t) (b' :: y) (by simpa using h)
    rw [List.zip_cons_cons, List.zip_cons_cons] at *
    rw [trapz, ih]
    unfold integral
    simp only [List.length_cons, Nat.add_sub_cancel]
    rw [Finset.sum_range_succ']
    simp only [List.getD_cons_succ, List.getD_cons_zero]
    ring
  | [], _ :: _, h => by simp at h
  | _ :: _, [], h => by simp at h
  | [_], _ :: _ :: _, h => by simp at h
  | _ :: _ :: _, [_], h => by simp at h

theorem integral_add (t y z : List K) (h : t.length = y.length) (h' : t.length = z.length) :
    integral t y + integral t z = integral t (List.zipWith (· + ·) y z) := by
  unfold integral
  rw [← Finset.sum_add_distrib]
  refine Finset.sum_congr rfl fun i hi => ?_
  have hi' := Finset.mem_range.1 hi
  have hz : ∀ j, j < t.length →
      (List.zipWith (· + ·) y z).getD j 0 = y.getD j 0 + z.getD j 0 := by
    intro j hj
    simp only [List.getD_eq_getElem?_getD]
    rw [List.getElem?_zipWith, List.getElem?_eq_getElem (by omega), List.getElem?_eq_getElem (by omega)]
    rfl
  rw [hz i (by omega), hz (i + 1) (by omega)]
  ring

theorem integral_nonneg {t y : List K} (ht : t.Pairwise (· ≤ ·)) (hy : ∀ x ∈ y, 0 ≤ x) :
    0 ≤ integral t y := by
  refine Finset.sum_nonneg fun i hi => ?_
  have hi' := Finset.mem_range.1 hi
  have h1 : t.getD i 0 ≤ t.getD (i + 1) 0 := by
    rw [List.getD_eq_getElem?_getD, List.getD_eq_getElem?_getD, List.getElem?_eq_getElem (by omega),
      List.getElem?_eq_getElem (by omega)]
    exact List.pairwise_iff_getElem.1 ht i (i + 1) (by omega) (by omega) (by omega)
  have h2 : ∀ j, 0 ≤ y.getD j 0 := getD_nonneg hy
  have := h2 i
  have := h2 (i + 1)
  refine div_nonneg (mul_nonneg (by linarith) (by linarith)) (by norm_num)

theorem integral_neg (t y : List K) : integral t (y.map fun x => -x) = -integral t y := by
  unfold integral
  rw [← Finset.sum_neg_distrib]
  refine Finset.sum_congr rfl fun i hi => ?_
  have hz : ∀ j, (y.map fun x => -x).getD j 0 = -y.getD j 0 := by
    intro j
    simp only [List.getD_eq_getElem?_getD, List.getElem?_map]
    cases y[j]? <;> simp
  rw [hz, hz]; ring

/-- **C34 (split).** For every power channel recorded at the times of the cycle the positive and
negative energies of the diagnostics add up to the trapezoidal integral of the channel; for
non-decreasing times they are non-negative and non-positive; for a channel that is never negative the
positive energy is the whole integral and the negative one zero. -/
theorem C34_split (t y : List K) (h : t.length = y.length) :
    (diagEnergies t y).1 + (diagEnergies t y).2 = integral t y ∧
    (t.Pairwise (· ≤ ·) → 0 ≤ (diagEnergies t y).1 ∧ (diagEnergies t y).2 ≤ 0) ∧
    ((∀ x ∈ y, 0 ≤ x) → (diagEnergies t y).1 = integral t y ∧ (diagEnergies t y).2 = 0) ∧
    ((∀ x ∈ y, x ≤ 0) → (diagEnergies t y).1 = 0 ∧ (diagEnergies t y).2 = integral t y) := by
  have e1 : (diagEnergies t y).1 = integral t (y.map posPart) := trapz_eq _ _ (by simpa using h)
  have e2 : (diagEnergies t y).2 = integral t (y.map negPart) := trapz_eq _ _ (by simpa using h)
  have hsum : integral t (y.map posPart) + integral t (y.map negPart) = integral t y := by
    rw [integral_add _ _ _ (by simpa using h) (by simpa using h)]
    congr 1
    apply List.ext_getElem?
    intro j
    simp only [List.getElem?_zipWith, List.getElem?_map]
    cases y[j]? with
    | none => rfl
    | some x =>
      simp only [Option.map_some, posPart, negPart]
      by_cases hx : 0 ≤ x
      · rw [if_pos hx, if_neg (not_lt.2 hx), add_zero]
      · rw [if_neg hx, if_pos (not_le.1 hx), zero_add]
  rw [e1, e2]
  refine ⟨hsum, fun ht => ⟨integral_nonneg ht ?_, ?_⟩, fun hy => ?_, fun hy => ?_⟩
  · intro x hx
    obtain ⟨z, -, rfl⟩ := List.mem_map.1 hx
    unfold posPart
    split <;> [assumption; exact le_rfl]
  · have := integral_nonneg (t := t) (y := (y.map negPart).map fun x => -x) ht ?_
    · rw [integral_neg] at this; linarith
    · intro x hx
      obtain ⟨z, hz, rfl⟩ := List.mem_map.1 hx
      obtain ⟨w, -, rfl⟩ := List.mem_map.1 hz
      unfold negPart
      split
      · rename_i hw; linarith
      · simp
  · have : y.map posPart = y := by
      conv_rhs => rw [← List.map_id y]
      exact List.map_congr_left fun x hx => if_pos (hy x hx)
    rw [this] at hsum ⊢
    exact ⟨rfl, by linarith⟩
  · have : y.map negPart = y := by
      conv_rhs => rw [← List.map_id y]
      refine List.map_congr_left fun x hx => ?_
      unfold negPart
      rcases lt_or_eq_of_le (hy x hx) with e | e
      · rw [if_pos e]; rfl
      · rw [if_neg (by rw [e]; exact lt_irrefl _), e]; rfl
    rw [this] at hsum ⊢
    exact ⟨by linarith, rfl⟩

/-- **C34 (fuel economy).** For a vehicle with a sensible engine map the fuel economy of the
diagnostics is that of the simulation, although the two guard against division by zero differently. -/
theorem C34_mpgge (hH : H.Local) (hV : EngineOk V) (hE : EffOk V) {s : Sim K} (h : Finished F H V P s)
    (hdt : DtNonneg s) (kwhPerGge : K) : diagMpgge kwhPerGge s = mpgge kwhPerGge s := by
  have hf := (C17_totals hH hV hE h hdt).2.2.1
  unfold diagMpgge mpgge
  by_cases h0 : totalFuelKwh s = 0
  · rw [if_neg (by rw [h0]; exact lt_irrefl _), if_pos h0]
  · rw [if_pos (lt_of_le_of_ne hf (Ne.symm h0)), if_neg h0, div_div_eq_mul_div, div_mul_eq_mul_div]

/-! ### C35 -/

theorem sum_pos_of {l : List K} (h : ∀ x ∈ l, 0 < x) (hne : l ≠ []) : 0 < l.sum := by
  induction l with
  | nil => exact absurd rfl hne
  | cons a l ih =>
    rw [List.sum_cons]
    by_cases hl : l = []
    · subst hl; simpa using h a (by simp)
    · exact add_pos (h a (by simp)) (ih (fun x hx => h x (by simp [hx])) hl)

theorem sum_map_le {α : Type*} {l : List α} {f g : α → K} (h : ∀ x ∈ l, f x ≤ g x) :
    (l.map f).sum ≤ (l.map g).sum := by
  induction l with
  | nil => simp
  | cons a l ih =>
    rw [List.map_cons, List.map_cons, List.sum_cons, List.sum_cons]
    exact add_le_add (h a (by simp)) (ih fun x hx => h x (by simp [hx]))

theorem any_filter {α : Type*} {l : List α} {m : α → Bool} (h : l.any m = true) : l.filter m ≠ [] := by
  intro e
  rw [List.any_eq_true] at h
  obtain ⟨x, hx, hm⟩ := h
  have : x ∈ l.filter m := List.mem_filter.2 ⟨hx, hm⟩
  rw [e] at this
  simp at this

/-- A ratio of masked sums lies in `(0,1]` if the default does and all masked pairs satisfy
`0 < n ≤ d`. -/
theorem maskedRatio_pos {s : Sim K} {mask : Row K → Bool} {n d : Row K → K} {dflt : K}
    (h0 : 0 < dflt) (h1 : dflt ≤ 1)
    (hp : ∀ r ∈ s.rows, mask r = true → 0 < n r ∧ n r ≤ d r) :
    0 < maskedRatio s mask n d dflt ∧ maskedRatio s mask n d dflt ≤ 1 := by
  unfold maskedRatio
  split
  · rename_i hany
    have hne := any_filter hany
    have hn : 0 < ((s.rows.filter mask).map n).sum := by
      refine sum_pos_of ?_ (by simpa using hne)
      intro x hx
      obtain ⟨r, hr, rfl⟩ := List.mem_map.1 hx
      exact (hp r (List.mem_filter.1 hr).1 (List.mem_filter.1 hr).2).1
    have hnd : ((s.rows.filter mask).map n).sum ≤ ((s.rows.filter mask).map d).sum :=
      sum_map_le fun r hr => (hp r (List.mem_filter.1 hr).1 (List.mem_filter.1 hr).2).2
    rw [npSum_eq, npSum_eq]
    exact ⟨div_pos hn (lt_of_lt_of_le hn hnd), (div_le_one (lt_of_lt_of_le hn hnd)).2 hnd⟩
  · exact ⟨h0, h1⟩

/-- The same for negative pairs `d ≤ n < 0`. -/
theorem maskedRatio_neg {s : Sim K} {mask : Row K → Bool} {n d : Row K → K} {dflt : K}
    (h0 : 0 < dflt) (h1 : dflt ≤ 1)
    (hp : ∀ r ∈ s.rows, mask r = true → n r < 0 ∧ d r ≤ n r) :
    0 < maskedRatio s mask n d dflt ∧ maskedRatio s mask n d dflt ≤ 1 := by
  have e : maskedRatio s mask n d dflt = maskedRatio s mask (fun r => -n r) (fun r => -d r) dflt := by
    unfold maskedRatio
    split
    · have hm : ∀ f : Row K → K, ((s.rows.filter mask).map fun r => -f r).sum =
          -((s.rows.filter mask).map f).sum := by
        intro f
        induction s.rows.filter mask with
        | nil => simp
        | cons a l ih => simp only [List.map_cons, List.sum_cons, ih]; ring
      rw [npSum_eq, npSum_eq, npSum_eq, npSum_eq, hm, hm, neg_div_neg_eq]
    · rfl
  rw [e]
  exact maskedRatio_pos h0 h1 fun r hr hm => by
    obtain ⟨a, b⟩ := hp r hr hm
    exact ⟨by linarith, by linarith⟩

/-- What the correction needs: a hybrid with battery, motor and engine maps that lose energy, and a
run with non-negative accessory loads in which the engine worked while the car was driven. -/
structure Correctable (F : Fns K) (V : Veh K) (s : Sim K) : Prop where
  pt : V.ptType = .hev
  notH2 : V.fcType ≠ .h2fc
  battery : HasBattery V
  kwh : 0 < V.essMaxKwh
  motor : MotorOk V
  peak : 0 < V.mcPeakEff ∧ V.mcPeakEff ≤ 1
  engine : EngineOk V
  eff : EffOk V
  essEff : 0 < F.sqrt V.essRoundTripEff ∧ F.sqrt V.essRoundTripEff ≤ 1
  dt : DtNonneg s
  aux : ∀ x ∈ s.aux, 0 ≤ x
  worked : ∃ r ∈ s.rows, 0 < r.pow.transKwInAch ∧ 0 < r.fc.fcKwOutAch

/-- Every row of a finished run other than the first is a step. -/
theorem row_cases (hH : H.Local) {s : Sim K} (h : Finished F H V P s) {r : Row K} (hr : r ∈ s.rows) :
    (∃ soc m a, r = Row.init V soc m a) ∨ ∃ i p dt a, StepAt s i p r dt a := by
  obtain ⟨i, hi⟩ := List.getElem?_of_mem hr
  rcases Nat.eq_zero_or_pos i with rfl | h1
  · obtain ⟨-, -, soc, -, h0⟩ := Reachable.inv hH h.reachable
    rw [hi] at h0
    exact Or.inl ⟨_, _, _, Option.some.inj h0⟩
  · have hl : i < s.rows.length := by
      by_contra hc
      rw [List.getElem?_eq_none (by omega)] at hi
      simp at hi
    obtain ⟨p, r', dt, a, hs⟩ := stepAt_exists hH h.reachable h1
      (by rw [h.atEnd, ← h.lenRows hH]; exact hl)
    have : r = r' := by have := hs.row; rw [hi] at this; exact Option.some.inj this
    exact Or.inr ⟨i, p, dt, a, this ▸ hs⟩

/-- **C35.** The charge-corrected fuel energy is the fuel energy minus a credit for charge gained or
plus a debit for charge lost, both proportional to the change of state of charge; a debit costs at
least the energy taken from the battery, and never less than the credit for the same amount. -/
theorem C35_corrected (hH : H.Local) {s : Sim K} (h : Finished F H V P s) (hc : Correctable F V s) :
    ∃ credit debit : K, 0 < credit ∧ credit ≤ debit ∧ V.essMaxKwh * 3600 ≤ debit ∧
      socCorrectedFuelKj F V s = .ok (fuelKj s +
        (if 0 ≤ s.lastRow.dec.soc - s.firstRow.dec.soc then
          -((s.lastRow.dec.soc - s.firstRow.dec.soc) * credit)
        else (s.firstRow.dec.soc - s.lastRow.dec.soc) * debit)) := by
  have helec : ∀ r ∈ s.rows, r.dec.mcElecKwInAch = mcElecKwInAch V r.dec.mcMechKwOutAch := by
    intro r hr
    rcases row_cases hH h hr with ⟨soc, m, a, rfl⟩ | ⟨i, p, dt, a, hs⟩
    · simp [Row.init, Row.zero, mcElecKwInAch]
    · obtain ⟨E, st, -, -, -, rfl⟩ := StepAt.solve hH h.reachable hs; rfl
  have hess : ∀ r ∈ s.rows, 0 < r.dec.mcElecKwInAch → r.dec.mcElecKwInAch ≤ r.dec.essKwOutAch := by
    intro r hr hpos
    rcases row_cases hH h hr with ⟨soc, m, a, rfl⟩ | ⟨i, p, dt, a, hs⟩
    · simp [Row.init, Row.zero] at hpos
    · obtain ⟨E, st, -, hroad, hE, rfl⟩ := StepAt.solve hH h.reachable hs
      have ha : 0 ≤ E.auxIn := by rw [hE]; exact hc.aux a (List.mem_of_getElem? hs.aux)
      have hR : (solveStep F V P.toStepParams E p st).dec.roadwayChgKwOutAch = 0 := by
        show roadwayChgKwOutAch V E _ _ _ = 0
        simp [roadwayChgKwOutAch, hroad]
      have e : (solveStep F V P.toStepParams E p st).dec.essKwOutAch =
          essKwOutAch V E (solveStep F V P.toStepParams E p st).misc
            (solveStep F V P.toStepParams E p st).lims (solveStep F V P.toStepParams E p st).pow
            (solveStep F V P.toStepParams E p st).hyb
            (solveStep F V P.toStepParams E p st).dec.mcElecKwInAch
            (solveStep F V P.toStepParams E p st).dec.roadwayChgKwOutAch := rfl
      rw [e, hR]
      unfold essKwOutAch
      rw [if_neg (by have := hc.battery.kw; have := hc.battery.kwh; tauto), if_neg hc.notH2]
      split <;> linarith
  have hfc : ∀ r ∈ s.rows, 0 ≤ r.fc.fcKwOutAch ∧ r.fc.fcKwOutAch ≤ r.fc.fcKwInAch := by
    intro r hr
    rcases row_cases hH h hr with ⟨soc, m, a, rfl⟩ | ⟨i, p, dt, a, hs⟩
    · exact ⟨le_rfl, le_rfl⟩
    · have := C17_fuel_power hH hc.engine hc.eff h.reachable hc.dt hs
      exact ⟨this.1, by rw [this.2.2.1]; exact this.2.1⟩
  have hchg : 0 < mcChgEff V s ∧ mcChgEff V s ≤ 1 := by
    refine maskedRatio_neg hc.peak.1 hc.peak.2 fun r hr hm => ?_
    have hm' := of_decide_eq_true hm
    rw [helec r hr]
    exact ⟨(mcElec_sign hc.motor _).1 hm', (mcElec_sign hc.motor _).2.2⟩
  have hdis : 0 < mcDisEff V s ∧ mcDisEff V s ≤ 1 := by
    refine maskedRatio_pos hchg.1 hchg.2 fun r hr hm => ?_
    have hm' := of_decide_eq_true hm
    rw [helec r hr]
    exact ⟨hm', (mcElec_sign hc.motor _).2.2⟩
  have hfrac : 0 < essTractionFrac s ∧ essTractionFrac s ≤ 1 := by
    refine maskedRatio_pos one_pos le_rfl fun r hr hm => ?_
    have hm' := of_decide_eq_true hm
    exact ⟨hm', hess r hr hm'⟩
  have heff : 0 < runFcEff s ∧ runFcEff s ≤ 1 := by
    obtain ⟨r0, hr0, ht0, hf0⟩ := hc.worked
    unfold runFcEff maskedRatio
    have hany : s.rows.any (fun r => decide (0 < r.pow.transKwInAch)) = true :=
      List.any_eq_true.2 ⟨r0, hr0, decide_eq_true ht0⟩
    rw [if_pos hany, npSum_eq, npSum_eq]
    have hn : 0 < ((s.rows.filter fun r => decide (0 < r.pow.transKwInAch)).map
        fun r => r.fc.fcKwOutAch).sum := by
      refine lt_of_lt_of_le hf0 (List.single_le_sum ?_ _ ?_)
      · intro x hx
        obtain ⟨r, hr, rfl⟩ := List.mem_map.1 hx
        exact (hfc r (List.mem_filter.1 hr).1).1
      · exact List.mem_map.2 ⟨r0, List.mem_filter.2 ⟨hr0, decide_eq_true ht0⟩, rfl⟩
    have hnd : ((s.rows.filter fun r => decide (0 < r.pow.transKwInAch)).map
        fun r => r.fc.fcKwOutAch).sum ≤
        ((s.rows.filter fun r => decide (0 < r.pow.transKwInAch)).map fun r => r.fc.fcKwInAch).sum :=
      sum_map_le fun r hr => (hfc r (List.mem_filter.1 hr).1).2
    exact ⟨div_pos hn (lt_of_lt_of_le hn hnd), (div_le_one (lt_of_lt_of_le hn hnd)).2 hnd⟩
  obtain ⟨q0, q1⟩ := hc.essEff
  obtain ⟨c0, c1⟩ := hchg
  obtain ⟨d0, d1⟩ := hdis
  obtain ⟨f0, f1⟩ := hfrac
  obtain ⟨e0, e1⟩ := heff
  have hB : 0 < V.essMaxKwh * 3600 := mul_pos hc.kwh (by norm_num)
  set q := F.sqrt V.essRoundTripEff
  have hnum : 0 < V.essMaxKwh * 3600 * q * mcDisEff V s * essTractionFrac s :=
    mul_pos (mul_pos (mul_pos hB q0) d0) f0
  have hden : 0 < q * mcChgEff V s * runFcEff s := mul_pos (mul_pos q0 c0) e0
  have hqc : q * mcChgEff V s ≤ 1 := mul_le_one₀ q1 c0.le c1
  refine ⟨V.essMaxKwh * 3600 * q * mcDisEff V s * essTractionFrac s / runFcEff s,
    V.essMaxKwh * 3600 / (q * mcChgEff V s * runFcEff s), div_pos hnum e0, ?_, ?_, ?_⟩
  · rw [div_le_div_iff₀ e0 hden]
    have h1 : V.essMaxKwh * 3600 * q * mcDisEff V s * essTractionFrac s ≤ V.essMaxKwh * 3600 := by
      have a1 : q * mcDisEff V s ≤ 1 := mul_le_one₀ q1 d0.le d1
      have a2 : q * mcDisEff V s * essTractionFrac s ≤ 1 := mul_le_one₀ a1 f0.le f1
      calc V.essMaxKwh * 3600 * q * mcDisEff V s * essTractionFrac s
          = V.essMaxKwh * 3600 * (q * mcDisEff V s * essTractionFrac s) := by ring
        _ ≤ V.essMaxKwh * 3600 * 1 := mul_le_mul_of_nonneg_left a2 hB.le
        _ = _ := mul_one _
    have h2 : q * mcChgEff V s * runFcEff s ≤ runFcEff s := by
      calc q * mcChgEff V s * runFcEff s ≤ 1 * runFcEff s := mul_le_mul_of_nonneg_right hqc e0.le
        _ = _ := one_mul _
    exact mul_le_mul h1 h2 hden.le hB.le
  · rw [le_div_iff₀ hden]
    have : q * mcChgEff V s * runFcEff s ≤ 1 := mul_le_one₀ hqc e0.le e1
    calc V.essMaxKwh * 3600 * (q * mcChgEff V s * runFcEff s) ≤ V.essMaxKwh * 3600 * 1 :=
          mul_le_mul_of_nonneg_left this hB.le
      _ = _ := mul_one _
  · unfold socCorrectedFuelKj
    rw [if_neg (by rw [hc.pt]; simp)]
    simp only
    congr 2
    split
    · ring
    · ring

/-- **C35 (sign).** The corrected figure equals the fuel energy exactly when the state of charge ends
where it started, is larger exactly when the battery was drained and smaller exactly when it was
charged. -/
theorem C35_sign (hH : H.Local) {s : Sim K} (h : Finished F H V P s) (hc : Correctable F V s) :
    ∃ x, socCorrectedFuelKj F V s = .ok x ∧
      (x = fuelKj s ↔ s.lastRow.dec.soc = s.firstRow.dec.soc) ∧
      (fuelKj s < x ↔ s.lastRow.dec.soc < s.firstRow.dec.soc) ∧
      (x < fuelKj s ↔ s.firstRow.dec.soc < s.lastRow.dec.soc) := by
  obtain ⟨cr, db, h1, h2, h3, h4⟩ := C35_corrected hH h hc
  have hdb : 0 < db := lt_of_lt_of_le h1 h2
  refine ⟨_, h4, ?_⟩
  rcases lt_trichotomy s.lastRow.dec.soc s.firstRow.dec.soc with hlt | heq | hgt
  · rw [if_neg (by rw [not_le]; linarith)]
    have := mul_pos (sub_pos.2 hlt) hdb
    refine ⟨⟨fun e => ?_, fun e => absurd e (ne_of_lt hlt)⟩, ⟨fun _ => hlt, fun _ => by linarith⟩,
      ⟨fun e => ?_, fun e => absurd hlt (not_lt.2 e.le)⟩⟩
    · linarith
    · linarith
  · rw [heq, sub_self, if_pos le_rfl]
    simp
  · rw [if_pos (by linarith)]
    have := mul_pos (sub_pos.2 hgt) h1
    refine ⟨⟨fun e => ?_, fun e => absurd e (ne_of_gt hgt)⟩, ⟨fun e => ?_, fun e => absurd hgt (not_lt.2 e.le)⟩,
      ⟨fun _ => hgt, fun _ => by linarith⟩⟩
    · linarith
    · linarith

/-- **C35 (not a hybrid).** The function raises `ValueError` exactly for vehicles that are not
hybrids. -/
theorem C35_raises (s : Sim K) :
    socCorrectedFuelKj F V s = .error .valueError ↔ V.ptType ≠ .hev := by
  unfold socCorrectedFuelKj
  constructor
  · intro h
    intro hc
    rw [if_neg (not_not.2 hc)] at h
    simp at h
  · intro h; rw [if_pos h]

/-! ### C36 -/

theorem wearAddTail_get : ∀ (kwh old : List K) (i : Nat), kwh.length ≤ old.length → i + 1 < kwh.length →
    (wearAddTail kwh old)[i]? = some (if kwh.getD i 0 < kwh.getD (i + 1) 0
      then kwh.getD (i + 1) 0 - kwh.getD i 0 + old.getD i 0 else 0)
  | [], _, i, _, hi => by simp at hi
  | [_], _, i, _, hi => by simp at hi
  | k0 :: k1 :: kwh, [], i, hl, _ => by simp at hl
  | k0 :: k1 :: kwh, a0 :: old, 0, _, _ => by simp [wearAddTail]
  | k0 :: k1 :: kwh, a0 :: old, i + 1, hl, hi => by
    have := wearAddTail_get (k1 :: kwh) old i (by simpa using hl) (by simpa using hi)
    rw [wearAddTail, List.getElem?_cons_succ, this]
    simp only [List.getD_cons_succ]

theorem wearAddTail_length : ∀ (kwh old : List K), kwh.length ≤ old.length →
    (wearAddTail kwh old).length = kwh.length - 1
  | [], _, _ => by simp [wearAddTail]
  | [_], _, _ => by simp [wearAddTail]
  | k0 :: k1 :: kwh, [], hl => by simp at hl
  | k0 :: k1 :: kwh, a0 :: old, hl => by
    have := wearAddTail_length (k1 :: kwh) old (by simpa using hl)
    simp only [wearAddTail, List.length_cons, this]
    simp

theorem wearAdd_length (kwh old : List K) (h : old.length = kwh.length) :
    (wearAdd kwh old).length = kwh.length := by
  unfold wearAdd
  rw [List.length_append, wearAddTail_length _ _ h.ge, List.length_take, h]
  rcases kwh with _ | ⟨a, l⟩ <;> simp
  omega

/-- `add_kwh` after `n` calls of `set_battery_wear` on an object whose arrays were zero. -/
def wearCalls (kwh : List K) : Nat → List K
  | 0 => List.replicate kwh.length 0
  | n + 1 => wearAdd kwh (wearCalls kwh n)

theorem wearCalls_length (kwh : List K) : ∀ n, (wearCalls kwh n).length = kwh.length
  | 0 => by simp [wearCalls]
  | n + 1 => wearAdd_length _ _ (wearCalls_length kwh n)

/-- Sample `a` begins a charging streak that reaches sample `i`: stored energy rises in every step
from `a` to `i`, and did not rise into `a`. -/
structure Streak (kwh : List K) (a i : Nat) : Prop where
  le : a ≤ i
  lt : i < kwh.length
  up : ∀ j, a ≤ j → j < i → kwh.getD j 0 < kwh.getD (j + 1) 0
  start : a = 0 ∨ kwh.getD a 0 ≤ kwh.getD (a - 1) 0

/-- **C36.** What the wear figure accumulates: after `n` calls, `add_kwh` at sample `i` of a charging
streak that began at `a` is the energy charged over the last `n` steps of the streak only (over the
whole streak once `n` is at least its length). -/
theorem C36_calls (kwh : List K) (n : Nat) : ∀ (a i : Nat), Streak kwh a i →
    (wearCalls kwh n).getD i 0 = kwh.getD i 0 - kwh.getD (max a (i - n)) 0 := by
  induction n with
  | zero =>
    intro a i h
    have e : (wearCalls kwh 0).getD i 0 = 0 := by
      simp only [wearCalls, List.getD_eq_getElem?_getD, List.getElem?_replicate]
      split <;> rfl
    rw [e, Nat.sub_zero, max_eq_right h.le, sub_self]
  | succ n ih =>
    intro a i h
    have hl := wearCalls_length kwh n
    have hlt := h.lt
    rcases Nat.eq_zero_or_pos i with rfl | hpos
    · have ha : a = 0 := by have := h.le; omega
      subst ha
      have h0 := ih 0 0 h
      have e : (wearCalls kwh (n + 1)).getD 0 0 = (wearCalls kwh n).getD 0 0 := by
        simp only [wearCalls, wearAdd, List.getD_eq_getElem?_getD]
        rw [List.getElem?_append_left (by rw [List.length_take, hl]; omega), List.getElem?_take]
        simp
      rw [e, h0]; simp
    · obtain ⟨k, rfl⟩ : ∃ k, i = k + 1 := ⟨i - 1, by omega⟩
      have e : (wearCalls kwh (n + 1)).getD (k + 1) 0 =
          if kwh.getD k 0 < kwh.getD (k + 1) 0 then
            kwh.getD (k + 1) 0 - kwh.getD k 0 + (wearCalls kwh n).getD k 0 else 0 := by
        simp only [wearCalls, wearAdd]
        rw [List.getD_eq_getElem?_getD]
        rw [List.getElem?_append_right (by rw [List.length_take]; omega)]
        have : (List.take 1 (wearCalls kwh n)).length = 1 := by rw [List.length_take, hl]; omega
        rw [this, Nat.add_sub_cancel, wearAddTail_get _ _ _ hl.ge hlt]
        rfl
      rw [e]
      by_cases hak : a = k + 1
      · have hs := h.start
        rw [hak] at hs
        have hnot : ¬ kwh.getD k 0 < kwh.getD (k + 1) 0 := by
          rcases hs with hs | hs
          · omega
          · rw [Nat.add_sub_cancel] at hs; exact not_lt.2 hs
        rw [if_neg hnot, hak, max_eq_left (by omega), sub_self]
      · have hle := h.le
        have hk : Streak kwh a k :=
          ⟨by omega, by omega, fun j h1 h2 => h.up j h1 (by omega), h.start⟩
        rw [if_pos (h.up k (by omega) (by omega)), ih a k hk,
          show max a (k + 1 - (n + 1)) = max a (k - n) from by congr 1; omega]
        ring

/-- **C36 (first call).** The first call never accumulates: it records the energy charged in the last
step alone, whatever the streak. -/
theorem C36_first_call (kwh : List K) {a i : Nat} (h : Streak kwh a i) (hlt : a < i) :
    (wearCalls kwh 1).getD i 0 = kwh.getD i 0 - kwh.getD (i - 1) 0 := by
  rw [C36_calls kwh 1 a i h, max_eq_right (by omega)]

/-- **C36 (settling).** After as many calls as the streak is long, the figure is the energy charged in
the whole streak, and further calls leave it there. -/
theorem C36_settled (kwh : List K) {a i n : Nat} (h : Streak kwh a i) (hn : i - a ≤ n) :
    (wearCalls kwh n).getD i 0 = kwh.getD i 0 - kwh.getD a 0 := by
  rw [C36_calls kwh n a i h, max_eq_left (by omega)]

end Field

/-! ### Concrete cases -/

open Demo

/-- **C36 refuted.** Three charging steps in a row: the first call reports 1, 1, 1 instead of 1, 2, 3,
and calling again changes the report. -/
theorem C36_not_idempotent : wearCalls ([1, 2, 3, 4, 2] : List ℚ) 1 = [0, 1, 1, 1, 0] ∧
    wearCalls ([1, 2, 3, 4, 2] : List ℚ) 2 = [0, 1, 2, 2, 0] ∧
    wearCalls ([1, 2, 3, 4, 2] : List ℚ) 3 = [0, 1, 2, 3, 0] ∧ Streak ([1, 2, 3, 4, 2] : List ℚ) 0 3 := by
  refine ⟨by decide +kernel, by decide +kernel, by decide +kernel, by omega, by decide, ?_, Or.inl rfl⟩
  intro j _ h
  have : ∀ j < 3, ([1, 2, 3, 4, 2] : List ℚ).getD j 0 < ([1, 2, 3, 4, 2] : List ℚ).getD (j + 1) 0 := by
    decide +kernel
  exact this j h

/-- `C34_split` on a channel with both signs. -/
example : diagEnergies ([0, 1, 3] : List ℚ) [2, -4, 6] = (7, -6) ∧
    integral ([0, 1, 3] : List ℚ) [2, -4, 6] = 1 := by
  constructor
  · decide +kernel
  · simp [integral, Finset.sum_range_succ]; norm_num

/-- `Correctable` holds for a run of the demo hybrid in which its battery is drained. -/
theorem C35_demo : ∃ s, simDrive fns noHooks hev params (Sim.new hillStart) (some (3 / 5)) none = .ok s ∧
    Finished fns noHooks hev params s ∧ Correctable fns hev s ∧
    s.lastRow.dec.soc < s.firstRow.dec.soc := by
  have hall : (match simDrive fns noHooks hev params (Sim.new hillStart) (some (3 / 5)) none with
      | .ok s => decide ((∀ i < s.i, 1 ≤ i → 0 ≤ dtAt s.cyc i) ∧ (∀ x ∈ s.aux, 0 ≤ x) ∧
          (∃ r ∈ s.rows, 0 < r.pow.transKwInAch ∧ 0 < r.fc.fcKwOutAch) ∧
          s.lastRow.dec.soc < s.firstRow.dec.soc)
      | .error _ => false) = true := by decide +kernel
  split at hall
  · rename_i s hs
    obtain ⟨h1, h2, h3, h4⟩ := of_decide_eq_true hall
    refine ⟨s, hs, Finished.simDrive noHooks_local rfl hs, ?_, h4⟩
    exact
      { pt := rfl, notH2 := by decide, battery := ⟨rfl, by decide +kernel, by decide +kernel⟩
        kwh := by decide +kernel
        motor := ⟨by decide, by decide, by decide, by decide +kernel, by decide +kernel⟩
        peak := ⟨by decide +kernel, by decide +kernel⟩
        engine := ⟨by decide +kernel, by decide +kernel⟩
        eff := ⟨by decide, by decide, by decide +kernel⟩
        essEff := ⟨by decide +kernel, by decide +kernel⟩
        dt := fun i a b => h1 i b a
        aux := h2
        worked := h3 }
  · simp at hall

/-- **C35 refuted for fuel-cell hybrids.** A fuel-cell hybrid whose fuel cell covers the whole demand
ends with exactly the charge it started with, but the correction divides the positive motor energy by
the battery's zero discharge over the driven samples (in numpy: `inf * 0`, so the figure is NaN). -/
theorem C35_fuel_cell_divides_by_zero :
    ∃ s, simDrive fns noHooks h2 params (Sim.new [⟨0, 1, 0, 0⟩, ⟨1, 2, 0, 0⟩, ⟨2, 3, 0, 0⟩])
        (some (1 / 2)) none = .ok s ∧
      s.lastRow.dec.soc = s.firstRow.dec.soc ∧ (∃ r ∈ s.rows, 0 < r.dec.mcElecKwInAch) ∧
      ((s.rows.filter fun r => decide (0 < r.dec.mcElecKwInAch)).map fun r => r.dec.essKwOutAch).sum
        = 0 := by
  have hall : (match simDrive fns noHooks h2 params
      (Sim.new [⟨0, 1, 0, 0⟩, ⟨1, 2, 0, 0⟩, ⟨2, 3, 0, 0⟩]) (some (1 / 2)) none with
      | .ok s => decide (s.lastRow.dec.soc = s.firstRow.dec.soc ∧
          (∃ r ∈ s.rows, 0 < r.dec.mcElecKwInAch) ∧
          ((s.rows.filter fun r => decide (0 < r.dec.mcElecKwInAch)).map
            fun r => r.dec.essKwOutAch).sum = 0)
      | .error _ => false) = true := by decide +kernel
  split at hall
  · rename_i s hs
    exact ⟨s, hs, of_decide_eq_true hall⟩
  · simp at hall

end Fastsim.Props
