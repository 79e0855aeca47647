import Verif.Lemmas.Step
import Verif.Lemmas.Basic
import Verif.Spec.Demo

/-!
# C16, C17, C24: engine output, fuel and battery-electric vehicles

`Reachable F H V P s` (Verif.Spec.Sim) covers every object state between two steps, in every
driving mode, for arbitrary car-following and coasting functions that leave the past alone.
-/

set_option linter.unusedSectionVars false

namespace Fastsim.Props
open Fastsim Spec

section Lawless
variable {K : Type*} [Zero K] [One K] [NatCast K] [Add K] [Sub K] [Mul K] [Div K] [Neg K]
  [LinearOrder K]
variable {F : Fns K} {H : Hooks K} {V : Veh K} {P : SimParams K}

/-- **C16 (upper bounds, any rounding).** In every simulated step engine output is at most
`fc_max_kw`, and at most the previous output plus `fc_max_kw / fc_sec_to_peak_pwr * dt`. -/
theorem C16_engine_upper (hH : H.Local) {s : Sim K} (h : Reachable F H V P s) {i : Nat}
    {p r : Row K} {dt a : K} (hs : StepAt s i p r dt a) :
    r.fc.fcKwOutAch ≤ V.fcMaxKw ∧
    (V.fcMaxKw ≠ 0 → r.fc.fcKwOutAch ≤ p.fc.fcKwOutAch + V.fcMaxKw / V.fcSecToPeakPwr * dt) := by
  obtain ⟨E, st, h1, -, -, rfl⟩ := StepAt.solve hH h hs
  subst h1
  have key : V.fcMaxKw ≠ 0 → (solveStep F V P.toStepParams E p st).fc.fcKwOutAch ≤
      min V.fcMaxKw (p.fc.fcKwOutAch + V.fcMaxKw / V.fcSecToPeakPwr * E.dt) := by
    intro h0
    simp only [solveStep, setFcPower, fcKwOutAch, if_neg h0]
    split
    · exact min_le_left _ _
    · split <;> exact min_le_left _ _
  refine ⟨?_, fun h0 => (key h0).trans (min_le_right _ _)⟩
  by_cases h0 : V.fcMaxKw = 0
  · simp [solveStep, setFcPower, fcKwOutAch, h0]
  · exact (key h0).trans (min_le_left _ _)

/-- **C24 (no fuel).** With `fc_max_kw = 0` engine output, engine input, fuel power and fuel energy
of every simulated step are zero, for any rounding (fuel energy: if `0 * x = 0`). -/
theorem C24_no_fuel (hH : H.Local) (hz : ∀ x : K, 0 * x = 0) (h0 : V.fcMaxKw = 0) {s : Sim K}
    (h : Reachable F H V P s) {i : Nat} {p r : Row K} {dt a : K} (hs : StepAt s i p r dt a) :
    r.fc.fcKwOutAch = 0 ∧ r.fc.fcKwInAch = 0 ∧ r.fc.fsKwOutAch = 0 ∧ r.fc.fsKwhOutAch = 0 := by
  obtain ⟨E, st, -, -, -, rfl⟩ := StepAt.solve hH h hs
  have : fcKwOutAch V E (solveStep F V P.toStepParams E p st).misc
      (solveStep F V P.toStepParams E p st).lims (solveStep F V P.toStepParams E p st).pow
      (solveStep F V P.toStepParams E p st).dec = 0 := by simp [fcKwOutAch, h0]
  have hi : fcKwInAch V (0 : K) = 0 := by simp [fcKwInAch]
  simp only [solveStep] at this ⊢
  simp only [setFcPower, this, hi, hz, and_self]

end Lawless

section Field
variable {K : Type*} [Field K] [LinearOrder K] [IsStrictOrderedRing K]
variable {F : Fns K} {H : Hooks K} {V : Veh K} {P : SimParams K}

/-- Engine data make sense: ratings and time constant are non-negative. -/
structure EngineOk (V : Veh K) : Prop where
  max : 0 ≤ V.fcMaxKw
  sec : 0 ≤ V.fcSecToPeakPwr

/-- All step durations simulated so far are non-negative. -/
def DtNonneg (s : Sim K) : Prop := ∀ i, 1 ≤ i → i < s.i → 0 ≤ dtAt s.cyc i

theorem engine_nonneg (hH : H.Local) (hV : EngineOk V) {s : Sim K} (h : Reachable F H V P s)
    (hdt : DtNonneg s) : ∀ i r, i < s.i → s.rows[i]? = some r → 0 ≤ r.fc.fcKwOutAch := by
  refine Reachable.row_inv hH h (fun r => 0 ≤ r.fc.fcKwOutAch) ?_ ?_
  · intro soc mps aux _ _; exact le_rfl
  · intro i E st p h1 h2 hE _ _ hp
    have hlim : 0 ≤ curMaxFcKwOut V E p := by
      refine le_min hV.max (add_nonneg hp (mul_nonneg (div_nonneg hV.max hV.sec) ?_))
      rw [hE]; exact hdt i h1 h2
    simp only [solveStep, setFcPower, fcKwOutAch]
    split
    · exact le_rfl
    · split
      · exact le_min hlim (le_max_left _ _)
      · split <;> exact le_min hlim (le_max_left _ _)

/-- **C16.** In every simulated step `0 ≤ fc_kw_out_ach ≤ fc_max_kw` and engine output grows by at
most `fc_max_kw / fc_sec_to_peak_pwr * dt` over the previous step; the reported load fraction is
between 0 and 1. -/
theorem C16_engine_output (hH : H.Local) (hV : EngineOk V) {s : Sim K} (h : Reachable F H V P s)
    (hdt : DtNonneg s) {i : Nat} {p r : Row K} {dt a : K} (hs : StepAt s i p r dt a) :
    0 ≤ r.fc.fcKwOutAch ∧ r.fc.fcKwOutAch ≤ V.fcMaxKw ∧
    r.fc.fcKwOutAch ≤ p.fc.fcKwOutAch + V.fcMaxKw / V.fcSecToPeakPwr * dt ∧
    0 ≤ r.fc.fcKwOutAchPct ∧ r.fc.fcKwOutAchPct ≤ 1 := by
  have hr0 := engine_nonneg hH hV h hdt i r hs.lt hs.row
  have hp0 := engine_nonneg hH hV h hdt (i - 1) p (by have := hs.lt; omega) hs.prev
  obtain ⟨hu, hramp⟩ := C16_engine_upper hH h hs
  have hdt' : 0 ≤ dt := by rw [hs.dt]; exact hdt i hs.pos hs.lt
  have hpct : r.fc.fcKwOutAchPct =
      if r.fc.fcKwOutAch = 0 then 0 else if V.fcMaxKw = 0 then 0 else r.fc.fcKwOutAch / V.fcMaxKw := by
    obtain ⟨E, st, -, -, -, rfl⟩ := StepAt.solve hH h hs
    rfl
  refine ⟨hr0, hu, ?_, ?_, ?_⟩
  · by_cases h0 : V.fcMaxKw = 0
    · rw [h0] at hu ⊢
      have : r.fc.fcKwOutAch = 0 := le_antisymm hu hr0
      rw [this, zero_div, zero_mul, add_zero]; exact hp0
    · exact hramp h0
  · rw [hpct]
    split
    · exact le_rfl
    · split
      · exact le_rfl
      · exact div_nonneg hr0 hV.max
  · rw [hpct]
    split
    · exact zero_le_one
    · split
      · exact zero_le_one
      · rename_i h0
        exact div_le_one_of_le₀ hu hV.max

/-- The efficiency map of the engine: one value per tabulated output, each in `(0, 1]`. -/
structure EffOk (V : Veh K) : Prop where
  nonempty : V.fcEffArray ≠ []
  len : V.fcKwOutArray.length ≤ V.fcEffArray.length
  range : ∀ e ∈ V.fcEffArray, 0 < e ∧ e ≤ 1

theorem fcEffAt_range (hV : EffOk V) (x : K) : 0 < fcEffAt V x ∧ fcEffAt V x ≤ 1 :=
  hV.range _ (lookupM1_mem _ _ _ hV.nonempty hV.len)

theorem fcKwIn_ge (hV : EffOk V) {x : K} (hx : 0 ≤ x) : x ≤ fcKwInAch V x := by
  have he := fcEffAt_range hV x
  unfold fcKwInAch
  split
  · rename_i h; exact h.le
  · rw [if_pos (ne_of_gt he.1)]
    rw [le_div_iff₀ he.1]
    exact mul_le_of_le_one_right hx he.2

/-- **C17 (per step).** Fuel power is at least engine output, hence non-negative, in every simulated
step; fuel energy is non-negative. -/
theorem C17_fuel_power (hH : H.Local) (hV : EngineOk V) (hE : EffOk V) {s : Sim K}
    (h : Reachable F H V P s) (hdt : DtNonneg s) {i : Nat} {p r : Row K} {dt a : K}
    (hs : StepAt s i p r dt a) :
    0 ≤ r.fc.fcKwOutAch ∧ r.fc.fcKwOutAch ≤ r.fc.fsKwOutAch ∧ r.fc.fcKwInAch = r.fc.fsKwOutAch ∧
    r.fc.fsKwhOutAch = r.fc.fsKwOutAch * dt / 3600 ∧ 0 ≤ r.fc.fsKwhOutAch := by
  have hr0 := engine_nonneg hH hV h hdt i r hs.lt hs.row
  have hdt' : 0 ≤ dt := by rw [hs.dt]; exact hdt i hs.pos hs.lt
  obtain ⟨E, st, h1, -, -, rfl⟩ := StepAt.solve hH h hs
  have hge := fcKwIn_ge hE hr0
  have hkwh : (solveStep F V P.toStepParams E p st).fc.fsKwhOutAch =
      (solveStep F V P.toStepParams E p st).fc.fsKwOutAch * dt / 3600 := by
    rw [← h1]
    have : (solveStep F V P.toStepParams E p st).fc.fsKwhOutAch =
      (solveStep F V P.toStepParams E p st).fc.fsKwOutAch * E.dt * (1 / 3600) := rfl
    rw [this]; ring
  refine ⟨hr0, hge, rfl, hkwh, ?_⟩
  rw [hkwh]
  exact div_nonneg (mul_nonneg (hr0.trans hge) hdt') (by norm_num)

/-- **C17 (totals).** After a run, total fuel energy and fuel-converter losses are non-negative,
total fuel is non-negative, and cumulative fuel never decreases along the cycle. -/
theorem C17_totals (hH : H.Local) (hV : EngineOk V) (hE : EffOk V) {s : Sim K}
    (h : Finished F H V P s) (hdt : DtNonneg s) :
    0 ≤ fuelKj s ∧ 0 ≤ fcKj s ∧ 0 ≤ totalFuelKwh s ∧
    ∀ (i j : Nat) (x y : K), i ≤ j → (fsCumuMj s)[i]? = some x → (fsCumuMj s)[j]? = some y → 0 ≤ x ∧ x ≤ y := by
  have hlen := h.lenRows hH
  have hnn : ∀ i p r dt a, StepAt s i p r dt a → 0 ≤ r.fc.fsKwOutAch * dt := by
    intro i p r dt a hs
    obtain ⟨a1, a2, -⟩ := C17_fuel_power hH hV hE h.reachable hdt hs
    exact mul_nonneg (a1.trans a2) (by rw [hs.dt]; exact hdt i hs.pos hs.lt)
  refine ⟨?_, ?_, ?_, ?_⟩
  · exact Finished.sumDt_nonneg hH h _ (fun _ _ _ => rfl) hnn
  · refine Finished.sumDt_nonneg hH h _ (fun _ _ _ => sub_self _) ?_
    intro i p r dt a hs
    obtain ⟨a1, a2, a3, -⟩ := C17_fuel_power hH hV hE h.reachable hdt hs
    exact mul_nonneg (by rw [a3]; linarith) (by rw [hs.dt]; exact hdt i hs.pos hs.lt)
  · unfold totalFuelKwh
    rw [npSum_eq]
    refine List.sum_nonneg fun x hx => ?_
    obtain ⟨r, hr, rfl⟩ := List.mem_map.1 hx
    obtain ⟨i, hi, hri⟩ := List.getElem_of_mem hr
    by_cases h0 : i = 0
    · obtain ⟨soc, -, he⟩ := Reachable.row0 hH h.reachable
      subst h0
      rw [List.getD_eq_getElem?_getD, List.getElem?_eq_getElem hi, hri] at he
      simp only [Option.getD_some] at he
      rw [he]; exact le_rfl
    · obtain ⟨p, r', dt, a, hs⟩ := stepAt_exists hH h.reachable (i := i) (by omega)
        (by rw [h.atEnd, ← hlen]; exact hi)
      have : r' = r := by
        have := hs.row
        rw [List.getElem?_eq_getElem hi, hri] at this
        exact (Option.some.inj this).symm
      subst this
      exact (C17_fuel_power hH hV hE h.reachable hdt hs).2.2.2.2
  · -- every summand is non-negative
    have hall : ∀ x ∈ List.zipWith (fun (r : Row K) dt => r.fc.fsKwOutAch * dt) s.rows (dtS s.cyc),
        0 ≤ x := by
      intro x hx
      obtain ⟨i, hi, hxi⟩ := List.getElem_of_mem hx
      have hi' : i < s.rows.length := by simp at hi; omega
      have hi'' : i < (dtS s.cyc).length := by simp at hi; omega
      rw [List.getElem_zipWith] at hxi
      rw [← hxi]
      by_cases h0 : i = 0
      · obtain ⟨soc, -, he⟩ := Reachable.row0 hH h.reachable
        subst h0
        rw [List.getD_eq_getElem?_getD, List.getElem?_eq_getElem hi'] at he
        simp only [Option.getD_some] at he
        rw [he]
        have : (Row.init V soc (s.cyc0.speeds.getD 0 0) (s.aux.getD 0 0)).fc.fsKwOutAch = (0 : K) := rfl
        rw [this, zero_mul]
      · have := Finished.forall_rows hH h (fun r dt => 0 ≤ r.fc.fsKwOutAch * dt) hnn i (by omega)
          (by omega)
        rw [← dtS_get s.cyc i (by omega) (by omega)] at this
        rw [List.getD_eq_getElem?_getD, List.getElem?_eq_getElem hi', List.getD_eq_getElem?_getD,
          List.getElem?_eq_getElem hi''] at this
        exact this
    intro i j x y hij hx hy
    unfold fsCumuMj at hx hy
    generalize hL : List.zipWith (fun (r : Row K) dt => r.fc.fsKwOutAch * dt) s.rows (dtS s.cyc) = L at *
    rw [List.getElem?_map] at hx hy
    have hgi : ∀ k z, ((cumsum L)[k]?).map (· * (1 / 1000)) = some z →
        z = (L.take (k + 1)).sum * (1 / 1000) := by
      intro k z hz
      by_cases hk : k < L.length
      · rw [cumsum_get L k hk] at hz
        exact (Option.some.inj hz).symm
      · rw [List.getElem?_eq_none (by rw [cumsum_length]; omega)] at hz
        simp at hz
    rw [hgi i x hx, hgi j y hy]
    have hpos : 0 ≤ (L.take (i + 1)).sum :=
      List.sum_nonneg fun z hz => hall z (List.mem_of_mem_take hz)
    refine ⟨mul_nonneg hpos (by norm_num), mul_le_mul_of_nonneg_right ?_ (by norm_num)⟩
    have : L.take (j + 1) = L.take (i + 1) ++ (L.take (j + 1)).drop (i + 1) := by
      have := (List.take_append_drop (i + 1) (L.take (j + 1))).symm
      rwa [List.take_take, Nat.min_eq_left (by omega)] at this
    rw [this, List.sum_append]
    have : 0 ≤ ((L.take (j + 1)).drop (i + 1)).sum :=
      List.sum_nonneg fun z hz => hall z (List.mem_of_mem_take (List.mem_of_mem_drop hz))
    linarith

/-- **C24 (totals).** A vehicle with `fc_max_kw = 0` uses no fuel over a run and its reported
economy in miles per gallon is the placeholder 0. -/
theorem C24_no_fuel_total (hH : H.Local) (h0 : V.fcMaxKw = 0) {s : Sim K} (h : Finished F H V P s)
    (kwhPerGge : K) : fuelKj s = 0 ∧ totalFuelKwh s = 0 ∧ mpgge kwhPerGge s = 0 ∧
      ∀ x ∈ fsCumuMj s, x = 0 := by
  have hlen := h.lenRows hH
  have hrow : ∀ i, i < s.rows.length →
      (s.rows.getD i Row.zero).fc.fsKwOutAch = 0 ∧ (s.rows.getD i Row.zero).fc.fsKwhOutAch = 0 := by
    intro i hi
    by_cases hi0 : i = 0
    · obtain ⟨soc, -, he⟩ := Reachable.row0 hH h.reachable
      subst hi0
      rw [he]
      exact ⟨rfl, rfl⟩
    · exact Finished.forall_rows hH h (fun r _ => r.fc.fsKwOutAch = 0 ∧ r.fc.fsKwhOutAch = 0)
        (fun i p r dt a hs => by
          obtain ⟨-, -, a, b⟩ := C24_no_fuel hH zero_mul h0 h.reachable hs
          exact ⟨a, b⟩) i (by omega) (by omega)
  have hfs : ∀ r ∈ s.rows, r.fc.fsKwOutAch = 0 ∧ r.fc.fsKwhOutAch = 0 := by
    intro r hr
    obtain ⟨i, hi, hri⟩ := List.getElem_of_mem hr
    have := hrow i hi
    rw [List.getD_eq_getElem?_getD, List.getElem?_eq_getElem hi, hri] at this
    exact this
  have hzip : List.zipWith (fun (r : Row K) dt => r.fc.fsKwOutAch * dt) s.rows (dtS s.cyc) =
      List.replicate s.rows.length 0 := by
    apply List.ext_getElem
    · simp [dtS_length, hlen]
    · intro i h1 h2
      simp only [List.getElem_zipWith, List.getElem_replicate]
      rw [(hfs _ (List.getElem_mem _)).1, zero_mul]
  have hfuel : fuelKj s = 0 := by
    simp only [fuelKj, sumDt, hzip, npSum_eq]
    simp
  have hkwh : totalFuelKwh s = 0 := by
    unfold totalFuelKwh
    rw [npSum_eq]
    refine List.sum_eq_zero fun x hx => ?_
    obtain ⟨r, hr, rfl⟩ := List.mem_map.1 hx
    exact (hfs r hr).2
  refine ⟨hfuel, hkwh, by simp [mpgge, hkwh], ?_⟩
  intro x hx
  unfold fsCumuMj at hx
  rw [hzip] at hx
  obtain ⟨y, hy, rfl⟩ := List.mem_map.1 hx
  obtain ⟨i, hi, hyi⟩ := List.getElem_of_mem hy
  have := cumsum_get (List.replicate s.rows.length (0 : K)) i (by simpa [cumsum_length] using hi)
  rw [List.getElem?_eq_getElem hi, hyi] at this
  rw [Option.some.inj this]
  simp

/-- **C24 (battery power).** For a vehicle without engine (not of the fuel-cell kind) that has a
battery, battery power of a step is motor electric power plus accessory load, *unless* the latch for
low charge is set, as it is when the state of charge before the step was below `min_soc`
(`C24_above_window`, `C67_latch`: exactly when), or the vehicle's accessories are flagged as
non-electric: then the accessory load is simply dropped from the battery balance. -/
theorem C24_battery_power (hH : H.Local) (hz : V.fcType ≠ .h2fc)
    (hb : V.essMaxKw ≠ 0) (hb' : V.essMaxKwh ≠ 0) (ha : V.noElecAux = false) {s : Sim K}
    (h : Reachable F H V P s) {i : Nat} {p r : Row K} {dt a : K} (hs : StepAt s i p r dt a) :
    (r.misc.highAccFcOnTag = false → r.dec.essKwOutAch = r.dec.mcElecKwInAch + a) ∧
    (r.misc.highAccFcOnTag = true → r.dec.essKwOutAch = r.dec.mcElecKwInAch) ∧
    (p.dec.soc < V.minSoc → r.misc.highAccFcOnTag = true) := by
  obtain ⟨E, st, -, hroad, hE, rfl⟩ := StepAt.solve hH h hs
  have hr : ∀ L : Lims K, ∀ hy : Hyb K, ∀ x, roadwayChgKwOutAch V E L hy x = 0 := by
    intro L hy x; simp [roadwayChgKwOutAch, hroad]
  refine ⟨fun ht => ?_, fun ht => ?_, fun hp => ?_⟩
  · simp only [solveStep] at ht ⊢
    simp only [setDec, essKwOutAch, hr, hb, hb', hz, ht, ha, hE]
    simp
  · simp only [solveStep] at ht ⊢
    simp only [setDec, essKwOutAch, hr, hb, hb', hz, ht]
    simp
  · simp [solveStep, setMisc, hp]

/-- Motor tables: at least two efficiencies, all but the first positive and at most one, and power
arrays that are not longer. -/
structure MotorOk (V : Veh K) : Prop where
  len : 1 < V.mcFullEffArray.length
  lenIn : V.mcKwInArray.length ≤ V.mcFullEffArray.length
  lenOut : V.mcKwOutArray.length ≤ V.mcFullEffArray.length
  pos : ∀ e ∈ V.mcFullEffArray.tail, 0 < e
  le_one : ∀ e ∈ V.mcFullEffArray.tail, e ≤ 1

theorem MotorOk.last_mem (hM : MotorOk V) :
    V.mcFullEffArray.getLast?.getD 0 ∈ V.mcFullEffArray.tail := by
  have h := hM.len
  rcases hl : V.mcFullEffArray with _ | ⟨a, _ | ⟨b, l⟩⟩
  · rw [hl] at h; simp at h
  · rw [hl] at h; simp at h
  · rw [List.getLast?_cons_cons, List.tail_cons, List.getLast?_eq_some_getLast (by simp)]
    exact List.getLast_mem (by simp)

theorem MotorOk.in_mem (hM : MotorOk V) (x : K) :
    lookupMax1 V.mcKwInArray V.mcFullEffArray x ∈ V.mcFullEffArray.tail :=
  lookupMax1_mem _ _ _ hM.len hM.lenIn

theorem MotorOk.out_mem (hM : MotorOk V) (x : K) :
    lookupMax1 V.mcKwOutArray V.mcFullEffArray x ∈ V.mcFullEffArray.tail :=
  lookupMax1_mem _ _ _ hM.len hM.lenOut

/-- Motor electric power has the sign of motor mechanical power and differs from it by a loss. -/
theorem mcElec_sign (hM : MotorOk V) (m : K) :
    (m < 0 → mcElecKwInAch V m < 0) ∧ (0 < m → 0 < mcElecKwInAch V m) ∧ m ≤ mcElecKwInAch V m := by
  have hn : ∀ e ∈ V.mcFullEffArray.tail, m < 0 → m * e < 0 ∧ m ≤ m * e := fun e he hm =>
    ⟨mul_neg_of_neg_of_pos hm (hM.pos e he), le_mul_of_le_one_right hm.le (hM.le_one e he)⟩
  have hp : ∀ e ∈ V.mcFullEffArray.tail, 0 < m → 0 < m / e ∧ m ≤ m / e := fun e he hm =>
    ⟨div_pos hm (hM.pos e he), by
      rw [le_div_iff₀ (hM.pos e he)]; exact mul_le_of_le_one_right hm.le (hM.le_one e he)⟩
  unfold mcElecKwInAch
  by_cases h0 : m = 0
  · subst h0; simp
  rw [if_neg h0]
  by_cases hm : m < 0
  · rw [if_pos hm]
    have hnp : ¬ 0 < m := not_lt.2 hm.le
    split
    · have := hn _ hM.last_mem hm; exact ⟨fun _ => this.1, fun h => absurd h hnp, this.2⟩
    · have := hn _ (hM.in_mem (min (listMax V.mcKwInArray - 1 / 100) (m * -1))) hm
      exact ⟨fun _ => this.1, fun h => absurd h hnp, this.2⟩
  · rw [if_neg hm]
    have hpos : 0 < m := lt_of_le_of_ne (not_lt.1 hm) (Ne.symm h0)
    split
    · have := hp _ hM.last_mem hpos; exact ⟨fun h => absurd h hm, fun _ => this.1, this.2⟩
    · have := hp _ (hM.out_mem (min (V.mcMaxKw - 1 / 100) m)) hpos
      exact ⟨fun h => absurd h hm, fun _ => this.1, this.2⟩

/-- **C24/C21 refuted, for all inputs.** Whatever the cycle asks for (standstill included), a
vehicle without engine whose state of charge was below `min_soc` before a step *charges* its battery
in that step as soon as there is an accessory load: the accessory load is charged to the missing
engine, which makes the transmission limit negative, and the motor regenerates from it. -/
theorem C24_exhausted_bev_charges (hH : H.Local) (hM : MotorOk V) (hc : P.coastAllow = false)
    (hd : P.idmAllow = false) (hfc : V.fcMaxKw = 0) (hz : V.fcType ≠ .h2fc)
    (hb : 0 < V.essMaxKw) (hb' : 0 < V.essMaxKwh) (hmc : 0 < V.mcMaxKw) (hte : 0 < V.transEff)
    (hsq : 0 < F.sqrt V.essRoundTripEff) (hwin : V.minSoc < V.maxSoc) (hne : V.noElecSys = false)
    {s : Sim K} (h : Reachable F H V P s) {i : Nat} {p r : Row K} {dt a : K}
    (hs : StepAt s i p r dt a) (hdt : 0 < dt) (ha : 0 < a) (hsoc : p.dec.soc < V.minSoc) :
    r.dec.essKwOutAch < 0 ∧ p.dec.essCurKwh < r.dec.essCurKwh ∧ r.fc.fsKwOutAch = 0 := by
  refine ⟨?_, ?_, (C24_no_fuel hH zero_mul hfc h hs).2.2.1⟩
  all_goals
    obtain ⟨hI, hR⟩ := Reachable.recInv hc hd h
    obtain ⟨st, -, hr⟩ := hR.solved i hs.pos hs.lt
    rw [List.getD_eq_getElem?_getD, hs.prev, hs.row] at hr
    have hr := Option.some.inj hr
    simp only [Option.getD_some] at hr
    have hEdt : (recordedEnv s i).dt = dt := hs.dt.symm
    have hEa : (recordedEnv s i).auxIn = a := by
      show s.aux.getD i 0 = a
      rw [List.getD_eq_getElem?_getD, hs.aux]; rfl
    have hEc : (recordedEnv s i).coast = false := rfl
    have hEr : (recordedEnv s i).roadKw = 0 := rfl
    generalize recordedEnv s i = E at *
    have htag : (setMisc V E p).highAccFcOnTag = true := by simp [setMisc, hsoc]
    have hess : curEssMaxKwOut F V E p = 0 := by
      simp [curEssMaxKwOut, essCapLimDischgKw, hsoc, hb.le]
    have helec : curMaxElecKw F V E p = -a := by simp [curMaxElecKw, hz, hEr, hess, hEa]
    have hlim : mcElecInLimKw F V E p = 0 := by
      unfold mcElecInLimKw; rw [if_neg]; rw [helec]; linarith
    have hmco : curMaxMcKwOut F V E p ≤ 0 := by
      unfold curMaxMcKwOut
      rw [hlim]
      exact max_le ((min_le_left _ _).trans (min_le_left _ _)) (by linarith)
    have hfco : curMaxFcKwOut V E p ≤ 0 := by
      unfold curMaxFcKwOut; rw [hfc]; exact min_le_left _ _
    have htr : curMaxTransKwOut F V P.toStepParams E p (setMisc V E p) < 0 := by
      unfold curMaxTransKwOut
      simp only [hEc, hz, htag, Bool.or_true, if_true, if_false, Bool.false_eq_true, hEa]
      refine lt_of_le_of_lt (min_le_left _ _) (mul_neg_of_neg_of_pos ?_ hte)
      linarith
    have hout : (solveStep F V P.toStepParams E p st).pow.transKwOutAch < 0 := by
      rw [solveStep_out]
      exact lt_of_le_of_lt (min_le_right _ _) htr
    have hin : (solveStep F V P.toStepParams E p st).pow.transKwInAch < 0 := by
      rw [solveStep_in]
      unfold transKwIn
      rw [if_neg (not_lt.2 hout.le)]
      exact mul_neg_of_neg_of_pos hout hte
    have hchg : 0 < curMaxEssChgKw F V E p := by
      unfold curMaxEssChgKw essCapLimChgKw
      rw [if_neg (by simp [hb.ne', hb'.ne'])]
      refine lt_min (lt_max_of_lt_left ?_) hb
      have : 0 < V.maxSoc - p.dec.soc := by linarith
      rw [hEdt]
      positivity
    have hmech : 0 < curMaxMechMcKwIn F V E p := by
      unfold curMaxMechMcKwIn
      simp only [hchg.ne', if_false]
      split
      · exact lt_min hmc (div_pos hchg (hM.pos _ hM.last_mem))
      · exact lt_min hmc (div_pos hchg (hM.pos _ (hM.out_mem _)))
    have hacc : canPwrAllElec V E p.dec.soc (setCompLims F V P.toStepParams E p (setMisc V E p))
        (solveStep F V P.toStepParams E p st).pow = false := by
      have : ¬ accelBuffSoc V E < p.dec.soc := by
        unfold accelBuffSoc
        rw [hne]
        simp only [Bool.false_eq_true, if_false]
        refine not_lt.2 (hsoc.le.trans (le_min (le_max_right _ _) hwin.le))
      unfold canPwrAllElec
      simp [this]
    have hdec : (solveStep F V P.toStepParams E p st).dec.mcMechKwOutAch < 0 := by
      have he : (solveStep F V P.toStepParams E p st).dec.mcMechKwOutAch =
        mcMechKwOutAch V E (setCompLims F V P.toStepParams E p (setMisc V E p))
          (solveStep F V P.toStepParams E p st).pow (solveStep F V P.toStepParams E p st).hyb
          (solveStep F V P.toStepParams E p st).forced := rfl
      have hcan : (solveStep F V P.toStepParams E p st).hyb.canPwrAllElec = false := hacc
      rw [he]
      unfold mcMechKwOutAch
      simp only [hmc.ne', hcan, hin.le, hfc, lt_irrefl, if_false, if_true, and_false, false_and,
        Bool.false_eq_true]
      refine lt_of_le_of_lt (min_le_left _ _) ?_
      have : 0 < min (curMaxMechMcKwIn F V E p)
          (-(solveStep F V P.toStepParams E p st).pow.transKwInAch) := lt_min hmech (by linarith)
      simpa [setCompLims] using this
    have hEss : (solveStep F V P.toStepParams E p st).dec.essKwOutAch < 0 := by
      have he : (solveStep F V P.toStepParams E p st).dec.essKwOutAch =
          mcElecKwInAch V (solveStep F V P.toStepParams E p st).dec.mcMechKwOutAch := by
        simp only [solveStep, setDec, essKwOutAch, roadwayChgKwOutAch, hEr, hb.ne', hb'.ne', hz, htag]
        simp
      rw [he]
      exact (mcElec_sign hM _).1 hdec
  · rw [hr]; exact hEss
  · have he : (solveStep F V P.toStepParams E p st).dec.essCurKwh =
        essCurKwh F V E.dt p.dec.essCurKwh (solveStep F V P.toStepParams E p st).dec.essKwOutAch := rfl
    rw [hr, he]
    unfold essCurKwh
    rw [hne]
    simp only [Bool.false_eq_true, if_false, hEss, if_true, hEdt]
    have : (solveStep F V P.toStepParams E p st).dec.essKwOutAch * dt / 3600
        * F.sqrt V.essRoundTripEff < 0 :=
      mul_neg_of_neg_of_pos (div_neg_of_neg_of_pos (mul_neg_of_neg_of_pos hEss hdt) (by norm_num)) hsq
    linarith

end Field

/-! ### Non-vacuity and witnesses -/

open Demo

theorem noHooks_local : noHooks.Local :=
  ⟨fun s s' h => by simp only [noHooks, Except.ok.injEq] at h; subst h
                    exact ⟨AgreeBefore.refl _ _, rfl, rfl⟩,
   fun s s' h => by simp only [noHooks, Except.ok.injEq] at h; subst h
                    exact ⟨AgreeBefore.refl _ _, rfl, rfl⟩⟩

/-- The conventional demo car finishes the demo cycle, is a reachable state, its data meet the
hypotheses, and the engine does run and burn fuel. -/
example : ∃ s, Demo.run conv (1 / 2) = .ok s ∧ Finished fns noHooks conv params s ∧
    EngineOk conv ∧ EffOk conv ∧ (s.rows.getD 1 Row.zero).fc.fcKwOutAch = 3301759 / 810000 ∧
    (s.rows.getD 1 Row.zero).fc.fsKwOutAch = 3301759 / 162000 := by
  obtain ⟨s, hs⟩ : ∃ s, Demo.run conv (1 / 2) = .ok s := by
    have : (match Demo.run conv (1 / 2) with | .ok _ => true | .error _ => false) = true := by
      decide +kernel
    cases h : Demo.run conv (1 / 2) with
    | ok s => exact ⟨s, rfl⟩
    | error e => rw [h] at this; simp at this
  have hrow : ((rowsOf (Demo.run conv (1 / 2))).getD 1 Row.zero).fc.fcKwOutAch = 3301759 / 810000 ∧
      ((rowsOf (Demo.run conv (1 / 2))).getD 1 Row.zero).fc.fsKwOutAch = 3301759 / 162000 := by
    decide +kernel
  rw [hs] at hrow
  exact ⟨s, hs, Finished.simDrive noHooks_local rfl hs, ⟨by decide +kernel, by decide +kernel⟩,
    ⟨by decide, by decide, by decide +kernel⟩, hrow.1, hrow.2⟩

/-- A battery-electric car that starts at its minimum state of charge and stands still. -/
def standStill : Cyc ℚ := [⟨0, 0, 0, 0⟩, ⟨1, 0, 0, 0⟩, ⟨2, 0, 0, 0⟩, ⟨3, 0, 0, 0⟩]

/-- **C24 refuted part.** "A battery-electric vehicle's battery power is accessory plus motor
power" fails: with a half kilowatt of accessories the exhausted battery delivers it in the first
step; in the following steps, although the recorded accessory load stays half a kilowatt, the
battery is *charged*, by a car that is asked to stand still. -/
theorem C24_accessory_power_vanishes :
    ∃ s, simDrive fns noHooks bev params (Sim.new standStill) (some (1 / 20)) none = .ok s ∧
      s.aux = [0, 1 / 2, 1 / 2, 1 / 2] ∧
      s.rows.map (fun r => r.dec.essKwOutAch) = [0, 1 / 2, -81 / 250, -81 / 250] ∧
      s.rows.map (fun r => r.dec.mcElecKwInAch) = [0, 0, -81 / 250, -81 / 250] ∧
      s.rows.map (fun r => r.fc.fcKwOutAch) = [0, 0, 0, 0] := by
  have hall : (match simDrive fns noHooks bev params (Sim.new standStill) (some (1 / 20)) none with
      | .ok s => decide (s.aux = [0, 1 / 2, 1 / 2, 1 / 2] ∧
          s.rows.map (fun r => r.dec.essKwOutAch) = [0, 1 / 2, -81 / 250, -81 / 250] ∧
          s.rows.map (fun r => r.dec.mcElecKwInAch) = [0, 0, -81 / 250, -81 / 250] ∧
          s.rows.map (fun r => r.fc.fcKwOutAch) = [0, 0, 0, 0])
      | .error _ => false) = true := by decide +kernel
  split at hall
  · rename_i s hs
    exact ⟨s, hs, of_decide_eq_true hall⟩
  · simp at hall

/-- The demo car meets the hypotheses of `C24_exhausted_bev_charges`; its steps 2 and 3 above start
below `min_soc`. -/
example : MotorOk bev ∧ bev.fcMaxKw = 0 ∧ 0 < bev.essMaxKw ∧ 0 < bev.essMaxKwh ∧ 0 < bev.mcMaxKw ∧
    0 < bev.transEff ∧ 0 < fns.sqrt bev.essRoundTripEff ∧ bev.minSoc < bev.maxSoc ∧
    ((rowsOf (simDrive fns noHooks bev params (Sim.new standStill) (some (1 / 20)) none)).map
      fun r => decide (r.dec.soc < bev.minSoc)) = [false, true, true, false] := by
  refine ⟨⟨by decide, by decide, by decide, by decide +kernel, by decide +kernel⟩, ?_⟩
  decide +kernel

end Fastsim.Props
