import Verif.Props.Braking

/-!
# C20, C21, C23: battery accounting and limits
-/

set_option linter.unusedSectionVars false

namespace Fastsim.Props
open Fastsim Spec

section Field
variable {K : Type*} [Field K] [LinearOrder K] [IsStrictOrderedRing K]
variable {F : Fns K} {H : Hooks K} {V : Veh K} {P : SimParams K}

/-- The vehicle has an electric system with a battery. -/
structure HasBattery (V : Veh K) : Prop where
  sys : V.noElecSys = false
  kw : V.essMaxKw ≠ 0
  kwh : V.essMaxKwh ≠ 0

theorem step_energy (hb : HasBattery V) (E : StepEnv K) (p : Row K) (st : Stale K) :
    p.dec.essCurKwh * 3600 - (solveStep F V P.toStepParams E p st).dec.essCurKwh * 3600 =
      ((solveStep F V P.toStepParams E p st).dec.essKwOutAch +
        essLossKw F V (solveStep F V P.toStepParams E p st)) * E.dt := by
  have he : (solveStep F V P.toStepParams E p st).dec.essCurKwh =
    essCurKwh F V E.dt p.dec.essCurKwh (solveStep F V P.toStepParams E p st).dec.essKwOutAch := rfl
  rw [he]
  unfold essCurKwh essLossKw
  simp only [hb.sys, hb.kw, hb.kwh, Bool.false_eq_true, if_false, or_self]
  split <;> ring

theorem step_soc (hb : HasBattery V) (E : StepEnv K) (p : Row K) (st : Stale K) :
    (solveStep F V P.toStepParams E p st).dec.soc * V.essMaxKwh =
      (solveStep F V P.toStepParams E p st).dec.essCurKwh := by
  have he : (solveStep F V P.toStepParams E p st).dec.soc =
    socOf V (solveStep F V P.toStepParams E p st).dec.essCurKwh := rfl
  rw [he]
  unfold socOf
  rw [if_neg hb.kwh, div_mul_cancel₀ _ hb.kwh]

/-- **C20 (state of charge is stored energy).** At every simulated index the stored energy is the
state of charge times `ess_max_kwh`. -/
theorem C20_soc_is_energy (hH : H.Local) (hb : HasBattery V) {s : Sim K} (h : Reachable F H V P s) :
    ∀ i r, i < s.i → s.rows[i]? = some r → r.dec.soc * V.essMaxKwh = r.dec.essCurKwh :=
  Reachable.row_inv hH h (fun r => r.dec.soc * V.essMaxKwh = r.dec.essCurKwh)
    (fun _ _ _ _ _ => rfl) (fun _ E st p _ _ _ _ _ _ => step_soc hb E p st)

/-- **C20 (per step).** The stored energy lost in a step is terminal power plus loss, times the
duration (3600 kJ per kWh); the loss is non-negative for a round-trip efficiency whose square root
is in `(0,1]`; charging raises and discharging lowers stored energy. -/
theorem C20_step (hH : H.Local) (hb : HasBattery V) (h0 : 0 < F.sqrt V.essRoundTripEff)
    (h1 : F.sqrt V.essRoundTripEff ≤ 1) {s : Sim K} (h : Reachable F H V P s) {i : Nat}
    {p r : Row K} {dt a : K} (hs : StepAt s i p r dt a) :
    (p.dec.essCurKwh - r.dec.essCurKwh) * 3600 = (r.dec.essKwOutAch + essLossKw F V r) * dt ∧
    0 ≤ essLossKw F V r ∧
    (0 < dt → r.dec.essKwOutAch < 0 → p.dec.essCurKwh < r.dec.essCurKwh) ∧
    (0 < dt → 0 < r.dec.essKwOutAch → r.dec.essCurKwh < p.dec.essCurKwh) ∧
    (r.dec.essKwOutAch = 0 → r.dec.essCurKwh = p.dec.essCurKwh) := by
  obtain ⟨E, st, hE, -, -, hr⟩ := StepAt.solve hH h hs
  have hstep := step_energy (F := F) (P := P) hb E p st
  rw [← hr, hE] at hstep
  have hloss : 0 ≤ essLossKw F V r := by
    unfold essLossKw
    rw [if_neg (by simp [hb.kw, hb.kwh])]
    split
    · rename_i hn; nlinarith
    · rename_i hn
      have hn := not_lt.1 hn
      have : r.dec.essKwOutAch ≤ r.dec.essKwOutAch * (1 / F.sqrt V.essRoundTripEff) :=
        le_mul_of_one_le_right hn (by rw [le_div_iff₀ h0]; linarith)
      linarith
  have hsum : (r.dec.essKwOutAch < 0 → r.dec.essKwOutAch + essLossKw F V r < 0) ∧
      (0 < r.dec.essKwOutAch → 0 < r.dec.essKwOutAch + essLossKw F V r) ∧
      (r.dec.essKwOutAch = 0 → r.dec.essKwOutAch + essLossKw F V r = 0) := by
    refine ⟨fun hn => ?_, fun hp => by linarith, fun hz => ?_⟩
    · unfold essLossKw
      rw [if_neg (by simp [hb.kw, hb.kwh]), if_pos hn]
      have := mul_neg_of_neg_of_pos hn h0
      linarith
    · unfold essLossKw
      rw [if_neg (by simp [hb.kw, hb.kwh]), hz]; simp
  refine ⟨by rw [← hstep]; ring, hloss, fun hdt hn => ?_, fun hdt hp => ?_, fun hz => ?_⟩
  · have := mul_neg_of_neg_of_pos (hsum.1 hn) hdt; linarith
  · have := mul_pos (hsum.2.1 hp) hdt; linarith
  · rw [hsum.2.2 hz, zero_mul] at hstep; linarith

/-- **C20 (whole run).** `ess_dischg_kj` equals the energy delivered at the battery terminals plus
the reported battery loss, for every run of a vehicle with a battery. -/
theorem C20_run_balance (hH : H.Local) (hb : HasBattery V) {s : Sim K} (h : Finished F H V P s) :
    essDischgKj V s = sumDt s (fun r => r.dec.essKwOutAch) + essEffKj F V s := by
  have hlen := h.lenRows hH
  have hpos := h.pos hH
  obtain ⟨soc, -, hrow0⟩ := Reachable.row0 hH h.reachable
  have hinit : (s.row 0).dec.essKwOutAch = 0 := by rw [Sim.row, hrow0]; rfl
  have hloss0 : essLossKw F V (s.row 0) = 0 := by
    unfold essLossKw; rw [hinit]; simp
  have hsum : sumDt s (fun r => r.dec.essKwOutAch) + essEffKj F V s =
      ∑ i ∈ Finset.range (s.cyc.length - 1),
        ((s.row i).dec.essCurKwh * 3600 - (s.row (i + 1)).dec.essCurKwh * 3600) := by
    unfold essEffKj
    rw [sumDt_steps s _ hlen hinit, sumDt_steps s _ hlen hloss0, ← Finset.sum_add_distrib]
    refine Finset.sum_congr rfl fun i hi => ?_
    have hi' := Finset.mem_range.1 hi
    obtain ⟨E, st, hE, -, -, hr⟩ := Reachable.rowS hH h.reachable (i + 1) (by omega)
      (by rw [h.atEnd]; omega)
    rw [Nat.add_sub_cancel] at hr
    have := step_energy (F := F) (P := P) hb E (s.row i) st
    rw [← hr, hE] at this
    rw [this]; ring
  rw [hsum, Finset.sum_range_sub']
  have hkwh : ∀ i, i < s.cyc.length → (s.row i).dec.essCurKwh = (s.row i).dec.soc * V.essMaxKwh := by
    intro i hi
    refine (C20_soc_is_energy hH hb h.reachable i _ (by rw [h.atEnd]; exact hi) ?_).symm
    rw [Sim.row, List.getD_eq_getElem?_getD, List.getElem?_eq_getElem (by omega)]; rfl
  rw [hkwh 0 hpos, hkwh (s.cyc.length - 1) (by omega)]
  have hlast : s.lastRow = s.row (s.cyc.length - 1) := by
    unfold Sim.lastRow Sim.row
    rw [List.getLast?_eq_getElem?, hlen, List.getD_eq_getElem?_getD]
  unfold essDischgKj
  rw [hlast]
  show -((s.row (s.cyc.length - 1)).dec.soc - (s.row 0).dec.soc) * V.essMaxKwh * 3600 = _
  ring

/-- **C21 (one step).** If the state of charge was in the window and battery power respects the
limits computed for the step, the state of charge stays in the window. -/
theorem C21_step_window (hH : H.Local) (hb : HasBattery V) (hk : 0 < V.essMaxKwh)
    (h0 : 0 < F.sqrt V.essRoundTripEff) {s : Sim K} (h : Reachable F H V P s) {i : Nat}
    {p r : Row K} {dt a : K} (hs : StepAt s i p r dt a) (hdt : 0 < dt)
    (hlo : V.minSoc ≤ p.dec.soc) (hhi : p.dec.soc ≤ V.maxSoc)
    (hd : r.dec.essKwOutAch ≤ r.lims.curEssMaxKwOut) (hc : -r.lims.curMaxEssChgKw ≤ r.dec.essKwOutAch) :
    V.minSoc ≤ r.dec.soc ∧ r.dec.soc ≤ V.maxSoc := by
  have hp := C20_soc_is_energy hH hb h (i - 1) p (by have := hs.lt; omega) hs.prev
  obtain ⟨E, st, hE, -, -, hr⟩ := StepAt.solve hH h hs
  have hrs := step_soc (F := F) (P := P) hb E p st
  have hrk : (solveStep F V P.toStepParams E p st).dec.essCurKwh =
    essCurKwh F V E.dt p.dec.essCurKwh (solveStep F V P.toStepParams E p st).dec.essKwOutAch := rfl
  have hl1 : (solveStep F V P.toStepParams E p st).lims.curEssMaxKwOut = curEssMaxKwOut F V E p := rfl
  have hl2 : (solveStep F V P.toStepParams E p st).lims.curMaxEssChgKw = curMaxEssChgKw F V E p := rfl
  rw [← hr] at hrs hrk hl1 hl2
  rw [hl1] at hd
  rw [hl2] at hc
  rw [hE] at hrk
  unfold essCurKwh at hrk
  simp only [hb.sys, Bool.false_eq_true, if_false] at hrk
  generalize hη : F.sqrt V.essRoundTripEff = η at *
  have hd' : r.dec.essKwOutAch ≤ V.essMaxKwh * η * 3600 * (p.dec.soc - V.minSoc) / dt := by
    refine hd.trans ((min_le_right _ _).trans (le_of_eq ?_))
    unfold essCapLimDischgKw
    rw [if_neg (by simp [hb.kwh, hlo]), hη, hE]
  have hcap : essCapLimChgKw F V E p = (V.maxSoc - p.dec.soc) * V.essMaxKwh * 3600 / (η * dt) := by
    unfold essCapLimChgKw
    rw [if_neg (by simp [hb.kw, hb.kwh]), hη, hE]
    rw [max_eq_left]
    · field_simp
    · have := sub_nonneg.2 hhi; positivity
  have hc' : -r.dec.essKwOutAch ≤ (V.maxSoc - p.dec.soc) * V.essMaxKwh * 3600 / (η * dt) := by
    rw [← hcap]
    have : -r.dec.essKwOutAch ≤ curMaxEssChgKw F V E p := by linarith
    exact this.trans (min_le_left _ _)
  have hw : V.minSoc * V.essMaxKwh ≤ r.dec.essCurKwh ∧ r.dec.essCurKwh ≤ V.maxSoc * V.essMaxKwh := by
    have e1 : r.dec.essKwOutAch * dt ≤ V.essMaxKwh * η * 3600 * (p.dec.soc - V.minSoc) := by
      rwa [le_div_iff₀ hdt] at hd'
    have e2 : -r.dec.essKwOutAch * (η * dt) ≤ (V.maxSoc - p.dec.soc) * V.essMaxKwh * 3600 := by
      rwa [le_div_iff₀ (mul_pos h0 hdt)] at hc'
    have hlok := mul_le_mul_of_nonneg_right hlo hk.le
    have hhik := mul_le_mul_of_nonneg_right hhi hk.le
    split at hrk
    · rename_i hn
      have hneg : r.dec.essKwOutAch * dt / 3600 * η ≤ 0 :=
        mul_nonpos_of_nonpos_of_nonneg
          (div_nonpos_of_nonpos_of_nonneg (mul_nonpos_of_nonpos_of_nonneg hn.le hdt.le) (by norm_num))
          h0.le
      have e3 : -(r.dec.essKwOutAch * dt / 3600 * η) ≤ (V.maxSoc - p.dec.soc) * V.essMaxKwh := by
        have : -(r.dec.essKwOutAch * dt / 3600 * η) = -r.dec.essKwOutAch * (η * dt) / 3600 := by ring
        rw [this, div_le_iff₀ (by norm_num)]; linarith
      constructor <;> rw [hrk] <;> nlinarith
    · rename_i hn
      have hn := not_lt.1 hn
      have hpos : 0 ≤ r.dec.essKwOutAch * dt / 3600 * (1 / η) := by positivity
      have e3 : r.dec.essKwOutAch * dt / 3600 * (1 / η) ≤ V.essMaxKwh * (p.dec.soc - V.minSoc) := by
        have : r.dec.essKwOutAch * dt / 3600 * (1 / η) = r.dec.essKwOutAch * dt / (3600 * η) := by
          field_simp
        rw [this, div_le_iff₀ (by positivity)]; linarith
      constructor <;> rw [hrk] <;> nlinarith
  rw [← hrs] at hw
  exact ⟨le_of_mul_le_mul_right hw.1 hk, le_of_mul_le_mul_right hw.2 hk⟩

/-- **C21 (run).** If in every step simulated so far battery power stayed within the limits computed
for that step, the state of charge never left `[min_soc, max_soc]` (hybrid, plug-in and electric
vehicles; all steps of positive duration). -/
theorem C21_run_window (hH : H.Local) (hb : HasBattery V) (hk : 0 < V.essMaxKwh)
    (h0 : 0 < F.sqrt V.essRoundTripEff) (hpt : V.ptType ≠ .conv) {s : Sim K}
    (h : Reachable F H V P s) (hdt : ∀ i, 1 ≤ i → i < s.i → 0 < dtAt s.cyc i)
    (hlim : ∀ i p r dt a, StepAt s i p r dt a → r.dec.essKwOutAch ≤ r.lims.curEssMaxKwOut ∧
      -r.lims.curMaxEssChgKw ≤ r.dec.essKwOutAch) :
    ∀ i r, i < s.i → s.rows[i]? = some r → V.minSoc ≤ r.dec.soc ∧ r.dec.soc ≤ V.maxSoc := by
  intro i
  induction i with
  | zero =>
    intro r hi hr
    obtain ⟨soc, hsoc, he⟩ := Reachable.row0 hH h
    rw [List.getD_eq_getElem?_getD, hr] at he
    simp only [Option.getD_some] at he
    rw [he]
    rcases hsoc with hc | hc
    · exact absurd hc hpt
    · exact hc
  | succ i ih =>
    intro r hi hr
    obtain ⟨p, r', dt, a, hs⟩ := stepAt_exists hH h (i := i + 1) (by omega) hi
    have : r' = r := by
      have := hs.row; rw [hr] at this; exact (Option.some.inj this).symm
    subst this
    obtain ⟨hlo, hhi⟩ := ih p (by omega) (by simpa using hs.prev)
    exact C21_step_window hH hb hk h0 h hs (by rw [hs.dt]; exact hdt _ (by omega) hi) hlo hhi
      (hlim _ _ _ _ _ hs).1 (hlim _ _ _ _ _ hs).2

/-- **C21 (limits are sharp).** Discharging at exactly the energy limit of the step ends exactly at
`min_soc`; charging at exactly the energy limit ends exactly at `max_soc`. -/
theorem C21_limits_sharp (hH : H.Local) (hb : HasBattery V) (hk : 0 < V.essMaxKwh)
    (h0 : 0 < F.sqrt V.essRoundTripEff) {s : Sim K} (h : Reachable F H V P s) {i : Nat}
    {p r : Row K} {dt a : K} (hs : StepAt s i p r dt a) (hdt : 0 < dt)
    (hlo : V.minSoc ≤ p.dec.soc) (hhi : p.dec.soc < V.maxSoc) :
    (r.dec.essKwOutAch = r.lims.essCapLimDischgKw → r.dec.soc = V.minSoc) ∧
    (r.dec.essKwOutAch = -r.lims.essCapLimChgKw → r.dec.soc = V.maxSoc) := by
  have hp := C20_soc_is_energy hH hb h (i - 1) p (by have := hs.lt; omega) hs.prev
  obtain ⟨E, st, hE, -, -, hr⟩ := StepAt.solve hH h hs
  have hrs := step_soc (F := F) (P := P) hb E p st
  have hrk : (solveStep F V P.toStepParams E p st).dec.essCurKwh =
    essCurKwh F V E.dt p.dec.essCurKwh (solveStep F V P.toStepParams E p st).dec.essKwOutAch := rfl
  have hl1 : (solveStep F V P.toStepParams E p st).lims.essCapLimDischgKw =
    essCapLimDischgKw F V E p := rfl
  have hl2 : (solveStep F V P.toStepParams E p st).lims.essCapLimChgKw = essCapLimChgKw F V E p := rfl
  rw [← hr] at hrs hrk hl1 hl2
  rw [hl1, hl2]
  rw [hE] at hrk
  unfold essCurKwh at hrk
  simp only [hb.sys, Bool.false_eq_true, if_false] at hrk
  unfold essCapLimDischgKw essCapLimChgKw
  rw [if_neg (by simp [hb.kwh, hlo]), if_neg (by simp [hb.kw, hb.kwh]), hE]
  generalize F.sqrt V.essRoundTripEff = η at *
  constructor
  · intro he
    have hnn : ¬ r.dec.essKwOutAch < 0 := by
      rw [he]
      have := sub_nonneg.2 hlo
      exact not_lt.2 (by positivity)
    rw [if_neg hnn, he, ← hp, ← hrs] at hrk
    have : r.dec.soc * V.essMaxKwh = V.minSoc * V.essMaxKwh := by
      rw [hrk]; field_simp; ring
    exact mul_right_cancel₀ hk.ne' this
  · intro he
    have hpos : 0 < (V.maxSoc - p.dec.soc) * V.essMaxKwh * 1 / η / (dt * 1 / 3600) := by
      have := sub_pos.2 hhi; positivity
    rw [max_eq_left hpos.le] at he
    have hneg : r.dec.essKwOutAch < 0 := by rw [he]; linarith
    rw [if_pos hneg, he, ← hp, ← hrs] at hrk
    have : r.dec.soc * V.essMaxKwh = V.maxSoc * V.essMaxKwh := by
      rw [hrk]; field_simp; ring
    exact mul_right_cancel₀ hk.ne' this

/-- The documented meaning of the derived flags `no_elec_sys` and `no_elec_aux` (vehicle.py:526-560)
for a vehicle without electric system, plus plausible data. -/
structure NoElec (V : Veh K) : Prop where
  sys : V.noElecSys = true
  aux : V.noElecAux = true
  why : V.essMaxKwh = 0 ∨ V.essMaxKw = 0 ∨ V.mcMaxKw = 0
  notH2 : V.fcType ≠ .h2fc
  fc : 0 < V.fcMaxKw
  mc : 0 ≤ V.mcMaxKw
  mcSec : 0 ≤ V.mcSecToPeakPwr
  ess : 0 ≤ V.essMaxKw
  trans : 0 < V.transEff

/-- **C23.** For a vehicle without electric system, in every simulated step stored energy, state of
charge, battery power, motor powers and regenerative braking are zero. -/
theorem C23_no_electric_power (hH : H.Local) (hV : NoElec V) {s : Sim K} (h : Reachable F H V P s)
    {i : Nat} {p r : Row K} {dt a : K} (hs : StepAt s i p r dt a) (hdt : 0 ≤ dt) (ha : 0 ≤ a) :
    r.dec.essCurKwh = 0 ∧ r.dec.soc = 0 ∧ r.dec.essKwOutAch = 0 ∧ r.dec.mcMechKwOutAch = 0 ∧
    r.dec.mcElecKwInAch = 0 ∧ r.pow.cycRegenBrakeKw = 0 := by
  obtain ⟨E, st, hE, hroad, hEa, rfl⟩ := StepAt.solve hH h hs
  obtain ⟨v, hv⟩ := solveStep_pow F V P.toStepParams E p st
  have hkwh : (solveStep F V P.toStepParams E p st).dec.essCurKwh = 0 := by
    show essCurKwh F V E.dt p.dec.essCurKwh _ = 0
    simp [essCurKwh, hV.sys]
  have hsoc : (solveStep F V P.toStepParams E p st).dec.soc = 0 := by
    show socOf V (solveStep F V P.toStepParams E p st).dec.essCurKwh = 0
    rw [hkwh]; simp [socOf]
  -- what the motor can absorb
  have hmechIn : curMaxMechMcKwIn F V E p ≤ 0 := by
    have hc : V.mcMaxKw ≠ 0 → curMaxEssChgKw F V E p = 0 := by
      intro hm
      have hor : V.essMaxKwh = 0 ∨ V.essMaxKw = 0 := by
        rcases hV.why with h | h | h
        · exact Or.inl h
        · exact Or.inr h
        · exact absurd h hm
      unfold curMaxEssChgKw essCapLimChgKw
      rw [if_pos hor]; exact min_eq_left hV.ess
    unfold curMaxMechMcKwIn
    simp only
    split
    · exact le_rfl
    · rename_i hne
      have hm : V.mcMaxKw = 0 := by by_contra hm; exact hne (hc hm)
      split
      · exact (min_le_left _ _).trans hm.le
      · exact (min_le_left _ _).trans hm.le
  have hregen : (solveStep F V P.toStepParams E p st).pow.cycRegenBrakeKw = 0 := by
    rw [hv]
    show max (min (curMaxMechMcKwIn F V E p * V.transEff) _) 0 = 0
    exact max_eq_right ((min_le_left _ _).trans (mul_nonpos_of_nonpos_of_nonneg hmechIn hV.trans.le))
  -- motor mechanical power
  have hmech : (solveStep F V P.toStepParams E p st).dec.mcMechKwOutAch = 0 := by
    by_cases hm : V.mcMaxKw = 0
    · show mcMechKwOutAch V E _ _ _ _ = 0
      simp [mcMechKwOutAch, hm]
    · have hor : V.essMaxKwh = 0 ∨ V.essMaxKw = 0 := by
        rcases hV.why with h | h | h
        · exact Or.inl h
        · exact Or.inr h
        · exact absurd h hm
      have hdis : curEssMaxKwOut F V E p ≤ 0 := by
        unfold curEssMaxKwOut essCapLimDischgKw
        rcases hor with h | h
        · rw [if_pos (Or.inl h)]; exact min_le_right _ _
        · rw [h]; exact min_le_left _ _
      have hchg : curMaxEssChgKw F V E p = 0 := by
        unfold curMaxEssChgKw essCapLimChgKw
        rw [if_pos hor]; exact min_eq_left hV.ess
      have hmechIn0 : curMaxMechMcKwIn F V E p = 0 := by
        unfold curMaxMechMcKwIn; simp [hchg]
      have helec : curMaxElecKw F V E p ≤ 0 := by
        unfold curMaxElecKw; rw [if_neg hV.notH2, hroad, hEa]; linarith
      have hlim : mcElecInLimKw F V E p = 0 := by
        unfold mcElecInLimKw; rw [if_neg (not_lt.2 helec)]
      have hmco : curMaxMcKwOut F V E p = 0 := by
        unfold curMaxMcKwOut
        rw [hlim]
        have ht : 0 ≤ mcTransiLimKw V E p := by
          unfold mcTransiLimKw
          refine add_nonneg ?_ (mul_nonneg (div_nonneg hV.mc hV.mcSec) (by rw [hE]; exact hdt))
          unfold pabs; split <;> linarith
        rw [min_eq_left ht, min_eq_left, max_eq_left]
        · have := hV.mc; linarith
        · split
          · simp
          · simpa using hV.mc
      have hcan : canPwrAllElec V E p.dec.soc (setCompLims F V P.toStepParams E p (setMisc V E p))
          (solveStep F V P.toStepParams E p st).pow = false := by
        have h1 : ¬ elecKwReq4ae V E (solveStep F V P.toStepParams E p st).pow <
            curMaxElecKw F V E p := by
          unfold elecKwReq4ae; rw [hV.sys, if_pos rfl]; exact not_lt.2 helec
        unfold canPwrAllElec
        simp [setCompLims, h1, hV.fc.ne']
      have hmk : ∀ L : Lims K, ∀ hy : Hyb K, mcKwIfFcReq V E L hy = 0 := by
        intro L hy; unfold mcKwIfFcReq; simp [hV.sys]
      have hcan' : (solveStep F V P.toStepParams E p st).hyb.canPwrAllElec = false := hcan
      show mcMechKwOutAch V E (setCompLims F V P.toStepParams E p (setMisc V E p))
          (solveStep F V P.toStepParams E p st).pow (solveStep F V P.toStepParams E p st).hyb
          (solveStep F V P.toStepParams E p st).forced = 0
      have hL : (setCompLims F V P.toStepParams E p (setMisc V E p)).curMaxMechMcKwIn = 0 := hmechIn0
      unfold mcMechKwOutAch
      simp only [hm, if_false, hcan', Bool.false_eq_true, false_and, and_false, hL, hmk,
        hV.notH2, hV.fc, ne_eq, not_false_eq_true, and_self, if_true]
      split
      · rename_i htin
        have hz : min 0 (-(solveStep F V P.toStepParams E p st).pow.transKwInAch) = 0 :=
          min_eq_left (by linarith)
        rw [hz, neg_zero]
        exact min_eq_left (le_max_right _ _)
      · rename_i htin
        have htin := not_lt.1 (fun hc => htin (le_of_lt hc))
        rw [max_eq_right]
        -- minimum motor power to help the engine is not positive
        rw [solveStep_in] at htin
        have houtpos : 0 < (solveStep F V P.toStepParams E p st).pow.transKwOutAch := by
          by_contra hc
          rename_i h'
          apply h'
          rw [solveStep_in]
          unfold transKwIn
          rw [if_neg hc]
          exact mul_nonpos_of_nonpos_of_nonneg (not_lt.1 hc) hV.trans.le
        have hmin : (solveStep F V P.toStepParams E p st).pow.minMcKw2helpFc ≤ 0 := by
          have hle : (solveStep F V P.toStepParams E p st).pow.transKwOutAch ≤
              curMaxTransKwOut F V P.toStepParams E p (setMisc V E p) := by
            rw [solveStep_out]; exact min_le_right _ _
          have hlim' : curMaxTransKwOut F V P.toStepParams E p (setMisc V E p) ≤
              curMaxFcKwOut V E p * V.transEff := by
            by_cases hco : E.coast = true
            · have : curMaxTransKwOut F V P.toStepParams E p (setMisc V E p) = 0 := by
                unfold curMaxTransKwOut; rw [if_pos hco]
              rw [this] at hle; exact absurd houtpos (not_lt.2 hle)
            · unfold curMaxTransKwOut
              rw [if_neg hco]
              simp only [hV.notH2, if_false, hV.sys, Bool.true_or, if_true, hmco, hEa]
              refine (min_le_left _ _).trans (mul_le_mul_of_nonneg_right ?_ hV.trans.le)
              linarith
          have htin2 : (solveStep F V P.toStepParams E p st).pow.transKwInAch ≤
              curMaxFcKwOut V E p := by
            rw [solveStep_in]
            unfold transKwIn
            rw [if_pos houtpos, div_le_iff₀ hV.trans]
            exact hle.trans hlim'
          rw [hv] at htin2 ⊢
          have hmm : (powerAt F V P.toStepParams E p
              (setCompLims F V P.toStepParams E p (setMisc V E p)) v).minMcKw2helpFc =
              if (powerAt F V P.toStepParams E p
                (setCompLims F V P.toStepParams E p (setMisc V E p)) v).cycMet then
                if V.fcType = .h2fc then max (powerAt F V P.toStepParams E p
                  (setCompLims F V P.toStepParams E p (setMisc V E p)) v).transKwInAch
                  (-curMaxMechMcKwIn F V E p)
                else max ((powerAt F V P.toStepParams E p
                  (setCompLims F V P.toStepParams E p (setMisc V E p)) v).transKwInAch
                    - curMaxFcKwOut V E p) (-curMaxMechMcKwIn F V E p)
              else max (curMaxMcKwOut F V E p) (-curMaxMechMcKwIn F V E p) := rfl
          rw [hmm, hmechIn0, hmco, if_neg hV.notH2]
          split
          · exact max_le (by linarith) (by simp)
          · simp
        exact hmin
  have helecz : (solveStep F V P.toStepParams E p st).dec.mcElecKwInAch = 0 := by
    show mcElecKwInAch V (solveStep F V P.toStepParams E p st).dec.mcMechKwOutAch = 0
    rw [hmech]; simp [mcElecKwInAch]
  refine ⟨hkwh, hsoc, ?_, hmech, helecz, hregen⟩
  have he : (solveStep F V P.toStepParams E p st).dec.essKwOutAch =
      essKwOutAch V E (setMisc V E p) (setCompLims F V P.toStepParams E p (setMisc V E p))
        (solveStep F V P.toStepParams E p st).pow (solveStep F V P.toStepParams E p st).hyb
        (solveStep F V P.toStepParams E p st).dec.mcElecKwInAch
        (solveStep F V P.toStepParams E p st).dec.roadwayChgKwOutAch := rfl
  have hrd : (solveStep F V P.toStepParams E p st).dec.roadwayChgKwOutAch = 0 := by
    show roadwayChgKwOutAch V E _ _ _ = 0
    simp [roadwayChgKwOutAch, hroad]
  rw [he, helecz, hrd]
  unfold essKwOutAch
  simp [hV.notH2, hV.aux]

end Field

/-! ### Non-vacuity and witnesses -/
open Demo

/-- The hybrid demo car has a battery, the demo run stays within its battery limits and its battery
both delivers energy and keeps within the window. -/
example : HasBattery hev ∧ (0:ℚ) < fns.sqrt hev.essRoundTripEff ∧ fns.sqrt hev.essRoundTripEff ≤ 1 ∧
    (rowsOf (Demo.run hev (3 / 5))).length = 6 ∧
    ∀ r ∈ (rowsOf (Demo.run hev (3 / 5))).tail, 0 < r.dec.essKwOutAch ∧
      r.dec.essKwOutAch ≤ r.lims.curEssMaxKwOut ∧ -r.lims.curMaxEssChgKw ≤ r.dec.essKwOutAch := by
  refine ⟨⟨rfl, by decide +kernel, by decide +kernel⟩, by decide +kernel, by decide +kernel,
    by decide +kernel, ?_⟩
  have : ((rowsOf (Demo.run hev (3 / 5))).tail.all fun r => decide (0 < r.dec.essKwOutAch ∧
      r.dec.essKwOutAch ≤ r.lims.curEssMaxKwOut ∧ -r.lims.curMaxEssChgKw ≤ r.dec.essKwOutAch))
      = true := by decide +kernel
  intro r hr
  exact of_decide_eq_true (List.all_eq_true.1 this r hr)

/-- The conventional demo car has no electric system. -/
example : NoElec conv :=
  ⟨rfl, rfl, by decide +kernel, by decide, by decide +kernel, by decide +kernel, by decide +kernel,
    by decide +kernel, by decide +kernel⟩

/-- **C21 refuted without the proviso.** The accessory load alone drains an exhausted battery below
`min_soc`: the electric demo car starts at `min_soc`, stands still and is below `min_soc` one second
later. -/
theorem C21_soc_leaves_window :
    ∃ s r, simDrive fns noHooks bev params (Sim.new standStill) (some bev.minSoc) none = .ok s ∧
      s.rows[1]? = some r ∧ r.dec.soc < bev.minSoc := by
  have hall : (match simDrive fns noHooks bev params (Sim.new standStill) (some bev.minSoc) none with
      | .ok s => (match s.rows[1]? with
        | some r => decide (r.dec.soc < bev.minSoc)
        | none => false)
      | .error _ => false) = true := by decide +kernel
  split at hall
  · rename_i s hs
    split at hall
    · rename_i r hr
      exact ⟨s, r, hs, hr, of_decide_eq_true hall⟩
    · simp at hall
  · simp at hall

/-- A vehicle with a battery but without a motor: `no_elec_sys` is set. -/
def batteryOnly : Veh ℚ := { conv with essMaxKw := 10, essMaxKwh := 1 }

/-- **C20 refuted for vehicles flagged as having no electric system but owning a battery.** Battery
power is zero throughout, yet `ess_dischg_kj` reports the whole initial charge as discharged. -/
theorem C20_phantom_discharge :
    ∃ s, simDrive fns noHooks batteryOnly params (Sim.new cyc) (some (1 / 2)) none = .ok s ∧
      sumDt s (fun r => r.dec.essKwOutAch) = 0 ∧ essEffKj fns batteryOnly s = 0 ∧
      essDischgKj batteryOnly s = 1800 := by
  have hall : (match simDrive fns noHooks batteryOnly params (Sim.new cyc) (some (1 / 2)) none with
      | .ok s => decide (sumDt s (fun r => r.dec.essKwOutAch) = 0 ∧
          essEffKj fns batteryOnly s = 0 ∧ essDischgKj batteryOnly s = 1800)
      | .error _ => false) = true := by decide +kernel
  split at hall
  · rename_i s hs
    exact ⟨s, hs, of_decide_eq_true hall⟩
  · simp at hall

end Fastsim.Props
