import Verif.Props.Harder

set_option linter.unusedSectionVars false

/-!
# C91: what a trip takes out of the battery of a battery-electric vehicle
-/

namespace Fastsim.Spec
section Field
variable {K : Type*} [Field K] [LinearOrder K] [IsStrictOrderedRing K]

/-- A battery-electric vehicle that runs its accessories from the battery. -/
structure BevData (V : Veh K) : Prop where
  type : V.ptType = .bev
  engine : V.fcMaxKw = 0
  cell : V.fcType ≠ .h2fc
  motor : V.mcMaxKw ≠ 0
  battery : 0 < V.essMaxKw
  capacity : 0 < V.essMaxKwh
  system : V.noElecSys = false
  aux : V.noElecAux = false
  trans0 : 0 < V.transEff
  trans1 : V.transEff ≤ 1

/-- Share of the braking that the controller leaves to the motor: it fades out at low speed (mph). -/
def regenShare (F : Fns K) (V : Veh K) (v0 v : K) : K :=
  V.maxRegen / (1 + V.regenA * F.exp (-V.regenB * (avgSpeed v0 v * mphPerMps + 1)))

/-- Mechanical power of the motor when it alone has to drive and brake: the road load through the transmission, or the
motor's share of the braking through the transmission. -/
def motorDutyKw (F : Fns K) (V : Veh K) (P : StepParams K) (dt grade v0 v : K) : K :=
  let load := roadLoadKw F V P dt grade v0 v
  let out := max load (-max 0 (regenShare F V v0 v * -load))
  if 0 < out then out / V.transEff else out * V.transEff

/-- Power taken out of the cells of the battery for a power `e` at its terminals: the loss has the same factor either way. -/
def cellKw (F : Fns K) (V : Veh K) (e : K) : K :=
  if e < 0 then e * F.sqrt V.essRoundTripEff else e / F.sqrt V.essRoundTripEff

/-- No limit of the battery or the motor is felt in the run: the trace is met, the motor can drive alone, the motor may
brake as much as the controller asks, and the accessories are not dropped. -/
structure Unlimited (V : Veh K) (s : Sim K) : Prop where
  met : MeetsTrace s
  drive : ∀ i p r dt a, StepAt s i p r dt a → 0 < r.pow.transKwInAch → r.hyb.canPwrAllElec = true
  brake : ∀ i p r dt a, StepAt s i p r dt a →
    r.pow.regenContrlLimKwPerc * -r.pow.cycWhlKwReq ≤ r.lims.curMaxMechMcKwIn * V.transEff
  charge : ∀ i p r dt a, StepAt s i p r dt a → r.misc.highAccFcOnTag = false

end Field
end Fastsim.Spec

namespace Fastsim.Props
open Fastsim Spec

section Field
variable {K : Type*} [Field K] [LinearOrder K] [IsStrictOrderedRing K]
variable {F : Fns K} {H : Hooks K} {V : Veh K} {P : SimParams K}

/-- The step of `C91_motor_duty`, from what is known about that step. -/
theorem motor_duty_step (hH : H.Local) (hc : P.coastAllow = false) (hd : P.idmAllow = false)
    (hm : P.missedTrace = false) (hV : BevData V) {s : Sim K} (h : Reachable F H V P s) {i : Nat}
    {p r : Row K} {dt a : K} (hs : StepAt s i p r dt a) (hask : r.ach.mpsAch = askedMps s i)
    (hmet : r.pow.cycTransKwOutReq ≤ r.lims.curMaxTransKwOut)
    (hdrv : 0 < r.pow.transKwInAch → r.hyb.canPwrAllElec = true)
    (hbrk : r.pow.regenContrlLimKwPerc * -r.pow.cycWhlKwReq ≤ r.lims.curMaxMechMcKwIn * V.transEff)
    (hchg : r.misc.highAccFcOnTag = false) :
    r.dec.mcMechKwOutAch = motorDutyKw F V P.toStepParams dt (recordedGrade s i) p.ach.mpsAch r.ach.mpsAch ∧
    r.dec.essKwOutAch = r.dec.mcElecKwInAch + a ∧ r.dec.mcElecKwInAch = mcElecKwInAch V r.dec.mcMechKwOutAch := by
  have hbat := (C24_battery_power hH hV.cell hV.battery.ne' hV.capacity.ne' hV.aux h hs).1 hchg
  obtain ⟨-, hR⟩ := Reachable.recInv hc hd h
  obtain ⟨st, hst, hrow⟩ := hR.solved i hs.pos hs.lt
  obtain rfl := hst hm
  rw [hs.row, List.getD_eq_getElem?_getD (i := i - 1), hs.prev] at hrow
  have hr := Option.some.inj hrow
  simp only [Option.getD_some] at hr
  have hdt : (recordedEnv s i).dt = dt := hs.dt.symm
  have hmps : (recordedEnv s i).mps = askedMps s i := rfl
  rw [← hask] at hmps
  have hg : ∀ v, (recordedEnv s i).gradeOf v = recordedGrade s i := fun _ => rfl
  generalize recordedEnv s i = E at *
  have hel : r.dec.mcElecKwInAch = mcElecKwInAch V r.dec.mcMechKwOutAch := by rw [hr]; rfl
  refine ⟨?_, hbat, hel⟩
  have e := solveStep_pow_fresh (F := F) (V := V) P.toStepParams E p Stale.fresh rfl
  rw [← hr] at e
  have hl : setCompLims F V P.toStepParams E p (setMisc V E p) = r.lims := by rw [hr]; rfl
  rw [hl] at e
  have hperc : r.pow.regenContrlLimKwPerc = regenShare F V p.ach.mpsAch r.ach.mpsAch := by
    have : r.pow.regenContrlLimKwPerc = regenContrlLimKwPerc F V p.ach.mpsAch E.mps := by rw [e]; rfl
    rw [this, hmps]
    unfold regenContrlLimKwPerc regenShare avgSpeed
    rw [show (r.ach.mpsAch * mphPerMps + p.ach.mpsAch * mphPerMps) / 2 + 1 =
      (p.ach.mpsAch + r.ach.mpsAch) / 2 * mphPerMps + 1 by ring]
  have hwhl : r.pow.cycWhlKwReq = roadLoadKw F V P.toStepParams dt (recordedGrade s i) p.ach.mpsAch r.ach.mpsAch := by
    rw [e, whlReq_eq, hg, hdt]
  have hreg : r.pow.cycRegenBrakeKw = max 0 (r.pow.regenContrlLimKwPerc * -r.pow.cycWhlKwReq) := by
    have : r.pow.cycRegenBrakeKw =
        regenBrakeKw V r.lims.curMaxMechMcKwIn r.pow.regenContrlLimKwPerc r.pow.cycWhlKwReq := by rw [e]; rfl
    rw [this, regenBrakeKw, min_eq_right hbrk, max_comm]
  have hreq := outReq_eq (F := F) (V := V) (P := P) E p r.lims r.ach.mpsAch
  rw [← e, hg, hdt, ← hwhl] at hreq
  have hout : r.pow.transKwOutAch = r.pow.cycTransKwOutReq := by
    have : r.pow.transKwOutAch = if r.pow.cycTransKwOutReq ≤ r.lims.curMaxTransKwOut then r.pow.cycTransKwOutReq
        else r.lims.curMaxTransKwOut := by rw [e]; rfl
    rw [this, if_pos hmet]
  have hin : r.pow.transKwInAch = transKwIn V r.pow.transKwOutAch := by rw [hr, solveStep_in]
  have hduty : motorDutyKw F V P.toStepParams dt (recordedGrade s i) p.ach.mpsAch r.ach.mpsAch = r.pow.transKwInAch := by
    rw [hin, hout, hreq, hreg, hperc, hwhl]; rfl
  rw [hduty]
  have hdec : r.dec.mcMechKwOutAch = mcMechKwOutAch V E r.lims r.pow r.hyb r.forced := by rw [hr]; rfl
  unfold mcMechKwOutAch at hdec
  simp only at hdec
  rw [if_neg hV.motor, if_neg (by simp [hV.type])] at hdec
  rw [hdec]
  split
  · rename_i htin
    rw [if_neg (by simp [hV.engine])]
    rcases htin.lt_or_eq with hneg | h0
    · have hon : r.pow.cycTransKwOutReq < 0 := by
        by_contra hn
        have : 0 ≤ transKwIn V r.pow.transKwOutAch := by
          rw [hout]
          unfold transKwIn
          split
          · rename_i h1; exact (div_pos h1 hV.trans0).le
          · exact mul_nonneg (not_lt.1 hn) hV.trans0.le
        rw [← hin] at this
        exact absurd hneg (not_lt.2 this)
      have hin' : r.pow.transKwInAch = r.pow.cycTransKwOutReq * V.transEff := by
        rw [hin, hout, transKwIn, if_neg (not_lt.2 hon.le)]
      have hle : -r.pow.cycTransKwOutReq ≤ r.pow.cycRegenBrakeKw := by
        have := le_max_right r.pow.cycWhlKwReq (-r.pow.cycRegenBrakeKw)
        rw [← hreq] at this
        linarith
      have hpos : 0 < r.pow.regenContrlLimKwPerc * -r.pow.cycWhlKwReq := by
        by_contra hn
        rw [hreg, max_eq_left (not_lt.1 hn)] at hle
        linarith
      have hM : -r.pow.transKwInAch ≤ r.lims.curMaxMechMcKwIn := by
        have k1 : -r.pow.cycTransKwOutReq ≤ r.lims.curMaxMechMcKwIn * V.transEff := by
          refine hle.trans ?_
          rw [hreg, max_eq_right hpos.le]; exact hbrk
        have k2 : 0 < r.lims.curMaxMechMcKwIn := pos_of_mul_pos_left (hpos.trans_le hbrk) hV.trans0.le
        have k3 : r.lims.curMaxMechMcKwIn * V.transEff ≤ r.lims.curMaxMechMcKwIn :=
          mul_le_of_le_one_right k2.le hV.trans1
        have k4 : -r.pow.cycTransKwOutReq * V.transEff ≤ -r.pow.cycTransKwOutReq :=
          mul_le_of_le_one_right (by linarith) hV.trans1
        rw [hin']; linarith
      rw [min_eq_right hM, neg_neg, min_eq_left (by linarith)]
    · rw [h0, neg_zero]
      rcases le_total r.lims.curMaxMechMcKwIn 0 with hx | hx
      · rw [min_eq_left hx, min_eq_right (by linarith)]
      · rw [min_eq_right hx, neg_zero, min_self]
  · rename_i htin
    rw [if_pos (hdrv (not_le.1 htin))]

/-- **C91 (one step).** While no limit is felt, the motor power of a battery-electric vehicle is a function of speeds, grade
and duration of the step, whatever the charge; the battery supplies the motor and the accessories. -/
theorem C91_motor_duty (hH : H.Local) (hc : P.coastAllow = false) (hd : P.idmAllow = false)
    (hm : P.missedTrace = false) (hV : BevData V) {s : Sim K} (h : Reachable F H V P s) (hu : Unlimited V s) {i : Nat}
    {p r : Row K} {dt a : K} (hs : StepAt s i p r dt a) :
    r.dec.mcMechKwOutAch = motorDutyKw F V P.toStepParams dt (recordedGrade s i) p.ach.mpsAch r.ach.mpsAch ∧
    r.dec.essKwOutAch = r.dec.mcElecKwInAch + a ∧ r.dec.mcElecKwInAch = mcElecKwInAch V r.dec.mcMechKwOutAch :=
  motor_duty_step hH hc hd hm hV h hs (hu.met _ _ _ _ _ hs).1 (hu.met _ _ _ _ _ hs).2 (hu.drive _ _ _ _ _ hs)
    (hu.brake _ _ _ _ _ hs) (hu.charge _ _ _ _ _ hs)

/-- Power drawn from the cells rises with the power at the terminals, with slopes between the factor of the loss and its
inverse. -/
theorem cellKw_slope (h0 : 0 < F.sqrt V.essRoundTripEff) (h1 : F.sqrt V.essRoundTripEff ≤ 1) {e e' : K} (he : e ≤ e') :
    F.sqrt V.essRoundTripEff * (e' - e) ≤ cellKw F V e' - cellKw F V e ∧
    cellKw F V e' - cellKw F V e ≤ (e' - e) / F.sqrt V.essRoundTripEff := by
  generalize hq : F.sqrt V.essRoundTripEff = q at *
  have hdiv : ∀ x : K, 0 ≤ x → x * q ≤ x / q := by
    intro x hx
    rw [le_div_iff₀ h0, mul_assoc]
    exact mul_le_of_le_one_right hx (mul_le_one₀ h1 h0.le h1)
  unfold cellKw
  rw [hq]
  split <;> split
  · have := hdiv (e' - e) (by linarith)
    constructor <;> nlinarith
  · rename_i a b; linarith
  · rename_i a b
    have k1 := hdiv e' (not_lt.1 a)
    have k2 := hdiv (-e) (by linarith)
    rw [sub_div]
    rw [neg_mul, neg_div] at k2
    constructor <;> nlinarith
  · have := hdiv (e' - e) (by linarith)
    rw [← sub_div]
    exact ⟨by rw [mul_comm]; exact this, le_rfl⟩

/-- Charge drawn in a step. -/
theorem cell_step (hH : H.Local) (hV : BevData V) {s : Sim K} (h : Reachable F H V P s) {i : Nat} {p r : Row K}
    {dt a : K} (hs : StepAt s i p r dt a) :
    (p.dec.soc - r.dec.soc) * V.essMaxKwh * 3600 = cellKw F V r.dec.essKwOutAch * dt := by
  have hb : HasBattery V := ⟨hV.system, hV.battery.ne', hV.capacity.ne'⟩
  have k1 := C20_soc_is_energy hH hb h (i - 1) p (by have := hs.lt; omega) hs.prev
  have k2 := C20_soc_is_energy hH hb h i r hs.lt hs.row
  obtain ⟨E, st, hE, -, -, hr⟩ := StepAt.solve hH h hs
  have hstep := step_energy (F := F) (P := P) hb E p st
  rw [← hr, hE] at hstep
  rw [sub_mul, k1, k2, sub_mul, hstep]
  congr 1
  unfold essLossKw cellKw
  rw [if_neg (by simp [hb.kw, hb.kwh])]
  split <;> ring

section Pair
variable {s s' : Sim K}

/-- The steps of two runs on the same cycle. -/
theorem step_pair (hH : H.Local) (h : Finished F H V P s) (h' : Finished F H V P s') (hcyc : s'.cyc = s.cyc) {i : Nat}
    (h1 : 1 ≤ i) (hi : i < s.cyc.length) :
    StepAt s i (s.row (i - 1)) (s.row i) (dtAt s.cyc i) (s.aux.getD i 0) ∧
    StepAt s' i (s'.row (i - 1)) (s'.row i) (dtAt s.cyc i) (s'.aux.getD i 0) := by
  have key : ∀ {t : Sim K}, Finished F H V P t → i < t.cyc.length →
      StepAt t i (t.row (i - 1)) (t.row i) (dtAt t.cyc i) (t.aux.getD i 0) := by
    intro t ht hlt
    obtain ⟨p, r, dt, a, hs⟩ := stepAt_exists hH ht.reachable h1 (by rw [ht.atEnd]; exact hlt)
    have e1 : t.row i = r := by rw [Sim.row, List.getD_eq_getElem?_getD, hs.row]; rfl
    have e3 : t.row (i - 1) = p := by rw [Sim.row, List.getD_eq_getElem?_getD, hs.prev]; rfl
    have e5 : t.aux.getD i 0 = a := by rw [List.getD_eq_getElem?_getD, hs.aux]; rfl
    rw [e1, e3, e5, ← hs.dt]
    exact hs
  refine ⟨key h hi, ?_⟩
  have := key h' (by rw [hcyc]; exact hi)
  rwa [hcyc] at this

/-- Speeds of two runs that meet the trace. -/
theorem speeds_pair (hH : H.Local) (h : Finished F H V P s) (h' : Finished F H V P s') (hcyc : s'.cyc = s.cyc)
    (hcyc0 : s'.cyc0 = s.cyc0) (hu : MeetsTrace s) (hu' : MeetsTrace s') {i : Nat} (hi : i < s.cyc.length) :
    (s'.row i).ach.mpsAch = (s.row i).ach.mpsAch := by
  rcases Nat.eq_zero_or_pos i with rfl | hpos
  · obtain ⟨soc, -, t0⟩ := Reachable.row0 hH h.reachable
    obtain ⟨soc', -, t0'⟩ := Reachable.row0 hH h'.reachable
    rw [Sim.row, Sim.row, t0, t0', hcyc0]; rfl
  · obtain ⟨k, k'⟩ := step_pair hH h h' hcyc hpos hi
    rw [(hu _ _ _ _ _ k).1, (hu' _ _ _ _ _ k').1, askedMps, askedMps, hcyc]

/-- **C91 (same duty).** Two runs of a battery-electric vehicle on the same trace in which no limit is felt have the same
motor power in every step, whatever the charge they start from and the accessories in use. -/
theorem C91_same_duty (hH : H.Local) (hc : P.coastAllow = false) (hd : P.idmAllow = false) (hm : P.missedTrace = false)
    (hV : BevData V) (h : Finished F H V P s) (h' : Finished F H V P s') (hcyc : s'.cyc = s.cyc) (hcyc0 : s'.cyc0 = s.cyc0)
    (hu : Unlimited V s) (hu' : Unlimited V s') {i : Nat} (h1 : 1 ≤ i) (hi : i < s.cyc.length) :
    (s'.row i).dec.mcMechKwOutAch = (s.row i).dec.mcMechKwOutAch ∧
    (s'.row i).dec.mcElecKwInAch = (s.row i).dec.mcElecKwInAch ∧
    (s'.row i).dec.essKwOutAch - (s.row i).dec.essKwOutAch = s'.aux.getD i 0 - s.aux.getD i 0 := by
  obtain ⟨k, k'⟩ := step_pair hH h h' hcyc h1 hi
  obtain ⟨m, e, l⟩ := C91_motor_duty hH hc hd hm hV h.reachable hu k
  obtain ⟨m', e', l'⟩ := C91_motor_duty hH hc hd hm hV h'.reachable hu' k'
  have q0 := speeds_pair hH h h' hcyc hcyc0 hu.met hu'.met (i := i - 1) (by omega)
  have q1 := speeds_pair hH h h' hcyc hcyc0 hu.met hu'.met hi
  have hg : recordedGrade s' i = recordedGrade s i := by unfold recordedGrade; rw [hcyc, hcyc0]
  have hmm : (s'.row i).dec.mcMechKwOutAch = (s.row i).dec.mcMechKwOutAch := by rw [m, m', q0, q1, hg]
  have hll : (s'.row i).dec.mcElecKwInAch = (s.row i).dec.mcElecKwInAch := by rw [l, l', hmm]
  refine ⟨hmm, hll, ?_⟩
  rw [e, e', hll]; ring

/-- **C91 (accessories).** Of two such runs, the one with more accessory load has at every moment drawn more charge. The
difference is the extra accessory energy, up to the loss of the battery in one direction. -/
theorem C91_accessories (hH : H.Local) (hc : P.coastAllow = false) (hd : P.idmAllow = false) (hm : P.missedTrace = false)
    (hV : BevData V) (hr0 : 0 < F.sqrt V.essRoundTripEff) (hr1 : F.sqrt V.essRoundTripEff ≤ 1) (h : Finished F H V P s)
    (h' : Finished F H V P s') (hcyc : s'.cyc = s.cyc) (hcyc0 : s'.cyc0 = s.cyc0) (hu : Unlimited V s)
    (hu' : Unlimited V s') (hdt : DtNonneg s) (haa : ∀ i, s.aux.getD i 0 ≤ s'.aux.getD i 0) :
    ∀ i, i < s.cyc.length →
      F.sqrt V.essRoundTripEff * (∑ k ∈ Finset.range i, (s'.aux.getD (k + 1) 0 - s.aux.getD (k + 1) 0) * dtAt s.cyc (k + 1))
        ≤ ((s'.row 0).dec.soc - (s'.row i).dec.soc) * V.essMaxKwh * 3600 -
          ((s.row 0).dec.soc - (s.row i).dec.soc) * V.essMaxKwh * 3600 ∧
      ((s'.row 0).dec.soc - (s'.row i).dec.soc) * V.essMaxKwh * 3600 -
          ((s.row 0).dec.soc - (s.row i).dec.soc) * V.essMaxKwh * 3600 ≤
        (∑ k ∈ Finset.range i, (s'.aux.getD (k + 1) 0 - s.aux.getD (k + 1) 0) * dtAt s.cyc (k + 1))
          / F.sqrt V.essRoundTripEff := by
  intro i
  induction i with
  | zero => intro _; simp
  | succ i ih =>
    intro hi
    obtain ⟨k, k'⟩ := step_pair hH h h' hcyc (i := i + 1) (by omega) hi
    simp only [Nat.add_sub_cancel] at k k'
    have c := cell_step hH hV h.reachable k
    have c' := cell_step hH hV h'.reachable k'
    have d := (C91_same_duty hH hc hd hm hV h h' hcyc hcyc0 hu hu' (i := i + 1) (by omega) hi).2.2
    have hle : (s.row (i + 1)).dec.essKwOutAch ≤ (s'.row (i + 1)).dec.essKwOutAch := by
      have := haa (i + 1); linarith
    obtain ⟨b1, b2⟩ := cellKw_slope (F := F) (V := V) hr0 hr1 hle
    rw [d] at b1 b2
    have hdt0 : 0 ≤ dtAt s.cyc (i + 1) := hdt (i + 1) (by omega) (by rw [h.atEnd]; exact hi)
    have c1 := mul_le_mul_of_nonneg_right b1 hdt0
    have c2 := mul_le_mul_of_nonneg_right b2 hdt0
    obtain ⟨i1, i2⟩ := ih (by omega)
    rw [Finset.sum_range_succ]
    generalize dtAt s.cyc (i + 1) = x at *
    generalize cellKw F V (s'.row (i + 1)).dec.essKwOutAch = y' at *
    generalize cellKw F V (s.row (i + 1)).dec.essKwOutAch = y at *
    generalize F.sqrt V.essRoundTripEff = q at *
    rw [mul_add, add_div]
    rw [div_mul_eq_mul_div] at c2
    rw [mul_assoc] at c1
    constructor <;> nlinarith

/-- **C91 (accessories, whole trip).** -/
theorem C91_trip (hH : H.Local) (hc : P.coastAllow = false) (hd : P.idmAllow = false) (hm : P.missedTrace = false)
    (hV : BevData V) (hr0 : 0 < F.sqrt V.essRoundTripEff) (hr1 : F.sqrt V.essRoundTripEff ≤ 1) (h : Finished F H V P s)
    (h' : Finished F H V P s') (hcyc : s'.cyc = s.cyc) (hcyc0 : s'.cyc0 = s.cyc0) (hu : Unlimited V s)
    (hu' : Unlimited V s') (hdt : DtNonneg s) (haa : ∀ i, s.aux.getD i 0 ≤ s'.aux.getD i 0)
    (ht : s.cyc.times.getD 0 0 = 0) :
    F.sqrt V.essRoundTripEff * (auxKj s' - auxKj s) ≤ essDischgKj V s' - essDischgKj V s ∧
    essDischgKj V s' - essDischgKj V s ≤ (auxKj s' - auxKj s) / F.sqrt V.essRoundTripEff ∧
    totalMiles s' = totalMiles s := by
  have hlen := h.lenRows hH
  have hlen' := h'.lenRows hH
  have hpos := h.pos hH
  have hfin := C91_accessories hH hc hd hm hV hr0 hr1 h h' hcyc hcyc0 hu hu' hdt haa (s.cyc.length - 1) (by omega)
  have haux : auxKj s' - auxKj s =
      ∑ k ∈ Finset.range (s.cyc.length - 1), (s'.aux.getD (k + 1) 0 - s.aux.getD (k + 1) 0) * dtAt s.cyc (k + 1) := by
    rw [auxKj_steps s (h.lenAux hH) hpos, auxKj_steps s' (h'.lenAux hH) (by rw [hcyc]; exact hpos), hcyc, ht,
      overSteps_eq, overSteps_eq, hcyc, mul_zero, mul_zero, add_zero, add_zero, ← Finset.sum_sub_distrib]
    exact Finset.sum_congr rfl fun k _ => by ring
  have last : ∀ t : Sim K, t.rows.length = s.cyc.length → t.lastRow = t.row (s.cyc.length - 1) := by
    intro t e
    unfold Sim.lastRow Sim.row
    rw [List.getLast?_eq_getElem?, e, List.getD_eq_getElem?_getD]
  have hdis : ∀ t : Sim K, t.rows.length = s.cyc.length →
      essDischgKj V t = ((t.row 0).dec.soc - (t.row (s.cyc.length - 1)).dec.soc) * V.essMaxKwh * 3600 := by
    intro t e
    unfold essDischgKj
    rw [last t e, show t.firstRow = t.row 0 from rfl]
    ring
  rw [hdis s hlen, hdis s' (by rw [hlen', hcyc]), haux]
  refine ⟨hfin.1, hfin.2, ?_⟩
  unfold totalMiles
  congr 1
  apply List.ext_getElem
  · simp [hlen, hlen', hcyc]
  · intro i a b
    simp only [List.length_map] at a b
    simp only [List.getElem_map]
    have g : ∀ t : Sim K, (hi : i < t.rows.length) → t.rows[i] = t.row i := by
      intro t hi
      rw [Sim.row, List.getD_eq_getElem?_getD, List.getElem?_eq_getElem hi]; rfl
    rw [g s' a, g s b]
    rcases Nat.eq_zero_or_pos i with rfl | hp
    · obtain ⟨soc, -, t0⟩ := Reachable.row0 hH h.reachable
      obtain ⟨soc', -, t0'⟩ := Reachable.row0 hH h'.reachable
      rw [Sim.row, Sim.row, t0, t0']; rfl
    · have hi : i < s.cyc.length := by rw [← hlen]; exact b
      obtain ⟨k, k'⟩ := step_pair hH h h' hcyc hp hi
      have q := speeds_pair hH h h' hcyc hcyc0 hu.met hu'.met hi
      obtain ⟨E, st, hE, -, -, hr⟩ := StepAt.solve hH h.reachable k
      obtain ⟨E', st', hE', -, -, hr'⟩ := StepAt.solve hH h'.reachable k'
      have m : (s.row i).ach.distMi = (s.row i).ach.mpsAch * dtAt s.cyc i * (1 / mPerMi) := by
        rw [← hE, hr]; rfl
      have m' : (s'.row i).ach.distMi = (s'.row i).ach.mpsAch * dtAt s.cyc i * (1 / mPerMi) := by
        rw [← hE', hr']; rfl
      rw [m, m', q]

/-- **C91 (starting charge).** With the same accessories, the charge drawn up to any moment and the energy per mile do not
depend on the charge at the start. -/
theorem C91_start_charge (hH : H.Local) (hc : P.coastAllow = false) (hd : P.idmAllow = false) (hm : P.missedTrace = false)
    (hV : BevData V) (hr0 : 0 < F.sqrt V.essRoundTripEff) (hr1 : F.sqrt V.essRoundTripEff ≤ 1) (h : Finished F H V P s)
    (h' : Finished F H V P s') (hcyc : s'.cyc = s.cyc) (hcyc0 : s'.cyc0 = s.cyc0) (hu : Unlimited V s)
    (hu' : Unlimited V s') (hdt : DtNonneg s) (haa : s'.aux = s.aux) (ht : s.cyc.times.getD 0 0 = 0) :
    (∀ i, i < s.cyc.length →
      (s'.row 0).dec.soc - (s'.row i).dec.soc = (s.row 0).dec.soc - (s.row i).dec.soc) ∧
    essDischgKj V s' = essDischgKj V s ∧ batteryKwhPerMi V s' = batteryKwhPerMi V s := by
  have hle : ∀ i, s.aux.getD i 0 ≤ s'.aux.getD i 0 := fun i => by rw [haa]
  obtain ⟨a, b, c⟩ := C91_trip hH hc hd hm hV hr0 hr1 h h' hcyc hcyc0 hu hu' hdt hle ht
  have hx : auxKj s' - auxKj s = 0 := by unfold auxKj; rw [haa, hcyc]; exact sub_self _
  rw [hx, mul_zero] at a
  rw [hx, zero_div] at b
  have e : essDischgKj V s' = essDischgKj V s := by linarith
  refine ⟨fun i hi => ?_, e, by unfold batteryKwhPerMi; rw [e, c]⟩
  have k := C91_accessories hH hc hd hm hV hr0 hr1 h h' hcyc hcyc0 hu hu' hdt hle i hi
  rw [haa] at k
  simp only [sub_self, zero_mul, Finset.sum_const_zero, mul_zero, zero_div] at k
  have q : ((s'.row 0).dec.soc - (s'.row i).dec.soc) * (V.essMaxKwh * 3600) =
      ((s.row 0).dec.soc - (s.row i).dec.soc) * (V.essMaxKwh * 3600) := by
    rw [← mul_assoc, ← mul_assoc]; linarith [k.1, k.2]
  exact mul_right_cancel₀ (mul_pos hV.capacity (by norm_num)).ne' q

end Pair
end Field

/-! ### Concrete cases -/

open Demo

/-- Decidable form of `Unlimited` and the other conditions on a run. -/
def bevRunOk (c : Cyc ℚ) (s : Sim ℚ) : Bool :=
  decide (s.cyc = c) && decide (s.cyc0 = c) && decide (s.cyc.times.getD 0 0 = 0) &&
  decide (∀ j < s.i, 1 ≤ j → 0 ≤ dtAt s.cyc j) &&
  decide (∀ j < s.rows.length, 1 ≤ j → (s.row j).ach.mpsAch = askedMps s j ∧
    (s.row j).pow.cycTransKwOutReq ≤ (s.row j).lims.curMaxTransKwOut ∧
    (0 < (s.row j).pow.transKwInAch → (s.row j).hyb.canPwrAllElec = true) ∧
    (s.row j).pow.regenContrlLimKwPerc * -(s.row j).pow.cycWhlKwReq ≤ (s.row j).lims.curMaxMechMcKwIn * bev.transEff ∧
    (s.row j).misc.highAccFcOnTag = false)

theorem bevRunOk_spec {c : Cyc ℚ} {s : Sim ℚ} (h : bevRunOk c s = true) :
    s.cyc = c ∧ s.cyc0 = c ∧ s.cyc.times.getD 0 0 = 0 ∧ DtNonneg s ∧ Unlimited bev s := by
  unfold bevRunOk at h
  rw [Bool.and_eq_true, Bool.and_eq_true, Bool.and_eq_true, Bool.and_eq_true, decide_eq_true_eq, decide_eq_true_eq,
    decide_eq_true_eq, decide_eq_true_eq, decide_eq_true_eq] at h
  obtain ⟨⟨⟨⟨h1, h2⟩, h3⟩, h4⟩, h5⟩ := h
  have key : ∀ i p r dt a, StepAt s i p r dt a → _ := fun i p r dt a hst => by
    have hlt := (List.getElem?_eq_some_iff.1 hst.row).1
    have := h5 i hlt hst.pos
    have e : s.row i = r := by rw [Sim.row, List.getD_eq_getElem?_getD, hst.row]; rfl
    rw [e] at this
    exact this
  exact ⟨h1, h2, h3, fun i a b => h4 i b a,
    ⟨fun i p r dt a hs => ⟨(key i p r dt a hs).1, (key i p r dt a hs).2.1⟩,
      fun i p r dt a hs => (key i p r dt a hs).2.2.1, fun i p r dt a hs => (key i p r dt a hs).2.2.2.1,
      fun i p r dt a hs => (key i p r dt a hs).2.2.2.2⟩⟩

/-- More accessories than the demo car has. -/
def airCon : List ℚ := [0, 3, 3, 3, 3, 3]

/-- The demo car with regenerative braking, started from two charges and with two accessory loads, meets the hypotheses; the
charge drawn is the same from both charges and more with the accessories. -/
theorem C91_demo : BevData bev ∧ fns.sqrt bev.essRoundTripEff = 9 / 10 ∧
    ∃ s1 s2 s3, Demo.run bev (3 / 5) = .ok s1 ∧ Demo.run bev (4 / 5) = .ok s2 ∧
      simDrive fns noHooks bev params (Sim.new cyc) (some (3 / 5)) (some airCon) = .ok s3 ∧
      (∀ s ∈ [s1, s2, s3], Finished fns noHooks bev params s ∧ s.cyc = cyc ∧ s.cyc0 = cyc ∧ DtNonneg s ∧ Unlimited bev s) ∧
      s2.aux = s1.aux ∧ (∀ i, s1.aux.getD i 0 ≤ s3.aux.getD i 0) ∧ auxKj s1 < auxKj s3 ∧
      essDischgKj bev s1 < essDischgKj bev s3 ∧ (s1.row 4).dec.mcMechKwOutAch < 0 ∧ 0 < (s1.row 1).dec.mcMechKwOutAch := by
  have hall : (match Demo.run bev (3 / 5), Demo.run bev (4 / 5),
        simDrive fns noHooks bev params (Sim.new cyc) (some (3 / 5)) (some airCon) with
      | .ok s1, .ok s2, .ok s3 => bevRunOk cyc s1 && bevRunOk cyc s2 && bevRunOk cyc s3 &&
          decide (s1.aux = [0, 1 / 2, 1 / 2, 1 / 2, 1 / 2, 1 / 2] ∧ s2.aux = s1.aux ∧ s3.aux = airCon ∧ auxKj s1 < auxKj s3 ∧
            essDischgKj bev s1 < essDischgKj bev s3 ∧ (s1.row 4).dec.mcMechKwOutAch < 0 ∧
            0 < (s1.row 1).dec.mcMechKwOutAch)
      | _, _, _ => false) = true := by decide +kernel
  refine ⟨⟨rfl, rfl, by decide, by decide +kernel, by decide +kernel, by decide +kernel, rfl, rfl, by decide +kernel,
    by decide +kernel⟩, by decide +kernel, ?_⟩
  split at hall
  · rename_i s1 s2 s3 e1 e2 e3
    rw [Bool.and_eq_true, Bool.and_eq_true, Bool.and_eq_true, decide_eq_true_eq] at hall
    obtain ⟨⟨⟨h1, h2⟩, h3⟩, a1, a2, a3, rest⟩ := hall
    refine ⟨s1, s2, s3, e1, e2, e3, ?_, a2, ?_, rest⟩
    · have f1 : Finished fns noHooks bev params s1 := Finished.simDrive noHooks_local (s := Sim.new cyc) rfl e1
      have f2 : Finished fns noHooks bev params s2 := Finished.simDrive noHooks_local (s := Sim.new cyc) rfl e2
      have f3 : Finished fns noHooks bev params s3 := Finished.simDrive noHooks_local (s := Sim.new cyc) rfl e3
      obtain ⟨b1, c1, -, d1, g1⟩ := bevRunOk_spec h1
      obtain ⟨b2, c2, -, d2, g2⟩ := bevRunOk_spec h2
      obtain ⟨b3, c3, -, d3, g3⟩ := bevRunOk_spec h3
      intro s hs
      simp only [List.mem_cons, List.not_mem_nil, or_false] at hs
      rcases hs with rfl | rfl | rfl
      · exact ⟨f1, b1, c1, d1, g1⟩
      · exact ⟨f2, b2, c2, d2, g2⟩
      · exact ⟨f3, b3, c3, d3, g3⟩
    · intro i
      rw [a1, a3, airCon]
      match i with
      | 0 => decide +kernel
      | 1 => decide +kernel
      | 2 => decide +kernel
      | 3 => decide +kernel
      | 4 => decide +kernel
      | 5 => decide +kernel
      | k + 6 => simp
  · simp at hall

/-- **C91 needs the limits.** With the battery full, braking puts nothing back: the same trip then takes more charge. -/
theorem C91_full_battery :
    (match simDrive fns noHooks bev params (Sim.new [⟨0, 10, 0, 0⟩, ⟨1, 7, 0, 0⟩, ⟨2, 5, 0, 0⟩]) (some (19 / 20)) none,
        simDrive fns noHooks bev params (Sim.new [⟨0, 10, 0, 0⟩, ⟨1, 7, 0, 0⟩, ⟨2, 5, 0, 0⟩]) (some (3 / 5)) none with
      | .ok s, .ok s' => decide (s.rows.map (fun r => r.ach.mpsAch) = s'.rows.map (fun r => r.ach.mpsAch) ∧
          essDischgKj bev s' < 0 ∧ 0 < essDischgKj bev s)
      | _, _ => false) = true := by decide +kernel

end Fastsim.Props
