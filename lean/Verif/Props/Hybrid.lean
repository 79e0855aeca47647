import Verif.Props.Motor
import Verif.Props.Timer

/-!
# C70: charge reserves of a hybrid, C71: driving on electricity alone, C72: engine and motor share the
demand, C73: steering the engine towards its best efficiency
-/

set_option linter.unusedSectionVars false

namespace Fastsim.Spec
section Field
variable {K : Type*} [Field K] [LinearOrder K] [IsStrictOrderedRing K]

/-- Speed asked for at sample `i` of the trace. -/
def askedMps (s : Sim K) (i : Nat) : K := s.cyc.speeds.getD i 0

/-- Kinetic energy in kWh that a vehicle can recover from speed `v` (metres per second): mass, peak motor
efficiency and the share of braking done by the motor. -/
def recoverableKwh (V : Veh K) (v : K) : K :=
  V.vehKg * v ^ 2 / 2 / 1000 / 3600 * V.mcPeakEff * V.maxRegen

/-- Charge kept for accelerations at standstill: a share of the usable window, at most `max_regen_kwh`. -/
def accelReserve (V : Veh K) : K :=
  min (V.maxAccelBufferPercOfUseableSoc * (V.maxSoc - V.minSoc)) (V.maxRegenKwh / V.essMaxKwh)

/-- Plausible data of a hybrid's battery and reserves. -/
structure ReserveData (V : Veh K) : Prop where
  sys : V.noElecSys = false
  kwh : 0 < V.essMaxKwh
  window : V.minSoc ≤ V.maxSoc
  mass : 0 ≤ V.vehKg
  eff : 0 ≤ V.mcPeakEff
  regen : 0 ≤ V.maxRegen
  regenKwh : 0 ≤ V.maxRegenKwh
  share : 0 ≤ V.maxAccelBufferPercOfUseableSoc
  mph : 0 < V.maxAccelBufferMph

end Field
end Fastsim.Spec

namespace Fastsim.Props
open Fastsim Spec

section Field
variable {K : Type*} [Field K] [LinearOrder K] [IsStrictOrderedRing K]
variable {F : Fns K} {H : Hooks K} {V : Veh K} {P : SimParams K}

/-- Without car following and coasting, a simulated step is the outcome of a solve with the trace as it
stands. -/
theorem stepAt_recorded (hc : P.coastAllow = false) (hd : P.idmAllow = false) {s : Sim K}
    (h : Reachable F H V P s) {i : Nat} {p r : Row K} {dt a : K} (hs : StepAt s i p r dt a) :
    ∃ E st, E.dt = dt ∧ E.roadKw = 0 ∧ E.auxIn = a ∧ E.mps = askedMps s i ∧ E.coast = false ∧
      (P.missedTrace = false → st = Stale.fresh) ∧ r = solveStep F V P.toStepParams E p st := by
  obtain ⟨-, hR⟩ := Reachable.recInv hc hd h
  obtain ⟨st, hst, hr⟩ := hR.solved i hs.pos hs.lt
  rw [List.getD_eq_getElem?_getD, hs.prev, hs.row] at hr
  refine ⟨recordedEnv s i, st, hs.dt.symm, rfl, ?_, rfl, rfl, hst, Option.some.inj hr⟩
  show s.aux.getD i 0 = a
  rw [List.getD_eq_getElem?_getD, hs.aux]; rfl

theorem mphPerMps_pos : (0 : K) < mphPerMps := by unfold mphPerMps; norm_num

theorem regenBuff_eq (hR : ReserveData V) (hch : V.chargingOn = false) (E : StepEnv K) :
    (V.maxSoc - regenBuffSoc V E) * V.essMaxKwh =
      min (recoverableKwh V E.mps) ((V.maxSoc - V.minSoc) * V.essMaxKwh) := by
  have hk := hR.kwh
  unfold regenBuffSoc recoverableKwh
  simp only [hR.sys, hch, Bool.false_eq_true, if_false]
  have hsub : ∀ x y z : K, x - max y z = min (x - y) (x - z) := by
    intro x y z
    rcases le_total y z with c | c
    · rw [max_eq_right c, min_eq_right (by linarith)]
    · rw [max_eq_left c, min_eq_left (by linarith)]
  rw [hsub, min_mul_of_nonneg _ _ hk.le]
  congr 1
  field_simp
  ring

theorem accelBuff_eq (hR : ReserveData V) (E : StepEnv K) :
    accelBuffSoc V E = min (V.minSoc +
      max 0 (accelReserve V * (1 - (E.mps * mphPerMps / V.maxAccelBufferMph) ^ 2))) V.maxSoc := by
  have hk := hR.kwh.ne'
  have hm := hR.mph.ne'
  have hp := (mphPerMps_pos (K := K)).ne'
  unfold accelBuffSoc accelReserve
  simp only [hR.sys, Bool.false_eq_true, if_false]
  rw [← max_add_add_left, add_zero, max_comm]
  congr 2
  generalize min (V.maxAccelBufferPercOfUseableSoc * (V.maxSoc - V.minSoc)) (V.maxRegenKwh / V.essMaxKwh) = m
  field_simp
  ring

theorem accelReserve_nonneg (hR : ReserveData V) : 0 ≤ accelReserve V :=
  le_min (mul_nonneg hR.share (sub_nonneg.2 hR.window)) (div_nonneg hR.regenKwh hR.kwh.le)

/-- **C70 (room for braking energy).** For a vehicle that does not charge while driving, the capacity kept
free for braking (window above `regen_buff_soc`) is exactly the energy recoverable from the speed the
trace asks for, but not more than the whole usable window. -/
theorem C70_regen_room (hc : P.coastAllow = false) (hd : P.idmAllow = false) (hR : ReserveData V)
    (hch : V.chargingOn = false) {s : Sim K} (h : Reachable F H V P s) {i : Nat} {p r : Row K} {dt a : K}
    (hs : StepAt s i p r dt a) :
    (V.maxSoc - r.hyb.regenBuffSoc) * V.essMaxKwh =
      min (recoverableKwh V (askedMps s i)) ((V.maxSoc - V.minSoc) * V.essMaxKwh) := by
  obtain ⟨E, st, -, -, -, hE, -, -, rfl⟩ := stepAt_recorded hc hd h hs
  rw [← hE]
  exact regenBuff_eq hR hch E

/-- **C70 (room for braking energy, charging while driving).** A vehicle that charges while driving keeps
free `max_regen_kwh`, but not more than half the usable
window. -/
theorem C70_regen_room_charging (hH : H.Local) (hR : ReserveData V) (hch : V.chargingOn = true) {s : Sim K}
    (h : Reachable F H V P s) {i : Nat} {p r : Row K} {dt a : K} (hs : StepAt s i p r dt a) :
    (V.maxSoc - r.hyb.regenBuffSoc) * V.essMaxKwh =
      min V.maxRegenKwh ((V.maxSoc - V.minSoc) * V.essMaxKwh / 2) := by
  obtain ⟨E, st, -, -, -, rfl⟩ := StepAt.solve hH h hs
  show (V.maxSoc - regenBuffSoc V E) * V.essMaxKwh = _
  have hk := hR.kwh
  unfold regenBuffSoc
  simp only [hR.sys, hch, Bool.false_eq_true, if_false, if_true]
  rcases le_total (V.maxSoc - V.maxRegenKwh / V.essMaxKwh) ((V.maxSoc + V.minSoc) / 2) with c | c
  · rw [max_eq_right c, min_eq_right]
    · ring
    · have : (V.maxSoc - V.minSoc) / 2 ≤ V.maxRegenKwh / V.essMaxKwh := by linarith
      rw [le_div_iff₀ hk] at this
      linarith
  · rw [max_eq_left c, min_eq_left]
    · field_simp
      ring
    · have : V.maxRegenKwh / V.essMaxKwh ≤ (V.maxSoc - V.minSoc) / 2 := by linarith
      rw [div_le_iff₀ hk] at this
      linarith

/-- **C70 (charge kept for acceleration).** The charge kept for acceleration is `min_soc` plus a reserve
that falls with the square of the speed, from the full reserve at standstill to nothing at
`max_accel_buffer_mph` and above; never more than `max_soc`. -/
theorem C70_accel_reserve (hc : P.coastAllow = false) (hd : P.idmAllow = false) (hR : ReserveData V)
    {s : Sim K} (h : Reachable F H V P s) {i : Nat} {p r : Row K} {dt a : K} (hs : StepAt s i p r dt a) :
    r.hyb.accelBuffSoc = min (V.minSoc + max 0
      (accelReserve V * (1 - (askedMps s i * mphPerMps / V.maxAccelBufferMph) ^ 2))) V.maxSoc := by
  obtain ⟨E, st, -, -, -, hE, -, -, rfl⟩ := stepAt_recorded hc hd h hs
  rw [← hE]
  exact accelBuff_eq hR E

/-- **C70 (thresholds lie in the window).** In all driving modes. -/
theorem C70_window (hH : H.Local) (hR : ReserveData V) {s : Sim K} (h : Reachable F H V P s) {i : Nat}
    {p r : Row K} {dt a : K} (hs : StepAt s i p r dt a) :
    (V.minSoc ≤ r.hyb.accelBuffSoc ∧ r.hyb.accelBuffSoc ≤ V.maxSoc) ∧
    (V.minSoc ≤ r.hyb.regenBuffSoc ∧ r.hyb.regenBuffSoc ≤ V.maxSoc) := by
  obtain ⟨E, st, -, -, -, rfl⟩ := StepAt.solve hH h hs
  show (V.minSoc ≤ accelBuffSoc V E ∧ accelBuffSoc V E ≤ V.maxSoc) ∧
    V.minSoc ≤ regenBuffSoc V E ∧ regenBuffSoc V E ≤ V.maxSoc
  refine ⟨?_, ?_⟩
  · rw [accelBuff_eq hR]
    exact ⟨le_min (by have := le_max_left (0 : K) (accelReserve V *
      (1 - (E.mps * mphPerMps / V.maxAccelBufferMph) ^ 2)); linarith) hR.window, min_le_right _ _⟩
  · by_cases hch : V.chargingOn = true
    · unfold regenBuffSoc
      simp only [hR.sys, hch, Bool.false_eq_true, if_false, if_true]
      have hw := hR.window
      have := div_nonneg hR.regenKwh hR.kwh.le
      exact ⟨le_max_of_le_right (by linarith), max_le (by linarith) (by linarith)⟩
    · have e := regenBuff_eq hR (by simpa using hch) E
      have hrec : 0 ≤ recoverableKwh V E.mps := by
        unfold recoverableKwh
        have := hR.mass; have := hR.eff; have := hR.regen
        positivity
      have hk := hR.kwh
      constructor
      · have h1 : (V.maxSoc - regenBuffSoc V E) * V.essMaxKwh ≤ (V.maxSoc - V.minSoc) * V.essMaxKwh := by
          rw [e]; exact min_le_right _ _
        have := le_of_mul_le_mul_right h1 hk
        linarith
      · have h1 : 0 ≤ (V.maxSoc - regenBuffSoc V E) * V.essMaxKwh := by
          rw [e]; exact le_min hrec (mul_nonneg (sub_nonneg.2 hR.window) hk.le)
        have := nonneg_of_mul_nonneg_left h1 hk
        linarith

/-- **C70 (faster means more room, less reserve).** Of two steps, the one with the higher speed in the
trace keeps at least as much room for braking and at most as much charge for acceleration. -/
theorem C70_monotone (hc : P.coastAllow = false) (hd : P.idmAllow = false) (hR : ReserveData V)
    (hch : V.chargingOn = false) {s : Sim K} (h : Reachable F H V P s) {i j : Nat} {p r p' r' : Row K}
    {dt a dt' a' : K} (hs : StepAt s i p r dt a) (hs' : StepAt s j p' r' dt' a')
    (h0 : 0 ≤ askedMps s i) (hle : askedMps s i ≤ askedMps s j) :
    r'.hyb.regenBuffSoc ≤ r.hyb.regenBuffSoc ∧ r'.hyb.accelBuffSoc ≤ r.hyb.accelBuffSoc := by
  have hsq : askedMps s i ^ 2 ≤ askedMps s j ^ 2 := pow_le_pow_left₀ h0 hle 2
  have hk := hR.kwh
  constructor
  · have e := C70_regen_room hc hd hR hch h hs
    have e' := C70_regen_room hc hd hR hch h hs'
    have hrec : recoverableKwh V (askedMps s i) ≤ recoverableKwh V (askedMps s j) := by
      unfold recoverableKwh
      have h1 := hR.mass; have h2 := hR.eff; have h3 := hR.regen
      gcongr
    have hmin := min_le_min_right ((V.maxSoc - V.minSoc) * V.essMaxKwh) hrec
    rw [← e, ← e'] at hmin
    have := le_of_mul_le_mul_right hmin hk
    linarith
  · rw [C70_accel_reserve hc hd hR h hs, C70_accel_reserve hc hd hR h hs']
    have ha := accelReserve_nonneg hR
    have hq : (askedMps s i * mphPerMps / V.maxAccelBufferMph) ^ 2 ≤
        (askedMps s j * mphPerMps / V.maxAccelBufferMph) ^ 2 := by
      have e : ∀ x : K, (x * mphPerMps / V.maxAccelBufferMph) ^ 2 =
          x ^ 2 * (mphPerMps / V.maxAccelBufferMph) ^ 2 := fun x => by ring
      rw [e, e]
      exact mul_le_mul_of_nonneg_right hsq (sq_nonneg _)
    gcongr

/-- **C70 (power to reach a threshold).** Recorded powers that lead the battery to its thresholds never
exceed what the battery can do, and, short of that, move exactly the missing (or surplus) stored energy
within the step: down to the braking room, up to it, up to the acceleration reserve and down to it. -/
theorem C70_powers (hH : H.Local) (hsys : V.noElecSys = false) (hch : V.chargingOn = false)
    (hk : 0 < V.essMaxKwh) {s : Sim K} (h : Reachable F H V P s) {i : Nat}
    {p r : Row K} {dt a : K} (hs : StepAt s i p r dt a) (hdt : 0 < dt) :
    r.hyb.essRegenBuffDischgKw = min r.lims.curEssMaxKwOut
      (max 0 (p.dec.soc - r.hyb.regenBuffSoc) * V.essMaxKwh * 3600 / dt) ∧
    r.hyb.maxEssRegenBuffChgKw = min r.lims.curMaxEssChgKw
      (max 0 (r.hyb.regenBuffSoc - p.dec.soc) * V.essMaxKwh * 3600 / dt) ∧
    r.hyb.essAccelBuffChgKw = max 0 (r.hyb.accelBuffSoc - p.dec.soc) * V.essMaxKwh * 3600 / dt ∧
    r.hyb.maxEssAccellBuffDischgKw = min r.lims.curEssMaxKwOut
      (max 0 (p.dec.soc - r.hyb.accelBuffSoc) * V.essMaxKwh * 3600 / dt) := by
  obtain ⟨E, st, hE, -, -, rfl⟩ := StepAt.solve hH h hs
  rw [← hE] at hdt
  have hm : ∀ x : K, max 0 x * V.essMaxKwh * 3600 / dt = max 0 (x * V.essMaxKwh * 3600 / E.dt) := by
    intro x
    rw [← hE, max_mul_of_nonneg _ _ hk.le, zero_mul, max_mul_of_nonneg _ _ (by norm_num), zero_mul,
      ← max_div_div_right hdt.le, zero_div]
  refine ⟨?_, ?_, ?_, ?_⟩
  · rw [hm]
    show essRegenBuffDischgKw V E p.dec.soc _ = _
    unfold essRegenBuffDischgKw
    simp only [hsys, hch, Bool.or_self, Bool.false_eq_true, if_false]
    rfl
  · rw [hm, min_comm]
    show maxEssRegenBuffChgKw V E p.dec.soc _ = _
    unfold maxEssRegenBuffChgKw
    simp only [hsys, hch, Bool.or_self, Bool.false_eq_true, if_false]
    rfl
  · rw [hm]
    show essAccelBuffChgKw V E p.dec.soc = _
    unfold essAccelBuffChgKw
    simp only [hsys, Bool.false_eq_true, if_false]
    rfl
  · rw [hm, min_comm]
    show maxEssAccellBuffDischgKw V E p.dec.soc _ = _
    unfold maxEssAccellBuffDischgKw
    simp only [hsys, Bool.false_eq_true, if_false]
    rfl

/-- **C71 (electricity needed).** The electric power recorded as needed to drive the step without engine is
nil if the driveline asks for no power, otherwise the driveline power at an efficiency of the motor map
plus the accessory load. -/
theorem C71_need (hH : H.Local) (hM : MotorOk V) (hsys : V.noElecSys = false) {s : Sim K}
    (h : Reachable F H V P s) {i : Nat} {p r : Row K} {dt a : K} (hs : StepAt s i p r dt a) :
    (r.pow.transKwInAch ≤ 0 → r.hyb.elecKwReq4ae = 0) ∧
    (0 < r.pow.transKwInAch → ∃ e ∈ V.mcFullEffArray.tail,
      (r.hyb.elecKwReq4ae - a) * e = r.pow.transKwInAch) := by
  obtain ⟨E, st, -, -, hE, hr⟩ := StepAt.solve hH h hs
  have e : r.hyb.elecKwReq4ae = elecKwReq4ae V E r.pow := by rw [hr]; rfl
  rw [e]
  unfold elecKwReq4ae
  rw [if_neg (by rw [hsys]; simp), hE]
  refine ⟨fun hn => by rw [if_neg (not_lt.2 hn)], fun hp => ?_⟩
  rw [if_pos hp]
  split
  · exact ⟨_, hM.last_mem, by rw [add_sub_cancel_right, div_mul_cancel₀ _ (hM.pos _ hM.last_mem).ne']⟩
  · exact ⟨_, hM.out_mem _, by rw [add_sub_cancel_right, div_mul_cancel₀ _ (hM.pos _ (hM.out_mem _)).ne']⟩

/-- **C71 (when a step is driven on electricity alone).** For a vehicle with engine: exactly if the charge
is above the acceleration reserve, the motor can deliver the driveline power, the needed electricity is
available and not above `kw_demand_fc_on`, and the trace is not faster than `mph_fc_on` (or the vehicle
charges while driving). -/
theorem C71_conditions (hc : P.coastAllow = false) (hd : P.idmAllow = false) (hf : V.fcMaxKw ≠ 0)
    {s : Sim K} (h : Reachable F H V P s) {i : Nat} {p r : Row K} {dt a : K} (hs : StepAt s i p r dt a) :
    r.hyb.canPwrAllElec = true ↔
      r.hyb.accelBuffSoc < p.dec.soc ∧ r.pow.transKwInAch ≤ r.lims.curMaxMcKwOut + 1 / 1000000 ∧
      r.hyb.elecKwReq4ae < r.lims.curMaxElecKw ∧ r.hyb.elecKwReq4ae ≤ V.kwDemandFcOn ∧
      (askedMps s i * mphPerMps ≤ V.mphFcOn + 1 / 1000000 ∨ V.chargingOn = true) := by
  obtain ⟨E, st, -, -, -, hE, -, -, rfl⟩ := stepAt_recorded hc hd h hs
  rw [← hE]
  show canPwrAllElec V E p.dec.soc (solveStep F V P.toStepParams E p st).lims
    (solveStep F V P.toStepParams E p st).pow = true ↔ accelBuffSoc V E < p.dec.soc ∧ _ ∧
      elecKwReq4ae V E (solveStep F V P.toStepParams E p st).pow < _ ∧
      elecKwReq4ae V E (solveStep F V P.toStepParams E p st).pow ≤ _ ∧ _
  generalize (solveStep F V P.toStepParams E p st).lims = L
  generalize (solveStep F V P.toStepParams E p st).pow = pw
  unfold canPwrAllElec
  simp only [hf, decide_false, Bool.or_false, if_false, Bool.and_eq_true, Bool.or_eq_true,
    decide_eq_true_eq, sub_le_iff_le_add]
  tauto

/-- **C71 (no engine).** For a vehicle without engine only charge and motor matter. -/
theorem C71_conditions_electric (hH : H.Local) (hf : V.fcMaxKw = 0)
    {s : Sim K} (h : Reachable F H V P s) {i : Nat} {p r : Row K} {dt a : K} (hs : StepAt s i p r dt a) :
    r.hyb.canPwrAllElec = true ↔
      r.hyb.accelBuffSoc < p.dec.soc ∧ r.pow.transKwInAch ≤ r.lims.curMaxMcKwOut + 1 / 1000000 := by
  obtain ⟨E, st, -, -, -, rfl⟩ := StepAt.solve hH h hs
  show canPwrAllElec V E p.dec.soc (solveStep F V P.toStepParams E p st).lims
    (solveStep F V P.toStepParams E p st).pow = true ↔ accelBuffSoc V E < p.dec.soc ∧ _
  unfold canPwrAllElec
  simp only [hf, decide_true, Bool.or_true, Bool.and_true, if_true, Bool.and_eq_true,
    decide_eq_true_eq, sub_le_iff_le_add]

/-- **C71 (plan for the battery).** The battery power planned for driving on electricity alone is nil when the
step is not driven that way. Otherwise the wish is: what driveline and accessories take together while the
driveline needs less than the accessories, and also when the charge lies between the two reserves; above the
room kept for recuperation the power that makes that room; the balance of both reserves when they overlap. The
plan is that wish cut to what the battery can give, and no charging beyond the limit of the battery, beyond the
room kept for recuperation, or beyond what the driveline returns. Nothing is planned from the road. -/
theorem C71_plan (hH : H.Local) {s : Sim K}
    (h : Reachable F H V P s) {i : Nat} {p r : Row K} {dt a : K} (hs : StepAt s i p r dt a) :
    r.hyb.erAeKwOut = 0 ∧
    (r.hyb.canPwrAllElec = false → r.hyb.desiredEssKwOutForAe = 0 ∧ r.hyb.essAeKwOut = 0) ∧
    (r.hyb.canPwrAllElec = true →
      (r.pow.transKwInAch < a → r.hyb.desiredEssKwOutForAe = r.pow.transKwInAch + a) ∧
      (a ≤ r.pow.transKwInAch →
        (r.hyb.regenBuffSoc < r.hyb.accelBuffSoc → r.hyb.desiredEssKwOutForAe = r.hyb.essAccelRegenDischgKw) ∧
        (r.hyb.accelBuffSoc ≤ r.hyb.regenBuffSoc → r.hyb.regenBuffSoc < p.dec.soc →
          r.hyb.desiredEssKwOutForAe = r.hyb.essRegenBuffDischgKw) ∧
        (p.dec.soc ≤ r.hyb.regenBuffSoc → r.hyb.desiredEssKwOutForAe = r.pow.transKwInAch + a)) ∧
      r.hyb.essAeKwOut = max (min r.hyb.desiredEssKwOutForAe r.lims.curEssMaxKwOut)
        (max (-(min r.lims.curMaxEssChgKw r.hyb.maxEssRegenBuffChgKw)) (min 0 (a - r.pow.transKwInAch)))) := by
  obtain ⟨E, st, -, hroad, hE, hr⟩ := StepAt.solve hH h hs
  have e1 : r.hyb.desiredEssKwOutForAe = desiredEssKwOutForAe V E p.dec.soc r.lims r.pow := by rw [hr]; rfl
  have e2 : r.hyb.essAeKwOut = essAeKwOut V E p.dec.soc r.lims r.pow := by rw [hr]; rfl
  have e3 : r.hyb.erAeKwOut = min (max 0 (r.pow.transKwInAch + E.auxIn - r.hyb.essAeKwOut)) E.roadKw := by
    rw [hr]; rfl
  have e4 : canPwrAllElec V E p.dec.soc r.lims r.pow = r.hyb.canPwrAllElec := by rw [hr]; rfl
  have e5 : regenBuffSoc V E = r.hyb.regenBuffSoc := by rw [hr]; rfl
  have e6 : accelBuffSoc V E = r.hyb.accelBuffSoc := by rw [hr]; rfl
  have e7 : essAccelRegenDischgKw V E p.dec.soc r.lims = r.hyb.essAccelRegenDischgKw := by rw [hr]; rfl
  have e8 : essRegenBuffDischgKw V E p.dec.soc r.lims = r.hyb.essRegenBuffDischgKw := by rw [hr]; rfl
  have e9 : maxEssRegenBuffChgKw V E p.dec.soc r.lims = r.hyb.maxEssRegenBuffChgKw := by rw [hr]; rfl
  refine ⟨by rw [e3, hroad]; exact min_eq_right (le_max_left _ _), fun hc => ?_, fun hc => ⟨fun hx => ?_,
    fun hx => ⟨fun h1 => ?_, fun h1 h2 => ?_, fun h2 => ?_⟩, ?_⟩⟩
  · rw [e1, e2]
    simp [desiredEssKwOutForAe, essAeKwOut, e4, hc]
  · rw [e1]
    simp [desiredEssKwOutForAe, e4, hc, hE, hx, add_comm]
  · rw [e1]
    simp [desiredEssKwOutForAe, e4, hc, hE, not_lt.2 hx, e5, e6, h1, e7]
  · rw [e1]
    simp [desiredEssKwOutForAe, e4, hc, hE, not_lt.2 hx, e5, e6, not_lt.2 h1, h2, e8]
  · have h3 : r.hyb.accelBuffSoc < p.dec.soc := by
      rw [← e6]
      rw [← e4] at hc
      unfold canPwrAllElec at hc
      simp only [Bool.and_eq_true] at hc
      split at hc
      · simp only [Bool.and_eq_true, decide_eq_true_eq] at hc
        exact hc.1.1
      · simp only [Bool.and_eq_true, decide_eq_true_eq] at hc
        exact hc.1.1.1.1
    rw [e1]
    simp [desiredEssKwOutForAe, e4, hc, hE, not_lt.2 hx, e5, e6, not_lt.2 (h3.le.trans h2), not_lt.2 h2,
      not_lt.2 h3.le, hroad]
  · rw [e2, e1]
    unfold essAeKwOut
    rw [if_pos (by rw [e4]; exact hc), e9, hroad, hE, max_comm, min_comm, show -(min r.lims.curMaxEssChgKw r.hyb.maxEssRegenBuffChgKw) =
        max (-r.lims.curMaxEssChgKw) (-r.hyb.maxEssRegenBuffChgKw) from by
          rcases le_total r.lims.curMaxEssChgKw r.hyb.maxEssRegenBuffChgKw with c | c
          · rw [min_eq_left c, max_eq_left (neg_le_neg c)]
          · rw [min_eq_right c, max_eq_right (neg_le_neg c)]]
    congr 2
    ring_nf

/-- **C71 (engine off).** In a step driven on electricity alone, with the engine not forced on and the
accessories on the battery, a hybrid's engine delivers nothing and burns nothing, and the motor delivers
exactly what the driveline takes in; when braking it takes up what it may. -/
theorem C71_engine_off (hH : H.Local) (hb : V.essMaxKw ≠ 0) (hb' : V.essMaxKwh ≠ 0)
    (hn : V.noElecSys = false) (hz : V.fcType ≠ .h2fc) (hf : 0 < V.fcMaxKw) (hmc : V.mcMaxKw ≠ 0)
    {s : Sim K} (h : Reachable F H V P s) {i : Nat} {p r : Row K} {dt a : K} (hs : StepAt s i p r dt a)
    (hlim : 0 ≤ r.lims.curMaxFcKwOut) (hel : r.hyb.canPwrAllElec = true)
    (hon : r.forced.fcForcedOn = false) (haux : ¬ EngineCarriesAux V s i) :
    r.fc.fcKwOutAch = 0 ∧ r.fc.fsKwOutAch = 0 ∧
    (0 < r.pow.transKwInAch → r.dec.mcMechKwOutAch = r.pow.transKwInAch) ∧
    (r.pow.transKwInAch ≤ 0 →
      r.dec.mcMechKwOutAch = -(min r.lims.curMaxMechMcKwIn (-r.pow.transKwInAch))) := by
  have hfc := ((C67_accessories hH hb hb' hn hz hf.ne' h hs).2 haux).2
  obtain ⟨E, st, -, -, -, hr⟩ := StepAt.solve hH h hs
  have hdec : r.dec.mcMechKwOutAch = mcMechKwOutAch V E r.lims r.pow r.hyb r.forced := by rw [hr]; rfl
  have hfs : r.fc.fsKwOutAch = fcKwInAch V r.fc.fcKwOutAch := by rw [hr]; rfl
  unfold mcMechKwOutAch at hdec
  simp only at hdec
  rw [if_neg hmc, if_neg (by rw [hon]; simp)] at hdec
  have h1 : 0 < r.pow.transKwInAch → r.dec.mcMechKwOutAch = r.pow.transKwInAch := by
    intro ht
    rw [if_neg (not_le.2 ht), if_pos hel] at hdec
    exact hdec
  have h2 : r.pow.transKwInAch ≤ 0 →
      r.dec.mcMechKwOutAch = -(min r.lims.curMaxMechMcKwIn (-r.pow.transKwInAch)) := by
    intro ht
    rw [if_pos ht, if_pos ⟨hz, hf⟩, if_pos hel] at hdec
    exact hdec
  have h3 : r.pow.transKwInAch - r.dec.mcMechKwOutAch ≤ 0 := by
    rcases lt_or_ge 0 r.pow.transKwInAch with ht | ht
    · rw [h1 ht, sub_self]
    · rw [h2 ht]
      have := min_le_right r.lims.curMaxMechMcKwIn (-r.pow.transKwInAch)
      linarith
  have h4 : r.fc.fcKwOutAch = 0 := by rw [hfc, max_eq_left h3, min_eq_right hlim]
  refine ⟨h4, ?_, h1, h2⟩
  rw [hfs, h4]
  simp [fcKwInAch]

/-- **C72 (engine and motor share the demand).** In a step that is not driven on electricity alone, with
the accessories on the battery, engine and motor together deliver what the driveline takes in; more only
if the motor alone delivers more, and then the engine delivers nothing. -/
theorem C72_split (hH : H.Local) (hb : V.essMaxKw ≠ 0) (hb' : V.essMaxKwh ≠ 0)
    (hn : V.noElecSys = false) (hz : V.fcType ≠ .h2fc) (hf : 0 < V.fcMaxKw) (hmc : V.mcMaxKw ≠ 0)
    (hte : 0 < V.transEff) {s : Sim K} (h : Reachable F H V P s) {i : Nat} {p r : Row K} {dt a : K}
    (hs : StepAt s i p r dt a) (ha : 0 ≤ a) (hlim : 0 ≤ r.lims.curMaxFcKwOut)
    (hmet : r.pow.cycTransKwOutReq ≤ r.lims.curMaxTransKwOut ∨ 0 ≤ r.lims.curMaxElecKw)
    (hel : r.hyb.canPwrAllElec = false) (haux : ¬ EngineCarriesAux V s i) :
    r.fc.fcKwOutAch + r.dec.mcMechKwOutAch = max r.pow.transKwInAch r.dec.mcMechKwOutAch ∧
    (r.pow.transKwInAch < r.dec.mcMechKwOutAch → r.fc.fcKwOutAch = 0) := by
  have hfc := ((C67_accessories hH hb hb' hn hz hf.ne' h hs).2 haux).2
  obtain ⟨E, st, -, -, hEa, hr⟩ := StepAt.solve hH h hs
  have hdec : r.dec.mcMechKwOutAch = mcMechKwOutAch V E r.lims r.pow r.hyb r.forced := by rw [hr]; rfl
  have hcn : ¬ r.hyb.canPwrAllElec = true := by rw [hel]; simp
  unfold mcMechKwOutAch at hdec
  simp only at hdec
  rw [if_neg hmc, if_neg (by tauto)] at hdec
  -- the demand left for the engine is within its limit
  have hle : r.pow.transKwInAch - r.dec.mcMechKwOutAch ≤ r.lims.curMaxFcKwOut := by
    rcases lt_or_ge 0 r.pow.transKwInAch with ht | ht
    · rw [if_neg (not_le.2 ht), if_neg hcn] at hdec
      have hge : r.pow.minMcKw2helpFc ≤ r.dec.mcMechKwOutAch := by rw [hdec]; exact le_max_left _ _
      have hhelp : r.pow.transKwInAch - r.lims.curMaxFcKwOut ≤ r.pow.minMcKw2helpFc := by
        obtain ⟨v, hv⟩ := solveStep_pow F V P.toStepParams E p st
        have e : r.pow.minMcKw2helpFc = if r.pow.cycTransKwOutReq ≤ r.lims.curMaxTransKwOut then
            max (r.pow.transKwInAch - r.lims.curMaxFcKwOut) (-r.lims.curMaxMechMcKwIn)
          else max r.lims.curMaxMcKwOut (-r.lims.curMaxMechMcKwIn) := by
          have hl : r.lims = setCompLims F V P.toStepParams E p (setMisc V E p) := by rw [hr]; rfl
          rw [← hr] at hv
          rw [hl, hv]
          unfold powerAt
          simp only [hz, if_false, decide_eq_true_eq]
        rw [e]
        split
        · exact le_max_left _ _
        · rename_i hnm
          refine le_max_of_le_left ?_
          have hel0 := hmet.resolve_left hnm
          rw [hr] at ht hel0
          have := transIn_le (F := F) (P := P) hte E p st (by rw [hEa]; exact ha) hel0 ht
          rw [if_neg hz, ← hr] at this
          have h1 : curMaxMcKwOut F V E p = r.lims.curMaxMcKwOut := by rw [hr]; rfl
          have h2 : curMaxFcKwOut V E p = r.lims.curMaxFcKwOut := by rw [hr]; rfl
          rw [h1, h2] at this
          linarith
      linarith
    · rw [if_pos ht, if_pos ⟨hz, hf⟩, if_neg hcn] at hdec
      rw [hdec]
      rcases min_choice (-(min r.lims.curMaxMechMcKwIn (-r.pow.transKwInAch)))
        (max (-r.lims.curMaxFcKwOut) (mcKwIfFcReq V E r.lims r.hyb)) with c | c
      · rw [c]
        have := min_le_right r.lims.curMaxMechMcKwIn (-r.pow.transKwInAch)
        linarith
      · rw [c]
        have := le_max_left (-r.lims.curMaxFcKwOut) (mcKwIfFcReq V E r.lims r.hyb)
        linarith
  have hfc' : r.fc.fcKwOutAch = max 0 (r.pow.transKwInAch - r.dec.mcMechKwOutAch) := by
    rw [hfc]; exact min_eq_right (max_le hlim hle)
  rw [hfc']
  refine ⟨?_, fun hlt => max_eq_left (by linarith)⟩
  rw [max_add, zero_add, sub_add_cancel, max_comm]

/-- **C72 (fuel cell).** For a fuel-cell vehicle with battery, fuel cell and battery together supply motor
and accessories exactly, unless the two need more than fuel cell and battery can deliver. -/
theorem C72_fuel_cell (hH : H.Local) (hb : V.essMaxKw ≠ 0) (hb' : V.essMaxKwh ≠ 0)
    (hz : V.fcType = .h2fc) (hf : V.fcMaxKw ≠ 0)
    {s : Sim K} (h : Reachable F H V P s) {i : Nat} {p r : Row K} {dt a : K} (hs : StepAt s i p r dt a)
    (hlim : 0 ≤ r.lims.curMaxFcKwOut) (hneed : r.dec.mcElecKwInAch + a ≤
      r.lims.curMaxFcKwOut + r.lims.curEssMaxKwOut) :
    r.fc.fcKwOutAch + r.dec.essKwOutAch = r.dec.mcElecKwInAch + a := by
  obtain ⟨E, st, -, hroad, hEa, hr⟩ := StepAt.solve hH h hs
  have hR : r.dec.roadwayChgKwOutAch = 0 := by
    rw [hr]
    show roadwayChgKwOutAch V E _ _ _ = 0
    simp [roadwayChgKwOutAch, hroad]
  have hess : r.dec.essKwOutAch =
      essKwOutAch V E r.misc r.lims r.pow r.hyb r.dec.mcElecKwInAch r.dec.roadwayChgKwOutAch := by
    rw [hr]; rfl
  have hfc : r.fc.fcKwOutAch = fcKwOutAch V E r.misc r.lims r.pow r.dec := by rw [hr]; rfl
  unfold essKwOutAch at hess
  unfold fcKwOutAch at hfc
  rw [if_neg (by tauto), if_pos hz, hR, hEa] at hess
  simp only [sub_zero] at hess
  rw [if_neg hf, if_pos hz, hR, sub_zero, hEa] at hfc
  have h1 : r.dec.essKwOutAch ≤ r.dec.mcElecKwInAch + a := by
    rw [hess]; split
    · exact min_le_right _ _
    · exact le_rfl
  have h2 : r.dec.mcElecKwInAch + a - r.lims.curMaxFcKwOut ≤ r.dec.essKwOutAch := by
    rw [hess]; split
    · refine le_min (le_min (le_max_of_le_left (le_max_of_le_left ?_)) ?_) ?_
      · linarith
      · linarith
      · linarith
    · linarith
  rw [hfc, max_eq_right (by linarith), min_eq_right (by linarith)]
  ring

end Field
end Fastsim.Props
