import Verif.Props.Audit
import Verif.Props.Hybrid
import Verif.Props.Speed
import Verif.Props.Engine
import Verif.Spec.Demo

/-!
# C80: more resistance or accessory load never means less engine work
-/

set_option linter.unusedSectionVars false

namespace Fastsim.Spec
section Field
variable {K : Type*} [Field K] [LinearOrder K] [IsStrictOrderedRing K]

/-- The second vehicle and its surroundings differ from the first only by more air resistance or rolling
resistance, and in the accessories. -/
structure MoreResistance (V V' : Veh K) (P P' : SimParams K) : Prop where
  vehicle : V' = { V with dragCoef := V'.dragCoef, frontalAreaM2 := V'.frontalAreaM2, wheelRrCoef := V'.wheelRrCoef
                          auxKw := V'.auxKw }
  surroundings : P' = { P with airDensity := P'.airDensity }
  drag : V.dragCoef ≤ V'.dragCoef
  drag0 : 0 ≤ V.dragCoef
  area : V.frontalAreaM2 ≤ V'.frontalAreaM2
  area0 : 0 ≤ V.frontalAreaM2
  air : P.airDensity ≤ P'.airDensity
  air0 : 0 ≤ P.airDensity
  roll : V.wheelRrCoef ≤ V'.wheelRrCoef
  mass : 0 ≤ V.vehKg
  grav : 0 ≤ P.aGrav

/-- Every step reaches the speed of the trace within the transmission limit. -/
def MeetsTrace (s : Sim K) : Prop :=
  ∀ i p r dt a, StepAt s i p r dt a →
    r.ach.mpsAch = askedMps s i ∧ r.pow.cycTransKwOutReq ≤ r.lims.curMaxTransKwOut

end Field
end Fastsim.Spec

namespace Fastsim.Props
open Fastsim Spec

section Field
variable {K : Type*} [Field K] [LinearOrder K] [IsStrictOrderedRing K]
variable {F : Fns K} {H : Hooks K} {V V' : Veh K} {P P' : SimParams K}

/-- **C80 (engine work).** In a step that meets the trace, the engine of a conventional vehicle delivers the
road load, if it is positive, through the transmission, and the accessory load. -/
theorem C80_engine_work (hH : H.Local) (hc : P.coastAllow = false) (hd : P.idmAllow = false)
    (hm : P.missedTrace = false) (hV : Conventional V) {s : Sim K} (h : Reachable F H V P s) {i : Nat}
    {p r : Row K} {dt a : K} (hs : StepAt s i p r dt a) (ha : 0 ≤ a)
    (hmet : r.pow.cycTransKwOutReq ≤ r.lims.curMaxTransKwOut) :
    r.fc.fcKwOutAch =
      max 0 (roadLoadKw F V P.toStepParams dt (recordedGrade s i) p.ach.mpsAch r.ach.mpsAch) / V.transEff + a := by
  obtain ⟨hbus, hout⟩ := C22_conventional_bus hH hV h hs ha hc hd hmet
  obtain ⟨-, hR⟩ := Reachable.recInv hc hd h
  obtain ⟨st, hst, hrow⟩ := hR.solved i hs.pos hs.lt
  obtain rfl := hst hm
  rw [hs.row, List.getD_eq_getElem?_getD (i := i - 1), hs.prev] at hrow
  have hr := Option.some.inj hrow
  simp only [Option.getD_some] at hr
  have hroad : (recordedEnv s i).roadKw = 0 := rfl
  have hdt : (recordedEnv s i).dt = dt := hs.dt.symm
  have hg : ∀ v, (recordedEnv s i).gradeOf v = recordedGrade s i := fun _ => rfl
  generalize recordedEnv s i = E at *
  have e := solveStep_pow_fresh (F := F) (V := V) P.toStepParams E p Stale.fresh rfl
  rw [← hr] at e
  have hmech : (setCompLims F V P.toStepParams E p (setMisc V E p)).curMaxMechMcKwIn = 0 := by
    show curMaxMechMcKwIn F V E p = 0
    have hchg : curMaxEssChgKw F V E p = 0 := by
      simp [curMaxEssChgKw, essCapLimChgKw, hV.kwh, hV.kw]
    simp [curMaxMechMcKwIn, hchg]
  have hreg : r.pow.cycRegenBrakeKw = 0 := by
    have : r.pow.cycRegenBrakeKw = regenBrakeKw V 0 r.pow.regenContrlLimKwPerc r.pow.cycWhlKwReq := by
      rw [e, ← hmech]; rfl
    rw [this, regenBrakeKw, zero_mul, max_eq_right (min_le_left _ _)]
  have hreq := outReq_eq (F := F) (V := V) (P := P) E p (setCompLims F V P.toStepParams E p (setMisc V E p))
    r.ach.mpsAch
  rw [← e, hreg, neg_zero, max_comm, hg, hdt] at hreq
  have hin : r.pow.transKwInAch = r.pow.cycTransKwOutReq / V.transEff := by
    have : r.pow.transKwInAch = transKwIn V r.pow.transKwOutAch := by rw [hr, solveStep_in]
    rw [this, hout, transKwIn]
    split
    · rfl
    · rename_i hn
      have h0 : r.pow.cycTransKwOutReq = 0 := le_antisymm (not_lt.1 hn) (by rw [hreq]; exact le_max_left _ _)
      rw [h0]; simp
  have hm0 : r.dec.mcMechKwOutAch = 0 := by
    rw [hr]; show mcMechKwOutAch V E _ _ _ _ = 0
    simp [mcMechKwOutAch, hV.motor]
  have hel : r.dec.mcElecKwInAch = 0 := by
    have : r.dec.mcElecKwInAch = mcElecKwInAch V r.dec.mcMechKwOutAch := by rw [hr]; rfl
    rw [this, hm0]; simp [mcElecKwInAch]
  have hess : r.dec.essKwOutAch = 0 := by
    rw [hr]; show essKwOutAch V E _ _ _ _ _ _ = 0
    simp [essKwOutAch, hV.kw]
  have hro : r.dec.roadwayChgKwOutAch = 0 := by
    rw [hr]; show roadwayChgKwOutAch V E _ _ _ = 0
    simp [roadwayChgKwOutAch, hroad]
  unfold unbalancedKw at hbus
  rw [hm0, hel, hess, hro, hin, hreq] at hbus
  linarith

/-- More resistance means more road load. -/
theorem roadLoad_mono (hM : MoreResistance V V' P P') (hcos : ∀ g, 0 ≤ F.cosAtan g) {v0 v : K} (h0 : 0 ≤ v0)
    (h1 : 0 ≤ v) (dt g : K) :
    roadLoadKw F V P.toStepParams dt g v0 v ≤ roadLoadKw F V' P'.toStepParams dt g v0 v := by
  have hv : 0 ≤ avgSpeed v0 v := by unfold avgSpeed; positivity
  have e1 : V'.vehKg = V.vehKg := by rw [hM.vehicle]
  have e2 : wheelKj V' v = wheelKj V v := by rw [hM.vehicle]; rfl
  have e3 : wheelKj V' v0 = wheelKj V v0 := by rw [hM.vehicle]; rfl
  have e4 : P'.aGrav = P.aGrav := by rw [hM.surroundings]
  have aero : aeroKw V P.toStepParams v0 v ≤ aeroKw V' P'.toStepParams v0 v := by
    unfold aeroKw
    have k1 : P.airDensity * V.dragCoef ≤ P'.airDensity * V'.dragCoef :=
      mul_le_mul hM.air hM.drag hM.drag0 (hM.air0.trans hM.air)
    have k2 : P.airDensity * V.dragCoef * V.frontalAreaM2 ≤ P'.airDensity * V'.dragCoef * V'.frontalAreaM2 :=
      mul_le_mul k1 hM.area hM.area0 (mul_nonneg (hM.air0.trans hM.air) (hM.drag0.trans hM.drag))
    gcongr
  have roll : rollKw F V P.toStepParams g v0 v ≤ rollKw F V' P'.toStepParams g v0 v := by
    unfold rollKw
    rw [e1, e4]
    have := hM.roll
    have k : 0 ≤ V.vehKg * P.aGrav * F.cosAtan g := mul_nonneg (mul_nonneg hM.mass hM.grav) (hcos g)
    gcongr
  have kin : kineticKw V' dt v0 v = kineticKw V dt v0 v := by unfold kineticKw; rw [e1]
  have climb : climbKw F V' P'.toStepParams g v0 v = climbKw F V P.toStepParams g v0 v := by
    unfold climbKw; rw [e1, e4]
  unfold roadLoadKw
  rw [kin, climb, e2, e3]
  linarith

/-- Fuel power of an engine output. -/
theorem fuel_eff (hE : EffOk V) (x : K) : ∃ e ∈ V.fcEffArray, fcKwInAch V x * e = x := by
  have hmem : fcEffAt V x ∈ V.fcEffArray := lookupM1_mem _ _ _ hE.nonempty hE.len
  have he := (hE.range _ hmem).1
  refine ⟨_, hmem, ?_⟩
  unfold fcKwInAch
  split
  · rename_i h0; rw [h0, zero_mul]
  · rw [if_pos he.ne', div_mul_cancel₀ _ he.ne']

/-- **C80 (one step).** Of two conventional vehicles driving the same step as asked, the one with more air or
rolling resistance or accessory load has the higher engine output. Its fuel power is at least the other one's
divided by the ratio `q` of the best and the worst efficiency of the engine map. -/
theorem C80_step (hH : H.Local) (hc : P.coastAllow = false) (hd : P.idmAllow = false)
    (hm : P.missedTrace = false) (hV : Conventional V) (hM : MoreResistance V V' P P')
    (hcos : ∀ g, 0 ≤ F.cosAtan g) {s s' : Sim K} (h : Reachable F H V P s) (h' : Reachable F H V' P' s')
    {i : Nat} {p r p' r' : Row K} {dt a a' : K} (hs : StepAt s i p r dt a) (hs' : StepAt s' i p' r' dt a')
    (hg : recordedGrade s' i = recordedGrade s i)
    (h0 : p'.ach.mpsAch = p.ach.mpsAch) (h1 : r'.ach.mpsAch = r.ach.mpsAch)
    (hv0 : 0 ≤ p.ach.mpsAch) (hv1 : 0 ≤ r.ach.mpsAch) (ha : 0 ≤ a) (haa : a ≤ a')
    (hmet : r.pow.cycTransKwOutReq ≤ r.lims.curMaxTransKwOut)
    (hmet' : r'.pow.cycTransKwOutReq ≤ r'.lims.curMaxTransKwOut) :
    r.fc.fcKwOutAch ≤ r'.fc.fcKwOutAch ∧
    ∀ q, EffOk V → (∀ e ∈ V.fcEffArray, ∀ e' ∈ V.fcEffArray, e' ≤ q * e) →
      r.fc.fsKwOutAch ≤ q * r'.fc.fsKwOutAch := by
  have hV' : Conventional V' := by rw [hM.vehicle]; exact ⟨hV.1, hV.2, hV.3, hV.4, hV.5, hV.6, hV.7⟩
  have ete : V'.transEff = V.transEff := by rw [hM.vehicle]
  have ec : P'.coastAllow = false := by rw [hM.surroundings]; exact hc
  have ed : P'.idmAllow = false := by rw [hM.surroundings]; exact hd
  have em : P'.missedTrace = false := by rw [hM.surroundings]; exact hm
  have w := C80_engine_work hH hc hd hm hV h hs ha hmet
  have w' := C80_engine_work hH ec ed em hV' h' hs' (ha.trans haa) hmet'
  have hle : r.fc.fcKwOutAch ≤ r'.fc.fcKwOutAch := by
    rw [w, w', h0, h1, hg, ete]
    have := roadLoad_mono (F := F) hM hcos hv0 hv1 dt (recordedGrade s i)
    have k := div_le_div_of_nonneg_right (max_le_max (le_refl (0 : K)) this) hV.eff.le
    linarith
  refine ⟨hle, fun q hE hq => ?_⟩
  have hx0 : 0 ≤ r.fc.fcKwOutAch := by
    rw [w]
    have := div_nonneg (le_max_left 0 (roadLoadKw F V P.toStepParams dt (recordedGrade s i) p.ach.mpsAch
      r.ach.mpsAch)) hV.eff.le
    linarith
  have f : r.fc.fsKwOutAch = fcKwInAch V r.fc.fcKwOutAch := by
    obtain ⟨E, st, -, -, -, hr⟩ := StepAt.solve hH h hs
    rw [hr]; rfl
  have f' : r'.fc.fsKwOutAch = fcKwInAch V r'.fc.fcKwOutAch := by
    obtain ⟨E, st, -, -, -, hr⟩ := StepAt.solve hH h' hs'
    have : r'.fc.fsKwOutAch = fcKwInAch V' r'.fc.fcKwOutAch := by rw [hr]; rfl
    rw [this, hM.vehicle]; rfl
  obtain ⟨e, he, hx⟩ := fuel_eff hE r.fc.fcKwOutAch
  obtain ⟨e', he', hx'⟩ := fuel_eff hE r'.fc.fcKwOutAch
  rw [← f] at hx
  rw [← f'] at hx'
  have p1 := (hE.range e he).1
  have p2 := (hE.range e' he').1
  have hq' := hq e he e' he'
  have hy0 : 0 ≤ r'.fc.fsKwOutAch := by
    by_contra hn
    have := mul_neg_of_neg_of_pos (not_le.1 hn) p2
    linarith
  have : r.fc.fsKwOutAch * e ≤ (q * r'.fc.fsKwOutAch) * e := by
    rw [hx]
    calc r.fc.fcKwOutAch ≤ r'.fc.fsKwOutAch * e' := by rw [hx']; exact hle
      _ ≤ r'.fc.fsKwOutAch * (q * e) := mul_le_mul_of_nonneg_left hq' hy0
      _ = _ := by ring
  exact le_of_mul_le_mul_right this p1

/-- **C80 (whole run).** Of two conventional vehicles that drive the same cycle as asked, the one with more
air or rolling resistance or accessory load delivers at least as much engine energy, and uses at least the fuel
of the other divided by the ratio `q` of the best and worst efficiency of the engine map. -/
theorem C80_run (hH : H.Local) (hc : P.coastAllow = false) (hd : P.idmAllow = false)
    (hm : P.missedTrace = false) (hV : Conventional V) (hM : MoreResistance V V' P P')
    (hcos : ∀ g, 0 ≤ F.cosAtan g) {s s' : Sim K} (h : Finished F H V P s) (h' : Finished F H V' P' s')
    (hcyc : s'.cyc = s.cyc) (hcyc0 : s'.cyc0 = s.cyc0) (hv : SpeedsNonneg s.cyc) (hv0 : 0 ≤ s.cyc0.speeds.getD 0 0)
    (hdt : DtNonneg s) (ha : ∀ i, 0 ≤ s.aux.getD i 0) (haa : ∀ i, s.aux.getD i 0 ≤ s'.aux.getD i 0)
    (hmet : MeetsTrace s) (hmet' : MeetsTrace s') :
    sumDt s (fun r => r.fc.fcKwOutAch) ≤ sumDt s' (fun r => r.fc.fcKwOutAch) ∧
    ∀ q, EffOk V → (∀ e ∈ V.fcEffArray, ∀ e' ∈ V.fcEffArray, e' ≤ q * e) → fuelKj s ≤ q * fuelKj s' := by
  have hlen := h.lenRows hH
  have hlen' := h'.lenRows hH
  obtain ⟨-, -, soc, -, t0⟩ := Reachable.inv hH h.reachable
  obtain ⟨-, -, soc', -, t0'⟩ := Reachable.inv hH h'.reachable
  have r0 : s.row 0 = Row.init V soc (s.cyc0.speeds.getD 0 0) (s.aux.getD 0 0) := by
    rw [Sim.row, List.getD_eq_getElem?_getD, t0]; rfl
  have r0' : s'.row 0 = Row.init V' soc' (s'.cyc0.speeds.getD 0 0) (s'.aux.getD 0 0) := by
    rw [Sim.row, List.getD_eq_getElem?_getD, t0']; rfl
  have ask : ∀ i, 0 ≤ askedMps s i := by
    intro i
    unfold askedMps
    rw [List.getD_eq_getElem?_getD]
    cases hx : s.cyc.speeds[i]? with
    | none => exact le_refl _
    | some v =>
      obtain ⟨x, hx', rfl⟩ := List.mem_map.1 (List.mem_of_getElem? hx)
      exact hv x hx'
  have hask : ∀ i, askedMps s' i = askedMps s i := fun i => by unfold askedMps; rw [hcyc]
  have speed : ∀ i, i < s.cyc.length → (s'.row i).ach.mpsAch = (s.row i).ach.mpsAch ∧ 0 ≤ (s.row i).ach.mpsAch := by
    intro i hi
    rcases Nat.eq_zero_or_pos i with rfl | hpos
    · rw [r0, r0', hcyc0]; exact ⟨rfl, hv0⟩
    · obtain ⟨p, r, dt, a, hs⟩ := stepAt_exists hH h.reachable hpos (by rw [h.atEnd]; exact hi)
      obtain ⟨p', r', dt', a', hs'⟩ := stepAt_exists hH h'.reachable hpos (by rw [h'.atEnd, hcyc]; exact hi)
      have e1 : s.row i = r := by rw [Sim.row, List.getD_eq_getElem?_getD, hs.row]; rfl
      have e2 : s'.row i = r' := by rw [Sim.row, List.getD_eq_getElem?_getD, hs'.row]; rfl
      rw [e1, e2, (hmet _ _ _ _ _ hs).1, (hmet' _ _ _ _ _ hs').1, hask]
      exact ⟨rfl, ask i⟩
  have step : ∀ i, 1 ≤ i → i < s.cyc.length → (s.row i).fc.fcKwOutAch ≤ (s'.row i).fc.fcKwOutAch ∧
      ∀ q, EffOk V → (∀ e ∈ V.fcEffArray, ∀ e' ∈ V.fcEffArray, e' ≤ q * e) →
        (s.row i).fc.fsKwOutAch ≤ q * (s'.row i).fc.fsKwOutAch := by
    intro i hpos hi
    obtain ⟨p, r, dt, a, hs⟩ := stepAt_exists hH h.reachable hpos (by rw [h.atEnd]; exact hi)
    obtain ⟨p', r', dt', a', hs'⟩ := stepAt_exists hH h'.reachable hpos (by rw [h'.atEnd, hcyc]; exact hi)
    have e1 : s.row i = r := by rw [Sim.row, List.getD_eq_getElem?_getD, hs.row]; rfl
    have e2 : s'.row i = r' := by rw [Sim.row, List.getD_eq_getElem?_getD, hs'.row]; rfl
    have e3 : s.row (i - 1) = p := by rw [Sim.row, List.getD_eq_getElem?_getD, hs.prev]; rfl
    have e4 : s'.row (i - 1) = p' := by rw [Sim.row, List.getD_eq_getElem?_getD, hs'.prev]; rfl
    have e5 : s.aux.getD i 0 = a := by rw [List.getD_eq_getElem?_getD, hs.aux]; rfl
    have e6 : s'.aux.getD i 0 = a' := by rw [List.getD_eq_getElem?_getD, hs'.aux]; rfl
    have edt : dt' = dt := by rw [hs.dt, hs'.dt, hcyc]
    subst edt
    have sp := speed i hi
    have sq := speed (i - 1) (by omega)
    rw [e1, e2] at sp ⊢
    rw [e3, e4] at sq
    refine C80_step hH hc hd hm hV hM hcos h.reachable h'.reachable hs hs' ?_ sq.1 sp.1 sq.2 sp.2
      (by rw [← e5]; exact ha i) (by rw [← e5, ← e6]; exact haa i) (hmet _ _ _ _ _ hs).2 (hmet' _ _ _ _ _ hs').2
    unfold recordedGrade
    rw [hcyc, hcyc0]
  have hd0 : ∀ i ∈ Finset.range (s.cyc.length - 1), 0 ≤ dtAt s.cyc (i + 1) := by
    intro i hi
    have := Finset.mem_range.1 hi
    exact hdt (i + 1) (by omega) (by rw [h.atEnd]; omega)
  constructor
  · rw [sumDt_steps s _ hlen (by rw [r0]; rfl), sumDt_steps s' _ hlen' (by rw [r0']; rfl), hcyc]
    refine Finset.sum_le_sum fun i hi => mul_le_mul_of_nonneg_right (step (i + 1) (by omega) ?_).1 (hd0 i hi)
    have := Finset.mem_range.1 hi
    omega
  · intro q hE hq
    unfold fuelKj
    rw [sumDt_steps s _ hlen (by rw [r0]; rfl), sumDt_steps s' _ hlen' (by rw [r0']; rfl), hcyc, Finset.mul_sum]
    refine Finset.sum_le_sum fun i hi => ?_
    have := Finset.mem_range.1 hi
    have k := mul_le_mul_of_nonneg_right ((step (i + 1) (by omega) (by omega)).2 q hE hq) (hd0 i hi)
    rw [← mul_assoc]
    exact k

end Field

/-! ### Concrete cases -/

open Demo

/-- A boxier car on softer tyres, with more accessories. -/
def boxy : Veh ℚ := { conv with dragCoef := 2 / 5, frontalAreaM2 := 3, wheelRrCoef := 1 / 50, auxKw := 1 }

/-- Denser air. -/
def denseAir : SimParams ℚ := { params with airDensity := 13 / 10 }

/-- Decidable form of the run conditions of `C80_run`. -/
def runOk (aux : ℚ) (r : Except PyErr (Sim ℚ)) : Bool :=
  match r with
  | .ok s => decide (s.cyc = cyc) && decide (s.cyc0 = cyc) &&
      decide (∀ j < s.rows.length, 1 ≤ j → (s.row j).ach.mpsAch = askedMps s j ∧
        (s.row j).pow.cycTransKwOutReq ≤ (s.row j).lims.curMaxTransKwOut) &&
      decide (∀ j < s.i, 1 ≤ j → 0 ≤ dtAt s.cyc j) && decide (s.aux = 0 :: List.replicate 5 aux)
  | .error _ => false

theorem runOk_spec {V : Veh ℚ} {P : SimParams ℚ} {x : ℚ}
    (h : runOk x (simDrive fns noHooks V P (Sim.new cyc) none none) = true) :
    ∃ s, simDrive fns noHooks V P (Sim.new cyc) none none = .ok s ∧ Finished fns noHooks V P s ∧ s.cyc = cyc ∧
      s.cyc0 = cyc ∧ MeetsTrace s ∧ DtNonneg s ∧ s.aux = 0 :: List.replicate 5 x := by
  cases hs : simDrive fns noHooks V P (Sim.new cyc) none none with
  | error e => rw [hs] at h; exact absurd h (by simp [runOk])
  | ok s =>
    rw [hs] at h
    simp only [runOk] at h
    rw [Bool.and_eq_true, Bool.and_eq_true, Bool.and_eq_true, Bool.and_eq_true, decide_eq_true_eq,
      decide_eq_true_eq, decide_eq_true_eq, decide_eq_true_eq, decide_eq_true_eq] at h
    obtain ⟨⟨⟨⟨h1, h2⟩, h3⟩, h4⟩, h5⟩ := h
    refine ⟨s, rfl, Finished.simDrive noHooks_local (s := Sim.new cyc) rfl hs, h1, h2, ?_,
      fun i a b => h4 i b a, h5⟩
    intro i p r dt a hst
    have hlt := (List.getElem?_eq_some_iff.1 hst.row).1
    have := h3 i hlt hst.pos
    have e : s.row i = r := by rw [Sim.row, List.getD_eq_getElem?_getD, hst.row]; rfl
    rw [e] at this
    exact this

/-- A conventional car and a boxier one in denser air meet the hypotheses of `C80_run` on the demo cycle. -/
theorem C80_demo : Conventional conv ∧ MoreResistance conv boxy params denseAir ∧ (∀ g, 0 ≤ fns.cosAtan g) ∧
    EffOk conv ∧ (∀ e ∈ conv.fcEffArray, ∀ e' ∈ conv.fcEffArray, e' ≤ 7 / 2 * e) ∧
    ∃ s s', Finished fns noHooks conv params s ∧ Finished fns noHooks boxy denseAir s' ∧ s'.cyc = s.cyc ∧
      s'.cyc0 = s.cyc0 ∧ SpeedsNonneg s.cyc ∧ 0 ≤ s.cyc0.speeds.getD 0 0 ∧ DtNonneg s ∧
      (∀ i, 0 ≤ s.aux.getD i 0) ∧ (∀ i, s.aux.getD i 0 ≤ s'.aux.getD i 0) ∧ MeetsTrace s ∧ MeetsTrace s' := by
  refine ⟨⟨rfl, by decide, by decide +kernel, by decide +kernel, by decide +kernel, by decide +kernel,
    by decide +kernel⟩, ⟨rfl, rfl, by decide +kernel, by decide +kernel, by decide +kernel, by decide +kernel,
    by decide +kernel, by decide +kernel, by decide +kernel, by decide +kernel, by decide +kernel⟩,
    fun _ => by show (0 : ℚ) ≤ 1; norm_num, ⟨by decide, by decide, by decide +kernel⟩, by decide +kernel, ?_⟩
  obtain ⟨s, -, f, c, c0, m, d, a⟩ := runOk_spec (V := conv) (P := params) (x := 1 / 2) (by decide +kernel)
  obtain ⟨s', -, f', c', c0', m', -, a'⟩ := runOk_spec (V := boxy) (P := denseAir) (x := 1) (by decide +kernel)
  have hrep : ∀ (x : ℚ) i, (0 :: List.replicate 5 x).getD i 0 = if 1 ≤ i ∧ i < 6 then x else 0 := by
    intro x i
    match i with
    | 0 => rfl
    | k + 1 =>
      rw [List.getD_cons_succ, List.getD_eq_getElem?_getD, List.getElem?_replicate]
      by_cases hk : k < 5
      · rw [if_pos hk, if_pos (by omega)]; rfl
      · rw [if_neg hk, if_neg (by omega)]; rfl
  refine ⟨s, s', f, f', by rw [c, c'], by rw [c0, c0'], ?_, by rw [c0]; decide +kernel, d, ?_, ?_, m, m'⟩
  · rw [c]
    intro x hx
    revert x
    decide +kernel
  · intro i; rw [a, hrep]; split <;> norm_num
  · intro i; rw [a, a', hrep, hrep]; split <;> norm_num

/-- Fuel energy of a run. -/
def fuelOf (V : Veh ℚ) (c : Cyc ℚ) : ℚ :=
  match simDrive fns noHooks V params (Sim.new c) none none with
  | .ok s => fuelKj s
  | .error _ => 0

/-- **C80 refuted for fuel.** The efficiency is looked up without interpolation, so fuel does jump down at a
point of the engine map: with more accessories the standing car burns less fuel. -/
theorem C80_more_load_less_fuel :
    fuelOf { conv with auxKw := 1 } [⟨0, 0, 0, 0⟩, ⟨1, 0, 0, 0⟩] <
      fuelOf { conv with auxKw := 9 / 10 } [⟨0, 0, 0, 0⟩, ⟨1, 0, 0, 0⟩] := by
  decide +kernel

/-- **C80 does not extend to mass.** Slowing down gently at high speed, a heavier car needs less engine power. -/
theorem C80_heavier_less_work :
    ((rowsOf (simDrive fns noHooks { conv with vehKg := 2000 } params
      (Sim.new [⟨0, 30, 0, 0⟩, ⟨1, 597 / 20, 0, 0⟩]) none none)).getD 1 Row.zero).fc.fcKwOutAch <
    ((rowsOf (simDrive fns noHooks conv params
      (Sim.new [⟨0, 30, 0, 0⟩, ⟨1, 597 / 20, 0, 0⟩]) none none)).getD 1 Row.zero).fc.fcKwOutAch := by
  decide +kernel

end Fastsim.Props
