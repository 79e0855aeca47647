import Verif.Props.Steady
import Verif.Props.BevTrace

/-!
# C119 and C120 for battery-electric vehicles: mass, steady driving and the work of the motor

The motor of a battery-electric vehicle takes part of the braking energy back, so its work over a trip has a negative part.
Since less comes back than was spent, it is a convex function of the road load, and what holds for the engine of a
conventional vehicle holds for the motor.
-/

set_option linter.unusedSectionVars false

namespace Fastsim.Spec
open Fastsim
section Field
variable {K : Type*} [Field K] [LinearOrder K] [IsStrictOrderedRing K]

/-- The share of the braking left to the motor lies between zero and one. -/
structure BrakeShareOk (F : Fns K) (V : Veh K) : Prop where
  exp : ∀ x, 0 ≤ F.exp x
  a : 0 ≤ V.regenA
  lo : 0 ≤ V.maxRegen
  hi : V.maxRegen ≤ 1

/-- Mechanical energy of the motor over a run, kJ: what it has delivered less what it has taken up in braking. -/
def motorKj (s : Sim K) : K := sumDt s fun r => r.dec.mcMechKwOutAch

end Field
end Fastsim.Spec

namespace Fastsim.Props
open Fastsim Spec

section Field
variable {K : Type*} [Field K] [LinearOrder K] [IsStrictOrderedRing K]
variable {F : Fns K} {H : Hooks K} {V : Veh K} {P : SimParams K}

theorem regenShare_bounds (hR : BrakeShareOk F V) (v0 v : K) : 0 ≤ regenShare F V v0 v ∧ regenShare F V v0 v ≤ 1 := by
  unfold regenShare
  have h := mul_nonneg hR.a (hR.exp (-V.regenB * (avgSpeed v0 v * mphPerMps + 1)))
  have h1 : 0 < 1 + V.regenA * F.exp (-V.regenB * (avgSpeed v0 v * mphPerMps + 1)) := by linarith
  refine ⟨div_nonneg hR.lo h1.le, (div_le_one h1).2 ?_⟩
  have := hR.hi
  linarith

/-- The motor's power as the larger of two lines in the road load. -/
theorem duty_max (hV : BevData V) (hR : BrakeShareOk F V) (dt g v0 v : K) (Q : StepParams K) :
    motorDutyKw F V Q dt g v0 v = max (roadLoadKw F V Q dt g v0 v / V.transEff)
      (regenShare F V v0 v * V.transEff * roadLoadKw F V Q dt g v0 v) := by
  obtain ⟨s0, s1⟩ := regenShare_bounds (F := F) hR v0 v
  unfold motorDutyKw
  simp only
  generalize roadLoadKw F V Q dt g v0 v = x
  generalize regenShare F V v0 v = r at *
  have e0 := hV.trans0
  have e1 := hV.trans1
  generalize V.transEff = e at *
  have hre : r * e ≤ 1 / e := by
    rw [le_div_iff₀ e0, mul_assoc]
    exact mul_le_one₀ s1 (mul_nonneg e0.le e0.le) (mul_le_one₀ e1 e0.le e1)
  rcases le_or_gt x 0 with hx | hx
  · have h1 : 0 ≤ r * -x := mul_nonneg s0 (by linarith)
    have h2 : r * -x ≤ -x := mul_le_of_le_one_left (by linarith) s1
    rw [max_eq_right h1, max_eq_right (show x ≤ -(r * -x) by linarith), if_neg (by linarith), max_eq_right]
    · ring
    · have := mul_le_mul_of_nonpos_right hre hx
      rw [div_eq_mul_one_div, mul_comm x]
      linarith
  · have h1 : r * -x ≤ 0 := mul_nonpos_of_nonneg_of_nonpos s0 (by linarith)
    rw [max_eq_left h1, neg_zero, max_eq_left hx.le, if_pos hx, max_eq_left]
    have := mul_le_mul_of_nonneg_right hre hx.le
    rw [div_eq_mul_one_div, mul_comm x]
    linarith

/-- Motor power in the steps of a run in which no limit is felt. -/
theorem leg_duty (hc : P.coastAllow = false) (hd : P.idmAllow = false) (hm : P.missedTrace = false) (hV : BevData V)
    (hH : H.Local) {c : Cyc K} {init : Option K} {s : Sim K}
    (h : simDrive F H V P (Sim.new c) init none = .ok s) (hu : Unlimited V s) :
    motorKj s = ((legs c).map fun l => motorDutyKw F V P.toStepParams l.dt l.grade l.v0 l.v * l.dt).sum := by
  have hk := simDrive_keeps hH (s := Sim.new c) rfl h
  have hcyc : s.cyc = c := hk.cyc (by unfold Resets; simp [hc, hd, hm])
  have hcyc0 : s.cyc0 = c := hk.cyc0
  have fin := Finished.simDrive hH (s := Sim.new c) rfl h
  have hlen := fin.lenRows hH
  obtain ⟨-, -, soc, -, t0⟩ := Reachable.inv hH fin.reachable
  have r0 : s.row 0 = Row.init V soc (s.cyc0.speeds.getD 0 0) (s.aux.getD 0 0) := by
    rw [Sim.row, List.getD_eq_getElem?_getD, t0]; rfl
  have hgrade : ∀ i, recordedGrade s i = c.grades.getD i 0 := by
    intro i
    unfold recordedGrade
    rw [hcyc, hcyc0]
    split
    · rename_i hz
      rw [List.getD_eq_getElem?_getD]
      cases hx : c.grades[i]? with
      | none => rfl
      | some g =>
        have := List.all_eq_true.1 hz g (List.mem_of_getElem? hx)
        exact (of_decide_eq_true this).symm
    · rfl
  have speed : ∀ i, i < c.length → (s.row i).ach.mpsAch = c.speeds.getD i 0 := by
    intro i hi
    rcases Nat.eq_zero_or_pos i with rfl | hpos
    · rw [r0, hcyc0]; rfl
    · obtain ⟨p, r, dt, a, hs⟩ := stepAt_exists hH fin.reachable hpos (by rw [fin.atEnd, hcyc]; exact hi)
      have e1 : s.row i = r := by rw [Sim.row, List.getD_eq_getElem?_getD, hs.row]; rfl
      rw [e1, (hu.met _ _ _ _ _ hs).1, askedMps, hcyc]
  unfold motorKj
  rw [sumDt_steps s _ hlen (by rw [r0]; rfl), legs_sum, hcyc]
  refine Finset.sum_congr rfl fun i hi => ?_
  have hi' := Finset.mem_range.1 hi
  obtain ⟨p, r, dt, a, hs⟩ := stepAt_exists hH fin.reachable (i := i + 1) (by omega)
    (by rw [fin.atEnd, hcyc]; omega)
  have e1 : s.row (i + 1) = r := by rw [Sim.row, List.getD_eq_getElem?_getD, hs.row]; rfl
  have e3 : s.row i = p := by
    have := hs.prev
    rw [Nat.add_sub_cancel] at this
    rw [Sim.row, List.getD_eq_getElem?_getD, this]; rfl
  have edt : dt = dtAt c (i + 1) := by rw [hs.dt, hcyc]
  rw [e1, (C91_motor_duty hH hc hd hm hV fin.reachable hu hs).1, hgrade, edt, ← e1, ← e3, speed _ (by omega),
    speed _ (by omega)]

/-- Work over legs where each unit of load costs `p` and each unit of braking gives `q l` back. -/
def bothWork (ls : List (Leg K)) (f g : Leg K → K) (p : K) (q : Leg K → K) (m : K) : K :=
  (ls.map fun l => max (p * (f l + m * g l)) (q l * (f l + m * g l))).sum

theorem bothWork_convex (ls : List (Leg K)) (f g : Leg K → K) (p : K) (q : Leg K → K) (x y w : K) (h0 : 0 ≤ w)
    (h1 : w ≤ 1) :
    bothWork ls f g p q (w * x + (1 - w) * y) ≤ w * bothWork ls f g p q x + (1 - w) * bothWork ls f g p q y := by
  unfold bothWork
  induction ls with
  | nil => simp
  | cons l ls ih =>
    simp only [List.map_cons, List.sum_cons]
    have h1' : 0 ≤ 1 - w := by linarith
    have e : f l + (w * x + (1 - w) * y) * g l = w * (f l + x * g l) + (1 - w) * (f l + y * g l) := by ring
    have k : max (p * (f l + (w * x + (1 - w) * y) * g l)) (q l * (f l + (w * x + (1 - w) * y) * g l)) ≤
        w * max (p * (f l + x * g l)) (q l * (f l + x * g l)) +
          (1 - w) * max (p * (f l + y * g l)) (q l * (f l + y * g l)) := by
      rw [e]
      refine max_le ?_ ?_
      · have a1 := mul_le_mul_of_nonneg_left (le_max_left (p * (f l + x * g l)) (q l * (f l + x * g l))) h0
        have a2 := mul_le_mul_of_nonneg_left (le_max_left (p * (f l + y * g l)) (q l * (f l + y * g l))) h1'
        linarith [show p * (w * (f l + x * g l) + (1 - w) * (f l + y * g l)) =
          w * (p * (f l + x * g l)) + (1 - w) * (p * (f l + y * g l)) by ring]
      · have a1 := mul_le_mul_of_nonneg_left (le_max_right (p * (f l + x * g l)) (q l * (f l + x * g l))) h0
        have a2 := mul_le_mul_of_nonneg_left (le_max_right (p * (f l + y * g l)) (q l * (f l + y * g l))) h1'
        linarith [show q l * (w * (f l + x * g l) + (1 - w) * (f l + y * g l)) =
          w * (q l * (f l + x * g l)) + (1 - w) * (q l * (f l + y * g l)) by ring]
    linarith

theorem bothWork_mono (ls : List (Leg K)) (f g : Leg K → K) (p : K) (q : Leg K → K) {x y : K} (hx : 0 ≤ x)
    (hxy : x ≤ y) (h : bothWork ls f g p q 0 ≤ bothWork ls f g p q y) :
    bothWork ls f g p q x ≤ bothWork ls f g p q y := by
  rcases hx.lt_or_eq with hx' | rfl
  · have hy : 0 < y := hx'.trans_le hxy
    have k := bothWork_convex ls f g p q y 0 (x / y) (by positivity) ((div_le_one hy).2 hxy)
    rw [mul_zero, add_zero, div_mul_cancel₀ _ hy.ne'] at k
    have h1 : 0 ≤ 1 - x / y := by have := (div_le_one hy).2 hxy; linarith
    have := mul_le_mul_of_nonneg_left h h1
    linarith
  · exact h

/-- Motor work of a run in terms of the mass. -/
theorem motor_mass (hc : P.coastAllow = false) (hd : P.idmAllow = false) (hm : P.missedTrace = false)
    (hV : BevData V) (hR : BrakeShareOk F V) (hH : H.Local) {c : Cyc K} (hf : DrivenForward c) {m : K} {init : Option K}
    {s : Sim K} (h : simDrive F H (ofMass V m) P (Sim.new c) init none = .ok s) (hu : Unlimited (ofMass V m) s) :
    motorKj s = bothWork (legs c) (loadFixKj V P.toStepParams)
      (fun l => loadKinKj l + loadSlopeKj F V P.toStepParams l) (1 / V.transEff)
      (fun l => regenShare F V l.v0 l.v * V.transEff) m := by
  have hV' : BevData (ofMass V m) := ⟨hV.1, hV.2, hV.3, hV.4, hV.5, hV.6, hV.7, hV.8, hV.9, hV.10⟩
  have hR' : BrakeShareOk F (ofMass V m) := ⟨hR.1, hR.2, hR.3, hR.4⟩
  rw [leg_duty hc hd hm hV' hH h hu]
  unfold bothWork
  congr 1
  apply List.map_congr_left
  intro l hl
  have hdt := (hf l hl).1
  have e := load_parts (F := F) (V := ofMass V m) l hdt.ne' P.toStepParams
  rw [duty_max hV' hR', max_mul_of_nonneg _ _ hdt.le]
  rw [loadFix_mass, loadSlope_mass] at e
  change _ = loadFixKj V P.toStepParams l + m * (loadKinKj l + loadSlopeKj F V P.toStepParams l) at e
  rw [← e]
  congr 1
  · show _ / V.transEff * _ = _
    ring
  · show regenShare F V l.v0 l.v * V.transEff * _ * _ = _
    ring

/-- **C119 (battery-electric, level and uphill).** Of two battery-electric vehicles that differ in their mass only, the
motor of the heavier one does at least as much work, less what it takes back in braking, on every trace on which neither
feels a limit, that does not end slower than it starts, and on which no leg goes downhill more steeply than rolling
resistance holds. -/
theorem C119_bev (hc : P.coastAllow = false) (hd : P.idmAllow = false) (hm : P.missedTrace = false)
    (hV : BevData V) (hR : BrakeShareOk F V) (hS : SoundData V P.toStepParams) {H : K → Hooks K} (hH : ∀ m, (H m).Local) {c : Cyc K}
    (hf : DrivenForward c) (he : EndsNoSlower c) (hg : ∀ l ∈ legs c, 0 ≤ slopeShare F V l.grade) {m m' : K} (h0 : 0 ≤ m)
    (hmm : m ≤ m') {init init' : Option K} {s s' : Sim K}
    (h : simDrive F (H m) (ofMass V m) P (Sim.new c) init none = .ok s)
    (h' : simDrive F (H m') (ofMass V m') P (Sim.new c) init' none = .ok s') (hu : Unlimited (ofMass V m) s)
    (hu' : Unlimited (ofMass V m') s') : motorKj s ≤ motorKj s' := by
  rw [motor_mass hc hd hm hV hR (hH _) hf h hu, motor_mass hc hd hm hV hR (hH _) hf h' hu']
  apply bothWork_mono _ _ _ _ _ h0 hmm
  have hm0 : 0 ≤ m' := h0.trans hmm
  have e0 := hV.trans0
  have e1 := hV.trans1
  have hp : 0 ≤ 1 / V.transEff := by positivity
  have key : bothWork (legs c) (loadFixKj V P.toStepParams) (fun l => loadKinKj l + loadSlopeKj F V P.toStepParams l)
      (1 / V.transEff) (fun l => regenShare F V l.v0 l.v * V.transEff) 0 +
        m' * (1 / V.transEff) * ((legs c).map loadKinKj).sum ≤
      bothWork (legs c) (loadFixKj V P.toStepParams) (fun l => loadKinKj l + loadSlopeKj F V P.toStepParams l)
        (1 / V.transEff) (fun l => regenShare F V l.v0 l.v * V.transEff) m' := by
    unfold bothWork
    have hf' : ∀ l ∈ legs c, (0 < l.dt ∧ 0 ≤ avgSpeed l.v0 l.v) ∧ 0 ≤ slopeShare F V l.grade :=
      fun l hl => ⟨hf l hl, hg l hl⟩
    generalize legs c = ls at hf'
    induction ls with
    | nil => simp
    | cons l ls ih =>
      simp only [List.map_cons, List.sum_cons, zero_mul, add_zero] at ih ⊢
      have i := ih fun k hk => hf' k (List.mem_cons_of_mem _ hk)
      obtain ⟨⟨hdt, hv⟩, hs⟩ := hf' l (by simp)
      have hSl : 0 ≤ loadSlopeKj F V P.toStepParams l := by
        unfold loadSlopeKj
        have := hS.grav
        positivity
      have hD : 0 ≤ aeroKw V P.toStepParams l.v0 l.v * l.dt := by
        unfold aeroKw
        have := hS.air; have := hS.drag; have := hS.area
        positivity
      obtain ⟨s0, s1⟩ := regenShare_bounds (F := F) hR l.v0 l.v
      have hq0 : 0 ≤ regenShare F V l.v0 l.v * V.transEff := mul_nonneg s0 e0.le
      have hqp : regenShare F V l.v0 l.v * V.transEff ≤ 1 / V.transEff := by
        rw [le_div_iff₀ e0, mul_assoc]
        exact mul_le_one₀ s1 (mul_nonneg e0.le e0.le) (mul_le_one₀ e1 e0.le e1)
      have hfixk : 0 < loadKinKj l → 0 ≤ loadFixKj V P.toStepParams l := by
        intro hk
        have hw : 0 ≤ wheelKj V l.v - wheelKj V l.v0 := by
          have hk' : 0 ≤ l.v ^ 2 - l.v0 ^ 2 := by
            by_contra hneg
            have : (l.v ^ 2 - l.v0 ^ 2) / 2 / 1000 < 0 := by
              have := not_le.1 hneg
              have h2 : (0 : K) < 2 := by norm_num
              have h3 : (0 : K) < 1000 := by norm_num
              exact div_neg_of_neg_of_pos (div_neg_of_neg_of_pos this h2) h3
            unfold loadKinKj at hk
            linarith
          have : wheelKj V l.v - wheelKj V l.v0 =
              V.numWheels * V.wheelInertiaKgM2 * ((l.v ^ 2 - l.v0 ^ 2) / V.wheelRadiusM ^ 2) / 2 / 1000 := by
            unfold wheelKj; rw [div_pow, div_pow]; ring
          rw [this]
          have := hS.wheels; have := hS.inertia
          positivity
        unfold loadFixKj
        linarith
      generalize 1 / V.transEff = p at *
      generalize regenShare F V l.v0 l.v * V.transEff = q at *
      generalize loadFixKj V P.toStepParams l = a at *
      generalize loadKinKj l = k at *
      generalize loadSlopeKj F V P.toStepParams l = r at *
      have step : max (p * a) (q * a) + m' * p * k ≤ max (p * (a + m' * (k + r))) (q * (a + m' * (k + r))) := by
        have hmr := mul_nonneg hm0 hSl
        rcases le_total 0 a with ha | ha
        · rw [max_eq_left (mul_le_mul_of_nonneg_right hqp ha)]
          refine le_trans ?_ (le_max_left _ _)
          have := mul_nonneg hp hmr
          nlinarith
        · rw [max_eq_right (mul_le_mul_of_nonpos_right hqp ha)]
          have hk : k ≤ 0 ∨ a = 0 := by
            rcases le_or_gt k 0 with hk | hk
            · exact .inl hk
            · exact .inr (le_antisymm ha (hfixk hk))
          rcases hk with hk | rfl
          · refine le_trans ?_ (le_max_right _ _)
            have h1 := mul_nonneg hq0 hmr
            have h2 := mul_le_mul_of_nonpos_right hqp (mul_nonpos_of_nonneg_of_nonpos hm0 hk)
            nlinarith
          · refine le_trans ?_ (le_max_left _ _)
            have := mul_nonneg hp hmr
            nlinarith
      linarith
  have := mul_nonneg (mul_nonneg hm0 hp) (sum_kin_nonneg he)
  linarith

/-- **C119 (battery-electric, convexity).** The work of the motor is a convex function of the mass. -/
theorem C119_bev_convex (hc : P.coastAllow = false) (hd : P.idmAllow = false) (hm : P.missedTrace = false)
    (hV : BevData V) (hR : BrakeShareOk F V) {H : K → Hooks K} (hH : ∀ m, (H m).Local) {c : Cyc K} (hf : DrivenForward c) {m m' w : K} (h0 : 0 ≤ w)
    (h1 : w ≤ 1) {init init' init'' : Option K} {s s' s'' : Sim K}
    (h : simDrive F (H m) (ofMass V m) P (Sim.new c) init none = .ok s)
    (h' : simDrive F (H m') (ofMass V m') P (Sim.new c) init' none = .ok s')
    (h'' : simDrive F (H (w * m + (1 - w) * m')) (ofMass V (w * m + (1 - w) * m')) P (Sim.new c) init'' none = .ok s'')
    (hu : Unlimited (ofMass V m) s) (hu' : Unlimited (ofMass V m') s')
    (hu'' : Unlimited (ofMass V (w * m + (1 - w) * m')) s'') :
    motorKj s'' ≤ w * motorKj s + (1 - w) * motorKj s' := by
  rw [motor_mass hc hd hm hV hR (hH _) hf h hu, motor_mass hc hd hm hV hR (hH _) hf h' hu',
    motor_mass hc hd hm hV hR (hH _) hf h'' hu'']
  exact bothWork_convex _ _ _ _ _ _ _ _ h0 h1

/-- **C120 (battery-electric).** On a road of constant slope that is not steeper downhill than rolling and air resistance
hold, the steady trip takes no more motor work, less what comes back in braking, than any other over the same distance in
the same time that does not end slower than it starts. -/
theorem C120_bev (hc : P.coastAllow = false) (hd : P.idmAllow = false) (hm : P.missedTrace = false)
    (hV : BevData V) (hR : BrakeShareOk F V) (hS : SoundData V P.toStepParams) (hkg : 0 ≤ V.vehKg) (hH : H.Local)
    {c : Cyc K} (hf : DrivenForward c) (he : EndsNoSlower c) (hT : 0 < tripTime c) {g : K}
    (hg : ∀ l ∈ legs c, l.grade = g) {init init' : Option K} {s s' : Sim K}
    (h : simDrive F H V P (Sim.new c) init none = .ok s)
    (h' : simDrive F H V P (Sim.new (steadyTrace (tripDist c / tripTime c) (tripTime c) g)) init' none = .ok s')
    (hu : Unlimited V s) (hu' : Unlimited V s')
    (hload : 0 ≤ roadLoadKw F V P.toStepParams (tripTime c) g (tripDist c / tripTime c) (tripDist c / tripTime c)) :
    motorKj s' ≤ motorKj s := by
  set v := tripDist c / tripTime c with hvdef
  have hD : tripDist c = v * tripTime c := by rw [hvdef, div_mul_cancel₀ _ hT.ne']
  have hD0 : 0 ≤ tripDist c := by
    unfold tripDist
    refine List.sum_nonneg fun x hx => ?_
    obtain ⟨l, hl, rfl⟩ := List.mem_map.1 hx
    exact mul_nonneg (hf l hl).2 (hf l hl).1.le
  have hv : 0 ≤ v := div_nonneg hD0 hT.le
  have hlegs : legs (steadyTrace v (tripTime c) g) = [⟨tripTime c, v, v, g⟩] := by
    simp [steadyTrace, legs]
  have e0 := hV.trans0
  have e1 := hV.trans1
  rw [leg_duty hc hd hm hV hH h hu, leg_duty hc hd hm hV hH h' hu', hlegs]
  simp only [List.map_cons, List.map_nil, List.sum_cons, List.sum_nil, add_zero]
  have k := wheel_work_mean (F := F) hS hkg hf he hg hv hD
  have hst : motorDutyKw F V P.toStepParams (tripTime c) g v v =
      roadLoadKw F V P.toStepParams (tripTime c) g v v / V.transEff := by
    rw [duty_max hV hR, max_eq_left]
    obtain ⟨s0, s1⟩ := regenShare_bounds (F := F) hR v v
    have hqp : regenShare F V v v * V.transEff ≤ 1 / V.transEff := by
      rw [le_div_iff₀ e0, mul_assoc]
      exact mul_le_one₀ s1 (mul_nonneg e0.le e0.le) (mul_le_one₀ e1 e0.le e1)
    have := mul_le_mul_of_nonneg_right hqp hload
    rw [div_eq_mul_one_div, mul_comm (roadLoadKw F V P.toStepParams (tripTime c) g v v)]
    linarith
  rw [hst, div_mul_eq_mul_div]
  refine (div_le_div_of_nonneg_right k e0.le).trans ?_
  clear k hst hlegs hload h h' hu hu' hD hD0 hv hT he
  clear_value v
  clear hvdef v
  unfold DrivenForward at hf
  generalize legs c = ls at *
  clear hg
  induction ls with
  | nil => simp
  | cons l ls ih =>
    have i := ih fun k hk => hf k (List.mem_cons_of_mem _ hk)
    have hdt := (hf l (by simp)).1
    simp only [List.map_cons, List.sum_cons]
    rw [add_div]
    refine add_le_add ?_ i
    rw [← load_parts (F := F) (V := V) l hdt.ne' P.toStepParams, duty_max hV hR, mul_div_right_comm]
    exact mul_le_mul_of_nonneg_right (le_max_left _ _) hdt.le

end Field

/-! ### Concrete cases -/

open Demo

/-- The battery-electric demo car meets the hypotheses of `C119_bev` on `hop`, with three masses, and of `C120_bev` on
`uneven`. -/
theorem C119_demo_bev : BevData bev ∧ BrakeShareOk fns bev ∧ SoundData bev params.toStepParams ∧
    (∀ l ∈ legs hop, 0 ≤ slopeShare fns bev l.grade) ∧
    (∀ m ∈ [(1200 : ℚ), 1400, 1600], ∃ s, simDrive fns noHooks (ofMass bev m) params (Sim.new hop) (some (3 / 5)) none = .ok s ∧
      Unlimited (ofMass bev m) s) ∧
    0 ≤ roadLoadKw fns bev params.toStepParams (tripTime uneven) 0 (tripDist uneven / tripTime uneven)
      (tripDist uneven / tripTime uneven) ∧
    ∀ c ∈ [uneven, steadyTrace (tripDist uneven / tripTime uneven) (tripTime uneven) 0],
      ∃ s, simDrive fns noHooks bev params (Sim.new c) (some (3 / 5)) none = .ok s ∧ Unlimited bev s := by
  have conv : ∀ {V : Veh ℚ} {s : Sim ℚ}, V.transEff = bev.transEff → Unlimited bev s → Unlimited V s := by
    intro V s e hu
    exact ⟨hu.1, hu.2, fun i p r dt a hs => by rw [e]; exact hu.3 i p r dt a hs, hu.4⟩
  have run : ∀ (V : Veh ℚ) (c : Cyc ℚ), V.transEff = bev.transEff →
      (match simDrive fns noHooks V params (Sim.new c) (some (3 / 5)) none with
        | .ok s => bevRunOk c s
        | .error _ => false) = true →
      ∃ s, simDrive fns noHooks V params (Sim.new c) (some (3 / 5)) none = .ok s ∧ Unlimited V s := by
    intro V c e hall
    split at hall
    · rename_i s hs
      exact ⟨s, hs, conv e (bevRunOk_spec hall).2.2.2.2⟩
    · simp at hall
  have k1 : ∀ m ∈ [(1200 : ℚ), 1400, 1600],
      (match simDrive fns noHooks (ofMass bev m) params (Sim.new hop) (some (3 / 5)) none with
        | .ok s => bevRunOk hop s
        | .error _ => false) = true := by decide +kernel
  have k2 : ∀ c ∈ [uneven, steadyTrace (tripDist uneven / tripTime uneven) (tripTime uneven) 0],
      (match simDrive fns noHooks bev params (Sim.new c) (some (3 / 5)) none with
        | .ok s => bevRunOk c s
        | .error _ => false) = true := by decide +kernel
  refine ⟨C91_demo.1, ⟨?_, by decide +kernel, by decide +kernel, by decide +kernel⟩, ⟨by decide +kernel, by decide +kernel,
    by decide +kernel, by decide +kernel, by decide +kernel, by decide +kernel⟩, by decide +kernel,
    fun m hm => run _ _ rfl (k1 m hm), by decide +kernel, fun c hc => run _ _ rfl (k2 c hc)⟩
  intro x
  simp only [fns]
  split
  · rename_i hx
    exact div_nonneg one_pos.le (by linarith)
  · rename_i hx
    linarith [not_lt.1 hx]

end Fastsim.Props
