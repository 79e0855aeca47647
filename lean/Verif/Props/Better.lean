import Verif.Props.BevWithin

/-!
# C134: improving a battery-electric vehicle

What the motor has to do never gets more if transmission, recuperation or resistance get better, and neither does the charge if
the battery gets better or the motor has one efficiency throughout. A larger battery makes every trip the smaller one makes and
takes the same energy for it.
-/

set_option linter.unusedSectionVars false
set_option linter.unusedVariables false

namespace Fastsim.Spec
open Fastsim
section Field
variable {K : Type*} [Field K] [LinearOrder K] [IsStrictOrderedRing K]

/-- The second vehicle has a better transmission or leaves more of the braking to the motor, and is the same otherwise. -/
structure BetterDrive (V V' : Veh K) : Prop where
  same : V' = { V with transEff := V'.transEff, maxRegen := V'.maxRegen }
  trans : V.transEff ≤ V'.transEff
  trans1 : V'.transEff ≤ 1
  regen : V.maxRegen ≤ V'.maxRegen
  regen1 : V'.maxRegen ≤ 1

/-- The motor has the same efficiency at every power. -/
def OneEff (V : Veh K) : Prop := ∀ e ∈ V.mcFullEffArray.tail, ∀ e' ∈ V.mcFullEffArray.tail, e = e'

end Field
end Fastsim.Spec

namespace Fastsim.Props
open Fastsim Spec

section Field
variable {K : Type*} [Field K] [LinearOrder K] [IsStrictOrderedRing K]
variable {F : Fns K} {H H' : Hooks K} {V V' : Veh K} {P P' : SimParams K}

/-- Less load, a better transmission and a larger share of the braking each lower what the motor has to do. -/
theorem duty_le (hV : BevData V) (hV' : BevData V') (hR : BrakeShareOk F V) (hR' : BrakeShareOk F V') {Q Q' : StepParams K}
    {dt g v0 v : K} (hx : roadLoadKw F V' Q' dt g v0 v ≤ roadLoadKw F V Q dt g v0 v) (he : V.transEff ≤ V'.transEff)
    (hr : regenShare F V v0 v ≤ regenShare F V' v0 v) : motorDutyKw F V' Q' dt g v0 v ≤ motorDutyKw F V Q dt g v0 v := by
  rw [duty_max hV hR, duty_max hV' hR']
  obtain ⟨s0, s1⟩ := regenShare_bounds (F := F) hR v0 v
  obtain ⟨s0', s1'⟩ := regenShare_bounds (F := F) hR' v0 v
  have e0 := hV.trans0
  have e0' := hV'.trans0
  have e1' := hV'.trans1
  generalize roadLoadKw F V' Q' dt g v0 v = x' at *
  generalize roadLoadKw F V Q dt g v0 v = x at *
  generalize regenShare F V v0 v = r at *
  generalize regenShare F V' v0 v = r' at *
  generalize V.transEff = e at *
  generalize V'.transEff = e' at *
  have hre : r' * e' ≤ 1 / e' := by
    rw [le_div_iff₀ e0', mul_assoc]
    exact mul_le_one₀ s1' (mul_nonneg e0'.le e0'.le) (mul_le_one₀ e1' e0'.le e1')
  rcases le_or_gt 0 x' with h0 | h0
  · have k1 : x' / e' ≤ x / e := (div_le_div_of_nonneg_left h0 e0 he).trans (div_le_div_of_nonneg_right hx e0.le)
    refine max_le (k1.trans (le_max_left _ _)) (le_trans ?_ (k1.trans (le_max_left _ _)))
    have := mul_le_mul_of_nonneg_right hre h0
    rwa [one_div_mul_eq_div] at this
  · have k1 : r' * e' * x' ≤ r * e * x := by
      have a1 : r * e ≤ r' * e' := mul_le_mul hr he e0.le s0'
      have a2 : r' * e' * x' ≤ r * e * x' := mul_le_mul_of_nonpos_right a1 h0.le
      exact a2.trans (mul_le_mul_of_nonneg_left hx (mul_nonneg s0 e0.le))
    refine max_le (le_trans ?_ (k1.trans (le_max_right _ _))) (k1.trans (le_max_right _ _))
    have := mul_le_mul_of_nonpos_right hre h0.le
    rwa [one_div_mul_eq_div] at this

theorem regenShare_better (hB : BetterDrive V V') (hR : BrakeShareOk F V) (v0 v : K) :
    regenShare F V v0 v ≤ regenShare F V' v0 v := by
  have hs := hB.same
  have hr := hB.regen
  unfold regenShare
  rw [show V'.regenA = V.regenA by rw [hs], show V'.regenB = V.regenB by rw [hs]]
  have h := mul_nonneg hR.a (hR.exp (-V.regenB * (avgSpeed v0 v * mphPerMps + 1)))
  exact div_le_div_of_nonneg_right hr (by linarith)

theorem _root_.Fastsim.Spec.BetterDrive.bev (hB : BetterDrive V V') (hV : BevData V) : BevData V' := by
  have h0 := hV.trans0.trans_le hB.trans
  have h1 := hB.trans1
  have hs := hB.same
  generalize hB' : V'.transEff = t at *
  rw [hs]
  exact ⟨hV.1, hV.2, hV.3, hV.4, hV.5, hV.6, hV.7, hV.8, h0, h1⟩

theorem _root_.Fastsim.Spec.BetterDrive.share (hB : BetterDrive V V') (hR : BrakeShareOk F V) : BrakeShareOk F V' :=
  ⟨hR.exp, by rw [hB.same]; exact hR.a, hR.lo.trans hB.regen, hB.regen1⟩

theorem _root_.Fastsim.Spec.BetterDrive.load (hB : BetterDrive V V') (Q : StepParams K) (dt g v0 v : K) :
    roadLoadKw F V' Q dt g v0 v = roadLoadKw F V Q dt g v0 v := by rw [hB.same]; rfl

theorem _root_.Fastsim.Spec.BetterDrive.duty (hB : BetterDrive V V') (hV : BevData V) (hR : BrakeShareOk F V) (Q : StepParams K) (dt g v0 v : K) :
    motorDutyKw F V' Q dt g v0 v ≤ motorDutyKw F V Q dt g v0 v :=
  duty_le hV (hB.bev hV) hR (hB.share hR) (hB.load Q dt g v0 v).le hB.trans (regenShare_better hB hR v0 v)

theorem _root_.Fastsim.Spec.MoreResistance.bev (hM : MoreResistance V V' P P') (hV : BevData V) : BevData V' := by
  rw [hM.vehicle]
  exact ⟨hV.1, hV.2, hV.3, hV.4, hV.5, hV.6, hV.7, hV.8, hV.9, hV.10⟩

theorem _root_.Fastsim.Spec.MoreResistance.duty (hM : MoreResistance V V' P P') (hcos : ∀ g, 0 ≤ F.cosAtan g) (hV : BevData V)
    (hR : BrakeShareOk F V) {v0 v : K} (h0 : 0 ≤ v0) (h1 : 0 ≤ v) (dt g : K) :
    motorDutyKw F V P.toStepParams dt g v0 v ≤ motorDutyKw F V' P'.toStepParams dt g v0 v := by
  have hR' : BrakeShareOk F V' :=
    ⟨hR.exp, by rw [hM.vehicle]; exact hR.a, by rw [hM.vehicle]; exact hR.lo, by rw [hM.vehicle]; exact hR.hi⟩
  refine duty_le (hM.bev hV) hV hR' hR (roadLoad_mono hM hcos h0 h1 dt g) (by rw [hM.vehicle]) (by rw [hM.vehicle]; rfl)

/-- **C134 (transmission and recuperation).** Of two battery-electric vehicles, the one with the better transmission and the larger
share of the braking left to the motor needs no more motor work, less what comes back in braking, on a trip that neither has
to cut back. -/
theorem C134_drive (hc : P.coastAllow = false) (hd : P.idmAllow = false) (hm : P.missedTrace = false) (hV : BevData V)
    (hR : BrakeShareOk F V) (hB : BetterDrive V V') (hH : H.Local) (hH' : H'.Local) {c : Cyc K} (hdt : ∀ l ∈ legs c, 0 ≤ l.dt)
    {init init' : Option K} {s s' : Sim K} (h : simDrive F H V P (Sim.new c) init none = .ok s)
    (h' : simDrive F H' V' P (Sim.new c) init' none = .ok s') (hu : Unlimited V s) (hu' : Unlimited V' s') :
    motorKj s' ≤ motorKj s := by
  rw [leg_duty hc hd hm hV hH h hu, leg_duty hc hd hm (hB.bev hV) hH' h' hu']
  exact List.sum_le_sum fun l hl => mul_le_mul_of_nonneg_right (hB.duty hV hR _ _ _ _ _) (hdt l hl)

/-- **C134 (resistance).** More air or rolling resistance never means less motor work. -/
theorem C134_resistance (hc : P.coastAllow = false) (hd : P.idmAllow = false) (hm : P.missedTrace = false) (hV : BevData V)
    (hR : BrakeShareOk F V) (hM : MoreResistance V V' P P') (hcos : ∀ g, 0 ≤ F.cosAtan g) (hH : H.Local) (hH' : H'.Local) {c : Cyc K}
    (hf : ∀ l ∈ legs c, 0 ≤ l.dt ∧ 0 ≤ l.v0 ∧ 0 ≤ l.v) {init init' : Option K} {s s' : Sim K}
    (h : simDrive F H V P (Sim.new c) init none = .ok s) (h' : simDrive F H' V' P' (Sim.new c) init' none = .ok s')
    (hu : Unlimited V s) (hu' : Unlimited V' s') : motorKj s ≤ motorKj s' := by
  have hc' : P'.coastAllow = false := by rw [hM.surroundings]; exact hc
  have hd' : P'.idmAllow = false := by rw [hM.surroundings]; exact hd
  have hm' : P'.missedTrace = false := by rw [hM.surroundings]; exact hm
  rw [leg_duty hc hd hm hV hH h hu, leg_duty hc' hd' hm' (hM.bev hV) hH' h' hu']
  exact List.sum_le_sum fun l hl =>
    mul_le_mul_of_nonneg_right (hM.duty hcos hV hR (hf l hl).2.1 (hf l hl).2.2 _ _) (hf l hl).1

/-- A motor of one efficiency takes more electricity for more mechanical power. -/
theorem elec_mono (hM : MotorOk V) (h1 : OneEff V) {m m' : K} (h : m ≤ m') : mcElecKwInAch V m ≤ mcElecKwInAch V m' := by
  obtain ⟨e, he⟩ : ∃ e, e ∈ V.mcFullEffArray.tail := ⟨_, hM.last_mem⟩
  have e0 := hM.pos e he
  have T := motorTable hM
  have pos : ∀ x, 0 < x → mcElecKwInAch V x = x / e := by
    intro x hx
    obtain ⟨y, hy, hxy⟩ := T.drive x hx
    rw [h1 y hy e he] at hxy
    rw [eq_div_iff e0.ne', hxy]
  have neg : ∀ x, x < 0 → mcElecKwInAch V x = x * e := by
    intro x hx
    obtain ⟨y, hy, hxy⟩ := T.brake x hx
    rw [hxy, h1 y hy e he]
  have nn : ∀ x, 0 ≤ x → 0 ≤ mcElecKwInAch V x := by
    intro x hx
    rcases hx.lt_or_eq with hx | rfl
    · rw [pos x hx]; positivity
    · rw [T.rest]
  rcases lt_trichotomy m' 0 with h' | h' | h'
  · rw [neg m (h.trans_lt h'), neg m' h']
    exact mul_le_mul_of_nonneg_right h e0.le
  · rw [h', T.rest]
    rcases (h.trans h'.le).lt_or_eq with hm | hm
    · rw [neg m hm]; exact (mul_neg_of_neg_of_pos hm e0).le
    · rw [hm, T.rest]
  · rcases lt_or_ge m 0 with hm | hm
    · rw [neg m hm]
      exact (mul_neg_of_neg_of_pos hm e0).le.trans (nn m' h'.le)
    · rcases hm.lt_or_eq with hm | rfl
      · rw [pos m hm, pos m' h']
        exact div_le_div_of_nonneg_right h e0.le
      · rw [T.rest]; exact nn m' h'.le

theorem cellKw_mono (hq : 0 < F.sqrt V.essRoundTripEff) {x y : K} (h : x ≤ y) : cellKw F V x ≤ cellKw F V y := by
  unfold cellKw
  split
  · split
    · exact mul_le_mul_of_nonneg_right h hq.le
    · rename_i h1 h2
      exact (mul_neg_of_neg_of_pos h1 hq).le.trans (div_nonneg (not_lt.1 h2) hq.le)
  · rename_i h1
    rw [if_neg (not_lt.2 ((not_lt.1 h1).trans h))]
    exact div_le_div_of_nonneg_right h hq.le

theorem bev_charge (hc : P.coastAllow = false) (hd : P.idmAllow = false) (hm : P.missedTrace = false) (hV : BevData V)
    (hH : H.Local) (hA : Hooks.KeepAux H V) {c : Cyc K} {init : Option K} {s : Sim K}
    (h : simDrive F H V P (Sim.new c) init none = .ok s) (hu : Unlimited V s) :
    essDischgKj V s = ((legs c).map (legCellKj F V P.toStepParams (mcElecKwInAch V) V.auxKw)).sum := by
  obtain ⟨hlen, hpos, hl⟩ := leg_charge hc hd hm hV hH hA h hu
  have hk := hl (c.length - 1) (by omega)
  have e : ((s.row 0).dec.soc - (s.row (c.length - 1)).dec.soc) * V.essMaxKwh * 3600 = essDischgKj V s := by
    unfold essDischgKj
    have : s.lastRow = s.row (c.length - 1) := by
      unfold Sim.lastRow Sim.row
      rw [List.getLast?_eq_getElem?, hlen, List.getD_eq_getElem?_getD]
    rw [this, show s.firstRow = s.row 0 from rfl]
    ring
  rw [← e, hk, legs_sum]

/-- **C134 (charge, transmission and recuperation).** If the motor has one efficiency, the better vehicle takes no more energy from
its battery. -/
theorem C134_drive_charge (hc : P.coastAllow = false) (hd : P.idmAllow = false) (hm : P.missedTrace = false) (hV : BevData V)
    (hR : BrakeShareOk F V) (hM : MotorOk V) (h1 : OneEff V) (hq : 0 < F.sqrt V.essRoundTripEff) (hB : BetterDrive V V')
    (hH : H.Local) (hH' : H'.Local) (hA : Hooks.KeepAux H V) (hA' : Hooks.KeepAux H' V') {c : Cyc K} (hdt : ∀ l ∈ legs c, 0 ≤ l.dt)
    {init init' : Option K} {s s' : Sim K} (h : simDrive F H V P (Sim.new c) init none = .ok s)
    (h' : simDrive F H' V' P (Sim.new c) init' none = .ok s') (hu : Unlimited V s) (hu' : Unlimited V' s') :
    essDischgKj V' s' ≤ essDischgKj V s := by
  rw [bev_charge hc hd hm hV hH hA h hu, bev_charge hc hd hm (hB.bev hV) hH' hA' h' hu']
  refine List.sum_le_sum fun l hl => mul_le_mul_of_nonneg_right ?_ (hdt l hl)
  have k := elec_mono hM h1 (hB.duty hV hR P.toStepParams l.dt l.grade l.v0 l.v)
  generalize motorDutyKw F V' P.toStepParams l.dt l.grade l.v0 l.v = d at *
  rw [hB.same]
  exact cellKw_mono hq (by have : mcElecKwInAch V d + V.auxKw ≤ _ := add_le_add_left k V.auxKw; exact this)

/-- **C134 (charge, resistance).** If the motor has one efficiency, more resistance and accessory load never take less energy from
the battery. -/
theorem C134_resistance_charge (hc : P.coastAllow = false) (hd : P.idmAllow = false) (hm : P.missedTrace = false)
    (hV : BevData V) (hR : BrakeShareOk F V) (hMo : MotorOk V) (h1 : OneEff V) (hq : 0 < F.sqrt V.essRoundTripEff)
    (hM : MoreResistance V V' P P') (ha : V.auxKw ≤ V'.auxKw) (hcos : ∀ g, 0 ≤ F.cosAtan g) (hH : H.Local) (hH' : H'.Local)
    (hA : Hooks.KeepAux H V) (hA' : Hooks.KeepAux H' V') {c : Cyc K} (hf : ∀ l ∈ legs c, 0 ≤ l.dt ∧ 0 ≤ l.v0 ∧ 0 ≤ l.v)
    {init init' : Option K} {s s' : Sim K} (h : simDrive F H V P (Sim.new c) init none = .ok s)
    (h' : simDrive F H' V' P' (Sim.new c) init' none = .ok s') (hu : Unlimited V s) (hu' : Unlimited V' s') :
    essDischgKj V s ≤ essDischgKj V' s' := by
  have hc' : P'.coastAllow = false := by rw [hM.surroundings]; exact hc
  have hd' : P'.idmAllow = false := by rw [hM.surroundings]; exact hd
  have hm' : P'.missedTrace = false := by rw [hM.surroundings]; exact hm
  rw [bev_charge hc hd hm hV hH hA h hu, bev_charge hc' hd' hm' (hM.bev hV) hH' hA' h' hu']
  refine List.sum_le_sum fun l hl => mul_le_mul_of_nonneg_right ?_ (hf l hl).1
  have k := elec_mono hMo h1 (hM.duty hcos hV hR (hf l hl).2.1 (hf l hl).2.2 l.dt l.grade)
  generalize motorDutyKw F V' P'.toStepParams l.dt l.grade l.v0 l.v = d at *
  have e1 : mcElecKwInAch V' d = mcElecKwInAch V d := by rw [hM.vehicle]; rfl
  have e2 : ∀ x, cellKw F V' x = cellKw F V x := fun x => by rw [hM.vehicle]; rfl
  rw [e1, e2]
  exact cellKw_mono hq (add_le_add k ha)

/-- **C134 (battery).** With smaller losses in the battery, all else being equal, no more energy is taken from it. -/
theorem C134_battery (hc : P.coastAllow = false) (hd : P.idmAllow = false) (hm : P.missedTrace = false) (hV : BevData V)
    {e : K} (hq : 0 < F.sqrt V.essRoundTripEff) (he : F.sqrt V.essRoundTripEff ≤ F.sqrt e) (hH : H.Local) (hH' : H'.Local)
    (hA : Hooks.KeepAux H V) (hA' : Hooks.KeepAux H' { V with essRoundTripEff := e }) {c : Cyc K}
    (hdt : ∀ l ∈ legs c, 0 ≤ l.dt) {init init' : Option K} {s s' : Sim K}
    (h : simDrive F H V P (Sim.new c) init none = .ok s)
    (h' : simDrive F H' { V with essRoundTripEff := e } P (Sim.new c) init' none = .ok s') (hu : Unlimited V s)
    (hu' : Unlimited { V with essRoundTripEff := e } s') : essDischgKj { V with essRoundTripEff := e } s' ≤ essDischgKj V s := by
  have hV' : BevData { V with essRoundTripEff := e } := ⟨hV.1, hV.2, hV.3, hV.4, hV.5, hV.6, hV.7, hV.8, hV.9, hV.10⟩
  rw [bev_charge hc hd hm hV hH hA h hu, bev_charge hc hd hm hV' hH' hA' h' hu']
  refine List.sum_le_sum fun l hl => mul_le_mul_of_nonneg_right ?_ (hdt l hl)
  show cellKw F { V with essRoundTripEff := e } (mcElecKwInAch V (motorDutyKw F V P.toStepParams l.dt l.grade l.v0 l.v) + V.auxKw) ≤
    cellKw F V (mcElecKwInAch V (motorDutyKw F V P.toStepParams l.dt l.grade l.v0 l.v) + V.auxKw)
  generalize mcElecKwInAch V (motorDutyKw F V P.toStepParams l.dt l.grade l.v0 l.v) + V.auxKw = x
  unfold cellKw
  simp only
  split
  · rename_i hx
    exact mul_le_mul_of_nonpos_left he hx.le
  · rename_i hx
    exact div_le_div_of_nonneg_left (not_lt.1 hx) hq he

/-! ### A larger battery -/

/-- What can be driven with a battery can be driven with a larger one. -/
theorem larger_within {E : K} (hV : BevData V) (hE : V.essMaxKwh ≤ E) (hq : 0 < F.sqrt V.essRoundTripEff) {Q : StepParams K}
    {elec : K → K} {a : K} (ls : List (Leg K)) {soc0 soc soc' m : K} (h0 : V.minSoc ≤ soc0) (h1 : soc0 ≤ V.maxSoc)
    (hr : V.minSoc + V.maxAccelBufferPercOfUseableSoc * (V.maxSoc - V.minSoc) < soc0)
    (hsoc : (soc' - soc0) * E = (soc - soc0) * V.essMaxKwh) (hw : BevLegsWithin F V Q elec a soc m ls) :
    BevLegsWithin F { V with essMaxKwh := E } Q elec a soc' m ls := by
  have c0 := hV.capacity
  have cE : 0 < E := c0.trans_le hE
  induction ls generalizing soc soc' m with
  | nil => trivial
  | cons l ls ih =>
    obtain ⟨⟨t, c, r, d, g, b⟩, hw⟩ := hw
    have room : cellKj V V.minSoc soc ≤ cellKj { V with essMaxKwh := E } V.minSoc soc' := by
      unfold cellKj
      show (soc - V.minSoc) * V.essMaxKwh * 3600 ≤ (soc' - V.minSoc) * E * 3600
      nlinarith [mul_nonneg (sub_nonneg.2 h0) (sub_nonneg.2 hE)]
    have room' : cellKj V soc V.maxSoc ≤ cellKj { V with essMaxKwh := E } soc' V.maxSoc := by
      unfold cellKj
      show (V.maxSoc - soc) * V.essMaxKwh * 3600 ≤ (V.maxSoc - soc') * E * 3600
      nlinarith [mul_nonneg (sub_nonneg.2 h1) (sub_nonneg.2 hE)]
    refine ⟨⟨t, c.trans (mul_le_mul_of_nonneg_right room hq.le), ?_, d, g, fun hn => ⟨(b hn).1, (b hn).2.trans room'⟩⟩, ?_⟩
    · show V.minSoc + V.maxAccelBufferPercOfUseableSoc * (V.maxSoc - V.minSoc) < soc'
      generalize V.minSoc + V.maxAccelBufferPercOfUseableSoc * (V.maxSoc - V.minSoc) = z at *
      have : z * E < soc' * E := by
        have a1 : soc' * E = soc0 * (E - V.essMaxKwh) + soc * V.essMaxKwh := by linarith
        have a2 : z * V.essMaxKwh < soc * V.essMaxKwh := mul_lt_mul_of_pos_right r c0
        have a3 : z * (E - V.essMaxKwh) ≤ soc0 * (E - V.essMaxKwh) := mul_le_mul_of_nonneg_right hr.le (sub_nonneg.2 hE)
        rw [a1]
        linarith
      exact lt_of_mul_lt_mul_right this cE.le
    · refine ih ?_ hw
      show (soc' - legCellKj F V Q elec a l / (E * 3600) - soc0) * E = (soc - legCellKj F V Q elec a l / (V.essMaxKwh * 3600) - soc0) * V.essMaxKwh
      have b1 : legCellKj F V Q elec a l / (E * 3600) * E = legCellKj F V Q elec a l / 3600 := by field_simp
      have b2 : legCellKj F V Q elec a l / (V.essMaxKwh * 3600) * V.essMaxKwh = legCellKj F V Q elec a l / 3600 := by field_simp
      linarith

/-- **C134 (larger battery).** Every trip that is within the limits of a battery-electric vehicle from a charge in its window is so
with a larger battery: both runs exist, feel no limit, and take the same energy from the battery, so the larger battery
keeps more of its charge in proportion to its size. -/
theorem C134_capacity [FloorRing K] (hc : P.coastAllow = false) (hd : P.idmAllow = false) (hm : P.missedTrace = false)
    (hV : BevData V) (hB : StrongBattery V) (hM : MotorOk V) (hR : BrakeShareOk F V)
    (hq : 0 < F.sqrt V.essRoundTripEff) {E : K} (hE : V.essMaxKwh ≤ E) :
    ∃ elec : K → K, MotorTable V elec ∧
      ∀ (c : Cyc K) (init : Option K), c ≠ [] → V.minSoc ≤ bevStartSoc V init → bevStartSoc V init ≤ V.maxSoc →
        BevLegsWithin F V P.toStepParams elec V.auxKw (bevStartSoc V init) 0 (legs c) →
        ∃ s s', simDrive F (realHooks F V P) V P (Sim.new c) init none = .ok s ∧
          simDrive F (realHooks F { V with essMaxKwh := E } P) { V with essMaxKwh := E } P (Sim.new c) init none = .ok s' ∧
          Unlimited V s ∧ Unlimited { V with essMaxKwh := E } s' ∧
          motorKj s' = motorKj s ∧ essDischgKj { V with essMaxKwh := E } s' = essDischgKj V s ∧
          (s.row 0).dec.soc = bevStartSoc V init ∧ (s'.row 0).dec.soc = bevStartSoc V init ∧
          ∀ k, k < c.length → (bevStartSoc V init - (s'.row k).dec.soc) * E =
            (bevStartSoc V init - (s.row k).dec.soc) * V.essMaxKwh := by
  refine ⟨mcElecKwInAch V, motorTable hM, fun c init hne h0 h1 hw => ?_⟩
  have hV' : BevData { V with essMaxKwh := E } :=
    ⟨hV.1, hV.2, hV.3, hV.4, hV.5, hV.6.trans_le hE, hV.7, hV.8, hV.9, hV.10⟩
  have hB' : StrongBattery { V with essMaxKwh := E } :=
    ⟨hB.1, hB.2, hB.3, hB.4, hB.5, hB.6, hB.7, hB.8, hB.9, hB.10, hB.11, hB.12⟩
  have hM' : MotorOk { V with essMaxKwh := E } := ⟨hM.1, hM.2, hM.3, hM.4, hM.5⟩
  have hR' : BrakeShareOk F { V with essMaxKwh := E } := ⟨hR.1, hR.2, hR.3, hR.4⟩
  have hw' : BevLegsWithin F { V with essMaxKwh := E } P.toStepParams (mcElecKwInAch { V with essMaxKwh := E }) V.auxKw
      (bevStartSoc V init) 0 (legs c) := by
    cases hl : legs c with
    | nil => trivial
    | cons l ls =>
      rw [hl] at hw
      exact larger_within hV hE hq (l :: ls) h0 h1 hw.1.reserve (by ring) hw
  have run : ∀ {U : Veh K}, BevData U → StrongBattery U → U.minSoc ≤ bevStartSoc U init → bevStartSoc U init ≤ U.maxSoc →
      ∃ s, simDrive F (realHooks F U P) U P (Sim.new c) init none = .ok s := by
    intro U hU hBU g0 g1
    obtain ⟨s, h, -, -⟩ := C51_run (F := F) (V := U) (P := P) (Sim.new c) rfl
      (show 0 < c.length from List.length_pos_iff.2 hne) init none hBU.window
      (fun soc e => Or.inr (by rw [e] at g0 g1; exact ⟨g0, g1⟩)) (fun _ => by rw [hU.type]; decide)
      ⟨fun e => absurd e (by simp [hd]), fun e => absurd e (by simp [hc]), fun e => absurd e (by simp [hc]),
        fun e => absurd e (by simp [hc])⟩
    exact ⟨s, h⟩
  obtain ⟨s, hs⟩ := run hV hB h0 h1
  obtain ⟨s', hs'⟩ := run hV' hB' h0 h1
  obtain ⟨hu, -⟩ := bev_free hc hd hm hV hB hM hR hq realHooks_local realHooks_keepAux hs hw
  obtain ⟨hu', -⟩ := bev_free hc hd hm hV' hB' hM' hR' hq realHooks_local realHooks_keepAux hs' hw'
  have q1 := start_charge hV realHooks_local hs
  have q2 : (s'.row 0).dec.soc = bevStartSoc V init := start_charge hV' realHooks_local hs'
  refine ⟨s, s', hs, hs', hu, hu', ?_, ?_, q1, q2, fun k hk => ?_⟩
  · rw [leg_duty hc hd hm hV realHooks_local hs hu, leg_duty hc hd hm hV' realHooks_local hs' hu']
    rfl
  · rw [bev_charge hc hd hm hV realHooks_local realHooks_keepAux hs hu,
      bev_charge hc hd hm hV' realHooks_local realHooks_keepAux hs' hu']
    rfl
  · have a1 := (leg_charge hc hd hm hV realHooks_local realHooks_keepAux hs hu).2.2 k hk
    have a2 := (leg_charge hc hd hm hV' realHooks_local realHooks_keepAux hs' hu').2.2 k hk
    rw [q1] at a1
    rw [q2] at a2
    have : (bevStartSoc V init - (s'.row k).dec.soc) * E * 3600 =
        (bevStartSoc V init - (s.row k).dec.soc) * V.essMaxKwh * 3600 := a2.trans a1.symm
    linarith

end Field

/-! ### Cases -/

namespace BetterDemo
open Demo

/-- The demo car with a motor of one efficiency. -/
def even : Veh ℚ := { bev with mcFullEffArray := [0, 9 / 10, 9 / 10] }
/-- With a better transmission and more recuperation. -/
def smooth : Veh ℚ := { even with transEff := 91 / 100, maxRegen := 99 / 100 }
/-- With smaller losses in the battery. -/
def cool : Veh ℚ := { even with essRoundTripEff := 19 / 20 }
/-- With more drag and accessories. -/
def boxyBev : Veh ℚ := { even with dragCoef := 2 / 5, auxKw := 3 / 5 }

/-- The demo cars meet the hypotheses of `C134_drive`, `C134_resistance`, `C134_drive_charge`, `C134_resistance_charge` and
`C134_battery` on a trip with braking. -/
theorem C134_demo : BevData even ∧ BrakeShareOk fns even ∧ MotorOk even ∧ OneEff even ∧
    0 < fns.sqrt even.essRoundTripEff ∧ fns.sqrt even.essRoundTripEff ≤ fns.sqrt (19 / 20) ∧ BetterDrive even smooth ∧
    MoreResistance even boxyBev params params ∧ even.auxKw ≤ boxyBev.auxKw ∧ (∀ g, 0 ≤ fns.cosAtan g) ∧
    (∀ l ∈ legs hop, 0 ≤ l.dt ∧ 0 ≤ l.v0 ∧ 0 ≤ l.v) ∧ noHooks.Local ∧
    ∀ V ∈ [even, smooth, cool, boxyBev], Hooks.KeepAux noHooks V ∧
      ∃ s, simDrive fns noHooks V params (Sim.new hop) (some (3 / 5)) none = .ok s ∧ Unlimited V s := by
  have hx := C119_demo_bev.2.1.exp
  have b : ∀ V ∈ [even, smooth, cool, boxyBev], BevData V := by
    intro V hV
    simp only [List.mem_cons, List.not_mem_nil, or_false] at hV
    rcases hV with rfl | rfl | rfl | rfl <;>
      exact ⟨rfl, rfl, by decide, by decide +kernel, by decide +kernel, by decide +kernel, rfl, rfl, by decide +kernel,
        by decide +kernel⟩
  have sb : ∀ V ∈ [even, smooth, cool, boxyBev], StrongBattery V := by
    intro V hV
    simp only [List.mem_cons, List.not_mem_nil, or_false] at hV
    rcases hV with rfl | rfl | rfl | rfl <;>
      exact ⟨by decide +kernel, by decide +kernel, by decide +kernel, by decide +kernel, by decide +kernel, by decide +kernel,
        by decide +kernel, rfl, by decide +kernel, by decide +kernel, by decide +kernel, by decide +kernel⟩
  have mo : ∀ V ∈ [even, smooth, cool, boxyBev], MotorOk V := by
    intro V hV
    simp only [List.mem_cons, List.not_mem_nil, or_false] at hV
    rcases hV with rfl | rfl | rfl | rfl <;> exact ⟨by decide, by decide, by decide, by decide +kernel, by decide +kernel⟩
  have br : ∀ V ∈ [even, smooth, cool, boxyBev], BrakeShareOk fns V := by
    intro V hV
    simp only [List.mem_cons, List.not_mem_nil, or_false] at hV
    rcases hV with rfl | rfl | rfl | rfl <;> exact ⟨hx, by decide +kernel, by decide +kernel, by decide +kernel⟩
  have q : ∀ V ∈ [even, smooth, cool, boxyBev], 0 < fns.sqrt V.essRoundTripEff := by decide +kernel
  have w : ∀ V ∈ [even, smooth, cool, boxyBev],
      BevLegsWithin fns V params.toStepParams (mcElecKwInAch V) V.auxKw (bevStartSoc V (some (3 / 5))) 0 (legs hop) := by
    decide +kernel
  have r : ∀ V ∈ [even, smooth, cool, boxyBev],
      (match simDrive fns noHooks V params (Sim.new hop) (some (3 / 5)) none with
        | .ok _ => true | .error _ => false) = true := by decide +kernel
  refine ⟨b even (by simp), br even (by simp), mo even (by simp), by unfold OneEff; decide +kernel, by decide +kernel,
    by decide +kernel, ⟨rfl, by decide +kernel, by decide +kernel, by decide +kernel, by decide +kernel⟩,
    ⟨rfl, rfl, by decide +kernel, by decide +kernel, by decide +kernel, by decide +kernel, by decide +kernel,
    by decide +kernel, by decide +kernel, by decide +kernel, by decide +kernel⟩, by decide +kernel,
    fun _ => by show (0 : ℚ) ≤ 1; norm_num, by decide +kernel, noHooks_local, fun V hV => ⟨noHooks_keepAux V, ?_⟩⟩
  have hr := r V hV
  cases hs : simDrive fns noHooks V params (Sim.new hop) (some (3 / 5)) none with
  | error e => rw [hs] at hr; simp at hr
  | ok s =>
    exact ⟨s, rfl, (bev_free rfl rfl rfl (b V hV) (sb V hV) (mo V hV) (br V hV) (q V hV) noHooks_local (noHooks_keepAux V)
      hs (w V hV)).1⟩

/-- The hypotheses of `C134_capacity` are met by the demo car and twice its battery; charge is left in proportion. -/
theorem C134_demo_capacity : BevData bev ∧ StrongBattery bev ∧ MotorOk bev ∧ BrakeShareOk fns bev ∧
    0 < fns.sqrt bev.essRoundTripEff ∧ bev.essMaxKwh ≤ 60 ∧ MotorTable bev (mcElecKwInAch bev) ∧
    bev.minSoc ≤ bevStartSoc bev (some (3 / 5)) ∧ bevStartSoc bev (some (3 / 5)) ≤ bev.maxSoc ∧
    BevLegsWithin fns bev params.toStepParams (mcElecKwInAch bev) bev.auxKw (bevStartSoc bev (some (3 / 5))) 0 (legs hop) :=
  ⟨C122_demo.1, C122_demo.2.1, C122_demo.2.2.1, C122_demo.2.2.2.1, C122_demo.2.2.2.2.1, by decide +kernel,
    C122_demo.2.2.2.2.2.1, by decide +kernel, by decide +kernel, (C122_demo.2.2.2.2.2.2.1 hop (by simp)).2.1⟩

/-- A car with a finer table of motor efficiencies. -/
def stepped : Veh ℚ :=
  { bev with
    mcKwOutArray := [0, 10, 30, 50], mcKwInArray := [0, 100 / 7, 75 / 2, 500 / 9]
    mcFullEffArray := [0, 7 / 10, 4 / 5, 9 / 10] }

/-- Uphill at 25 m/s. -/
def hill : Cyc ℚ := [⟨0, 25, 0, 0⟩, ⟨5, 25, 241 / 5000, 0⟩]

/-- **C134 needs one efficiency for charges.** Efficiencies of the motor are looked up without interpolation. With a better
transmission the motor has to do less and falls below an entry of its table, and more energy is taken from the battery. -/
theorem C134_better_takes_more : BetterDrive stepped { stepped with transEff := 91 / 100 } ∧
    (match simDrive fns noHooks stepped params (Sim.new hill) (some (3 / 5)) none,
        simDrive fns noHooks { stepped with transEff := 91 / 100 } params (Sim.new hill) (some (3 / 5)) none with
      | .ok s, .ok t => bevRunOk hill s && bevRunOk hill t && decide (motorKj t < motorKj s ∧
          essDischgKj stepped s < essDischgKj { stepped with transEff := 91 / 100 } t)
      | _, _ => false) = true :=
  ⟨⟨rfl, by decide +kernel, by decide +kernel, by decide +kernel, by decide +kernel⟩, by decide +kernel⟩

end BetterDemo
end Fastsim.Props
