import Verif.Props.MassWork

/-!
# C120: steady driving takes the least engine work

Of all trips over the same distance in the same time on a road of constant slope, with an end no slower than the start, the
one at constant speed needs the least engine work.
-/

set_option linter.unusedSectionVars false

namespace Fastsim.Spec
open Fastsim
section Field
variable {K : Type*} [Field K] [LinearOrder K] [IsStrictOrderedRing K]

/-- Duration of a trace, s. -/
def tripTime (c : Cyc K) : K := ((legs c).map (·.dt)).sum

/-- Distance of a trace at the average speed of each leg, m. -/
def tripDist (c : Cyc K) : K := ((legs c).map fun l => avgSpeed l.v0 l.v * l.dt).sum

/-- The trace of a car that passes at constant speed `v` for a time `T` on a road of slope `g`. -/
def steadyTrace (v T g : K) : Cyc K := [⟨0, v, g, 0⟩, ⟨T, v, g, 0⟩]

end Field
end Fastsim.Spec

namespace Fastsim.Props
open Fastsim Spec

section Field
variable {K : Type*} [Field K] [LinearOrder K] [IsStrictOrderedRing K]
variable {F : Fns K} {H : Hooks K} {V : Veh K} {P : SimParams K}

/-- Engine energy of a run. -/
theorem work_parts (hc : P.coastAllow = false) (hd : P.idmAllow = false) (hm : P.missedTrace = false)
    (hV : Conventional V) (ha : 0 ≤ ownAux V) (hH : H.Local) (hA : Hooks.KeepAux H V) {c : Cyc K}
    (hf : DrivenForward c) {init : Option K} {s : Sim K}
    (h : simDrive F H V P (Sim.new c) init none = .ok s) (hmet : MeetsTrace s) :
    sumDt s (fun r => r.fc.fcKwOutAch) =
      posWork (legs c) (loadFixKj V P.toStepParams) (fun l => loadKinKj l + loadSlopeKj F V P.toStepParams l) V.vehKg
        / V.transEff + ownAux V * tripTime c := by
  rw [C92_work hc hd hm hV ha hH hA h hmet]
  unfold posWork tripTime
  have hf' : ∀ l ∈ legs c, 0 < l.dt := fun l hl => (hf l hl).1
  generalize legs c = ls at hf'
  induction ls with
  | nil => simp
  | cons l ls ih =>
    simp only [List.map_cons, List.sum_cons]
    rw [ih fun k hk => hf' k (List.mem_cons_of_mem _ hk), legWork_parts l (hf' l (by simp))]
    ring

theorem sum_wheel (c : Cyc K) (x y : Sample K) (hx : c.head? = some x) (hy : c.getLast? = some y) :
    ((legs c).map fun l => wheelKj V l.v - wheelKj V l.v0).sum = wheelKj V y.v - wheelKj V x.v := by
  induction c generalizing x with
  | nil => simp at hx
  | cons a l ih =>
    simp only [List.head?_cons, Option.some.injEq] at hx
    subst hx
    cases l with
    | nil =>
      simp only [List.getLast?_singleton, Option.some.injEq] at hy
      subst hy
      simp [legs]
    | cons b l =>
      rw [List.getLast?_cons_cons] at hy
      have := ih b rfl hy
      rw [legs, List.map_cons, List.sum_cons, this]
      ring

theorem sum_wheel_nonneg (hw : 0 ≤ V.numWheels) (hi : 0 ≤ V.wheelInertiaKgM2) {c : Cyc K} (h : EndsNoSlower c) :
    0 ≤ ((legs c).map fun l => wheelKj V l.v - wheelKj V l.v0).sum := by
  cases hc : c with
  | nil => simp [legs]
  | cons a l =>
    rw [← hc]
    have hx : c.head? = some a := by rw [hc]; rfl
    obtain ⟨y, hy⟩ : ∃ y, c.getLast? = some y := by rw [hc]; exact ⟨_, List.getLast?_eq_some_getLast (by simp)⟩
    obtain ⟨h0, h1⟩ := h a y hx hy
    rw [sum_wheel c a y hx hy]
    have e : wheelKj V y.v - wheelKj V a.v =
        V.numWheels * V.wheelInertiaKgM2 * ((y.v ^ 2 - a.v ^ 2) / V.wheelRadiusM ^ 2) / 2 / 1000 := by
      unfold wheelKj; rw [div_pow, div_pow]; ring
    have h2 : (0 : K) ≤ y.v ^ 2 - a.v ^ 2 := by
      have : a.v ^ 2 ≤ y.v ^ 2 := pow_le_pow_left₀ h0 h1 2
      linarith
    rw [e]
    positivity

/-- The cube lies above its tangents. -/
theorem cube_tangent {u v : K} (hu : 0 ≤ u) (hv : 0 ≤ v) : v ^ 3 + 3 * v ^ 2 * (u - v) ≤ u ^ 3 := by
  have h : 0 ≤ (u - v) ^ 2 * (u + 2 * v) := mul_nonneg (sq_nonneg _) (by linarith)
  nlinarith

/-- Drag over a trace is at least the drag at its mean speed. -/
theorem drag_mean {c : Cyc K} (hf : DrivenForward c) {v : K} (hv : 0 ≤ v) :
    v ^ 3 * tripTime c + 3 * v ^ 2 * (tripDist c - v * tripTime c) ≤
      ((legs c).map fun l => avgSpeed l.v0 l.v ^ 3 * l.dt).sum := by
  unfold tripTime tripDist
  unfold DrivenForward at hf
  generalize legs c = ls at hf
  induction ls with
  | nil => simp
  | cons l ls ih =>
    obtain ⟨h1, h2⟩ := hf l (by simp)
    have i := ih fun k hk => hf k (List.mem_cons_of_mem _ hk)
    have t := mul_le_mul_of_nonneg_right (cube_tangent h2 hv) h1.le
    simp only [List.map_cons, List.sum_cons]
    nlinarith

/-- Work at the wheels of a trace on a constant slope is at least that of a steady trip. -/
theorem wheel_work_mean (hS : SoundData V P.toStepParams) (hkg : 0 ≤ V.vehKg) {c : Cyc K} (hf : DrivenForward c)
    (he : EndsNoSlower c) {g v : K} (hg : ∀ l ∈ legs c, l.grade = g) (hv : 0 ≤ v)
    (hD : tripDist c = v * tripTime c) :
    roadLoadKw F V P.toStepParams (tripTime c) g v v * tripTime c ≤
      ((legs c).map fun l => loadFixKj V P.toStepParams l +
        V.vehKg * (loadKinKj l + loadSlopeKj F V P.toStepParams l)).sum := by
  have k1 := drag_mean hf hv
  have k2 := sum_kin_nonneg he
  have k3 := sum_wheel_nonneg hS.wheels hS.inertia he
  rw [hD, sub_self, mul_zero, add_zero] at k1
  have hsum : ((legs c).map fun l => loadFixKj V P.toStepParams l +
        V.vehKg * (loadKinKj l + loadSlopeKj F V P.toStepParams l)).sum =
      P.airDensity * V.dragCoef * V.frontalAreaM2 / 2 / 1000 * ((legs c).map fun l => avgSpeed l.v0 l.v ^ 3 * l.dt).sum +
      ((legs c).map fun l => wheelKj V l.v - wheelKj V l.v0).sum + V.vehKg * ((legs c).map loadKinKj).sum +
      V.vehKg * (P.aGrav * slopeShare F V g / 1000) * tripDist c := by
    unfold tripDist
    clear k1 k2 k3 hD hf he
    generalize legs c = ls at hg
    induction ls with
    | nil => simp
    | cons l ls ih =>
      simp only [List.map_cons, List.sum_cons]
      rw [ih fun k hk => hg k (List.mem_cons_of_mem _ hk)]
      have e : loadSlopeKj F V P.toStepParams l =
          P.aGrav * slopeShare F V g / 1000 * (avgSpeed l.v0 l.v * l.dt) := by
        unfold loadSlopeKj; rw [hg l (by simp)]; ring
      rw [e]
      unfold loadFixKj aeroKw
      ring
  have hload : roadLoadKw F V P.toStepParams (tripTime c) g v v * tripTime c =
      P.airDensity * V.dragCoef * V.frontalAreaM2 / 2 / 1000 * (v ^ 3 * tripTime c) +
      V.vehKg * (P.aGrav * slopeShare F V g / 1000) * (v * tripTime c) := by
    unfold roadLoadKw aeroKw kineticKw climbKw rollKw avgSpeed slopeShare
    rw [sub_self, sub_self, zero_div, zero_div]
    ring
  have hC : 0 ≤ P.airDensity * V.dragCoef * V.frontalAreaM2 / 2 / 1000 := by
    have := hS.air; have := hS.drag; have := hS.area
    positivity
  rw [hsum, hload, hD]
  have := mul_le_mul_of_nonneg_left k1 hC
  have := mul_nonneg hkg k2
  linarith

/-- **C120 (steady driving).** A conventional vehicle is driven over some trace on a road of constant slope that does not end
slower than it starts, and at constant speed over the same distance in the same time. If both traces are met, the steady
trip takes no more engine work. -/
theorem C120_steady (hc : P.coastAllow = false) (hd : P.idmAllow = false) (hm : P.missedTrace = false)
    (hV : Conventional V) (hS : SoundData V P.toStepParams) (hkg : 0 ≤ V.vehKg) (ha : 0 ≤ ownAux V) (hH : H.Local)
    (hA : Hooks.KeepAux H V) {c : Cyc K} (hf : DrivenForward c) (he : EndsNoSlower c) (hT : 0 < tripTime c) {g : K}
    (hg : ∀ l ∈ legs c, l.grade = g) {init init' : Option K} {s s' : Sim K}
    (h : simDrive F H V P (Sim.new c) init none = .ok s)
    (h' : simDrive F H V P (Sim.new (steadyTrace (tripDist c / tripTime c) (tripTime c) g)) init' none = .ok s')
    (hmet : MeetsTrace s) (hmet' : MeetsTrace s') :
    sumDt s' (fun r => r.fc.fcKwOutAch) ≤ sumDt s (fun r => r.fc.fcKwOutAch) := by
  set v := tripDist c / tripTime c with hvdef
  have hD : tripDist c = v * tripTime c := by rw [hvdef, div_mul_cancel₀ _ hT.ne']
  have hD0 : 0 ≤ tripDist c := by
    unfold tripDist
    refine List.sum_nonneg fun x hx => ?_
    obtain ⟨l, hl, rfl⟩ := List.mem_map.1 hx
    exact mul_nonneg (hf l hl).2 (hf l hl).1.le
  have hv : 0 ≤ v := div_nonneg hD0 hT.le
  have hlegs : legs (steadyTrace v (tripTime c) g) = [⟨tripTime c, v, v, g⟩] := by
    simp [steadyTrace, legs]
  rw [work_parts hc hd hm hV ha hH hA hf h hmet, C92_work hc hd hm hV ha hH hA h' hmet', hlegs]
  simp only [List.map_cons, List.map_nil, List.sum_cons, List.sum_nil, add_zero]
  unfold legWorkKw posWork
  simp only
  have k := wheel_work_mean (F := F) hS hkg hf he hg hv hD
  have k0 : ((legs c).map fun l => loadFixKj V P.toStepParams l +
      V.vehKg * (loadKinKj l + loadSlopeKj F V P.toStepParams l)).sum ≤
      ((legs c).map fun l => max 0 (loadFixKj V P.toStepParams l +
        V.vehKg * (loadKinKj l + loadSlopeKj F V P.toStepParams l))).sum :=
    List.sum_le_sum fun l _ => le_max_right _ _
  have k1 : (0 : K) ≤ ((legs c).map fun l => max 0 (loadFixKj V P.toStepParams l +
        V.vehKg * (loadKinKj l + loadSlopeKj F V P.toStepParams l))).sum := by
    refine List.sum_nonneg fun x hx => ?_
    obtain ⟨l, -, rfl⟩ := List.mem_map.1 hx
    exact le_max_left _ _
  have k2 : max 0 (roadLoadKw F V P.toStepParams (tripTime c) g v v) * tripTime c ≤
      ((legs c).map fun l => max 0 (loadFixKj V P.toStepParams l +
        V.vehKg * (loadKinKj l + loadSlopeKj F V P.toStepParams l))).sum := by
    rw [max_mul_of_nonneg _ _ hT.le, zero_mul]
    exact max_le k1 (k.trans k0)
  have := div_le_div_of_nonneg_right k2 hV.eff.le
  rw [add_mul, div_mul_eq_mul_div]
  linarith

/-- **C120 (distance).** The distance meant is the one of `trapz_step_distances`. -/
theorem C120_distance (c : Cyc K) : npSum (trapzStepDistances c) = tripDist c := by
  have aux : ∀ c : Cyc K, List.zipWith (· * ·) (List.zipWith (fun b a => 1 / 2 * (b + a)) c.speeds.tail c.speeds)
      (diff c.times) = (legs c).map fun l => avgSpeed l.v0 l.v * l.dt := by
    intro c
    induction c with
    | nil => rfl
    | cons x l ih =>
      cases l with
      | nil => rfl
      | cons y l =>
        simp only [Cyc.speeds, Cyc.times, List.map_cons, List.tail_cons, legs, diff, List.zipWith_cons_cons] at ih ⊢
        rw [ih]
        congr 1
        unfold avgSpeed
        ring
  have hsum : ∀ l : List K, npSum l = l.sum := by
    intro l
    unfold npSum
    rw [List.sum_eq_foldl]
  rw [hsum]
  unfold trapzStepDistances averageStepSpeeds dtS tripDist
  cases c with
  | nil => simp [Cyc.times, Cyc.speeds, diff, legs]
  | cons x l =>
    rw [← aux (x :: l)]
    cases l with
    | nil => simp [Cyc.times, Cyc.speeds, diff]
    | cons y l => simp [Cyc.times, Cyc.speeds, diff]

/-- **C120 (slower).** Of two steady trips over the same distance the slower one takes no more engine work for the wheels:
what it takes more is at most the accessory load for the longer time. -/
theorem C120_slower (hc : P.coastAllow = false) (hd : P.idmAllow = false) (hm : P.missedTrace = false)
    (hV : Conventional V) (hS : SoundData V P.toStepParams) (ha : 0 ≤ ownAux V) (hH : H.Local)
    (hA : Hooks.KeepAux H V) {v v' T T' g : K} (hv : 0 ≤ v) (hvv : v ≤ v') (hT : 0 ≤ T) (hT' : 0 ≤ T')
    (hdist : v * T = v' * T') {init init' : Option K} {s s' : Sim K}
    (h : simDrive F H V P (Sim.new (steadyTrace v T g)) init none = .ok s)
    (h' : simDrive F H V P (Sim.new (steadyTrace v' T' g)) init' none = .ok s')
    (hmet : MeetsTrace s) (hmet' : MeetsTrace s') :
    sumDt s (fun r => r.fc.fcKwOutAch) ≤ sumDt s' (fun r => r.fc.fcKwOutAch) + ownAux V * (T - T') := by
  have hlegs : ∀ v T : K, legs (steadyTrace v T g) = [⟨T, v, v, g⟩] := by
    intro v T
    simp [steadyTrace, legs]
  rw [C92_work hc hd hm hV ha hH hA h hmet, C92_work hc hd hm hV ha hH hA h' hmet', hlegs, hlegs]
  simp only [List.map_cons, List.map_nil, List.sum_cons, List.sum_nil, add_zero]
  unfold legWorkKw
  simp only
  have hload : ∀ v T : K, roadLoadKw F V P.toStepParams T g v v * T =
      P.airDensity * V.dragCoef * V.frontalAreaM2 / 2 / 1000 * v ^ 2 * (v * T) +
      V.vehKg * (P.aGrav * slopeShare F V g / 1000) * (v * T) := by
    intro v T
    unfold roadLoadKw aeroKw kineticKw climbKw rollKw avgSpeed slopeShare
    rw [sub_self, sub_self, zero_div, zero_div]
    ring
  have hC : 0 ≤ P.airDensity * V.dragCoef * V.frontalAreaM2 / 2 / 1000 := by
    have := hS.air; have := hS.drag; have := hS.area
    positivity
  have k : roadLoadKw F V P.toStepParams T g v v * T ≤ roadLoadKw F V P.toStepParams T' g v' v' * T' := by
    rw [hload, hload, hdist]
    have h2 : v ^ 2 ≤ v' ^ 2 := pow_le_pow_left₀ hv hvv 2
    have h3 : 0 ≤ v' * T' := mul_nonneg (hv.trans hvv) hT'
    have := mul_le_mul_of_nonneg_right (mul_le_mul_of_nonneg_left h2 hC) h3
    linarith
  have k2 : max 0 (roadLoadKw F V P.toStepParams T g v v) * T ≤
      max 0 (roadLoadKw F V P.toStepParams T' g v' v') * T' := by
    rw [max_mul_of_nonneg _ _ hT, max_mul_of_nonneg _ _ hT', zero_mul, zero_mul]
    exact max_le_max le_rfl k
  have := div_le_div_of_nonneg_right k2 hV.eff.le
  rw [add_mul, add_mul, div_mul_eq_mul_div, div_mul_eq_mul_div]
  linarith

end Field

/-! ### Concrete cases -/

open Demo

/-- Speeding up and slowing down on a level road, and the steady trip at 3 m/s that takes as long. -/
def uneven : Cyc ℚ := [⟨0, 2, 0, 0⟩, ⟨2, 5, 0, 0⟩, ⟨5, 3, 0, 0⟩, ⟨8, 1, 0, 0⟩, ⟨10, 2, 0, 0⟩]

/-- The demo car meets the hypotheses on an uneven trip; the steady trip takes less work. -/
theorem C120_demo : Conventional conv ∧ SoundData conv params.toStepParams ∧ 0 ≤ conv.vehKg ∧ 0 ≤ ownAux conv ∧
    noHooks.Local ∧ Hooks.KeepAux noHooks conv ∧ DrivenForward uneven ∧ EndsNoSlower uneven ∧ 0 < tripTime uneven ∧
    (∀ l ∈ legs uneven, l.grade = 0) ∧
    ∃ s s', simDrive fns noHooks conv params (Sim.new uneven) none none = .ok s ∧
      simDrive fns noHooks conv params (Sim.new (steadyTrace (tripDist uneven / tripTime uneven) (tripTime uneven) 0))
        none none = .ok s' ∧ MeetsTrace s ∧ MeetsTrace s' ∧
      sumDt s' (fun r => r.fc.fcKwOutAch) < sumDt s (fun r => r.fc.fcKwOutAch) := by
  refine ⟨C119_demo.1, C119_demo.2.1, by decide +kernel, by decide +kernel, noHooks_local, noHooks_keepAux _, ?_, ?_,
    by decide +kernel, by decide +kernel, ?_⟩
  · unfold DrivenForward; decide +kernel
  · intro x y hx hy
    cases hx; cases hy
    decide +kernel
  · obtain ⟨s, hs, hm⟩ := metRun_spec
      (r := simDrive fns noHooks conv params (Sim.new uneven) none none) (by decide +kernel)
    obtain ⟨s', hs', hm'⟩ := metRun_spec
      (r := simDrive fns noHooks conv params (Sim.new (steadyTrace (tripDist uneven / tripTime uneven)
        (tripTime uneven) 0)) none none) (by decide +kernel)
    have key : (match simDrive fns noHooks conv params (Sim.new uneven) none none,
        simDrive fns noHooks conv params (Sim.new (steadyTrace (tripDist uneven / tripTime uneven)
          (tripTime uneven) 0)) none none with
        | .ok s, .ok s' => decide (sumDt s' (fun r => r.fc.fcKwOutAch) < sumDt s (fun r => r.fc.fcKwOutAch))
        | _, _ => false) = true := by decide +kernel
    rw [hs, hs'] at key
    exact ⟨s, s', hs, hs', hm, hm', of_decide_eq_true key⟩

/-- The demo car at 3 and at 5 m/s over 30 m meets the hypotheses of `C120_slower`. -/
theorem C120_demo_slower : (3 : ℚ) * 10 = 5 * 6 ∧
    (∃ s, simDrive fns noHooks conv params (Sim.new (steadyTrace 3 10 0)) none none = .ok s ∧ MeetsTrace s) ∧
    ∃ s, simDrive fns noHooks conv params (Sim.new (steadyTrace 5 6 0)) none none = .ok s ∧ MeetsTrace s :=
  ⟨by norm_num, metRun_spec (by decide +kernel), metRun_spec (by decide +kernel)⟩

/-- **C120 is about work, not fuel.** With an engine that is efficient only at the power of a sprint, the steady trip burns
more fuel than the uneven one, although it takes less work. -/
theorem C120_fuel_can_rise :
    (match simDrive fns noHooks { conv with fcKwOutArray := [0, 1, 5, 100], fcEffArray := [1 / 20, 1 / 20, 9 / 10, 9 / 10] } params
          (Sim.new uneven) none none,
        simDrive fns noHooks { conv with fcKwOutArray := [0, 1, 5, 100], fcEffArray := [1 / 20, 1 / 20, 9 / 10, 9 / 10] } params
          (Sim.new (steadyTrace (tripDist uneven / tripTime uneven) (tripTime uneven) 0)) none none with
      | .ok s, .ok s' => decide (fuelKj s < fuelKj s')
      | _, _ => false) = true := by
  decide +kernel

end Fastsim.Props
