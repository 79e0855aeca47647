import Verif.Props.FuelTrace

/-!
# C119: extra mass never saves engine work on a trip that is not faster at its start than at its end

In a single step a heavier vehicle may need less engine power than a lighter one: slowing down, it has more kinetic energy
to give away (`C80_heavier_less_work`). Over a whole trip it never does, unless the trip itself gives energy away. The
engine work is a convex function of the mass, since braking power is lost.
-/

set_option linter.unusedSectionVars false

namespace Fastsim.Spec
open Fastsim
section Field
variable {K : Type*} [Field K] [LinearOrder K] [IsStrictOrderedRing K]

/-- A vehicle with another mass. -/
def ofMass (V : Veh K) (m : K) : Veh K := { V with vehKg := m }

/-- Share of the weight that resists motion on a slope: climbing and rolling resistance. -/
def slopeShare (F : Fns K) (V : Veh K) (grade : K) : K := F.sinAtan grade + F.cosAtan grade * V.wheelRrCoef

/-- Nothing in the data of air, wheels and gravity is negative. -/
structure SoundData (V : Veh K) (P : StepParams K) : Prop where
  air : 0 ≤ P.airDensity
  drag : 0 ≤ V.dragCoef
  area : 0 ≤ V.frontalAreaM2
  grav : 0 ≤ P.aGrav
  wheels : 0 ≤ V.numWheels
  inertia : 0 ≤ V.wheelInertiaKgM2

/-- Time passes in every leg of the trace and it is not driven backwards. -/
def DrivenForward (c : Cyc K) : Prop := ∀ l ∈ legs c, 0 < l.dt ∧ 0 ≤ avgSpeed l.v0 l.v

/-- The trace ends at least as fast as it starts. -/
def EndsNoSlower (c : Cyc K) : Prop :=
  ∀ x y, c.head? = some x → c.getLast? = some y → 0 ≤ x.v ∧ x.v ≤ y.v

end Field
end Fastsim.Spec

namespace Fastsim.Props
open Fastsim Spec

section Field
variable {K : Type*} [Field K] [LinearOrder K] [IsStrictOrderedRing K]
variable {F : Fns K} {H : Hooks K} {V : Veh K} {P : SimParams K}

/-- The part of the road load that does not depend on the mass, times the duration. -/
def loadFixKj (V : Veh K) (P : StepParams K) (l : Leg K) : K :=
  aeroKw V P l.v0 l.v * l.dt + (wheelKj V l.v - wheelKj V l.v0)

/-- The part per kilogram, times the duration: kinetic energy. -/
def loadKinKj (l : Leg K) : K := (l.v ^ 2 - l.v0 ^ 2) / 2 / 1000

/-- The part per kilogram, times the duration: slope and rolling. -/
def loadSlopeKj (F : Fns K) (V : Veh K) (P : StepParams K) (l : Leg K) : K :=
  P.aGrav * slopeShare F V l.grade * (avgSpeed l.v0 l.v * l.dt) / 1000

theorem load_parts (l : Leg K) (hdt : l.dt ≠ 0) (P : StepParams K) :
    roadLoadKw F V P l.dt l.grade l.v0 l.v * l.dt =
      loadFixKj V P l + V.vehKg * (loadKinKj l + loadSlopeKj F V P l) := by
  unfold roadLoadKw loadFixKj loadKinKj loadSlopeKj kineticKw climbKw rollKw slopeShare
  field_simp
  ring

/-- Engine energy of a leg. -/
theorem legWork_parts (l : Leg K) (hdt : 0 < l.dt) (a : K) (P : StepParams K) :
    legWorkKw F V P a l * l.dt =
      max 0 (loadFixKj V P l + V.vehKg * (loadKinKj l + loadSlopeKj F V P l)) / V.transEff + a * l.dt := by
  rw [← load_parts l hdt.ne', legWorkKw, ← zero_mul l.dt, ← max_mul_of_nonneg _ _ hdt.le]
  simp only [zero_mul]
  ring

theorem sum_kin (c : Cyc K) (x y : Sample K) (hx : c.head? = some x) (hy : c.getLast? = some y) :
    ((legs c).map loadKinKj).sum = (y.v ^ 2 - x.v ^ 2) / 2 / 1000 := by
  induction c generalizing x with
  | nil => simp at hx
  | cons a l ih =>
    simp only [List.head?_cons, Option.some.injEq] at hx
    subst hx
    cases l with
    | nil =>
      simp only [List.getLast?_singleton, Option.some.injEq] at hy
      subst hy
      simp [legs]
    | cons b l =>
      rw [List.getLast?_cons_cons] at hy
      have := ih b rfl hy
      rw [legs, List.map_cons, List.sum_cons, this]
      unfold loadKinKj
      ring

theorem sum_kin_nonneg {c : Cyc K} (h : EndsNoSlower c) : 0 ≤ ((legs c).map loadKinKj).sum := by
  cases hc : c with
  | nil => simp [legs]
  | cons a l =>
    rw [← hc]
    have hx : c.head? = some a := by rw [hc]; rfl
    obtain ⟨y, hy⟩ : ∃ y, c.getLast? = some y := by rw [hc]; exact ⟨_, List.getLast?_eq_some_getLast (by simp)⟩
    obtain ⟨h0, h1⟩ := h a y hx hy
    rw [sum_kin c a y hx hy]
    have : a.v ^ 2 ≤ y.v ^ 2 := pow_le_pow_left₀ h0 h1 2
    have h2 : (0 : K) ≤ y.v ^ 2 - a.v ^ 2 := by linarith
    positivity

/-- Work of a vehicle of mass `m` at the wheels over legs, with fixed parts `f` and parts `g` per kilogram. -/
def posWork (ls : List (Leg K)) (f g : Leg K → K) (m : K) : K := (ls.map fun l => max 0 (f l + m * g l)).sum

/-- The positive part of a line is convex. -/
theorem posPart_convex (a b x y w : K) (h0 : 0 ≤ w) (h1 : w ≤ 1) :
    max 0 (a + (w * x + (1 - w) * y) * b) ≤ w * max 0 (a + x * b) + (1 - w) * max 0 (a + y * b) := by
  have h1' : 0 ≤ 1 - w := by linarith
  refine max_le (add_nonneg (mul_nonneg h0 (le_max_left _ _)) (mul_nonneg h1' (le_max_left _ _))) ?_
  have k1 := mul_le_mul_of_nonneg_left (le_max_right 0 (a + x * b)) h0
  have k2 := mul_le_mul_of_nonneg_left (le_max_right 0 (a + y * b)) h1'
  linarith [show a + (w * x + (1 - w) * y) * b = w * (a + x * b) + (1 - w) * (a + y * b) by ring]

theorem posWork_convex (ls : List (Leg K)) (f g : Leg K → K) (x y w : K) (h0 : 0 ≤ w) (h1 : w ≤ 1) :
    posWork ls f g (w * x + (1 - w) * y) ≤ w * posWork ls f g x + (1 - w) * posWork ls f g y := by
  unfold posWork
  induction ls with
  | nil => simp
  | cons l ls ih =>
    simp only [List.map_cons, List.sum_cons]
    have := posPart_convex (f l) (g l) x y w h0 h1
    linarith

/-- A convex function that is larger at `y` than at zero rises from every point between. -/
theorem posWork_mono (ls : List (Leg K)) (f g : Leg K → K) {x y : K} (hx : 0 ≤ x) (hxy : x ≤ y)
    (h : posWork ls f g 0 ≤ posWork ls f g y) : posWork ls f g x ≤ posWork ls f g y := by
  rcases hx.lt_or_eq with hx' | rfl
  · have hy : 0 < y := hx'.trans_le hxy
    have k := posWork_convex ls f g y 0 (x / y) (by positivity) ((div_le_one hy).2 hxy)
    rw [mul_zero, add_zero, div_mul_cancel₀ _ hy.ne'] at k
    have h1 : 0 ≤ 1 - x / y := by have := (div_le_one hy).2 hxy; linarith
    have := mul_le_mul_of_nonneg_left h h1
    linarith
  · exact h

theorem loadFix_mass (m : K) (P : StepParams K) (l : Leg K) : loadFixKj (ofMass V m) P l = loadFixKj V P l := rfl

theorem loadSlope_mass (m : K) (P : StepParams K) (l : Leg K) :
    loadSlopeKj F (ofMass V m) P l = loadSlopeKj F V P l := rfl

/-- Engine energy of a run in terms of the mass. -/
theorem legs_mass {c : Cyc K} (hf : DrivenForward c) (m : K) :
    ((legs c).map fun l => legWorkKw F (ofMass V m) P.toStepParams (ownAux (ofMass V m)) l * l.dt).sum =
      posWork (legs c) (loadFixKj V P.toStepParams) (fun l => loadKinKj l + loadSlopeKj F V P.toStepParams l) m
        / V.transEff + ownAux V * ((legs c).map (·.dt)).sum := by
  unfold posWork
  have hf' : ∀ l ∈ legs c, 0 < l.dt := fun l hl => (hf l hl).1
  generalize legs c = ls at hf'
  induction ls with
  | nil => simp
  | cons l ls ih =>
    simp only [List.map_cons, List.sum_cons]
    rw [ih fun k hk => hf' k (List.mem_cons_of_mem _ hk), legWork_parts l (hf' l (by simp))]
    rw [loadFix_mass, loadSlope_mass]
    show max 0 (_ + m * _) / V.transEff + ownAux V * l.dt + _ = _
    ring

theorem work_mass (hc : P.coastAllow = false) (hd : P.idmAllow = false) (hm : P.missedTrace = false)
    (hV : Conventional V) (ha : 0 ≤ ownAux V) {H : K → Hooks K} (hH : ∀ m, (H m).Local) (hA : ∀ m, Hooks.KeepAux (H m) (ofMass V m)) {c : Cyc K}
    (hf : DrivenForward c) {m : K} {init : Option K} {s : Sim K}
    (h : simDrive F (H m) (ofMass V m) P (Sim.new c) init none = .ok s) (hmet : MeetsTrace s) :
    sumDt s (fun r => r.fc.fcKwOutAch) =
      posWork (legs c) (loadFixKj V P.toStepParams) (fun l => loadKinKj l + loadSlopeKj F V P.toStepParams l) m
        / V.transEff + ownAux V * ((legs c).map (·.dt)).sum := by
  have hV' : Conventional (ofMass V m) := ⟨hV.1, hV.2, hV.3, hV.4, hV.5, hV.6, hV.7⟩
  rw [C92_work hc hd hm hV' ha (hH m) (hA m) h hmet]
  exact legs_mass hf m

/-- A heavier vehicle needs no less engine work in the sum over the legs of a trace; see `C119_mass`. -/
theorem legs_heavier (hV : Conventional V) (hS : SoundData V P.toStepParams) {c : Cyc K} (hf : DrivenForward c) (he : EndsNoSlower c)
    (hg : ∀ l ∈ legs c, 0 ≤ slopeShare F V l.grade) {m m' : K} (h0 : 0 ≤ m) (hmm : m ≤ m') :
    ((legs c).map fun l => legWorkKw F (ofMass V m) P.toStepParams (ownAux (ofMass V m)) l * l.dt).sum ≤
      ((legs c).map fun l => legWorkKw F (ofMass V m') P.toStepParams (ownAux (ofMass V m')) l * l.dt).sum := by
  rw [legs_mass hf, legs_mass hf]
  gcongr
  · exact hV.eff.le
  apply posWork_mono _ _ _ h0 hmm
  have hm0 : 0 ≤ m' := h0.trans hmm
  have key : posWork (legs c) (loadFixKj V P.toStepParams)
      (fun l => loadKinKj l + loadSlopeKj F V P.toStepParams l) 0 + m' * ((legs c).map loadKinKj).sum ≤
      posWork (legs c) (loadFixKj V P.toStepParams) (fun l => loadKinKj l + loadSlopeKj F V P.toStepParams l) m' := by
    unfold posWork
    have hf' : ∀ l ∈ legs c, (0 < l.dt ∧ 0 ≤ avgSpeed l.v0 l.v) ∧ 0 ≤ slopeShare F V l.grade :=
      fun l hl => ⟨hf l hl, hg l hl⟩
    generalize legs c = ls at hf'
    induction ls with
    | nil => simp
    | cons l ls ih =>
      simp only [List.map_cons, List.sum_cons, zero_mul, add_zero] at ih ⊢
      have i := ih fun k hk => hf' k (List.mem_cons_of_mem _ hk)
      obtain ⟨⟨hdt, hv⟩, hs⟩ := hf' l (by simp)
      have hR : 0 ≤ loadSlopeKj F V P.toStepParams l := by
        unfold loadSlopeKj
        have := hS.grav
        positivity
      have hD : 0 ≤ aeroKw V P.toStepParams l.v0 l.v * l.dt := by
        unfold aeroKw
        have := hS.air; have := hS.drag; have := hS.area
        positivity
      have step : max 0 (loadFixKj V P.toStepParams l) + m' * loadKinKj l ≤
          max 0 (loadFixKj V P.toStepParams l + m' * (loadKinKj l + loadSlopeKj F V P.toStepParams l)) := by
        have hmR := mul_nonneg hm0 hR
        rcases le_total 0 (loadFixKj V P.toStepParams l) with hp | hn
        · rw [max_eq_right hp]
          refine le_trans ?_ (le_max_right _ _)
          nlinarith
        · rw [max_eq_left hn]
          rcases le_total 0 (loadKinKj l) with hk | hk
          · have hw : 0 ≤ wheelKj V l.v - wheelKj V l.v0 := by
              unfold loadKinKj at hk
              have hk' : 0 ≤ l.v ^ 2 - l.v0 ^ 2 := by
                by_contra hneg
                have : (l.v ^ 2 - l.v0 ^ 2) / 2 / 1000 < 0 := by
                  have := not_le.1 hneg
                  have h2 : (0 : K) < 2 := by norm_num
                  have h3 : (0 : K) < 1000 := by norm_num
                  exact div_neg_of_neg_of_pos (div_neg_of_neg_of_pos this h2) h3
                linarith
              have : wheelKj V l.v - wheelKj V l.v0 =
                  V.numWheels * V.wheelInertiaKgM2 * ((l.v ^ 2 - l.v0 ^ 2) / V.wheelRadiusM ^ 2) / 2 / 1000 := by
                unfold wheelKj; rw [div_pow, div_pow]; ring
              rw [this]
              have := hS.wheels; have := hS.inertia
              positivity
            refine le_trans ?_ (le_max_right _ _)
            unfold loadFixKj
            nlinarith
          · refine le_trans ?_ (le_max_left _ _)
            have := mul_nonneg hm0 (neg_nonneg.2 hk)
            linarith
      linarith
  have := mul_nonneg hm0 (sum_kin_nonneg he)
  linarith

/-- **C119 (level and uphill).** Of two conventional vehicles that differ in their mass only, the heavier one needs at
least as much engine work on every trace that both meet, that does not end slower than it starts, and on which no leg goes
downhill more steeply than rolling resistance holds. -/
theorem C119_mass (hc : P.coastAllow = false) (hd : P.idmAllow = false) (hm : P.missedTrace = false)
    (hV : Conventional V) (hS : SoundData V P.toStepParams) (ha : 0 ≤ ownAux V) {H : K → Hooks K} (hH : ∀ m, (H m).Local)
    (hA : ∀ m, Hooks.KeepAux (H m) (ofMass V m)) {c : Cyc K} (hf : DrivenForward c) (he : EndsNoSlower c)
    (hg : ∀ l ∈ legs c, 0 ≤ slopeShare F V l.grade) {m m' : K} (h0 : 0 ≤ m) (hmm : m ≤ m') {init init' : Option K}
    {s s' : Sim K} (h : simDrive F (H m) (ofMass V m) P (Sim.new c) init none = .ok s)
    (h' : simDrive F (H m') (ofMass V m') P (Sim.new c) init' none = .ok s') (hmet : MeetsTrace s)
    (hmet' : MeetsTrace s') :
    sumDt s (fun r => r.fc.fcKwOutAch) ≤ sumDt s' (fun r => r.fc.fcKwOutAch) := by
  have hV1 : Conventional (ofMass V m) := ⟨hV.1, hV.2, hV.3, hV.4, hV.5, hV.6, hV.7⟩
  have hV2 : Conventional (ofMass V m') := ⟨hV.1, hV.2, hV.3, hV.4, hV.5, hV.6, hV.7⟩
  rw [C92_work hc hd hm hV1 ha (hH m) (hA m) h hmet, C92_work hc hd hm hV2 ha (hH m') (hA m') h' hmet']
  exact legs_heavier hV hS hf he hg h0 hmm

/-- **C119 (hills).** With hills of any steepness the same holds if climbing and rolling resistance take energy over the
whole trace, as they do on every round trip, and in each leg air drag is at least what the wheels give back (always if the
inertia of the wheels is zero). -/
theorem C119_hills (hc : P.coastAllow = false) (hd : P.idmAllow = false) (hm : P.missedTrace = false)
    (hV : Conventional V) (hS : SoundData V P.toStepParams) (ha : 0 ≤ ownAux V) {H : K → Hooks K} (hH : ∀ m, (H m).Local)
    (hA : ∀ m, Hooks.KeepAux (H m) (ofMass V m)) {c : Cyc K} (hf : DrivenForward c) (he : EndsNoSlower c)
    (hw : ∀ l ∈ legs c, wheelKj V l.v0 - wheelKj V l.v ≤ aeroKw V P.toStepParams l.v0 l.v * l.dt)
    (hg : 0 ≤ ((legs c).map fun l => slopeShare F V l.grade * (avgSpeed l.v0 l.v * l.dt)).sum)
    {m m' : K} (h0 : 0 ≤ m) (hmm : m ≤ m') {init init' : Option K}
    {s s' : Sim K} (h : simDrive F (H m) (ofMass V m) P (Sim.new c) init none = .ok s)
    (h' : simDrive F (H m') (ofMass V m') P (Sim.new c) init' none = .ok s') (hmet : MeetsTrace s)
    (hmet' : MeetsTrace s') :
    sumDt s (fun r => r.fc.fcKwOutAch) ≤ sumDt s' (fun r => r.fc.fcKwOutAch) := by
  rw [work_mass hc hd hm hV ha hH hA hf h hmet, work_mass hc hd hm hV ha hH hA hf h' hmet']
  gcongr
  · exact hV.eff.le
  apply posWork_mono _ _ _ h0 hmm
  have hm0 : 0 ≤ m' := h0.trans hmm
  have key : posWork (legs c) (loadFixKj V P.toStepParams)
      (fun l => loadKinKj l + loadSlopeKj F V P.toStepParams l) 0 + m' * (((legs c).map loadKinKj).sum +
        P.aGrav * ((legs c).map fun l => slopeShare F V l.grade * (avgSpeed l.v0 l.v * l.dt)).sum / 1000) ≤
      posWork (legs c) (loadFixKj V P.toStepParams) (fun l => loadKinKj l + loadSlopeKj F V P.toStepParams l) m' := by
    unfold posWork
    clear hg
    generalize legs c = ls at hw
    induction ls with
    | nil => simp
    | cons l ls ih =>
      simp only [List.map_cons, List.sum_cons, zero_mul, add_zero] at ih ⊢
      have i := ih fun k hk => hw k (List.mem_cons_of_mem _ hk)
      have hfix : 0 ≤ loadFixKj V P.toStepParams l := by
        have := hw l (by simp)
        unfold loadFixKj
        linarith
      rw [max_eq_right hfix]
      have k := le_max_right 0 (loadFixKj V P.toStepParams l + m' * (loadKinKj l + loadSlopeKj F V P.toStepParams l))
      have e : loadSlopeKj F V P.toStepParams l =
          P.aGrav * (slopeShare F V l.grade * (avgSpeed l.v0 l.v * l.dt)) / 1000 := by
        unfold loadSlopeKj; ring
      rw [e] at k ⊢
      refine le_trans (le_of_eq ?_) (add_le_add k i)
      ring
  have k1 := sum_kin_nonneg he
  have k2 : 0 ≤ P.aGrav * ((legs c).map fun l => slopeShare F V l.grade * (avgSpeed l.v0 l.v * l.dt)).sum / 1000 := by
    have := hS.grav
    positivity
  have := mul_nonneg hm0 (add_nonneg k1 k2)
  linarith

/-- **C119 (convexity).** On every trace the engine work is a convex function of the mass: the work for a mass between two
others is at most the weighted mean of theirs, so equal additions of mass cost more and more work. -/
theorem C119_convex (hc : P.coastAllow = false) (hd : P.idmAllow = false) (hm : P.missedTrace = false)
    (hV : Conventional V) (ha : 0 ≤ ownAux V) {H : K → Hooks K} (hH : ∀ m, (H m).Local)
    (hA : ∀ m, Hooks.KeepAux (H m) (ofMass V m)) {c : Cyc K} (hf : DrivenForward c) {m m' w : K} (h0 : 0 ≤ w) (h1 : w ≤ 1)
    {init init' init'' : Option K} {s s' s'' : Sim K}
    (h : simDrive F (H m) (ofMass V m) P (Sim.new c) init none = .ok s)
    (h' : simDrive F (H m') (ofMass V m') P (Sim.new c) init' none = .ok s')
    (h'' : simDrive F (H (w * m + (1 - w) * m')) (ofMass V (w * m + (1 - w) * m')) P (Sim.new c) init'' none = .ok s'')
    (hmet : MeetsTrace s) (hmet' : MeetsTrace s') (hmet'' : MeetsTrace s'') :
    sumDt s'' (fun r => r.fc.fcKwOutAch) ≤
      w * sumDt s (fun r => r.fc.fcKwOutAch) + (1 - w) * sumDt s' (fun r => r.fc.fcKwOutAch) := by
  rw [work_mass hc hd hm hV ha hH hA hf h hmet, work_mass hc hd hm hV ha hH hA hf h' hmet',
    work_mass hc hd hm hV ha hH hA hf h'' hmet'']
  have k := posWork_convex (legs c) (loadFixKj V P.toStepParams)
    (fun l => loadKinKj l + loadSlopeKj F V P.toStepParams l) m m' w h0 h1
  have := div_le_div_of_nonneg_right k hV.eff.le
  rw [add_div, mul_div_assoc, mul_div_assoc] at this
  linarith

/-- **C119 (fuel).** Then the lighter vehicle's fuel is at most the heavier one's times the ratio of the best and the worst
efficiency of the engine. -/
theorem C119_fuel (hc : P.coastAllow = false) (hd : P.idmAllow = false) (hm : P.missedTrace = false)
    (hV : Conventional V) (ha : 0 ≤ ownAux V) {H : K → Hooks K} (hH : ∀ m, (H m).Local)
    (hA : ∀ m, Hooks.KeepAux (H m) (ofMass V m)) {c : Cyc K} (hf : DrivenForward c) {m m' : K} {init init' : Option K}
    {s s' : Sim K} (h : simDrive F (H m) (ofMass V m) P (Sim.new c) init none = .ok s)
    (h' : simDrive F (H m') (ofMass V m') P (Sim.new c) init' none = .ok s') (hmet : MeetsTrace s)
    (hmet' : MeetsTrace s') (hE : EffOk V) {lo hi : K} (hlo : 0 < lo) (hb : ∀ e ∈ V.fcEffArray, lo ≤ e ∧ e ≤ hi)
    (hwork : sumDt s (fun r => r.fc.fcKwOutAch) ≤ sumDt s' (fun r => r.fc.fcKwOutAch)) :
    fuelKj s ≤ hi / lo * fuelKj s' := by
  have main : ∀ {m : K} {init : Option K} {s : Sim K}, simDrive F (H m) (ofMass V m) P (Sim.new c) init none = .ok s →
      MeetsTrace s → lo * fuelKj s ≤ sumDt s (fun r => r.fc.fcKwOutAch) ∧
        sumDt s (fun r => r.fc.fcKwOutAch) ≤ hi * fuelKj s := by
    intro m init s h hmet
    have hV' : Conventional (ofMass V m) := ⟨hV.1, hV.2, hV.3, hV.4, hV.5, hV.6, hV.7⟩
    obtain ⟨rate, hrate, hR⟩ := C92_fuel (F := F) hc hd hm hV' ha
    rw [hR (H m) c init s (hH m) (hA m) h hmet, C92_work hc hd hm hV' ha (hH m) (hA m) h hmet]
    unfold traceFuelKj
    have hf' : ∀ l ∈ legs c, 0 < l.dt := fun l hl => (hf l hl).1
    generalize legs c = ls at hf'
    induction ls with
    | nil => simp
    | cons l ls ih =>
      obtain ⟨i1, i2⟩ := ih fun k hk => hf' k (List.mem_cons_of_mem _ hk)
      simp only [List.map_cons, List.sum_cons]
      obtain ⟨e, he, hre⟩ := hrate (legWorkKw F (ofMass V m) P.toStepParams (ownAux (ofMass V m)) l)
        ⟨hE.1, hE.2, hE.3⟩
      obtain ⟨b1, b2⟩ := hb e he
      have hdt := hf' l (by simp)
      have hw0 : 0 ≤ legWorkKw F (ofMass V m) P.toStepParams (ownAux (ofMass V m)) l :=
        add_nonneg (div_nonneg (le_max_left _ _) hV'.eff.le) ha
      unfold legFuelKj at i1 i2 ⊢
      generalize legWorkKw F (ofMass V m) P.toStepParams (ownAux (ofMass V m)) l = W at *
      have he0 : 0 < e := hlo.trans_le b1
      have hr0 : 0 ≤ rate W := by
        by_contra hn
        have := mul_neg_of_neg_of_pos (not_le.1 hn) he0
        linarith
      have hx : 0 ≤ rate W * l.dt := mul_nonneg hr0 hdt.le
      have k1 : lo * (rate W * l.dt) ≤ e * (rate W * l.dt) := mul_le_mul_of_nonneg_right b1 hx
      have k2 : e * (rate W * l.dt) ≤ hi * (rate W * l.dt) := mul_le_mul_of_nonneg_right b2 hx
      have k3 : e * (rate W * l.dt) = W * l.dt := by rw [show e * (rate W * l.dt) = rate W * e * l.dt by ring, hre]
      constructor <;> linarith
  obtain ⟨k1, -⟩ := main h hmet
  obtain ⟨-, k2⟩ := main h' hmet'
  rw [div_mul_eq_mul_div, le_div_iff₀ hlo]
  linarith

end Field

/-! ### Concrete cases -/

open Demo

/-- Up a hill and down again, steeper than rolling resistance holds. -/
def overHill : Cyc ℚ := [⟨0, 0, 0, 0⟩, ⟨2, 3, 0, 0⟩, ⟨5, 3, 1 / 50, 0⟩, ⟨8, 3, -1 / 50, 0⟩, ⟨11, 0, 0, 0⟩]

/-- The demo car with three masses meets the hypotheses of `C119_mass` on `hop` and of `C119_hills` on `overHill`. -/
theorem C119_demo : Conventional conv ∧ SoundData conv params.toStepParams ∧ 0 ≤ ownAux conv ∧ noHooks.Local ∧
    (∀ m, Hooks.KeepAux noHooks (ofMass conv m)) ∧ DrivenForward hop ∧ EndsNoSlower hop ∧
    (∀ l ∈ legs hop, 0 ≤ slopeShare fns conv l.grade) ∧ DrivenForward overHill ∧ EndsNoSlower overHill ∧
    (∀ l ∈ legs overHill, wheelKj { conv with wheelInertiaKgM2 := 0 } l.v0 -
      wheelKj { conv with wheelInertiaKgM2 := 0 } l.v ≤
        aeroKw { conv with wheelInertiaKgM2 := 0 } params.toStepParams l.v0 l.v * l.dt) ∧
    0 ≤ ((legs overHill).map fun l => slopeShare fns conv l.grade * (avgSpeed l.v0 l.v * l.dt)).sum ∧
    (∃ l ∈ legs overHill, slopeShare fns conv l.grade < 0) ∧
    EffOk conv ∧ (∀ e ∈ conv.fcEffArray, 1 / 10 ≤ e ∧ e ≤ 9 / 20) ∧
    (∀ m ∈ [(1200 : ℚ), 1400, 1600], ∀ V ∈ [conv, { conv with wheelInertiaKgM2 := 0 }], ∀ c ∈ [hop, overHill],
      ∃ s, simDrive fns noHooks (ofMass V m) params (Sim.new c) none none = .ok s ∧ MeetsTrace s) := by
  refine ⟨⟨rfl, by decide, by decide +kernel, by decide +kernel, by decide +kernel, by decide +kernel,
    by decide +kernel⟩, ⟨by decide +kernel, by decide +kernel, by decide +kernel, by decide +kernel, by decide +kernel,
    by decide +kernel⟩, by decide +kernel, noHooks_local, fun m => noHooks_keepAux _, ?_, ?_, ?_, ?_, ?_, ?_, ?_, ?_,
    ⟨by decide, by decide, by decide +kernel⟩, by decide +kernel, ?_⟩
  · unfold DrivenForward; decide +kernel
  · intro x y hx hy
    cases hx; cases hy
    decide +kernel
  · decide +kernel
  · unfold DrivenForward; decide +kernel
  · intro x y hx hy
    cases hx; cases hy
    decide +kernel
  · decide +kernel
  · decide +kernel
  · decide +kernel
  · have key : ∀ m ∈ [(1200 : ℚ), 1400, 1600], ∀ V ∈ [conv, { conv with wheelInertiaKgM2 := 0 }], ∀ c ∈ [hop, overHill],
        metRun (simDrive fns noHooks (ofMass V m) params (Sim.new c) none none) = true := by decide +kernel
    exact fun m hm V hV c hc => metRun_spec (key m hm V hV c hc)

/-- **C119 needs the end.** On a trace that ends slower than it starts the heavier vehicle can need less work: its kinetic
energy is spent on the way. -/
theorem C119_slowing_down :
    (match simDrive fns noHooks (ofMass conv 2000) params (Sim.new [⟨0, 30, 0, 0⟩, ⟨1, 597 / 20, 0, 0⟩]) none none,
        simDrive fns noHooks (ofMass conv 1200) params (Sim.new [⟨0, 30, 0, 0⟩, ⟨1, 597 / 20, 0, 0⟩]) none none with
      | .ok s, .ok s' => decide (sumDt s (fun r => r.fc.fcKwOutAch) < sumDt s' (fun r => r.fc.fcKwOutAch))
      | _, _ => false) = true := by
  decide +kernel

end Fastsim.Props
