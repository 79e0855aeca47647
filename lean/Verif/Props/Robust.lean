import Mathlib.Algebra.Order.Group.MinMax
import Verif.Props.Sampling

/-!
# C131: small errors in the speeds and slopes of a trace change the engine work a little only

The engine work of two traces with the same times differs by no more than an explicit multiple of the largest difference of
their speeds and slopes. The fuel has no such bound: it jumps where the efficiency table does.
-/

set_option linter.unusedSectionVars false

namespace Fastsim.Spec
open Fastsim
section Field
variable {K : Type*} [Field K] [LinearOrder K] [IsStrictOrderedRing K]

/-- Two samples of the same time, with speeds between zero and `top` that differ by no more than `ε`; what slope and rolling take
per unit of weight is at most `steep` and differs by no more than `δ`. -/
structure NearSample (F : Fns K) (V : Veh K) (ε δ top steep : K) (x y : Sample K) : Prop where
  time : x.t = y.t
  speed : |x.v - y.v| ≤ ε
  fwd : 0 ≤ x.v ∧ x.v ≤ top
  fwd' : 0 ≤ y.v ∧ y.v ≤ top
  steep : |F.sinAtan x.g + F.cosAtan x.g * V.wheelRrCoef| ≤ steep
  slope : |F.sinAtan x.g + F.cosAtan x.g * V.wheelRrCoef - (F.sinAtan y.g + F.cosAtan y.g * V.wheelRrCoef)| ≤ δ

/-- Two traces that are near each other sample by sample. -/
def NearTrace (F : Fns K) (V : Veh K) (ε δ top steep : K) (c c' : Cyc K) : Prop :=
  List.Forall₂ (NearSample F V ε δ top steep) c c'

/-- What the engine work (kJ) of a trip of duration `T` in `n` legs can change by: drag, slope and rolling resistance over the
time, kinetic energy of the vehicle and its wheels in every leg, through the transmission. -/
def workMargin (V : Veh K) (P : StepParams K) (ε δ top steep T : K) (n : ℕ) : K :=
  (T * (3 * (P.airDensity * V.dragCoef * V.frontalAreaM2 / 2) * top ^ 2 * ε + V.vehKg * P.aGrav * (steep * ε + top * δ))
    + n * (2 * top * ε * (V.vehKg + V.numWheels * V.wheelInertiaKgM2 / V.wheelRadiusM ^ 2))) / 1000 / V.transEff

end Field
end Fastsim.Spec

namespace Fastsim.Props
open Fastsim Spec

section Field
variable {K : Type*} [Field K] [LinearOrder K] [IsStrictOrderedRing K]
variable {F : Fns K} {H : Hooks K} {V : Veh K} {P : SimParams K}

theorem abs_sq_sub {a b top ε : K} (ha : 0 ≤ a ∧ a ≤ top) (hb : 0 ≤ b ∧ b ≤ top) (h : |a - b| ≤ ε) :
    |a ^ 2 - b ^ 2| ≤ 2 * top * ε := by
  rw [show a ^ 2 - b ^ 2 = (a + b) * (a - b) by ring, abs_mul, abs_of_nonneg (add_nonneg ha.1 hb.1)]
  exact mul_le_mul (by linarith [ha.2, hb.2]) h (abs_nonneg _) (by linarith [ha.1, ha.2])

theorem abs_cube_sub {a b top ε : K} (ha : 0 ≤ a ∧ a ≤ top) (hb : 0 ≤ b ∧ b ≤ top) (h : |a - b| ≤ ε) :
    |a ^ 3 - b ^ 3| ≤ 3 * top ^ 2 * ε := by
  have h1 : a ^ 2 ≤ top ^ 2 := pow_le_pow_left₀ ha.1 ha.2 2
  have h2 : b ^ 2 ≤ top ^ 2 := pow_le_pow_left₀ hb.1 hb.2 2
  have h3 : a * b ≤ top * top := mul_le_mul ha.2 hb.2 hb.1 (ha.1.trans ha.2)
  have h4 : 0 ≤ a ^ 2 + a * b + b ^ 2 := by have := mul_nonneg ha.1 hb.1; positivity
  rw [show a ^ 3 - b ^ 3 = (a ^ 2 + a * b + b ^ 2) * (a - b) by ring, abs_mul, abs_of_nonneg h4]
  exact mul_le_mul (by nlinarith) h (abs_nonneg _) (by positivity)

theorem abs_mean_sub {a b a' b' ε : K} (h : |a - a'| ≤ ε) (h' : |b - b'| ≤ ε) : |avgSpeed a b - avgSpeed a' b'| ≤ ε := by
  unfold avgSpeed
  rw [abs_le] at *
  constructor <;> linarith [h.1, h.2, h'.1, h'.2]

theorem mean_within {a b top : K} (ha : 0 ≤ a ∧ a ≤ top) (hb : 0 ≤ b ∧ b ≤ top) :
    0 ≤ avgSpeed a b ∧ avgSpeed a b ≤ top := by
  unfold avgSpeed
  constructor <;> linarith [ha.1, ha.2, hb.1, hb.2]

/-- The work of one leg. -/
theorem near_leg (hV : Conventional V) (hS : SoundData V P.toStepParams) (hm : 0 ≤ V.vehKg) (a : K) {ε δ top steep : K}
    {x y x' y' : Sample K} (hx : NearSample F V ε δ top steep x x') (hy : NearSample F V ε δ top steep y y') (hdt : 0 < y.t - x.t) :
    |legWorkKw F V P.toStepParams a ⟨y.t - x.t, x.v, y.v, y.g⟩ * (y.t - x.t) -
      legWorkKw F V P.toStepParams a ⟨y'.t - x'.t, x'.v, y'.v, y'.g⟩ * (y'.t - x'.t)| ≤
      workMargin V P.toStepParams ε δ top steep (y.t - x.t) 1 := by
  rw [← hx.time, ← hy.time]
  generalize y.t - x.t = dt at hdt
  have w1 := legWork_parts (F := F) (V := V) ⟨dt, x.v, y.v, y.g⟩ hdt a P.toStepParams
  have w2 := legWork_parts (F := F) (V := V) ⟨dt, x'.v, y'.v, y'.g⟩ hdt a P.toStepParams
  rw [load_split] at w1 w2
  simp only at w1 w2
  rw [w1, w2, show ∀ p q r s : K, p / q + s - (r / q + s) = (p - r) / q by intros; ring, abs_div, abs_of_pos hV.eff,
    workMargin, div_le_div_iff_of_pos_right hV.eff]
  rw [max_comm 0, max_comm 0]
  refine (abs_max_sub_max_le_abs _ _ _).trans ?_
  -- the parts
  have d := abs_cube_sub (mean_within hx.fwd hy.fwd) (mean_within hx.fwd' hy.fwd') (abs_mean_sub hx.speed hy.speed)
  have m := abs_mean_sub hx.speed hy.speed
  have t := mean_within hx.fwd' hy.fwd'
  have s1 := abs_sq_sub hx.fwd hx.fwd' hx.speed
  have s2 := abs_sq_sub hy.fwd hy.fwd' hy.speed
  have g1 := hy.steep
  have g2 := hy.slope
  have hD : 0 ≤ P.airDensity * V.dragCoef * V.frontalAreaM2 / 2 := by
    have := hS.air; have := hS.drag; have := hS.area; positivity
  have hI : 0 ≤ V.numWheels * V.wheelInertiaKgM2 / V.wheelRadiusM ^ 2 := by
    have := hS.wheels; have := hS.inertia; positivity
  have hg := hS.grav
  unfold dragFactor restKj wheelKj loadKinKj loadSlopeKj slopeShare
  simp only [div_pow]
  generalize P.airDensity * V.dragCoef * V.frontalAreaM2 / 2 = D at *
  generalize F.sinAtan y.g + F.cosAtan y.g * V.wheelRrCoef = G at *
  generalize F.sinAtan y'.g + F.cosAtan y'.g * V.wheelRrCoef = G' at *
  generalize avgSpeed x.v y.v = A at *
  generalize avgSpeed x'.v y'.v = A' at *
  have gs : |G * A - G' * A'| ≤ steep * ε + top * δ := by
    rw [show G * A - G' * A' = G * (A - A') + A' * (G - G') by ring]
    refine (abs_add_le _ _).trans (add_le_add ?_ ?_)
    · rw [abs_mul]
      exact mul_le_mul g1 m (abs_nonneg _) ((abs_nonneg _).trans g1)
    · rw [abs_mul, abs_of_nonneg t.1]
      exact mul_le_mul t.2 g2 (abs_nonneg _) (t.1.trans t.2)
  have e : ∀ N I r : K, N * I * (y.v ^ 2 / r ^ 2) / 2 / 1000 - N * I * (x.v ^ 2 / r ^ 2) / 2 / 1000 =
      N * I / r ^ 2 * (y.v ^ 2 - x.v ^ 2) / 2 / 1000 := by intros; ring
  have e' : ∀ N I r : K, N * I * (y'.v ^ 2 / r ^ 2) / 2 / 1000 - N * I * (x'.v ^ 2 / r ^ 2) / 2 / 1000 =
      N * I / r ^ 2 * (y'.v ^ 2 - x'.v ^ 2) / 2 / 1000 := by intros; ring
  rw [e, e']
  generalize V.numWheels * V.wheelInertiaKgM2 / V.wheelRadiusM ^ 2 = I at *
  rw [show D / 1000 * (A ^ 3 * dt) + (I * (y.v ^ 2 - x.v ^ 2) / 2 / 1000 + V.vehKg * ((y.v ^ 2 - x.v ^ 2) / 2 / 1000 +
        P.aGrav * G * (A * dt) / 1000)) - (D / 1000 * (A' ^ 3 * dt) + (I * (y'.v ^ 2 - x'.v ^ 2) / 2 / 1000 +
        V.vehKg * ((y'.v ^ 2 - x'.v ^ 2) / 2 / 1000 + P.aGrav * G' * (A' * dt) / 1000))) =
      (dt * (D * (A ^ 3 - A' ^ 3) + V.vehKg * P.aGrav * (G * A - G' * A')) +
        (V.vehKg + I) * ((y.v ^ 2 - y'.v ^ 2) - (x.v ^ 2 - x'.v ^ 2)) / 2) / 1000 by ring,
    abs_div, abs_of_pos (by norm_num : (0 : K) < 1000)]
  refine div_le_div_of_nonneg_right ?_ (by norm_num)
  have hM : 0 ≤ V.vehKg + I := add_nonneg hm hI
  refine (abs_add_le _ _).trans (add_le_add ?_ ?_)
  · rw [abs_mul, abs_of_pos hdt]
    refine mul_le_mul_of_nonneg_left ((abs_add_le _ _).trans (add_le_add ?_ ?_)) hdt.le
    · rw [abs_mul, abs_of_nonneg hD]
      calc D * |A ^ 3 - A' ^ 3| ≤ D * (3 * top ^ 2 * ε) := mul_le_mul_of_nonneg_left d hD
        _ = _ := by ring
    · rw [abs_mul, abs_of_nonneg (mul_nonneg hm hg)]
      exact mul_le_mul_of_nonneg_left gs (mul_nonneg hm hg)
  · rw [abs_div, abs_mul, abs_of_nonneg hM, abs_of_pos (by norm_num : (0 : K) < 2)]
    have := (abs_sub (y.v ^ 2 - y'.v ^ 2) (x.v ^ 2 - x'.v ^ 2)).trans (add_le_add s2 s1)
    have := mul_le_mul_of_nonneg_left this hM
    push_cast
    linarith

theorem margin_add (a b ε δ top steep : K) (n m : ℕ) (P : StepParams K) :
    workMargin V P ε δ top steep (a + b) (n + m) = workMargin V P ε δ top steep a n + workMargin V P ε δ top steep b m := by
  unfold workMargin
  push_cast
  ring

theorem near_trace (hV : Conventional V) (hS : SoundData V P.toStepParams) (hm : 0 ≤ V.vehKg) (a : K) {ε δ top steep : K}
    {c c' : Cyc K} (h : NearTrace F V ε δ top steep c c') (hi : Increasing c) :
    |traceWorkKj F V P.toStepParams a c - traceWorkKj F V P.toStepParams a c'| ≤
      workMargin V P.toStepParams ε δ top steep (tripTime c) (legs c).length := by
  unfold traceWorkKj tripTime
  induction h with
  | nil => simp [legs, workMargin]
  | @cons x x' c c' hx hc ih =>
    cases hc with
    | nil => simp [legs, workMargin]
    | @cons y y' c c' hy hc =>
      have i := ih (List.pairwise_cons.1 hi).2
      have hdt : 0 < y.t - x.t := sub_pos.2 ((List.pairwise_cons.1 hi).1 y (by simp))
      have l := near_leg (P := P) hV hS hm a hx hy hdt
      simp only [legs, List.map_cons, List.sum_cons, List.length_cons] at i ⊢
      rw [add_comm _ 1, margin_add]
      refine le_trans (le_of_eq ?_) ((abs_add_le _ _).trans (add_le_add l i))
      congr 1
      ring

/-- **C131 (engine work).** A conventional vehicle is driven over two traces that are near each other. If both are met, the
engine work of the two runs differs by no more than the margin, which is proportional to the differences of speeds and
slopes. -/
theorem C131_work (hc : P.coastAllow = false) (hd : P.idmAllow = false) (hm : P.missedTrace = false)
    (hV : Conventional V) (hS : SoundData V P.toStepParams) (hkg : 0 ≤ V.vehKg) (ha : 0 ≤ ownAux V) (hH : H.Local)
    (hA : Hooks.KeepAux H V) {ε δ top steep : K} {c c' : Cyc K} (hn : NearTrace F V ε δ top steep c c') (hi : Increasing c)
    {init init' : Option K} {s s' : Sim K}
    (h : simDrive F H V P (Sim.new c) init none = .ok s) (h' : simDrive F H V P (Sim.new c') init' none = .ok s')
    (hmet : MeetsTrace s) (hmet' : MeetsTrace s') :
    |sumDt s (fun r => r.fc.fcKwOutAch) - sumDt s' (fun r => r.fc.fcKwOutAch)| ≤
      workMargin V P.toStepParams ε δ top steep (tripTime c) (legs c).length := by
  rw [C92_work hc hd hm hV ha hH hA h hmet, C92_work hc hd hm hV ha hH hA h' hmet']
  exact near_trace hV hS hkg (ownAux V) hn hi

/-- The fuel between the work over the best and over the worst efficiency. -/
theorem fuel_between (hc : P.coastAllow = false) (hd : P.idmAllow = false) (hm : P.missedTrace = false)
    (hV : Conventional V) (ha : 0 ≤ ownAux V) (hH : H.Local) (hA : Hooks.KeepAux H V) {c : Cyc K} (hdts : ∀ l ∈ legs c, 0 < l.dt)
    {init : Option K} {s : Sim K} (h : simDrive F H V P (Sim.new c) init none = .ok s) (hmet : MeetsTrace s) (hE : EffOk V)
    {lo hi : K} (hlo : 0 < lo) (hb : ∀ e ∈ V.fcEffArray, lo ≤ e ∧ e ≤ hi) :
    lo * fuelKj s ≤ sumDt s (fun r => r.fc.fcKwOutAch) ∧ sumDt s (fun r => r.fc.fcKwOutAch) ≤ hi * fuelKj s := by
  obtain ⟨rate, hrate, hR⟩ := C92_fuel (F := F) hc hd hm hV ha
  rw [hR H c init s hH hA h hmet, C92_work hc hd hm hV ha hH hA h hmet]
  unfold traceFuelKj
  generalize legs c = ls at hdts
  induction ls with
  | nil => simp
  | cons l ls ih =>
    obtain ⟨i1, i2⟩ := ih fun k hk => hdts k (List.mem_cons_of_mem _ hk)
    simp only [List.map_cons, List.sum_cons]
    obtain ⟨e, he, hre⟩ := hrate (legWorkKw F V P.toStepParams (ownAux V) l) hE
    obtain ⟨b1, b2⟩ := hb e he
    have hdt := hdts l (by simp)
    have hw0 : 0 ≤ legWorkKw F V P.toStepParams (ownAux V) l := add_nonneg (div_nonneg (le_max_left _ _) hV.eff.le) ha
    unfold legFuelKj at i1 i2 ⊢
    generalize legWorkKw F V P.toStepParams (ownAux V) l = W at *
    have he0 : 0 < e := hlo.trans_le b1
    have hr0 : 0 ≤ rate W := by
      by_contra hn
      have := mul_neg_of_neg_of_pos (not_le.1 hn) he0
      linarith
    have hx : 0 ≤ rate W * l.dt := mul_nonneg hr0 hdt.le
    have k1 : lo * (rate W * l.dt) ≤ e * (rate W * l.dt) := mul_le_mul_of_nonneg_right b1 hx
    have k2 : e * (rate W * l.dt) ≤ hi * (rate W * l.dt) := mul_le_mul_of_nonneg_right b2 hx
    have k3 : e * (rate W * l.dt) = W * l.dt := by rw [show e * (rate W * l.dt) = rate W * e * l.dt by ring, hre]
    constructor <;> linarith

theorem increasing_legs {c : Cyc K} (hi : Increasing c) : ∀ l ∈ legs c, 0 < l.dt := by
  induction c with
  | nil => simp [legs]
  | cons x c ih =>
    cases c with
    | nil => simp [legs]
    | cons y c =>
      intro l hl
      simp only [legs, List.mem_cons] at hl
      rcases hl with rfl | hl
      · exact sub_pos.2 ((List.pairwise_cons.1 hi).1 y (by simp))
      · exact ih (List.pairwise_cons.1 hi).2 l (by simpa [legs] using hl)

theorem near_increasing {ε δ top steep : K} {c c' : Cyc K} (h : NearTrace F V ε δ top steep c c') (hi : Increasing c) :
    Increasing c' := by
  have e : c.map (·.t) = c'.map (·.t) := by
    induction h with
    | nil => rfl
    | cons hx _ ih => simp only [List.map_cons, hx.time, ih (List.pairwise_cons.1 hi).2]
  unfold Increasing at *
  rw [← List.pairwise_map (f := fun s : Sample K => s.t) (R := (· < ·))] at hi ⊢
  rw [← e]
  exact hi

/-- **C131 (fuel).** For the fuel this gives a bound that does not vanish with the differences: the ratio of the best and the
worst efficiency remains. -/
theorem C131_fuel (hc : P.coastAllow = false) (hd : P.idmAllow = false) (hm : P.missedTrace = false)
    (hV : Conventional V) (hS : SoundData V P.toStepParams) (hkg : 0 ≤ V.vehKg) (ha : 0 ≤ ownAux V) (hH : H.Local)
    (hA : Hooks.KeepAux H V) {ε δ top steep : K} {c c' : Cyc K} (hn : NearTrace F V ε δ top steep c c') (hinc : Increasing c)
    {init init' : Option K} {s s' : Sim K}
    (h : simDrive F H V P (Sim.new c) init none = .ok s) (h' : simDrive F H V P (Sim.new c') init' none = .ok s')
    (hmet : MeetsTrace s) (hmet' : MeetsTrace s') (hE : EffOk V) {lo hi : K} (hlo : 0 < lo)
    (hb : ∀ e ∈ V.fcEffArray, lo ≤ e ∧ e ≤ hi) :
    lo * fuelKj s' ≤ hi * fuelKj s + workMargin V P.toStepParams ε δ top steep (tripTime c) (legs c).length := by
  have w := abs_le.1 (C131_work hc hd hm hV hS hkg ha hH hA hn hinc h h' hmet hmet')
  have f1 := (fuel_between hc hd hm hV ha hH hA (increasing_legs hinc) h hmet hE hlo hb).2
  have f2 := (fuel_between hc hd hm hV ha hH hA (increasing_legs (near_increasing hn hinc)) h' hmet' hE hlo hb).1
  linarith [w.1]

/-- The fuel over the legs, with the table of the engine. -/
theorem fuel_trace (hc : P.coastAllow = false) (hd : P.idmAllow = false) (hm : P.missedTrace = false)
    (hV : Conventional V) (ha : 0 ≤ ownAux V) (hH : H.Local) (hA : Hooks.KeepAux H V) {c : Cyc K} {init : Option K} {s : Sim K}
    (h : simDrive F H V P (Sim.new c) init none = .ok s) (hmet : MeetsTrace s) :
    fuelKj s = traceFuelKj F V P.toStepParams (fcKwInAch V) (ownAux V) c := by
  obtain ⟨hcyc, hlen, r0, hl⟩ := leg_outputs hc hd hm hV ha hH hA h hmet
  unfold traceFuelKj fuelKj
  rw [sumDt_steps s _ hlen (by rw [r0]; rfl), legs_sum, hcyc]
  refine Finset.sum_congr rfl fun i hi => ?_
  have hi' := Finset.mem_range.1 hi
  obtain ⟨h1, h2⟩ := hl i (by omega)
  rw [h2, h1]
  rfl

end Field

section Floor
variable {K : Type*} [Field K] [LinearOrder K] [IsStrictOrderedRing K] [FloorRing K]
variable {F : Fns K} {V : Veh K} {P : SimParams K}

/-- **C131 (runs exist).** If both traces are within the limits of the vehicle (C121), nothing about the runs has to be
assumed. -/
theorem C131_run (hc : P.coastAllow = false) (hd : P.idmAllow = false) (hm : P.missedTrace = false)
    (hV : Conventional V) (ht : V.ptType = .conv) (hwin : V.minSoc ≤ V.maxSoc) (hS : SoundData V P.toStepParams)
    (hkg : 0 ≤ V.vehKg) (ha : 0 ≤ ownAux V) {ε δ top steep : K} {c c' : Cyc K} (hne : c ≠ [])
    (hn : NearTrace F V ε δ top steep c c') (hi : Increasing c)
    (hw : LegsWithin F V P.toStepParams (ownAux V) 0 (legs c)) (hw' : LegsWithin F V P.toStepParams (ownAux V) 0 (legs c'))
    (init init' : Option K) :
    ∃ s s', simDrive F (realHooks F V P) V P (Sim.new c) init none = .ok s ∧
      simDrive F (realHooks F V P) V P (Sim.new c') init' none = .ok s' ∧ MeetsTrace s ∧ MeetsTrace s' ∧
      |sumDt s (fun r => r.fc.fcKwOutAch) - sumDt s' (fun r => r.fc.fcKwOutAch)| ≤
        workMargin V P.toStepParams ε δ top steep (tripTime c) (legs c).length := by
  obtain ⟨_, -, hR⟩ := C121_run (F := F) hc hd hm hV ht hwin ha
  have hne' : c' ≠ [] := by
    rintro rfl
    exact hne (List.forall₂_nil_right_iff.1 hn)
  obtain ⟨s, h, hmet, -, e⟩ := hR c init hne hw
  obtain ⟨s', h', hmet', -, e'⟩ := hR c' init' hne' hw'
  refine ⟨s, s', h, h', hmet, hmet', ?_⟩
  rw [e, e']
  exact near_trace hV hS hkg (ownAux V) hn hi

end Floor

section Demos
open Fastsim.Demo

/-- The slope at which the demo car needs an engine output of just 1 kW at 3 m/s. -/
def justSlope : ℚ := -39 / 1471500

theorem just_work {v : ℚ} (T : ℚ) (hv : 0 ≤ v) :
    legWorkKw fns conv params.toStepParams (ownAux conv) ⟨T, v, v, justSlope⟩ = (9 / 25000 * v ^ 3 + 3669 / 25000 * v) / (9 / 10) + 1 / 2 := by
  have e : roadLoadKw fns conv params.toStepParams T justSlope v v = 9 / 25000 * v ^ 3 + 3669 / 25000 * v := by
    unfold roadLoadKw aeroKw kineticKw climbKw rollKw wheelKj avgSpeed justSlope conv params fns
    simp only [sub_self, zero_div]
    ring
  unfold legWorkKw
  simp only
  rw [e, max_eq_right (by positivity), show conv.transEff = 9 / 10 from rfl, show ownAux conv = 1 / 2 by decide +kernel]

/-- **C131 (the fuel jumps).** However small `ε` is, there are two steady traces whose speeds differ by no more than `ε`, both
met by the demo car, of which the slower one takes at least 4 kJ of fuel per second more than the faster: at 1 kW its engine
reaches the next entry of its efficiency table. -/
theorem C131_jump (ε : ℚ) (hε : 0 < ε) : ∃ v s s', 0 < v ∧ v < 3 ∧ 3 - v ≤ ε ∧
    simDrive fns (realHooks fns conv params) conv params (Sim.new (steadyTrace v 1 justSlope)) none none = .ok s ∧
    simDrive fns (realHooks fns conv params) conv params (Sim.new (steadyTrace 3 1 justSlope)) none none = .ok s' ∧
    MeetsTrace s ∧ MeetsTrace s' ∧ fuelKj s' + 4 ≤ fuelKj s := by
  obtain ⟨hV, ht, hwin, ha, -⟩ := C121_demo
  refine ⟨3 - min ε (1 / 10), ?_⟩
  have m1 : min ε (1 / 10) ≤ ε := min_le_left _ _
  have m2 : min ε (1 / 10) ≤ 1 / 10 := min_le_right _ _
  have m3 : 0 < min ε (1 / 10) := lt_min hε (by norm_num)
  generalize min ε (1 / 10) = η at *
  have hl : ∀ v : ℚ, legs (steadyTrace v 1 justSlope) = [⟨1, v, v, justSlope⟩] := fun v => by simp [legs, steadyTrace]
  have hw : ∀ v : ℚ, 0 ≤ v → v ≤ 3 → LegsWithin fns conv params.toStepParams (ownAux conv) 0 (legs (steadyTrace v 1 justSlope)) := by
    intro v h0 h3
    rw [hl]
    have h27 : v ^ 3 ≤ 3 ^ 3 := pow_le_pow_left₀ h0 h3 3
    have e : roadLoadKw fns conv params.toStepParams 1 justSlope v v = 9 / 25000 * v ^ 3 + 3669 / 25000 * v := by
      unfold roadLoadKw aeroKw kineticKw climbKw rollKw wheelKj avgSpeed justSlope conv params fns
      simp only [sub_self, zero_div]
      ring
    refine ⟨⟨?_, ?_⟩, trivial⟩
    · rw [just_work 1 h0, show reachKw conv 0 (1 : ℚ) = 20 by decide +kernel]
      linarith
    · simp only
      rw [e, max_eq_right (by positivity)]
      have g : gripKw conv params.toStepParams ⟨1, v, v, justSlope⟩ / conv.transEff = 2289 / 380 * (v + 4) := by
        unfold gripKw conv params
        norm_num
        ring
      rw [g]
      nlinarith
  obtain ⟨_, -, hR⟩ := C121_run (F := fns) (P := params) rfl rfl rfl hV ht hwin ha
  obtain ⟨s, h, hmet, -, -⟩ := hR _ none (by simp [steadyTrace]) (hw (3 - η) (by linarith) (by linarith))
  obtain ⟨s', h', hmet', -, -⟩ := hR _ none (by simp [steadyTrace]) (hw 3 (by norm_num) (le_refl _))
  refine ⟨s, s', by linarith, by linarith, by linarith, h, h', hmet, hmet', ?_⟩
  have f := fuel_trace (F := fns) (P := params) rfl rfl rfl hV ha realHooks_local realHooks_keepAux h hmet
  have f' := fuel_trace (F := fns) (P := params) rfl rfl rfl hV ha realHooks_local realHooks_keepAux h' hmet'
  rw [f, f']
  unfold traceFuelKj legFuelKj
  simp only [hl, List.map_cons, List.map_nil, List.sum_cons, List.sum_nil, add_zero, mul_one]
  rw [just_work (v := 3 - η) 1 (by linarith), just_work (v := 3) 1 (by norm_num),
    show fcKwInAch conv ((9 / 25000 * 3 ^ 3 + 3669 / 25000 * 3) / (9 / 10) + 1 / 2) = 5 from by
      rw [show (9 / 25000 * 3 ^ 3 + 3669 / 25000 * 3) / (9 / 10) + 1 / 2 = (1 : ℚ) by norm_num]; decide +kernel]
  have hc : (3 - η) ^ 3 ≤ 3 ^ 3 := pow_le_pow_left₀ (by linarith) (by linarith) 3
  have hc' : (29 / 10 : ℚ) ^ 3 ≤ (3 - η) ^ 3 := pow_le_pow_left₀ (by norm_num) (by linarith) 3
  generalize hx : (9 / 25000 * (3 - η) ^ 3 + 3669 / 25000 * (3 - η)) / (9 / 10) + 1 / 2 = x
  have x1 : x < 1 := by rw [← hx]; linarith
  have x2 : 95 / 100 ≤ x := by rw [← hx]; linarith
  have he : fcEffAt conv x = 1 / 10 := by
    have d1 : ¬ x < 0 := by linarith
    have ea : argmaxGt conv.fcKwOutArray x = 1 := by
      show argmaxBool ([0, 1, 50, 100].map fun a : ℚ => decide (x < a)) = 1
      simp only [List.map_cons, List.map_nil, decide_eq_false d1, decide_eq_true x1]
      rfl
    unfold fcEffAt lookupM1
    rw [min_eq_left (show x ≤ conv.fcMaxKw from x1.le.trans (by decide +kernel)), ea]
    rfl
  unfold fcKwInAch
  rw [he, if_neg (by linarith), if_pos (by norm_num)]
  linarith

/-- The trip of the demo car with the speeds and a slope slightly off. -/
def hopOff : Cyc ℚ := [⟨0, 1 / 100, 0, 0⟩, ⟨2, 301 / 100, 0, 0⟩, ⟨5, 299 / 100, 21 / 1000, 0⟩, ⟨8, 0, 0, 0⟩]

/-- The demo car and these two trips meet the hypotheses of `C131_work`, `C131_fuel` and `C131_run`. The margin is about 2 kJ,
the work of the trip more than 10 kJ. -/
theorem C131_demo : Conventional conv ∧ SoundData conv params.toStepParams ∧ 0 ≤ conv.vehKg ∧ EffOk conv ∧ Increasing hop ∧
    NearTrace fns conv (1 / 100) (1 / 1000) (301 / 100) (3 / 100) hop hopOff ∧
    LegsWithin fns conv params.toStepParams (ownAux conv) 0 (legs hop) ∧
    LegsWithin fns conv params.toStepParams (ownAux conv) 0 (legs hopOff) ∧
    workMargin conv params.toStepParams (1 / 100) (1 / 1000) (301 / 100) (3 / 100) (tripTime hop) (legs hop).length < 2 ∧
    10 < traceWorkKj fns conv params.toStepParams (ownAux conv) hop := by
  refine ⟨C92_demo.1, C119_demo.2.1, by decide +kernel, C92_demo.2.2.1, by unfold Increasing; decide +kernel, ?_,
    by decide +kernel, by decide +kernel, by decide +kernel, by decide +kernel⟩
  refine .cons ?_ (.cons ?_ (.cons ?_ (.cons ?_ .nil))) <;>
    exact ⟨by decide +kernel, by decide +kernel, by decide +kernel, by decide +kernel, by decide +kernel, by decide +kernel⟩

end Demos
end Fastsim.Props
