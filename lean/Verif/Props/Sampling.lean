import Verif.Props.Steady
import Verif.Props.Within
import Verif.Props.Resample

/-!
# C129: a trace that is sampled more finely never takes less engine work

A leg is driven with the drag at its mean speed. If further samples are put between those of a trace, speeds on the line between
their neighbours and slopes as before, distance, time and climb stay as they are, drag grows towards that of the speed that
changes steadily, and the engine work never shrinks. `resample` does just this if the slope is among the `hold_keys_next`.
-/

set_option linter.unusedSectionVars false

namespace Fastsim.Spec
open Fastsim
section Field
variable {K : Type*} [Field K] [LinearOrder K] [IsStrictOrderedRing K]

/-- The first legs are those of the second list, some of them cut at points where the speed is between that of their ends. -/
inductive FinerLegs : List (Leg K) → List (Leg K) → Prop
  | nil : FinerLegs [] []
  | same (l : Leg K) {a b : List (Leg K)} : FinerLegs a b → FinerLegs (l :: a) (l :: b)
  | cut {dt v0 v g d u : K} {a b : List (Leg K)} : 0 < d → d < dt → u * dt = v0 * (dt - d) + v * d →
      FinerLegs a (⟨dt - d, u, v, g⟩ :: b) → FinerLegs (⟨d, v0, u, g⟩ :: a) (⟨dt, v0, v, g⟩ :: b)

/-- The first trace is the second with samples put in between. -/
def Finer (c' c : Cyc K) : Prop := FinerLegs (legs c') (legs c)

/-- Time passes in every leg and no speed is negative. -/
def NeverBackwards (c : Cyc K) : Prop := ∀ l ∈ legs c, 0 < l.dt ∧ 0 ≤ l.v0 ∧ 0 ≤ l.v

/-- Sum of the cubes of the mean speeds of the legs, times their durations. -/
def meanCubes (c : Cyc K) : K := ((legs c).map fun l => avgSpeed l.v0 l.v ^ 3 * l.dt).sum

/-- Integral over time of the cube of the speed that changes steadily in every leg. -/
def trueCubes (c : Cyc K) : K := ((legs c).map fun l => (l.v0 + l.v) * (l.v0 ^ 2 + l.v ^ 2) / 4 * l.dt).sum

/-- Every sample is at a time of the grid that begins at `start` with step `dt`. -/
def OnGrid (c : Cyc K) (start dt : K) : Prop := ∀ s ∈ c, ∃ k : ℕ, s.t = start + k * dt

end Field
end Fastsim.Spec

namespace Fastsim.Props
open Fastsim Spec

section Field
variable {K : Type*} [Field K] [LinearOrder K] [IsStrictOrderedRing K]
variable {F : Fns K} {H : Hooks K} {V : Veh K} {P : SimParams K}

/-- A quantity that a cut never lowers is never lowered by finer sampling. -/
theorem finer_sum {a b : List (Leg K)} (h : FinerLegs a b) {f : Leg K → K} {R : Leg K → Prop} (hb : ∀ l ∈ b, R l)
    (hR : ∀ dt v0 v g d u, R ⟨dt, v0, v, g⟩ → 0 < d → d < dt → u * dt = v0 * (dt - d) + v * d →
      R ⟨d, v0, u, g⟩ ∧ R ⟨dt - d, u, v, g⟩)
    (hf : ∀ dt v0 v g d u, R ⟨dt, v0, v, g⟩ → 0 < d → d < dt → u * dt = v0 * (dt - d) + v * d →
      f ⟨dt, v0, v, g⟩ ≤ f ⟨d, v0, u, g⟩ + f ⟨dt - d, u, v, g⟩) :
    (∀ l ∈ a, R l) ∧ (b.map f).sum ≤ (a.map f).sum := by
  induction h with
  | nil => exact ⟨hb, le_refl _⟩
  | same l _ ih =>
    obtain ⟨i1, i2⟩ := ih fun k hk => hb k (List.mem_cons_of_mem _ hk)
    refine ⟨fun k hk => ?_, ?_⟩
    · rcases List.mem_cons.1 hk with rfl | hk
      · exact hb _ (by simp)
      · exact i1 k hk
    · simp only [List.map_cons, List.sum_cons]
      linarith
  | cut h1 h2 h3 _ ih =>
    rename_i dt v0 v g d u a b h4
    have h0 := hb ⟨dt, v0, v, g⟩ (by simp)
    obtain ⟨r1, r2⟩ := hR dt v0 v g d u h0 h1 h2 h3
    obtain ⟨i1, i2⟩ := ih fun k hk => by
      rcases List.mem_cons.1 hk with rfl | hk
      · exact r2
      · exact hb k (List.mem_cons_of_mem _ hk)
    refine ⟨fun k hk => ?_, ?_⟩
    · rcases List.mem_cons.1 hk with rfl | hk
      · exact r1
      · exact i1 k hk
    · have := hf dt v0 v g d u h0 h1 h2 h3
      simp only [List.map_cons, List.sum_cons] at i2 ⊢
      linarith

/-- A quantity that adds up over a cut is not changed by finer sampling. -/
theorem finer_sum_eq {a b : List (Leg K)} (h : FinerLegs a b) {f : Leg K → K}
    (hf : ∀ dt v0 v g d u, 0 < d → d < dt → u * dt = v0 * (dt - d) + v * d →
      f ⟨dt, v0, v, g⟩ = f ⟨d, v0, u, g⟩ + f ⟨dt - d, u, v, g⟩) : (a.map f).sum = (b.map f).sum := by
  have h1 := (finer_sum h (f := f) (R := fun _ => True) (fun _ _ => trivial) (fun _ _ _ _ _ _ _ _ _ _ => ⟨trivial, trivial⟩)
    fun dt v0 v g d u _ a b c => (hf dt v0 v g d u a b c).le).2
  have h2 := (finer_sum h (f := fun l => - f l) (R := fun _ => True) (fun _ _ => trivial)
    (fun _ _ _ _ _ _ _ _ _ _ => ⟨trivial, trivial⟩)
    fun dt v0 v g d u _ a b c => by rw [hf dt v0 v g d u a b c]; linarith).2
  have hneg : ∀ l : List (Leg K), (l.map fun x => - f x).sum = - (l.map f).sum := by
    intro l
    induction l with
    | nil => simp
    | cons x l ih => simp only [List.map_cons, List.sum_cons, ih]; ring
  rw [hneg, hneg] at h2
  linarith

theorem cut_forward {dt v0 v d u : K} (h : 0 < dt ∧ 0 ≤ v0 ∧ 0 ≤ v) (h1 : 0 < d) (h2 : d < dt)
    (h3 : u * dt = v0 * (dt - d) + v * d) : 0 ≤ u := by
  by_contra hn
  have k1 := mul_neg_of_neg_of_pos (not_le.1 hn) h.1
  have k2 := mul_nonneg h.2.1 (sub_pos.2 h2).le
  have k3 := mul_nonneg h.2.2 h1.le
  linarith

/-- The way covered in a leg is that of its two parts. -/
theorem cut_way {dt v0 v d u : K} (h3 : u * dt = v0 * (dt - d) + v * d) :
    avgSpeed v0 v * dt = avgSpeed v0 u * d + avgSpeed u v * (dt - d) := by
  unfold avgSpeed
  linarith

/-- **C129 (distance, time and climb).** Finer sampling changes neither the duration nor the distance of a trace, nor what any
function of the slope adds up to over the distance: the climb and the work against rolling resistance. -/
theorem C129_distance {c' c : Cyc K} (h : Finer c' c) : tripTime c' = tripTime c ∧ tripDist c' = tripDist c ∧
    ∀ φ : K → K, ((legs c').map fun l => φ l.grade * (avgSpeed l.v0 l.v * l.dt)).sum =
      ((legs c).map fun l => φ l.grade * (avgSpeed l.v0 l.v * l.dt)).sum := by
  refine ⟨finer_sum_eq h fun dt v0 v g d u _ _ _ => by ring, finer_sum_eq h fun dt v0 v g d u _ _ h3 => cut_way h3,
    fun φ => finer_sum_eq h fun dt v0 v g d u _ _ h3 => ?_⟩
  have := cut_way h3
  simp only
  rw [this]
  ring

theorem never_forward {c : Cyc K} (h : NeverBackwards c) : DrivenForward c := fun l hl => by
  obtain ⟨h1, h2, h3⟩ := h l hl
  exact ⟨h1, div_nonneg (add_nonneg h2 h3) (by norm_num)⟩

theorem cut_cube {dt v0 v d u : K} (h : 0 < dt ∧ 0 ≤ v0 ∧ 0 ≤ v) (h1 : 0 < d) (h2 : d < dt)
    (h3 : u * dt = v0 * (dt - d) + v * d) :
    avgSpeed v0 v ^ 3 * dt ≤ avgSpeed v0 u ^ 3 * d + avgSpeed u v ^ 3 * (dt - d) := by
  have hu := cut_forward h h1 h2 h3
  have w := cut_way h3
  have a0 : 0 ≤ avgSpeed v0 v := div_nonneg (add_nonneg h.2.1 h.2.2) (by norm_num)
  have a1 : 0 ≤ avgSpeed v0 u := div_nonneg (add_nonneg h.2.1 hu) (by norm_num)
  have a2 : 0 ≤ avgSpeed u v := div_nonneg (add_nonneg hu h.2.2) (by norm_num)
  have k1 := mul_le_mul_of_nonneg_right (cube_tangent a1 a0) h1.le
  have k2 := mul_le_mul_of_nonneg_right (cube_tangent a2 a0) (sub_pos.2 h2).le
  generalize avgSpeed v0 v = A at *
  generalize avgSpeed v0 u = B at *
  generalize avgSpeed u v = C at *
  have e : (A ^ 3 + 3 * A ^ 2 * (B - A)) * d + (A ^ 3 + 3 * A ^ 2 * (C - A)) * (dt - d) =
      A ^ 3 * dt + 3 * A ^ 2 * (B * d + C * (dt - d) - A * dt) := by ring
  rw [← w, sub_self, mul_zero, add_zero] at e
  linarith

theorem cut_true {dt v0 v d u : K} (h1 : 0 < d) (h2 : d < dt) (h3 : u * dt = v0 * (dt - d) + v * d) :
    (v0 + v) * (v0 ^ 2 + v ^ 2) / 4 * dt =
      (v0 + u) * (v0 ^ 2 + u ^ 2) / 4 * d + (u + v) * (u ^ 2 + v ^ 2) / 4 * (dt - d) := by
  have hdt : dt ≠ 0 := (h1.trans h2).ne'
  obtain ⟨a, ha⟩ : ∃ a, v = v0 + a * dt := ⟨(v - v0) / dt, by field_simp; ring⟩
  have hu : u = v0 + a * d := by
    apply mul_right_cancel₀ hdt
    rw [h3, ha]; ring
  rw [hu, ha]
  ring

theorem cube_true (v0 v dt : K) (h : 0 < dt ∧ 0 ≤ v0 ∧ 0 ≤ v) :
    avgSpeed v0 v ^ 3 * dt ≤ (v0 + v) * (v0 ^ 2 + v ^ 2) / 4 * dt := by
  have e : (v0 + v) * (v0 ^ 2 + v ^ 2) / 4 * dt - avgSpeed v0 v ^ 3 * dt = (v0 + v) * (v0 - v) ^ 2 / 8 * dt := by
    unfold avgSpeed; ring
  have : 0 ≤ (v0 + v) * (v0 - v) ^ 2 / 8 * dt := by
    have := h.1.le; have := add_nonneg h.2.1 h.2.2
    positivity
  linarith

/-- **C129 (drag).** What drag takes grows with finer sampling, and never beyond what it takes at the speed that changes
steadily in every leg. -/
theorem C129_drag {c' c : Cyc K} (h : Finer c' c) (hf : NeverBackwards c) :
    NeverBackwards c' ∧ meanCubes c ≤ meanCubes c' ∧ meanCubes c' ≤ trueCubes c := by
  have hcut : ∀ dt v0 v g d u : K, (0 < dt ∧ 0 ≤ v0 ∧ 0 ≤ v) → 0 < d → d < dt → u * dt = v0 * (dt - d) + v * d →
      (0 < d ∧ 0 ≤ v0 ∧ 0 ≤ u) ∧ (0 < dt - d ∧ 0 ≤ u ∧ 0 ≤ v) := fun dt v0 v g d u h0 h1 h2 h3 =>
    have hu := cut_forward h0 h1 h2 h3
    ⟨⟨h1, h0.2.1, hu⟩, sub_pos.2 h2, hu, h0.2.2⟩
  obtain ⟨k1, k2⟩ := finer_sum h (f := fun l => avgSpeed l.v0 l.v ^ 3 * l.dt) (R := fun l => 0 < l.dt ∧ 0 ≤ l.v0 ∧ 0 ≤ l.v) hf
    hcut fun dt v0 v g d u h0 h1 h2 h3 => cut_cube h0 h1 h2 h3
  refine ⟨k1, k2, ?_⟩
  have e : trueCubes c' = trueCubes c := finer_sum_eq h fun dt v0 v g d u h1 h2 h3 => cut_true h1 h2 h3
  rw [← e]
  exact List.sum_le_sum fun l hl => cube_true _ _ _ (k1 l hl)

/-- Work at the wheels, with the drag apart. -/
def restKj (F : Fns K) (V : Veh K) (P : StepParams K) (l : Leg K) : K :=
  wheelKj V l.v - wheelKj V l.v0 + V.vehKg * (loadKinKj l + loadSlopeKj F V P l)

/-- The factor of the cubes of the speeds. -/
def dragFactor (V : Veh K) (P : StepParams K) : K := P.airDensity * V.dragCoef * V.frontalAreaM2 / 2 / 1000

theorem load_split (P : StepParams K) (l : Leg K) :
    loadFixKj V P l + V.vehKg * (loadKinKj l + loadSlopeKj F V P l) =
      dragFactor V P * (avgSpeed l.v0 l.v ^ 3 * l.dt) + restKj F V P l := by
  unfold loadFixKj aeroKw dragFactor restKj
  ring

theorem rest_cut (P : StepParams K) {dt v0 v g d u : K} (h3 : u * dt = v0 * (dt - d) + v * d) :
    restKj F V P ⟨dt, v0, v, g⟩ = restKj F V P ⟨d, v0, u, g⟩ + restKj F V P ⟨dt - d, u, v, g⟩ := by
  unfold restKj loadKinKj loadSlopeKj
  simp only
  rw [cut_way h3]
  ring

theorem drag_nonneg (hS : SoundData V P.toStepParams) : 0 ≤ dragFactor V P.toStepParams := by
  have := hS.air; have := hS.drag; have := hS.area
  unfold dragFactor
  positivity

/-- Engine work of a trace. -/
def traceWorkKj (F : Fns K) (V : Veh K) (P : StepParams K) (a : K) (c : Cyc K) : K :=
  ((legs c).map fun l => legWorkKw F V P a l * l.dt).sum

/-- Engine work of a trace grows with finer sampling. -/
theorem trace_work_finer (hV : Conventional V) (hS : SoundData V P.toStepParams) (a : K) {c' c : Cyc K} (h : Finer c' c)
    (hf : NeverBackwards c) : traceWorkKj F V P.toStepParams a c ≤ traceWorkKj F V P.toStepParams a c' := by
  have hcut : ∀ dt v0 v g d u : K, (0 < dt ∧ 0 ≤ v0 ∧ 0 ≤ v) → 0 < d → d < dt → u * dt = v0 * (dt - d) + v * d →
      (0 < d ∧ 0 ≤ v0 ∧ 0 ≤ u) ∧ (0 < dt - d ∧ 0 ≤ u ∧ 0 ≤ v) := fun dt v0 v g d u h0 h1 h2 h3 =>
    have hu := cut_forward h0 h1 h2 h3
    ⟨⟨h1, h0.2.1, hu⟩, sub_pos.2 h2, hu, h0.2.2⟩
  refine (finer_sum h (f := fun l => legWorkKw F V P.toStepParams a l * l.dt) (R := fun l => 0 < l.dt ∧ 0 ≤ l.v0 ∧ 0 ≤ l.v) hf
    hcut fun dt v0 v g d u h0 h1 h2 h3 => ?_).2
  have w1 := legWork_parts (F := F) (V := V) ⟨dt, v0, v, g⟩ h0.1 a P.toStepParams
  have w2 := legWork_parts (F := F) (V := V) ⟨d, v0, u, g⟩ h1 a P.toStepParams
  have w3 := legWork_parts (F := F) (V := V) ⟨dt - d, u, v, g⟩ (sub_pos.2 h2) a P.toStepParams
  rw [load_split] at w1 w2 w3
  simp only at w1 w2 w3 ⊢
  rw [w1, w2, w3, rest_cut _ h3]
  have k := mul_le_mul_of_nonneg_left (cut_cube h0 h1 h2 h3) (drag_nonneg hS)
  generalize restKj F V P.toStepParams ⟨d, v0, u, g⟩ = r1 at *
  generalize restKj F V P.toStepParams ⟨dt - d, u, v, g⟩ = r2 at *
  rw [mul_add] at k
  generalize dragFactor V P.toStepParams * (avgSpeed v0 v ^ 3 * dt) = x at *
  generalize dragFactor V P.toStepParams * (avgSpeed v0 u ^ 3 * d) = y at *
  generalize dragFactor V P.toStepParams * (avgSpeed u v ^ 3 * (dt - d)) = z at *
  have m : max 0 (x + (r1 + r2)) ≤ max 0 (y + r1) + max 0 (z + r2) :=
    max_le (add_nonneg (le_max_left _ _) (le_max_left _ _))
      (by have := le_max_right 0 (y + r1); have := le_max_right 0 (z + r2); linarith)
  have := div_le_div_of_nonneg_right m hV.eff.le
  rw [add_div] at this
  linarith

/-- **C129 (engine work).** A conventional vehicle is driven over a trace and over the same trace with samples put in between.
If both are met, the second takes at least as much engine work. -/
theorem C129_work (hc : P.coastAllow = false) (hd : P.idmAllow = false) (hm : P.missedTrace = false)
    (hV : Conventional V) (hS : SoundData V P.toStepParams) (ha : 0 ≤ ownAux V) (hH : H.Local)
    (hA : Hooks.KeepAux H V) {c' c : Cyc K} (hfin : Finer c' c) (hf : NeverBackwards c) {init init' : Option K} {s s' : Sim K}
    (h : simDrive F H V P (Sim.new c) init none = .ok s) (h' : simDrive F H V P (Sim.new c') init' none = .ok s')
    (hmet : MeetsTrace s) (hmet' : MeetsTrace s') :
    sumDt s (fun r => r.fc.fcKwOutAch) ≤ sumDt s' (fun r => r.fc.fcKwOutAch) := by
  rw [C92_work hc hd hm hV ha hH hA h hmet, C92_work hc hd hm hV ha hH hA h' hmet']
  exact trace_work_finer hV hS (ownAux V) hfin hf

/-- **C129 (fuel).** Then the fuel of the coarser trace is at most that of the finer one times the ratio of the best and the worst
efficiency of the engine. -/
theorem C129_fuel (hc : P.coastAllow = false) (hd : P.idmAllow = false) (hm : P.missedTrace = false)
    (hV : Conventional V) (hS : SoundData V P.toStepParams) (ha : 0 ≤ ownAux V) (hH : H.Local)
    (hA : Hooks.KeepAux H V) {c' c : Cyc K} (hfin : Finer c' c) (hf : NeverBackwards c) {init init' : Option K} {s s' : Sim K}
    (h : simDrive F H V P (Sim.new c) init none = .ok s) (h' : simDrive F H V P (Sim.new c') init' none = .ok s')
    (hmet : MeetsTrace s) (hmet' : MeetsTrace s') (hE : EffOk V) {lo hi : K} (hlo : 0 < lo)
    (hb : ∀ e ∈ V.fcEffArray, lo ≤ e ∧ e ≤ hi) : fuelKj s ≤ hi / lo * fuelKj s' := by
  have main : ∀ {c : Cyc K} {init : Option K} {s : Sim K}, NeverBackwards c → simDrive F H V P (Sim.new c) init none = .ok s →
      MeetsTrace s → lo * fuelKj s ≤ sumDt s (fun r => r.fc.fcKwOutAch) ∧
        sumDt s (fun r => r.fc.fcKwOutAch) ≤ hi * fuelKj s := by
    intro c init s hf h hmet
    obtain ⟨rate, hrate, hR⟩ := C92_fuel (F := F) hc hd hm hV ha
    rw [hR H c init s hH hA h hmet, C92_work hc hd hm hV ha hH hA h hmet]
    unfold traceFuelKj
    have hf' : ∀ l ∈ legs c, 0 < l.dt := fun l hl => (hf l hl).1
    generalize legs c = ls at hf'
    induction ls with
    | nil => simp
    | cons l ls ih =>
      obtain ⟨i1, i2⟩ := ih fun k hk => hf' k (List.mem_cons_of_mem _ hk)
      simp only [List.map_cons, List.sum_cons]
      obtain ⟨e, he, hre⟩ := hrate (legWorkKw F V P.toStepParams (ownAux V) l) hE
      obtain ⟨b1, b2⟩ := hb e he
      have hdt := hf' l (by simp)
      have hw0 : 0 ≤ legWorkKw F V P.toStepParams (ownAux V) l :=
        add_nonneg (div_nonneg (le_max_left _ _) hV.eff.le) ha
      unfold legFuelKj at i1 i2 ⊢
      generalize legWorkKw F V P.toStepParams (ownAux V) l = W at *
      have he0 : 0 < e := hlo.trans_le b1
      have hr0 : 0 ≤ rate W := by
        by_contra hn
        have := mul_neg_of_neg_of_pos (not_le.1 hn) he0
        linarith
      have hx : 0 ≤ rate W * l.dt := mul_nonneg hr0 hdt.le
      have k1 : lo * (rate W * l.dt) ≤ e * (rate W * l.dt) := mul_le_mul_of_nonneg_right b1 hx
      have k2 : e * (rate W * l.dt) ≤ hi * (rate W * l.dt) := mul_le_mul_of_nonneg_right b2 hx
      have k3 : e * (rate W * l.dt) = W * l.dt := by rw [show e * (rate W * l.dt) = rate W * e * l.dt by ring, hre]
      constructor <;> linarith
  obtain ⟨k1, -⟩ := main hf h hmet
  obtain ⟨-, k2⟩ := main (C129_drag hfin hf).1 h' hmet'
  have k3 := C129_work hc hd hm hV hS ha hH hA hfin hf h h' hmet hmet'
  rw [div_mul_eq_mul_div, le_div_iff₀ hlo]
  linarith

/-- **C129 (sampling error).** If moreover the finer trace never asks the vehicle to brake, what it takes more is at most the
difference between the drag at steadily changing speed and that at the mean speed of every leg of the coarser trace. -/
theorem C129_error (hc : P.coastAllow = false) (hd : P.idmAllow = false) (hm : P.missedTrace = false)
    (hV : Conventional V) (hS : SoundData V P.toStepParams) (ha : 0 ≤ ownAux V) (hH : H.Local)
    (hA : Hooks.KeepAux H V) {c' c : Cyc K} (hfin : Finer c' c) (hf : NeverBackwards c)
    (hb : ∀ l ∈ legs c', 0 ≤ roadLoadKw F V P.toStepParams l.dt l.grade l.v0 l.v) {init init' : Option K} {s s' : Sim K}
    (h : simDrive F H V P (Sim.new c) init none = .ok s) (h' : simDrive F H V P (Sim.new c') init' none = .ok s')
    (hmet : MeetsTrace s) (hmet' : MeetsTrace s') :
    sumDt s' (fun r => r.fc.fcKwOutAch) ≤ sumDt s (fun r => r.fc.fcKwOutAch) +
      P.airDensity * V.dragCoef * V.frontalAreaM2 / 2 / 1000 / V.transEff *
        ((legs c).map fun l => (l.v0 + l.v) * (l.v - l.v0) ^ 2 / 8 * l.dt).sum := by
  rw [C92_work hc hd hm hV ha hH hA h hmet, C92_work hc hd hm hV ha hH hA h' hmet']
  obtain ⟨n1, -, n3⟩ := C129_drag hfin hf
  -- work of the finer trace
  have e' : ((legs c').map fun l => legWorkKw F V P.toStepParams (ownAux V) l * l.dt).sum =
      (dragFactor V P.toStepParams * meanCubes c' + ((legs c').map (restKj F V P.toStepParams)).sum) / V.transEff +
        ownAux V * tripTime c' := by
    unfold meanCubes tripTime
    unfold NeverBackwards at n1
    clear n3 hfin h' hmet'
    generalize legs c' = ls at n1 hb
    induction ls with
    | nil => simp
    | cons l ls ih =>
      simp only [List.map_cons, List.sum_cons]
      rw [ih (fun k hk => n1 k (List.mem_cons_of_mem _ hk)) fun k hk => hb k (List.mem_cons_of_mem _ hk),
        legWork_parts l (n1 l (by simp)).1]
      have h1 := n1 l (by simp)
      have h2 : 0 ≤ loadFixKj V P.toStepParams l + V.vehKg * (loadKinKj l + loadSlopeKj F V P.toStepParams l) := by
        rw [← load_parts l h1.1.ne']
        exact mul_nonneg (hb l (by simp)) h1.1.le
      rw [max_eq_right h2, load_split]
      ring
  -- and of the coarser
  have e : (dragFactor V P.toStepParams * meanCubes c + ((legs c).map (restKj F V P.toStepParams)).sum) / V.transEff +
        ownAux V * tripTime c ≤ ((legs c).map fun l => legWorkKw F V P.toStepParams (ownAux V) l * l.dt).sum := by
    unfold meanCubes tripTime
    unfold NeverBackwards at hf
    clear n1 n3 hfin h' hmet' h hmet e'
    generalize legs c = ls at hf
    induction ls with
    | nil => simp
    | cons l ls ih =>
      have i := ih fun k hk => hf k (List.mem_cons_of_mem _ hk)
      simp only [List.map_cons, List.sum_cons]
      rw [legWork_parts l (hf l (by simp)).1, load_split]
      have := div_le_div_of_nonneg_right (le_max_right 0 (dragFactor V P.toStepParams * (avgSpeed l.v0 l.v ^ 3 * l.dt) +
        restKj F V P.toStepParams l)) hV.eff.le
      rw [add_div] at i this
      rw [add_div, mul_add, add_div, add_div]
      linarith
  have er : ((legs c').map (restKj F V P.toStepParams)).sum = ((legs c).map (restKj F V P.toStepParams)).sum :=
    finer_sum_eq hfin fun dt v0 v g d u _ _ h3 => rest_cut _ h3
  have et := (C129_distance hfin).1
  have ed : trueCubes c = meanCubes c + ((legs c).map fun l => (l.v0 + l.v) * (l.v - l.v0) ^ 2 / 8 * l.dt).sum := by
    unfold trueCubes meanCubes
    generalize legs c = ls
    induction ls with
    | nil => simp
    | cons l ls ih =>
      simp only [List.map_cons, List.sum_cons, ih]
      unfold avgSpeed
      ring
  rw [e', er, et]
  refine le_trans ?_ (add_le_add_left e _)
  have k := div_le_div_of_nonneg_right (mul_le_mul_of_nonneg_left n3 (drag_nonneg hS)) hV.eff.le
  rw [ed, mul_add, add_div] at k
  rw [add_div, add_div]
  have e0 : P.airDensity * V.dragCoef * V.frontalAreaM2 / 2 / 1000 / V.transEff *
        ((legs c).map fun l => (l.v0 + l.v) * (l.v - l.v0) ^ 2 / 8 * l.dt).sum =
      dragFactor V P.toStepParams * ((legs c).map fun l => (l.v0 + l.v) * (l.v - l.v0) ^ 2 / 8 * l.dt).sum / V.transEff := by
    unfold dragFactor; ring
  rw [e0]
  linarith

end Field

section Floor
variable {K : Type*} [Field K] [LinearOrder K] [IsStrictOrderedRing K] [FloorRing K]
variable {F : Fns K} {V : Veh K} {P : SimParams K}

/-- **C129 (runs exist).** If both traces are within the limits of the vehicle (C121), nothing about the runs has to be
assumed. -/
theorem C129_run (hc : P.coastAllow = false) (hd : P.idmAllow = false) (hm : P.missedTrace = false)
    (hV : Conventional V) (ht : V.ptType = .conv) (hwin : V.minSoc ≤ V.maxSoc) (hS : SoundData V P.toStepParams)
    (ha : 0 ≤ ownAux V) {c' c : Cyc K} (hne : c ≠ []) (hne' : c' ≠ []) (hfin : Finer c' c) (hf : NeverBackwards c)
    (hw : LegsWithin F V P.toStepParams (ownAux V) 0 (legs c)) (hw' : LegsWithin F V P.toStepParams (ownAux V) 0 (legs c'))
    (init init' : Option K) :
    ∃ s s', simDrive F (realHooks F V P) V P (Sim.new c) init none = .ok s ∧
      simDrive F (realHooks F V P) V P (Sim.new c') init' none = .ok s' ∧ MeetsTrace s ∧ MeetsTrace s' ∧
      sumDt s (fun r => r.fc.fcKwOutAch) ≤ sumDt s' (fun r => r.fc.fcKwOutAch) := by
  obtain ⟨_, -, hR⟩ := C121_run (F := F) hc hd hm hV ht hwin ha
  obtain ⟨s, h, hmet, -, e⟩ := hR c init hne hw
  obtain ⟨s', h', hmet', -, e'⟩ := hR c' init' hne' hw'
  refine ⟨s, s', h, h', hmet, hmet', ?_⟩
  rw [e, e']
  exact trace_work_finer hV hS (ownAux V) hfin hf

theorem nextAt_after {t : K} {p : K × K} {l : List (K × K)} (h : p.1 < t) : nextAt t (p :: l) = nextAt t l := by
  rw [nextAt, if_neg (not_le.2 h)]

/-- The samples of the lines between those of a trace: speed on the line, the next slope. -/
def onLines (c : Cyc K) (ρ : K → K) (t : K) : Sample K := ⟨t, interp t (chanPairs c .mps), nextAt t (chanPairs c .grade), ρ t⟩

theorem onLines_after {x y : Sample K} {r : Cyc K} {t : K} (ρ : K → K) (h : x.t < y.t) (ht : y.t ≤ t) :
    onLines (x :: y :: r) ρ t = onLines (y :: r) ρ t := by
  unfold onLines
  congr 1
  · exact interp_of_ge (p := (x.t, x.v)) (q := (y.t, y.v)) ht
  · exact nextAt_after (h.trans_le ht)

/-- Samples of the lines between those of a trace, at increasing times that include all of its times. -/
theorem finer_points (ρ : K → K) (ts : List K) : ∀ (r : Cyc K) (x y p : Sample K), Increasing (x :: y :: r) → x.t ≤ p.t →
    p.t < y.t → p.v * (y.t - x.t) = x.v * (y.t - p.t) + y.v * (p.t - x.t) → ts.Pairwise (· < ·) → (∀ t ∈ ts, p.t < t) →
    (∀ s ∈ y :: r, s.t ∈ ts) → (∀ t ∈ ts, ∃ s ∈ y :: r, t ≤ s.t) →
    Finer (p :: ts.map (onLines (x :: y :: r) ρ)) (p :: y :: r) := by
  induction ts with
  | nil => intro r x y p _ _ _ _ _ _ h; exact absurd (h y (by simp)) (by simp)
  | cons t ts ih =>
    intro r x y p hinc hxp hpy hpv hts hpt hall hin
    obtain ⟨ht1, ht2⟩ := List.pairwise_cons.1 hts
    have hinc' := (List.pairwise_cons.1 hinc).2
    have hyr := (List.pairwise_cons.1 hinc').1
    have hty : t ≤ y.t := by
      rcases List.mem_cons.1 (hall y (by simp)) with e | e
      · exact e.symm.le
      · exact (ht1 _ e).le
    have hxt : x.t < t := hxp.trans_lt (hpt t (by simp))
    have hxy : x.t < y.t := hxt.trans_le hty
    have hg : (onLines (x :: y :: r) ρ t).g = y.g := by
      show nextAt t (chanPairs (x :: y :: r) .grade) = y.g
      rw [chanPairs, List.map_cons, nextAt_after hxt, List.map_cons, nextAt, if_pos hty]
      rfl
    rcases hty.lt_or_eq with hlt | he
    · -- a new point on the line
      have hv : (onLines (x :: y :: r) ρ t).v = (y.v - x.v) / (y.t - x.t) * (t - x.t) + x.v :=
        interp_of_lt (p := (x.t, x.v)) (q := (y.t, y.v)) hlt hxt
      have hD : y.t - x.t ≠ 0 := (sub_pos.2 hxy).ne'
      have hv' : (onLines (x :: y :: r) ρ t).v * (y.t - x.t) = x.v * (y.t - t) + y.v * (t - x.t) := by
        rw [hv]; field_simp; ring
      have i := ih r x y (onLines (x :: y :: r) ρ t) hinc hxt.le hlt hv' ht2 ht1
        (fun s hs => (List.mem_cons.1 (hall s hs)).resolve_left fun e => by
          rcases List.mem_cons.1 hs with rfl | hs
          · exact hlt.ne e.symm
          · have := hyr s hs
            rw [e] at this
            exact absurd (this.trans hlt) (lt_irrefl _))
        (fun t' ht' => hin t' (List.mem_cons_of_mem _ ht'))
      unfold Finer at i ⊢
      rw [List.map_cons]
      have hqt : (onLines (x :: y :: r) ρ t).t = t := rfl
      generalize onLines (x :: y :: r) ρ t = q at *
      simp only [legs] at i ⊢
      rw [hqt] at i
      rw [hg, hqt]
      refine FinerLegs.cut (sub_pos.2 (hpt t (by simp))) (by linarith) ?_ ?_
      · apply mul_right_cancel₀ hD
        linear_combination (y.t - p.t) * hv' - (y.t - t) * hpv
      · rw [show y.t - p.t - (t - p.t) = y.t - t by ring]
        exact i
    · -- the next sample of the trace
      subst he
      have hv : (onLines (x :: y :: r) ρ y.t).v = y.v := by
        rw [onLines_after ρ hxy (le_refl _)]
        exact interp_knot (chanPairs_strict hinc' .mps) (p := (y.t, y.v)) (List.mem_map.2 ⟨y, by simp, rfl⟩)
      have hqt : (onLines (x :: y :: r) ρ y.t).t = y.t := rfl
      have hmap : ts.map (onLines (x :: y :: r) ρ) = ts.map (onLines (y :: r) ρ) :=
        List.map_congr_left fun t' ht' => onLines_after ρ hxy (ht1 t' ht').le
      unfold Finer
      rw [List.map_cons, hmap]
      generalize onLines (x :: y :: r) ρ y.t = q at *
      simp only [legs]
      rw [hv, hg, hqt]
      refine FinerLegs.same _ ?_
      rw [← legs_head q y r hqt hv]
      cases r with
      | nil =>
        cases ts with
        | nil => exact FinerLegs.nil
        | cons t' ts =>
          obtain ⟨s, hs, hst⟩ := hin t' (by simp)
          rw [List.mem_singleton.1 hs] at hst
          exact absurd (ht1 t' (by simp)) (not_lt.2 hst)
      | cons z r =>
        refine ih r y z q hinc' hqt.ge (hqt.trans_lt (hyr z (by simp))) (by rw [hv, hqt]; ring) ht2
          (fun t' ht' => hqt.trans_lt (ht1 t' ht')) (fun s hs => ?_) (fun t' ht' => ?_)
        · refine (List.mem_cons.1 (hall s (List.mem_cons_of_mem _ hs))).resolve_left fun e => ?_
          have := hyr s hs
          rw [e] at this
          exact absurd this (lt_irrefl _)
        · obtain ⟨s, hs, hst⟩ := hin t' (List.mem_cons_of_mem _ ht')
          rcases List.mem_cons.1 hs with rfl | hs
          · exact absurd (ht1 t' ht') (not_lt.2 hst)
          · exact ⟨s, hs, hst⟩

/-- **C129 (resample).** A trace is resampled with its speeds interpolated and its slopes held from the next sample
(`hold_keys_next`), from its first to its last time with a step such that no sample of the trace is lost: the result is the trace
with samples put in between. -/
theorem C129_resample {c r : Cyc K} {dt start stop : K} {q : ResKeys} (hdt : 0 < dt) (hc : Increasing c)
    (hx : c.head?.map (·.t) = some start) (hy : c.getLast?.map (·.t) = some stop) (hgrid : OnGrid c start dt)
    (hv : IsPlain q .mps) (hg : IsHeldNext q .grade) (h : resample c dt start stop q = .ok r) : Finer r c := by
  obtain ⟨f, hf, rfl⟩ := resample_ok h
  rw [← mode_linear] at hv
  rw [← mode_next] at hg
  obtain ⟨f1, e1, l1, -, -⟩ := resampleChan_map (hf .mps)
  obtain ⟨f2, e2, -, -, l2⟩ := resampleChan_map (hf .grade)
  have hmap : ((resampleTimes dt start stop).map fun t => (⟨t, f .mps t, f .grade t, f .roadType t⟩ : Sample K)) =
      (resampleTimes dt start stop).map (onLines c (f .roadType)) := by
    refine List.map_congr_left fun t ht => ?_
    rw [map_eq_mem e1 ht, map_eq_mem e2 ht, l1 hv, (l2 hg).1]
    rfl
  rw [hmap]
  obtain ⟨last, hlast, hstop⟩ := Option.map_eq_some_iff.1 hy
  obtain ⟨first, hfirst, hstart⟩ := Option.map_eq_some_iff.1 hx
  obtain ⟨m, hm⟩ := hgrid last (List.mem_of_mem_getLast? hlast)
  -- the times
  have hle : ∀ t ∈ resampleTimes dt start stop, t ≤ stop := by
    intro t ht
    obtain ⟨k, rfl, hk⟩ := (mem_arange hdt).1 ht
    rw [← hstop, hm] at hk ⊢
    have hk' : (k : K) * dt < (m + 1 : K) * dt := by linarith
    have hk'' : (k : K) < ((m + 1 : ℕ) : K) := by push_cast; exact lt_of_mul_lt_mul_right hk' hdt.le
    have h3 : k < m + 1 := by exact_mod_cast hk''
    have h4 : (k : K) ≤ m := by exact_mod_cast Nat.lt_succ_iff.1 h3
    have := mul_le_mul_of_nonneg_right h4 hdt.le
    linarith
  have hss : start ≤ stop := by
    rw [← hstop, hm]
    have : (0 : K) ≤ m * dt := mul_nonneg (Nat.cast_nonneg m) hdt.le
    linarith
  have hmem : ∀ s ∈ c, s.t ∈ resampleTimes dt start stop := by
    intro s hs
    obtain ⟨k, hk⟩ := hgrid s hs
    refine (mem_arange hdt).2 ⟨k, hk, ?_⟩
    have hsl : s.t ≤ last.t := by
      obtain ⟨l, rfl⟩ := List.getLast?_eq_some_iff.1 hlast
      rcases List.mem_append.1 hs with h5 | h5
      · exact ((List.pairwise_append.1 hc).2.2 s h5 last (by simp)).le
      · rw [List.mem_singleton.1 h5]
    rw [hstop] at hsl
    have : 0 < dt / 10 := by positivity
    linarith
  have hpw : (resampleTimes dt start stop).Pairwise (· < ·) := by
    have := (C05_times hdt h).2.2
    unfold Increasing at this
    rw [List.pairwise_map] at this
    exact this
  obtain ⟨ts, hts⟩ : ∃ ts, resampleTimes dt start stop = start :: ts := by
    have h0 : start ∈ resampleTimes dt start stop :=
      (mem_arange hdt).2 ⟨0, by simp, by have : 0 < dt / 10 := by positivity
                                         linarith⟩
    cases ht : resampleTimes dt start stop with
    | nil => rw [ht] at h0; cases h0
    | cons t ts =>
      rw [ht] at h0 hpw
      have ht0 : start ≤ t := by
        obtain ⟨k, hk, -⟩ := (mem_arange hdt).1 (show t ∈ resampleTimes dt start stop by rw [ht]; simp)
        have : (0 : K) ≤ k * dt := mul_nonneg (Nat.cast_nonneg k) hdt.le
        linarith
      rcases List.mem_cons.1 h0 with rfl | h0
      · exact ⟨ts, rfl⟩
      · exact absurd ((List.pairwise_cons.1 hpw).1 start h0) (not_lt.2 ht0)
  rw [hts] at hle hmem hpw ⊢
  obtain ⟨hp1, hp2⟩ := List.pairwise_cons.1 hpw
  generalize f .roadType = ρ
  cases c with
  | nil => cases hfirst
  | cons x l =>
    simp only [List.head?_cons, Option.some.injEq] at hfirst
    subst hfirst
    cases l with
    | nil =>
      simp only [List.getLast?_singleton, Option.some.injEq] at hlast
      subst hlast
      cases ts with
      | nil => exact FinerLegs.nil
      | cons t ts =>
        have k1 := hp1 t (by simp)
        have k2 := hle t (by simp)
        rw [← hstop, hstart] at k2
        exact absurd k1 (not_lt.2 k2)
    | cons y l =>
      have hxl := (List.pairwise_cons.1 hc).1
      have hvx : (onLines (x :: y :: l) ρ start).v = x.v := by
        rw [← hstart]
        exact interp_knot (chanPairs_strict hc .mps) (p := (x.t, x.v)) (List.mem_map.2 ⟨x, by simp, rfl⟩)
      have hqt : (onLines (x :: y :: l) ρ start).t = x.t := hstart.symm
      have i := finer_points ρ ts l x y (onLines (x :: y :: l) ρ start) hc hqt.ge (hqt.trans_lt (hxl y (by simp)))
        (by rw [hvx, hqt]; ring) hp2 (fun t ht => hp1 t ht)
        (fun s hs => (List.mem_cons.1 (hmem s (List.mem_cons_of_mem _ hs))).resolve_left fun e => by
          have := hxl s hs
          rw [e, hstart] at this
          exact absurd this (lt_irrefl _))
        (fun t ht => ⟨last, List.mem_of_mem_getLast? (by rwa [List.getLast?_cons_cons] at hlast), by
          rw [hstop]; exact hle t (List.mem_cons_of_mem _ ht)⟩)
      unfold Finer at i ⊢
      rw [List.map_cons]
      rwa [legs_head _ x (y :: l) hqt hvx] at i

end Floor
/-! ### Concrete cases -/

open Demo

/-- A start and a climb, without braking. -/
def setOff : Cyc ℚ := [⟨0, 0, 0, 0⟩, ⟨2, 3, 0, 0⟩, ⟨6, 5, 1 / 50, 0⟩]

/-- `setOff` every second. -/
def setOffFine : Cyc ℚ := [⟨0, 0, 0, 0⟩, ⟨1, 3 / 2, 0, 0⟩, ⟨2, 3, 0, 0⟩, ⟨3, 7 / 2, 1 / 50, 0⟩, ⟨4, 4, 1 / 50, 0⟩, ⟨5, 9 / 2, 1 / 50, 0⟩,
  ⟨6, 5, 1 / 50, 0⟩]

/-- `resample` gives `setOffFine` if the slope is held from the next sample, with all that `C129_resample` asks for. -/
theorem C129_demo_resample : resample setOff 1 0 6 ⟨[], [.grade], []⟩ = .ok setOffFine ∧ Increasing setOff ∧
    setOff.head?.map (·.t) = some 0 ∧ setOff.getLast?.map (·.t) = some 6 ∧ OnGrid setOff 0 1 ∧
    IsPlain ⟨[], [.grade], []⟩ .mps ∧ IsHeldNext ⟨[], [.grade], []⟩ .grade := by
  refine ⟨by decide +kernel, by unfold Increasing; decide +kernel, rfl, rfl, ?_, by unfold IsPlain; decide, by unfold IsHeldNext; decide⟩
  intro s hs
  simp only [setOff, List.mem_cons, List.not_mem_nil, or_false] at hs
  rcases hs with rfl | rfl | rfl
  · exact ⟨0, by norm_num⟩
  · exact ⟨2, by norm_num⟩
  · exact ⟨6, by norm_num⟩

/-- The demo car meets the hypotheses of `C129_work`, `C129_error`, `C129_fuel` and `C129_run` on both, and the finer trace takes more work. -/
theorem C129_demo : Conventional conv ∧ SoundData conv params.toStepParams ∧ 0 ≤ ownAux conv ∧ noHooks.Local ∧
    Hooks.KeepAux noHooks conv ∧ NeverBackwards setOff ∧
    (∀ l ∈ legs setOffFine, 0 ≤ roadLoadKw fns conv params.toStepParams l.dt l.grade l.v0 l.v) ∧
    (∀ c ∈ [setOff, setOffFine], c ≠ [] ∧ LegsWithin fns conv params.toStepParams (ownAux conv) 0 (legs c) ∧
      ∃ s, simDrive fns noHooks conv params (Sim.new c) none none = .ok s ∧ MeetsTrace s) ∧
    traceWorkKj fns conv params.toStepParams (ownAux conv) setOff < traceWorkKj fns conv params.toStepParams (ownAux conv) setOffFine := by
  refine ⟨⟨rfl, by decide, by decide +kernel, by decide +kernel, by decide +kernel, by decide +kernel,
    by decide +kernel⟩, ⟨by decide +kernel, by decide +kernel, by decide +kernel, by decide +kernel, by decide +kernel,
    by decide +kernel⟩, by decide +kernel, noHooks_local, noHooks_keepAux _, by unfold NeverBackwards; decide +kernel,
    by decide +kernel, ?_, by decide +kernel⟩
  have key : ∀ c ∈ [setOff, setOffFine], c ≠ [] ∧ LegsWithin fns conv params.toStepParams (ownAux conv) 0 (legs c) ∧
      metRun (simDrive fns noHooks conv params (Sim.new c) none none) = true := by
    decide +kernel
  exact fun c hc => ⟨(key c hc).1, (key c hc).2.1, metRun_spec (key c hc).2.2⟩

/-- **C129 needs the slope to be held.** By default `resample` draws a line between the slopes: the road climbs less, and the
vehicle needs less work than on the trace that was given. -/
theorem C129_slope_lost : ∃ r : Cyc ℚ, resample setOff 1 0 6 ⟨[], [], []⟩ = .ok r ∧
    ((legs r).map fun l => l.grade * (avgSpeed l.v0 l.v * l.dt)).sum <
      ((legs setOff).map fun l => l.grade * (avgSpeed l.v0 l.v * l.dt)).sum ∧
    traceWorkKj fns conv params.toStepParams (ownAux conv) r < traceWorkKj fns conv params.toStepParams (ownAux conv) setOff := by
  refine ⟨[⟨0, 0, 0, 0⟩, ⟨1, 3 / 2, 0, 0⟩, ⟨2, 3, 0, 0⟩, ⟨3, 7 / 2, 1 / 200, 0⟩, ⟨4, 4, 1 / 100, 0⟩, ⟨5, 9 / 2, 3 / 200, 0⟩,
    ⟨6, 5, 1 / 50, 0⟩], by decide +kernel, by decide +kernel, by decide +kernel⟩

end Fastsim.Props
