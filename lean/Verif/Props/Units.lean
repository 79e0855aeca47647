import Verif.Model.Units
import Mathlib.Tactic.FieldSimp
import Mathlib.Tactic.Ring
import Mathlib.Tactic.Linarith
import Mathlib.Tactic.Positivity
import Mathlib.Algebra.Order.Field.Rat
import Mathlib.Algebra.Order.Field.Basic
import Mathlib.Analysis.SpecialFunctions.Pow.Real

/-!
# C13: unit conversions and road-load coefficients
-/
set_option linter.unusedSectionVars false

namespace Fastsim.Spec
end Fastsim.Spec

namespace Fastsim.Props
open Fastsim Spec

variable {K : Type*} [Field K] [LinearOrder K] [IsStrictOrderedRing K]

theorem pyDiv_ok (a : K) {b : K} (h : b ≠ 0) : pyDiv a b = .ok (a / b) := if_neg h

/-- `m` miles per gallon and `l` litres per 100 km are the same economy: driving 100 km takes `l` litres, that
is `l / 3.785` gallons, on which the car drives `m * l / 3.785` miles of 1609 m, which make 100 km. -/
def _root_.Fastsim.Spec.SameEconomy (m l : K) : Prop := m * (l / (3785 / 1000)) * 1609 = 100 * 1000

theorem l100kmToMpg_eq {l : K} (h : l ≠ 0) : l100kmToMpg l = .ok (378500000 / (1609 * l * 1000)) := by
  rw [l100kmToMpg, pyDiv_ok]
  · congr 1; rw [lPerGal, mPerMi]; field_simp; norm_num
  · rw [lPerGal, mPerMi]; simp [h]

theorem mpgToL100km_eq {m : K} (h : m ≠ 0) : mpgToL100km m = .ok (378500000 / (1609 * m * 1000)) := by
  rw [mpgToL100km, pyDiv_ok]
  · congr 1; rw [lPerGal, mPerMi]; field_simp; norm_num
  · rw [lPerGal, mPerMi]; simp [h]

/-- `l__100km_to_mpg` gives the one economy that is the same, and raises `ZeroDivisionError` for zero. -/
theorem C13_to_mpg (l : K) :
    (l = 0 ∧ l100kmToMpg l = .error .zeroDivision) ∨
    ∃ m, l ≠ 0 ∧ m ≠ 0 ∧ l100kmToMpg l = .ok m ∧ SameEconomy m l ∧ ∀ m', SameEconomy m' l → m' = m := by
  by_cases h : l = 0
  · left; refine ⟨h, ?_⟩; rw [h, l100kmToMpg, pyDiv, if_pos (by simp)]
  · right
    refine ⟨_, h, ?_, l100kmToMpg_eq h, ?_, ?_⟩
    · positivity
    · unfold SameEconomy; field_simp; norm_num
    · intro m' h'; unfold SameEconomy at h'; field_simp at h' ⊢; linarith

/-- `mpg_to_l__100km` likewise. -/
theorem C13_to_l100km (m : K) :
    (m = 0 ∧ mpgToL100km m = .error .zeroDivision) ∨
    ∃ l, m ≠ 0 ∧ l ≠ 0 ∧ mpgToL100km m = .ok l ∧ SameEconomy m l ∧ ∀ l', SameEconomy m l' → l' = l := by
  by_cases h : m = 0
  · left; refine ⟨h, ?_⟩; rw [h, mpgToL100km, pyDiv, if_pos (by simp)]
  · right
    refine ⟨_, h, ?_, mpgToL100km_eq h, ?_, ?_⟩
    · positivity
    · unfold SameEconomy; field_simp; norm_num
    · intro m' h'; unfold SameEconomy at h'; field_simp at h' ⊢; linarith

/-- The two conversions undo each other. -/
theorem C13_inverse {x : K} (hx : x ≠ 0) :
    (l100kmToMpg x >>= mpgToL100km) = .ok x ∧ (mpgToL100km x >>= l100kmToMpg) = .ok x := by
  have hy : (378500000 / (1609 * x * 1000) : K) ≠ 0 := by positivity
  constructor
  · rw [l100kmToMpg_eq hx]; show mpgToL100km _ = _; rw [mpgToL100km_eq hy]; congr 1; field_simp
  · rw [mpgToL100km_eq hx]; show l100kmToMpg _ = _; rw [l100kmToMpg_eq hy]; congr 1; field_simp

/-- A car that uses more litres goes fewer miles per gallon. -/
theorem C13_economy_order {x y a b : K} (hx : 0 < x) (hxy : x < y) (ha : l100kmToMpg x = .ok a)
    (hb : l100kmToMpg y = .ok b) : b < a ∧ 0 < b := by
  rw [l100kmToMpg_eq hx.ne'] at ha
  rw [l100kmToMpg_eq (hx.trans hxy).ne'] at hb
  cases ha; cases hb
  have hy : 0 < y := hx.trans hxy
  refine ⟨?_, by positivity⟩
  apply div_lt_div_of_pos_left (by norm_num) (by positivity)
  nlinarith

/-- 23.5 mpg is about 10 L/100 km: the theorem's case is met. -/
theorem demo_economy : l100kmToMpg (10 : ℚ) = .ok (37850 / 1609) := by decide +kernel

/-- Setting the lower heating value and reading it returns the value set; the density is untouched, and the
energy in a gallon is the heating value of its 3.785 litres. -/
theorem C13_lhv (p : FuelProps K) (h : p.fuelRhoKgL ≠ 0) (v : K) :
    (p.setLhv v).lhv = .ok v ∧ (p.setLhv v).fuelRhoKgL = p.fuelRhoKgL ∧
    (p.setLhv v).kwhPerGge * 3600 = v * (p.fuelRhoKgL * (3785 / 1000)) := by
  refine ⟨?_, rfl, ?_⟩
  · show (pyDiv _ p.fuelRhoKgL >>= _) = _
    rw [pyDiv_ok _ h]
    show Except.ok _ = _
    congr 1
    simp only [FuelProps.setLhv, lPerGal]; field_simp
  · simp only [FuelProps.setLhv, lPerGal]; field_simp

/-- Reading the lower heating value and setting it again changes nothing. -/
theorem C13_lhv_back (p : FuelProps K) {v : K} (h : p.lhv = .ok v) : p.setLhv v = p := by
  have hr : p.fuelRhoKgL ≠ 0 := by
    intro h0; rw [FuelProps.lhv, pyDiv, if_pos h0] at h; exact absurd h (by intro h; cases h)
  rw [FuelProps.lhv, pyDiv_ok _ hr] at h
  have : p.kwhPerGge / lPerGal / p.fuelRhoKgL * 3600 = v := by
    have h' : (Except.ok (p.kwhPerGge / lPerGal / p.fuelRhoKgL * 3600) : Except PyErr K) = .ok v := h
    exact Except.ok.inj h'
  cases p with
  | mk a b =>
    simp only [FuelProps.setLhv, FuelProps.mk.injEq, and_true]
    rw [← this]; simp only [lPerGal] at *
    field_simp

theorem demo_lhv : (⟨337 / 10, 3 / 4⟩ : FuelProps ℚ).lhv = .ok (337 / 10 / (3785 / 1000) / (3 / 4) * 3600) := by
  decide +kernel

/-- Writing speeds in miles per hour and reading them back returns them; times, grades and road types stay. -/
theorem C13_mph (c : Cyc K) (new : List K) (h : new.length = c.length) :
    getMph (setMph c new) = new ∧ (setMph c new).map Sample.t = c.map Sample.t ∧
    (setMph c new).map Sample.g = c.map Sample.g ∧ (setMph c new).map Sample.r = c.map Sample.r := by
  have hk : (mphPerMps : K) ≠ 0 := by rw [mphPerMps]; positivity
  induction c generalizing new with
  | nil =>
    have : new = [] := List.eq_nil_of_length_eq_zero (by simpa using h)
    subst this; simp [setMph, getMph]
  | cons s c ih =>
    cases new with
    | nil => simp at h
    | cons x l =>
      have ih := ih l (by simpa using h)
      simp only [setMph, getMph] at ih ⊢
      simp only [List.zipWith_cons_cons, List.map_cons]
      refine ⟨?_, ?_, ?_, ?_⟩
      · rw [div_mul_cancel₀ _ hk]; exact congrArg _ ih.1
      · rw [ih.2.1]
      · rw [ih.2.2.1]
      · rw [ih.2.2.2]

/-- Reading the speeds in miles per hour and writing them back changes nothing. -/
theorem C13_mph_back (c : Cyc K) : setMph c (getMph c) = c := by
  have hk : (mphPerMps : K) ≠ 0 := by rw [mphPerMps]; positivity
  induction c with
  | nil => rfl
  | cons s c ih =>
    simp only [setMph, getMph, List.map_cons, List.zipWith_cons_cons] at ih ⊢
    rw [ih, mul_div_cancel_right₀ _ hk]

/-! ### Road load -/

/-- What can make the two road-load functions fail. -/
def _root_.Fastsim.Spec.GoodBody (veh : RoadLoadVeh K) (rho : K) : Prop :=
  veh.vehKg ≠ 0 ∧ veh.frontalAreaM2 ≠ 0 ∧ rho ≠ 0

theorem abc_eq (F : Fns K) (u : Option (K × K)) (veh : RoadLoadVeh K) {rho : K} (hr : ambientRho F u = .ok rho)
    (h : GoodBody veh rho) (a b c : K) :
    abcToDragCoeffs F u veh a b c = .ok
      (c * nPerLbf * mphPerMps * mphPerMps / (1 / 2 * veh.frontalAreaM2 * rho),
        a * nPerLbf / veh.vehKg / refGrav) := by
  have hg : (refGrav : K) ≠ 0 := by rw [refGrav]; positivity
  have h2 : (1 / 2 * veh.frontalAreaM2 * rho : K) ≠ 0 := mul_ne_zero (mul_ne_zero (by norm_num) h.2.1) h.2.2
  have e : abcToDragCoeffs F u veh a b c = (pyDiv (c * nPerLbf * mphPerMps * mphPerMps)
      (1 / 2 * veh.frontalAreaM2 * rho) >>= fun cd => pyDiv (a * nPerLbf) veh.vehKg >>= fun x =>
        pyDiv x refGrav >>= fun rr => .ok (cd, rr)) := by
    simp only [abcToDragCoeffs, hr]; rfl
  rw [e, pyDiv_ok _ h2, pyDiv_ok _ h.1]
  show (pyDiv _ refGrav >>= _) = _
  rw [pyDiv_ok _ hg]
  rfl

theorem toAbc_eq (F : Fns K) (u : Option (K × K)) (veh : RoadLoadVeh K) {rho : K} (hr : ambientRho F u = .ok rho) :
    dragCoeffsToAbc F u veh = .ok (veh.wheelRrCoef * veh.vehKg * refGrav / nPerLbf, 0,
      veh.dragCoef * (1 / 2 * veh.frontalAreaM2 * rho) / nPerLbf / mphPerMps / mphPerMps) := by
  simp only [dragCoeffsToAbc, hr]
  simp only [zero_div]
  rfl

/-- Converting a vehicle's coefficients to `A, B, C` and back returns them, whatever coefficients the
vehicle carried in between. -/
theorem C13_road_load_back (F : Fns K) (u : Option (K × K)) (veh : RoadLoadVeh K) {rho : K}
    (hr : ambientRho F u = .ok rho) (h : GoodBody veh rho) (cd' rr' : K) :
    ∃ a b c, dragCoeffsToAbc F u veh = .ok (a, b, c) ∧
      abcToDragCoeffs F u (veh.withCoeffs (cd', rr')) a b c = .ok (veh.dragCoef, veh.wheelRrCoef) := by
  have hn : (nPerLbf : K) ≠ 0 := by rw [nPerLbf]; positivity
  have hm : (mphPerMps : K) ≠ 0 := by rw [mphPerMps]; positivity
  have hg : (refGrav : K) ≠ 0 := by rw [refGrav]; positivity
  obtain ⟨h1, h2, h3⟩ := h
  refine ⟨_, _, _, toAbc_eq F u veh hr, ?_⟩
  rw [abc_eq F u (veh.withCoeffs (cd', rr')) hr ⟨h1, h2, h3⟩]
  simp only [RoadLoadVeh.withCoeffs]
  congr 2 <;> field_simp

/-- Fitting coefficients to `A, B, C` and converting them back returns `A` and `C`; `B` is dropped. -/
theorem C13_abc_back (F : Fns K) (u : Option (K × K)) (veh : RoadLoadVeh K) {rho : K}
    (hr : ambientRho F u = .ok rho) (h : GoodBody veh rho) (a b c : K) :
    ∃ p, abcToDragCoeffs F u veh a b c = .ok p ∧ dragCoeffsToAbc F u (veh.withCoeffs p) = .ok (a, 0, c) := by
  have hn : (nPerLbf : K) ≠ 0 := by rw [nPerLbf]; positivity
  have hm : (mphPerMps : K) ≠ 0 := by rw [mphPerMps]; positivity
  have hg : (refGrav : K) ≠ 0 := by rw [refGrav]; positivity
  obtain ⟨h1, h2, h3⟩ := h
  refine ⟨_, abc_eq F u veh hr ⟨h1, h2, h3⟩ a b c, ?_⟩
  rw [toAbc_eq F u _ hr]
  simp only [RoadLoadVeh.withCoeffs]
  congr 2
  · field_simp
  · congr 1; field_simp

/-- The road load of the vehicle in newtons on a level road at `v` metres per second: rolling resistance plus
air drag. -/
def _root_.Fastsim.Spec.roadLoadN (veh : RoadLoadVeh K) (rho v : K) : K :=
  veh.vehKg * (981 / 100) * veh.wheelRrCoef + rho * veh.frontalAreaM2 * veh.dragCoef * v ^ 2 / 2

/-- The coefficients returned describe the road load at every speed, in pounds of 4.448 newtons against
speed in miles per hour. -/
theorem C13_road_load (F : Fns K) (u : Option (K × K)) (veh : RoadLoadVeh K) {rho a b c : K}
    (hr : ambientRho F u = .ok rho) (h : dragCoeffsToAbc F u veh = .ok (a, b, c)) (v : K) :
    (a + b * (v * mphPerMps) + c * (v * mphPerMps) ^ 2) * (4448 / 1000) = roadLoadN veh rho v := by
  have hm : (mphPerMps : K) ≠ 0 := by rw [mphPerMps]; positivity
  rw [toAbc_eq F u veh hr] at h
  simp only [Except.ok.injEq, Prod.mk.injEq] at h
  obtain ⟨rfl, rfl, rfl⟩ := h
  simp only [roadLoadN, nPerLbf, refGrav]
  field_simp
  ring

/-- Coefficients fitted to `A, B, C` reproduce the target road load at every speed up to the term in `B`. -/
theorem C13_fit (F : Fns K) (u : Option (K × K)) (veh : RoadLoadVeh K) {rho : K} {p : K × K}
    (hr : ambientRho F u = .ok rho) (h : GoodBody veh rho) (a b c : K)
    (hp : abcToDragCoeffs F u veh a b c = .ok p) (v : K) :
    roadLoadN (veh.withCoeffs p) rho v =
      (a + b * (v * mphPerMps) + c * (v * mphPerMps) ^ 2) * (4448 / 1000) - b * (v * mphPerMps) * (4448 / 1000) := by
  obtain ⟨q, hq, hback⟩ := C13_abc_back F u veh hr h a b c
  rw [hp] at hq; cases hq
  rw [← C13_road_load F u _ hr hback v]; ring

/-- Without a custom density the density of 1.2 kg/m³ is used, which meets the conditions above. -/
theorem demo_road_load (F : Fns ℚ) :
    ambientRho F none = .ok (12 / 10) ∧ GoodBody (⟨1500, 2, 3 / 10, 1 / 100⟩ : RoadLoadVeh ℚ) (12 / 10) := by
  refine ⟨rfl, ?_, ?_, ?_⟩ <;> norm_num

/-- The air density of `get_rho_air` obeys the gas law: at one elevation, density times absolute temperature is
the same for all temperatures. -/
theorem C13_gas_law (F : Fns K) {t t' h r r' : K} (hr : getRhoAir F t h = .ok r) (hr' : getRhoAir F t' h = .ok r') :
    r * (t + 27315 / 100) = r' * (t' + 27315 / 100) := by
  have key : ∀ {t r : K}, getRhoAir F t h = .ok r → r * (t + 27315 / 100) =
      101290 * F.pow ((1504 / 100 - 649 / 100000 * h + 2731 / 10) / (28808 / 100)) (5256 / 1000) / 287 := by
    intro t r hr
    simp only [getRhoAir, pyDiv] at hr
    split at hr
    · cases hr
    · rename_i hne
      cases hr
      have : t + 27315 / 100 ≠ 0 := fun h0 => hne (by rw [h0, mul_zero])
      generalize F.pow _ _ = q
      generalize t + 27315 / 100 = w at this ⊢
      field_simp
  rw [key hr, key hr']

/-- Air is thinner higher up, provided `**` with the exponent 5.256 increases. -/
theorem C13_thin_air (F : Fns K) (hpow : ∀ x y : K, 0 ≤ x → x < y → F.pow x (5256 / 1000) < F.pow y (5256 / 1000))
    {t h h' r r' : K} (ht : -27315 / 100 < t) (hh : h < h') (hh' : h' ≤ 44000) (hr : getRhoAir F t h = .ok r)
    (hr' : getRhoAir F t h' = .ok r') : r' < r := by
  have hT : (0 : K) < 287 * (t + 27315 / 100) := by
    have : 0 < t + 27315 / 100 := by linarith [show (-27315 / 100 : K) = -(27315 / 100) by ring]
    positivity
  simp only [getRhoAir, pyDiv_ok _ hT.ne', Except.ok.injEq] at hr hr'
  rw [← hr, ← hr']
  apply div_lt_div_of_pos_right _ hT
  apply mul_lt_mul_of_pos_left _ (by norm_num)
  apply hpow
  · apply div_nonneg _ (by norm_num)
    have : (649 / 100000 : K) * h' ≤ 649 / 100000 * 44000 := mul_le_mul_of_nonneg_left hh' (by norm_num)
    norm_num at this ⊢; linarith
  · apply div_lt_div_of_pos_right _ (by norm_num)
    have : (649 / 100000 : K) * h < 649 / 100000 * h' := mul_lt_mul_of_pos_left hh (by norm_num)
    linarith

/-- The real power function is such a `**`, and the densities exist. -/
theorem demo_thin_air (F : Fns ℝ) :
    let G : Fns ℝ := { F with pow := fun x y => x ^ y }
    (∀ x y : ℝ, 0 ≤ x → x < y → G.pow x (5256 / 1000) < G.pow y (5256 / 1000)) ∧
    (∃ r, getRhoAir G 20 180 = .ok r) ∧ ∃ r, getRhoAir G 20 1600 = .ok r := by
  refine ⟨fun x y h1 h2 => Real.rpow_lt_rpow h1 h2 (by norm_num), ⟨_, pyDiv_ok _ (by norm_num)⟩,
    ⟨_, pyDiv_ok _ (by norm_num)⟩⟩

/-! ### Tire radius -/

/-- Length of a unit in millimetres: an inch is 25.4 mm and a foot twelve inches. -/
def _root_.Fastsim.Spec.unitMm : LenUnit → K
  | .m => 1000
  | .cm => 10
  | .mm => 1
  | .ft => 254 / 10 * 12
  | .inch => 254 / 10
  | .other => 0

/-- In whatever unit it is returned, the radius is half the rim diameter plus the sidewall, whose height is the
given percentage of the width. Unknown units raise `ValueError`. -/
theorem C13_tire (w a d : K) (u : LenUnit) :
    (u = .other ∧ tireRadius w a d u = .error .valueError) ∨
    ∃ r, tireRadius w a d u = .ok r ∧ r * unitMm u = d * unitMm .inch / 2 + w * (a / 100) := by
  cases u
  case other => exact Or.inl ⟨rfl, rfl⟩
  all_goals
    right
    refine ⟨_, rfl, ?_⟩
    simp only [unitMm]; field_simp; try ring

/-- The first example of the docstring. -/
theorem demo_tire : tireRadius (205 : ℚ) 60 16 .m = .ok (3262 / 10000) := by decide +kernel

end Fastsim.Props
