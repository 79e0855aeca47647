import Verif.Props.RustExhaust

/-!
# C105: cases
-/

set_option linter.unusedSectionVars false

namespace Fastsim.Props
open Fastsim Spec

section Demo
open Fastsim.Demo

/-- A vehicle with all four models, and a small cabin. -/
def fullCar : VehThrm ℚ := { VehThrm.default with exhportInternal := true, catInternal := true, cabCKjK := 20 }

/-- The default climate control, with or without the heat of the engine. -/
def climate (waste : Bool) : Hvac ℚ := { Hvac.default with useFcWasteHeat := waste }

/-- A thermal simulation at 20 °C with the engine at 60 °C, the port at 70 °C, the catalyst at 50 °C and the cabin at `cab`. -/
def warmStart (waste : Bool) (cab : ℚ) : Hot ℚ :=
  { hotStart 60 with
    state := Thermal.make (some 20) (some 60) (some cab) (some 70) (some 50), hvac := some (climate waste) }

/-- The entries of the history of a walk, with those that follow. -/
def pairs (f : Hot ℚ) : List (Thermal ℚ × Thermal ℚ) := f.history.zip f.history.tail

/-- The settings of the theorems are met: the drive completes with all four models in cooling and in heating, the steps have
positive duration, engine, exhaust and catalyst get heat, and a port between engine and exhaust temperature stays there. -/
theorem C105_demo : WarmCar hotFns hotConsts fullCar ∧ (warmStart true 10).hvac = some (climate true) ∧
    (match hotWalk hotFns hotConsts fullCar conv params (warmStart false 24) (1 / 2) none with
      | .ok f => decide (f.history.length = 6 ∧ (∀ i ∈ List.range' 1 5, 0 < stepDt f i) ∧
          (∀ p ∈ pairs f, 23 < p.1.cabTe ∧ p.2.cabTe < p.1.cabTe ∧ p.2.cabQdotFromHvacKw < 0 ∧ 0 < p.2.cabHvacPwrAuxKw ∧
            0 < p.2.fcQdotToAmbKw ∧ 0 ≤ p.2.exhMdot) ∧
          (∀ p ∈ (pairs f).tail, 0 < p.2.fcQdotKw ∧ 0 < p.2.exhHdotKw ∧ 1 / 2000 < p.2.exhMdot ∧
            p.1.fcTe ≤ p.1.exhportTe ∧ p.1.exhportTe ≤ p.2.exhportExhTeIn ∧ p.1.exhportTe < p.2.exhportTe))
      | .error _ => false) = true ∧
    (match hotWalk hotFns hotConsts fullCar conv params (warmStart true 10) (1 / 2) none with
      | .ok f => decide (∀ p ∈ pairs f, p.1.cabTe < 21 ∧ p.1.cabTe < p.2.cabTe ∧ 0 < p.2.fcQdotToHtrKw ∧
          p.2.fcQdotToHtrKw = p.2.cabQdotFromHvacKw ∧ p.2.cabHvacPwrAuxKw = 0)
      | .error _ => false) = true := by
  refine ⟨⟨?_, by decide +kernel, by decide +kernel, by decide +kernel, by decide +kernel, by decide +kernel⟩, rfl,
    by decide +kernel⟩
  intro x y _
  show (0 : ℚ) ≤ if x = 1 then 1 else 100
  split <;> norm_num

/-- **C105 (found: load inside the deadband).** A cabin that cools into the deadband draws the load of the last cooling step in all
the steps that follow, without getting any cooling for it: the loads of the vehicle have it. -/
theorem C105_deadband_demo :
    (match hotWalk hotFns hotConsts fullCar conv params
        { warmStart false (231 / 10) with hvac := some { climate false with pPerDegC := 5 } } (1 / 2) none with
      | .ok f => decide ((∀ p ∈ (pairs f).tail, 21 ≤ p.1.cabTe ∧ p.1.cabTe ≤ 23 ∧ p.2.cabQdotFromHvacKw = 0 ∧
            0 < p.2.cabHvacPwrAuxKw ∧ p.2.cabHvacPwrAuxKw = p.1.cabHvacPwrAuxKw) ∧
          ∀ i ∈ List.range' 2 4, f.sd.aux.getD i 0 =
            ((f.history.map Thermal.cabHvacPwrAuxKw).getD 1 0) + conv.auxKw)
      | .error _ => false) = true := by
  decide +kernel

/-- **C105 (found: a light catalyst).** The flow from the exhaust into a catalyst is limited with the thermal mass of the cabin: a
light catalyst becomes hotter than the exhaust that heats it. And the limits are for one flow at a time: both together cool it
below absolute zero. -/
theorem C105_catalyst_demo :
    (match hotWalk hotFns hotConsts { fullCar with catCKjK := 1 / 1000 } conv params (warmStart false 24) (1 / 2) none with
      | .ok f => decide ((∃ p ∈ pairs f, p.1.catTe < p.2.catExhTeIn ∧ p.2.catExhTeIn < p.2.catTe) ∧
          ∃ s ∈ f.history, s.catTe < -274)
      | .error _ => false) = true := by
  decide +kernel

/-- **C105 (found: a soak burns the fuel again).** After the drive the soak makes the engine warmer than it was, although the air is
colder and the engine is off. -/
theorem C105_soak_demo :
    (match hotWalk hotFns hotConsts fullCar conv params (warmStart false 24) (1 / 2) none with
      | .ok f =>
        match thermalSoakWalk hotFns hotConsts fullCar conv f with
        | .ok k => decide (f.state.ambTe < f.state.fcTe ∧ f.state.fcTe < k.state.fcTe ∧ k.sd.rows.length = 6)
        | .error _ => false
      | .error _ => false) = true := by
  decide +kernel

end Demo
end Fastsim.Props
