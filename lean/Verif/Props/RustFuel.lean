import Verif.Model.RsFuel
import Verif.Model.Units
import Verif.Props.RustHeatDemo
import Verif.Props.RustExhaust

/-!
# C13: the heating value of the fuel in the Rust core
-/

set_option linter.unusedSectionVars false

namespace Fastsim.Props
open Fastsim Spec

section Field
variable {K : Type*} [Field K] [LinearOrder K] [IsStrictOrderedRing K]
variable {F : Fns K} {T : VehThrm K} {V : Veh K} {P : SimParams K}

/-- **C13 (heating value of the Rust core).** Setting and then getting the heating value returns the value set and leaves density and
air-fuel ratio; setting the value that is there changes nothing. -/
theorem C13_lhv_rust (C : HotConsts K) (h : C.fuelRho ≠ 0) (x : K) :
    fuelLhv (C.setFuelLhv x) = x ∧ (C.setFuelLhv x).fuelRho = C.fuelRho ∧ (C.setFuelLhv x).fuelAfrStoich = C.fuelAfrStoich ∧
    C.setFuelLhv (fuelLhv C) = C := by
  have hd : (dec 3785 1000 : K) ≠ 0 := by unfold dec; norm_num
  refine ⟨?_, rfl, rfl, ?_⟩
  · simp only [fuelLhv, HotConsts.setFuelLhv]; field_simp
  · have e : fuelLhv C * dec 3785 1000 * C.fuelRho / 3600 = C.kwhPerGge := by
      simp only [fuelLhv]; field_simp
    simp only [HotConsts.setFuelLhv, e]

/-- **C13 (Rust and Python).** Both versions have the same heating value, and setting it gives both the same energy of a gallon. -/
theorem C13_lhv_same (C : HotConsts K) (p : FuelProps K) (h : p.fuelRhoKgL ≠ 0) (hg : p.kwhPerGge = C.kwhPerGge)
    (hr : p.fuelRhoKgL = C.fuelRho) (x : K) :
    p.lhv = .ok (fuelLhv C) ∧ (p.setLhv x).kwhPerGge = (C.setFuelLhv x).kwhPerGge := by
  have hl : (lPerGal : K) = dec 3785 1000 := by unfold lPerGal dec; norm_num
  constructor
  · have e : pyDiv (p.kwhPerGge / lPerGal) p.fuelRhoKgL = .ok (p.kwhPerGge / lPerGal / p.fuelRhoKgL) := by
      rw [pyDiv, if_neg h]
    show (pyDiv (p.kwhPerGge / lPerGal) p.fuelRhoKgL >>= fun x => .ok (x * 3600)) = _
    rw [e, hl, hg, hr]
    rfl
  · show x * lPerGal * p.fuelRhoKgL / 3600 = x * dec 3785 1000 * C.fuelRho / 3600
    rw [hl, hr]

/-- **C13 (exhaust of a fuel).** In a thermal simulation whose heating value was set to `x`, the exhaust flow times `x` is the fuel
power of the step before times the mass of fuel and air for each mass of fuel. -/
theorem C13_lhv_exhaust {C : HotConsts K} {x : K} {h f : Hot K} {soc : K} {aux : Option (List K)} {i : Nat} {s s' : Thermal K}
    (hr : C.fuelRho ≠ 0) (hx : x ≠ 0) (w : Walks F (C.setFuelLhv x) T V P h soc aux f) (st : Steps h f i s s')
    (hp : T.exhportInternal = true) :
    s'.exhMdot * x = (lastRow f i).fc.fsKwOutAch * (1 + C.fuelAfrStoich * s.fcLambda) := by
  have e := (C105_exhaust w st hp).1
  rw [(C13_lhv_rust C hr x).1] at e
  rw [e]
  show _ / x * (1 + C.fuelAfrStoich * s.fcLambda) * x = _
  field_simp

end Field

namespace FuelDemo
open Fastsim.Demo

/-- **C13 (case).** A drive with the heating value set to 40000 kJ/kg has an exhaust flow. -/
theorem C13_demo_rust : hotConsts.fuelRho ≠ 0 ∧
    (match hotWalk hotFns (hotConsts.setFuelLhv 40000) fullCar conv params (warmStart false 24) (1 / 2) none with
      | .ok f => decide (f.history.length = 6 ∧ ∃ s ∈ f.history, 1 / 2000 < s.exhMdot)
      | .error _ => false) = true := by
  constructor <;> decide +kernel

end FuelDemo
end Fastsim.Props
