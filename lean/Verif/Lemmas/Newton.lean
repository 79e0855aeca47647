import Verif.Model.Step
import Mathlib.Logic.Function.Iterate
import Mathlib.Data.List.Basic

/-!
# The Newton loop of `set_ach_speed` as an iteration
-/

set_option linter.unusedSectionVars false

namespace Fastsim

section Lawless
variable {K : Type*} [Zero K] [One K] [NatCast K] [Add K] [Sub K] [Mul K] [Div K] [Neg K]
  [LinearOrder K]

namespace Spec

/-- One damped Newton update with gain `g` for the function `f` with derivative `f'`, evaluated in
the order of operations the code uses. -/
def newtonNext (f f' : K → K) (g x : K) : K := x * (1 - g) - g * (f x - x * f' x) / f' x

/-- Relative change of the iterate made at `x`. -/
def newtonChange (f f' : K → K) (g x : K) : K := pabs ((newtonNext f f' g x - x) / x)

end Spec
open Spec

theorem newtonLoop_succ (t3 t2 t1 t0 xtol g : K) (fuel it : Nat) (x : K) (xs : List K) :
    newtonLoop t3 t2 t1 t0 xtol g (fuel + 1) it (x :: xs) =
      if newtonChange (cubic t3 t2 t1 t0) (cubicD t3 t2 t1) g x < xtol then
        (it + 1, newtonNext (cubic t3 t2 t1 t0) (cubicD t3 t2 t1) g x :: x :: xs)
      else newtonLoop t3 t2 t1 t0 xtol g fuel (it + 1)
        (newtonNext (cubic t3 t2 t1 t0) (cubicD t3 t2 t1) g x :: x :: xs) := rfl

theorem newtonLoop_spec (t3 t2 t1 t0 xtol g : K) :
    ∀ (fuel it : Nat) (x : K) (xs : List K), ∃ n, n ≤ fuel ∧
      (newtonLoop t3 t2 t1 t0 xtol g fuel it (x :: xs)).1 = it + n ∧
      (newtonLoop t3 t2 t1 t0 xtol g fuel it (x :: xs)).2.reverse = xs.reverse ++
        (List.range (n + 1)).map
          (fun k => (newtonNext (cubic t3 t2 t1 t0) (cubicD t3 t2 t1) g)^[k] x) ∧
      (n = fuel ∨ ∃ k, n = k + 1 ∧ newtonChange (cubic t3 t2 t1 t0) (cubicD t3 t2 t1) g
        ((newtonNext (cubic t3 t2 t1 t0) (cubicD t3 t2 t1) g)^[k] x) < xtol) ∧
      ∀ k, k + 1 < n → ¬ newtonChange (cubic t3 t2 t1 t0) (cubicD t3 t2 t1) g
        ((newtonNext (cubic t3 t2 t1 t0) (cubicD t3 t2 t1) g)^[k] x) < xtol
  | 0, it, x, xs => ⟨0, le_rfl, rfl, by simp [newtonLoop], Or.inl rfl, fun k hk => by omega⟩
  | fuel + 1, it, x, xs => by
    by_cases hc : newtonChange (cubic t3 t2 t1 t0) (cubicD t3 t2 t1) g x < xtol
    · refine ⟨1, by omega, ?_, ?_, Or.inr ⟨0, rfl, hc⟩, fun k hk => by omega⟩
      · rw [newtonLoop_succ, if_pos hc]
      · rw [newtonLoop_succ, if_pos hc]
        simp [List.range_succ]
    · obtain ⟨n, h1, h2, h3, h4, h5⟩ := newtonLoop_spec t3 t2 t1 t0 xtol g fuel (it + 1)
        (newtonNext (cubic t3 t2 t1 t0) (cubicD t3 t2 t1) g x) (x :: xs)
      have he : newtonLoop t3 t2 t1 t0 xtol g (fuel + 1) it (x :: xs) =
          newtonLoop t3 t2 t1 t0 xtol g fuel (it + 1)
            (newtonNext (cubic t3 t2 t1 t0) (cubicD t3 t2 t1) g x :: x :: xs) := by
        rw [newtonLoop_succ, if_neg hc]
      refine ⟨n + 1, by omega, ?_, ?_, ?_, ?_⟩
      · rw [he, h2]; omega
      · rw [he, h3, List.range_succ_eq_map (n := n + 1)]
        simp [Function.iterate_succ_apply]
      · rcases h4 with h4 | ⟨k, h4, h6⟩
        · exact Or.inl (by omega)
        · exact Or.inr ⟨k + 1, by omega, by rw [Function.iterate_succ_apply]; exact h6⟩
      · intro k hk
        cases k with
        | zero => exact hc
        | succ k => rw [Function.iterate_succ_apply]; exact h5 k (by omega)

theorem argminBy_spec (f : K → K) : ∀ (l : List K) (best : K),
    argminBy f l best ∈ best :: l ∧ ∀ y ∈ best :: l, f (argminBy f l best) ≤ f y
  | [], best => by simp [argminBy]
  | x :: xs, best => by
    unfold argminBy
    split
    · rename_i hlt
      obtain ⟨h1, h2⟩ := argminBy_spec f xs x
      refine ⟨List.mem_cons_of_mem _ h1, ?_⟩
      intro y hy
      rcases List.mem_cons.1 hy with rfl | hy
      · exact (h2 x (by simp)).trans hlt.le
      · exact h2 y hy
    · rename_i hge
      obtain ⟨h1, h2⟩ := argminBy_spec f xs best
      refine ⟨?_, ?_⟩
      · rcases List.mem_cons.1 h1 with h | h
        · rw [h]; simp
        · exact List.mem_cons_of_mem _ (List.mem_cons_of_mem _ h)
      · intro y hy
        rcases List.mem_cons.1 hy with rfl | hy
        · exact h2 y (by simp)
        · rcases List.mem_cons.1 hy with rfl | hy
          · exact (h2 best (by simp)).trans (not_lt.1 hge)
          · exact h2 y (List.mem_cons_of_mem _ hy)

/-- Everything `newton_mps_estimate` promises. -/
theorem newtonMps_spec (P : StepParams K) (v0 t3 t2 t1 t0 : K) :
    ∃ n, (newtonMps P v0 t3 t2 t1 t0).1 = n + 1 ∧ n ≤ P.newtonMaxIter - 1 ∧
      (n = P.newtonMaxIter - 1 ∨ ∃ k, n = k + 1 ∧
        newtonChange (cubic t3 t2 t1 t0) (cubicD t3 t2 t1) P.newtonGain
        ((newtonNext (cubic t3 t2 t1 t0) (cubicD t3 t2 t1) P.newtonGain)^[k] (max 1 v0))
          < P.newtonXtol) ∧
      (∀ k, k + 1 < n → ¬ newtonChange (cubic t3 t2 t1 t0) (cubicD t3 t2 t1) P.newtonGain
        ((newtonNext (cubic t3 t2 t1 t0) (cubicD t3 t2 t1) P.newtonGain)^[k] (max 1 v0))
          < P.newtonXtol) ∧
      ∃ k ≤ n, (newtonMps P v0 t3 t2 t1 t0).2 =
          max ((newtonNext (cubic t3 t2 t1 t0) (cubicD t3 t2 t1) P.newtonGain)^[k] (max 1 v0)) 0 ∧
        ∀ j ≤ n, pabs (cubic t3 t2 t1 t0
            ((newtonNext (cubic t3 t2 t1 t0) (cubicD t3 t2 t1) P.newtonGain)^[k] (max 1 v0))) ≤
          pabs (cubic t3 t2 t1 t0
            ((newtonNext (cubic t3 t2 t1 t0) (cubicD t3 t2 t1) P.newtonGain)^[j] (max 1 v0))) := by
  obtain ⟨n, h1, h2, h3, h4, h5⟩ := newtonLoop_spec t3 t2 t1 t0 P.newtonXtol P.newtonGain
    (P.newtonMaxIter - 1) 1 (max 1 v0) []
  refine ⟨n, by unfold newtonMps; simp only; rw [h2]; omega, h1, h4, h5, ?_⟩
  obtain ⟨h6, h7⟩ := argminBy_spec (fun x => pabs (cubic t3 t2 t1 t0 x))
    (newtonLoop t3 t2 t1 t0 P.newtonXtol P.newtonGain (P.newtonMaxIter - 1) 1
      [max 1 v0]).2.reverse.tail (max 1 v0)
  have hl : (max 1 v0) :: (newtonLoop t3 t2 t1 t0 P.newtonXtol P.newtonGain (P.newtonMaxIter - 1) 1
      [max 1 v0]).2.reverse.tail = (List.range (n + 1)).map
          (fun k => (newtonNext (cubic t3 t2 t1 t0) (cubicD t3 t2 t1) P.newtonGain)^[k]
            (max 1 v0)) := by
    rw [h3]
    simp [List.range_succ_eq_map]
  rw [hl] at h6 h7
  obtain ⟨k, hk, hk'⟩ := List.mem_map.1 h6
  refine ⟨k, by have := List.mem_range.1 hk; omega, ?_, ?_⟩
  · unfold newtonMps; simp only; rw [← hk']
  · intro j hj
    rw [hk']
    exact h7 _ (List.mem_map.2 ⟨j, List.mem_range.2 (by omega), rfl⟩)

theorem newtonMps_nonneg (P : StepParams K) (v0 t3 t2 t1 t0 : K) :
    0 ≤ (newtonMps P v0 t3 t2 t1 t0).2 := le_max_right _ _

/-- The grade iteration returns the Newton estimate for some grade, namely the estimate or a grade
looked up along the way. -/
theorem gradeLoop_spec (F : Fns K) (V : Veh K) (P : StepParams K) (E : StepEnv K) (v0 maxOut : K) :
    ∀ (fuel : Nat) (grade : K) (r : Nat × K), 0 < fuel →
      ∃ g, (g = grade ∨ ∃ v, g = E.gradeOf v) ∧ gradeLoop F V P E v0 maxOut fuel grade r =
        newtonMps P v0 (speedCoeffs F V P E.dt v0 maxOut g).1 (speedCoeffs F V P E.dt v0 maxOut g).2.1
          (speedCoeffs F V P E.dt v0 maxOut g).2.2.1 (speedCoeffs F V P E.dt v0 maxOut g).2.2.2
  | 0, _, _, h => absurd h (by simp)
  | fuel + 1, grade, r, _ => by
    unfold gradeLoop
    simp only
    split
    · cases fuel with
      | zero => exact ⟨grade, Or.inl rfl, by simp [gradeLoop]⟩
      | succ fuel =>
        obtain ⟨g, hg, he⟩ := gradeLoop_spec F V P E v0 maxOut (fuel + 1) _ _ (by omega)
        exact ⟨g, Or.inr (hg.elim (fun h => ⟨_, h⟩) id), he⟩
    · exact ⟨grade, Or.inl rfl, rfl⟩

theorem gradeLoop_nonneg (F : Fns K) (V : Veh K) (P : StepParams K) (E : StepEnv K) (v0 maxOut : K)
    (grade : K) (r : Nat × K) : 0 ≤ (gradeLoop F V P E v0 maxOut 3 grade r).2 := by
  obtain ⟨g, -, he⟩ := gradeLoop_spec F V P E v0 maxOut 3 grade r (by omega)
  rw [he]; exact newtonMps_nonneg _ _ _ _ _ _

end Lawless
end Fastsim

namespace Fastsim
section Lawless
variable {K : Type*} [Zero K] [One K] [NatCast K] [Add K] [Sub K] [Mul K] [Div K] [Neg K]
  [LinearOrder K]

namespace Spec

/-- `(iters, v)` is an admissible answer of a damped Newton search for a zero of `f`: the search
starts at `max 1 v0`, makes `iters - 1` updates, at most `maxIter - 1`, stops at the first relative
change below `xtol`, and answers the iterate with the smallest residual, cut off at zero. -/
def NewtonAnswer (f f' : K → K) (maxIter : Nat) (xtol g v0 : K) (iters : Nat) (v : K) : Prop :=
  ∃ n, iters = n + 1 ∧ n ≤ maxIter - 1 ∧
    (n = maxIter - 1 ∨ ∃ k, n = k + 1 ∧ newtonChange f f' g ((newtonNext f f' g)^[k] (max 1 v0)) < xtol)
    ∧ (∀ k, k + 1 < n → ¬ newtonChange f f' g ((newtonNext f f' g)^[k] (max 1 v0)) < xtol) ∧
    ∃ k ≤ n, v = max ((newtonNext f f' g)^[k] (max 1 v0)) 0 ∧
      ∀ j ≤ n, pabs (f ((newtonNext f f' g)^[k] (max 1 v0))) ≤
        pabs (f ((newtonNext f f' g)^[j] (max 1 v0)))

end Spec

theorem newtonMps_answer (P : StepParams K) (v0 t3 t2 t1 t0 : K) :
    Spec.NewtonAnswer (cubic t3 t2 t1 t0) (cubicD t3 t2 t1) P.newtonMaxIter P.newtonXtol P.newtonGain v0
      (newtonMps P v0 t3 t2 t1 t0).1 (newtonMps P v0 t3 t2 t1 t0).2 := newtonMps_spec P v0 t3 t2 t1 t0

end Lawless
end Fastsim
