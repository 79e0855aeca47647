import Verif.Spec.Cycle
import Mathlib.Tactic.Ring
import Mathlib.Tactic.Linarith
import Mathlib.Algebra.BigOperators.Group.List.Basic
import Mathlib.Algebra.Order.BigOperators.Group.List

set_option linter.unusedSectionVars false
set_option linter.unusedVariables false
set_option linter.unusedSimpArgs false

namespace Fastsim
open Spec

theorem zipWith_take_left {α β γ : Type*} (f : α → β → γ) :
    ∀ (n : Nat) (l : List α) (m : List β), m.length ≤ n →
      List.zipWith f (l.take n) m = List.zipWith f l m
  | 0, l, m, h => by
    have : m = [] := by simpa using h
    simp [this]
  | n + 1, [], m, h => by simp
  | n + 1, a :: l, [], h => by simp
  | n + 1, a :: l, b :: m, h => by
    simp only [List.take_succ_cons, List.zipWith_cons_cons]
    rw [zipWith_take_left f n l m (by simpa using h)]

section
variable {K : Type*} [Field K] [LinearOrder K]

theorem foldl_add_eq (l : List K) (s : K) : l.foldl (· + ·) s = s + l.sum := by
  induction l generalizing s with
  | nil => simp
  | cons a l ih => simp [ih, add_assoc]

theorem npSum_eq (l : List K) : npSum l = l.sum := by
  simp [npSum, foldl_add_eq]

theorem cumsumFrom_length (s : K) (l : List K) : (cumsumFrom s l).length = l.length := by
  induction l generalizing s with
  | nil => rfl
  | cons a l ih => simp [cumsumFrom, ih]

theorem cumsumFrom_get (s : K) (l : List K) (i : Nat) (h : i < l.length) :
    (cumsumFrom s l)[i]? = some (s + (l.take (i + 1)).sum) := by
  induction l generalizing s i with
  | nil => simp at h
  | cons a l ih =>
    cases i with
    | zero => simp [cumsumFrom]
    | succ i =>
      simp only [cumsumFrom, List.getElem?_cons_succ, List.take_succ_cons, List.sum_cons]
      rw [ih _ _ (by simpa using h), add_assoc]

theorem cumsum_length (l : List K) : (cumsum l).length = l.length := cumsumFrom_length 0 l

theorem cumsum_get (l : List K) (i : Nat) (h : i < l.length) :
    (cumsum l)[i]? = some ((l.take (i + 1)).sum) := by
  rw [cumsum, cumsumFrom_get 0 l i h, zero_add]

/-- Step distances after a first sample. -/
def stepsFrom (s : Sample K) : Cyc K → List K
  | [] => []
  | b :: l => (1 / 2 * (b.v + s.v) * (b.t - s.t)) :: stepsFrom b l

theorem stepsFrom_length (s : Sample K) (l : Cyc K) : (stepsFrom s l).length = l.length := by
  induction l generalizing s with
  | nil => rfl
  | cons a l ih => simp [stepsFrom, ih]

theorem zip_steps (s : Sample K) (l : Cyc K) :
    List.zipWith (· * ·)
      (List.zipWith (fun b a : K => 1 / 2 * (b + a)) (Cyc.speeds (s :: l)).tail (Cyc.speeds (s :: l)))
      (diff (Cyc.times (s :: l))) = stepsFrom s l := by
  induction l generalizing s with
  | nil => simp [Cyc.speeds, Cyc.times, diff, stepsFrom]
  | cons b l ih =>
    have := ih b
    simp only [Cyc.speeds, Cyc.times, List.map_cons, List.tail_cons, List.zipWith_cons_cons, diff,
      stepsFrom] at this ⊢
    rw [this]

theorem trapzStepDistances_nil : trapzStepDistances ([] : Cyc K) = [] := by
  simp [trapzStepDistances, dtS, Cyc.times, diff]

theorem trapzStepDistances_cons (s : Sample K) (l : Cyc K) :
    trapzStepDistances (s :: l) = 0 :: stepsFrom s l := by
  have h := zip_steps s l
  simp only [trapzStepDistances, averageStepSpeeds, dtS]
  show List.zipWith _ (0 :: _) ((s.t - 0) :: diff (Cyc.times (s :: l))) = _
  simp only [List.zipWith_cons_cons, zero_mul]
  rw [h]

theorem trapzStepDistances_length (c : Cyc K) : (trapzStepDistances c).length = c.length := by
  cases c with
  | nil => simp [trapzStepDistances_nil]
  | cons s l => simp [trapzStepDistances_cons, stepsFrom_length]

theorem stepsFrom_sum (s : Sample K) (l : Cyc K) : (stepsFrom s l).sum = distance (s :: l) := by
  induction l generalizing s with
  | nil => simp [stepsFrom, distance]
  | cons b l ih =>
    simp only [stepsFrom, List.sum_cons, distance, ih]
    ring

theorem stepsFrom_take (s : Sample K) (l : Cyc K) (i : Nat) :
    (stepsFrom s l).take i = stepsFrom s (l.take i) := by
  induction l generalizing s i with
  | nil => simp [stepsFrom]
  | cons b l ih => cases i with
    | zero => simp [stepsFrom]
    | succ i => simp [stepsFrom, ih]

theorem trapzStepDistances_take (c : Cyc K) (i : Nat) :
    (trapzStepDistances c).take i = trapzStepDistances (c.take i) := by
  cases c with
  | nil => simp [trapzStepDistances_nil]
  | cons s l => cases i with
    | zero => simp [trapzStepDistances_nil]
    | succ i => simp [trapzStepDistances_cons, stepsFrom_take]

theorem trapzStepDistances_sum (c : Cyc K) : (trapzStepDistances c).sum = distance c := by
  cases c with
  | nil => simp [trapzStepDistances_nil, distance]
  | cons s l => simp [trapzStepDistances_cons, stepsFrom_sum]

theorem trapzDistances_length (c : Cyc K) : (trapzDistances c).length = c.length := by
  simp [trapzDistances, cumsum_length, trapzStepDistances_length]

theorem trapzDistances_get (c : Cyc K) (i : Nat) (h : i < c.length) :
    (trapzDistances c)[i]? = some (distance (c.take (i + 1))) := by
  rw [trapzDistances, cumsum_get _ _ (by simpa [trapzStepDistances_length] using h),
    trapzStepDistances_take, trapzStepDistances_sum]

theorem trapzStepStartDistance_eq (c : Cyc K) (i : Nat) :
    trapzStepStartDistance c i = distance (c.take i) := by
  unfold trapzStepStartDistance
  rw [npSum_eq]
  have h1 : c.times.take i = Cyc.times (c.take i) := by simp [Cyc.times]
  have h2 : c.speeds.take i = (Cyc.speeds (c.take i)) := by simp [Cyc.speeds]
  rw [h1, h2]
  have h3 : List.zipWith (fun a b : K => 1 / 2 * (a + b)) (c.speeds.take (i - 1))
      (List.drop 1 (Cyc.speeds (c.take i))) =
      List.zipWith (fun b a : K => 1 / 2 * (b + a)) (Cyc.speeds (c.take i)).tail (Cyc.speeds (c.take i)) := by
    have hl : (List.drop 1 (Cyc.speeds (c.take i))).length ≤ i - 1 := by
      simp [Cyc.speeds]; omega
    rw [zipWith_take_left _ _ _ _ hl, ← zipWith_take_left _ i c.speeds _ (by omega), h2,
      List.zipWith_comm, List.drop_one]
    congr 1
    funext a b
    ring
  rw [h3]
  cases hc : c.take i with
  | nil => simp [Cyc.times, diff, distance]
  | cons s l =>
    rw [List.zipWith_comm]
    have := zip_steps s l
    rw [← stepsFrom_sum, ← this]
    congr 2
    funext a b
    ring

end

section order
variable {K : Type*} [Field K] [LinearOrder K] [IsStrictOrderedRing K]

theorem distance_nonneg {c : Cyc K} (hv : SpeedsNonneg c) (ht : NonDecreasing c) :
    0 ≤ distance c := by
  induction c with
  | nil => simp [distance]
  | cons a c ih =>
    cases c with
    | nil => simp [distance]
    | cons b l =>
      have h1 := ih (fun s hs => hv s (by simp [hs])) (List.pairwise_cons.1 ht).2
      have ha := hv a (by simp)
      have hb := hv b (by simp)
      have hab := (List.pairwise_cons.1 ht).1 b (by simp)
      have : 0 ≤ (a.v + b.v) / 2 * (b.t - a.t) :=
        mul_nonneg (by linarith) (by linarith)
      simp only [distance]
      linarith

theorem distance_append_le {f : Cyc K} {l : Cyc K} (hv : SpeedsNonneg (f ++ l))
    (ht : NonDecreasing (f ++ l)) : distance f ≤ distance (f ++ l) := by
  induction f with
  | nil => simpa [distance] using distance_nonneg hv ht
  | cons a f ih =>
    cases f with
    | nil => simpa [distance] using distance_nonneg hv ht
    | cons b f =>
      have := ih (fun s hs => hv s (by simp only [List.cons_append, List.mem_cons]; right; simpa using hs))
        (List.pairwise_cons.1 ht).2
      simp only [List.cons_append, distance] at this ⊢
      linarith

theorem distance_take_mono {c : Cyc K} (hv : SpeedsNonneg c) (ht : NonDecreasing c) {i j : Nat}
    (hij : i ≤ j) : distance (c.take i) ≤ distance (c.take j) := by
  have h : c.take j = c.take i ++ (c.take j).drop i := by
    have := (List.take_append_drop i (c.take j)).symm
    rwa [List.take_take, Nat.min_eq_left hij] at this
  rw [h]
  have hsub : (c.take i ++ (c.take j).drop i).Sublist c := by rw [← h]; exact List.take_sublist _ _
  exact distance_append_le (fun s hs => hv s (hsub.subset hs)) (ht.sublist hsub)

theorem distance_stopped {c : Cyc K} (h : ∀ s ∈ c, s.v = 0) : distance c = 0 := by
  induction c with
  | nil => rfl
  | cons a c ih =>
    cases c with
    | nil => rfl
    | cons b l =>
      simp only [distance, h a (by simp), h b (by simp)]
      rw [ih (fun s hs => h s (by simp [hs]))]
      simp

/-- The distance up to sample `i+1` is that up to `i` plus the step. -/
theorem distance_take_succ {c : Cyc K} {i : Nat} {a b : Sample K} (ha : c[i]? = some a)
    (hb : c[i+1]? = some b) :
    distance (c.take (i + 2)) = distance (c.take (i + 1)) + (a.v + b.v) / 2 * (b.t - a.t) := by
  induction i generalizing c with
  | zero =>
    match c, ha, hb with
    | x :: y :: l, ha, hb =>
      simp at ha hb; subst ha hb; simp [distance]
  | succ i ih =>
    match c, ha, hb with
    | x :: y :: l, ha, hb =>
      have := @ih (y :: l) (by simpa using ha) (by simpa using hb)
      simp only [List.take_succ_cons] at this ⊢
      simp only [distance]
      rw [this]
      ring

end order
end Fastsim
