import Verif.Lemmas.Dist
import Mathlib.Algebra.Order.Field.Rat

/-!
# C06: distance bookkeeping
-/

set_option linter.unusedSectionVars false

namespace Fastsim.Props
open Fastsim Spec

variable {K : Type*} [Field K] [LinearOrder K] [IsStrictOrderedRing K]

/-- **C06 (start distance).** The distance at the start of step `i` is the trapezoidal distance of
the first `i` samples (specification `Spec.distance`), for every cycle and index. -/
theorem C06_start_distance (c : Cyc K) (i : Nat) :
    trapzStepStartDistance c i = distance (c.take i) :=
  trapzStepStartDistance_eq c i

/-- **C06 (step).** For a real step `1 ≤ i < len` the per-step function and the array of step
distances agree with the trapezoid between samples `i-1` and `i`; the first entry is zero and the
array has one entry per sample. -/
theorem C06_step (c : Cyc K) (i : Nat) (a b : Sample K) (ha : c[i]? = some a)
    (hb : c[i+1]? = some b) :
    trapzDistanceForStep c (i + 1) = (a.v + b.v) / 2 * (b.t - a.t) ∧
    (trapzStepDistances c)[i + 1]? = some ((a.v + b.v) / 2 * (b.t - a.t)) ∧
    (trapzStepDistances c)[0]? = some 0 ∧
    (trapzStepDistances c).length = c.length := by
  have hget : ∀ (c : Cyc K) (i : Nat) (a b : Sample K), c[i]? = some a → c[i+1]? = some b →
      (trapzStepDistances c)[i + 1]? = some ((a.v + b.v) / 2 * (b.t - a.t)) := by
    intro c i a b ha hb
    cases c with
    | nil => simp at ha
    | cons s l =>
      rw [trapzStepDistances_cons, List.getElem?_cons_succ]
      clear * - ha hb
      induction l generalizing s i with
      | nil => simp at hb
      | cons q l ih =>
        cases i with
        | zero =>
          simp at ha hb; subst ha hb
          simp only [stepsFrom, List.getElem?_cons_zero, Option.some.injEq]; ring
        | succ i => simpa [stepsFrom] using ih i q (by simpa using ha) (by simpa using hb)
  refine ⟨?_, hget c i a b ha hb, ?_, trapzStepDistances_length c⟩
  · have e1 : c.times.getD (i + 1) 0 = b.t := by
      simp [Cyc.times, List.getD_eq_getElem?_getD, hb]
    have e2 : c.times.getD i 0 = a.t := by
      simp [Cyc.times, List.getD_eq_getElem?_getD, ha]
    have e3 : c.speeds.getD (i + 1) 0 = b.v := by
      simp [Cyc.speeds, List.getD_eq_getElem?_getD, hb]
    have e4 : c.speeds.getD i 0 = a.v := by
      simp [Cyc.speeds, List.getD_eq_getElem?_getD, ha]
    simp only [trapzDistanceForStep, averageStepSpeedAt, dtAt, Nat.add_sub_cancel, e1, e2, e3, e4]
    rw [if_neg (by omega)]
    ring
  · cases c with
    | nil => simp at ha
    | cons s l => simp [trapzStepDistances_cons]

/-- **C06 (sum of steps).** The start distance of step `i` is the sum of the distances of all
earlier steps `1 ≤ j < i`. -/
theorem C06_start_is_sum (c : Cyc K) (i : Nat) (hi : i ≤ c.length) :
    trapzStepStartDistance c i =
      ((List.range (i - 1)).map fun j => trapzDistanceForStep c (j + 1)).sum := by
  rw [C06_start_distance]
  induction i with
  | zero => simp [distance]
  | succ i ih =>
    cases i with
    | zero =>
      cases c with
      | nil => simp [distance]
      | cons a c => simp [distance]
    | succ i =>
      have h1 : i < c.length := by omega
      have h2 : i + 1 < c.length := by omega
      have ha : c[i]? = some c[i] := by simp [h1]
      have hb : c[i+1]? = some c[i+1] := by simp [h2]
      rw [distance_take_succ ha hb, ih (by omega)]
      simp only [Nat.add_sub_cancel, List.range_succ, List.map_append, List.sum_append,
        List.map_cons, List.map_nil, List.sum_cons, List.sum_nil, add_zero]
      rw [(C06_step c i _ _ ha hb).1]

/-- **C06 (ranges).** Distance over a range of steps is the difference of start distances. -/
theorem C06_range (c : Cyc K) (i j : Nat) (hij : i ≤ j) :
    trapzDistanceOverRange c i j = trapzStepStartDistance c j - trapzStepStartDistance c i := by
  rw [C06_start_distance, C06_start_distance, trapzDistanceOverRange, npSum_eq,
    ← trapzStepDistances_sum, ← trapzStepDistances_sum, ← trapzStepDistances_take,
    ← trapzStepDistances_take]
  have h : (trapzStepDistances c).take i = ((trapzStepDistances c).take j).take i := by
    rw [List.take_take, Nat.min_eq_left hij]
  rw [h]
  have := List.sum_take_add_sum_drop ((trapzStepDistances c).take j) i
  linarith

/-- **C06 (additivity).** -/
theorem C06_range_additive (c : Cyc K) (i j k : Nat) (hij : i ≤ j) (hjk : j ≤ k) :
    trapzDistanceOverRange c i k = trapzDistanceOverRange c i j + trapzDistanceOverRange c j k := by
  rw [C06_range c i k (hij.trans hjk), C06_range c i j hij, C06_range c j k hjk]
  ring

/-- **C06 (cumulative array).** Entry `i` of the cumulative distances is the start distance of
step `i+1`. -/
theorem C06_cumulative (c : Cyc K) (i : Nat) (h : i < c.length) :
    (trapzDistances c)[i]? = some (trapzStepStartDistance c (i + 1)) := by
  rw [trapzDistances_get c i h, C06_start_distance]

/-- **C06 (sign and monotonicity).** With non-negative speeds and non-decreasing times distances
are non-negative and non-decreasing in the index. -/
theorem C06_monotone (c : Cyc K) (hv : ∀ s ∈ c, 0 ≤ s.v)
    (ht : c.Pairwise fun a b => a.t ≤ b.t) (i j : Nat) (hij : i ≤ j) :
    0 ≤ trapzStepStartDistance c i ∧
    trapzStepStartDistance c i ≤ trapzStepStartDistance c j ∧
    0 ≤ trapzDistanceOverRange c i j := by
  have hmono := distance_take_mono (c := c) hv ht hij
  have h0 := distance_take_mono (c := c) hv ht (Nat.zero_le i)
  simp only [List.take_zero] at h0
  refine ⟨?_, ?_, ?_⟩
  · rw [C06_start_distance]; simpa [distance] using h0
  · rw [C06_start_distance, C06_start_distance]; exact hmono
  · rw [C06_range c i j hij, C06_start_distance, C06_start_distance]; linarith

/-- **C06 (standstill).** No distance is covered between samples that are all at speed zero. -/
theorem C06_stopped (c : Cyc K) (i j : Nat) (hi : 1 ≤ i) (hij : i ≤ j)
    (h : ∀ k, i ≤ k + 1 → k < j → ∀ s, c[k]? = some s → s.v = 0) :
    trapzDistanceOverRange c i j = 0 := by
  induction j with
  | zero => omega
  | succ j ih =>
    rcases Nat.lt_or_ge i (j + 1) with hlt | hge
    · have hadd := C06_range_additive c i j (j + 1) (by omega) (by omega)
      rw [hadd, ih (by omega) (fun k h1 h2 => h k h1 (by omega)), zero_add,
        C06_range c j (j + 1) (by omega), C06_start_distance, C06_start_distance]
      obtain ⟨j', rfl⟩ : ∃ j', j = j' + 1 := ⟨j - 1, by omega⟩
      by_cases hl : j' + 1 < c.length
      · have ha : c[j']? = some c[j'] := by simp [(by omega : j' < c.length)]
        have hb : c[j'+1]? = some c[j'+1] := by simp [hl]
        rw [distance_take_succ ha hb, h j' (by omega) (by omega) _ ha,
          h (j' + 1) (by omega) (by omega) _ hb]
        ring
      · rw [List.take_of_length_le (by omega : c.length ≤ j' + 1 + 1),
          List.take_of_length_le (by omega : c.length ≤ j' + 1)]
        ring
    · obtain rfl : i = j + 1 := by omega
      rw [C06_range c _ _ le_rfl, sub_self]

/-! Concrete case: a cycle that starts late, moves and stops. -/
def exDist : Cyc ℚ := [⟨2, 0, 0, 0⟩, ⟨3, 4, 0, 0⟩, ⟨5, 2, 0, 0⟩, ⟨6, 0, 0, 0⟩, ⟨9, 0, 0, 0⟩]

example : (∀ s ∈ exDist, 0 ≤ s.v) ∧ exDist.Pairwise (fun a b => a.t ≤ b.t) ∧
    trapzDistances exDist = [0, 2, 8, 9, 9] ∧ trapzDistanceOverRange exDist 4 5 = 0 := by
  decide +kernel

end Fastsim.Props
