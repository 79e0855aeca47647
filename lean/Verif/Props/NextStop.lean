import Verif.Props.Passing

/-!
# C10: distance to the next stop
-/

set_option linter.unusedSectionVars false

namespace Fastsim.Spec
open Fastsim

section
variable {K : Type*} [Field K] [LinearOrder K]

/-- Sample `k` is a stop (at most 1e-6 m/s) strictly beyond distance `x`. -/
def StopBeyond (c : Cyc K) (x : K) (k : Nat) : Prop :=
  (∃ s, c[k]? = some s ∧ s.v ≤ 1 / 1000000) ∧ x < odometer c k

/-- `k` is the first stop beyond `x`. -/
def NextStop (c : Cyc K) (x : K) (k : Nat) : Prop :=
  StopBeyond c x k ∧ ∀ j, j < k → ¬ StopBeyond c x j

end
end Fastsim.Spec

namespace Fastsim.Props
open Fastsim Spec

section
variable {K : Type*} [Field K] [LinearOrder K] [IsStrictOrderedRing K]

/-- The flags the query looks at. -/
theorem stopFlags_get (c : Cyc K) (x : K) (k : Nat) :
    (List.zipWith (fun d (s : Bool) => decide (x < d) && s) (trapzDistances c) (stops c))[k]? = some true ↔
      StopBeyond c x k := by
  rw [List.getElem?_zipWith]
  by_cases hk : k < c.length
  · have e1 : (trapzDistances c)[k]? = some (odometer c k) := by
      rw [trapzDistances_get c k hk]; rfl
    have e2 : (stops c)[k]? = some (decide (c[k].v ≤ 1 / 1000000)) := by
      simp [stops, Cyc.speeds, hk]
    rw [e1, e2]
    simp only [Option.some.injEq, Bool.and_eq_true, decide_eq_true_eq, StopBeyond]
    constructor
    · rintro ⟨a, b⟩
      exact ⟨⟨_, List.getElem?_eq_getElem hk, b⟩, a⟩
    · rintro ⟨⟨s, hs, hv⟩, a⟩
      rw [List.getElem?_eq_getElem hk] at hs
      cases hs
      exact ⟨a, hv⟩
  · have e1 : (trapzDistances c)[k]? = none := by
      rw [List.getElem?_eq_none_iff, trapzDistances_length]; omega
    rw [e1]
    constructor
    · simp
    · rintro ⟨⟨s, hs, -⟩, -⟩
      rw [List.getElem?_eq_none_iff.2 (by omega)] at hs
      simp at hs

theorem argmaxBool_spec (l : List Bool) :
    (l[argmaxBool l]? = some true ∧ ∀ j : Nat, j < argmaxBool l → l[j]? ≠ some true) ∨
      (argmaxBool l = 0 ∧ ∀ j : Nat, l[j]? ≠ some true) := by
  unfold argmaxBool
  cases h : l.findIdx? id with
  | none =>
    right
    rw [List.findIdx?_eq_none_iff] at h
    refine ⟨rfl, fun j hj => ?_⟩
    have := h true (List.mem_of_getElem? hj)
    simp at this
  | some i =>
    left
    rw [List.findIdx?_eq_some_iff_getElem] at h
    obtain ⟨hi, h1, h2⟩ := h
    simp only
    refine ⟨by rw [List.getElem?_eq_getElem hi]; simpa using h1, fun j hj he => ?_⟩
    have hj' : j < l.length := by omega
    have := h2 j hj
    rw [List.getElem?_eq_getElem hj'] at he
    simp at he
    simp [he] at this

/-- **C10 (which stop).** The answer is the distance to the first stop sample beyond `x`; without one it
is the distance back to the start. For any speeds and times. -/
theorem C10_cases (c : Cyc K) (x : K) (hc : c ≠ []) :
    (∃ k, NextStop c x k ∧ distanceToNextStop c x = odometer c k - x) ∨
    ((∀ k, ¬ StopBeyond c x k) ∧ distanceToNextStop c x = -x) := by
  unfold distanceToNextStop
  simp only
  have hget : ∀ k, k < c.length → (trapzDistances c).getD k 0 = odometer c k := by
    intro k hk
    rw [List.getD_eq_getElem?_getD, trapzDistances_get c k hk]
    rfl
  rcases argmaxBool_spec
      (List.zipWith (fun d (s : Bool) => decide (x < d) && s) (trapzDistances c) (stops c)) with ⟨h1, h2⟩ | ⟨h1, h2⟩
  · left
    generalize argmaxBool _ = k at h1 h2
    have hs := (stopFlags_get c x k).1 h1
    refine ⟨k, ⟨hs, fun j hj h => h2 j hj ((stopFlags_get c x j).2 h)⟩, ?_⟩
    obtain ⟨⟨s, hs', -⟩, -⟩ := hs
    rw [hget k (List.getElem?_eq_some_iff.1 hs').1]
  · right
    refine ⟨fun k h => h2 k ((stopFlags_get c x k).2 h), ?_⟩
    rw [h1, hget 0 (List.length_pos_of_ne_nil hc)]
    have : odometer c 0 = 0 := by
      obtain ⟨a, l, rfl⟩ := List.exists_cons_of_ne_nil hc
      simp [odometer, distance]
    rw [this, zero_sub]

/-- **C10 (closest stop).** For a trace that never goes backwards the answer is the smallest distance to
a stop strictly beyond `x`, is positive, and no distance strictly in between belongs to a stop. -/
theorem C10_closest (c : Cyc K) (hv : SpeedsNonneg c) (ht : NonDecreasing c) (x : K)
    (h : ∃ k, StopBeyond c x k) :
    0 < distanceToNextStop c x ∧
    (∃ k, StopBeyond c x k ∧ distanceToNextStop c x = odometer c k - x) ∧
    ∀ k, StopBeyond c x k → distanceToNextStop c x ≤ odometer c k - x := by
  obtain ⟨k0, hk0⟩ := h
  have hc : c ≠ [] := by
    rintro rfl
    obtain ⟨⟨s, hs, -⟩, -⟩ := hk0
    simp at hs
  rcases C10_cases c x hc with ⟨k, hk, he⟩ | ⟨hn, -⟩
  · refine ⟨by rw [he]; exact sub_pos.2 hk.1.2, ⟨k, hk.1, he⟩, fun j hj => ?_⟩
    rw [he]
    have hkj : k ≤ j := by
      by_contra hlt
      exact hk.2 j (by omega) hj
    have := distance_take_mono hv ht (show k + 1 ≤ j + 1 by omega)
    unfold odometer
    linarith
  · exact absurd hk0 (hn k0)

/-- **C10 (past the last stop).** Without a stop beyond `x` the answer is `-x`, never positive for a
distance on the trace. -/
theorem C10_beyond (c : Cyc K) (hc : c ≠ []) (x : K) (hx : 0 ≤ x) (h : ∀ k, ¬ StopBeyond c x k) :
    distanceToNextStop c x = -x ∧ distanceToNextStop c x ≤ 0 := by
  rcases C10_cases c x hc with ⟨k, hk, -⟩ | ⟨-, he⟩
  · exact absurd hk.1 (h k)
  · exact ⟨he, by rw [he]; linarith⟩

/-- **C10 (sign decides).** For a trace that never goes backwards and a distance on it, the answer is
positive exactly if there is a stop ahead. -/
theorem C10_sign (c : Cyc K) (hc : c ≠ []) (hv : SpeedsNonneg c) (ht : NonDecreasing c) (x : K) (hx : 0 ≤ x) :
    0 < distanceToNextStop c x ↔ ∃ k, StopBeyond c x k := by
  constructor
  · intro h
    by_contra hn
    push Not at hn
    exact absurd (C10_beyond c hc x hx hn).2 (not_le.2 h)
  · exact fun h => (C10_closest c hv ht x h).1

/-- **C10 (approaching).** Moving `d` towards the next stop without reaching it shortens the distance to
it by `d`. -/
theorem C10_approach (c : Cyc K) (hv : SpeedsNonneg c) (ht : NonDecreasing c) (x d : K) (hd : 0 ≤ d)
    (h : ∃ k, StopBeyond c x k) (hlt : d < distanceToNextStop c x) :
    distanceToNextStop c (x + d) = distanceToNextStop c x - d := by
  obtain ⟨-, ⟨k, hk, he⟩, hmin⟩ := C10_closest c hv ht x h
  have hk' : StopBeyond c (x + d) k := ⟨hk.1, by rw [he] at hlt; linarith⟩
  obtain ⟨-, ⟨j, hj, hej⟩, hminj⟩ := C10_closest c hv ht (x + d) ⟨k, hk'⟩
  have h1 := hminj k hk'
  have h2 := hmin j ⟨hj.1, lt_of_le_of_lt (by linarith) hj.2⟩
  rw [hej] at h1 ⊢
  rw [he] at h2 ⊢
  linarith

/-- **C10 (cache).** The cached query gives the answer for the cycle the cache was built from, whatever
cycle it is asked of afterwards. -/
theorem C10_cached (c : Cyc K) (x : K) :
    distanceToNextStopCached (buildStopCache c) x = distanceToNextStop c x := rfl

/-! ### Concrete cases -/

/-- Two stops, at 20 m and at 40 m (the second one lasting), then driving off. -/
def exStops : Cyc ℚ :=
  [⟨0, 0, 0, 0⟩, ⟨1, 20, 0, 0⟩, ⟨2, 0, 0, 0⟩, ⟨3, 20, 0, 0⟩, ⟨4, 0, 0, 0⟩, ⟨5, 0, 0, 0⟩, ⟨6, 10, 0, 0⟩]

example : SpeedsNonneg exStops ∧ NonDecreasing exStops ∧ exStops ≠ [] := by
  refine ⟨?_, ?_, by simp [exStops]⟩
  · intro s hs
    simp only [exStops, List.mem_cons, List.not_mem_nil, or_false] at hs
    rcases hs with rfl | rfl | rfl | rfl | rfl | rfl | rfl <;> norm_num
  · unfold NonDecreasing exStops; decide +kernel

example : StopBeyond exStops 5 2 := ⟨⟨⟨2, 0, 0, 0⟩, rfl, by norm_num⟩, by decide +kernel⟩

/-- A stop at exactly the queried distance is not ahead; beyond the last stop the answer is negative,
although the vehicle is at most 5 m past it. -/
theorem C10_demo : distanceToNextStop exStops 0 = 20 ∧ distanceToNextStop exStops 20 = 20 ∧
    distanceToNextStop exStops 39 = 1 ∧ distanceToNextStop exStops 40 = -40 ∧
    distanceToNextStop exStops 45 = -45 := by decide +kernel

end
end Fastsim.Props
