import Verif.Model.Grade
import Verif.Lemmas.Interp
import Verif.Props.NextStop
import Verif.Spec.Demo
import Mathlib.Tactic.IntervalCases

/-!
# C12: grade and elevation lookups, with and without the cache
-/

set_option linter.unusedSectionVars false

namespace Fastsim.Spec
open Fastsim

section
variable {K : Type*} [Field K] [LinearOrder K]

/-- Grade of sample `k` (`0` outside the cycle). -/
def gradeAt (c : Cyc K) (k : Nat) : K := match c[k]? with | some s => s.g | none => 0

/-- Rise per travelled distance on the way to sample `k`: sine of the slope angle, written as the
cosine times the grade. -/
def riseAt (F : Fns K) (c : Cyc K) (k : Nat) : K := F.cosAtan (gradeAt c k) * gradeAt c k

/-- Elevation of sample `k` over the start: every step climbs with the grade of the sample it leads to. -/
def elevationOf (F : Fns K) (c : Cyc K) : Nat → K
  | 0 => 0
  | k + 1 => elevationOf F c k + riseAt F c (k + 1) * (odometer c (k + 1) - odometer c k)

/-- The road is at height `e` after `x` metres: `x` lies between samples `i` and `i+1`. -/
def ElevationAt (F : Fns K) (c : Cyc K) (x e : K) : Prop :=
  ∃ i, i + 1 < c.length ∧ odometer c i ≤ x ∧ x ≤ odometer c (i + 1) ∧ odometer c i < odometer c (i + 1) ∧
    e = elevationOf F c i + riseAt F c (i + 1) * (x - odometer c i)

/-- `b` is the first sample at or beyond distance `x`. -/
def FirstBeyond (c : Cyc K) (x : K) (b : Nat) : Prop :=
  b < c.length ∧ x ≤ odometer c b ∧ ∀ j, j < b → odometer c j < x

/-- A sample reached without moving carries the grade of the sample after it. -/
def GradeHeldAtStops (c : Cyc K) : Prop :=
  ∀ i, i + 2 < c.length → odometer c (i + 1) = odometer c i → gradeAt c (i + 1) = gradeAt c (i + 2)

end
end Fastsim.Spec

namespace Fastsim.Props
open Fastsim Spec

section knots
variable {K : Type*} [Field K] [LinearOrder K] [IsStrictOrderedRing K]

/-- The knots kept after `l`. -/
def keepFrom (l : Knot K) : List (Knot K) → List (Knot K)
  | [] => []
  | k :: ks => if l.d < k.d then k :: keepFrom k ks else keepFrom l ks

theorem keepFrom_cons (l k : Knot K) (ks : List (Knot K)) :
    keepFrom l (k :: ks) = if l.d < k.d then k :: keepFrom k ks else keepFrom l ks := rfl

theorem keepKnots_append (acc : List (Knot K)) (l : Knot K) (ks : List (Knot K)) :
    keepKnots (acc ++ [l]) ks = acc ++ l :: keepFrom l ks := by
  induction ks generalizing acc l with
  | nil => simp [keepKnots, keepFrom]
  | cons k ks ih =>
    rw [keepKnots, List.getLast?_append]
    simp only [List.getLast?_singleton, Option.or_some, Option.some.injEq, keepFrom]
    simp only [Option.getD_some, Option.some_or]
    split
    · rw [ih]; simp
    · exact ih acc l

theorem keepKnots_cons (k : Knot K) (ks : List (Knot K)) : keepKnots [] (k :: ks) = k :: keepFrom k ks := by
  rw [keepKnots]
  simpa using keepKnots_append [] k ks

theorem keepFrom_gt (l : Knot K) (ks : List (Knot K)) : ∀ q ∈ keepFrom l ks, l.d < q.d := by
  induction ks generalizing l with
  | nil => simp [keepFrom]
  | cons k ks ih =>
    rw [keepFrom]
    split
    · rename_i h
      intro q hq
      rcases List.mem_cons.1 hq with rfl | hq
      · exact h
      · exact h.trans (ih k q hq)
    · exact ih l

theorem keepFrom_strict (l : Knot K) (ks : List (Knot K)) :
    (l :: keepFrom l ks).Pairwise fun a b => a.d < b.d := by
  induction ks generalizing l with
  | nil => simp [keepFrom]
  | cons k ks ih =>
    refine List.pairwise_cons.2 ⟨keepFrom_gt l (k :: ks), ?_⟩
    rw [keepFrom]
    split
    · exact ih k
    · exact (List.pairwise_cons.1 (ih l)).2

theorem keepFrom_strictX (f : Knot K → K) (l : Knot K) (ks : List (Knot K)) :
    StrictX ((l :: keepFrom l ks).map fun x => (x.d, f x)) := by
  unfold StrictX
  rw [List.pairwise_map]
  exact keepFrom_strict l ks

end knots

section table
variable {K : Type*} [Field K] [LinearOrder K] [IsStrictOrderedRing K]
variable (d h : ℕ → K)

/-- The knot of sample `i`. -/
def kn (i : ℕ) : Knot K := ⟨d i, i, h i⟩

/-- Looking up on the full table, at a distance between two samples. -/
theorem interp_range_mid (hm : Monotone d) {x : K} {i : ℕ} (h1 : d i ≤ x) (h2 : x < d (i + 1)) :
    ∀ m n, n ≤ i → i + 1 < n + m → interp x ((List.range' n m).map fun j => (d j, h j)) =
      (h (i + 1) - h i) / (d (i + 1) - d i) * (x - d i) + h i
  | 0, n, hn, hm' => by omega
  | 1, n, hn, hm' => by omega
  | m + 2, n, hn, hm' => by
    rw [List.range'_succ, List.range'_succ, List.map_cons, List.map_cons, interp]
    rcases Nat.eq_or_lt_of_le hn with rfl | hlt
    · simp only
      rw [if_pos h2]
      split
      · rename_i hx
        have : x = d n := le_antisymm hx h1
        rw [this]; simp
      · rfl
    · simp only
      rw [if_neg (not_lt.2 ((hm (by omega : n + 1 ≤ i)).trans h1))]
      have := interp_range_mid hm h1 h2 (m + 1) (n + 1) (by omega) (by omega)
      rw [List.range'_succ, List.map_cons] at this
      exact this

/-- Looking up on the full table, at the distance of a sample. -/
theorem interp_range_at (hm : Monotone d) (hh : ∀ i, d i = d (i + 1) → h i = h (i + 1)) :
    ∀ m n k, n ≤ k → k < n + m → interp (d k) ((List.range' n m).map fun j => (d j, h j)) = h k
  | 0, n, k, h1, h2 => by omega
  | 1, n, k, h1, h2 => by
    have : n = k := by omega
    subst this
    simp [interp]
  | m + 2, n, k, h1, h2 => by
    rw [List.range'_succ, List.range'_succ, List.map_cons, List.map_cons, interp]
    simp only
    have tail := fun k h1 h2 => interp_range_at hm hh (m + 1) (n + 1) k h1 h2
    simp only [List.range'_succ, List.map_cons] at tail
    rcases Nat.eq_or_lt_of_le h1 with rfl | hlt
    · by_cases hd : d n < d (n + 1)
      · rw [if_pos hd, if_pos le_rfl]
      · have he : d n = d (n + 1) := le_antisymm (hm (by omega)) (not_lt.1 hd)
        rw [if_neg hd, he, tail (n + 1) le_rfl (by omega), hh n he]
    · rw [if_neg (not_lt.2 (hm (by omega : n + 1 ≤ k)))]
      exact tail k (by omega) (by omega)

/-- Dropping the knots that repeat a distance does not change the interpolant. -/
theorem interp_keep (x : K) (hm : Monotone d) (hh : ∀ i, d i = d (i + 1) → h i = h (i + 1)) :
    ∀ m n a, a ≤ n → d a = d n → h a = h n →
      interp x ((kn d h n :: (List.range' (n + 1) m).map (kn d h)).map fun k => (k.d, k.h)) =
      interp x ((kn d h a :: keepFrom (kn d h a) ((List.range' (n + 1) m).map (kn d h))).map
        fun k => (k.d, k.h))
  | 0, n, a, _, hd, he => by simp [keepFrom, interp, kn, he]
  | m + 1, n, a, ha, hd, he => by
    rw [List.range'_succ, List.map_cons (f := kn d h), keepFrom_cons]
    by_cases hlt : d a < d (n + 1)
    · rw [if_pos (by exact hlt)]
      have ih := interp_keep x hm hh m (n + 1) (n + 1) le_rfl rfl rfl
      simp only [List.map_cons, kn] at ih ⊢
      rw [interp, interp, ← ih, hd, he]
    · rw [if_neg (by exact hlt)]
      have hd1 : d n = d (n + 1) := le_antisymm (hm (by omega)) (by rw [← hd]; exact not_lt.1 hlt)
      have ih := interp_keep x hm hh m (n + 1) a (by omega) (hd.trans hd1) (he.trans (hh n hd1))
      rw [← ih]
      simp only [List.map_cons, kn]
      rw [interp]
      simp only
      split
      · rename_i hx
        rw [if_pos (by rw [hd1]; exact hx.le), hh n hd1]
        symm
        refine interp_lt_left (p := (d (n + 1), h (n + 1))) ?_ hx
        refine List.pairwise_cons.2 ⟨?_, ?_⟩
        · intro q hq
          simp only [List.map_map, List.mem_map, List.mem_range'_1] at hq
          obtain ⟨j, hj, rfl⟩ := hq
          exact hm (by omega)
        · rw [List.map_map, List.pairwise_map]
          exact List.Pairwise.imp (fun hab => hm (le_of_lt hab)) List.pairwise_lt_range'
      · rfl

/-- Where the cached table of sample indices puts a distance: at most at the first sample `b` at or
beyond it, and after the last kept sample `a` before it. -/
theorem interp_idx {x : K} (hm : Monotone d) {b : ℕ} (hx : x ≤ d b) :
    ∀ m n a, a ≤ n → n < b → b ≤ n + m → (∀ j, a ≤ j → j ≤ n → d j = d a) → (∀ j, j < b → d j < x) →
      ∃ a', a ≤ a' ∧ a' < b ∧ (∀ j, a' ≤ j → j < b → d j = d a') ∧
        (a' : K) < interp x ((kn d h a :: keepFrom (kn d h a) ((List.range' (n + 1) m).map (kn d h))).map
          fun k => (k.d, (k.idx : K))) ∧
        interp x ((kn d h a :: keepFrom (kn d h a) ((List.range' (n + 1) m).map (kn d h))).map
          fun k => (k.d, (k.idx : K))) ≤ b
  | 0, n, a, h1, h2, h3, _, _ => by omega
  | m + 1, n, a, h1, h2, h3, hc, hj => by
    rw [List.range'_succ, List.map_cons (f := kn d h), keepFrom_cons]
    by_cases hlt : d a < d (n + 1)
    · rw [if_pos (by exact hlt)]
      rcases (by omega : b = n + 1 ∨ n + 1 < b) with rfl | hb
      · refine ⟨a, le_rfl, by omega, fun j h4 h5 => hc j h4 (by omega), ?_⟩
        have hax : d a < x := hj a (by omega)
        have hcast : (a : K) < ((n + 1 : ℕ) : K) := by exact_mod_cast (by omega : a < n + 1)
        rcases eq_or_lt_of_le hx with hxe | hxl
        · have hs := keepFrom_strictX (fun k => (k.idx : K)) (kn d h (n + 1))
            ((List.range' (n + 1 + 1) m).map (kn d h))
          rw [List.map_cons] at hs
          rw [List.map_cons, List.map_cons, interp_of_ge (by exact ge_of_eq hxe), interp_left hs (by exact hxe.le)]
          exact ⟨hcast, le_rfl⟩
        · rw [List.map_cons, List.map_cons, interp_of_lt (by exact hxl) (by exact hax)]
          simp only [kn]
          have hd : 0 < d (n + 1) - d a := sub_pos.2 hlt
          have hf : 0 < ((n + 1 : ℕ) : K) - a := sub_pos.2 hcast
          refine ⟨?_, (segment_bounds hlt hax.le hxl.le ⟨le_rfl, hcast.le⟩ ⟨hcast.le, le_rfl⟩).2⟩
          · have : 0 < (((n + 1 : ℕ) : K) - a) / (d (n + 1) - d a) * (x - d a) :=
              mul_pos (div_pos hf hd) (sub_pos.2 hax)
            linarith
      · obtain ⟨a', i1, i2, i3, i4, i5⟩ := interp_idx hm hx m (n + 1) (n + 1) le_rfl hb (by omega)
          (fun j h4 h5 => by rw [show j = n + 1 by omega]) hj
        refine ⟨a', by omega, i2, i3, ?_⟩
        rw [List.map_cons] at i4 i5
        rw [List.map_cons, List.map_cons, interp_of_ge (by exact (hj (n + 1) hb).le)]
        exact ⟨i4, i5⟩
    · rw [if_neg (by exact hlt)]
      have hd1 : d (n + 1) = d a := le_antisymm (not_lt.1 hlt) (hm (by omega))
      have hb : n + 1 < b := by
        rcases (by omega : b = n + 1 ∨ n + 1 < b) with e | e
        · subst e
          exact absurd (hj a (by omega)) (not_lt.2 (by rw [← hd1]; exact hx))
        · exact e
      refine interp_idx hm hx m (n + 1) a (by omega) hb (by omega) ?_ hj
      intro j h4 h5
      rcases Nat.lt_or_ge n j with h6 | h6
      · rw [show j = n + 1 by omega, hd1]
      · exact hc j h4 h6

theorem keepFrom_last (hm : Monotone d) : ∀ m n a, a ≤ n → d a = d n →
    ∃ k, (kn d h a :: keepFrom (kn d h a) ((List.range' (n + 1) m).map (kn d h))).getLast? = some k ∧
      k.d = d (n + m)
  | 0, n, a, _, hd => ⟨kn d h a, by simp [keepFrom], by simpa [kn] using hd⟩
  | m + 1, n, a, ha, hd => by
    rw [List.range'_succ, List.map_cons (f := kn d h), keepFrom_cons]
    by_cases hlt : d a < d (n + 1)
    · rw [if_pos (by exact hlt)]
      obtain ⟨k, h1, h2⟩ := keepFrom_last hm m (n + 1) (n + 1) le_rfl rfl
      refine ⟨k, ?_, by rw [h2]; congr 1; omega⟩
      rw [List.getLast?_cons_cons]
      exact h1
    · rw [if_neg (by exact hlt)]
      have hd1 : d (n + 1) = d a := le_antisymm (not_lt.1 hlt) (hm (by omega))
      obtain ⟨k, h1, h2⟩ := keepFrom_last hm m (n + 1) a (by omega) hd1.symm
      exact ⟨k, h1, by rw [h2]; congr 1; omega⟩

theorem keepFrom_slopes {s S : K} (hm : Monotone d)
    (hs : ∀ i, s * (d (i + 1) - d i) ≤ h (i + 1) - h i ∧ h (i + 1) - h i ≤ S * (d (i + 1) - d i)) :
    ∀ m n a, a ≤ n → d a = d n → h a = h n →
      SlopesIn s S ((kn d h a :: keepFrom (kn d h a) ((List.range' (n + 1) m).map (kn d h))).map
        fun k => (k.d, k.h))
  | 0, n, a, _, hd, he => by simp [keepFrom, SlopesIn]
  | m + 1, n, a, ha, hd, he => by
    rw [List.range'_succ, List.map_cons (f := kn d h), keepFrom_cons]
    by_cases hlt : d a < d (n + 1)
    · rw [if_pos (by exact hlt)]
      have ih := keepFrom_slopes hm hs m (n + 1) (n + 1) le_rfl rfl rfl
      rw [List.map_cons] at ih
      rw [List.map_cons, List.map_cons]
      refine ⟨?_, ?_, ih⟩
      · simp only [kn]; rw [hd, he]; exact (hs n).1
      · simp only [kn]; rw [hd, he]; exact (hs n).2
    · rw [if_neg (by exact hlt)]
      have hd1 : d n = d (n + 1) := le_antisymm (hm (by omega)) (by rw [← hd]; exact not_lt.1 hlt)
      have hh : h n = h (n + 1) := by
        obtain ⟨h1, h2⟩ := hs n
        rw [hd1, sub_self, mul_zero] at h1 h2
        linarith
      exact keepFrom_slopes hm hs m (n + 1) a (by omega) (hd.trans hd1) (he.trans hh)

theorem gradeSearch_range (g : ℕ → K) {x : K} (hm : Monotone d) {b : ℕ} (hx : x ≤ d b)
    (hj : ∀ j, j < b → d j < x) : ∀ m n, n < b → b ≤ n + m →
      gradeSearch x (d n) ((List.range' (n + 1) m).map fun i => (d i, g i)) = some (g b)
  | 0, n, h1, h2 => by omega
  | m + 1, n, h1, h2 => by
    rw [List.range'_succ, List.map_cons, gradeSearch]
    rcases (by omega : b = n + 1 ∨ n + 1 < b) with rfl | hb
    · rw [if_pos ⟨hj n (by omega), hx⟩]
    · rw [if_neg (fun hc => absurd (hj (n + 1) hb) (not_lt.2 hc.2))]
      exact gradeSearch_range g hm hx hj m (n + 1) hb (by omega)

end table

section
variable {K : Type*} [Field K] [LinearOrder K] [IsStrictOrderedRing K]

theorem odometer_mono {c : Cyc K} (hv : SpeedsNonneg c) (ht : NonDecreasing c) : Monotone (odometer c) :=
  fun _ _ h => distance_take_mono hv ht (Nat.succ_le_succ h)

theorem odometer_zero (c : Cyc K) : odometer c 0 = 0 := by
  cases c <;> simp [odometer, distance]

theorem elevationOf_flat (F : Fns K) (c : Cyc K) (i : Nat) (h : odometer c i = odometer c (i + 1)) :
    elevationOf F c i = elevationOf F c (i + 1) := by
  simp [elevationOf, h]

theorem grades_get (c : Cyc K) (i : Nat) (h : i < c.length) : c.grades[i]? = some (gradeAt c i) := by
  simp [Cyc.grades, gradeAt, h]

theorem steps_get (c : Cyc K) (i : Nat) (h : i + 1 < c.length) :
    (trapzStepDistances c)[i + 1]? = some (odometer c (i + 1) - odometer c i) := by
  have hl : i + 1 < (trapzStepDistances c).length := by rw [trapzStepDistances_length]; exact h
  have e : ∀ k, odometer c k = ((trapzStepDistances c).take (k + 1)).sum := by
    intro k
    rw [trapzStepDistances_take, trapzStepDistances_sum]
    rfl
  rw [List.getElem?_eq_getElem hl, e, e, List.sum_take_succ _ (i + 1) hl]
  simp

theorem elevations_length (F : Fns K) (c : Cyc K) : (trapzElevations F c).length = c.length := by
  simp [trapzElevations, cumsum_length, trapzStepDistances_length, Cyc.grades]

theorem elevations_get (F : Fns K) (c : Cyc K) (i : Nat) (h : i < c.length) :
    (trapzElevations F c)[i]? = some (elevationOf F c i) := by
  have hlen : (List.zipWith (fun g d => F.cosAtan g * d * g) c.grades (trapzStepDistances c)).length
      = c.length := by simp [trapzStepDistances_length, Cyc.grades]
  rw [trapzElevations, cumsum_get _ _ (by rw [hlen]; exact h)]
  congr 1
  induction i with
  | zero =>
    cases c with
    | nil => simp at h
    | cons s l => simp [trapzStepDistances_cons, Cyc.grades, elevationOf]
  | succ i ih =>
    rw [List.sum_take_succ _ (i + 1) (by rw [hlen]; exact h), ih (by omega), elevationOf]
    congr 1
    have : (List.zipWith (fun g d => F.cosAtan g * d * g) c.grades (trapzStepDistances c))[i + 1]? =
        some (F.cosAtan (gradeAt c (i + 1)) * (odometer c (i + 1) - odometer c i) * gradeAt c (i + 1)) := by
      rw [List.getElem?_zipWith, grades_get c _ h, steps_get c i h]
    rw [List.getElem?_eq_getElem (by rw [hlen]; exact h)] at this
    rw [Option.some.inj this, riseAt]
    ring

theorem allKnots_eq (F : Fns K) (c : Cyc K) :
    allKnots F c = (List.range' 0 c.length).map (kn (odometer c) (elevationOf F c)) := by
  apply List.ext_getElem?
  intro i
  rw [allKnots, List.getElem?_zipWith, List.getElem?_zipIdx, List.getElem?_map]
  by_cases h : i < c.length
  · rw [trapzDistances_get c i h, elevations_get F c i h, List.getElem?_range' h]
    simp [kn, odometer]
  · rw [List.getElem?_eq_none_iff.2 (by rw [trapzDistances_length]; omega),
      List.getElem?_eq_none_iff.2 (by simp; omega : (List.range' 0 c.length).length ≤ i)]
    simp

theorem elevTable_eq (F : Fns K) (c : Cyc K) : (trapzDistances c).zip (trapzElevations F c) =
    (List.range' 0 c.length).map fun i => (odometer c i, elevationOf F c i) := by
  apply List.ext_getElem?
  intro i
  rw [List.zip, List.getElem?_zipWith, List.getElem?_map]
  by_cases h : i < c.length
  · rw [trapzDistances_get c i h, elevations_get F c i h, List.getElem?_range' h]
    simp [odometer]
  · rw [List.getElem?_eq_none_iff.2 (by rw [trapzDistances_length]; omega),
      List.getElem?_eq_none_iff.2 (by simp; omega : (List.range' 0 c.length).length ≤ i)]
    simp

theorem gradeTable_eq (c : Cyc K) : (trapzDistances c).zip c.grades =
    (List.range' 0 c.length).map fun i => (odometer c i, gradeAt c i) := by
  apply List.ext_getElem?
  intro i
  rw [List.zip, List.getElem?_zipWith, List.getElem?_map]
  by_cases h : i < c.length
  · rw [trapzDistances_get c i h, grades_get c i h, List.getElem?_range' h]
    simp [odometer]
  · rw [List.getElem?_eq_none_iff.2 (by rw [trapzDistances_length]; omega),
      List.getElem?_eq_none_iff.2 (by simp; omega : (List.range' 0 c.length).length ≤ i)]
    simp

theorem cacheKnots_eq (F : Fns K) (c : Cyc K) (n : Nat) (hn : c.length = n + 1) :
    cacheKnots F c = kn (odometer c) (elevationOf F c) 0 :: keepFrom (kn (odometer c) (elevationOf F c) 0)
      ((List.range' (0 + 1) n).map (kn (odometer c) (elevationOf F c))) := by
  rw [cacheKnots, allKnots_eq, hn, List.range'_succ, List.map_cons, keepKnots_cons]

theorem gradeAllZero_at {c : Cyc K} (h : gradeAllZero c = true) (k : Nat) : gradeAt c k = 0 := by
  unfold gradeAt
  split
  · rename_i s hs
    have : s.g ∈ c.grades := List.mem_map.2 ⟨s, List.mem_of_getElem? hs, rfl⟩
    simpa using List.all_eq_true.1 h _ this
  · rfl

theorem grades_last (c : Cyc K) (n : Nat) (hn : c.length = n + 1) : c.grades.getLast?.getD 0 = gradeAt c n := by
  rw [List.getLast?_eq_getElem?]
  have : c.grades.length = n + 1 := by simp [Cyc.grades, hn]
  rw [this, Nat.add_sub_cancel, grades_get c n (by omega)]
  rfl

/-- The search without cache finds the first sample at or beyond the distance. -/
theorem pointGrade_eq {c : Cyc K} (hv : SpeedsNonneg c) (ht : NonDecreasing c) {x : K} {b : Nat}
    (hb : FirstBeyond c x b) : pointGrade c x = gradeAt c b := by
  obtain ⟨h1, h2, h3⟩ := hb
  have hm := odometer_mono hv ht
  obtain ⟨n, hn⟩ : ∃ n, c.length = n + 1 := ⟨c.length - 1, by omega⟩
  unfold pointGrade
  rw [gradeTable_eq, hn, List.range'_succ, List.map_cons]
  simp only
  by_cases h0 : x ≤ odometer c 0
  · rw [if_pos h0]
    have : b = 0 := by
      by_contra hne
      exact absurd (h3 0 (by omega)) (not_lt.2 h0)
    rw [this]
  · rw [if_neg h0]
    have hb0 : 0 < b := by
      rcases Nat.eq_zero_or_pos b with e | e
      · subst e; exact absurd h2 h0
      · exact e
    have hlast : ((((odometer c 0, gradeAt c 0) ::
        (List.range' (0 + 1) n).map fun i => (odometer c i, gradeAt c i)).getLast?).map Prod.fst).getD 0
        = odometer c n := by
      have : ((odometer c 0, gradeAt c 0) ::
        (List.range' (0 + 1) n).map fun i => (odometer c i, gradeAt c i)) =
          (List.range' 0 (n + 1)).map fun i => (odometer c i, gradeAt c i) := by
        rw [List.range'_succ, List.map_cons]
      rw [this, List.getLast?_eq_getElem?, List.length_map, List.length_range', Nat.add_sub_cancel,
        List.getElem?_map, List.getElem?_range' (by omega)]
      simp
    rw [hlast, if_neg (not_lt.2 (h2.trans (hm (by omega)))),
      gradeSearch_range (odometer c) (gradeAt c) hm h2 h3 n 0 hb0 (by omega)]
    rfl

theorem pointGrade_past {c : Cyc K} {x : K} (hne : c ≠ [])
    (h : ∀ j, j < c.length → odometer c j < x) : pointGrade c x = gradeAt c (c.length - 1) := by
  obtain ⟨n, hn⟩ : ∃ n, c.length = n + 1 := ⟨c.length - 1, by have := List.length_pos_iff.2 hne; omega⟩
  unfold pointGrade
  rw [gradeTable_eq, hn, List.range'_succ, List.map_cons]
  simp only
  rw [if_neg (not_le.2 (h 0 (by omega)))]
  have hlast : ((((odometer c 0, gradeAt c 0) ::
      (List.range' (0 + 1) n).map fun i => (odometer c i, gradeAt c i)).getLast?).map Prod.fst).getD 0
      = odometer c n := by
    have : ((odometer c 0, gradeAt c 0) ::
      (List.range' (0 + 1) n).map fun i => (odometer c i, gradeAt c i)) =
        (List.range' 0 (n + 1)).map fun i => (odometer c i, gradeAt c i) := by
      rw [List.range'_succ, List.map_cons]
    rw [this, List.getLast?_eq_getElem?, List.length_map, List.length_range', Nat.add_sub_cancel,
      List.getElem?_map, List.getElem?_range' (by omega)]
    simp
  rw [hlast, if_pos (h n (by omega)), grades_last c n hn, Nat.add_sub_cancel]

/-- Every distance has a first sample at or beyond it, or lies past the end. -/
theorem firstBeyond_cases (c : Cyc K) (x : K) :
    (∃ b, FirstBeyond c x b) ∨ ∀ j, j < c.length → odometer c j < x := by
  by_cases h : ∃ j, j < c.length ∧ x ≤ odometer c j
  · left
    classical
    refine ⟨Nat.find h, (Nat.find_spec h).1, (Nat.find_spec h).2, fun j hj => ?_⟩
    have := Nat.find_min h hj
    have hl := (Nat.find_spec h).1
    exact not_le.1 fun hx => this ⟨by omega, hx⟩
  · right
    intro j hj
    exact not_le.1 fun hx => h ⟨j, hj, hx⟩

/-- **C12, single point.** Over a range of at most 1e-6 m the uncached query returns the grade of the
first sample at or beyond the distance, and the last grade past the end of the cycle. -/
theorem C12_point (F : Fns K) {c : Cyc K} (hv : SpeedsNonneg c) (ht : NonDecreasing c) (hne : c ≠ [])
    {x delta : K} (hd : delta ≤ 1 / 1000000) :
    (∀ b, FirstBeyond c x b → averageGrade F c x delta = gradeAt c b) ∧
    ((∀ j, j < c.length → odometer c j < x) → averageGrade F c x delta = gradeAt c (c.length - 1)) := by
  unfold averageGrade
  constructor
  · intro b hb
    split
    · rename_i h; exact (gradeAllZero_at h b).symm
    · exact pointGrade_eq hv ht hb
  · intro hp
    split
    · rename_i h; exact (gradeAllZero_at h _).symm
    · exact pointGrade_past hne hp

/-- Ceiling of a number between two naturals. -/
theorem ceil_between (F : Fns K) (hceil : ∀ (v : K) (n : ℕ), (n : K) < v → v ≤ ((n + 1 : ℕ) : K) → F.ceilNat v = n + 1)
    {v : K} {a b : ℕ} (h1 : (a : K) < v) (h2 : v ≤ b) : a < F.ceilNat v ∧ F.ceilNat v ≤ b := by
  classical
  have hex : ∃ n : ℕ, v ≤ (n : K) := ⟨b, h2⟩
  have hs := Nat.find_spec hex
  have hle : Nat.find hex ≤ b := Nat.find_min' hex h2
  have hgt : a < Nat.find hex := by
    by_contra hcon
    have : ((Nat.find hex : ℕ) : K) ≤ a := by exact_mod_cast not_lt.1 hcon
    exact absurd (hs.trans this) (not_le.2 h1)
  obtain ⟨m, hm⟩ : ∃ m, Nat.find hex = m + 1 := ⟨Nat.find hex - 1, by omega⟩
  have hlt : (m : K) < v := not_le.1 (Nat.find_min hex (by omega))
  rw [hm] at hs
  rw [hceil v m hlt hs]
  omega

/-- **C12, what the cache looks up.** The cached single-point lookup returns the grade of the first sample
`b` at or beyond the distance, or that of a sample at which the vehicle stood right before leaving
towards `b`. -/
theorem C12_cached_point (F : Fns K)
    (hceil : ∀ (v : K) (n : ℕ), (n : K) < v → v ≤ ((n + 1 : ℕ) : K) → F.ceilNat v = n + 1)
    {c : Cyc K} (hv : SpeedsNonneg c) (ht : NonDecreasing c) {x : K} {b : Nat} (hb : FirstBeyond c x b) :
    ∃ m, m ≤ b ∧ interpGrade F c x = gradeAt c m ∧
      ∀ j, m ≤ j → j < b → 1 ≤ j ∧ odometer c j = odometer c (j - 1) := by
  obtain ⟨h1, h2, h3⟩ := hb
  have hm := odometer_mono hv ht
  obtain ⟨n, hn⟩ : ∃ n, c.length = n + 1 := ⟨c.length - 1, by omega⟩
  unfold interpGrade
  split
  · rename_i h
    exact ⟨b, le_rfl, (gradeAllZero_at h b).symm, fun j h4 h5 => by omega⟩
  · obtain ⟨k, hk1, hk2⟩ := keepFrom_last (odometer c) (elevationOf F c) hm n 0 0 le_rfl rfl
    simp only [cacheKnots_eq F c n hn] at *
    by_cases h0 : x ≤ odometer c 0
    · rw [if_pos (by exact h0)]
      have : b = 0 := by
        by_contra hne
        exact absurd (h3 0 (by omega)) (not_lt.2 h0)
      subst this
      refine ⟨0, le_rfl, ?_, fun j h4 h5 => by omega⟩
      rw [List.getD_eq_getElem?_getD, grades_get c 0 h1]
      rfl
    · have hb0 : 0 < b := by
        rcases Nat.eq_zero_or_pos b with e | e
        · subst e; exact absurd h2 h0
        · exact e
      rw [if_neg (by exact h0),
        if_neg (by rw [hk1]; simp only [Option.map_some, Option.getD_some, hk2]
                   exact not_lt.2 (h2.trans (hm (by omega))))]
      obtain ⟨a, -, i2, i3, i4, i5⟩ := interp_idx (odometer c) (elevationOf F c) hm h2 n 0 0 le_rfl hb0
        (by omega) (fun j h4 h5 => by rw [show j = 0 by omega]) h3
      obtain ⟨j1, j2⟩ := ceil_between F hceil i4 i5
      refine ⟨_, j2, ?_, ?_⟩
      · rw [List.getD_eq_getElem?_getD, grades_get c _ (by omega)]
        rfl
      · intro j h4 h5
        refine ⟨by omega, ?_⟩
        rw [i3 j (by omega) h5, i3 (j - 1) (by omega) (by omega)]

/-- The cached lookup past the end. -/
theorem interpGrade_past (F : Fns K) {c : Cyc K} (hv : SpeedsNonneg c) (ht : NonDecreasing c) (hne : c ≠ [])
    {x : K} (h : ∀ j, j < c.length → odometer c j < x) : interpGrade F c x = gradeAt c (c.length - 1) := by
  have hm := odometer_mono hv ht
  obtain ⟨n, hn⟩ : ∃ n, c.length = n + 1 := ⟨c.length - 1, by have := List.length_pos_iff.2 hne; omega⟩
  unfold interpGrade
  split
  · rename_i h; exact (gradeAllZero_at h _).symm
  · obtain ⟨k, hk1, hk2⟩ := keepFrom_last (odometer c) (elevationOf F c) hm n 0 0 le_rfl rfl
    simp only [cacheKnots_eq F c n hn] at *
    rw [if_neg (by exact not_le.2 (h 0 (by omega))),
      if_pos (by rw [hk1]; simp only [Option.map_some, Option.getD_some, hk2]; exact h _ (by omega)),
      grades_last c n hn, hn, Nat.add_sub_cancel]

/-- **C12, elevation.** The cache gives the same elevation as the full table at every distance. -/
theorem C12_elevation (F : Fns K) {c : Cyc K} (hv : SpeedsNonneg c) (ht : NonDecreasing c)
    (hg : gradeAllZero c = false) (x : K) :
    interpElevation F c x = interp x ((trapzDistances c).zip (trapzElevations F c)) := by
  have hm := odometer_mono hv ht
  unfold interpElevation
  rw [hg, if_neg (by simp), elevTable_eq]
  cases hc : c.length with
  | zero =>
    have : c = [] := List.length_eq_zero_iff.1 hc
    subst this
    simp [gradeAllZero, Cyc.grades] at hg
  | succ n =>
    rw [cacheKnots_eq F c n hc, ← interp_keep (odometer c) (elevationOf F c) x hm
      (elevationOf_flat F c) n 0 0 le_rfl rfl rfl, List.range'_succ]
    simp [kn, Function.comp_def]

/-- **C12, long ranges.** Over more than 1e-6 m the cached and the uncached query agree on every cycle. -/
theorem C12_agree_long (F : Fns K) {c : Cyc K} (hv : SpeedsNonneg c) (ht : NonDecreasing c)
    {x delta : K} (hd : 1 / 1000000 < delta) : averageGradeCached F c x delta = averageGrade F c x delta := by
  unfold averageGradeCached averageGrade
  split
  · rfl
  · rename_i h
    have h' : gradeAllZero c = false := by simpa using h
    rw [if_neg (not_le.2 hd), if_neg (not_le.2 hd), C12_elevation F hv ht h', C12_elevation F hv ht h']

/-- **C12, agreement.** If a sample reached without moving carries the grade of the next one, the cached and
the uncached query agree at all distances and for all ranges. -/
theorem C12_agree (F : Fns K)
    (hceil : ∀ (v : K) (n : ℕ), (n : K) < v → v ≤ ((n + 1 : ℕ) : K) → F.ceilNat v = n + 1)
    {c : Cyc K} (hv : SpeedsNonneg c) (ht : NonDecreasing c) (hne : c ≠ []) (hs : GradeHeldAtStops c)
    (x delta : K) : averageGradeCached F c x delta = averageGrade F c x delta := by
  rcases lt_or_ge (1 / 1000000) delta with hd | hd
  · exact C12_agree_long F hv ht hd
  · unfold averageGradeCached averageGrade
    split
    · rfl
    · rcases firstBeyond_cases c x with ⟨b, hb⟩ | hp
      · obtain ⟨m, h1, h2, h3⟩ := C12_cached_point F hceil hv ht hb
        rw [h2, pointGrade_eq hv ht hb]
        have : ∀ k, m + k ≤ b → gradeAt c m = gradeAt c (m + k) := by
          intro k
          induction k with
          | zero => intro _; rfl
          | succ k ih =>
            intro hk
            rw [ih (by omega)]
            obtain ⟨g1, g2⟩ := h3 (m + k) (by omega) (by omega)
            have := hs (m + k - 1) (by have := hb.1; omega)
              (by rw [show m + k - 1 + 1 = m + k by omega]; exact g2)
            rw [show m + k - 1 + 1 = m + k by omega, show m + k - 1 + 2 = m + (k + 1) by omega] at this
            exact this
        have := this (b - m) (by omega)
        rwa [show m + (b - m) = b by omega] at this
      · rw [interpGrade_past F hv ht hne hp, pointGrade_past hne hp]

/-- **C12, average grade.** Inside the cycle and over more than 1e-6 m, the query is the grade whose sine is
rise over travelled distance between the two ends of the range. -/
theorem C12_average (F : Fns K) (h0 : F.tanAsin 0 = 0) {c : Cyc K} (hv : SpeedsNonneg c)
    (ht : NonDecreasing c) {x delta e0 e1 : K} (hd : 1 / 1000000 < delta)
    (he0 : ElevationAt F c x e0) (he1 : ElevationAt F c (x + delta) e1) :
    averageGrade F c x delta = F.tanAsin ((e1 - e0) / delta) := by
  have hm := odometer_mono hv ht
  have key : ∀ {y e}, ElevationAt F c y e →
      interp y ((trapzDistances c).zip (trapzElevations F c)) = e := by
    rintro y e ⟨i, i1, i2, i3, i4, rfl⟩
    rw [elevTable_eq]
    have hs : elevationOf F c (i + 1) = elevationOf F c i
        + riseAt F c (i + 1) * (odometer c (i + 1) - odometer c i) := rfl
    rcases eq_or_lt_of_le i3 with hy | hy
    · rw [hy, interp_range_at _ _ hm (elevationOf_flat F c) _ 0 (i + 1) (by omega) (by omega), hs]
    · rw [interp_range_mid _ _ hm i2 hy _ 0 (by omega) (by omega), hs, add_sub_cancel_left,
        mul_div_cancel_right₀ _ (ne_of_gt (sub_pos.2 i4)), add_comm]
  unfold averageGrade
  split
  · rename_i h
    have z : ∀ k, elevationOf F c k = 0 := by
      intro k
      induction k with
      | zero => rfl
      | succ k ih => rw [elevationOf, ih, riseAt, gradeAllZero_at h]; simp
    obtain ⟨i, -, -, -, -, rfl⟩ := he0
    obtain ⟨j, -, -, -, -, rfl⟩ := he1
    rw [z, z, riseAt, riseAt, gradeAllZero_at h, gradeAllZero_at h]
    simp [h0]
  · rw [if_neg (not_le.2 hd)]
    simp only
    rw [key he0, key he1]

theorem odometer_past (c : Cyc K) {i : Nat} (h : c.length ≤ i + 1) : odometer c (i + 1) = odometer c i := by
  unfold odometer
  rw [List.take_of_length_le (by omega), List.take_of_length_le (by omega)]

theorem elevation_slopes (F : Fns K) {c : Cyc K} (hv : SpeedsNonneg c) (ht : NonDecreasing c) {s S : K}
    (hr : ∀ k, 1 ≤ k → k < c.length → s ≤ riseAt F c k ∧ riseAt F c k ≤ S) (i : Nat) :
    s * (odometer c (i + 1) - odometer c i) ≤ elevationOf F c (i + 1) - elevationOf F c i ∧
      elevationOf F c (i + 1) - elevationOf F c i ≤ S * (odometer c (i + 1) - odometer c i) := by
  have e : elevationOf F c (i + 1) - elevationOf F c i =
      riseAt F c (i + 1) * (odometer c (i + 1) - odometer c i) := by rw [elevationOf]; ring
  rw [e]
  by_cases h : i + 1 < c.length
  · obtain ⟨h1, h2⟩ := hr (i + 1) (by omega) h
    have hd : 0 ≤ odometer c (i + 1) - odometer c i := sub_nonneg.2 (odometer_mono hv ht (by omega))
    exact ⟨mul_le_mul_of_nonneg_right h1 hd, mul_le_mul_of_nonneg_right h2 hd⟩
  · rw [odometer_past c (by omega)]
    simp

/-- **C12, bounds.** Over a range inside the cycle the average rise lies between the least and the
greatest rise of the samples. -/
theorem C12_bounds (F : Fns K) (h0 : F.tanAsin 0 = 0) {c : Cyc K} (hv : SpeedsNonneg c)
    (ht : NonDecreasing c) {s S : K}
    (hr : ∀ k, 1 ≤ k → k < c.length → s ≤ riseAt F c k ∧ riseAt F c k ≤ S)
    {x delta : K} (hd : 1 / 1000000 < delta) (hx : 0 ≤ x) (hl : x + delta ≤ distance c) :
    ∃ r, s ≤ r ∧ r ≤ S ∧ averageGrade F c x delta = F.tanAsin r := by
  have hm := odometer_mono hv ht
  have hd0 : (0 : K) < delta := lt_trans (by positivity) hd
  have hlen : 1 < c.length := by
    by_contra hcon
    have : distance c = 0 := by
      match c, hcon with
      | [], _ => rfl
      | [_], _ => rfl
      | _ :: _ :: _, hcon => simp at hcon
    linarith
  by_cases hz : gradeAllZero c = true
  · obtain ⟨h1, h2⟩ := hr 1 le_rfl hlen
    rw [riseAt, gradeAllZero_at hz, mul_zero] at h1 h2
    exact ⟨0, h1, h2, by rw [averageGrade, if_pos hz, h0]⟩
  · have hz' : gradeAllZero c = false := by simpa using hz
    obtain ⟨n, hn⟩ : ∃ n, c.length = n + 1 := ⟨c.length - 1, by omega⟩
    refine ⟨(interp (x + delta) ((trapzDistances c).zip (trapzElevations F c)) -
      interp x ((trapzDistances c).zip (trapzElevations F c))) / delta, ?_, ?_, ?_⟩
    rotate_left 2
    · rw [averageGrade, if_neg hz, if_neg (not_le.2 hd)]
    all_goals
      rw [← C12_elevation F hv ht hz', ← C12_elevation F hv ht hz', interpElevation, interpElevation, hz',
        if_neg (by simp), if_neg (by simp), cacheKnots_eq F c n hn]
      have hst := keepFrom_strictX (fun k => k.h) (kn (odometer c) (elevationOf F c) 0)
        ((List.range' (0 + 1) n).map (kn (odometer c) (elevationOf F c)))
      have hsl := keepFrom_slopes (odometer c) (elevationOf F c) hm (elevation_slopes F hv ht hr) n 0 0 le_rfl
        rfl rfl
      obtain ⟨k, hk1, hk2⟩ := keepFrom_last (odometer c) (elevationOf F c) hm n 0 0 le_rfl rfl
      have hlast : x + delta ≤ k.d := by
        rw [hk2, odometer, List.take_of_length_le (by omega)]
        exact hl
      generalize hg : keepFrom (kn (odometer c) (elevationOf F c) 0)
        ((List.range' (0 + 1) n).map (kn (odometer c) (elevationOf F c))) = ks at *
      rw [List.map_cons] at hst hsl ⊢
      obtain ⟨j1, j2⟩ := interp_slope hst hsl (x := x) (y := x + delta)
        (by simp only [kn, odometer_zero]; exact hx) (by linarith)
        (by
          rw [List.getLast?_eq_some_getLast (by simp)] at hk1
          have hk := Option.some.inj hk1
          have : ((((kn (odometer c) (elevationOf F c) 0 :: ks).map fun k => (k.d, k.h)).getLast
            (by simp))).1 = k.d := by
            rw [List.getLast_map, hk]
          exact le_of_le_of_eq hlast this.symm)
      rw [add_sub_cancel_left] at j1 j2
    · rw [le_div_iff₀ hd0]; exact j1
    · rw [div_le_iff₀ hd0]; exact j2

/-- **C12, constant slope.** On a road of constant grade every range inside the cycle has that grade. -/
theorem C12_constant (F : Fns K) (h0 : F.tanAsin 0 = 0) {c : Cyc K} (hv : SpeedsNonneg c)
    (ht : NonDecreasing c) {g : K} (hg : ∀ s ∈ c, s.g = g) (hF : F.tanAsin (F.cosAtan g * g) = g)
    {x delta : K} (hx : 0 ≤ x) (hl : x + delta ≤ distance c) (hne : c ≠ []) :
    averageGrade F c x delta = g := by
  have hga : ∀ k, k < c.length → gradeAt c k = g := by
    intro k hk
    unfold gradeAt
    rw [List.getElem?_eq_getElem hk]
    exact hg _ (List.getElem_mem hk)
  rcases lt_or_ge (1 / 1000000) delta with hd | hd
  · obtain ⟨r, h1, h2, h3⟩ := C12_bounds F h0 hv ht (s := F.cosAtan g * g) (S := F.cosAtan g * g)
      (fun k _ hk => by rw [riseAt, hga k hk]; exact ⟨le_rfl, le_rfl⟩) hd hx hl
    rw [h3, le_antisymm h2 h1, hF]
  · have hlen := List.length_pos_iff.2 hne
    rcases firstBeyond_cases c x with ⟨b, hb⟩ | hp
    · rw [(C12_point F hv ht hne hd).1 b hb, hga b hb.1]
    · rw [(C12_point F hv ht hne hd).2 hp, hga _ (by omega)]

/-- With positive speeds and strictly increasing times no sample is reached without moving. -/
theorem held_of_moving {c : Cyc K} (hv : ∀ s ∈ c, 0 < s.v) (ht : Increasing c) : GradeHeldAtStops c := by
  intro i hi he
  exfalso
  have h1 : i < c.length := by omega
  have h2 : i + 1 < c.length := by omega
  have := distance_take_succ (List.getElem?_eq_getElem h1) (List.getElem?_eq_getElem h2)
  have hp : 0 < (c[i].v + c[i + 1].v) / 2 * (c[i + 1].t - c[i].t) := by
    have a := hv _ (List.getElem_mem h1)
    have b := hv _ (List.getElem_mem h2)
    have d := List.pairwise_iff_getElem.1 ht i (i + 1) h1 h2 (by omega)
    exact mul_pos (by linarith) (by linarith)
  unfold odometer at he
  rw [this] at he
  linarith

/-- **C12, moving vehicle.** On a cycle without standstill the cached and uncached queries agree. -/
theorem C12_agree_moving (F : Fns K)
    (hceil : ∀ (v : K) (n : ℕ), (n : K) < v → v ≤ ((n + 1 : ℕ) : K) → F.ceilNat v = n + 1)
    {c : Cyc K} (hv : ∀ s ∈ c, 0 < s.v) (ht : Increasing c) (hne : c ≠ []) (x delta : K) :
    averageGradeCached F c x delta = averageGrade F c x delta :=
  C12_agree F hceil (fun s hs => (hv s hs).le) (ht.imp le_of_lt) hne (held_of_moving hv ht) x delta

end

section witness

/-- The demonstration's ceiling obeys the law asked of `np.ceil`. -/
theorem demo_ceil (v : ℚ) (n : ℕ) (h1 : (n : ℚ) < v) (h2 : v ≤ ((n + 1 : ℕ) : ℚ)) :
    Demo.fns.ceilNat v = n + 1 := by
  have : ⌈v⌉ = (n + 1 : ℤ) := by
    rw [Int.ceil_eq_iff]
    constructor
    · push_cast; linarith
    · push_cast at h2 ⊢; exact h2
  show ⌈v⌉.toNat = n + 1
  rw [this]
  rfl

/-- A climb of 5 %, a halt, a level stretch; the grade recorded during the halt is still 5 %. -/
def exHill : Cyc ℚ :=
  [⟨0, 0, 0, 0⟩, ⟨1, 10, 1/20, 0⟩, ⟨2, 0, 1/20, 0⟩, ⟨3, 0, 1/20, 0⟩, ⟨4, 10, 0, 0⟩, ⟨5, 10, 0, 0⟩]

/-- The same with the grade of the road ahead recorded during the halt. -/
def exHillAhead : Cyc ℚ :=
  [⟨0, 0, 0, 0⟩, ⟨1, 10, 1/20, 0⟩, ⟨2, 0, 1/20, 0⟩, ⟨3, 0, 0, 0⟩, ⟨4, 10, 0, 0⟩, ⟨5, 10, 0, 0⟩]

example : SpeedsNonneg exHillAhead ∧ NonDecreasing exHillAhead ∧ exHillAhead ≠ [] ∧
    GradeHeldAtStops exHillAhead := by
  refine ⟨?_, ?_, by simp [exHillAhead], ?_⟩
  · intro s hs
    simp only [exHillAhead, List.mem_cons, List.not_mem_nil, or_false] at hs
    rcases hs with rfl | rfl | rfl | rfl | rfl | rfl <;> norm_num
  · unfold NonDecreasing exHillAhead; decide +kernel
  · intro i hi he
    have hi' : i < 4 := by simp [exHillAhead] at hi; omega
    revert he
    interval_cases i <;> decide +kernel

example : FirstBeyond exHill 12 4 := by
  refine ⟨by decide, by decide +kernel, ?_⟩
  intro j hj
  interval_cases j <;> decide +kernel

example : ElevationAt Demo.fns exHill 12 (Demo.fns.cosAtan (1/20) * (1/20) * 10) ∧
    ElevationAt Demo.fns exHill 17 (Demo.fns.cosAtan (1/20) * (1/20) * 10) := by
  constructor
  · exact ⟨3, by decide, by decide +kernel, by decide +kernel, by decide +kernel, by decide +kernel⟩
  · exact ⟨4, by decide, by decide +kernel, by decide +kernel, by decide +kernel, by decide +kernel⟩

/-- **C12, disagreement.** Two metres past the halt the uncached query says level, the cached one 5 %, on a
cycle with non-negative speeds and increasing times. -/
theorem C12_cache_disagrees : averageGrade Demo.fns exHill 12 0 = 0 ∧
    averageGradeCached Demo.fns exHill 12 0 = 1 / 20 ∧
    averageGradeCached Demo.fns exHill 14 0 = 0 := by decide +kernel

/-- A road of constant slope. -/
def exSlope : Cyc ℚ := [⟨0, 10, 1/20, 0⟩, ⟨1, 10, 1/20, 0⟩, ⟨2, 10, 1/20, 0⟩]

example : Demo.fns.tanAsin 0 = 0 ∧ Demo.fns.tanAsin (Demo.fns.cosAtan (1/20) * (1/20)) = 1/20 ∧
    (∀ s ∈ exSlope, s.g = 1/20) ∧ (3 : ℚ) + 12 ≤ distance exSlope := by decide +kernel

/-- A range that half leaves the cycle has half the grade. -/
theorem C12_past_end_demo : averageGrade Demo.fns exSlope 5 10 = 1/20 ∧
    averageGrade Demo.fns exSlope 15 10 = 1/40 ∧ averageGrade Demo.fns exSlope 25 10 = 0 ∧
    averageGrade Demo.fns exSlope 25 0 = 1/20 := by decide +kernel

end witness

section
variable {K : Type*} [Field K] [LinearOrder K] [IsStrictOrderedRing K]

/-- **C12, past the end.** Beyond the end of the cycle the road counts as level in ranges, whatever the last
grade is, while the single-point query keeps the last grade (`C12_point`). -/
theorem C12_past_end (F : Fns K) (h0 : F.tanAsin 0 = 0) {c : Cyc K} (hv : SpeedsNonneg c)
    (ht : NonDecreasing c) {x delta : K} (hd : 1 / 1000000 < delta)
    (hx : distance c ≤ x) (hne : c ≠ []) : averageGrade F c x delta = 0 := by
  have hd0 : (0 : K) < delta := lt_trans (by positivity) hd
  have hm := odometer_mono hv ht
  obtain ⟨n, hn⟩ : ∃ n, c.length = n + 1 := ⟨c.length - 1, by have := List.length_pos_iff.2 hne; omega⟩
  have hs : SortedX ((List.range' 0 c.length).map fun i => (odometer c i, elevationOf F c i)) := by
    unfold SortedX
    rw [List.pairwise_map]
    exact List.Pairwise.imp (fun hab => hm (le_of_lt hab)) List.pairwise_lt_range'
  have hlast : ∀ y, distance c ≤ y → interp y ((List.range' 0 c.length).map
      fun i => (odometer c i, elevationOf F c i)) = elevationOf F c n := by
    intro y hy
    have hl : ((List.range' 0 c.length).map fun i => (odometer c i, elevationOf F c i)).getLast
        (by simp [hn]) = (odometer c n, elevationOf F c n) := by
      rw [List.getLast_eq_getElem]
      simp [hn]
    rw [interp_right hs (by simp [hn]), hl]
    rw [hl]
    simp only [odometer]
    rw [List.take_of_length_le (by omega)]
    exact hy
  unfold averageGrade
  split
  · rfl
  · rw [if_neg (not_le.2 hd)]
    simp only
    rw [elevTable_eq, hlast _ hx, hlast _ (by linarith)]
    simp [h0]

end

end Fastsim.Props
