import Verif.Model.Peaks
import Verif.Lemmas.Dist
import Verif.Lemmas.Interp

/-!
# C60: peak accelerations
-/

set_option linter.unusedSectionVars false

namespace Fastsim.Props
open Fastsim Spec

section Order
variable {K : Type*} [LinearOrder K]

theorem npMax_spec {l : List K} (h : l ≠ []) : ∃ m, npMax l = .ok m ∧ m ∈ l ∧ ∀ x ∈ l, x ≤ m := by
  cases l with
  | nil => exact absurd rfl h
  | cons x l =>
    refine ⟨_, rfl, ?_⟩
    clear h
    induction l generalizing x with
    | nil => simp
    | cons y l ih =>
      obtain ⟨h1, h2⟩ := ih (max x y)
      simp only [List.foldl_cons]
      refine ⟨?_, ?_⟩
      · rcases List.mem_cons.1 h1 with e | e
        · rw [e]
          rcases max_choice x y with q | q <;> rw [q] <;> simp
        · simp [e]
      · have hm := h2 _ List.mem_cons_self
        intro z hz
        rcases List.mem_cons.1 hz with rfl | hz
        · exact (le_max_left _ _).trans hm
        · rcases List.mem_cons.1 hz with rfl | hz
          · exact (le_max_right _ _).trans hm
          · exact h2 z (List.mem_cons_of_mem _ hz)

theorem npMin_spec {l : List K} (h : l ≠ []) : ∃ m, npMin l = .ok m ∧ m ∈ l ∧ ∀ x ∈ l, m ≤ x := by
  obtain ⟨m, h1, h2, h3⟩ := npMax_spec (K := Kᵒᵈ) (l := l) h
  refine ⟨m, ?_, h2, h3⟩
  cases l with
  | nil => exact absurd rfl h
  | cons x l => exact h1

end Order

section Field
variable {K : Type*} [Field K] [LinearOrder K] [IsStrictOrderedRing K]

theorem accelerations_cons (a b : Sample K) (c : Cyc K) :
    accelerations (a :: b :: c) = (b.v - a.v) / (b.t - a.t) :: accelerations (b :: c) := rfl

/-- If no step accelerates by more than `m`, no longer stretch does. -/
theorem span_le {m : K} : ∀ {c : Cyc K}, c.Pairwise (fun a b => a.t < b.t) → (∀ x ∈ accelerations c, x ≤ m) →
    c.Pairwise fun a b => b.v - a.v ≤ m * (b.t - a.t)
  | [], _, _ => .nil
  | [a], _, _ => by simp
  | a :: b :: c, ht, h => by
    rw [accelerations_cons] at h
    have hab : a.t < b.t := (List.pairwise_cons.1 ht).1 b List.mem_cons_self
    have ih := span_le (List.pairwise_cons.1 ht).2 fun x hx => h x (List.mem_cons_of_mem _ hx)
    have h1 : b.v - a.v ≤ m * (b.t - a.t) := (div_le_iff₀ (sub_pos.2 hab)).1 (h _ List.mem_cons_self)
    refine List.pairwise_cons.2 ⟨fun x hx => ?_, ih⟩
    rcases List.mem_cons.1 hx with rfl | hx
    · exact h1
    · have := (List.pairwise_cons.1 ih).1 x hx
      linarith

theorem step_of_mem {m : K} : ∀ {c : Cyc K}, c.Pairwise (fun a b => a.t < b.t) → m ∈ accelerations c →
    ∃ i a b, c[i]? = some a ∧ c[i + 1]? = some b ∧ b.v - a.v = m * (b.t - a.t)
  | [], _, h => by simp [accelerations, Cyc.speeds, diff] at h
  | [a], _, h => by simp [accelerations, Cyc.speeds, diff] at h
  | a :: b :: c, ht, h => by
    rw [accelerations_cons] at h
    have hab : a.t < b.t := (List.pairwise_cons.1 ht).1 b List.mem_cons_self
    rcases List.mem_cons.1 h with rfl | h
    · exact ⟨0, a, b, rfl, rfl, (div_mul_cancel₀ _ (sub_pos.2 hab).ne').symm⟩
    · obtain ⟨i, x, y, h1, h2, h3⟩ := step_of_mem (List.pairwise_cons.1 ht).2 h
      exact ⟨i + 1, x, y, by simpa using h1, by simpa using h2, h3⟩

theorem accelerations_ne_nil {c : Cyc K} (h : 2 ≤ c.length) : accelerations c ≠ [] := by
  match c, h with
  | a :: b :: c, _ => rw [accelerations_cons]; simp

theorem accelerations_nil {c : Cyc K} (h : c.length < 2) : accelerations c = [] := by
  match c, h with
  | [], _ => rfl
  | [a], _ => rfl

/-- The opposite of a cycle: speeds negated. -/
theorem accelerations_neg : ∀ c : Cyc K,
    accelerations (c.map fun x => { x with v := -x.v }) = (accelerations c).map (-·)
  | [] => rfl
  | [a] => rfl
  | a :: b :: c => by
    have ih := accelerations_neg (b :: c)
    simp only [List.map_cons] at ih ⊢
    rw [accelerations_cons, accelerations_cons, ih, List.map_cons, ← neg_div]
    congr 2
    ring

/-- **C60 (peak acceleration).** Of a cycle of at least two samples with increasing times: the least number that
bounds the mean acceleration between any two samples, however far apart; it is reached in a single step. -/
theorem C60_peak {c : Cyc K} (h2 : 2 ≤ c.length) (ht : c.Pairwise fun a b => a.t < b.t) :
    ∃ p, peakAcceleration c = .ok p ∧
      (∀ (i j : Nat) (a b : Sample K), i < j → c[i]? = some a → c[j]? = some b → b.v - a.v ≤ p * (b.t - a.t)) ∧
      ∃ i a b, c[i]? = some a ∧ c[i + 1]? = some b ∧ b.v - a.v = p * (b.t - a.t) := by
  obtain ⟨p, h, hm, hle⟩ := npMax_spec (accelerations_ne_nil h2)
  refine ⟨p, h, fun i j a b hij hi hj => ?_, step_of_mem ht hm⟩
  obtain ⟨hi', rfl⟩ := List.getElem?_eq_some_iff.1 hi
  obtain ⟨hj', rfl⟩ := List.getElem?_eq_some_iff.1 hj
  exact List.pairwise_iff_getElem.1 (span_le ht hle) i j hi' hj' hij

/-- **C60 (peak deceleration).** The greatest number that is at most the mean acceleration between any two
samples; reached in a single step. -/
theorem C60_peak_down {c : Cyc K} (h2 : 2 ≤ c.length) (ht : c.Pairwise fun a b => a.t < b.t) :
    ∃ p, peakDeceleration c = .ok p ∧
      (∀ (i j : Nat) (a b : Sample K), i < j → c[i]? = some a → c[j]? = some b → p * (b.t - a.t) ≤ b.v - a.v) ∧
      ∃ i a b, c[i]? = some a ∧ c[i + 1]? = some b ∧ b.v - a.v = p * (b.t - a.t) := by
  obtain ⟨p, h, hm, hle⟩ := npMin_spec (accelerations_ne_nil h2)
  refine ⟨p, h, fun i j a b hij hi hj => ?_, step_of_mem ht hm⟩
  have hs := span_le (c := c.map fun x => { x with v := -x.v }) (m := -p)
    (by rw [List.pairwise_map]; exact ht) (by
      rw [accelerations_neg]
      intro x hx
      obtain ⟨y, hy, rfl⟩ := List.mem_map.1 hx
      exact neg_le_neg (hle y hy))
  rw [List.pairwise_map] at hs
  obtain ⟨hi', rfl⟩ := List.getElem?_eq_some_iff.1 hi
  obtain ⟨hj', rfl⟩ := List.getElem?_eq_some_iff.1 hj
  have := List.pairwise_iff_getElem.1 hs i j hi' hj' hij
  simp only at this
  linarith

/-- **C60 (too short).** Both raise `ValueError` exactly for fewer than two samples. -/
theorem C60_short (c : Cyc K) :
    (peakAcceleration c = .error .valueError ↔ c.length < 2) ∧
    (peakDeceleration c = .error .valueError ↔ c.length < 2) := by
  by_cases h : c.length < 2
  · simp [peakAcceleration, peakDeceleration, accelerations_nil h, npMax, npMin, h]
  · have hne := accelerations_ne_nil (not_lt.1 h)
    obtain ⟨p, h1, -⟩ := npMax_spec hne
    obtain ⟨q, h3, -⟩ := npMin_spec hne
    simp [peakAcceleration, peakDeceleration, h1, h3, h]

/-- **C60 (there and back).** A cycle that ends at the speed it starts with has a peak deceleration at most zero
and a peak acceleration at least zero. -/
theorem C60_signs {c : Cyc K} (ht : c.Pairwise fun a b => a.t < b.t) {a b : Sample K} (h2 : 2 ≤ c.length)
    (ha : c[0]? = some a) (hb : c[c.length - 1]? = some b) (hv : a.v = b.v) {p q : K}
    (hp : peakAcceleration c = .ok p) (hq : peakDeceleration c = .ok q) : q ≤ 0 ∧ 0 ≤ p := by
  obtain ⟨p', e1, h1, -⟩ := C60_peak h2 ht
  obtain ⟨q', e2, h3, -⟩ := C60_peak_down h2 ht
  rw [hp] at e1; cases e1
  rw [hq] at e2; cases e2
  have k1 := h1 0 (c.length - 1) a b (by omega) ha hb
  have k2 := h3 0 (c.length - 1) a b (by omega) ha hb
  have hpos : 0 < b.t - a.t := by
    obtain ⟨i1, rfl⟩ := List.getElem?_eq_some_iff.1 ha
    obtain ⟨i2, rfl⟩ := List.getElem?_eq_some_iff.1 hb
    exact sub_pos.2 (List.pairwise_iff_getElem.1 ht _ _ i1 i2 (by omega))
  rw [hv, sub_self] at k1 k2
  refine ⟨?_, ?_⟩
  · by_contra h
    have := mul_pos (not_le.1 h) hpos
    linarith
  · by_contra h
    have := mul_neg_of_neg_of_pos (not_le.1 h) hpos
    linarith

end Field

/-- A concrete case: uneven steps. -/
theorem C60_demo :
    let c : Cyc ℚ := [⟨0, 0, 0, 0⟩, ⟨1, 2, 0, 0⟩, ⟨3, 3, 0, 0⟩, ⟨5, 0, 0, 0⟩]
    c.Pairwise (fun a b => a.t < b.t) ∧ peakAcceleration c = .ok 2 ∧ peakDeceleration c = .ok (-(3 / 2)) := by
  decide +kernel

end Fastsim.Props
