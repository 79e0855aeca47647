import Verif.Model.RsVeh
import Verif.Lemmas.RsStep
import Verif.Lemmas.Interp
import Mathlib.Data.List.GetD

/-!
# The interpolation and the tables of the Rust core
-/

set_option linter.unusedSectionVars false

namespace Fastsim
section
variable {K : Type*} [Field K] [LinearOrder K] [IsStrictOrderedRing K]

theorem rsKept_strict : ∀ {p : K × K} {l : List (K × K)}, StrictX (p :: l) → rsKept p.1 l = l
  | _, [], _ => rfl
  | p, q :: l, h => by
    have h1 := List.pairwise_cons.1 h
    rw [rsKept, if_pos (h1.1 q (by simp)), rsKept_strict h1.2]

/-- The line through two neighbouring points is `np.interp` for a value that belongs to them. -/
theorem rsOnSegment_eq {f l : List (K × K)} {p q : K × K} {x : K} (h : StrictX (f ++ p :: q :: l))
    (h1 : f = [] ∨ p.1 ≤ x) (h2 : l = [] ∨ x ≤ q.1) : rsOnSegment x p q = interp x (f ++ p :: q :: l) := by
  have hpq : p.1 < q.1 := by
    have := (List.pairwise_append.1 h).2.1
    exact (List.pairwise_cons.1 this).1 q (by simp)
  have hne : q.1 - p.1 ≠ 0 := (sub_pos.2 hpq).ne'
  unfold rsOnSegment
  rcases lt_trichotomy x p.1 with hx | rfl | hx
  · have hf : f = [] := h1.resolve_right (not_le.2 hx)
    subst hf
    rw [List.nil_append, interp_left h hx.le]
    simp only [if_pos hx, if_neg (not_lt.2 (hx.trans hpq).le)]
    ring
  · rw [interp_knot h (p := p) (by simp)]
    simp only [lt_irrefl, if_false, if_neg (not_lt.2 hpq.le)]
    ring
  · simp only [if_neg (not_lt.2 hx.le)]
    rcases lt_trichotomy x q.1 with hq | rfl | hq
    · rw [interp_mid h.sorted hx hq, if_neg (not_lt.2 hq.le)]
      ring
    · rw [interp_knot h (p := q) (by simp)]
      simp only [lt_irrefl, if_false]
      field_simp
      ring
    · have hl : l = [] := h2.resolve_right (not_le.2 hq)
      subst hl
      rw [interp_right h.sorted (by simp) (by simpa using hq.le), if_pos hq]
      simp

theorem rsSegment_spec {pts : List (K × K)} {x : K} (hs : StrictX pts) (h2 : 2 ≤ pts.length) :
    rsSegment pts x + 1 < pts.length ∧
    (rsSegment pts x = 0 ∨ (pts.getD (rsSegment pts x) (0, 0)).1 ≤ x) ∧
    (rsSegment pts x + 2 = pts.length ∨ x ≤ (pts.getD (rsSegment pts x + 1) (0, 0)).1) := by
  unfold rsSegment
  by_cases hx : (pts.getD (pts.length - 2) (0, 0)).1 ≤ x
  · simp only [if_pos hx]
    exact ⟨by omega, .inr hx, .inl (by omega)⟩
  · simp only [if_neg hx]
    set j := pts.tail.findIdx fun p => decide (x ≤ p.1) with hj
    have hlt : j < pts.tail.length := by
      refine List.findIdx_lt_length.2 ⟨pts[pts.length - 1]'(by omega), ?_, ?_⟩
      · rw [List.mem_iff_getElem]
        refine ⟨pts.length - 2, by simp; omega, ?_⟩
        rw [List.getElem_tail]
        congr 1; omega
      · have hp := List.pairwise_iff_getElem.1 hs (pts.length - 2) (pts.length - 1) (by omega) (by omega) (by omega)
        rw [List.getD_eq_getElem _ _ (by omega)] at hx
        exact decide_eq_true ((not_le.1 hx).le.trans hp.le)
    have hlen : pts.tail.length = pts.length - 1 := List.length_tail
    have hat := List.findIdx_getElem (w := hlt)
    simp only [decide_eq_true_eq, List.getElem_tail] at hat
    refine ⟨by omega, ?_, .inr ?_⟩
    · rcases Nat.eq_zero_or_pos j with h0 | h0
      · exact .inl h0
      · right
        have hb := List.not_of_lt_findIdx (p := fun p : K × K => decide (x ≤ p.1)) (xs := pts.tail) (i := j - 1) (by omega)
        simp only [List.getElem_tail, decide_eq_true_eq, decide_eq_false_iff_not, not_le, Bool.not_eq_true] at hb
        rw [List.getD_eq_getElem _ _ (by omega)]
        have e : j - 1 + 1 = j := by omega
        simp only [e] at hb
        exact hb.le
    · rw [List.getD_eq_getElem _ _ (by omega)]
      exact hat

theorem strictX_zip {xs ys : List K} (h : xs.Pairwise (· < ·)) : StrictX (xs.zip ys) := by
  unfold StrictX
  rw [List.pairwise_iff_getElem] at h ⊢
  intro i j hi hj hij
  simp only [List.length_zip] at hi hj
  simp only [List.getElem_zip]
  exact h i j (by omega) (by omega) hij

/-- On a strictly increasing table of at least two points, the Rust interpolation is `np.interp`. -/
theorem rsInterpolate_eq {xs ys : List K} (hs : xs.Pairwise (· < ·)) (h2 : 2 ≤ xs.length) (hl : xs.length = ys.length)
    (x : K) : rsInterpolate x xs ys = .ok (interp x (xs.zip ys)) := by
  have hz : (xs.zip ys).length = xs.length := by simp [hl]
  have hst : StrictX (xs.zip ys) := strictX_zip hs
  unfold rsInterpolate
  simp only [hl, ne_eq, not_true_eq_false, if_false]
  cases hc : xs.zip ys with
  | nil => rw [hc] at hz; simp at hz; omega
  | cons p l =>
    rw [hc] at hst hz
    simp only [rsKept_strict hst]
    rw [if_neg (by omega)]
    obtain ⟨s1, s2, s3⟩ := rsSegment_spec (x := x) hst (by omega)
    set i := rsSegment (p :: l) x
    have e : p :: l = (p :: l).take i ++ (p :: l).getD i (0, 0) :: (p :: l).getD (i + 1) (0, 0) :: (p :: l).drop (i + 2) := by
      rw [List.getD_eq_getElem _ _ (by omega), List.getD_eq_getElem _ _ s1]
      have d1 := List.drop_eq_getElem_cons (l := p :: l) (i := i) (by omega)
      have d2 := List.drop_eq_getElem_cons (l := p :: l) (i := i + 1) (by omega)
      conv_lhs => rw [← List.take_append_drop i (p :: l), d1, d2]
    rw [Except.ok.injEq]
    conv_rhs => rw [e]
    refine rsOnSegment_eq (by rw [← e]; exact hst) ?_ ?_
    · rcases s2 with s2 | s2
      · left; rw [s2]; rfl
      · exact .inr s2
    · rcases s3 with s3 | s3
      · left; exact List.drop_eq_nil_of_le (by omega)
      · exact .inr s3

theorem rsMapM_ok {A B : Type*} {f : A → Except RsErr B} {g : A → B} :
    ∀ {l : List A}, (∀ a ∈ l, f a = .ok (g a)) → rsMapM f l = .ok (l.map g)
  | [], _ => rfl
  | a :: l, h => by
    rw [rsMapM, h a (by simp), rsMapM_ok fun b hb => h b (List.mem_cons_of_mem _ hb)]; rfl

theorem rsArrMin_eq : ∀ l : List K, rsArrMin l = listMin l
  | [] => rfl
  | [a] => rfl
  | a :: b :: l => by
    have h : ∀ (l : List K) (x y : K), (y :: l).foldl min x = min x (l.foldl min y) := by
      intro l
      induction l with
      | nil => intro x y; rfl
      | cons c l ih => intro x y; simp only [List.foldl_cons] at *; rw [min_assoc, ih]
    have q := rsArrMin_eq (b :: l)
    change (b :: l).foldl min a = min a (listMin (b :: l))
    rw [h, ← q]; rfl

theorem rsFcPercOut_eq : (rsFcPercOut : List K) = fcPercOutArray := by
  rw [fcPercOutArray_eq]
  unfold rsFcPercOut
  congr 1

theorem rsMcPercOut_eq : (rsMcPercOut : List K) = mcPercOutArray := rfl

theorem rsLarge_eq : (rsLargeBaselineEff : List K) = largeBaselineEff := rfl
theorem rsSmall_eq : (rsSmallBaselineEff : List K) = smallBaselineEff := rfl

end
end Fastsim
