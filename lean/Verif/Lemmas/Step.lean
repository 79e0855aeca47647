import Verif.Spec.Sim
import Verif.Lemmas.Dist
import Verif.Model.Post
import Mathlib.Algebra.BigOperators.Group.Finset.Basic
import Mathlib.Algebra.BigOperators.Fin
import Mathlib.Algebra.Order.BigOperators.Group.Finset
import Mathlib.Tactic.Ring
import Mathlib.Tactic.Linarith
import Mathlib.Tactic.FieldSimp
import Mathlib.Tactic.Positivity

/-!
# Lemmas about one solved step and about sums over a run
-/

set_option linter.unusedSectionVars false

namespace Fastsim
open Spec

section Lawless
variable {K : Type*} [Zero K] [One K] [NatCast K] [Add K] [Sub K] [Mul K] [Div K] [Neg K]
  [LinearOrder K]
variable (F : Fns K) (V : Veh K) (P : StepParams K) (E : StepEnv K) (p : Row K) (st : Stale K)

/-- The power figures of a solved step are those of some speed at the end of the step. -/
theorem solveStep_pow : ∃ v, (solveStep F V P E p st).pow =
    powerAt F V P E p (setCompLims F V P E p (setMisc V E p)) v := by
  by_cases hc : (setPowerCalcs F V P E p (setCompLims F V P E p (setMisc V E p)) st).cycMet = true
  · refine ⟨if 0 < st.newtonIters then st.mpsAch else E.mps, ?_⟩
    simp only [solveStep, setAchSpeed, if_pos hc]; rfl
  · exact ⟨(gradeLoop F V P E p.ach.mpsAch
      (setCompLims F V P E p (setMisc V E p)).curMaxTransKwOut 3 E.gradeEst
      (st.newtonIters, st.mpsAch)).2, by
        simp only [solveStep, setAchSpeed, if_neg hc]⟩

theorem solveStep_lims : (solveStep F V P E p st).lims = setCompLims F V P E p (setMisc V E p) := rfl
theorem solveStep_misc : (solveStep F V P E p st).misc = setMisc V E p := rfl

/-- Achieved transmission output is the smaller of requested output and limit. -/
theorem powerAt_out (L : Lims K) (v : K) : (powerAt F V P E p L v).transKwOutAch =
    min (powerAt F V P E p L v).cycTransKwOutReq L.curMaxTransKwOut :=
  (min_def (powerAt F V P E p L v).cycTransKwOutReq L.curMaxTransKwOut).symm

theorem solveStep_out : (solveStep F V P E p st).pow.transKwOutAch =
    min (solveStep F V P E p st).pow.cycTransKwOutReq
      (solveStep F V P E p st).lims.curMaxTransKwOut := by
  obtain ⟨v, hv⟩ := solveStep_pow F V P E p st
  rw [hv, powerAt_out]; rfl

theorem solveStep_in : (solveStep F V P E p st).pow.transKwInAch =
    transKwIn V (solveStep F V P E p st).pow.transKwOutAch := by
  obtain ⟨v, hv⟩ := solveStep_pow F V P E p st
  rw [hv]; rfl

/-- `np.argmax(arr > x)` points into the array or is 0. -/
theorem argmaxGt_lt (arr : List K) (x : K) (h : 0 < arr.length) : argmaxGt arr x < arr.length := by
  unfold argmaxGt argmaxBool
  split
  · rename_i i hi
    have := List.findIdx?_eq_some_iff_findIdx_eq.1 hi
    simpa using this.1
  · exact h

/-- A table lookup returns an entry of the table. -/
theorem lookupM1_mem (arr vals : List K) (x : K) (hv : vals ≠ []) (h : arr.length ≤ vals.length) :
    lookupM1 arr vals x ∈ vals := by
  unfold lookupM1
  simp only
  split
  · rw [List.getLast?_eq_some_getLast hv]; exact List.getLast_mem hv
  · rename_i hk
    have : argmaxGt arr x - 1 < vals.length := by
      rcases arr with _ | ⟨a, l⟩
      · simp [argmaxGt, argmaxBool] at hk
      · have := argmaxGt_lt (a :: l) x (by simp); omega
    rw [List.getD_eq_getElem?_getD, List.getElem?_eq_getElem this]
    exact List.getElem_mem _

/-- The other form of table lookup never returns the first entry. -/
theorem lookupMax1_mem (arr vals : List K) (x : K) (hv : 1 < vals.length)
    (h : arr.length ≤ vals.length) : lookupMax1 arr vals x ∈ vals.tail := by
  unfold lookupMax1
  have : max 1 (argmaxGt arr x - 1) < vals.length := by
    rcases arr with _ | ⟨a, l⟩
    · simpa [argmaxGt, argmaxBool] using hv
    · have := argmaxGt_lt (a :: l) x (by simp); omega
  rw [List.getD_eq_getElem?_getD, List.getElem?_eq_getElem this]
  rcases vals with _ | ⟨b, m⟩
  · simp at hv
  · obtain ⟨k, hk⟩ : ∃ k, max 1 (argmaxGt arr x - 1) = k + 1 := ⟨_, (Nat.sub_add_cancel (by omega)).symm⟩
    simp only [hk, List.getElem_cons_succ, Option.getD_some, List.tail_cons]
    exact List.getElem_mem _

end Lawless

section Field
variable {K : Type*} [Field K] [LinearOrder K] [IsStrictOrderedRing K]

theorem diff_length (a : K) (l : List K) : (diff (a :: l)).length = l.length := by
  induction l generalizing a with
  | nil => rfl
  | cons b l ih => simp [diff, ih]

theorem dtS_length (c : Cyc K) : (dtS c).length = c.length := by
  simp [dtS, diff_length, Cyc.times]

theorem diff_get (a : K) (l : List K) (i : Nat) (h : i < l.length) :
    (diff (a :: l))[i]? = some (l.getD i 0 - (a :: l).getD i 0) := by
  induction l generalizing a i with
  | nil => simp at h
  | cons b l ih =>
    cases i with
    | zero => simp [diff]
    | succ i =>
      rw [diff, List.getElem?_cons_succ, ih b i (by simpa using h)]
      simp

/-- For a real step the array `dt_s` and `dt_s_at_i` agree. -/
theorem dtS_get (c : Cyc K) (i : Nat) (h1 : 1 ≤ i) (h : i < c.length) :
    (dtS c).getD i 0 = dtAt c i := by
  obtain ⟨k, rfl⟩ : ∃ k, i = k + 1 := ⟨i - 1, by omega⟩
  rw [List.getD_eq_getElem?_getD, dtS, diff_get 0 _ _ (by simpa [Cyc.times] using h)]
  simp [dtAt]

/-- The first entry of `dt_s` is the first time stamp, not zero. -/
theorem dtS_zero (c : Cyc K) : (dtS c).getD 0 0 = c.times.getD 0 0 := by
  cases c with
  | nil => simp [dtS, diff, Cyc.times]
  | cons a c => simp [dtS, diff, Cyc.times]

theorem zipWith_sum {α β : Type*} (f : α → β → K) (a : α) (b : β) :
    ∀ (l : List α) (m : List β), l.length = m.length →
      (List.zipWith f l m).sum = ∑ i ∈ Finset.range l.length, f (l.getD i a) (m.getD i b)
  | [], [], _ => by simp
  | x :: l, y :: m, h => by
    rw [List.zipWith_cons_cons, List.sum_cons, zipWith_sum f a b l m (by simpa using h),
      List.length_cons, Finset.sum_range_succ']
    simp [add_comm]
  | [], _ :: _, h => by simp at h
  | _ :: _, [], h => by simp at h

/-- Row `i` of the object. -/
abbrev Sim.row (s : Sim K) (i : Nat) : Row K := s.rows.getD i Row.zero

/-- `(x * cyc.dt_s).sum()` as a sum over indices. -/
theorem sumDt_eq (s : Sim K) (f : Row K → K) (h : s.rows.length = s.cyc.length) :
    sumDt s f = ∑ i ∈ Finset.range s.cyc.length, f (s.row i) * (dtS s.cyc).getD i 0 := by
  unfold sumDt
  rw [npSum_eq, zipWith_sum _ Row.zero 0 _ _ (by rw [h, dtS_length]), h]

/-- For a channel that is zero at index 0, `(x * cyc.dt_s).sum()` is the sum over the steps. -/
theorem sumDt_steps (s : Sim K) (f : Row K → K) (h : s.rows.length = s.cyc.length)
    (h0 : f (s.row 0) = 0) :
    sumDt s f = ∑ i ∈ Finset.range (s.cyc.length - 1), f (s.row (i + 1)) * dtAt s.cyc (i + 1) := by
  rw [sumDt_eq s f h]
  rcases hn : s.cyc.length with _ | n
  · simp
  · rw [Finset.sum_range_succ', h0, zero_mul, add_zero, Nat.add_sub_cancel]
    refine Finset.sum_congr rfl fun i hi => ?_
    rw [dtS_get _ _ (by omega) (by have := Finset.mem_range.1 hi; omega)]

end Field
end Fastsim

namespace Fastsim
open Spec
section Lawless
variable {K : Type*} [Zero K] [One K] [NatCast K] [Add K] [Sub K] [Mul K] [Div K] [Neg K]
  [LinearOrder K]
variable {F : Fns K} {H : Hooks K} {V : Veh K} {P : SimParams K}

theorem Spec.Finished.lenRows (hH : H.Local) {s : Sim K} (h : Finished F H V P s) :
    s.rows.length = s.cyc.length := (Reachable.inv hH h.reachable).1.lenRows

theorem Spec.Finished.lenAux (hH : H.Local) {s : Sim K} (h : Finished F H V P s) :
    s.aux.length = s.cyc.length := (Reachable.inv hH h.reachable).1.lenAux

theorem Spec.Finished.pos (hH : H.Local) {s : Sim K} (h : Finished F H V P s) :
    0 < s.cyc.length := (Reachable.inv hH h.reachable).2.1

/-- Row 0 of a run. -/
theorem Spec.Reachable.row0 (hH : H.Local) {s : Sim K} (h : Reachable F H V P s) :
    ∃ soc, (V.ptType = .conv ∨ (V.minSoc ≤ soc ∧ soc ≤ V.maxSoc)) ∧
      s.rows.getD 0 Row.zero = Row.init V soc (s.cyc0.speeds.getD 0 0) (s.aux.getD 0 0) := by
  obtain ⟨-, -, soc, h1, h2⟩ := Reachable.inv hH h
  exact ⟨soc, h1, by rw [List.getD_eq_getElem?_getD, h2]; rfl⟩

/-- Row `i` of a run. -/
theorem Spec.Reachable.rowS (hH : H.Local) {s : Sim K} (h : Reachable F H V P s) (i : Nat) (hi : 1 ≤ i)
    (hlt : i < s.i) : ∃ E st, E.dt = dtAt s.cyc i ∧ E.roadKw = 0 ∧ E.auxIn = s.aux.getD i 0 ∧
      s.rows.getD i Row.zero =
        solveStep F V P.toStepParams E (s.rows.getD (i - 1) Row.zero) st := by
  obtain ⟨hI, -⟩ := Reachable.inv hH h
  obtain ⟨E, st, h1, h2, h3, h4⟩ := hI.solved i hi hlt
  exact ⟨E, st, h1, h2, by rw [List.getD_eq_getElem?_getD, h3]; rfl,
    by rw [List.getD_eq_getElem?_getD (i := i), h4]; rfl⟩

/-- A property of all rows of a finished run, from a property of each step. -/
theorem Spec.Finished.forall_rows (hH : H.Local) {s : Sim K} (h : Finished F H V P s) (Q : Row K → K → Prop)
    (hstep : ∀ i p r dt a, StepAt s i p r dt a → Q r dt) :
    ∀ i, 1 ≤ i → i < s.cyc.length → Q (s.rows.getD i Row.zero) (dtAt s.cyc i) := by
  intro i h1 h2
  obtain ⟨p, r, dt, a, hs⟩ := stepAt_exists hH h.reachable h1 (by rw [h.atEnd]; exact h2)
  have := hstep i p r dt a hs
  rw [List.getD_eq_getElem?_getD, hs.row, ← hs.dt]
  exact this

end Lawless

section Field
variable {K : Type*} [Field K] [LinearOrder K] [IsStrictOrderedRing K]
variable {F : Fns K} {H : Hooks K} {V : Veh K} {P : SimParams K}

/-- A non-negative channel has a non-negative energy. -/
theorem Spec.Finished.sumDt_nonneg (hH : H.Local) {s : Sim K} (h : Finished F H V P s) (f : Row K → K)
    (h0 : ∀ soc m a, f (Row.init V soc m a) = 0)
    (hf : ∀ i p r dt a, StepAt s i p r dt a → 0 ≤ f r * dt) : 0 ≤ sumDt s f := by
  obtain ⟨soc, -, hr⟩ := Reachable.row0 hH h.reachable
  rw [sumDt_steps s f (h.lenRows hH) (by rw [Sim.row, hr, h0])]
  refine Finset.sum_nonneg fun i hi => ?_
  have hi' := Finset.mem_range.1 hi
  exact Finished.forall_rows hH h (fun r dt => 0 ≤ f r * dt) hf (i + 1) (by omega) (by omega)

end Field
end Fastsim
