import Mathlib.Algebra.Order.BigOperators.GroupWithZero.List
import Mathlib.Tactic.Linarith
import Mathlib.Tactic.Ring
import Verif.Lemmas.Dist
import Verif.Lemmas.Basic
import Verif.Spec.Demo

/-!
# C29: trace-miss time dilation
-/

set_option linter.unusedSectionVars false

namespace Fastsim.Spec

section
variable {K : Type*} [Field K]

/-- Duration of step `i` (from sample `i - 1` to sample `i`). -/
def duration (c : Cyc K) (i : Nat) : K := ((c.map Sample.t).getD i 0) - ((c.map Sample.t).getD (i - 1) 0)

/-- Total stretching of a step that is stretched by `1 + t` for each `t` in turn. -/
def stretch : List K → K
  | [] => 1
  | t :: ts => (1 + t) * stretch ts

/-- Distance the trace asks for in steps `1 .. i` (speed at the end of a step times duration). -/
def askedM (c : Cyc K) : Nat → K
  | 0 => (c.map Sample.v).getD 0 0 * (c.map Sample.t).getD 0 0
  | i + 1 => askedM c i + (c.map Sample.v).getD (i + 1) 0 * duration c (i + 1)

/-- Distance driven up to step `i`. -/
def drivenM (rows : List (Row K)) : Nat → K
  | 0 => ((rows.map fun r => r.ach.distM).getD 0 0)
  | i + 1 => drivenM rows i + ((rows.map fun r => r.ach.distM).getD (i + 1) 0)

end

section
variable {K : Type*} [Field K] [LinearOrder K]

/-- The distance driven is within the relative tolerance of the distance asked for. -/
def OnTrace (tol : K) (s : Sim K) : Prop :=
  |askedM s.cyc0 s.i - drivenM s.rows s.i| / askedM s.cyc0 s.i < tol

/-- `c'` is `c` with only the duration of step `i` changed, by the factor `f`: earlier samples and all
speeds, grades and road types are kept, later samples move together. -/
structure OnlyStep (i : Nat) (f : K) (c c' : Cyc K) : Prop where
  length : c'.length = c.length
  before : ∀ j, j < i → c'[j]? = c[j]?
  after : ∀ j a, i ≤ j → c[j]? = some a → c'[j]? = some { a with t := a.t + duration c i * (f - 1) }
  step : duration c' i = duration c i * f
  other : ∀ j, 1 ≤ j → j < c.length → j ≠ i → duration c' j = duration c j

end
end Fastsim.Spec

namespace Fastsim.Props
open Fastsim Spec

section Field
variable {K : Type*} [Field K] [LinearOrder K] [IsStrictOrderedRing K]
variable {F : Fns K} {H : Hooks K} {V : Veh K} {P : SimParams K}

theorem shiftTimesFrom_get (c : Cyc K) (i : Nat) (x : K) (j : Nat) :
    (shiftTimesFrom c i x)[j]? = (c[j]?).map fun s => if i ≤ j then { s with t := s.t + x } else s := by
  unfold shiftTimesFrom
  rw [List.getElem?_mapIdx]

theorem shiftTimesFrom_shift (c : Cyc K) (i : Nat) (x y : K) :
    shiftTimesFrom (shiftTimesFrom c i x) i y = shiftTimesFrom c i (x + y) := by
  apply List.ext_getElem?
  intro j
  rw [shiftTimesFrom_get, shiftTimesFrom_get, shiftTimesFrom_get, Option.map_map]
  congr 1
  funext s
  by_cases h : i ≤ j
  · simp [h, add_assoc]
  · simp [h]

theorem shiftTimesFrom_zero (c : Cyc K) (i : Nat) : shiftTimesFrom c i 0 = c := by
  apply List.ext_getElem?
  intro j
  rw [shiftTimesFrom_get]
  cases c[j]? <;> simp

theorem dtAt_eq_duration (c : Cyc K) (i : Nat) (h1 : 1 ≤ i) : dtAt c i = duration c i := by
  unfold dtAt duration
  rw [if_neg (by omega)]
  rfl

theorem times_getD_shift (c : Cyc K) (i : Nat) (x : K) (j : Nat) (hj : j < c.length) :
    ((shiftTimesFrom c i x).map Sample.t).getD j 0 =
      (c.map Sample.t).getD j 0 + (if i ≤ j then x else 0) := by
  rw [List.getD_eq_getElem?_getD, List.getD_eq_getElem?_getD, List.getElem?_map, List.getElem?_map,
    shiftTimesFrom_get, List.getElem?_eq_getElem hj]
  by_cases h : i ≤ j <;> simp [h]

theorem duration_shift (c : Cyc K) (i : Nat) (x : K) (j : Nat) (h1 : 1 ≤ j) (hj : j < c.length) :
    duration (shiftTimesFrom c i x) j = duration c j + (if j = i then x else 0) := by
  unfold duration
  rw [times_getD_shift c i x j hj, times_getD_shift c i x (j - 1) (by omega)]
  by_cases h : j = i
  · subst h
    rw [if_pos (le_refl _), if_neg (by omega : ¬ j ≤ j - 1), if_pos rfl]
    ring
  · rw [if_neg h]
    by_cases h2 : i ≤ j
    · rw [if_pos h2, if_pos (by omega)]
      ring
    · rw [if_neg h2, if_neg (by omega)]
      ring

theorem shiftTimesFrom_onlyStep (c : Cyc K) (i : Nat) (f : K) (h1 : 1 ≤ i) (hi : i < c.length) :
    OnlyStep i f c (shiftTimesFrom c i (duration c i * (f - 1))) := by
  refine ⟨length_shiftTimesFrom _ _ _, fun j hj => ?_, fun j a hj ha => ?_, ?_, fun j h1 hj hne => ?_⟩
  · rw [shiftTimesFrom_get, if_neg' hj]
  · rw [shiftTimesFrom_get, ha]; simp [hj]
  · rw [duration_shift c i _ i h1 hi, if_pos rfl]; ring
  · rw [duration_shift c i _ j h1 hj, if_neg hne, add_zero]
where
  if_neg' {c : Cyc K} {i j : Nat} {x : K} (hj : j < i) :
      ((c[j]?).map fun s => if i ≤ j then { s with t := s.t + x } else s) = c[j]? := by
    have : ¬ i ≤ j := by omega
    cases c[j]? <;> simp [this]

theorem stretch_append (a b : List K) : stretch (a ++ b) = stretch a * stretch b := by
  induction a with
  | nil => simp [stretch]
  | cons t a ih => simp [stretch, ih, mul_assoc]

theorem stretch_pos {ts : List K} (h : ∀ t ∈ ts, -1 < t) : 0 < stretch ts := by
  induction ts with
  | nil => simp [stretch]
  | cons t ts ih =>
    rw [stretch]
    have := h t (by simp)
    exact mul_pos (by linarith) (ih fun x hx => h x (by simp [hx]))

theorem stretch_le {ts : List K} {lo hi : K} (hlo : -1 ≤ lo) (h : ∀ t ∈ ts, lo ≤ t ∧ t ≤ hi) :
    (1 + lo) ^ ts.length ≤ stretch ts ∧ stretch ts ≤ (1 + hi) ^ ts.length := by
  induction ts with
  | nil => simp [stretch]
  | cons t ts ih =>
    obtain ⟨i1, i2⟩ := ih fun x hx => h x (by simp [hx])
    obtain ⟨h1, h2⟩ := h t (by simp)
    have p1 : (0 : K) ≤ (1 + lo) ^ ts.length := pow_nonneg (by linarith) _
    rw [stretch, List.length_cons, pow_succ', pow_succ']
    exact ⟨mul_le_mul (by linarith) i1 p1 (by linarith),
      mul_le_mul (by linarith) i2 (by linarith) (by linarith)⟩

theorem clampDilation_mem (h : P.minTimeDilation ≤ P.maxTimeDilation) (x : K) :
    P.minTimeDilation ≤ clampDilation P x ∧ clampDilation P x ≤ P.maxTimeDilation :=
  ⟨le_min (le_max_right _ _) h, min_le_right _ _⟩

/-- What a series of corrections `ts` of the current step leaves behind. -/
structure Dilated (P : SimParams K) (s : Sim K) (ts : List K) (s' : Sim K) : Prop where
  cyc : s'.cyc = shiftTimesFrom s.cyc s.i (duration s.cyc s.i * (stretch ts - 1))
  i : s'.i = s.i
  cyc0 : s'.cyc0 = s.cyc0
  bound : P.minTimeDilation ≤ P.maxTimeDilation →
    ∀ t ∈ ts, P.minTimeDilation ≤ t ∧ t ≤ P.maxTimeDilation
  miss : s'.missIters = s.missIters.modify s.i (· + ts.length)

theorem Dilated.one (s : Sim K) (x : K) (h1 : 1 ≤ s.i) :
    Dilated P s [clampDilation P x] (bumpMiss (dilateAndSolve F V P s (clampDilation P x))) := by
  refine ⟨?_, rfl, rfl, fun h t ht => ?_, rfl⟩
  · show shiftTimesFrom s.cyc s.i (dtAt s.cyc s.i * clampDilation P x) = _
    rw [dtAt_eq_duration _ _ h1]
    congr 1
    simp only [stretch]
    ring
  · rw [List.mem_singleton.1 ht]
    exact clampDilation_mem h x

theorem Dilated.trans {s s' s'' : Sim K} {a b : List K} (h : Dilated P s a s') (h' : Dilated P s' b s'')
    (h1 : 1 ≤ s.i) (hi : s.i < s.cyc.length) : Dilated P s (a ++ b) s'' := by
  refine ⟨?_, h'.i.trans h.i, h'.cyc0.trans h.cyc0, fun hb t ht => ?_, ?_⟩
  · rw [h'.cyc, h.i, h.cyc, shiftTimesFrom_shift, duration_shift _ _ _ _ h1 hi, if_pos rfl,
      stretch_append]
    congr 1
    ring
  · rcases List.mem_append.1 ht with ht | ht
    · exact h.bound hb t ht
    · exact h'.bound hb t ht
  · rw [h'.miss, h.i, h.miss, List.length_append]
    apply List.ext_getElem?
    intro j
    simp only [List.getElem?_modify]
    cases s.missIters[j]? with
    | none => rfl
    | some m => by_cases hj : s.i = j <;> simp [hj, Nat.add_assoc]

theorem Dilated.len {s s' : Sim K} {a : List K} (h : Dilated P s a s') : s'.cyc.length = s.cyc.length := by
  rw [h.cyc, length_shiftTimesFrom]

theorem dilationLoop_spec (iters : Nat) (t tPrev dPrev : K) (s : Sim K) (h1 : 1 ≤ s.i)
    (hi : s.i < s.cyc.length) :
    ∃ ts t', Dilated P s (ts ++ [t']) (dilationLoop F V P iters t tPrev dPrev s) ∧
      iters + ts.length + 1 ≤ max (iters + 1) P.maxTraceMissIters ∧
      (distConverged P (dilationLoop F V P iters t tPrev dPrev s) = true ∨
        P.maxTraceMissIters ≤ iters + ts.length + 1 ∨ atDilationBound P t' = true) := by
  fun_induction dilationLoop F V P iters t tPrev dPrev s with
  | case1 iters t tPrev dPrev s d t' s' h =>
    refine ⟨[], t', Dilated.one s _ h1, ?_, ?_⟩
    · simp
    · simpa using h
  | case2 iters t tPrev dPrev s d t' s' h ih =>
    have hd : Dilated P s [t'] s' := Dilated.one s _ h1
    obtain ⟨ts, u, q1, q2, q3⟩ := ih (by rw [hd.i]; exact h1) (by rw [hd.i, hd.len]; exact hi)
    have hn : ¬ P.maxTraceMissIters ≤ iters + 1 := fun e => h (Or.inr (Or.inl e))
    refine ⟨t' :: ts, u, hd.trans q1 h1 hi, ?_, ?_⟩
    · rw [List.length_cons]
      have := q2
      omega
    · rw [List.length_cons, show iters + (ts.length + 1) + 1 = iters + 1 + ts.length + 1 by omega]
      exact q3

theorem setTimeDilation_spec (s : Sim K) (h1 : 1 ≤ s.i) (hi : s.i < s.cyc.length)
    (hm : s.missIters[s.i]? = some 0) :
    ∃ ts, Dilated P s ts (setTimeDilation F V P s) ∧ ts.length ≤ max 2 P.maxTraceMissIters ∧
      (ts = [] → setTimeDilation F V P s = s) ∧
      (distConverged P (setTimeDilation F V P s) = true ∨ s.cyc.speeds.getD s.i 0 = 0 ∨
        P.maxTraceMissIters ≤ ts.length ∨ ∃ t, ts.getLast? = some t ∧ atDilationBound P t = true) := by
  unfold setTimeDilation
  split
  · rename_i h
    refine ⟨[], ⟨?_, rfl, rfl, fun _ t ht => by simp at ht, ?_⟩, by simp, fun _ => rfl, ?_⟩
    · simp [stretch, shiftTimesFrom_zero]
    · apply List.ext_getElem?
      intro j
      simp only [List.getElem?_modify]
      cases s.missIters[j]? with
      | none => rfl
      | some m => by_cases hj : s.i = j <;> simp [hj]
    · rcases h with h | h
      · exact .inl h
      · exact .inr (.inl h)
  · simp only
    generalize (targetDist s - achievedDist s) / dtAt s.cyc0 s.i /
        (s.rows.getD s.i Row.zero).ach.mpsAch = x
    have hd : Dilated P s [clampDilation P x] (dilateAndSolve F V P (bumpMiss s) (clampDilation P x)) := by
      have := Dilated.one (F := F) (V := V) (P := P) s x h1
      exact ⟨this.cyc, this.i, this.cyc0, this.bound, this.miss⟩
    split
    · rename_i h
      refine ⟨_, hd, by simp, by simp, ?_⟩
      rcases h with h | h
      · exact .inl h
      · exact .inr (.inr (.inr ⟨_, rfl, h⟩))
    · have hit : (dilateAndSolve F V P (bumpMiss s) (clampDilation P x)).missIters.getD s.i 0 = 1 := by
        rw [List.getD_eq_getElem?_getD, hd.miss, List.getElem?_modify, hm]
        simp
      rw [hit]
      obtain ⟨ts, u, q1, q2, q3⟩ := dilationLoop_spec (F := F) (V := V) (P := P) 1 (clampDilation P x) 0
        (targetDist s - achievedDist s) (dilateAndSolve F V P (bumpMiss s) (clampDilation P x))
        (by rw [hd.i]; exact h1) (by rw [hd.i, hd.len]; exact hi)
      refine ⟨clampDilation P x :: (ts ++ [u]), hd.trans q1 h1 hi, ?_, by simp, ?_⟩
      · simp only [List.length_cons, List.length_append, List.length_nil]
        omega
      · rcases q3 with q | q | q
        · exact .inl q
        · refine .inr (.inr (.inl ?_))
          simp only [List.length_cons, List.length_append, List.length_nil]
          omega
        · refine .inr (.inr (.inr ⟨u, ?_, q⟩))
          rw [← List.cons_append, List.getLast?_concat]

theorem diff_getD (l : List K) (j : Nat) (h : j + 1 < l.length) :
    (diff l)[j]? = some (l.getD (j + 1) 0 - l.getD j 0) := by
  fun_induction diff l generalizing j with
  | case1 a b l ih =>
    cases j with
    | zero => simp
    | succ j =>
      rw [List.getElem?_cons_succ, ih j (by simpa using h)]
      simp
  | case2 l hl =>
    cases l with
    | nil => simp at h
    | cons a l =>
      cases l with
      | nil => simp at h
      | cons b l => exact absurd rfl (hl a b l)

theorem distM_getD (c : Cyc K) (j : Nat) (hj : j < c.length) :
    (distM c).getD j 0 = (c.map Sample.v).getD j 0 *
      (if j = 0 then (c.map Sample.t).getD 0 0 else duration c j) := by
  unfold distM
  rw [List.getD_eq_getElem?_getD, List.getElem?_zipWith]
  have hv : c.speeds[j]? = some ((c.map Sample.v).getD j 0) := by
    unfold Cyc.speeds
    rw [List.getD_eq_getElem?_getD, List.getElem?_map, List.getElem?_eq_getElem hj]; rfl
  have hd : (dtS c)[j]? = some (if j = 0 then (c.map Sample.t).getD 0 0 else duration c j) := by
    unfold dtS Cyc.times duration
    rw [diff_getD _ _ (by simpa using hj)]
    cases j with
    | zero => simp
    | succ j => simp
  rw [hv, hd]
  rfl

theorem take_succ_sum (l : List K) (i : Nat) : (l.take (i + 1)).sum = (l.take i).sum + l.getD i 0 := by
  rw [List.getD_eq_getElem?_getD, List.take_add_one, List.sum_append]
  cases l[i]? <;> simp

theorem targetDist_eq (s : Sim K) (hi : s.i < s.cyc0.length) : targetDist s = askedM s.cyc0 s.i := by
  unfold targetDist
  rw [npSum_eq]
  generalize s.i = i at hi
  induction i with
  | zero =>
    rw [take_succ_sum, distM_getD _ _ hi, askedM]
    simp
  | succ i ih =>
    rw [take_succ_sum, ih (by omega), distM_getD _ _ hi, askedM]
    simp

theorem achievedDist_eq (s : Sim K) : achievedDist s = drivenM s.rows s.i := by
  unfold achievedDist
  rw [npSum_eq, List.map_take]
  generalize s.i = i
  induction i with
  | zero => rw [take_succ_sum, drivenM]; simp
  | succ i ih => rw [take_succ_sum, ih, drivenM]

theorem distConverged_iff (s : Sim K) (hi : s.i < s.cyc0.length) :
    distConverged P s = true ↔ OnTrace P.timeDilationTol s := by
  unfold distConverged OnTrace
  rw [decide_eq_true_iff, targetDist_eq s hi, achievedDist_eq]
  have : ∀ x : K, pabs x = |x| := fun x => by
    unfold pabs
    split
    · rename_i h; rw [abs_of_neg h]
    · rename_i h; rw [abs_of_nonneg (not_lt.1 h)]
  rw [this]

/-- `set_time_dilation` on the current step of an object whose step has not been corrected yet: it
makes a finite series of corrections, each within the bounds and at most `max(2,
max_trace_miss_iters)` of them, whose only effect on the cycle is on the duration of the current
step; the original cycle is untouched and the corrections are counted. When it returns, the distance
is on trace, or the trace asks for standstill, or the corrections are used up, or the last correction
sits at a bound. If it is on trace at once nothing changes at all. -/
theorem C29_set_time_dilation (s : Sim K) (h1 : 1 ≤ s.i) (hi : s.i < s.cyc.length)
    (hi0 : s.i < s.cyc0.length) (hb : P.minTimeDilation ≤ P.maxTimeDilation)
    (hm : s.missIters[s.i]? = some 0) :
    ∃ ts : List K, (∀ t ∈ ts, P.minTimeDilation ≤ t ∧ t ≤ P.maxTimeDilation) ∧
      ts.length ≤ max 2 P.maxTraceMissIters ∧
      OnlyStep s.i (stretch ts) s.cyc (setTimeDilation F V P s).cyc ∧
      (setTimeDilation F V P s).cyc0 = s.cyc0 ∧
      (setTimeDilation F V P s).missIters[s.i]? = some ts.length ∧
      (OnTrace P.timeDilationTol (setTimeDilation F V P s) ∨ (s.cyc.map Sample.v).getD s.i 0 = 0 ∨
        P.maxTraceMissIters ≤ ts.length ∨ ts.getLast? = some P.minTimeDilation ∨
        ts.getLast? = some P.maxTimeDilation) ∧
      (OnTrace P.timeDilationTol s → setTimeDilation F V P s = s) := by
  obtain ⟨ts, hd, hl, -, hx⟩ := setTimeDilation_spec (F := F) (V := V) (P := P) s h1 hi hm
  refine ⟨ts, hd.bound hb, hl, ?_, hd.cyc0, ?_, ?_, ?_⟩
  · rw [hd.cyc]; exact shiftTimesFrom_onlyStep _ _ _ h1 hi
  · rw [hd.miss, List.getElem?_modify, hm]; simp
  · rcases hx with h | h | h | ⟨t, ht, h⟩
    · exact .inl ((distConverged_iff _ (by rw [hd.i, hd.cyc0]; exact hi0)).1 h)
    · exact .inr (.inl h)
    · exact .inr (.inr (.inl h))
    · have hmem := hd.bound hb t (List.mem_of_getLast? ht)
      unfold atDilationBound at h
      rw [Bool.or_eq_true, decide_eq_true_iff, decide_eq_true_iff] at h
      rcases h with h | h
      · exact .inr (.inr (.inr (.inr (by rw [ht, le_antisymm hmem.2 h]))))
      · exact .inr (.inr (.inr (.inl (by rw [ht, le_antisymm h hmem.1]))))
  · intro h
    have := (distConverged_iff (P := P) s hi0).2 h
    unfold setTimeDilation
    rw [if_pos (.inl this)]

/-- How far the vehicle is behind the trace at the current step. -/
def _root_.Fastsim.Spec.behind (s : Sim K) : K := askedM s.cyc0 s.i - drivenM s.rows s.i

/-- A value brought into the allowed range of corrections. -/
def _root_.Fastsim.Spec.allowed (P : SimParams K) (x : K) : K := min (max x P.minTimeDilation) P.maxTimeDilation

/-- Corrections of the current step by the secant method: from object `s` reached by the correction `t`, with `tp`
and `dp` the correction before it and the distance behind before it, each further correction is the place where the
line through the last two pairs (correction, distance behind) vanishes, brought into the allowed range; it stretches
the current step by one plus itself. -/
inductive _root_.Fastsim.Spec.Secant (P : SimParams K) : (tp dp t : K) → Sim K → List K → Sim K → Prop
  | done (tp dp t : K) (s : Sim K) : Secant P tp dp t s [] s
  | step (tp dp t x : K) (s s1 s' : Sim K) (ts : List K)
      (root : behind s ≠ dp → behind s * (t - tp) + (x - t) * (behind s - dp) = 0)
      (stretched : OnlyStep s.i (1 + allowed P x) s.cyc s1.cyc) (sameStep : s1.i = s.i) (sameTrace : s1.cyc0 = s.cyc0)
      (rest : Secant P t (behind s) (allowed P x) s1 ts s') : Secant P tp dp t s (allowed P x :: ts) s'

theorem behind_eq (s : Sim K) (hi0 : s.i < s.cyc0.length) : targetDist s - achievedDist s = behind s := by
  unfold behind
  rw [targetDist_eq s hi0, achievedDist_eq]

theorem dilationLoop_secant (iters : Nat) (t tPrev dPrev : K) (s : Sim K) (h1 : 1 ≤ s.i)
    (hi : s.i < s.cyc.length) (hi0 : s.i < s.cyc0.length) :
    ∃ ts, ts ≠ [] ∧ Secant P tPrev dPrev t s ts (dilationLoop F V P iters t tPrev dPrev s) := by
  have hroot : ∀ (t tPrev dPrev : K) (s : Sim K), behind s ≠ dPrev →
      behind s * (t - tPrev) + ((t - (t - tPrev) / (behind s - dPrev) * behind s) - t) * (behind s - dPrev) = 0 := by
    intro t tPrev dPrev s h
    have := sub_ne_zero.2 h
    field_simp
    ring
  have hone : ∀ (s : Sim K) (x : K), 1 ≤ s.i → s.i < s.cyc.length →
      OnlyStep s.i (1 + allowed P x) s.cyc (bumpMiss (dilateAndSolve F V P s (clampDilation P x))).cyc := by
    intro s x h1 hi
    have hd : Dilated P s [clampDilation P x] (bumpMiss (dilateAndSolve F V P s (clampDilation P x))) :=
      Dilated.one s x h1
    rw [hd.cyc]
    have : stretch [clampDilation P x] = 1 + allowed P x := by simp [stretch, clampDilation, allowed]
    rw [this]
    exact shiftTimesFrom_onlyStep _ _ _ h1 hi
  fun_induction dilationLoop F V P iters t tPrev dPrev s with
  | case1 iters t tPrev dPrev s d t' s' h =>
    have hd : d = behind s := behind_eq s hi0
    refine ⟨[t'], by simp, ?_⟩
    refine Secant.step tPrev dPrev t (t - (t - tPrev) / (d - dPrev) * d) s s' s' [] ?_ ?_ rfl rfl (Secant.done ..)
    · rw [hd]
      exact hroot t tPrev dPrev s
    · exact hone s _ h1 hi
  | case2 iters t tPrev dPrev s d t' s' h ih =>
    have hd : d = behind s := behind_eq s hi0
    have hD : Dilated P s [t'] s' := Dilated.one s _ h1
    obtain ⟨ts, -, q1⟩ := ih (by rw [hD.i]; exact h1) (by rw [hD.i, hD.len]; exact hi) (by rw [hD.i, hD.cyc0]; exact hi0)
    refine ⟨t' :: ts, by simp, ?_⟩
    refine Secant.step tPrev dPrev t (t - (t - tPrev) / (d - dPrev) * d) s s' _ ts ?_ (hone s _ h1 hi) rfl rfl ?_
    · rw [hd]
      exact hroot t tPrev dPrev s
    · rw [← hd]
      exact q1

/-- **C29 (which corrections).** Off the trace, with a moving trace, the first correction is the distance behind
over the duration of the step in the original trace and over the speed achieved, brought into the allowed range; all
further corrections follow the secant method. -/
theorem C29_secant (s : Sim K) (h1 : 1 ≤ s.i) (hi : s.i < s.cyc.length) (hi0 : s.i < s.cyc0.length)
    (hoff : ¬ OnTrace P.timeDilationTol s) (hmove : (s.cyc.map Sample.v).getD s.i 0 ≠ 0) :
    ∃ s1 ts, OnlyStep s.i (1 + allowed P (behind s / duration s.cyc0 s.i /
          ((s.rows.map fun r => r.ach.mpsAch).getD s.i Row.zero.ach.mpsAch))) s.cyc s1.cyc ∧
      s1.i = s.i ∧ s1.cyc0 = s.cyc0 ∧
      Secant P 0 (behind s) (allowed P (behind s / duration s.cyc0 s.i /
          ((s.rows.map fun r => r.ach.mpsAch).getD s.i Row.zero.ach.mpsAch))) s1 ts (setTimeDilation F V P s) := by
  have hc : ¬ (distConverged P s = true ∨ s.cyc.speeds.getD s.i 0 = 0) := by
    rintro (h | h)
    · exact hoff ((distConverged_iff s hi0).1 h)
    · exact hmove h
  have hrow : (s.rows.map fun r => r.ach.mpsAch).getD s.i Row.zero.ach.mpsAch =
      (s.rows.getD s.i Row.zero).ach.mpsAch := by
    simp only [List.getD_eq_getElem?_getD, List.getElem?_map]
    cases s.rows[s.i]? <;> rfl
  unfold setTimeDilation
  rw [if_neg hc, hrow]
  simp only
  rw [behind_eq s hi0, dtAt_eq_duration _ _ h1]
  set x := behind s / duration s.cyc0 s.i / (s.rows.getD s.i Row.zero).ach.mpsAch with hx
  have hd : Dilated P s [clampDilation P x] (dilateAndSolve F V P (bumpMiss s) (clampDilation P x)) := by
    have := Dilated.one (F := F) (V := V) (P := P) s x h1
    exact ⟨this.cyc, this.i, this.cyc0, this.bound, this.miss⟩
  have hone : OnlyStep s.i (1 + allowed P x) s.cyc (dilateAndSolve F V P (bumpMiss s) (clampDilation P x)).cyc := by
    rw [hd.cyc]
    have : stretch [clampDilation P x] = 1 + allowed P x := by simp [stretch, clampDilation, allowed]
    rw [this]
    exact shiftTimesFrom_onlyStep _ _ _ h1 hi
  refine ⟨dilateAndSolve F V P (bumpMiss s) (clampDilation P x), ?_⟩
  split
  · exact ⟨[], hone, hd.i, hd.cyc0, Secant.done ..⟩
  · obtain ⟨ts, -, q⟩ := dilationLoop_secant (F := F) (V := V) (P := P)
      ((dilateAndSolve F V P (bumpMiss s) (clampDilation P x)).missIters.getD s.i 0) (clampDilation P x) 0
      (behind s) (dilateAndSolve F V P (bumpMiss s) (clampDilation P x)) (by rw [hd.i]; exact h1)
      (by rw [hd.i, hd.len]; exact hi) (by rw [hd.i, hd.cyc0]; exact hi0)
    exact ⟨ts, hone, hd.i, hd.cyc0, q⟩

end Field

section Lawless
variable {K : Type*} [Zero K] [One K] [NatCast K] [Add K] [Sub K] [Mul K] [Div K] [Neg K]
  [LinearOrder K]

/-- A hook that leaves the correction counters alone. -/
def HookKeepMiss (h : Sim K → Except PyErr (Sim K)) : Prop :=
  ∀ s s', h s = .ok s' → s'.missIters = s.missIters

/-- Both hooks, where they are in use, leave the correction counters alone. -/
structure _root_.Fastsim.Hooks.KeepMiss (H : Hooks K) : Prop where
  idm : HookKeepMiss H.idm
  coast : HookKeepMiss H.coast

end Lawless

section Field
variable {K : Type*} [Field K] [LinearOrder K] [IsStrictOrderedRing K]
variable {F : Fns K} {H : Hooks K} {V : Veh K} {P : SimParams K}

/-- Durations only depend on the times. -/
theorem duration_congr {c c' : Cyc K} (h : Cyc.times c' = Cyc.times c) (i : Nat) :
    duration c' i = duration c i := by
  unfold duration
  unfold Cyc.times at h
  rw [h]

/-- State between two steps of a run with time dilation. -/
structure DilInv (P : SimParams K) (s : Sim K) : Prop where
  len : s.cyc.length = s.cyc0.length
  lenMiss : s.missIters.length = s.cyc.length
  fresh : ∀ j, s.i ≤ j → j < s.cyc.length → s.missIters[j]? = some 0
  start : (s.cyc.map Sample.t).getD 0 0 = (s.cyc0.map Sample.t).getD 0 0
  done : ∀ j, 1 ≤ j → j < s.i → ∃ ts : List K,
    (∀ t ∈ ts, P.minTimeDilation ≤ t ∧ t ≤ P.maxTimeDilation) ∧
    ts.length ≤ max 2 P.maxTraceMissIters ∧ s.missIters[j]? = some ts.length ∧
    duration s.cyc j = duration s.cyc0 j * stretch ts
  todo : ∀ j, s.i ≤ j → j < s.cyc.length → duration s.cyc j = duration s.cyc0 j

theorem solveAndCorrect_dil (hb : P.minTimeDilation ≤ P.maxTimeDilation) (s : Sim K) (h1 : 1 ≤ s.i)
    (hi : s.i < s.cyc.length) (hm : s.missIters[s.i]? = some 0) :
    ∃ ts, Dilated P s ts (solveAndCorrect F V P s) ∧ ts.length ≤ max 2 P.maxTraceMissIters := by
  unfold solveAndCorrect
  simp only
  split
  · obtain ⟨ts, hd, hl, -⟩ := setTimeDilation_spec (F := F) (V := V) (P := P) (Sim.solve F V P s) h1 hi hm
    exact ⟨ts, ⟨hd.cyc, hd.i, hd.cyc0, hd.bound, hd.miss⟩, hl⟩
  · refine ⟨[], ⟨?_, rfl, rfl, fun _ t ht => by simp at ht, ?_⟩, by simp⟩
    · simp [stretch, shiftTimesFrom_zero, Sim.solve]
    · apply List.ext_getElem?
      intro j
      simp only [List.getElem?_modify, Sim.solve]
      cases s.missIters[j]? with
      | none => rfl
      | some m => by_cases hj : s.i = j <;> simp [hj]

theorem DilInv.finish (hb : P.minTimeDilation ≤ P.maxTimeDilation) {s s1 : Sim K} (h : DilInv P s)
    (h1 : 1 ≤ s.i) (hi : s.i < s.cyc.length) {ts : List K} (hd : Dilated P s ts s1)
    (hl : ts.length ≤ max 2 P.maxTraceMissIters) : DilInv P (finishStep F P s1) := by
  have ht := finishStep_times F P s1
  have ha := finishStep_agree F P 0 s1
  have hi' := finishStep_i F P s1
  have hm' : (finishStep F P s1).missIters = s1.missIters := by
    unfold finishStep; simp only; split <;> rfl
  have hlen : s1.cyc.length = s.cyc.length := hd.len
  have hos := shiftTimesFrom_onlyStep s.cyc s.i (stretch ts) h1 hi
  rw [← hd.cyc] at hos
  have hdur : ∀ j, duration (finishStep F P s1).cyc j = duration s1.cyc j := fun j => duration_congr ht j
  refine ⟨?_, ?_, ?_, ?_, ?_, ?_⟩
  · rw [ha.lenCyc, ha.cyc0, hlen, hd.cyc0, h.len]
  · rw [hm', ha.lenCyc, hlen, hd.miss, List.length_modify, h.lenMiss]
  · intro j hj hjl
    rw [hi', hd.i] at hj
    rw [ha.lenCyc, hlen] at hjl
    have hne : ¬ s.i = j := by omega
    rw [hm', hd.miss, List.getElem?_modify, h.fresh j (by omega) hjl]
    simp [hne]
  · rw [ha.cyc0, hd.cyc0, ← h.start]
    have : (Cyc.times (finishStep F P s1).cyc).getD 0 0 = (Cyc.times s1.cyc).getD 0 0 := by rw [ht]
    unfold Cyc.times at this
    rw [this, hd.cyc, times_getD_shift _ _ _ _ (by omega), if_neg (by omega), add_zero]
  · intro j hj hj2
    rw [hi', hd.i] at hj2
    rw [hdur, ha.cyc0, hd.cyc0, hm', hd.miss]
    by_cases e : j = s.i
    · subst e
      refine ⟨ts, hd.bound hb, hl, ?_, ?_⟩
      · rw [List.getElem?_modify, h.fresh _ le_rfl hi]; simp
      · rw [hos.step, h.todo _ le_rfl hi]
    · obtain ⟨us, a, b, c, d⟩ := h.done j hj (by omega)
      refine ⟨us, a, b, ?_, ?_⟩
      · have hne : ¬ s.i = j := fun x => e x.symm
        rw [List.getElem?_modify, c]; simp [hne]
      · rw [hos.other j hj (by omega) e, d]
  · intro j hj hjl
    rw [hi', hd.i] at hj
    rw [ha.lenCyc, hlen] at hjl
    rw [hdur, ha.cyc0, hd.cyc0, hos.other j (by omega) hjl (by omega), h.todo j (by omega) hjl]

theorem DilInv.solve (hb : P.minTimeDilation ≤ P.maxTimeDilation) {s : Sim K} (h : DilInv P s)
    (h1 : 1 ≤ s.i) (hi : s.i < s.cyc.length) :
    DilInv P (finishStep F P (solveAndCorrect F V P s)) := by
  obtain ⟨ts, hd, hl⟩ := solveAndCorrect_dil (F := F) (V := V) hb s h1 hi (h.fresh _ le_rfl hi)
  exact h.finish hb h1 hi hd hl

theorem DilInv.hook {s s' : Sim K} (h : DilInv P s) (ha : AgreeBefore s.i s s') (hi : s'.i = s.i)
    (ht : Cyc.times s'.cyc = Cyc.times s.cyc) (hm : s'.missIters = s.missIters) : DilInv P s' := by
  have hdur : ∀ j, duration s'.cyc j = duration s.cyc j := fun j => duration_congr ht j
  refine ⟨by rw [ha.lenCyc, ha.cyc0, h.len], by rw [hm, ha.lenCyc, h.lenMiss], ?_, ?_, ?_, ?_⟩
  · rw [hm, hi, ha.lenCyc]; exact h.fresh
  · unfold Cyc.times at ht; rw [ht, ha.cyc0]; exact h.start
  · rw [hm, hi, ha.cyc0]; simp only [hdur]; exact h.done
  · rw [hi, ha.cyc0, ha.lenCyc]; simp only [hdur]; exact h.todo

theorem Reachable.dilInv (hH : H.Local) (hM : H.KeepMiss) (hm : P.missedTrace = true)
    (hb : P.minTimeDilation ≤ P.maxTimeDilation) {s : Sim K} (h : Reachable F H V P s) : DilInv P s := by
  induction h with
  | init hlen h =>
    rename_i s0 s1 soc aux
    have q := initForStep_spec hlen h
    have hc : s1.cyc = s1.cyc0 := by
      rw [q.eq]; simp [initState, initArrays, hm]
    have hmi : s1.missIters = List.replicate s1.cyc.length 0 := by
      rw [hc, q.cyc0, q.eq, ← hlen]; rfl
    refine ⟨by rw [hc], by rw [hmi]; simp, fun j _ hj => ?_, by rw [hc], fun j a b => ?_, fun j _ _ => by rw [hc]⟩
    · rw [hmi, List.getElem?_replicate, if_pos hj]
    · have := q.i; omega
  | step hs hlt h ih =>
    rename_i s0 s1
    have hI := (Reachable.inv hH hs).1
    unfold simDriveStep at h
    split at h
    · simp at h
    rename_i s2 h1
    have e1 : DilInv P s2 ∧ s2.i = s0.i ∧ s2.cyc.length = s0.cyc.length := by
      split at h1
      · obtain ⟨a, b, c⟩ := hH.idm _ _ h1
        exact ⟨ih.hook a b c (hM.idm _ _ h1), b, a.lenCyc⟩
      · cases h1; exact ⟨ih, rfl, rfl⟩
    split at h
    · simp at h
    rename_i s3 h2
    have e2 : DilInv P s3 ∧ s3.i = s0.i ∧ s3.cyc.length = s0.cyc.length := by
      split at h2
      · obtain ⟨a, b, c⟩ := hH.coast _ _ h2
        exact ⟨e1.1.hook a b c (hM.coast _ _ h2), b.trans e1.2.1, a.lenCyc.trans e1.2.2⟩
      · cases h2; exact e1
    simp only [Except.ok.injEq] at h
    rw [← h]
    have := hI.pos
    exact e2.1.solve hb (by rw [e2.2.1]; omega) (by rw [e2.2.1, e2.2.2]; exact hlt)

/-- Over a whole run with trace-miss correction: the run starts when the trace starts, each simulated
step is stretched by a recorded number (at most `max(2, max_trace_miss_iters)`) of factors `1 + t`
with `t` within the bounds, and steps not yet simulated have the duration of the trace. -/
theorem C29_run (hH : H.Local) (hM : H.KeepMiss) (hm : P.missedTrace = true)
    (hb : P.minTimeDilation ≤ P.maxTimeDilation) {s : Sim K} (h : Reachable F H V P s) :
    (s.cyc.map Sample.t).getD 0 0 = (s.cyc0.map Sample.t).getD 0 0 ∧
    (∀ i, 1 ≤ i → i < s.i → ∃ ts : List K,
      (∀ t ∈ ts, P.minTimeDilation ≤ t ∧ t ≤ P.maxTimeDilation) ∧
      ts.length ≤ max 2 P.maxTraceMissIters ∧ s.missIters[i]? = some ts.length ∧
      duration s.cyc i = duration s.cyc0 i * stretch ts) ∧
    ∀ i, s.i ≤ i → i < s.cyc0.length → duration s.cyc i = duration s.cyc0 i := by
  have q := Reachable.dilInv hH hM hm hb h
  exact ⟨q.start, q.done, fun i a b => q.todo i a (by rw [q.len]; exact b)⟩

/-- Times increase along `c` when every duration is positive. -/
theorem increasing_of_durations {c : Cyc K} (h : ∀ i, 1 ≤ i → i < c.length → 0 < duration c i) :
    Increasing c := by
  induction c with
  | nil => exact List.Pairwise.nil
  | cons a c ih =>
    have ih' : Increasing c := ih fun i h1 hi => by
      have := h (i + 1) (by omega) (by simpa using hi)
      unfold duration at this ⊢
      cases i with
      | zero => omega
      | succ i => simpa using this
    refine List.pairwise_cons.2 ⟨?_, ih'⟩
    cases c with
    | nil => simp
    | cons b c =>
      have h0 : a.t < b.t := by
        have := h 1 (by omega) (by simp)
        unfold duration at this
        simpa using this
      intro x hx
      rcases List.mem_cons.1 hx with rfl | hx
      · exact h0
      · exact h0.trans ((List.pairwise_cons.1 ih').1 x hx)

theorem duration_pos {c : Cyc K} (h : Increasing c) {i : Nat} (h1 : 1 ≤ i) (hi : i < c.length) :
    0 < duration c i := by
  unfold duration
  rw [List.getD_eq_getElem?_getD, List.getD_eq_getElem?_getD, List.getElem?_map, List.getElem?_map,
    List.getElem?_eq_getElem hi, List.getElem?_eq_getElem (by omega : i - 1 < c.length)]
  exact sub_pos.2 (List.pairwise_iff_getElem.1 h (i - 1) i (by omega) hi (by omega))

/-- With `min_time_dilation > -1` the times of the corrected cycle stay strictly increasing. -/
theorem C29_times_increase (hH : H.Local) (hM : H.KeepMiss) (hm : P.missedTrace = true)
    (hb : P.minTimeDilation ≤ P.maxTimeDilation) (h1 : -1 < P.minTimeDilation) {s : Sim K}
    (h : Reachable F H V P s) (hc : Increasing s.cyc0) : Increasing s.cyc := by
  have q := Reachable.dilInv hH hM hm hb h
  refine increasing_of_durations fun i a b => ?_
  have hp := duration_pos hc a (by rw [← q.len]; exact b)
  by_cases hi : i < s.i
  · obtain ⟨ts, ht, -, -, hd⟩ := q.done i a hi
    rw [hd]
    exact mul_pos hp (stretch_pos fun t htm => lt_of_lt_of_le h1 (ht t htm).1)
  · rw [q.todo i (by omega) b]; exact hp

/-- Corrections compound: the duration of a step corrected `n` times is between `(1+min)^n` and
`(1+max)^n` times the original, `n` being the recorded number of corrections. -/
theorem C29_compound (hH : H.Local) (hM : H.KeepMiss) (hm : P.missedTrace = true)
    (hb : P.minTimeDilation ≤ P.maxTimeDilation) (h1 : -1 < P.minTimeDilation) {s : Sim K}
    (h : Reachable F H V P s) (hc : Increasing s.cyc0) {i : Nat} (hi1 : 1 ≤ i) (hi : i < s.i) :
    ∃ n, s.missIters[i]? = some n ∧ n ≤ max 2 P.maxTraceMissIters ∧
      duration s.cyc0 i * (1 + P.minTimeDilation) ^ n ≤ duration s.cyc i ∧
      duration s.cyc i ≤ duration s.cyc0 i * (1 + P.maxTimeDilation) ^ n := by
  have q := Reachable.dilInv hH hM hm hb h
  obtain ⟨ts, ht, hl, hn, hd⟩ := q.done i hi1 hi
  have hle := (Reachable.inv hH h).1.le
  have hp := duration_pos hc hi1 (by rw [← q.len]; omega)
  obtain ⟨a, b⟩ := stretch_le h1.le ht
  refine ⟨_, hn, hl, ?_, ?_⟩
  · rw [hd]; exact mul_le_mul_of_nonneg_left a hp.le
  · rw [hd]; exact mul_le_mul_of_nonneg_left b hp.le

end Field

section Demo
open Demo

theorem noHooks_keepMiss : noHooks.KeepMiss :=
  ⟨fun _ _ h => by cases h; rfl, fun _ _ h => by cases h; rfl⟩

/-- A trace the demo car cannot follow in its second step. -/
def tooFast : Cyc ℚ := [⟨0, 0, 0, 0⟩, ⟨1, 4, 0, 0⟩, ⟨2, 10, 0, 0⟩, ⟨3, 10, 0, 0⟩]

/-- Default correction parameters of the library (`max_time_dilation = 1`, `min_time_dilation = -0.5`,
five corrections, tolerance 0.0005), two Newton iterations to keep the numbers small. -/
def dilParams : SimParams ℚ :=
  { params with missedTrace := true, maxTimeDilation := 1, timeDilationTol := 1 / 2000, newtonMaxIter := 2 }

/-- The hypotheses above are met by a run that makes corrections; and what the corrections do: step 2,
which was to last 1 s and cover 10 m, is stretched by more than a factor `1 + max_time_dilation = 2`,
to more than 2.5 s, and covers more than 25 m. Corrections are meant as replacements of each other
(the search treats them as values of one unknown) but are applied on top of each other. -/
theorem C29_exceeds_max : dilParams.missedTrace = true ∧
    dilParams.minTimeDilation ≤ dilParams.maxTimeDilation ∧ -1 < dilParams.minTimeDilation ∧
    Increasing tooFast ∧
    ∃ s, simDrive fns noHooks conv dilParams (Sim.new tooFast) none none = .ok s ∧
      s.missIters = [0, 0, 5, 1] ∧
      duration tooFast 2 * (1 + dilParams.maxTimeDilation) < duration s.cyc 2 ∧
      5 / 2 < duration s.cyc 2 ∧ askedM tooFast 2 = 14 ∧ 29 < drivenM s.rows 2 := by
  refine ⟨rfl, by decide +kernel, by decide +kernel, by unfold Increasing tooFast; decide +kernel, ?_⟩
  have hall : (match simDrive fns noHooks conv dilParams (Sim.new tooFast) none none with
      | .ok s => decide (s.missIters = [0, 0, 5, 1] ∧
          duration tooFast 2 * (1 + dilParams.maxTimeDilation) < duration s.cyc 2 ∧
          5 / 2 < duration s.cyc 2 ∧ askedM tooFast 2 = 14 ∧ 29 < drivenM s.rows 2)
      | .error _ => false) = true := by decide +kernel
  split at hall
  · rename_i s hs
    exact ⟨s, hs, of_decide_eq_true hall⟩
  · simp at hall

/-- `n` steps after `init_for_step`. -/
def stepN : Nat → Except PyErr (Sim ℚ) → Except PyErr (Sim ℚ)
  | 0, r => r
  | n + 1, .ok s => stepN n (simDriveStep fns noHooks conv dilParams s)
  | _ + 1, .error e => .error e

instance (tol : ℚ) (s : Sim ℚ) : Decidable (OnTrace tol s) :=
  inferInstanceAs (Decidable (_ < _))

/-- The object in step 2 of that run before any correction. -/
def missing (s : Sim ℚ) : Sim ℚ := Sim.solve fns conv dilParams s

/-- The hypotheses of `C29_set_time_dilation` are met by the object just before that correction. -/
theorem C29_demo : ∃ s : Sim ℚ, 1 ≤ s.i ∧ s.i < s.cyc.length ∧ s.i < s.cyc0.length ∧
    s.missIters[s.i]? = some 0 ∧ ¬ OnTrace dilParams.timeDilationTol s ∧
    (setTimeDilation fns conv dilParams s).missIters[s.i]? = some 5 := by
  have hall : (match stepN 1 (initForStep conv dilParams (Sim.new tooFast) (1 / 2) none) with
      | .ok s => decide (1 ≤ (missing s).i ∧ (missing s).i < (missing s).cyc.length ∧
        (missing s).i < (missing s).cyc0.length ∧ (missing s).missIters[(missing s).i]? = some 0 ∧
        ¬ OnTrace dilParams.timeDilationTol (missing s) ∧
        (setTimeDilation fns conv dilParams (missing s)).missIters[(missing s).i]? = some 5)
      | .error _ => false) = true := by decide +kernel
  split at hall
  · exact ⟨_, of_decide_eq_true hall⟩
  · simp at hall
end Demo
end Fastsim.Props
