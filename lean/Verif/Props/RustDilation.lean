import Verif.Props.Dilation
import Verif.Props.RustRun

/-!
# C111: trace-miss correction of the Rust core

The Rust core corrects a missed step as the python code does, but decides whether a step was missed by another measure: it
compares the distance driven with the distance of the cycle *with the corrections made so far*, where the python code compares
with the distance of the given trace. Up to and including the first corrected step the two runs are the same; afterwards they
may part.
-/

set_option linter.unusedSectionVars false

namespace Fastsim.Spec
open Fastsim
variable {K : Type*}

/-- Driving as the cycle says, with trace-miss correction whose bounds leave every step a duration. -/
structure CorrectedDrive [Neg K] [One K] [LE K] [LT K] (P : SimParams K) : Prop where
  coast : P.coastAllow = false
  idm : P.idmAllow = false
  trace : P.missedTrace = true
  bounds : P.minTimeDilation ≤ P.maxTimeDilation
  positive : -1 < P.minTimeDilation

/-- What the Rust core takes for being on trace: the distance driven is within the tolerance of the distance of the *modified*
cycle, relative to the distance of the given one. -/
def RsOnTrace [Field K] [LinearOrder K] (tol : K) (s : Sim K) : Prop :=
  |askedM s.cyc s.i - drivenM s.rows s.i| / askedM s.cyc0 s.i < tol

/-- Distance by which the durations of the steps up to `i` of `c` exceed those of `c0`, at the speeds of the trace. -/
def addedM [Field K] (c c0 : Cyc K) : Nat → K
  | 0 => 0
  | i + 1 => addedM c c0 i + (c0.map Sample.v).getD (i + 1) 0 * (duration c (i + 1) - duration c0 (i + 1))

end Fastsim.Spec

namespace Fastsim.Props
open Fastsim Spec

section Field
variable {K : Type*} [Field K] [LinearOrder K] [IsStrictOrderedRing K]
variable {F : Fns K} {V : Veh K} {P : SimParams K} {H : Hooks K} {RH : RsHooks K}

/-! ### Solving a step -/

theorem _root_.Fastsim.Spec.CorrectedDrive.plain (hP : CorrectedDrive P) : PlainDrive { P with missedTrace := false } := ⟨hP.coast, hP.idm, rfl⟩

theorem rsSolve_corr (hV : RsOk V) (hP : CorrectedDrive P) {n : Nat} {s : Sim K} (hI : RunInv n s) (hi : s.i < n) (a b : K) :
    rsSolve F (withRead V a b) P s = .ok (Sim.solve F (lastEffRepeated V) P s) :=
  rsSolve_eq hV hP.plain hI hi a b

theorem runInv_corr (hV : RsOk V) (hP : CorrectedDrive P) {n : Nat} {s : Sim K} (hI : RunInv n s) (hi : s.i < n) :
    RunInv n (Sim.solve F (lastEffRepeated V) P s) := by
  have := runInv_solve (F := F) hV hP.plain hI hi
  exact ⟨hI.pos, this.cyc, this.rows, this.aux, this.times, this.engine⟩

/-- Stretching a step by a factor that is not negative keeps the times in order. -/
theorem times_shift {c : Cyc K} (h : c.times.Pairwise (· ≤ ·)) {i : Nat} (h1 : 1 ≤ i) (hi : i < c.length) {t : K} (ht : -1 ≤ t) :
    (shiftTimesFrom c i (dtAt c i * t)).times.Pairwise (· ≤ ·) := by
  have h0 := dtAt_nonneg' h hi
  have hl : ∀ {j : Nat}, j < c.length → j < c.times.length := fun hj => by simpa [Cyc.times] using hj
  have hle : ∀ {j k : Nat} (_ : j ≤ k) (hk : k < c.length), c.times.getD j 0 ≤ c.times.getD k 0 := by
    intro j k hjk hk
    rcases Nat.lt_or_ge j k with h2 | h2
    · rw [List.getD_eq_getElem?_getD, List.getD_eq_getElem?_getD, List.getElem?_eq_getElem (hl hk),
        List.getElem?_eq_getElem (hl (by omega : j < c.length))]
      exact List.pairwise_iff_getElem.1 h j k _ _ h2
    · rw [show j = k by omega]
  have hval : ∀ {j : Nat} (hj : j < (shiftTimesFrom c i (dtAt c i * t)).times.length),
      (shiftTimesFrom c i (dtAt c i * t)).times[j] = c.times.getD j 0 + if i ≤ j then dtAt c i * t else 0 := by
    intro j hj
    have hj' : j < c.length := by simpa [Cyc.times, shiftTimesFrom] using hj
    have := times_getD_shift c i (dtAt c i * t) j hj'
    rw [← List.getD_eq_getElem (d := 0)]
    exact this
  have hdt : dtAt c i = c.times.getD i 0 - c.times.getD (i - 1) 0 := by
    unfold dtAt
    rw [if_neg (by omega)]
  rw [List.pairwise_iff_getElem]
  intro j k hj hk hjk
  have hk' : k < c.length := by simpa [Cyc.times, shiftTimesFrom] using hk
  rw [hval hj, hval hk]
  have hjk' := hle hjk.le hk'
  by_cases c1 : i ≤ j
  · rw [if_pos c1, if_pos (by omega)]
    linarith
  · rw [if_neg c1]
    by_cases c2 : i ≤ k
    · rw [if_pos c2]
      have a1 := hle (show j ≤ i - 1 by omega) (by omega)
      have a2 := hle c2 hk'
      have a3 : 0 ≤ dtAt c i * (1 + t) := mul_nonneg h0 (by linarith)
      have a4 : dtAt c i * (1 + t) = dtAt c i + dtAt c i * t := by ring
      linarith
    · rw [if_neg c2]
      linarith

theorem runInv_dilate (hV : RsOk V) (hP : CorrectedDrive P) {n : Nat} {s : Sim K} (hI : RunInv n s) (hi : s.i < n) {t : K}
    (ht : -1 ≤ t) : RunInv n { s with cyc := shiftTimesFrom s.cyc s.i (dtAt s.cyc s.i * t) } :=
  ⟨hI.pos, by simp [shiftTimesFrom, hI.cyc], hI.rows, hI.aux, times_shift hI.times hI.pos (by rw [hI.cyc]; exact hi) ht, hI.engine⟩

theorem rsDilate_eq (hV : RsOk V) (hP : CorrectedDrive P) {n : Nat} {s : Sim K} (hI : RunInv n s) (hi : s.i < n) {t : K}
    (ht : -1 ≤ t) (a b : K) :
    rsDilateAndSolve F (withRead V a b) P s t = .ok (dilateAndSolve F (lastEffRepeated V) P s t) ∧
    RunInv n (dilateAndSolve F (lastEffRepeated V) P s t) := by
  have hJ := runInv_dilate hV hP hI hi ht
  refine ⟨?_, runInv_corr hV hP hJ hi⟩
  have e1 : rsDtAt s.cyc s.i = dtAt s.cyc s.i := by
    have := hI.pos
    unfold rsDtAt dtAt
    rw [if_neg (by omega)]
  unfold rsDilateAndSolve
  rw [e1]
  exact rsSolve_corr hV hP hJ hi a b

/-! ### Distances -/

theorem rsDist_start {c : Cyc K} (h0 : c.times.getD 0 0 = 0) : rsDist c = distM c := by
  cases c with
  | nil => rfl
  | cons x c => unfold rsDist distM; rw [rsDt_start (by simp) h0]

theorem rsTarget_eq {s : Sim K} (h0 : s.cyc0.times.getD 0 0 = 0) : rsTargetDist s = targetDist s := by
  unfold rsTargetDist targetDist
  rw [rsDist_start h0]
  rfl

theorem rsAchieved_eq (s : Sim K) : rsAchievedDist s = achievedDist s := rfl

theorem rsConverged_eq {s : Sim K} (h0 : s.cyc0.times.getD 0 0 = 0) : rsConverged P s = distConverged P s := by
  unfold rsConverged distConverged
  rw [rsTarget_eq h0, rsAchieved_eq]

theorem clamp_ge (hP : CorrectedDrive P) (x : K) : -1 ≤ clampDilation P x :=
  hP.positive.le.trans (clampDilation_mem hP.bounds x).1

theorem bound_iff (x : K) : (P.maxTimeDilation ≤ x ∨ x ≤ P.minTimeDilation) ↔ atDilationBound P x = true := by
  unfold atDilationBound
  simp

/-! ### The correction -/

theorem rsDilationLoop_eq (hV : RsOk V) (hP : CorrectedDrive P) {n : Nat} (a b : K) (iters : Nat) (t tPrev dPrev : K)
    (s : Sim K) (hI : RunInv n s) (hi : s.i < n) (h0 : s.cyc0.times.getD 0 0 = 0) :
    rsDilationLoop F (withRead V a b) P iters t tPrev dPrev s =
      .ok (dilationLoop F (lastEffRepeated V) P iters t tPrev dPrev s) ∧
    RunInv n (dilationLoop F (lastEffRepeated V) P iters t tPrev dPrev s) := by
  fun_induction dilationLoop F (lastEffRepeated V) P iters t tPrev dPrev s with
  | case1 iters t tPrev dPrev s d t' s' h =>
    obtain ⟨e, hJ⟩ := rsDilate_eq (F := F) hV hP hI hi (clamp_ge hP (t - (t - tPrev) / (d - dPrev) * d)) a b
    refine ⟨?_, ⟨hJ.pos, hJ.cyc, hJ.rows, hJ.aux, hJ.times, hJ.engine⟩⟩
    rw [rsDilationLoop]
    simp only [rsTarget_eq h0, rsAchieved_eq]
    have e' : rsDilateAndSolve F (withRead V a b) P s (min (max (t - (t - tPrev) / (targetDist s - achievedDist s - dPrev) *
        (targetDist s - achievedDist s)) P.minTimeDilation) P.maxTimeDilation) = .ok (dilateAndSolve F (lastEffRepeated V) P s t') := e
    rw [e']
    have hc : rsConverged P s' = distConverged P s' := rsConverged_eq (s := s') h0
    have hq : rsConverged P s' = true ∨ P.maxTraceMissIters ≤ iters + 1 ∨ P.maxTimeDilation ≤ t' ∨ t' ≤ P.minTimeDilation := by
      rw [hc, bound_iff]; exact h
    simp only
    split
    · rfl
    · rename_i hx; exact absurd hq hx
  | case2 iters t tPrev dPrev s d t' s' h ih =>
    obtain ⟨e, hJ⟩ := rsDilate_eq (F := F) hV hP hI hi (clamp_ge hP (t - (t - tPrev) / (d - dPrev) * d)) a b
    obtain ⟨i1, i2⟩ := ih ⟨hJ.pos, hJ.cyc, hJ.rows, hJ.aux, hJ.times, hJ.engine⟩ hi h0
    refine ⟨?_, i2⟩
    rw [rsDilationLoop]
    simp only [rsTarget_eq h0, rsAchieved_eq]
    have e' : rsDilateAndSolve F (withRead V a b) P s (min (max (t - (t - tPrev) / (targetDist s - achievedDist s - dPrev) *
        (targetDist s - achievedDist s)) P.minTimeDilation) P.maxTimeDilation) = .ok (dilateAndSolve F (lastEffRepeated V) P s t') := e
    rw [e']
    have hc : rsConverged P s' = distConverged P s' := rsConverged_eq (s := s') h0
    have hq : ¬ (rsConverged P s' = true ∨ P.maxTraceMissIters ≤ iters + 1 ∨ P.maxTimeDilation ≤ t' ∨ t' ≤ P.minTimeDilation) := by
      rw [hc, bound_iff]; exact h
    simp only
    split
    · rename_i hx; exact absurd hx hq
    · exact i1

/-- The python correction once the step is taken for missed. -/
def forcedDilation (F : Fns K) (V : Veh K) (P : SimParams K) (s : Sim K) : Sim K :=
  let d := targetDist s - achievedDist s
  let t := clampDilation P (d / dtAt s.cyc0 s.i / (s.rows.getD s.i Row.zero).ach.mpsAch)
  let s' := dilateAndSolve F V P (bumpMiss s) t
  if distConverged P s' = true ∨ atDilationBound P t = true then s'
  else dilationLoop F V P (s'.missIters.getD s.i 0) t 0 d s'

theorem rsSetTimeDilation_eq (hV : RsOk V) (hP : CorrectedDrive P) {n : Nat} {s : Sim K} (hI : RunInv n s) (hi : s.i < n)
    (h0 : s.cyc0.times.getD 0 0 = 0) (a b : K) :
    rsSetTimeDilation F (withRead V a b) P s =
      .ok (if rsOnTrace P s = true then s else forcedDilation F (lastEffRepeated V) P s) ∧
    RunInv n (forcedDilation F (lastEffRepeated V) P s) := by
  have hIb : RunInv n (bumpMiss s) := ⟨hI.pos, hI.cyc, hI.rows, hI.aux, hI.times, hI.engine⟩
  obtain ⟨e, hJ⟩ := rsDilate_eq (F := F) hV hP hIb hi (clamp_ge hP ((targetDist s - achievedDist s) / dtAt s.cyc0 s.i /
    (s.rows.getD s.i Row.zero).ach.mpsAch)) a b
  have e1 : rsDtAt s.cyc0 s.i = dtAt s.cyc0 s.i := by
    have := hI.pos
    unfold rsDtAt dtAt
    rw [if_neg (by omega)]
  obtain ⟨l1, l2⟩ := rsDilationLoop_eq (F := F) hV hP a b
    ((dilateAndSolve F (lastEffRepeated V) P (bumpMiss s) (clampDilation P ((targetDist s - achievedDist s) / dtAt s.cyc0 s.i /
      (s.rows.getD s.i Row.zero).ach.mpsAch))).missIters.getD s.i 0) (clampDilation P ((targetDist s - achievedDist s) / dtAt s.cyc0 s.i /
      (s.rows.getD s.i Row.zero).ach.mpsAch)) 0 (targetDist s - achievedDist s) _ hJ hi h0
  constructor
  · unfold rsSetTimeDilation
    split
    · rfl
    · unfold forcedDilation
      simp only [rsTarget_eq h0, rsAchieved_eq, e1]
      generalize hx : (targetDist s - achievedDist s) / dtAt s.cyc0 s.i / (s.rows.getD s.i Row.zero).ach.mpsAch = x at *
      have e' : rsDilateAndSolve F (withRead V a b) P { s with missIters := s.missIters.modify s.i (· + 1) }
          (min (max x P.minTimeDilation) P.maxTimeDilation) = .ok (dilateAndSolve F (lastEffRepeated V) P (bumpMiss s) (clampDilation P x)) := e
      rw [e']
      have hc : rsConverged P (dilateAndSolve F (lastEffRepeated V) P (bumpMiss s) (clampDilation P x)) =
          distConverged P (dilateAndSolve F (lastEffRepeated V) P (bumpMiss s) (clampDilation P x)) := rsConverged_eq h0
      have hb := bound_iff (P := P) (clampDilation P x)
      simp only [hc]
      by_cases hq : distConverged P (dilateAndSolve F (lastEffRepeated V) P (bumpMiss s) (clampDilation P x)) = true ∨
          atDilationBound P (clampDilation P x) = true
      · have hq' : distConverged P (dilateAndSolve F (lastEffRepeated V) P (bumpMiss s) (clampDilation P x)) = true ∨
            P.maxTimeDilation ≤ min (max x P.minTimeDilation) P.maxTimeDilation ∨
            min (max x P.minTimeDilation) P.maxTimeDilation ≤ P.minTimeDilation := hq.imp id hb.2
        rw [if_pos hq, if_pos hq']
      · have hq' : ¬ (distConverged P (dilateAndSolve F (lastEffRepeated V) P (bumpMiss s) (clampDilation P x)) = true ∨
            P.maxTimeDilation ≤ min (max x P.minTimeDilation) P.maxTimeDilation ∨
            min (max x P.minTimeDilation) P.maxTimeDilation ≤ P.minTimeDilation) := fun h => hq (h.imp id hb.1)
        rw [if_neg hq, if_neg hq']
        exact l1
  · unfold forcedDilation
    simp only
    split
    · exact hJ
    · exact l2

theorem setTimeDilation_forced (s : Sim K) : setTimeDilation F V P s =
    if distConverged P s = true ∨ s.cyc.speeds.getD s.i 0 = 0 then s else forcedDilation F V P s := rfl

/-- What the correction leaves behind, once the step is taken for missed. -/
theorem forcedDilation_spec (s : Sim K) (h1 : 1 ≤ s.i) (hi : s.i < s.cyc.length) (hm : s.missIters[s.i]? = some 0) :
    ∃ ts, Dilated P s (clampDilation P ((targetDist s - achievedDist s) / dtAt s.cyc0 s.i /
        (s.rows.getD s.i Row.zero).ach.mpsAch) :: ts) (forcedDilation F V P s) ∧
      ts.length + 1 ≤ max 2 P.maxTraceMissIters := by
  unfold forcedDilation
  simp only
  generalize (targetDist s - achievedDist s) / dtAt s.cyc0 s.i / (s.rows.getD s.i Row.zero).ach.mpsAch = x
  have hd : Dilated P s [clampDilation P x] (dilateAndSolve F V P (bumpMiss s) (clampDilation P x)) := by
    have := Dilated.one (F := F) (V := V) (P := P) s x h1
    exact ⟨this.cyc, this.i, this.cyc0, this.bound, this.miss⟩
  split
  · exact ⟨[], hd, by simp⟩
  · have hit : (dilateAndSolve F V P (bumpMiss s) (clampDilation P x)).missIters.getD s.i 0 = 1 := by
      rw [List.getD_eq_getElem?_getD, hd.miss, List.getElem?_modify, hm]
      simp
    rw [hit]
    obtain ⟨ts, u, q1, q2, -⟩ := dilationLoop_spec (F := F) (V := V) (P := P) 1 (clampDilation P x) 0
      (targetDist s - achievedDist s) (dilateAndSolve F V P (bumpMiss s) (clampDilation P x))
      (by rw [hd.i]; exact h1) (by rw [hd.i, hd.len]; exact hi)
    refine ⟨ts ++ [u], hd.trans q1 h1 hi, ?_⟩
    simp only [List.length_append, List.length_cons, List.length_nil]
    omega

/-! ### The decision -/

theorem asked_eq {s : Sim K} (hi : s.i < s.cyc.length) (h0 : s.cyc.times.getD 0 0 = 0) : rsCurrentDist s = askedM s.cyc s.i := by
  have := targetDist_eq { s with cyc0 := s.cyc } hi
  rw [← this]
  unfold rsCurrentDist targetDist
  rw [rsDist_start h0]
  rfl

theorem pabs_abs (x : K) : pabs x = |x| := by
  unfold pabs
  split
  · rename_i h; rw [abs_of_neg h]
  · rename_i h; rw [abs_of_nonneg (not_lt.1 h)]

theorem rsOnTrace_iff {s : Sim K} (hi : s.i < s.cyc.length) (hi0 : s.i < s.cyc0.length) (h : s.cyc.times.getD 0 0 = 0)
    (h0 : s.cyc0.times.getD 0 0 = 0) :
    rsOnTrace P s = true ↔ RsOnTrace P.timeDilationTol s ∨ s.cyc.speeds.getD s.i 0 = 0 := by
  unfold rsOnTrace RsOnTrace
  rw [Bool.or_eq_true, decide_eq_true_iff, decide_eq_true_iff, asked_eq hi h, rsTarget_eq h0, targetDist_eq s hi0, rsAchieved_eq,
    achievedDist_eq, pabs_abs]

/-- **C111 (measure).** The distance the Rust core measures against is the distance of the given trace plus the distance that
the added time makes at the speeds of the trace. -/
theorem C111_measure {c c0 : Cyc K} (hv : c.map Sample.v = c0.map Sample.v) (h : (c.map Sample.t).getD 0 0 = (c0.map Sample.t).getD 0 0)
    (i : Nat) : askedM c i = askedM c0 i + addedM c c0 i := by
  induction i with
  | zero => simp only [askedM, addedM, hv, h, add_zero]
  | succ i ih => simp only [askedM, addedM, hv, ih]; ring

/-- **C111 (correction).** Where the two programs agree on whether the step was missed, the Rust core makes exactly the
corrections of the python code: the same cycle, the same arrays, the same count. -/
theorem C111_correction (hV : RsOk V) (hP : CorrectedDrive P) {n : Nat} {s : Sim K} (hI : RunInv n s) (hi : s.i < n)
    (hn : s.cyc0.length = n) (h : s.cyc.times.getD 0 0 = 0) (h0 : s.cyc0.times.getD 0 0 = 0)
    (hd : RsOnTrace P.timeDilationTol s ↔ OnTrace P.timeDilationTol s) (a b : K) :
    rsSetTimeDilation F (withRead V a b) P s = .ok (setTimeDilation F (lastEffRepeated V) P s) := by
  rw [(rsSetTimeDilation_eq hV hP hI hi h0 a b).1, setTimeDilation_forced]
  have hi1 : s.i < s.cyc.length := by rw [hI.cyc]; exact hi
  have hi0 : s.i < s.cyc0.length := by rw [hn]; exact hi
  have e : rsOnTrace P s = true ↔ distConverged P s = true ∨ s.cyc.speeds.getD s.i 0 = 0 := by
    rw [rsOnTrace_iff hi1 hi0 h h0, hd, distConverged_iff s hi0]
  by_cases hq : rsOnTrace P s = true
  · rw [if_pos hq, if_pos (e.1 hq)]
  · rw [if_neg hq, if_neg fun x => hq (e.2 x)]

/-- **C111 (first).** In particular as long as no time was added or taken away in the steps so far. -/
theorem C111_first (hV : RsOk V) (hP : CorrectedDrive P) {n : Nat} {s : Sim K} (hI : RunInv n s) (hi : s.i < n)
    (hn : s.cyc0.length = n) (hv : s.cyc.map Sample.v = s.cyc0.map Sample.v) (h : s.cyc.times.getD 0 0 = 0)
    (h0 : s.cyc0.times.getD 0 0 = 0) (hd : ∀ j, 1 ≤ j → j ≤ s.i → duration s.cyc j = duration s.cyc0 j) (a b : K) :
    rsSetTimeDilation F (withRead V a b) P s = .ok (setTimeDilation F (lastEffRepeated V) P s) := by
  refine C111_correction hV hP hI hi hn h h0 ?_ a b
  have hz : ∀ j, j ≤ s.i → addedM s.cyc s.cyc0 j = 0 := by
    intro j
    induction j with
    | zero => intro _; rfl
    | succ j ih => intro hj; simp only [addedM, ih (by omega), hd (j + 1) (by omega) hj, sub_self, mul_zero, add_zero]
  unfold RsOnTrace OnTrace
  rw [C111_measure hv (h.trans h0.symm), hz _ le_rfl, add_zero]

/-- **C111 (left alone).** A step whose end is where the *modified* cycle wants it is left alone by the Rust core, however far
from the given trace that is. -/
theorem C111_left_alone (hV : RsOk V) (hP : CorrectedDrive P) {n : Nat} {s : Sim K} (hI : RunInv n s) (hi : s.i < n)
    (hn : s.cyc0.length = n) (h : s.cyc.times.getD 0 0 = 0) (h0 : s.cyc0.times.getD 0 0 = 0)
    (hd : RsOnTrace P.timeDilationTol s) (a b : K) : rsSetTimeDilation F (withRead V a b) P s = .ok s := by
  rw [(rsSetTimeDilation_eq hV hP hI hi h0 a b).1,
    if_pos ((rsOnTrace_iff (by rw [hI.cyc]; exact hi) (by rw [hn]; exact hi) h h0).2 (Or.inl hd))]

/-- **C111 (again).** A moving step that ends on the given trace, which the python code leaves alone, is corrected by the Rust
core when the time added before amounts to more than twice the tolerance: the step is stretched by at least one factor, the first of which
closes what is left of the distance, and the corrections are counted. -/
theorem C111_again (hV : RsOk V) (hP : CorrectedDrive P) {n : Nat} {s : Sim K} (hI : RunInv n s) (hi : s.i < n)
    (hn : s.cyc0.length = n) (hv : s.cyc.map Sample.v = s.cyc0.map Sample.v) (h : s.cyc.times.getD 0 0 = 0)
    (h0 : s.cyc0.times.getD 0 0 = 0) (hm : s.missIters[s.i]? = some 0)
    (hon : OnTrace P.timeDilationTol s) (hmov : (s.cyc.map Sample.v).getD s.i 0 ≠ 0) (hpos : 0 < askedM s.cyc0 s.i)
    (hadd : 2 * P.timeDilationTol * askedM s.cyc0 s.i ≤ addedM s.cyc s.cyc0 s.i) (U : Veh K) (a b : K) :
    setTimeDilation F U P s = s ∧ ∃ s' ts, rsSetTimeDilation F (withRead V a b) P s = .ok s' ∧
      s'.missIters[s.i]? = some (ts.length + 1) ∧ s'.cyc0 = s.cyc0 ∧
      OnlyStep s.i (stretch (allowed P (behind s / duration s.cyc0 s.i / (s.rows.getD s.i Row.zero).ach.mpsAch) :: ts)) s.cyc s'.cyc := by
  have hi1 : s.i < s.cyc.length := by rw [hI.cyc]; exact hi
  have hi0 : s.i < s.cyc0.length := by rw [hn]; exact hi
  constructor
  · unfold setTimeDilation
    rw [if_pos (.inl ((distConverged_iff s hi0).2 hon))]
  · have hno : ¬ rsOnTrace P s = true := by
      rw [rsOnTrace_iff hi1 hi0 h h0]
      rintro (hx | hx)
      · unfold RsOnTrace at hx
        unfold OnTrace at hon
        rw [C111_measure hv (h.trans h0.symm), div_lt_iff₀ hpos] at hx
        rw [div_lt_iff₀ hpos] at hon
        obtain ⟨x1, x2⟩ := abs_lt.1 hx
        obtain ⟨y1, y2⟩ := abs_lt.1 hon
        linarith
      · exact hmov hx
    refine ⟨forcedDilation F (lastEffRepeated V) P s, ?_⟩
    obtain ⟨ts, hd, -⟩ := forcedDilation_spec (F := F) (V := lastEffRepeated V) (P := P) s hI.pos hi1 hm
    refine ⟨ts, ?_, ?_, hd.cyc0, ?_⟩
    · rw [(rsSetTimeDilation_eq hV hP hI hi h0 a b).1, if_neg hno]
    · rw [hd.miss, List.getElem?_modify, hm]; simp
    · rw [hd.cyc, behind_eq s hi0, dtAt_eq_duration _ _ hI.pos]
      exact shiftTimesFrom_onlyStep _ _ _ hI.pos hi1

/-! ### Steps and walks -/

/-- The correction of one step in the Rust core. -/
def rsCorrected (F : Fns K) (V : Veh K) (P : SimParams K) (s : Sim K) : Sim K :=
  if 0 < npSum ((distM s.cyc0).take s.i) then if rsOnTrace P s = true then s else forcedDilation F V P s else s

theorem rsStep_corr (hV : RsOk V) (hP : CorrectedDrive P) {n : Nat} {s : Sim K} (hI : RunInv n s) (hi : s.i < n)
    (h0 : s.cyc0.times.getD 0 0 = 0) (a b : K) :
    rsStep F RH (withRead V a b) P s =
      .ok (finishStep F P (rsCorrected F (lastEffRepeated V) P (Sim.solve F (lastEffRepeated V) P s))) ∧
    RunInv n (finishStep F P (rsCorrected F (lastEffRepeated V) P (Sim.solve F (lastEffRepeated V) P s))) := by
  have hJ := runInv_corr (F := F) hV hP hI hi
  obtain ⟨e, hX⟩ := rsSetTimeDilation_eq (F := F) hV hP hJ hi h0 a b
  have hf : ∀ t : Sim K, finishStep F P t = { t with i := t.i + 1 } := by
    intro t
    unfold finishStep
    simp only [hP.coast, hP.idm, Bool.or_self, Bool.false_eq_true, if_false]
  have hd : rsDist (Sim.solve F (lastEffRepeated V) P s).cyc0 = distM s.cyc0 := rsDist_start h0
  constructor
  · unfold rsStep
    simp only [hP.coast, hP.idm, hP.trace, rsSolve_corr hV hP hI hi a b, Bool.false_eq_true, if_false, true_and, Bool.or_self]
    rw [hd, hf]
    unfold rsCorrected
    by_cases hq : 0 < rsSum ((distM s.cyc0).take s.i)
    · have hq1 : 0 < rsSum ((distM s.cyc0).take (Sim.solve F (lastEffRepeated V) P s).i) := hq
      have hq2 : 0 < npSum ((distM (Sim.solve F (lastEffRepeated V) P s).cyc0).take (Sim.solve F (lastEffRepeated V) P s).i) := hq
      rw [if_pos hq1, if_pos hq2, e]
    · have hq1 : ¬ 0 < rsSum ((distM s.cyc0).take (Sim.solve F (lastEffRepeated V) P s).i) := hq
      have hq2 : ¬ 0 < npSum ((distM (Sim.solve F (lastEffRepeated V) P s).cyc0).take (Sim.solve F (lastEffRepeated V) P s).i) := hq
      rw [if_neg hq1, if_neg hq2]
  · rw [hf]
    have key : RunInv n (rsCorrected F (lastEffRepeated V) P (Sim.solve F (lastEffRepeated V) P s)) := by
      unfold rsCorrected
      split
      · split
        · exact hJ
        · exact hX
      · exact hJ
    exact ⟨by simp, key.cyc, key.rows, key.aux, key.times, key.engine⟩

theorem Dilated.none (s s' : Sim K) (h1 : s'.cyc = s.cyc) (h2 : s'.i = s.i) (h3 : s'.cyc0 = s.cyc0) (h4 : s'.missIters = s.missIters) :
    Dilated P s [] s' := by
  refine ⟨?_, h2, h3, fun _ t ht => by simp at ht, ?_⟩
  · rw [h1]; simp [stretch, shiftTimesFrom_zero]
  · rw [h4]
    apply List.ext_getElem?
    intro j
    simp only [List.getElem?_modify]
    cases s.missIters[j]? with
    | none => rfl
    | some m => by_cases hj : s.i = j <;> simp [hj]

theorem rsCorrected_dil (s : Sim K) (h1 : 1 ≤ s.i) (hi : s.i < s.cyc.length) (hm : s.missIters[s.i]? = some 0) :
    ∃ ts, Dilated P s ts (rsCorrected F V P (Sim.solve F V P s)) ∧ ts.length ≤ max 2 P.maxTraceMissIters := by
  have base : Dilated P s [] (Sim.solve F V P s) := Dilated.none s _ rfl rfl rfl rfl
  unfold rsCorrected
  split
  · split
    · exact ⟨[], base, by simp⟩
    · obtain ⟨ts, hd, hl⟩ := forcedDilation_spec (F := F) (V := V) (P := P) (Sim.solve F V P s) h1 hi hm
      exact ⟨_, ⟨hd.cyc, hd.i, hd.cyc0, hd.bound, hd.miss⟩, by simpa using hl⟩
  · exact ⟨[], base, by simp⟩

theorem finishStep_cyc0 (hP : CorrectedDrive P) (t : Sim K) : finishStep F P t = { t with i := t.i + 1 } := by
  unfold finishStep
  simp only [hP.coast, hP.idm, Bool.or_self, Bool.false_eq_true, if_false]

/-- The Rust loop never fails and keeps the account of the corrections. -/
theorem rsWalkLoop_corr (hV : RsOk V) (hP : CorrectedDrive P) {n : Nat} (a b : K) : ∀ (m : Nat) {s : Sim K}, RunInv n s →
    DilInv P s → s.cyc0.times.getD 0 0 = 0 → s.i ≤ n → n ≤ s.i + m →
    ∃ t, rsWalkLoop F RH (withRead V a b) P m s = .ok t ∧ RunInv n t ∧ DilInv P t ∧ t.cyc0 = s.cyc0 ∧ t.i = n := by
  intro m
  induction m with
  | zero =>
    intro s hI hD h0 hle hm
    unfold rsWalkLoop
    have : ¬ s.i < s.cyc.length := by rw [hI.cyc]; omega
    rw [if_neg this]
    exact ⟨s, rfl, hI, hD, rfl, by omega⟩
  | succ m ih =>
    intro s hI hD h0 hle hm
    unfold rsWalkLoop
    by_cases hi : s.i < s.cyc.length
    · rw [if_pos hi]
      have hi' := hi
      rw [hI.cyc] at hi
      obtain ⟨e, hJ⟩ := rsStep_corr (F := F) (RH := RH) hV hP hI hi h0 a b
      obtain ⟨ts, hd, hl⟩ := rsCorrected_dil (F := F) (V := lastEffRepeated V) (P := P) s hI.pos hi' (hD.fresh _ le_rfl hi')
      have hD' : DilInv P _ := hD.finish (F := F) hP.bounds hI.pos hi' hd hl
      rw [e]
      have hc : (finishStep F P (rsCorrected F (lastEffRepeated V) P (Sim.solve F (lastEffRepeated V) P s))).cyc0 = s.cyc0 := by
        rw [finishStep_cyc0 hP]; exact hd.cyc0
      have hii : (finishStep F P (rsCorrected F (lastEffRepeated V) P (Sim.solve F (lastEffRepeated V) P s))).i = s.i + 1 := by
        rw [finishStep_cyc0 hP]; exact congrArg (· + 1) hd.i
      obtain ⟨t, q1, q2, q3, q4, q5⟩ := ih hJ hD' (by rw [hc]; exact h0) (by rw [hii]; omega) (by rw [hii]; omega)
      exact ⟨t, q1, q2, q3, q4.trans hc, q5⟩
    · rw [if_neg hi]
      rw [hI.cyc] at hi
      exact ⟨s, rfl, hI, hD, rfl, by omega⟩

/-- A python step: it keeps what the loop keeps. -/
theorem pyStep_corr (hV : RsOk V) (hP : CorrectedDrive P) {n : Nat} {s : Sim K} (hI : RunInv n s) (hi : s.i < n)
    (h0 : s.cyc0.times.getD 0 0 = 0) :
    simDriveStep F H (lastEffRepeated V) P s = .ok (finishStep F P (solveAndCorrect F (lastEffRepeated V) P s)) ∧
    RunInv n (finishStep F P (solveAndCorrect F (lastEffRepeated V) P s)) := by
  have hJ := runInv_corr (F := F) hV hP hI hi
  have hX := (rsSetTimeDilation_eq (F := F) hV hP hJ hi h0 0 0).2
  constructor
  · unfold simDriveStep
    simp only [hP.coast, hP.idm, Bool.false_eq_true, if_false]
  · rw [finishStep_cyc0 hP]
    have key : RunInv n (solveAndCorrect F (lastEffRepeated V) P s) := by
      unfold solveAndCorrect
      simp only
      split
      · rw [setTimeDilation_forced]
        split
        · exact hJ
        · exact hX
      · exact hJ
    exact ⟨by simp, key.cyc, key.rows, key.aux, key.times, key.engine⟩

/-- The python loop never fails and keeps the counts of the steps before it. -/
theorem walkLoop_corr (hV : RsOk V) (hP : CorrectedDrive P) {n : Nat} : ∀ (m : Nat) {s : Sim K}, RunInv n s →
    DilInv P s → s.cyc0.times.getD 0 0 = 0 → n ≤ s.i + m →
    ∃ t, walkLoop F H (lastEffRepeated V) P m s = .ok t ∧ ∀ j, j < s.i → t.missIters[j]? = s.missIters[j]? := by
  intro m
  induction m with
  | zero =>
    intro s hI hD h0 hm
    unfold walkLoop
    have : ¬ s.i < s.cyc.length := by rw [hI.cyc]; omega
    rw [if_neg this]
    exact ⟨s, rfl, fun _ _ => rfl⟩
  | succ m ih =>
    intro s hI hD h0 hm
    unfold walkLoop
    by_cases hi : s.i < s.cyc.length
    · rw [if_pos hi]
      have hi' := hi
      rw [hI.cyc] at hi
      obtain ⟨e, hJ⟩ := pyStep_corr (F := F) (H := H) hV hP hI hi h0
      obtain ⟨ts, hd, hl⟩ := solveAndCorrect_dil (F := F) (V := lastEffRepeated V) hP.bounds s hI.pos hi' (hD.fresh _ le_rfl hi')
      have hD' := hD.finish (F := F) hP.bounds hI.pos hi' hd hl
      rw [e]
      have hf := finishStep_cyc0 (F := F) hP (solveAndCorrect F (lastEffRepeated V) P s)
      have hc : (finishStep F P (solveAndCorrect F (lastEffRepeated V) P s)).cyc0 = s.cyc0 := by
        rw [hf]; exact hd.cyc0
      have hii : (finishStep F P (solveAndCorrect F (lastEffRepeated V) P s)).i = s.i + 1 := by
        rw [hf]; exact congrArg (· + 1) hd.i
      obtain ⟨t, q1, q2⟩ := ih hJ hD' (by rw [hc]; exact h0) (by rw [hii]; omega)
      refine ⟨t, q1, fun j hj => ?_⟩
      rw [q2 j (by rw [hii]; omega), hf]
      show (solveAndCorrect F (lastEffRepeated V) P s).missIters[j]? = _
      rw [hd.miss, List.getElem?_modify]
      have : ¬ s.i = j := by omega
      simp [this]
    · rw [if_neg hi]
      exact ⟨s, rfl, fun _ _ => rfl⟩

/-- On a cycle without corrections both programs take the same step. -/
theorem step_same {s : Sim K} (h0 : s.cyc0.times.getD 0 0 = 0) (hc : s.cyc = s.cyc0) (hP : CorrectedDrive P) (U : Veh K) :
    rsCorrected F U P (Sim.solve F U P s) = solveAndCorrect F U P s := by
  unfold rsCorrected solveAndCorrect
  simp only [hP.trace, true_and]
  split
  · rw [setTimeDilation_forced]
    have e : rsOnTrace P (Sim.solve F U P s) = true ↔
        distConverged P (Sim.solve F U P s) = true ∨ (Sim.solve F U P s).cyc.speeds.getD (Sim.solve F U P s).i 0 = 0 := by
      unfold rsOnTrace distConverged rsCurrentDist
      have hx : (Sim.solve F U P s).cyc = (Sim.solve F U P s).cyc0 := hc
      have hy : rsDist (Sim.solve F U P s).cyc0 = distM (Sim.solve F U P s).cyc0 := rsDist_start h0
      rw [Bool.or_eq_true, decide_eq_true_iff, rsTarget_eq (s := Sim.solve F U P s) h0, rsAchieved_eq, hx, hy]
      simp only [decide_eq_true_iff]
      rfl
    by_cases hq : rsOnTrace P (Sim.solve F U P s) = true
    · rw [if_pos hq, if_pos (e.1 hq)]
    · rw [if_neg hq, if_neg fun x => hq (e.2 x)]
  · rfl

theorem rsWalkLoop_same (hV : RsOk V) (hP : CorrectedDrive P) {n : Nat} (a b : K) : ∀ (m : Nat) {s : Sim K}, RunInv n s →
    DilInv P s → s.cyc0.times.getD 0 0 = 0 → s.cyc = s.cyc0 → n ≤ s.i + m →
    (∀ t, walkLoop F H (lastEffRepeated V) P m s = .ok t → ∀ j, s.i ≤ j → j + 1 < n → t.missIters[j]? = some 0) →
    rsWalkLoop F RH (withRead V a b) P m s = sameOutcome (walkLoop F H (lastEffRepeated V) P m s) := by
  intro m
  induction m with
  | zero =>
    intro s hI hD h0 hc hm _
    unfold rsWalkLoop walkLoop
    have : ¬ s.i < s.cyc.length := by rw [hI.cyc]; omega
    rw [if_neg this, if_neg this]
    rfl
  | succ m ih =>
    intro s hI hD h0 hc hm hmiss
    unfold walkLoop at hmiss
    unfold rsWalkLoop walkLoop
    by_cases hi : s.i < s.cyc.length
    · rw [if_pos hi] at hmiss
      rw [if_pos hi, if_pos hi]
      have hi' := hi
      rw [hI.cyc] at hi
      obtain ⟨e1, -⟩ := rsStep_corr (F := F) (RH := RH) hV hP hI hi h0 a b
      obtain ⟨e2, hJ⟩ := pyStep_corr (F := F) (H := H) hV hP hI hi h0
      rw [step_same h0 hc hP] at e1
      rw [e2] at hmiss
      rw [e1, e2]
      obtain ⟨ts, hd, hl⟩ := solveAndCorrect_dil (F := F) (V := lastEffRepeated V) hP.bounds s hI.pos hi' (hD.fresh _ le_rfl hi')
      have hD' := hD.finish (F := F) hP.bounds hI.pos hi' hd hl
      have hf := finishStep_cyc0 (F := F) hP (solveAndCorrect F (lastEffRepeated V) P s)
      have hc0 : (finishStep F P (solveAndCorrect F (lastEffRepeated V) P s)).cyc0 = s.cyc0 := by
        rw [hf]; exact hd.cyc0
      have hii : (finishStep F P (solveAndCorrect F (lastEffRepeated V) P s)).i = s.i + 1 := by
        rw [hf]; exact congrArg (· + 1) hd.i
      have hz : (finishStep F P (solveAndCorrect F (lastEffRepeated V) P s)).cyc0.times.getD 0 0 = 0 := by rw [hc0]; exact h0
      by_cases hlast : s.i + 1 < n
      · refine ih hJ hD' hz ?_ (by rw [hii]; omega) (fun t ht j hj hjn => hmiss t ht j (by rw [hii] at hj; omega) hjn)
        obtain ⟨t, q1, q2⟩ := walkLoop_corr (F := F) (H := H) hV hP m hJ hD' hz (by rw [hii]; omega)
        have a1 := hmiss t q1 s.i le_rfl hlast
        rw [q2 s.i (by rw [hii]; omega), hf] at a1
        have a2 : (solveAndCorrect F (lastEffRepeated V) P s).missIters[s.i]? = some 0 := a1
        rw [hd.miss, List.getElem?_modify, hD.fresh _ le_rfl hi'] at a2
        have a3 : ts = [] := by simpa using a2
        rw [hc0, hf]
        show (solveAndCorrect F (lastEffRepeated V) P s).cyc = s.cyc0
        rw [hd.cyc, a3, ← hc]
        simp [stretch, shiftTimesFrom_zero]
      · simp only
        have hstop : ¬ (finishStep F P (solveAndCorrect F (lastEffRepeated V) P s)).i <
            (finishStep F P (solveAndCorrect F (lastEffRepeated V) P s)).cyc.length := by
          rw [hii, hJ.cyc]; exact hlast
        cases m with
        | zero => unfold rsWalkLoop walkLoop; rw [if_neg hstop, if_neg hstop]; rfl
        | succ m => unfold rsWalkLoop walkLoop; rw [if_neg hstop, if_neg hstop]; rfl
    · rw [if_neg hi, if_neg hi]
      rfl

/-- The object after `init_for_step`. -/
theorem init_corr (hP : CorrectedDrive P) {s : Sim K} (hlen : s.cyc.length = s.cyc0.length) (ht : s.cyc0.times.Pairwise (· ≤ ·))
    (soc : K) (aux : Option (List K)) (ha : ∀ x, aux = some x → x.length = s.cyc0.length) (U : Veh K) :
    RunInv s.cyc0.length (initState U P s soc aux) ∧ DilInv P (initState U P s soc aux) ∧
    (initState U P s soc aux).cyc = s.cyc0 ∧ (initState U P s soc aux).cyc0 = s.cyc0 ∧ (initState U P s soc aux).i = 1 := by
  have hc : (initState U P s soc aux).cyc = s.cyc0 := by
    unfold initState
    simp [hP.trace]
  have hc0 : (initState U P s soc aux).cyc0 = s.cyc0 := rfl
  have hm : (initState U P s soc aux).missIters = List.replicate s.cyc.length 0 := rfl
  refine ⟨⟨le_refl 1, by rw [hc], ?_, ?_, by rw [hc]; exact ht, ?_⟩, ⟨by rw [hc, hc0], by rw [hm, hc, ← hlen]; simp, ?_, by rw [hc, hc0],
    fun j h1 h2 => ?_, fun j _ _ => by rw [hc, hc0]⟩, hc, hc0, rfl⟩
  · simp [initState, initArrays, hlen]
  · show (initAux s.cyc.length aux).length = _
    cases aux with
    | none => simp [initAux, hlen]
    | some x => rw [hlen, initAux_eq _ ha]; exact ha x rfl
  · intro r hr
    have hr : r ∈ (List.replicate s.cyc.length (Row.zero : Row K)).set 0 (Row.init U soc
      (s.cyc0.speeds.getD 0 0) ((initAux s.cyc.length aux).getD 0 0)) := hr
    rcases List.mem_or_eq_of_mem_set hr with h | rfl
    · rw [List.eq_of_mem_replicate h]; exact le_refl _
    · exact le_refl _
  · intro j _ hj
    rw [hc, ← hlen] at hj
    rw [hm, List.getElem?_replicate, if_pos hj]
  · have : (initState U P s soc aux).i = 1 := rfl
    omega

/-- How both walks start. -/
theorem walks_start (hP : CorrectedDrive P) {s : Sim K} (hlen : s.cyc.length = s.cyc0.length) (soc : K) (aux : Option (List K))
    (ha : ∀ x, aux = some x → x.length = s.cyc0.length) (a b : K) :
    (∃ e, walk F H (lastEffRepeated V) P s soc aux = .error e ∧ rsWalk F RH (withRead V a b) P s soc aux = .error (sameFailure e)) ∨
    (walk F H (lastEffRepeated V) P s soc aux = walkLoop F H (lastEffRepeated V) P s.cyc0.length
        (initState (lastEffRepeated V) P s soc aux) ∧
      rsWalk F RH (withRead V a b) P s soc aux = rsWalkLoop F RH (withRead V a b) P s.cyc0.length
        (initState (lastEffRepeated V) P s soc aux)) := by
  unfold rsWalk walk rsInitForStep initForStep
  have e1 : (withRead V a b).ptType = V.ptType := rfl
  have e2 : (lastEffRepeated V).ptType = V.ptType := rfl
  have e3 : (withRead V a b).minSoc = V.minSoc := rfl
  have e4 : (withRead V a b).maxSoc = V.maxSoc := rfl
  have e5 : (lastEffRepeated V).minSoc = V.minSoc := rfl
  have e6 : (lastEffRepeated V).maxSoc = V.maxSoc := rfl
  rw [e1, e2, e3, e4, e5, e6]
  by_cases hs : V.ptType = .conv ∨ (V.minSoc ≤ soc ∧ soc ≤ V.maxSoc)
  · have hs' : ¬ (V.ptType ≠ .conv ∧ (V.maxSoc < soc ∨ soc < V.minSoc)) := by
      rintro ⟨h1, h2⟩
      rcases hs with h | ⟨h3, h4⟩
      · exact h1 h
      · rcases h2 with h2 | h2
        · exact absurd h4 (not_le.2 h2)
        · exact absurd h3 (not_le.2 h2)
    rw [if_pos hs, if_neg hs']
    by_cases h0 : s.cyc0.length = 0
    · left
      rw [if_pos h0, if_pos (Or.inr h0)]
      exact ⟨_, rfl, rfl⟩
    · right
      rw [if_neg h0, if_neg (c := s.cyc.length = 0 ∨ s.cyc0.length = 0) (by rw [hlen]; simp [h0])]
      have hinit : ({ rsInitArrays s with
          aux := aux.getD (List.replicate s.cyc0.length 0)
          rows := (rsInitArrays s).rows.set 0 (Row.init (withRead V a b) soc (s.cyc0.speeds.getD 0 0)
            ((aux.getD (List.replicate s.cyc0.length 0)).getD 0 0))
          cyc := if P.missedTrace || P.idmAllow || P.coastAllow then s.cyc0 else s.cyc
          i := 1 } : Sim K) = initState (lastEffRepeated V) P s soc aux := by
        unfold initState initArrays rsInitArrays
        have hx := initAux_eq aux ha
        simp only [hlen, hx]
        rfl
      simp only
      rw [hinit]
      have hc : (initState (lastEffRepeated V) P s soc aux).cyc = s.cyc0 := by
        unfold initState
        simp [hP.trace]
      have hc' : (if P.missedTrace || P.idmAllow || P.coastAllow then s.cyc0 else s.cyc) = s.cyc0 := hc
      rw [hc, hc']
      exact ⟨rfl, rfl⟩
  · left
    have hs' : V.ptType ≠ .conv ∧ (V.maxSoc < soc ∨ soc < V.minSoc) := by
      refine ⟨fun h => hs (Or.inl h), ?_⟩
      by_contra h
      have h := not_or.1 h
      exact hs (Or.inr ⟨not_lt.1 h.2, not_lt.1 h.1⟩)
    rw [if_neg hs, if_pos hs']
    exact ⟨_, rfl, rfl⟩

/-- **C111 (walk).** If the python run corrects no step before the last, the Rust run with trace-miss correction is the python
run: the same figure in every array and the same cycle, or the same failure. -/
theorem C111_walk (hV : RsOk V) (hP : CorrectedDrive P) {s : Sim K} (hlen : s.cyc.length = s.cyc0.length)
    (ht : s.cyc0.times.Pairwise (· ≤ ·)) (h0 : s.cyc0.times.getD 0 0 = 0) (soc : K) (aux : Option (List K))
    (ha : ∀ x, aux = some x → x.length = s.cyc0.length) (a b : K)
    (hmiss : ∀ t, walk F H (lastEffRepeated V) P s soc aux = .ok t → ∀ j, 1 ≤ j → j + 1 < s.cyc0.length → t.missIters[j]? = some 0) :
    rsWalk F RH (withRead V a b) P s soc aux = sameOutcome (walk F H (lastEffRepeated V) P s soc aux) := by
  rcases walks_start (F := F) (H := H) (RH := RH) (V := V) hP hlen soc aux ha a b with ⟨e, h1, h2⟩ | ⟨h1, h2⟩
  · rw [h1, h2]; rfl
  · rw [h1, h2]
    obtain ⟨hI, hD, hc, hc0, hi⟩ := init_corr hP hlen ht soc aux ha (lastEffRepeated V)
    refine rsWalkLoop_same hV hP a b _ hI hD (by rw [hc0]; exact h0) (by rw [hc, hc0]) (by omega) ?_
    rw [← h1]
    intro t htt j hj hjn
    exact hmiss t htt j (by rw [hi] at hj; exact hj) hjn

/-- **C111 (run).** Whatever the Rust run with trace-miss correction does, it completes (or rejects its state of charge or an
empty cycle), starts when the trace starts, and stretches each step by a recorded number, at most `max(2,
max_trace_miss_iters)`, of factors within the bounds, so that time keeps moving forward. -/
theorem C111_run (hV : RsOk V) (hP : CorrectedDrive P) {s : Sim K} (hlen : s.cyc.length = s.cyc0.length)
    (ht : Increasing s.cyc0) (h0 : s.cyc0.times.getD 0 0 = 0) (soc : K) (aux : Option (List K))
    (ha : ∀ x, aux = some x → x.length = s.cyc0.length) (a b : K) (hne : s.cyc0 ≠ [])
    (hsoc : V.ptType = .conv ∨ (V.minSoc ≤ soc ∧ soc ≤ V.maxSoc)) :
    ∃ t, rsWalk F RH (withRead V a b) P s soc aux = .ok t ∧ t.cyc0 = s.cyc0 ∧ t.i = s.cyc0.length ∧ Increasing t.cyc ∧
      (t.cyc.map Sample.t).getD 0 0 = 0 ∧ t.cyc.length = s.cyc0.length ∧
      ∀ i, 1 ≤ i → i < s.cyc0.length → ∃ ts : List K,
        (∀ x ∈ ts, P.minTimeDilation ≤ x ∧ x ≤ P.maxTimeDilation) ∧ ts.length ≤ max 2 P.maxTraceMissIters ∧
        t.missIters[i]? = some ts.length ∧ duration t.cyc i = duration s.cyc0 i * stretch ts := by
  have hle : s.cyc0.times.Pairwise (· ≤ ·) := by
    unfold Cyc.times
    rw [List.pairwise_map]
    exact List.Pairwise.imp (fun h => le_of_lt h) ht
  rcases walks_start (F := F) (H := ⟨fun s => .ok s, fun s => .ok s⟩) (RH := RH) (V := V) hP hlen soc aux ha a b with ⟨e, h1, h2⟩ | ⟨h1, h2⟩
  · exfalso
    unfold walk initForStep at h1
    have hl : s.cyc0.length ≠ 0 := by simpa using hne
    have e2 : (lastEffRepeated V).ptType = V.ptType := rfl
    have e5 : (lastEffRepeated V).minSoc = V.minSoc := rfl
    have e6 : (lastEffRepeated V).maxSoc = V.maxSoc := rfl
    rw [e2, e5, e6, if_neg, if_neg (c := s.cyc.length = 0 ∨ s.cyc0.length = 0) (by rw [hlen]; simp [hl])] at h1
    · obtain ⟨hI, hD, hc, hc0, hi⟩ := init_corr hP hlen hle soc aux ha (lastEffRepeated V)
      simp only at h1
      rw [hc] at h1
      obtain ⟨t, q, -⟩ := walkLoop_corr (F := F) (H := ⟨fun s => .ok s, fun s => .ok s⟩) hV hP s.cyc0.length hI hD (by rw [hc0]; exact h0)
        (by omega)
      rw [q] at h1
      cases h1
    · rintro ⟨h1, h2⟩
      rcases hsoc with h | ⟨h3, h4⟩
      · exact h1 h
      · rcases h2 with h2 | h2
        · exact absurd h4 (not_le.2 h2)
        · exact absurd h3 (not_le.2 h2)
  · obtain ⟨hI, hD, hc, hc0, hi⟩ := init_corr hP hlen hle soc aux ha (lastEffRepeated V)
    have hl : 0 < s.cyc0.length := List.length_pos_iff.2 hne
    obtain ⟨t, q1, q2, q3, q4, q5⟩ := rsWalkLoop_corr (F := F) (RH := RH) hV hP a b s.cyc0.length hI hD (by rw [hc0]; exact h0)
      (by rw [hi]; omega) (by omega)
    have q4' : t.cyc0 = s.cyc0 := q4.trans hc0
    refine ⟨t, h2.trans q1, q4', q5, ?_, ?_, q2.cyc, ?_⟩
    · refine increasing_of_durations fun i h1 h2 => ?_
      obtain ⟨ts, b1, -, -, b4⟩ := q3.done i h1 (by rw [q5, ← q2.cyc]; exact h2)
      rw [b4, q4']
      exact mul_pos (duration_pos ht h1 (by rw [← q2.cyc]; exact h2)) (stretch_pos fun x hx => lt_of_lt_of_le hP.positive (b1 x hx).1)
    · rw [q3.start, q4']; exact h0
    · intro i h1 h2
      have := q3.done i h1 (by rw [q5]; exact h2)
      rw [q4'] at this
      exact this

end Field

section Demo
open Demo

/-- The parameters and the trace of `C29_exceeds_max` meet the hypotheses, with a car the Rust core can load. -/
theorem C111_setting : RsOk conv ∧ CorrectedDrive dilParams ∧ Increasing tooFast ∧ tooFast.times.getD 0 0 = 0 ∧
    (Sim.new tooFast).cyc0 = tooFast ∧ conv.ptType = .conv := by
  refine ⟨?_, ⟨rfl, rfl, rfl, by decide +kernel, by decide +kernel⟩, by unfold Increasing tooFast; decide +kernel, by decide +kernel, rfl, rfl⟩
  exact ⟨⟨by decide, by decide +kernel, by decide +kernel, by decide +kernel, by decide +kernel⟩,
      ⟨by decide, by decide +kernel, by decide +kernel, by decide +kernel, by decide +kernel⟩, by decide +kernel,
      by decide +kernel, by decide +kernel, by decide +kernel, by decide +kernel, by decide +kernel, by decide +kernel,
      by decide +kernel, by decide +kernel, by decide +kernel, by decide +kernel, by decide +kernel, by decide +kernel,
      by decide +kernel, by decide +kernel⟩

/-- A result whose only content is a speed and a distance. -/
def ranM (v d : ℚ) : Row ℚ := { (Row.zero : Row ℚ) with ach := { (Row.zero : Row ℚ).ach with mpsAch := v, distM := d } }

/-- A vehicle that covered the 10 m of the first step in two seconds and the 10 m of the second in one. -/
def caughtUp : Sim ℚ :=
  { Sim.new [⟨0, 0, 0, 0⟩, ⟨1, 10, 0, 0⟩, ⟨2, 10, 0, 0⟩] with
    cyc := [⟨0, 0, 0, 0⟩, ⟨2, 10, 0, 0⟩, ⟨3, 10, 0, 0⟩]
    rows := [ranM 0 0, ranM 5 10, ranM 10 10]
    aux := [0, 0, 0]
    missIters := [0, 1, 0]
    i := 2 }

/-- The hypotheses of `C111_again` are met. -/
theorem C111_again_setting : RunInv 3 caughtUp ∧ caughtUp.i < 3 ∧ caughtUp.cyc0.length = 3 ∧
    caughtUp.cyc.map Sample.v = caughtUp.cyc0.map Sample.v ∧ caughtUp.cyc.times.getD 0 0 = 0 ∧ caughtUp.cyc0.times.getD 0 0 = 0 ∧
    caughtUp.missIters[caughtUp.i]? = some 0 ∧ OnTrace dilParams.timeDilationTol caughtUp ∧
    (caughtUp.cyc.map Sample.v).getD caughtUp.i 0 ≠ 0 ∧ 0 < askedM caughtUp.cyc0 caughtUp.i ∧
    2 * dilParams.timeDilationTol * askedM caughtUp.cyc0 caughtUp.i ≤ addedM caughtUp.cyc caughtUp.cyc0 caughtUp.i := by
  refine ⟨⟨by decide, rfl, rfl, rfl, by decide +kernel, by decide +kernel⟩, by decide +kernel⟩

/-- The hypothesis of `C111_walk` is met by a run that corrects its last step. -/
theorem C111_walk_setting :
    (match walk fns noHooks (lastEffRepeated conv) dilParams (Sim.new (tooFast.take 3)) (1 / 2) none with
      | .ok t => decide (t.missIters = [0, 0, 5])
      | .error _ => false) = true := by
  decide +kernel

/-- Where the two programs part. In the second step both overshoot the 14 m of the trace in the same way, to more than 29 m. In the
third step the python code shortens the step to come back towards the trace; the Rust core measures against its own stretched
cycle, finds itself there, and stays further ahead. -/
theorem C111_parts :
    (match rsDrive fns rsNoHooks conv dilParams (Sim.new tooFast) none none,
        simDrive fns noHooks conv dilParams (Sim.new tooFast) none none with
      | .ok t', .ok t => decide (t.missIters = [0, 0, 5, 1] ∧ t'.missIters = [0, 0, 5, 0] ∧
          drivenM t'.rows 2 = drivenM t.rows 2 ∧ 29 < drivenM t.rows 2 ∧ askedM tooFast 2 = 14 ∧
          duration t.cyc 3 = 1 / 2 ∧ duration t'.cyc 3 = 1 ∧ drivenM t'.rows 3 = drivenM t.rows 3 + 5)
      | _, _ => false) = true := by
  decide +kernel

end Demo
end Fastsim.Props
