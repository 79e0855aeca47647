import Verif.Props.Real
import Verif.Model.Coast
import Verif.Spec.Demo

/-!
# C58: what happened does not depend on what comes later
-/

set_option linter.unusedSectionVars false

namespace Fastsim.Spec

variable {K : Type*} [Zero K]

/-- The object as it would be had the cycle ended after `n` samples. -/
def cut (n : Nat) (s : Sim K) : Sim K :=
  { s with
    cyc0 := s.cyc0.take n
    cyc := s.cyc.take n
    rows := s.rows.take n
    aux := s.aux.take n
    impose := s.impose.take n
    coastDelay := s.coastDelay.take n
    idmTarget := s.idmTarget.take n
    missIters := s.missIters.take n }

end Fastsim.Spec

namespace Fastsim.Props
open Fastsim Spec

section Lists
variable {α β : Type*}

theorem getD_take_lt (l : List α) (d : α) {i n : Nat} (h : i < n) : (l.take n).getD i d = l.getD i d := by
  simp only [List.getD_eq_getElem?_getD, List.getElem?_take_of_lt h]

theorem take_set_comm (l : List α) (n i : Nat) (x : α) : (l.take n).set i x = (l.set i x).take n := by
  apply List.ext_getElem?
  intro j
  simp only [List.getElem?_set, List.getElem?_take, List.length_take]
  by_cases hj : j < n <;> by_cases hij : i = j <;> simp [hj, hij]
  

theorem take_modify_comm (l : List α) (n i : Nat) (f : α → α) :
    (l.take n).modify i f = (l.modify i f).take n := by
  apply List.ext_getElem?
  intro j
  simp only [List.getElem?_modify, List.getElem?_take]
  by_cases hj : j < n <;> simp [hj]

theorem take_mapIdx_comm (l : List α) (n : Nat) (f : Nat → α → β) :
    (l.take n).mapIdx f = (l.mapIdx f).take n := by
  apply List.ext_getElem?
  intro j
  simp only [List.getElem?_mapIdx, List.getElem?_take]
  by_cases hj : j < n <;> simp [hj]

theorem take_zipWith_comm {γ : Type*} (f : α → β → γ) (l : List α) (m : List β) (n : Nat) :
    (List.zipWith f l m).take n = List.zipWith f (l.take n) (m.take n) := by
  rw [List.take_zipWith]

end Lists

section Lawless
variable {K : Type*} [Zero K] [One K] [NatCast K] [Add K] [Sub K] [Mul K] [Div K] [Neg K]
  [LinearOrder K]
variable {F : Fns K} {H : Hooks K} {V : Veh K} {P : SimParams K} {m : Nat}

theorem cumsumFrom_take (l : List K) : ∀ (s : K) (n : Nat), cumsumFrom s (l.take n) = (cumsumFrom s l).take n := by
  induction l with
  | nil => intro s n; simp [cumsumFrom]
  | cons x l ih =>
    intro s n
    cases n with
    | zero => simp [cumsumFrom]
    | succ n => simp [cumsumFrom, ih]

theorem diff_take (l : List K) : ∀ (n : Nat), diff (l.take (n + 1)) = (diff l).take n := by
  induction l with
  | nil => intro n; simp [diff]
  | cons x l ih =>
    intro n
    cases l with
    | nil => simp [diff]
    | cons y l =>
      cases n with
      | zero => simp [diff]
      | succ n =>
        have := ih n
        simp only [List.take_succ_cons, diff] at this ⊢
        rw [this]

theorem times_take (c : Cyc K) (n : Nat) : Cyc.times (List.take n c) = (Cyc.times c).take n := by
  simp [Cyc.times, List.map_take]
theorem speeds_take (c : Cyc K) (n : Nat) : Cyc.speeds (List.take n c) = (Cyc.speeds c).take n := by
  simp [Cyc.speeds, List.map_take]
theorem grades_take (c : Cyc K) (n : Nat) : Cyc.grades (List.take n c) = (Cyc.grades c).take n := by
  simp [Cyc.grades, List.map_take]

theorem dtS_take (c : Cyc K) (n : Nat) : dtS (List.take n c) = (dtS c).take n := by
  unfold dtS
  rw [times_take, ← diff_take]
  simp

theorem dtAt_take (c : Cyc K) {i n : Nat} (h : i < n) : dtAt (List.take n c) i = dtAt c i := by
  unfold dtAt
  rw [times_take, getD_take_lt _ _ h, getD_take_lt _ _ (by omega)]

theorem distM_take (c : Cyc K) (n : Nat) : distM (List.take n c) = (distM c).take n := by
  unfold distM
  rw [speeds_take, dtS_take, take_zipWith_comm]

theorem startDist_take (c : Cyc K) {i n : Nat} (h : i ≤ n) :
    trapzStepStartDistance (List.take n c) i = trapzStepStartDistance c i := by
  unfold trapzStepStartDistance
  simp only [times_take, speeds_take, List.take_take]
  rw [min_eq_left h, min_eq_left (by omega)]

theorem trapzDistances_take (c : Cyc K) (n : Nat) :
    trapzDistances (List.take n c) = (trapzDistances c).take n := by
  unfold trapzDistances cumsum trapzStepDistances
  rw [← cumsumFrom_take, take_zipWith_comm, dtS_take]
  congr 1
  cases n with
  | zero => simp [dtS, diff]
  | succ n =>
    congr 1
    unfold averageStepSpeeds
    rw [speeds_take]
    cases hc : Cyc.speeds c with
    | nil => simp
    | cons x l =>
      simp only [List.take_succ_cons, List.tail_cons, List.cons.injEq, true_and]
      apply List.ext_getElem?
      intro j
      by_cases hj : j < n
      · rw [List.getElem?_take_of_lt hj, List.getElem?_zipWith, List.getElem?_zipWith, List.getElem?_take_of_lt hj]
        cases j with
        | zero => simp
        | succ j => simp [List.getElem?_take_of_lt (show j < n by omega)]
      · rw [List.getElem?_zipWith, List.getElem?_take_eq_none (by omega), List.getElem?_take_eq_none (by omega)]

theorem gradeAllZero_iff (c : Cyc K) : gradeAllZero c = true ↔ ∀ x ∈ c, x.g = 0 := by
  simp [gradeAllZero, Cyc.grades]

/-- What a step may look at: grades that are the lead trace's own or a level road; accessory loads not
yet filled in. -/
structure CutInv (P : SimParams K) (m : Nat) (s : Sim K) : Prop where
  grades : (P.idmAllow = false ∧ Cyc.grades s.cyc = Cyc.grades s.cyc0) ∨ (∀ x ∈ s.cyc0, x.g = 0)
  aux : ∀ x ∈ s.aux.drop (s.i + 1), x = 0
  pos : 1 ≤ s.i
  len : m ≤ s.idmTarget.length

theorem drop_take_zero {a : List K} {i n : Nat} (h : ∀ x ∈ a.drop (i + 1), x = 0) (hi : i < n) :
    (∀ x ∈ (a.take n).drop i, x = 0) ↔ ∀ x ∈ a.drop i, x = 0 := by
  constructor
  · intro h' x hx
    by_cases hl : i < a.length
    · rw [List.drop_eq_getElem_cons hl, List.mem_cons] at hx
      rcases hx with rfl | hx
      · apply h'
        have hl' : i < (a.take n).length := by rw [List.length_take]; omega
        rw [List.drop_eq_getElem_cons hl', List.getElem_take]
        exact List.mem_cons_self
      · exact h x hx
    · rw [List.drop_eq_nil_of_le (by omega)] at hx
      simp at hx
  · intro h' x hx
    rw [List.drop_take] at hx
    exact h' x (List.mem_of_mem_take hx)

theorem auxStep_cut {a : List K} {i n : Nat} (h : ∀ x ∈ a.drop (i + 1), x = 0) (hi : i < n) :
    auxStep V (a.take n) i = (auxStep V a i).take n := by
  have e : ((a.take n).drop i).all (fun x => decide (x = 0)) = (a.drop i).all fun x => decide (x = 0) := by
    rw [Bool.eq_iff_iff]
    simp only [List.all_eq_true, decide_eq_true_eq]
    exact drop_take_zero h hi
  unfold auxStep
  rw [e, take_set_comm]
  split <;> rfl

theorem auxStep_rest {a : List K} {i : Nat} (h : ∀ x ∈ a.drop (i + 1), x = 0) :
    ∀ x ∈ (auxStep V a i).drop (i + 1), x = 0 := by
  unfold auxStep
  split
  · rw [List.drop_set_of_lt (by omega)]; exact h
  · exact h

theorem gradeAllZero_cut {s : Sim K} (n : Nat) (h : gradeAllZero s.cyc0 = true) :
    gradeAllZero (cut n s).cyc0 = true := by
  rw [gradeAllZero_iff] at h ⊢
  exact fun x hx => h x (List.mem_of_mem_take hx)

theorem grade_zero_of_cut {s : Sim K} {n : Nat} (hg : Cyc.grades s.cyc = Cyc.grades s.cyc0)
    (h : gradeAllZero (cut n s).cyc0 = true) {i : Nat} (hi : i < n) : (Cyc.grades s.cyc).getD i 0 = 0 := by
  rw [hg, ← getD_take_lt _ _ hi, ← grades_take, List.getD_eq_getElem?_getD]
  rw [gradeAllZero_iff] at h
  unfold Cyc.grades
  rw [List.getElem?_map]
  cases hx : (List.take n s.cyc0)[i]? with
  | none => rfl
  | some x => exact h x (List.mem_of_getElem? hx)

theorem stepEnv_cut (hco : P.coastAllow = false) {s : Sim K} (hI : CutInv P m s) {n : Nat} (hi : s.i < n) :
    stepEnv F V P (cut n s) = stepEnv F V P s := by
  have hgr : (Cyc.grades (cut n s).cyc).getD (cut n s).i 0 = (Cyc.grades s.cyc).getD s.i 0 := by
    show (Cyc.grades (List.take n s.cyc)).getD s.i 0 = _
    rw [grades_take, getD_take_lt _ _ hi]
  have hG : ∀ x y : K, (if gradeAllZero (cut n s).cyc0 = true then 0
        else if P.coastAllow = false ∧ P.idmAllow = false then (Cyc.grades (cut n s).cyc).getD (cut n s).i 0 else x) =
      (if gradeAllZero s.cyc0 = true then 0
        else if P.coastAllow = false ∧ P.idmAllow = false then (Cyc.grades s.cyc).getD s.i 0 else y) := by
    intro x y
    rcases hI.grades with ⟨h1, h2⟩ | h
    · simp only [hco, h1, and_self, if_true]
      rw [hgr]
      by_cases hz : gradeAllZero s.cyc0 = true
      · rw [if_pos (gradeAllZero_cut n hz), if_pos hz]
      · rw [if_neg hz]
        split
        · rename_i hc
          exact (grade_zero_of_cut h2 hc hi).symm
        · rfl
    · have hz : gradeAllZero s.cyc0 = true := (gradeAllZero_iff _).mpr h
      rw [if_pos (gradeAllZero_cut n hz), if_pos hz]
  unfold stepEnv
  congr 1
  · exact dtAt_take _ hi
  · show (Cyc.speeds (List.take n s.cyc)).getD s.i 0 = _
    rw [speeds_take, getD_take_lt _ _ hi]
  · funext v
    exact hG _ _
  · exact hG _ _
  · show (auxStep V (s.aux.take n) s.i).getD s.i 0 = _
    rw [auxStep_cut hI.aux hi, getD_take_lt _ _ hi]
  · exact getD_take_lt _ _ hi

theorem solve_cut (hco : P.coastAllow = false) {s : Sim K} (hI : CutInv P m s) {n : Nat} (hi : s.i < n) :
    Sim.solve F V P (cut n s) = cut n (Sim.solve F V P s) := by
  unfold Sim.solve
  rw [stepEnv_cut hco hI hi]
  simp only [cut]
  rw [auxStep_cut hI.aux hi, getD_take_lt _ _ hi, getD_take_lt _ _ (by omega), take_set_comm]

theorem solve_cutInv {s : Sim K} (hI : CutInv P m s) : CutInv P m (Sim.solve F V P s) :=
  ⟨hI.grades, auxStep_rest hI.aux, hI.pos, hI.len⟩

theorem targetDist_cut {s : Sim K} {n : Nat} (hi : s.i < n) : targetDist (cut n s) = targetDist s := by
  show npSum ((distM (List.take n s.cyc0)).take (s.i + 1)) = _
  rw [distM_take, List.take_take, min_eq_left (by omega)]
  rfl

theorem achievedDist_cut {s : Sim K} {n : Nat} (hi : s.i < n) : achievedDist (cut n s) = achievedDist s := by
  show npSum (((List.take n s.rows).take (s.i + 1)).map fun r => r.ach.distM) = _
  rw [List.take_take, min_eq_left (by omega)]
  rfl

theorem distConverged_cut {s : Sim K} {n : Nat} (hi : s.i < n) :
    distConverged P (cut n s) = distConverged P s := by
  unfold distConverged
  rw [targetDist_cut hi, achievedDist_cut hi]

theorem shift_grades (c : Cyc K) (i : Nat) (x : K) : Cyc.grades (shiftTimesFrom c i x) = Cyc.grades c := by
  unfold Cyc.grades shiftTimesFrom
  apply List.ext_getElem?
  intro j
  rw [List.getElem?_map, List.getElem?_mapIdx, List.getElem?_map]
  cases c[j]? with
  | none => rfl
  | some y => simp only [Option.map_some, Option.some.injEq]; split <;> rfl

theorem shift_cutInv {s : Sim K} (hI : CutInv P m s) (x : K) :
    CutInv P m { s with cyc := shiftTimesFrom s.cyc s.i x } :=
  ⟨hI.grades.imp (fun h => ⟨h.1, by simp only; rw [shift_grades, h.2]⟩) id, hI.aux, hI.pos, hI.len⟩

theorem dilate_cut (hco : P.coastAllow = false) {s : Sim K} (hI : CutInv P m s) {n : Nat} (hi : s.i < n) (t : K) :
    dilateAndSolve F V P (cut n s) t = cut n (dilateAndSolve F V P s t) := by
  unfold dilateAndSolve
  rw [← solve_cut hco (shift_cutInv hI _) hi]
  congr 1
  simp only [cut]
  rw [dtAt_take _ hi]
  congr 1
  exact take_mapIdx_comm _ _ _

theorem dilate_cutInv {s : Sim K} (hI : CutInv P m s) (t : K) : CutInv P m (dilateAndSolve F V P s t) :=
  solve_cutInv (shift_cutInv hI _)

theorem bump_cut (s : Sim K) (n : Nat) : bumpMiss (cut n s) = cut n (bumpMiss s) := by
  simp only [bumpMiss, cut, take_modify_comm]

theorem bump_cutInv {s : Sim K} (hI : CutInv P m s) : CutInv P m (bumpMiss s) := ⟨hI.grades, hI.aux, hI.pos, hI.len⟩

theorem dilationLoop_cut (hco : P.coastAllow = false) {n : Nat} (iters : Nat) (t tPrev dPrev : K) (s : Sim K)
    (hI : CutInv P m s) (hi : s.i < n) :
    dilationLoop F V P iters t tPrev dPrev (cut n s) = cut n (dilationLoop F V P iters t tPrev dPrev s) ∧
      CutInv P m (dilationLoop F V P iters t tPrev dPrev s) ∧
      (dilationLoop F V P iters t tPrev dPrev s).i = s.i := by
  fun_induction dilationLoop F V P iters t tPrev dPrev s with
  | case1 iters t tPrev dPrev s d t' s1 hc =>
    have e2 : bumpMiss (dilateAndSolve F V P (cut n s) t') = cut n s1 := by
      rw [dilate_cut hco hI hi, bump_cut]
    refine ⟨?_, bump_cutInv (dilate_cutInv hI _), rfl⟩
    rw [dilationLoop]
    simp only [targetDist_cut hi, achievedDist_cut hi]
    rw [dif_pos]
    · exact e2
    · have e2' : bumpMiss (dilateAndSolve F V P (cut n s) (clampDilation P (t - (t - tPrev)
        / (targetDist s - achievedDist s - dPrev) * (targetDist s - achievedDist s)))) = cut n s1 := e2
      rw [e2', distConverged_cut (show s1.i < n from hi)]
      exact hc
  | case2 iters t tPrev dPrev s d t' s1 hc ih =>
    have e2 : bumpMiss (dilateAndSolve F V P (cut n s) t') = cut n s1 := by
      rw [dilate_cut hco hI hi, bump_cut]
    obtain ⟨q1, q2, q3⟩ := ih (bump_cutInv (dilate_cutInv hI _)) hi
    refine ⟨?_, q2, q3⟩
    rw [← q1, ← e2]
    have hl : dilationLoop F V P iters t tPrev dPrev (cut n s) = dilationLoop F V P (iters + 1) t' t d
        (bumpMiss (dilateAndSolve F V P (cut n s) t')) := by
      rw [dilationLoop]
      simp only [targetDist_cut hi, achievedDist_cut hi]
      rw [dif_neg]
      have e2' : bumpMiss (dilateAndSolve F V P (cut n s) (clampDilation P (t - (t - tPrev)
        / (targetDist s - achievedDist s - dPrev) * (targetDist s - achievedDist s)))) = cut n s1 := e2
      rw [e2', distConverged_cut (show s1.i < n from hi)]
      exact hc
    exact hl

theorem setTimeDilation_cut (hco : P.coastAllow = false) {n : Nat} {s : Sim K} (hI : CutInv P m s) (hi : s.i < n) :
    setTimeDilation F V P (cut n s) = cut n (setTimeDilation F V P s) ∧
      CutInv P m (setTimeDilation F V P s) ∧ (setTimeDilation F V P s).i = s.i := by
  have hv : (Cyc.speeds (cut n s).cyc).getD (cut n s).i 0 = (Cyc.speeds s.cyc).getD s.i 0 := by
    show (Cyc.speeds (List.take n s.cyc)).getD s.i 0 = _
    rw [speeds_take, getD_take_lt _ _ hi]
  have hr : ((cut n s).rows.getD (cut n s).i Row.zero) = s.rows.getD s.i Row.zero := getD_take_lt _ _ hi
  have hd : dtAt (cut n s).cyc0 (cut n s).i = dtAt s.cyc0 s.i := dtAt_take _ hi
  unfold setTimeDilation
  simp only
  rw [hv, hr, hd, distConverged_cut hi, targetDist_cut hi, achievedDist_cut hi]
  split
  · exact ⟨rfl, hI, rfl⟩
  · set t := clampDilation P ((targetDist s - achievedDist s) / dtAt s.cyc0 s.i
        / (s.rows.getD s.i Row.zero).ach.mpsAch) with ht
    have e : dilateAndSolve F V P (bumpMiss (cut n s)) t = cut n (dilateAndSolve F V P (bumpMiss s) t) := by
      rw [bump_cut]; exact dilate_cut hco (bump_cutInv hI) hi t
    rw [e, distConverged_cut (show (dilateAndSolve F V P (bumpMiss s) t).i < n from hi)]
    split
    · exact ⟨rfl, dilate_cutInv (bump_cutInv hI) t, rfl⟩
    · have hm : (cut n (dilateAndSolve F V P (bumpMiss s) t)).missIters.getD (cut n s).i 0 =
          (dilateAndSolve F V P (bumpMiss s) t).missIters.getD s.i 0 := getD_take_lt _ _ hi
      rw [hm]
      exact dilationLoop_cut hco _ _ _ _ _ (dilate_cutInv (bump_cutInv hI) t) hi

theorem solveAndCorrect_cut (hco : P.coastAllow = false) {n : Nat} {s : Sim K} (hI : CutInv P m s) (hi : s.i < n) :
    solveAndCorrect F V P (cut n s) = cut n (solveAndCorrect F V P s) ∧
      CutInv P m (solveAndCorrect F V P s) ∧ (solveAndCorrect F V P s).i = s.i := by
  have e := solve_cut (F := F) (V := V) hco hI hi
  have hd : npSum ((distM (cut n (Sim.solve F V P s)).cyc0).take (cut n (Sim.solve F V P s)).i) =
      npSum ((distM (Sim.solve F V P s).cyc0).take (Sim.solve F V P s).i) := by
    show npSum ((distM (List.take n s.cyc0)).take s.i) = npSum ((distM s.cyc0).take s.i)
    rw [distM_take, List.take_take, min_eq_left (by omega)]
  unfold solveAndCorrect
  simp only
  rw [e, hd]
  split
  · exact setTimeDilation_cut hco (solve_cutInv hI) hi
  · exact ⟨rfl, solve_cutInv hI, rfl⟩

theorem lookupGrade_level {s : Sim K} (h : ∀ x ∈ s.cyc0, x.g = 0) : lookupGrade F P s = 0 := by
  unfold lookupGrade
  rw [if_pos ((gradeAllZero_iff _).mpr h)]

theorem finishStep_cut (hco : P.coastAllow = false) {n : Nat} {s : Sim K} (hI : CutInv P m s) (hi : s.i < n) :
    finishStep F P (cut n s) = cut n (finishStep F P s) ∧ CutInv P m (finishStep F P s) ∧
      (finishStep F P s).i = s.i + 1 := by
  have haux : ∀ x ∈ s.aux.drop (s.i + 1 + 1), x = 0 := by
    intro x hx
    apply hI.aux
    rw [← List.drop_drop] at hx
    exact List.mem_of_mem_drop hx
  have hr : ((cut n s).rows.getD (cut n s).i Row.zero) = s.rows.getD s.i Row.zero := getD_take_lt _ _ hi
  unfold finishStep
  simp only [hco, Bool.false_or]
  rw [hr]
  cases hp : P.idmAllow with
  | true =>
    rcases hI.grades with ⟨h1, -⟩ | hg
    · rw [hp] at h1; simp at h1
    · simp only [if_true]
      have e1 := lookupGrade_level (F := F) (P := P)
        (s := { s with cyc := setSpeed s.cyc s.i (s.rows.getD s.i Row.zero).ach.mpsAch }) hg
      have e2 := lookupGrade_level (F := F) (P := P)
        (s := { (cut n s) with cyc := setSpeed (cut n s).cyc (cut n s).i (s.rows.getD s.i Row.zero).ach.mpsAch })
        (fun x hx => hg x (List.mem_of_mem_take hx))
      rw [e1, e2]
      refine ⟨?_, ⟨Or.inr hg, haux, by simp only; omega, hI.len⟩, trivial⟩
      simp only [cut, setSpeed, take_modify_comm]
  | false =>
    simp only [Bool.false_eq_true, if_false]
    exact ⟨rfl, ⟨hI.grades, haux, by simp only; omega, hI.len⟩, trivial⟩

theorem idmTargetFor_cut {n : Nat} {s : Sim K} (hi : s.i < n) : idmTargetFor P (cut n s) = idmTargetFor P s := by
  have e : npSum ((distM (cut n s).cyc).take (cut n s).i) = npSum ((distM s.cyc).take s.i) := by
    show npSum ((distM (List.take n s.cyc)).take s.i) = npSum ((distM s.cyc).take s.i)
    rw [distM_take, List.take_take, min_eq_left (by omega)]
  unfold idmTargetFor
  rw [e]

theorem lookupTarget_pos (d : K) : ∀ (l : List (K × K)) (f : K), 0 < f → (∀ p ∈ l, 0 < p.2) → 0 < lookupTarget d f l
  | [], f, hf, _ => hf
  | p :: r, f, hf, h => by
    unfold lookupTarget
    split
    · exact lookupTarget_pos d r p.2 (h p List.mem_cons_self) fun q hq => h q (List.mem_cons_of_mem _ hq)
    · exact hf

/-- Desired speeds of car following are given and positive. -/
def _root_.Fastsim.Spec.DesiredPos (P : SimParams K) : Prop :=
  match P.idmByDistance with
  | none => 0 < P.idmVDesired
  | some l => ∀ p ∈ l, 0 < p.2

theorem idmTargetFor_pos (h : DesiredPos P) {s : Sim K} {v : K} (hv : idmTargetFor P s = .ok v) : 0 < v := by
  unfold idmTargetFor at hv
  unfold DesiredPos at h
  split at hv
  · rename_i e; rw [e] at h; cases hv; exact h
  · simp at hv
  · rename_i p r e
    rw [e] at h
    cases hv
    exact lookupTarget_pos _ _ _ (h p List.mem_cons_self) h

theorem setSpeed_len (c : Cyc K) (i : Nat) (v : K) : (setSpeed c i v).length = c.length := by
  simp [setSpeed]

theorem idmHook_cut (hpos : DesiredPos P) {n : Nat} {s : Sim K} (hI : CutInv P m s) (hi : s.i < n)
    (hl : s.i < s.idmTarget.length) (hgr : ∀ x ∈ s.cyc0, x.g = 0) :
    (∃ e, idmHook F P (cut n s) = .error e ∧ idmHook F P s = .error e) ∨
    ∃ t, idmHook F P s = .ok t ∧ idmHook F P (cut n s) = .ok (cut n t) ∧ CutInv P m t ∧ t.i = s.i ∧
      t.cyc.length = s.cyc.length ∧ t.idmTarget.length = s.idmTarget.length ∧ t.cyc0 = s.cyc0 := by
  unfold idmHook
  rw [idmTargetFor_cut hi]
  cases hv : idmTargetFor P s with
  | error e => exact Or.inl ⟨e, rfl, rfl⟩
  | ok v =>
    right
    have hp := idmTargetFor_pos hpos hv
    refine ⟨_, rfl, ?_, ⟨Or.inr hgr, hI.aux, hI.pos, by
      simp only [setSpeedForTargetGap, List.length_set]; exact hI.len⟩, rfl, setSpeed_len _ _ _, by
      simp only [setSpeedForTargetGap, List.length_set], rfl⟩
    simp only [Except.ok.injEq]
    have e1 : ((s.idmTarget.set s.i v).getD s.i 0) = v := by
      rw [List.getD_eq_getElem?_getD, List.getElem?_set_self hl]; rfl
    have e2 : (((cut n s).idmTarget.set s.i v).getD s.i 0) = v := by
      show (((s.idmTarget.take n).set s.i v).getD s.i 0) = v
      rw [take_set_comm, getD_take_lt _ _ hi, e1]
    have hp1 := hI.pos
    have e2' : ((s.idmTarget.take n).set s.i v).getD s.i 0 = v := e2
    simp only [setSpeedForTargetGap, nextSpeedByIdm, cut, e1, e2', if_pos hp]
    rw [getD_take_lt _ _ (by omega), speeds_take, getD_take_lt _ _ (by omega), trapzDistances_take,
      getD_take_lt _ _ (by omega), startDist_take _ (by omega), dtAt_take _ hi]
    simp only [setSpeed, take_modify_comm, take_set_comm]

/-- Driving modes that look at what lies behind only: no coasting; car following on level roads with given
desired speeds. -/
structure _root_.Fastsim.Spec.LooksBack (F : Fns K) (H : Hooks K) (P : SimParams K) (c : Cyc K) : Prop where
  noCoast : P.coastAllow = false
  idm : P.idmAllow = true → H.idm = idmHook F P ∧ DesiredPos P ∧ ∀ x ∈ c, x.g = 0

theorem simDriveStep_cut {c : Cyc K} (hM : LooksBack F H P c) {n : Nat} {s : Sim K} (hc : s.cyc0 = c)
    (hI : CutInv P m s) (hi : s.i < n) (hl : s.i < s.idmTarget.length) :
    (∃ e, simDriveStep F H V P (cut n s) = .error e ∧ simDriveStep F H V P s = .error e) ∨
    ∃ t, simDriveStep F H V P s = .ok t ∧ simDriveStep F H V P (cut n s) = .ok (cut n t) ∧ CutInv P m t ∧
      t.i = s.i + 1 := by
  unfold simDriveStep
  simp only [hM.noCoast, Bool.false_eq_true, if_false]
  cases hp : P.idmAllow with
  | false =>
    simp only [Bool.false_eq_true, if_false]
    right
    obtain ⟨q1, q2, q3⟩ := solveAndCorrect_cut (F := F) (V := V) hM.noCoast hI hi
    obtain ⟨r1, r2, r3⟩ := finishStep_cut (F := F) hM.noCoast q2 (show (solveAndCorrect F V P s).i < n by omega)
    exact ⟨_, rfl, by rw [q1, r1], r2, by rw [r3, q3]⟩
  | true =>
    obtain ⟨h1, h2, h3⟩ := hM.idm hp
    simp only [if_true, h1]
    rcases idmHook_cut (F := F) h2 hI hi hl (by rw [hc]; exact h3) with ⟨e, x, y⟩ | ⟨t, x, y, z, w, -⟩
    · left; exact ⟨e, by rw [x], by rw [y]⟩
    · right
      rw [x, y]
      simp only
      obtain ⟨q1, q2, q3⟩ := solveAndCorrect_cut (F := F) (V := V) hM.noCoast z (show t.i < n by omega)
      obtain ⟨r1, r2, r3⟩ := finishStep_cut (F := F) hM.noCoast q2 (show (solveAndCorrect F V P t).i < n by omega)
      exact ⟨_, rfl, by rw [q1, r1], r2, by rw [r3, q3, w]⟩

theorem walkLoop_agree (hH : H.Local) : ∀ (fuel : Nat) {s s' : Sim K}, WalkInv F V P s →
    walkLoop F H V P fuel s = .ok s' → AgreeBefore s.i s s'
  | 0, s, s', _, h => by
    unfold walkLoop at h
    split at h
    · simp at h
    · cases h; exact AgreeBefore.refl _ _
  | fuel + 1, s, s', hI, h => by
    unfold walkLoop at h
    split at h
    · rename_i hlt
      split at h
      · simp at h
      · rename_i t ht
        obtain ⟨hI', hi', ha⟩ := simDriveStep_inv hH hI hlt ht
        have q := walkLoop_agree hH fuel hI' h
        rw [hi'] at q
        exact ha.trans ⟨q.cyc0, q.lenCyc, q.lenRows, q.lenAux, fun j hj => q.rows j (by omega),
          fun j hj => q.aux j (by omega), fun j hj => q.times j (by omega)⟩
    · cases h; exact AgreeBefore.refl _ _

theorem walkLoop_cut (hH : H.Local) {c : Cyc K} (hM : LooksBack F H P c) {n : Nat} (hnm : n ≤ m) :
    ∀ (k fuel : Nat) {s s' : Sim K}, s.i + k = n → WalkInv F V P s → CutInv P m s → s.cyc0 = c →
    n ≤ s.cyc.length → walkLoop F H V P fuel s = .ok s' → ∀ fuel', k ≤ fuel' →
    ∃ t, walkLoop F H V P fuel' (cut n s) = .ok (cut n t) ∧ AgreeBefore n t s'
  | 0, fuel, s, s', hk, hI, hC, hc, hn, h, fuel', _ => by
    refine ⟨s, ?_, by have := walkLoop_agree hH fuel hI h; rw [show s.i = n by omega] at this; exact this⟩
    have hl : ¬ (cut n s).i < (cut n s).cyc.length := by
      show ¬ s.i < (List.take n s.cyc).length
      rw [List.length_take]; omega
    cases fuel' <;> unfold walkLoop <;> rw [if_neg hl]
  | k + 1, fuel, s, s', hk, hI, hC, hc, hn, h, fuel', hf => by
    have hlt : s.i < s.cyc.length := by omega
    have hl : (cut n s).i < (cut n s).cyc.length := by
      show s.i < (List.take n s.cyc).length
      rw [List.length_take]; omega
    obtain ⟨f', rfl⟩ : ∃ f', fuel' = f' + 1 := ⟨fuel' - 1, by omega⟩
    cases fuel with
    | zero => unfold walkLoop at h; rw [if_pos hlt] at h; simp at h
    | succ fuel =>
      unfold walkLoop at h
      rw [if_pos hlt] at h
      rcases simDriveStep_cut (V := V) hM hc hC (show s.i < n by omega)
        (show s.i < s.idmTarget.length by have := hC.len; omega) with ⟨e, -, y⟩ | ⟨t, x, y, z, w⟩
      · rw [y] at h; simp at h
      · rw [x] at h
        obtain ⟨hI', hi', ha⟩ := simDriveStep_inv hH hI hlt x
        obtain ⟨u, hu, hu'⟩ := walkLoop_cut hH hM hnm k fuel (s := t) (by omega) hI' z (by rw [ha.cyc0, hc])
          (by rw [ha.lenCyc]; exact hn) h f' (by omega)
        refine ⟨u, ?_, hu'⟩
        unfold walkLoop
        rw [if_pos hl, y]
        exact hu

theorem initState_cut {c : Cyc K} {n : Nat} (h1 : 1 ≤ n) (hn : n ≤ c.length) (soc : K) :
    cut n (initState V P (Sim.new c) soc none) = initState V P (Sim.new (List.take n c)) soc none := by
  have hl : (List.take n c).length = n := by rw [List.length_take]; omega
  have hs : (Cyc.speeds (List.take n c)).getD 0 0 = (Cyc.speeds c).getD 0 0 := by
    rw [speeds_take, getD_take_lt _ _ (by omega)]
  have ha : (List.replicate c.length (0 : K)).getD 0 0 = (List.replicate n (0 : K)).getD 0 0 := by
    rw [List.getD_eq_getElem?_getD, List.getD_eq_getElem?_getD, List.getElem?_replicate, List.getElem?_replicate,
      if_pos (by omega), if_pos (by omega)]
  simp only [initState, Sim.new, initArrays, initAux, cut, hl, hs, ← take_set_comm, ha,
    List.take_replicate, min_eq_left hn]
  split <;> rfl

/-- **C58 (what comes later does not matter).** Without coasting, and with car following on level roads for
given desired speeds: had the cycle ended after `n` samples, every record, accessory load and (dilated) time
of those samples would be the same. Any rounding, with or without missed-trace correction. -/
theorem C58_causal (hH : H.Local) {c : Cyc K} (hM : LooksBack F H P c) {n : Nat} (h1 : 1 ≤ n)
    (hn : n ≤ c.length) {soc : K} {s : Sim K} (h : simDrive F H V P (Sim.new c) (some soc) none = .ok s) :
    ∃ t, simDrive F H V P (Sim.new (List.take n c)) (some soc) none = .ok t ∧
      t.rows = s.rows.take n ∧ t.aux = s.aux.take n ∧ Cyc.times t.cyc = (Cyc.times s.cyc).take n := by
  have hw : walk F H V P (Sim.new c) soc none = .ok s := h
  unfold walk at hw
  split at hw
  · simp at hw
  · rename_i s0 h0
    have q := initForStep_spec (s := Sim.new c) rfl h0
    have hI : WalkInv F V P s0 := ⟨by rw [q.i], by rw [q.i, q.lenCyc]; show 1 ≤ c.length; omega,
      by rw [q.lenRows, q.lenCyc], by rw [q.lenAux, q.lenCyc], fun j a b => by rw [q.i] at b; omega⟩
    have hcyc : s0.cyc = c := by
      rw [q.eq]
      show (if _ then c else c) = c
      split <;> rfl
    have hc0 : s0.cyc0 = c := q.cyc0
    have hC : CutInv P c.length s0 := by
      refine ⟨?_, ?_, by rw [q.i], ?_⟩
      · cases hp : P.idmAllow with
        | true => right; rw [hc0]; exact (hM.idm hp).2.2
        | false => left; exact ⟨rfl, by rw [hcyc, hc0]⟩
      · intro x hx
        rw [q.aux] at hx
        have := List.mem_of_mem_drop hx
        exact List.eq_of_mem_replicate this
      · rw [q.eq]
        show c.length ≤ (List.replicate c.length (0 : K)).length
        simp
    obtain ⟨t, ht, ha⟩ := walkLoop_cut hH hM hn (n - 1) _ (s := s0) (by rw [q.i]; omega) hI hC hc0
      (by rw [hcyc]; exact hn) hw n (by omega)
    have hlen : (List.take n c).length = n := by rw [List.length_take]; omega
    have hinit : initForStep V P (Sim.new (List.take n c)) soc none = .ok (cut n s0) := by
      rw [q.eq, initState_cut h1 hn]
      unfold initForStep
      have hso : ¬ (V.ptType ≠ .conv ∧ (V.maxSoc < soc ∨ soc < V.minSoc)) := by
        rintro ⟨a, b⟩
        rcases q.socOk with e | ⟨e1, e2⟩
        · exact a e
        · rcases b with b | b
          · exact absurd b (not_lt.mpr e2)
          · exact absurd b (not_lt.mpr e1)
      rw [if_neg hso, if_neg]
      show ¬ ((List.take n c).length = 0 ∨ (List.take n c).length = 0)
      rw [hlen]; omega
    have hcl : (cut n s0).cyc.length = n := by
      show (List.take n s0.cyc).length = n
      rw [hcyc, hlen]
    refine ⟨cut n t, ?_, ?_, ?_, ?_⟩
    · show walk F H V P (Sim.new (List.take n c)) soc none = _
      unfold walk
      rw [hinit]
      simp only
      rw [hcl]
      exact ht
    · apply List.ext_getElem?
      intro j
      show (t.rows.take n)[j]? = _
      by_cases hj : j < n
      · rw [List.getElem?_take_of_lt hj, List.getElem?_take_of_lt hj, ha.rows j hj]
      · rw [List.getElem?_take_eq_none (by omega), List.getElem?_take_eq_none (by omega)]
    · apply List.ext_getElem?
      intro j
      show (t.aux.take n)[j]? = _
      by_cases hj : j < n
      · rw [List.getElem?_take_of_lt hj, List.getElem?_take_of_lt hj, ha.aux j hj]
      · rw [List.getElem?_take_eq_none (by omega), List.getElem?_take_eq_none (by omega)]
    · apply List.ext_getElem?
      intro j
      show (Cyc.times (List.take n t.cyc))[j]? = _
      rw [times_take]
      by_cases hj : j < n
      · rw [List.getElem?_take_of_lt hj, List.getElem?_take_of_lt hj, ha.times j hj]
      · rw [List.getElem?_take_eq_none (by omega), List.getElem?_take_eq_none (by omega)]

/-- **C58 (same past, same results).** Two traces that agree on their first `n` samples give the same
records for these. -/
theorem C58_same_past (hH : H.Local) {c c' : Cyc K} (hM : LooksBack F H P c) (hM' : LooksBack F H P c')
    {n : Nat} (hn : n ≤ c.length) (hn' : n ≤ c'.length) (hcc : List.take n c = List.take n c') {soc : K}
    {s s' : Sim K} (h : simDrive F H V P (Sim.new c) (some soc) none = .ok s)
    (h' : simDrive F H V P (Sim.new c') (some soc) none = .ok s') :
    ∀ j < n, s.rows[j]? = s'.rows[j]? ∧ s.aux[j]? = s'.aux[j]? ∧ (Cyc.times s.cyc)[j]? = (Cyc.times s'.cyc)[j]? := by
  intro j hj
  obtain ⟨t, a, b, d, e⟩ := C58_causal hH hM (by omega) hn h
  obtain ⟨t', a', b', d', e'⟩ := C58_causal hH hM' (by omega) hn' h'
  rw [hcc, a'] at a
  cases a
  refine ⟨?_, ?_, ?_⟩
  · rw [← List.getElem?_take_of_lt hj, ← b, b', List.getElem?_take_of_lt hj]
  · rw [← List.getElem?_take_of_lt hj, ← d, d', List.getElem?_take_of_lt hj]
  · rw [← List.getElem?_take_of_lt hj, ← e, e', List.getElem?_take_of_lt hj]

end Lawless

section Floor
variable {K : Type*} [Field K] [LinearOrder K] [IsStrictOrderedRing K] [FloorRing K]
variable {F : Fns K} {V : Veh K} {P : SimParams K}

/-- **C58 for the driving modes of the code.** -/
theorem C58_real {c : Cyc K} (hco : P.coastAllow = false)
    (hid : P.idmAllow = true → DesiredPos P ∧ ∀ x ∈ c, x.g = 0) {n : Nat} (h1 : 1 ≤ n) (hn : n ≤ c.length)
    {soc : K} {s : Sim K} (h : simDrive F (realHooks F V P) V P (Sim.new c) (some soc) none = .ok s) :
    ∃ t, simDrive F (realHooks F V P) V P (Sim.new (List.take n c)) (some soc) none = .ok t ∧
      t.rows = s.rows.take n ∧ t.aux = s.aux.take n ∧ Cyc.times t.cyc = (Cyc.times s.cyc).take n :=
  C58_causal realHooks_local ⟨hco, fun hp => ⟨rfl, hid hp⟩⟩ h1 hn h

end Floor

/-! ### Concrete cases -/
open Demo

/-- Car following with missed-trace correction meets the hypotheses. -/
theorem C58_demo : let P : SimParams ℚ := { params with idmAllow := true, missedTrace := true }
    P.coastAllow = false ∧ (P.idmAllow = true → DesiredPos P ∧ ∀ x ∈ cyc, x.g = 0) ∧
    ∃ s, simDrive fns (realHooks fns hev P) hev P (Sim.new cyc) (some (1 / 2)) none = .ok s ∧
      1 < (s.rows.getD 3 Row.zero).ach.mpsAch := by
  refine ⟨rfl, fun _ => ⟨show (0 : ℚ) < 30 by norm_num, by decide +kernel⟩, ?_⟩
  have hall : (match simDrive fns (realHooks fns hev { params with idmAllow := true, missedTrace := true }) hev
      { params with idmAllow := true, missedTrace := true } (Sim.new cyc) (some (1 / 2)) none with
      | .ok s => decide (1 < (s.rows.getD 3 Row.zero).ach.mpsAch)
      | .error _ => false) = true := by decide +kernel
  split at hall
  · rename_i s hs
    exact ⟨s, hs, of_decide_eq_true hall⟩
  · simp at hall

/-- **C58 (refuted with an accessory override).** An accessory load in the last second changes the fuel used
in the first: zeros of an override count only if something comes after them (`set_misc_calcs`,
simdrive.py:680-686). -/
theorem C58_accessory_future : ((rowsOf (simDrive fns noHooks conv params (Sim.new cyc) (some (1 / 2))
      (some [0, 0, 0, 0, 0, 1]))).getD 1 Row.zero).fc.fsKwOutAch <
    ((rowsOf (simDrive fns noHooks conv params (Sim.new cyc) (some (1 / 2))
      (some [0, 0, 0, 0, 0, 0]))).getD 1 Row.zero).fc.fsKwOutAch := by decide +kernel

/-- Car following without a desired speed. -/
def eagerParams : SimParams ℚ := { params with idmAllow := true, idmVDesired := 0 }

/-- **C58 (positive desired speeds are needed).** Without one, car following aims at the highest speed of the
whole trace, so a speed reached later changes the speed driven now. -/
theorem C58_desired_needed :
    ((rowsOf (simDrive fns (realHooks fns conv eagerParams) conv eagerParams (Sim.new cyc) (some (1 / 2))
      none)).getD 3 Row.zero).ach.mpsAch <
    ((rowsOf (simDrive fns (realHooks fns conv eagerParams) conv eagerParams (Sim.new (cyc ++ [⟨7, 30, 0, 0⟩]))
      (some (1 / 2)) none)).getD 3 Row.zero).ach.mpsAch := by decide +kernel

end Fastsim.Props
