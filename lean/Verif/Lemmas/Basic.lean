import Verif.Spec.Sim

/-!
# Runs without car following and coasting

In these modes the environment of every step is known exactly: speed, grade, duration and
accessory load are those recorded in the object.
-/

set_option linter.unusedSectionVars false

namespace Fastsim
open Spec

section Lawless
variable {K : Type*} [Zero K] [One K] [NatCast K] [Add K] [Sub K] [Mul K] [Div K] [Neg K]
  [LinearOrder K]
variable {F : Fns K} {H : Hooks K} {V : Veh K} {P : SimParams K}

/-- `s'` results from solving the current step of `s`, possibly repeatedly after shifting times from
the current index on. -/
inductive Corrects (F : Fns K) (V : Veh K) (P : SimParams K) (s : Sim K) : Sim K → Prop
  | solve : Corrects F V P s (Sim.solve F V P s)
  | again {s' : Sim K} (x : K) (h : Corrects F V P s s') :
      Corrects F V P s (Sim.solve F V P { s' with cyc := shiftTimesFrom s'.cyc s'.i x })
  | bump {s' : Sim K} (h : Corrects F V P s s') : Corrects F V P s (bumpMiss s')

theorem dilationLoop_corrects {s0 : Sim K} (iters : Nat) (t tPrev dPrev : K) (s : Sim K)
    (h0 : Corrects F V P s0 s) : Corrects F V P s0 (dilationLoop F V P iters t tPrev dPrev s) := by
  fun_induction dilationLoop F V P iters t tPrev dPrev s with
  | case1 iters t tPrev dPrev s d t' s' h => exact .bump (.again _ h0)
  | case2 iters t tPrev dPrev s d t' s' h ih => exact ih (.bump (.again _ h0))

theorem solveAndCorrect_corrects (s : Sim K) :
    Corrects F V P s (solveAndCorrect F V P s) := by
  unfold solveAndCorrect
  simp only
  split
  · unfold setTimeDilation
    split
    · exact .solve
    · simp only
      have := Corrects.again (F := F) (V := V) (P := P)
        (dtAt (bumpMiss (Sim.solve F V P s)).cyc (bumpMiss (Sim.solve F V P s)).i
          * clampDilation P ((targetDist (Sim.solve F V P s) - achievedDist (Sim.solve F V P s))
            / dtAt (Sim.solve F V P s).cyc0 (Sim.solve F V P s).i /
            ((Sim.solve F V P s).rows.getD (Sim.solve F V P s).i Row.zero).ach.mpsAch))
        (.bump (.solve (s := s)))
      split
      · exact this
      · exact dilationLoop_corrects _ _ _ _ _ this
  · exact .solve

theorem Corrects.i {s s' : Sim K} (h : Corrects F V P s s') : s'.i = s.i := by
  induction h with
  | solve => rfl
  | again x h ih => exact ih
  | bump h ih => exact ih

theorem Corrects.cyc0 {s s' : Sim K} (h : Corrects F V P s s') : s'.cyc0 = s.cyc0 := by
  induction h with
  | solve => rfl
  | again x h ih => exact ih
  | bump h ih => exact ih

theorem Corrects.impose {s s' : Sim K} (h : Corrects F V P s s') : s'.impose = s.impose := by
  induction h with
  | solve => rfl
  | again x h ih => exact ih
  | bump h ih => exact ih

theorem speeds_shiftTimesFrom (c : Cyc K) (i : Nat) (x : K) :
    Cyc.speeds (shiftTimesFrom c i x) = Cyc.speeds c := by
  unfold Cyc.speeds shiftTimesFrom
  apply List.ext_getElem?
  intro j
  simp only [List.getElem?_map, List.getElem?_mapIdx]
  cases c[j]? with
  | none => rfl
  | some a => simp only [Option.map_some]; split <;> rfl

theorem grades_shiftTimesFrom (c : Cyc K) (i : Nat) (x : K) :
    Cyc.grades (shiftTimesFrom c i x) = Cyc.grades c := by
  unfold Cyc.grades shiftTimesFrom
  apply List.ext_getElem?
  intro j
  simp only [List.getElem?_map, List.getElem?_mapIdx]
  cases c[j]? with
  | none => rfl
  | some a => simp only [Option.map_some]; split <;> rfl

theorem Corrects.speeds {s s' : Sim K} (h : Corrects F V P s s') :
    Cyc.speeds s'.cyc = Cyc.speeds s.cyc := by
  induction h with
  | solve => rfl
  | again x h ih => exact (speeds_shiftTimesFrom _ _ _).trans ih
  | bump h ih => exact ih

theorem Corrects.grades {s s' : Sim K} (h : Corrects F V P s s') :
    Cyc.grades s'.cyc = Cyc.grades s.cyc := by
  induction h with
  | solve => rfl
  | again x h ih => exact (grades_shiftTimesFrom _ _ _).trans ih
  | bump h ih => exact ih

theorem Corrects.rows {s s' : Sim K} (h : Corrects F V P s s') (j : Nat) (hj : j ≠ s.i) :
    s'.rows[j]? = s.rows[j]? := by
  induction h with
  | solve => simp only [Sim.solve]; rw [List.getElem?_set_ne (Ne.symm hj)]
  | again x h ih =>
    simp only [Sim.solve]
    rw [List.getElem?_set_ne (by rw [h.i]; exact Ne.symm hj)]
    exact ih
  | bump h ih => exact ih

/-- The grade of a step when neither car following nor coasting is on. -/
def recordedGrade (s : Sim K) (i : Nat) : K :=
  if gradeAllZero s.cyc0 then 0 else s.cyc.grades.getD i 0

/-- The environment of step `i` as recorded in the object. -/
def recordedEnv (s : Sim K) (i : Nat) : StepEnv K :=
  { dt := dtAt s.cyc i, mps := s.cyc.speeds.getD i 0, gradeOf := fun _ => recordedGrade s i
    gradeEst := recordedGrade s i, auxIn := s.aux.getD i 0, coast := false, roadKw := 0 }

/-- Step `i` of the object is the outcome of a solve in the recorded environment. -/
def SolvedRec (F : Fns K) (V : Veh K) (P : SimParams K) (s : Sim K) (i : Nat) : Prop :=
  ∃ st : Stale K, (P.missedTrace = false → st = Stale.fresh) ∧
    s.rows[i]? = some (solveStep F V P.toStepParams (recordedEnv s i) (s.rows.getD (i - 1) Row.zero) st)

theorem stepEnv_recorded (hc : P.coastAllow = false) (hd : P.idmAllow = false) {s : Sim K}
    (hi : ∀ j, s.impose.getD j false = false) :
    stepEnv F V P s = recordedEnv (Sim.solve F V P s) s.i := by
  have hg : ∀ m, lookupGradeAch F P s m = recordedGrade s s.i := by
    intro m
    unfold lookupGradeAch recordedGrade
    simp [hc, hd]
  have he : estimateGrade F P s = recordedGrade s s.i := by
    unfold estimateGrade recordedGrade
    simp [hc, hd]
  have hf : lookupGradeAch F P s = fun _ => recordedGrade s s.i := funext hg
  unfold stepEnv recordedEnv
  rw [hf, he, hi]
  rfl

theorem solve_solvedRec (hc : P.coastAllow = false) (hd : P.idmAllow = false) {s : Sim K}
    (hi : ∀ j, s.impose.getD j false = false) (h1 : 1 ≤ s.i) (hr : s.i < s.rows.length)
    (hz : P.missedTrace = false → s.rows[s.i]? = some Row.zero) :
    SolvedRec F V P (Sim.solve F V P s) s.i := by
  refine ⟨(s.rows.getD s.i Row.zero).stale, fun hm => ?_, ?_⟩
  · rw [List.getD_eq_getElem?_getD, hz hm]; rfl
  · rw [← stepEnv_recorded hc hd hi]
    simp only [Sim.solve]
    rw [List.getElem?_set_self hr]
    congr 2
    rw [List.getD_eq_getElem?_getD, List.getD_eq_getElem?_getD, List.getElem?_set_ne (by omega)]

/-- The trace-miss correction is off: the step is solved once. -/
theorem solveAndCorrect_off (hm : P.missedTrace = false) (s : Sim K) :
    solveAndCorrect F V P s = Sim.solve F V P s := by
  unfold solveAndCorrect; simp [hm]

theorem Corrects.lenRows {s s' : Sim K} (h : Corrects F V P s s') :
    s'.rows.length = s.rows.length := by
  induction h with
  | solve => simp [Sim.solve]
  | again x h ih => simp only [Sim.solve, List.length_set]; exact ih
  | bump h ih => exact ih

theorem Corrects.solvedRec (hc : P.coastAllow = false) (hd : P.idmAllow = false) {s s' : Sim K}
    (h : Corrects F V P s s') (hm : P.missedTrace = true)
    (hi : ∀ j, s.impose.getD j false = false) (h1 : 1 ≤ s.i) (hr : s.i < s.rows.length) :
    SolvedRec F V P s' s.i := by
  induction h with
  | solve => exact solve_solvedRec hc hd hi h1 hr (fun e => by simp [hm] at e)
  | @again s1 x h ih =>
    have := solve_solvedRec (F := F) (V := V) hc hd
      (s := { s1 with cyc := shiftTimesFrom s1.cyc s1.i x })
      (by intro j; rw [h.impose]; exact hi j) (by rw [h.i]; exact h1)
      (by rw [h.i, h.lenRows]; exact hr) (fun e => by simp [hm] at e)
    simp only [h.i] at this
    rw [h.i]
    exact this
  | bump h ih => exact ih

/-- Invariant of walks without car following and coasting. -/
structure RecInv (F : Fns K) (V : Veh K) (P : SimParams K) (s : Sim K) : Prop where
  impose : ∀ j, s.impose.getD j false = false
  later : ∀ j, s.i ≤ j → j < s.rows.length → s.rows[j]? = some Row.zero
  solved : ∀ j, 1 ≤ j → j < s.i → SolvedRec F V P s j

theorem dtAt_congr {c c' : Cyc K} {i : Nat} (h : (Cyc.times c')[i]? = (Cyc.times c)[i]?)
    (h' : (Cyc.times c')[i-1]? = (Cyc.times c)[i-1]?) : dtAt c' i = dtAt c i := by
  unfold dtAt
  rw [List.getD_eq_getElem?_getD, List.getD_eq_getElem?_getD, List.getD_eq_getElem?_getD,
        List.getD_eq_getElem?_getD, h, h']

theorem SolvedRec.congr {s s' : Sim K} {i k : Nat} (h : SolvedRec F V P s i)
    (ha : AgreeBefore k s s') (hv : Cyc.speeds s'.cyc = Cyc.speeds s.cyc)
    (hg : Cyc.grades s'.cyc = Cyc.grades s.cyc) (hi : i < k) : SolvedRec F V P s' i := by
  obtain ⟨st, h1, h2⟩ := h
  refine ⟨st, h1, ?_⟩
  have he : recordedEnv s' i = recordedEnv s i := by
    unfold recordedEnv recordedGrade
    rw [hv, hg, ha.cyc0, dtAt_congr (ha.times i hi) (ha.times (i - 1) (by omega)),
      List.getD_eq_getElem?_getD (l := s'.aux), ha.aux i hi, ← List.getD_eq_getElem?_getD]
  rw [he, ha.rows i hi, h2, List.getD_eq_getElem?_getD (l := s'.rows), ha.rows (i - 1) (by omega),
    ← List.getD_eq_getElem?_getD]

theorem simDriveStep_eq (hc : P.coastAllow = false) (hd : P.idmAllow = false) (s : Sim K) :
    simDriveStep F H V P s =
      .ok { solveAndCorrect F V P s with i := (solveAndCorrect F V P s).i + 1 } := by
  unfold simDriveStep finishStep
  simp [hc, hd]

theorem Spec.Reachable.recInv (hc : P.coastAllow = false) (hd : P.idmAllow = false) {s : Sim K}
    (h : Reachable F H V P s) : WalkInv F V P s ∧ RecInv F V P s := by
  induction h with
  | @init s s' soc aux hlen h =>
    have q := initForStep_spec hlen h
    have hi := q.i
    have hp := q.pos
    refine ⟨⟨by omega, by rw [q.lenCyc]; omega, by rw [q.lenRows, q.lenCyc],
      by rw [q.lenAux, q.lenCyc], fun j a b => by omega⟩, ?_, ?_, fun j a b => by omega⟩
    · intro j
      rw [q.eq]
      simp [initState, initArrays, List.getD_eq_getElem?_getD, List.getElem?_replicate]
      split <;> rfl
    · intro j h1 h2
      rw [hi] at h1
      rw [q.eq] at h2 ⊢
      simp only [initState, initArrays, List.length_set, List.length_replicate] at h2 ⊢
      rw [List.getElem?_set_ne (by omega), List.getElem?_replicate, if_pos h2]
  | @step s s' hs hlt h ih =>
    obtain ⟨hI, hR⟩ := ih
    rw [simDriveStep_eq hc hd] at h
    simp only [Except.ok.injEq] at h
    have hpos := hI.pos
    have hr : s.i < s.rows.length := by rw [hI.lenRows]; exact hlt
    have ha : s.i < s.aux.length := by rw [hI.lenAux]; exact hlt
    have hf := solveAndCorrect_fresh F V P s hI.pos hr ha
    have hcor := solveAndCorrect_corrects (F := F) (V := V) (P := P) s
    have hsol : SolvedRec F V P (solveAndCorrect F V P s) s.i := by
      cases hm : P.missedTrace with
      | true => exact hcor.solvedRec hc hd hm hR.impose hI.pos hr
      | false =>
        rw [solveAndCorrect_off hm]
        exact solve_solvedRec hc hd hR.impose hI.pos hr (fun _ => hR.later _ le_rfl hr)
    generalize hq : solveAndCorrect F V P s = s1 at *
    have hi1 := hcor.i
    subst h
    refine ⟨⟨by simp, ?_, ?_, ?_, ?_⟩, ?_, ?_, ?_⟩
    · simp only [hi1, hf.agree.lenCyc]; omega
    · simp only [hf.agree.lenRows, hf.agree.lenCyc, hI.lenRows]
    · simp only [hf.agree.lenAux, hf.agree.lenCyc, hI.lenAux]
    · intro j h1 h2
      simp only [hi1] at h2
      by_cases hj : j = s.i
      · subst hj; exact hf.solved
      · exact (hI.solved j h1 (by omega)).congr (k := s.i) (s' := s1) hf.agree (by omega)
    · intro j; simp only [hcor.impose]; exact hR.impose j
    · intro j h1 h2
      simp only [hi1] at h1
      simp only [hcor.lenRows] at h2
      simp only
      rw [hcor.rows j (by omega)]
      exact hR.later j (by omega) h2
    · intro j h1 h2
      simp only [hi1] at h2
      by_cases hj : j = s.i
      · subst hj; exact hsol
      · exact (hR.solved j h1 (by omega)).congr (k := s.i) (s' := s1) hf.agree hcor.speeds hcor.grades
          (by omega)

end Lawless
end Fastsim
