import Verif.Props.Gap

/-!
# C62: the time at which a trace starts does not matter

`C62_clock` runs the whole of `sim_drive` with all driving modes. Distances measured from the start of the clock
(`dist_m[0] = mps[0] * time_s[0]`) break it for traces that start in motion (`C62_moving_start`).
-/

set_option linter.unusedSectionVars false

namespace Fastsim.Spec

variable {K : Type*} [Add K]

/-- The same trace with the clock set forward by `τ`. -/
def later (τ : K) (c : Cyc K) : Cyc K := c.map fun x => { x with t := x.t + τ }

/-- The object with both its traces set forward. -/
def laterSim (τ : K) (s : Sim K) : Sim K := { s with cyc0 := later τ s.cyc0, cyc := later τ s.cyc }

/-- Where distances measured from the start of the clock matter (trace-miss correction, desired speeds by
distance), the trace starts at standstill. -/
def StartsAtRest [Zero K] (P : SimParams K) (c : Cyc K) : Prop :=
  P.missedTrace = true ∨ (P.idmAllow = true ∧ P.idmByDistance ≠ none) → c.speeds.getD 0 0 = 0

end Fastsim.Spec

namespace Fastsim.Props
open Fastsim Spec

section Field
variable {K : Type*} [Field K] [LinearOrder K] [IsStrictOrderedRing K]
variable {F : Fns K} {H : Hooks K} {V : Veh K} {P : SimParams K} {τ : K}

theorem later_length (c : Cyc K) : (later τ c).length = c.length := by simp [later]

theorem speeds_later (c : Cyc K) : Cyc.speeds (later τ c) = Cyc.speeds c := by
  simp [later, Cyc.speeds, Function.comp_def]

theorem grades_later (c : Cyc K) : Cyc.grades (later τ c) = Cyc.grades c := by
  simp [later, Cyc.grades, Function.comp_def]

theorem times_later_get (c : Cyc K) {i : Nat} (h : i < c.length) :
    (Cyc.times (later τ c)).getD i 0 = (Cyc.times c).getD i 0 + τ := by
  simp [later, Cyc.times, List.getD_eq_getElem?_getD, List.getElem?_eq_getElem h]

theorem dtAt_later (c : Cyc K) {i : Nat} (h : i < c.length) : dtAt (later τ c) i = dtAt c i := by
  unfold dtAt
  rw [times_later_get c h, times_later_get c (by omega : i - 1 < c.length)]
  split
  · rfl
  · ring

theorem stepsFrom_later (x : Sample K) (l : Cyc K) :
    stepsFrom { x with t := x.t + τ } (later τ l) = stepsFrom x l := by
  induction l generalizing x with
  | nil => rfl
  | cons y l ih =>
    have := ih y
    simp only [later, List.map_cons, stepsFrom] at this ⊢
    rw [this]
    congr 1
    ring

theorem trapzStepDistances_later (c : Cyc K) : trapzStepDistances (later τ c) = trapzStepDistances c := by
  cases c with
  | nil => rfl
  | cons x l =>
    show trapzStepDistances ({ x with t := x.t + τ } :: later τ l) = _
    rw [trapzStepDistances_cons, trapzStepDistances_cons, stepsFrom_later]

theorem trapzDistances_later (c : Cyc K) : trapzDistances (later τ c) = trapzDistances c := by
  unfold trapzDistances; rw [trapzStepDistances_later]

theorem take_later (n : Nat) (c : Cyc K) : (later τ c).take n = later τ (c.take n) := by
  simp [later, List.map_take]

theorem startDist_later (c : Cyc K) (i : Nat) :
    trapzStepStartDistance (later τ c) i = trapzStepStartDistance c i := by
  rw [trapzStepStartDistance_eq, trapzStepStartDistance_eq, take_later, ← trapzStepDistances_sum,
    ← trapzStepDistances_sum, trapzStepDistances_later]

theorem trapzElevations_later (c : Cyc K) : trapzElevations F (later τ c) = trapzElevations F c := by
  unfold trapzElevations; rw [trapzStepDistances_later, grades_later]

theorem cacheKnots_later (c : Cyc K) : cacheKnots F (later τ c) = cacheKnots F c := by
  unfold cacheKnots allKnots; rw [trapzDistances_later, trapzElevations_later]

theorem gradeAllZero_later (c : Cyc K) : gradeAllZero (later τ c) = gradeAllZero c := by
  unfold gradeAllZero; rw [grades_later]

theorem interpGrade_later (c : Cyc K) (x : K) : interpGrade F (later τ c) x = interpGrade F c x := by
  unfold interpGrade; rw [gradeAllZero_later, cacheKnots_later, grades_later]

theorem interpElevation_later (c : Cyc K) (x : K) : interpElevation F (later τ c) x = interpElevation F c x := by
  unfold interpElevation; rw [gradeAllZero_later, cacheKnots_later]

theorem averageGradeCached_later (c : Cyc K) (x d : K) :
    averageGradeCached F (later τ c) x d = averageGradeCached F c x d := by
  unfold averageGradeCached
  rw [gradeAllZero_later, interpGrade_later, interpElevation_later, interpElevation_later]

theorem diff_later : ∀ l : Cyc K, diff (Cyc.times (later τ l)) = diff (Cyc.times l)
  | [] => rfl
  | [x] => rfl
  | x :: y :: l => by
    have ih := diff_later (y :: l)
    simp only [later, Cyc.times, List.map_cons, diff] at ih ⊢
    rw [ih]
    congr 1
    ring

theorem distM_later {c : Cyc K} (h : c.speeds.getD 0 0 = 0) : distM (later τ c) = distM c := by
  cases c with
  | nil => rfl
  | cons x l =>
    have h0 : x.v = 0 := by simpa [Cyc.speeds] using h
    unfold distM dtS
    rw [speeds_later]
    have e : ∀ l : Cyc K, diff (0 :: Cyc.times (x :: l)) = (x.t - 0) :: diff (Cyc.times (x :: l)) := fun _ => rfl
    have e' : diff (0 :: Cyc.times (later τ (x :: l))) = (x.t + τ - 0) :: diff (Cyc.times (later τ (x :: l))) := rfl
    rw [e, e', diff_later]
    simp [Cyc.speeds, h0]

theorem setSpeed_later (c : Cyc K) (i : Nat) (v : K) : setSpeed (later τ c) i v = later τ (setSpeed c i v) := by
  unfold setSpeed later
  apply List.ext_getElem?
  intro j
  simp only [List.getElem?_map, List.getElem?_modify]
  cases c[j]? with
  | none => simp
  | some x => by_cases h : i = j <;> simp [h]

theorem setGrade_later (c : Cyc K) (i : Nat) (g : K) :
    (later τ c).modify i (fun x => { x with g := g }) = later τ (c.modify i fun x => { x with g := g }) := by
  unfold later
  apply List.ext_getElem?
  intro j
  simp only [List.getElem?_map, List.getElem?_modify]
  cases c[j]? with
  | none => simp
  | some x => by_cases h : i = j <;> simp [h]

theorem shiftTimesFrom_later (c : Cyc K) (i : Nat) (x : K) :
    shiftTimesFrom (later τ c) i x = later τ (shiftTimesFrom c i x) := by
  unfold shiftTimesFrom later
  apply List.ext_getElem?
  intro j
  simp only [List.getElem?_map, List.getElem?_mapIdx]
  cases c[j]? with
  | none => simp
  | some y =>
    simp only [Option.map_some, Option.some.injEq]
    split
    · simp only [Sample.mk.injEq, and_self, and_true]; ring
    · rfl

/-- What the steps of a run keep. -/
structure LaterInv (P : SimParams K) (s : Sim K) : Prop where
  pos : 1 ≤ s.i
  len : s.cyc.length = s.cyc0.length
  lt : s.i < s.cyc.length
  rows : s.rows.length = s.cyc.length
  rest0 : StartsAtRest P s.cyc0
  rest : StartsAtRest P s.cyc

theorem lookupGradeAch_later {s : Sim K} (h : LaterInv P s) (m : K) :
    lookupGradeAch F P (laterSim τ s) m = lookupGradeAch F P s m := by
  simp only [lookupGradeAch, laterSim, gradeAllZero_later, grades_later, startDist_later, averageGradeCached_later,
    dtAt_later _ h.lt]

theorem trapzDistanceForStep_later (c : Cyc K) {i : Nat} (h : i < c.length) :
    trapzDistanceForStep (later τ c) i = trapzDistanceForStep c i := by
  unfold trapzDistanceForStep averageStepSpeedAt
  rw [dtAt_later c h, speeds_later]

theorem lookupGrade_later {s : Sim K} (h : LaterInv P s) :
    lookupGrade F P (laterSim τ s) = lookupGrade F P s := by
  simp only [lookupGrade, laterSim, gradeAllZero_later, grades_later, startDist_later, averageGradeCached_later,
    trapzDistanceForStep_later _ h.lt]

theorem estimateGrade_later (s : Sim K) : estimateGrade F P (laterSim τ s) = estimateGrade F P s := by
  simp only [estimateGrade, laterSim, gradeAllZero_later, grades_later, startDist_later, interpGrade_later]

theorem stepEnv_later {s : Sim K} (h : LaterInv P s) : stepEnv F V P (laterSim τ s) = stepEnv F V P s := by
  have e : lookupGradeAch F P (laterSim τ s) = lookupGradeAch F P s := funext fun m => lookupGradeAch_later h m
  unfold stepEnv
  rw [e, estimateGrade_later]
  simp only [laterSim, dtAt_later _ h.lt, speeds_later]

theorem solve_later {s : Sim K} (h : LaterInv P s) :
    Sim.solve F V P (laterSim τ s) = laterSim τ (Sim.solve F V P s) := by
  unfold Sim.solve
  rw [stepEnv_later h]
  rfl

theorem LaterInv.solve {s : Sim K} (h : LaterInv P s) : LaterInv P (Sim.solve F V P s) :=
  ⟨h.pos, h.len, h.lt, by simpa [Sim.solve] using h.rows, h.rest0, h.rest⟩

theorem LaterInv.bump {s : Sim K} (h : LaterInv P s) : LaterInv P (bumpMiss s) :=
  ⟨h.pos, h.len, h.lt, h.rows, h.rest0, h.rest⟩

theorem LaterInv.shift {s : Sim K} (h : LaterInv P s) (x : K) :
    LaterInv P { s with cyc := shiftTimesFrom s.cyc s.i x } :=
  ⟨h.pos, by simpa [shiftTimesFrom] using h.len, by simpa [shiftTimesFrom] using h.lt,
    by simpa [shiftTimesFrom] using h.rows, h.rest0,
    fun hp => by rw [speeds_shiftTimesFrom]; exact h.rest hp⟩

theorem targetDist_later {s : Sim K} (h : LaterInv P s) (hm : P.missedTrace = true) :
    targetDist (laterSim τ s) = targetDist s := by
  simp only [targetDist, laterSim]
  rw [distM_later (h.rest0 (.inl hm))]

theorem achievedDist_later (s : Sim K) : achievedDist (laterSim τ s) = achievedDist s := rfl

theorem distConverged_later {s : Sim K} (h : LaterInv P s) (hm : P.missedTrace = true) :
    distConverged P (laterSim τ s) = distConverged P s := by
  unfold distConverged
  rw [targetDist_later h hm, achievedDist_later]

theorem dilateAndSolve_later {s : Sim K} (h : LaterInv P s) (t : K) :
    dilateAndSolve F V P (laterSim τ s) t = laterSim τ (dilateAndSolve F V P s t) := by
  unfold dilateAndSolve
  rw [← solve_later (h.shift _)]
  simp only [laterSim, dtAt_later _ h.lt, shiftTimesFrom_later]

theorem LaterInv.dilate {s : Sim K} (h : LaterInv P s) (t : K) : LaterInv P (dilateAndSolve F V P s t) :=
  (h.shift _).solve

theorem bumpMiss_later (s : Sim K) : bumpMiss (laterSim τ s) = laterSim τ (bumpMiss s) := rfl

theorem dilationLoop_later (hm : P.missedTrace = true) (iters : Nat) (t tp dp : K) (s : Sim K) :
    LaterInv P s → dilationLoop F V P iters t tp dp (laterSim τ s) = laterSim τ (dilationLoop F V P iters t tp dp s) ∧
      LaterInv P (dilationLoop F V P iters t tp dp s) := by
  fun_induction dilationLoop F V P iters t tp dp s with
  | case1 iters t tp dp s d t' s' hc =>
    intro h
    have hs' : LaterInv P s' := (h.dilate _).bump
    refine ⟨?_, hs'⟩
    rw [dilationLoop]
    simp only [targetDist_later h hm, achievedDist_later, dilateAndSolve_later h, bumpMiss_later,
      distConverged_later hs' hm]
    rw [distConverged_later hs' hm, dif_pos hc]
  | case2 iters t tp dp s d t' s' hc ih =>
    intro h
    have hs' : LaterInv P s' := (h.dilate _).bump
    refine ⟨?_, (ih hs').2⟩
    rw [dilationLoop]
    simp only [targetDist_later h hm, achievedDist_later, dilateAndSolve_later h, bumpMiss_later]
    rw [distConverged_later hs' hm, dif_neg hc]
    exact (ih hs').1

theorem setTimeDilation_later (hm : P.missedTrace = true) {s : Sim K} (h : LaterInv P s) :
    setTimeDilation F V P (laterSim τ s) = laterSim τ (setTimeDilation F V P s) ∧
      LaterInv P (setTimeDilation F V P s) := by
  unfold setTimeDilation
  have hsp : (Cyc.speeds (laterSim τ s).cyc) = Cyc.speeds s.cyc := speeds_later _
  rw [distConverged_later h hm, hsp]
  have hi : (laterSim τ s).i = s.i := rfl
  rw [hi]
  split
  · exact ⟨rfl, h⟩
  · simp only [targetDist_later h hm, achievedDist_later, bumpMiss_later, dilateAndSolve_later h.bump]
    have hd0 : dtAt (laterSim τ s).cyc0 s.i = dtAt s.cyc0 s.i := dtAt_later _ (by have := h.lt; have := h.len; omega)
    rw [hd0]
    have hr : (laterSim τ s).rows = s.rows := rfl
    rw [hr]
    have hs' : LaterInv P (dilateAndSolve F V P (bumpMiss s) (clampDilation P
        ((targetDist s - achievedDist s) / dtAt s.cyc0 s.i / (s.rows.getD s.i Row.zero).ach.mpsAch))) := h.bump.dilate _
    rw [distConverged_later hs' hm]
    split
    · exact ⟨rfl, hs'⟩
    · exact dilationLoop_later hm _ _ _ _ _ hs'

theorem solveAndCorrect_later {s : Sim K} (h : LaterInv P s) :
    solveAndCorrect F V P (laterSim τ s) = laterSim τ (solveAndCorrect F V P s) ∧
      LaterInv P (solveAndCorrect F V P s) := by
  unfold solveAndCorrect
  simp only [solve_later h]
  by_cases hm : P.missedTrace = true
  · have e : distM (laterSim τ (Sim.solve F V P s)).cyc0 = distM (Sim.solve F V P s).cyc0 :=
      distM_later (h.rest0 (.inl hm))
    rw [e]
    have hi : (laterSim τ (Sim.solve F V P s)).i = (Sim.solve F V P s).i := rfl
    rw [hi]
    split
    · exact setTimeDilation_later hm h.solve
    · exact ⟨rfl, h.solve⟩
  · simp only [hm, false_and, if_false, Bool.false_eq_true]
    exact ⟨trivial, h.solve⟩

/-- What a step leaves: like `LaterInv`, possibly at the end. -/
structure LaterEnd (P : SimParams K) (s : Sim K) : Prop where
  pos : 1 ≤ s.i
  len : s.cyc.length = s.cyc0.length
  rows : s.rows.length = s.cyc.length
  rest0 : StartsAtRest P s.cyc0
  rest : StartsAtRest P s.cyc

theorem speeds_setGrade (c : Cyc K) (i : Nat) (g : K) :
    Cyc.speeds (c.modify i fun x => { x with g := g }) = Cyc.speeds c := by
  unfold Cyc.speeds
  apply List.ext_getElem?
  intro j
  simp only [List.getElem?_map, List.getElem?_modify]
  cases c[j]? with
  | none => simp
  | some x => by_cases h : i = j <;> simp [h]

theorem rest_setSpeed {c : Cyc K} (h : StartsAtRest P c) {i : Nat} (hi : 1 ≤ i) (v : K) :
    StartsAtRest P (Fastsim.setSpeed c i v) := by
  intro hp
  rw [List.getD_eq_getElem?_getD, speeds_setSpeed_get, if_neg (by omega), ← List.getD_eq_getElem?_getD]
  exact h hp

theorem finishStep_later {s : Sim K} (h : LaterInv P s) :
    finishStep F P (laterSim τ s) = laterSim τ (finishStep F P s) ∧ LaterEnd P (finishStep F P s) := by
  unfold finishStep
  simp only
  split
  · have hs' : LaterInv P { s with cyc := setSpeed s.cyc s.i (s.rows.getD s.i Row.zero).ach.mpsAch } :=
      ⟨h.pos, by simpa [setSpeed] using h.len, by simpa [setSpeed] using h.lt,
        by simpa [setSpeed] using h.rows, h.rest0, rest_setSpeed h.rest h.pos _⟩
    have e := lookupGrade_later (F := F) (τ := τ) hs'
    simp only [laterSim] at e
    refine ⟨?_, ⟨?_, ?_, ?_, h.rest0, ?_⟩⟩
    · simp only [laterSim, setSpeed_later, setGrade_later]
      rw [e]
    · show 1 ≤ s.i + 1
      omega
    · simpa [setSpeed] using h.len
    · simpa [setSpeed] using h.rows
    · intro hp
      rw [speeds_setGrade]
      exact hs'.rest hp
  · exact ⟨rfl, by have := h.pos; show 1 ≤ s.i + 1; omega, h.len, h.rows, h.rest0, h.rest⟩

/-- A driving mode that does not look at the clock, and leaves the invariant in place. -/
def LaterMode (P : SimParams K) (τ : K) (h : Sim K → Except PyErr (Sim K)) : Prop :=
  ∀ s, LaterInv P s → h (laterSim τ s) = (h s).map (laterSim τ) ∧ ∀ s', h s = .ok s' → LaterInv P s'

theorem simDriveStep_later (hI : P.idmAllow = true → LaterMode P τ H.idm)
    (hC : P.coastAllow = true → LaterMode P τ H.coast) {s : Sim K} (h : LaterInv P s) :
    simDriveStep F H V P (laterSim τ s) = (simDriveStep F H V P s).map (laterSim τ) ∧
      ∀ s', simDriveStep F H V P s = .ok s' → LaterEnd P s' := by
  have e1 : (if P.idmAllow then H.idm (laterSim τ s) else .ok (laterSim τ s))
        = (if P.idmAllow then H.idm s else .ok s).map (laterSim τ) ∧
      ∀ s', (if P.idmAllow then H.idm s else .ok s) = .ok s' → LaterInv P s' := by
    split
    · rename_i hp; exact hI hp s h
    · exact ⟨rfl, fun s' e => by cases e; exact h⟩
  unfold simDriveStep
  rw [e1.1]
  cases x : (if P.idmAllow then H.idm s else .ok s) with
  | error e => exact ⟨rfl, fun s' e => by cases e⟩
  | ok s1 =>
    have h1 := e1.2 s1 x
    simp only [Except.map]
    have e2 : (if P.coastAllow then H.coast (laterSim τ s1) else .ok (laterSim τ s1))
          = (if P.coastAllow then H.coast s1 else .ok s1).map (laterSim τ) ∧
        ∀ s', (if P.coastAllow then H.coast s1 else .ok s1) = .ok s' → LaterInv P s' := by
      split
      · rename_i hp; exact hC hp s1 h1
      · exact ⟨rfl, fun s' e => by cases e; exact h1⟩
    rw [e2.1]
    cases y : (if P.coastAllow then H.coast s1 else .ok s1) with
    | error e => exact ⟨rfl, fun s' e => by cases e⟩
    | ok s2 =>
      have h2 := e2.2 s2 y
      simp only [Except.map]
      obtain ⟨a, b⟩ := solveAndCorrect_later (F := F) (V := V) (τ := τ) h2
      obtain ⟨c, d⟩ := finishStep_later (F := F) (τ := τ) b
      refine ⟨by rw [a, c], fun s' e => ?_⟩
      simp only [Except.ok.injEq] at e
      rw [← e]
      exact d

theorem walkLoop_later (hI : P.idmAllow = true → LaterMode P τ H.idm)
    (hC : P.coastAllow = true → LaterMode P τ H.coast) : ∀ (n : Nat) {s : Sim K}, LaterEnd P s →
    walkLoop F H V P n (laterSim τ s) = (walkLoop F H V P n s).map (laterSim τ) ∧
      ∀ s', walkLoop F H V P n s = .ok s' → LaterEnd P s'
  | 0, s, h => by
    unfold walkLoop
    have : (laterSim τ s).cyc.length = s.cyc.length := later_length _
    rw [this]
    have hi : (laterSim τ s).i = s.i := rfl
    rw [hi]
    split
    · exact ⟨rfl, fun s' e => by cases e⟩
    · exact ⟨rfl, fun s' e => by cases e; exact h⟩
  | n + 1, s, h => by
    unfold walkLoop
    have : (laterSim τ s).cyc.length = s.cyc.length := later_length _
    rw [this]
    have hi : (laterSim τ s).i = s.i := rfl
    rw [hi]
    split
    · rename_i hlt
      obtain ⟨a, b⟩ := simDriveStep_later (F := F) (H := H) (V := V) hI hC
        ⟨h.pos, h.len, hlt, h.rows, h.rest0, h.rest⟩
      rw [a]
      cases x : simDriveStep F H V P s with
      | error e => exact ⟨rfl, fun s' e => by cases e⟩
      | ok s' =>
        simp only [Except.map]
        exact walkLoop_later hI hC n (b s' x)
    · exact ⟨rfl, fun s' e => by cases e; exact h⟩

theorem initState_later (s : Sim K) (soc : K) (aux : Option (List K)) :
    initState V P (laterSim τ s) soc aux = laterSim τ (initState V P s soc aux) := by
  simp only [initState, initArrays, laterSim, later_length, speeds_later]
  split <;> rfl

/-- What an object must look like for a run. -/
structure LaterStart (P : SimParams K) (s : Sim K) : Prop where
  len : s.cyc.length = s.cyc0.length
  rest0 : StartsAtRest P s.cyc0
  rest : StartsAtRest P s.cyc

theorem LaterEnd.start {s : Sim K} (h : LaterEnd P s) : LaterStart P s := ⟨h.len, h.rest0, h.rest⟩

theorem walk_later (hI : P.idmAllow = true → LaterMode P τ H.idm)
    (hC : P.coastAllow = true → LaterMode P τ H.coast) {s : Sim K} (h : LaterStart P s) (soc : K)
    (aux : Option (List K)) :
    walk F H V P (laterSim τ s) soc aux = (walk F H V P s soc aux).map (laterSim τ) ∧
      ∀ s', walk F H V P s soc aux = .ok s' → LaterEnd P s' := by
  have e1 : (laterSim τ s).cyc.length = s.cyc.length := later_length _
  have e2 : (laterSim τ s).cyc0.length = s.cyc0.length := later_length _
  have e : initForStep V P (laterSim τ s) soc aux = (initForStep V P s soc aux).map (laterSim τ) := by
    unfold initForStep
    rw [e1, e2, initState_later]
    split
    · rfl
    · split <;> rfl
  unfold walk
  rw [e]
  cases x : initForStep V P s soc aux with
  | error er => exact ⟨rfl, fun s' e => by cases e⟩
  | ok s1 =>
    have q := initForStep_spec h.len x
    simp only [Except.map]
    have e3 : (laterSim τ s1).cyc.length = s1.cyc.length := later_length _
    rw [e3]
    refine walkLoop_later hI hC _ ⟨by rw [q.i], by rw [q.lenCyc, q.cyc0], by rw [q.lenRows, q.lenCyc],
      by rw [q.cyc0]; exact h.rest0, ?_⟩
    rw [q.eq]
    show StartsAtRest P (if _ then s.cyc0 else s.cyc)
    split
    · exact h.rest0
    · exact h.rest

theorem sumDt_later {s : Sim K} (f : Row K → K) (h0 : f (s.rows.getD 0 Row.zero) = 0) :
    sumDt (laterSim τ s) f = sumDt s f := by
  unfold sumDt dtS
  have hr : (laterSim τ s).rows = s.rows := rfl
  have hc : (laterSim τ s).cyc = later τ s.cyc := rfl
  rw [hr, hc]
  cases e : s.cyc with
  | nil => rfl
  | cons x l =>
    cases e' : s.rows with
    | nil => rfl
    | cons r rs =>
      have a : diff (0 :: Cyc.times (x :: l)) = (x.t - 0) :: diff (Cyc.times (x :: l)) := rfl
      have b : diff (0 :: Cyc.times (later τ (x :: l))) = (x.t + τ - 0) :: diff (Cyc.times (later τ (x :: l))) := rfl
      have h0' : f r = 0 := by rw [e'] at h0; simpa using h0
      rw [a, b, diff_later]
      simp [h0']

theorem ess2Fuel_later {s : Sim K} {soc v a : K} (h : s.rows[0]? = some (Row.init V soc v a)) :
    ess2Fuel V (laterSim τ s) = ess2Fuel V s := by
  have e : s.rows.getD 0 Row.zero = Row.init V soc v a := by rw [List.getD_eq_getElem?_getD, h]; rfl
  unfold ess2Fuel
  rw [sumDt_later _ (by rw [e]; rfl), sumDt_later _ (by rw [e]; rfl)]
  rfl

theorem auxAfter_later (s : Sim K) (aux : Option (List K)) : auxAfter (laterSim τ s) aux = auxAfter s aux := rfl

theorem hevLoop_later (hH : H.Local) (hI : P.idmAllow = true → LaterMode P τ H.idm)
    (hC : P.coastAllow = true → LaterMode P τ H.coast) (aux : Option (List K)) (count : Nat) (e soc : K)
    (s : Sim K) : LaterStart P s →
    hevLoop F H V P aux count e soc (laterSim τ s) =
        (hevLoop F H V P aux count e soc s).map (fun r => (laterSim τ r.1, r.2)) ∧
      ∀ r, hevLoop F H V P aux count e soc s = .ok r → LaterStart P r.1 := by
  fun_induction hevLoop F H V P aux count e soc s with
  | case1 aux count e soc s hc err hw =>
    intro h
    refine ⟨?_, fun r e => by cases e⟩
    have q := (walk_later (F := F) (V := V) hI hC (s := { s with hevCount := count + 1 }) ⟨h.len, h.rest0, h.rest⟩
      soc aux).1
    rw [hw] at q
    rw [hevLoop, dif_pos hc]
    have q' : walk F H V P { laterSim τ s with hevCount := count + 1 } soc aux = .error err := q
    rw [q']
    rfl
  | case2 aux count e soc s hc s1 hw ih =>
    intro h
    obtain ⟨q, q2⟩ := walk_later (F := F) (V := V) hI hC (s := { s with hevCount := count + 1 })
      ⟨h.len, h.rest0, h.rest⟩ soc aux
    have h1 := (q2 s1 hw).start
    have hd := walk_done hH (s := { s with hevCount := count + 1 }) h.len hw
    rw [hw] at q
    have q' : walk F H V P { laterSim τ s with hevCount := count + 1 } soc aux = .ok (laterSim τ s1) := q
    rw [hevLoop, dif_pos hc, q']
    simp only [auxAfter_later, ess2Fuel_later hd.row0]
    exact ih h1
  | case3 aux count e soc s hc =>
    intro h
    refine ⟨?_, fun r e => by cases e; exact h⟩
    rw [hevLoop, dif_neg hc]
    rfl

theorem simDrive_later (hH : H.Local) (hI : P.idmAllow = true → LaterMode P τ H.idm)
    (hC : P.coastAllow = true → LaterMode P τ H.coast) {s : Sim K} (h : LaterStart P s) (init : Option K)
    (aux : Option (List K)) :
    simDrive F H V P (laterSim τ s) init aux = (simDrive F H V P s init aux).map (laterSim τ) := by
  have h' : LaterStart P { s with hevCount := 0 } := ⟨h.len, h.rest0, h.rest⟩
  have w := fun soc aux => (walk_later (F := F) (V := V) hI hC h' soc aux).1
  unfold simDrive
  simp only
  cases init with
  | some soc => exact w soc aux
  | none =>
    cases V.ptType with
    | conv => exact w _ aux
    | phev => exact w _ aux
    | bev => exact w _ aux
    | hev =>
      simp only
      obtain ⟨a, b⟩ := hevLoop_later (F := F) (V := V) hH hI hC aux 0 1 ((V.maxSoc + V.minSoc) / 2) _ h'
      have a' : hevLoop F H V P aux 0 1 ((V.maxSoc + V.minSoc) / 2) { laterSim τ s with hevCount := 0 } = _ := a
      rw [a']
      cases x : hevLoop F H V P aux 0 1 ((V.maxSoc + V.minSoc) / 2) { s with hevCount := 0 } with
      | error e => rfl
      | ok r =>
        simp only [Except.map]
        exact (walk_later hI hC (b r x) _ _).1

/-- A mode that touches neither the past nor the clock keeps the invariant. -/
theorem LaterInv.of_local {h : Sim K → Except PyErr (Sim K)} (hl : HookLocal h) (hk : KeepPast h) {s s' : Sim K}
    (hi : LaterInv P s) (e : h s = .ok s') : LaterInv P s' := by
  obtain ⟨a, b, -⟩ := hl s s' e
  have := hi.pos
  refine ⟨by rw [b]; exact hi.pos, by rw [a.lenCyc, a.cyc0]; exact hi.len, by rw [a.lenCyc, b]; exact hi.lt,
    by rw [a.lenRows, a.lenCyc]; exact hi.rows, by rw [a.cyc0]; exact hi.rest0, fun hp => ?_⟩
  rw [List.getD_eq_getElem?_getD, hk s s' e 0 (by omega), ← List.getD_eq_getElem?_getD]
  exact hi.rest hp

theorem idmHook_later (hp : P.idmAllow = true) : LaterMode P τ (idmHook F P) := by
  intro s h
  refine ⟨?_, fun s' e => h.of_local idmHook_local idmHook_keepPast e⟩
  have e : idmTargetFor P (laterSim τ s) = idmTargetFor P s := by
    unfold idmTargetFor
    cases hd : P.idmByDistance with
    | none => rfl
    | some l =>
      have : distM (laterSim τ s).cyc = distM s.cyc := distM_later (h.rest (.inr ⟨hp, by simp [hd]⟩))
      simp only [this]
      rfl
  unfold idmHook
  rw [e]
  cases idmTargetFor P s with
  | error er => rfl
  | ok v =>
    simp only [Except.map, setSpeedForTargetGap, nextSpeedByIdm, laterSim, speeds_later, trapzDistances_later,
      startDist_later, dtAt_later _ h.lt, setSpeed_later]

end Field

section Floor
variable {K : Type*} [Field K] [LinearOrder K] [IsStrictOrderedRing K] [FloorRing K]
variable {F : Fns K} {V : Veh K} {P : SimParams K} {τ : K}

theorem prevSpeed_later (c : Cyc K) (i : Nat) : prevSpeed (later τ c) i = prevSpeed c i := by
  unfold prevSpeed; rw [speeds_later]

theorem passLoop_later (c c0 : Cyc K) (tol : K) (i : Nat) : ∀ (m di : Nat) (d dLv v0 v0Lv : K),
    i + di + m ≤ c.length → i + di + m ≤ c0.length →
    passLoop (later τ c) (later τ c0) tol i m di d dLv v0 v0Lv = passLoop c c0 tol i m di d dLv v0 v0Lv
  | 0, _, _, _, _, _, _, _ => rfl
  | m + 1, di, d, dLv, v0, v0Lv, h, h0 => by
    unfold passLoop
    simp only [speeds_later, dtAt_later c (by omega : i + di < c.length),
      dtAt_later c0 (by omega : i + di < c0.length)]
    rw [passLoop_later c c0 tol i m (di + 1) _ _ _ _ (by omega) (by omega)]

theorem passLoop_lt (c c0 : Cyc K) (tol : K) (i : Nat) : ∀ (m di : Nat) (d dLv v0 v0Lv : K) r,
    passLoop c c0 tol i m di d dLv v0 v0Lv = some r → r.1 < i + di + m
  | 0, _, _, _, _, _, r, h => by simp [passLoop] at h
  | m + 1, di, d, dLv, v0, v0Lv, r, h => by
    unfold passLoop at h
    simp only at h
    split at h
    · simp only [Option.some.injEq] at h; subst h; simp only; omega
    · split at h
      · cases h
      · have := passLoop_lt c c0 tol i m (di + 1) _ _ _ _ r h
        omega

theorem detectPassing_later {c c0 : Cyc K} (hl : c.length = c0.length) (i : Nat) (tol : K) :
    detectPassing (later τ c) (later τ c0) i tol = detectPassing c c0 i tol := by
  unfold detectPassing
  rw [later_length]
  split
  · rfl
  · rename_i h
    simp only [startDist_later, prevSpeed_later, dtAt_later c (by omega : i < c.length)]
    rw [passLoop_later c c0 tol i _ _ _ _ _ _ (by omega) (by omega)]

theorem detectPassing_lt {c c0 : Cyc K} {i : Nat} {tol : K} (h : i < c.length) :
    (detectPassing c c0 i tol).idx < c.length := by
  unfold detectPassing
  rw [if_neg (by omega)]
  simp only
  split
  · simp only; omega
  · rename_i r hr
    have := passLoop_lt _ _ _ _ _ _ _ _ _ _ _ hr
    simp only
    omega

theorem stops_later (c : Cyc K) : stops (later τ c) = stops c := by
  simp [stops, speeds_later]

theorem nextStop_later (c : Cyc K) (x : K) : distanceToNextStop (later τ c) x = distanceToNextStop c x := by
  unfold distanceToNextStop; rw [trapzDistances_later, stops_later]

theorem gradesAhead_later (c : Cyc K) (d : K) : gradesAhead (later τ c) d = gradesAhead c d := by
  unfold gradesAhead; rw [trapzDistances_later, grades_later]

theorem coastIter_later (c0 : Cyc K) (u : Option K) (d0 d v dt : K) : ∀ (n : Nat) (va gr k vn : K),
    coastIter F V P (later τ c0) u d0 d v dt n va gr k vn = coastIter F V P c0 u d0 d v dt n va gr k vn
  | 0, _, _, _, _ => rfl
  | n + 1, va, gr, k, vn => by
    unfold coastIter
    simp only [averageGradeCached_later]
    exact coastIter_later c0 u d0 d v dt n _ _ _ _

theorem coastStep_later (c0 : Cyc K) (u : Option K) (d0 d v dt : K) :
    coastStep F V P (later τ c0) u d0 d v dt = coastStep F V P c0 u d0 d v dt := by
  unfold coastStep
  simp only [interpGrade_later, coastIter_later]

theorem coastLoop_later (c0 : Cyc K) (u : Option K) {len : Nat} (hl : len ≤ c0.length) (d0 dMax dts0 : K) :
    ∀ (m : Nat) (v d : K) (idx : Nat) (acc : List K),
    coastLoop F V P (later τ c0) u len d0 dMax dts0 m v d idx acc
      = coastLoop F V P c0 u len d0 dMax dts0 m v d idx acc
  | 0, _, _, _, _ => rfl
  | m + 1, v, d, idx, acc => by
    unfold coastLoop
    split
    · rename_i h
      simp only [coastStep_later, dtAt_later c0 (by omega : idx < c0.length)]
      rw [coastLoop_later c0 u hl d0 dMax dts0 m]
    · rfl

theorem writeSpeeds_later : ∀ (l : List K) (i : Nat) (c : Cyc K),
    writeSpeeds (later τ c) i l = later τ (writeSpeeds c i l)
  | [], _, _ => rfl
  | v :: l, i, c => by
    unfold writeSpeeds
    rw [setSpeed_later, writeSpeeds_later l]

theorem jerkLoop_later (idx : Nat) (v0 a0 k dt : K) : ∀ (m ni : Nat) (v : K) (c : Cyc K),
    jerkLoop idx v0 a0 k dt m ni v (later τ c)
      = ((jerkLoop idx v0 a0 k dt m ni v c).1, later τ (jerkLoop idx v0 a0 k dt m ni v c).2)
  | 0, _, _, _ => rfl
  | m + 1, ni, v, c => by
    unfold jerkLoop
    simp only [later_length]
    split
    · rfl
    · rw [setSpeed_later, jerkLoop_later idx v0 a0 k dt m]

theorem constJerk_later (c : Cyc K) {idx : Nat} (h : idx < c.length) (n : Nat) (k a0 : K) :
    modifyByConstJerk (later τ c) idx n k a0
      = ((modifyByConstJerk c idx n k a0).1, later τ (modifyByConstJerk c idx n k a0).2) := by
  unfold modifyByConstJerk
  simp only [prevSpeed_later, dtAt_later c h, jerkLoop_later]

theorem braking_later (c : Cyc K) (a : K) (idx : Nat) (dts : Option K) :
    modifyWithBraking (later τ c) a idx dts
      = (modifyWithBraking c a idx dts).map fun r => (r.1, r.2.1, later τ r.2.2) := by
  unfold modifyWithBraking
  rw [later_length]
  split
  · rfl
  · split
    · have : (later τ c).getLast? = c.getLast?.map fun x => { x with t := x.t + τ } := by
        simp [later]
      rw [this]
      cases c.getLast? <;> rfl
    · rename_i h
      have h' : idx < c.length := by omega
      simp only [prevSpeed_later, dtAt_later c h', constJerk_later c h']
      split
      · rfl
      · split
        · rfl
        · split <;> rfl

theorem LaterInv.of_edit {s s' : Sim K} (h : CoastEdit F V P s s') (hi : LaterInv P s) : LaterInv P s' := by
  obtain ⟨a, b, -⟩ := h.local
  have := hi.pos
  refine ⟨by rw [b]; exact hi.pos, by rw [a.lenCyc, a.cyc0]; exact hi.len, by rw [a.lenCyc, b]; exact hi.lt,
    by rw [a.lenRows, a.lenCyc]; exact hi.rows, by rw [a.cyc0]; exact hi.rest0, fun hp => ?_⟩
  have e := hi.rest hp
  have := h.before 0 (by omega)
  rw [List.getD_eq_getElem?_getD, Cyc.speeds, List.getElem?_map] at e ⊢
  rw [this]
  exact e

theorem coastPlan_later {s : Sim K} (h : LaterInv P s) : coastPlan F V P (laterSim τ s) = coastPlan F V P s := by
  unfold coastPlan
  simp only [laterSim, startDist_later, trapzDistances_later, nextStop_later, gradesAhead_later]
  rw [coastLoop_later _ _ (by rw [h.rows, h.len])]

theorem generateCoast_later {s : Sim K} (h : LaterInv P s) (md : Bool) :
    generateCoast F V P (laterSim τ s) md = (generateCoast F V P s md).map fun r => (r.1, laterSim τ r.2) := by
  unfold generateCoast
  rw [coastPlan_later h]
  simp only [laterSim, startDist_later, gradesAhead_later, braking_later, writeSpeeds_later]
  split
  · rfl
  split
  · rfl
  split
  · rfl
  split
  · split
    · cases modifyWithBraking s.cyc P.coastBrakeAccel s.i none <;> rfl
    · rfl
  · cases coastPlan F V P s with
    | none => rfl
    | some e =>
      simp only
      split
      · cases modifyWithBraking (writeSpeeds s.cyc s.i e.1.speeds) P.coastBrakeAccel (s.i + e.1.speeds.length)
          (some e.2) <;> rfl
      · rfl

theorem distToStopCoast_later {s : Sim K} (h : LaterInv P s) :
    distToStopCoast F V P (laterSim τ s) = distToStopCoast F V P s := by
  unfold distToStopCoast
  rw [generateCoast_later h]
  simp only [laterSim, startDist_later, gradesAhead_later, speeds_later]
  cases generateCoast F V P s false <;> rfl

theorem shouldImpose_later {s : Sim K} (h : LaterInv P s) :
    shouldImposeCoast F V P (laterSim τ s) = shouldImposeCoast F V P s := by
  unfold shouldImposeCoast
  rw [distToStopCoast_later h]
  simp only [laterSim, startDist_later, speeds_later, nextStop_later]

theorem rendezvousLoop_later (c0 : Cyc K) (i : Nat) (hor v0 dtbi0 vb dt aMin aMax : K) :
    ∀ (m j : Nat) (dtPlan : K) (best : Option (Rendezvous K)), j + m ≤ c0.length →
    rendezvousLoop (later τ c0) i hor v0 dtbi0 vb dt aMin aMax m j dtPlan best
      = rendezvousLoop c0 i hor v0 dtbi0 vb dt aMin aMax m j dtPlan best
  | 0, _, _, _, _ => rfl
  | m + 1, j, dtPlan, best, h => by
    unfold rendezvousLoop
    simp only [dtAt_later c0 (by omega : j < c0.length)]
    rw [rendezvousLoop_later c0 i hor v0 dtbi0 vb dt aMin aMax m (j + 1) _ _ (by omega),
      rendezvousLoop_later c0 i hor v0 dtbi0 vb dt aMin aMax m (j + 1) _ _ (by omega)]

theorem nextRendezvous_later {s : Sim K} (h : LaterInv P s) (a b : K) :
    nextRendezvous P (laterSim τ s) a b = nextRendezvous P s a b := by
  have := h.lt
  have := h.len
  unfold nextRendezvous
  simp only [laterSim, startDist_later, speeds_later, nextStop_later, later_length, dtAt_later _ h.lt]
  rw [rendezvousLoop_later _ _ _ _ _ _ _ _ _ _ _ _ _ (by omega)]

theorem allSubCoast_later (c : Cyc K) (start n : Nat) (a0 k dt : K) :
    allSubCoast (later τ c) start n a0 k dt = allSubCoast c start n a0 k dt := by
  unfold allSubCoast
  rw [later_length, speeds_later]
  congr 1
  funext ni
  split
  · rename_i h
    rw [dtAt_later c (by omega : ni + start - 1 < c.length)]
  · rfl

theorem collisionTry_later (c : Cyc K) (col : PassingInfo K) {fbs idx : Nat} (n : Nat)
    (best : Option (Rendezvous K)) (h : idx - 1 + fbs < c.length) :
    collisionTry P (later τ c) col fbs idx n best = collisionTry P c col fbs idx n best := by
  unfold collisionTry
  have e : (Cyc.times (later τ c)).getD (idx - 1 + fbs) 0 - (Cyc.times (later τ c)).getD (idx - 1) 0
      = (Cyc.times c).getD (idx - 1 + fbs) 0 - (Cyc.times c).getD (idx - 1) 0 := by
    rw [times_later_get c h, times_later_get c (by omega : idx - 1 < c.length)]; ring
  simp only [speeds_later, e, startDist_later, later_length, allSubCoast_later]

theorem collisionLoop_later (c : Cyc K) (imp : List Bool) (col : PassingInfo K) (fbs i : Nat) :
    ∀ (m idx : Nat) (best : Option (Rendezvous K)),
    collisionLoop P (later τ c) imp col fbs i m idx best = collisionLoop P c imp col fbs i m idx best
  | 0, _, _ => rfl
  | m + 1, idx, best => by
    unfold collisionLoop
    rw [later_length]
    split
    · rw [collisionLoop_later c imp col fbs i m]
    · split
      · rfl
      · split
        · rfl
        · rename_i h
          rw [collisionTry_later c col _ best (by omega), collisionLoop_later c imp col fbs i m]

theorem collisionSearch_later (s : Sim K) (col : PassingInfo K) : ∀ m fbs : Nat,
    collisionSearch P (laterSim τ s) col m fbs = collisionSearch P s col m fbs
  | 0, _ => rfl
  | m + 1, fbs => by
    unfold collisionSearch
    rw [collisionSearch_later s col m]
    simp only [laterSim, collisionLoop_later]

theorem fullBrakeLoop_later (ab : K) (idx : Nat) : ∀ (m fbs : Nat) (s : Sim K), idx + fbs + m ≤ s.cyc.length →
    fullBrakeLoop ab idx m fbs (laterSim τ s) = laterSim τ (fullBrakeLoop ab idx m fbs s)
  | 0, _, _, _ => rfl
  | m + 1, fbs, s, h => by
    unfold fullBrakeLoop
    simp only
    rw [← fullBrakeLoop_later ab idx m (fbs + 1) _ (by simp only [setSpeed, List.length_modify]; omega)]
    have e : (Cyc.times (later τ s.cyc)).getD (idx + fbs) 0 - (Cyc.times (later τ s.cyc)).getD (idx - 1) 0
        = (Cyc.times s.cyc).getD (idx + fbs) 0 - (Cyc.times s.cyc).getD (idx - 1) 0 := by
      rw [times_later_get _ (by omega : idx + fbs < s.cyc.length),
        times_later_get _ (by omega : idx - 1 < s.cyc.length)]; ring
    simp only [laterSim, e, speeds_later, setSpeed_later]

theorem fullBrakeLoop_length (ab : K) (idx : Nat) : ∀ (m fbs : Nat) (s : Sim K),
    (fullBrakeLoop ab idx m fbs s).cyc.length = s.cyc.length
  | 0, _, _ => rfl
  | m + 1, fbs, s => by
    unfold fullBrakeLoop
    simp only
    rw [fullBrakeLoop_length ab idx m]
    simp [setSpeed]

theorem applyRendezvous_later (ab : K) (s : Sim K) (b : Rendezvous K) (h : b.idx + b.fullBrake < s.cyc.length) :
    applyRendezvous ab (laterSim τ s) b = laterSim τ (applyRendezvous ab s b) := by
  unfold applyRendezvous
  simp only
  rw [fullBrakeLoop_later ab b.idx b.fullBrake 0 s (by omega)]
  simp only [laterSim]
  rw [constJerk_later _ (by rw [fullBrakeLoop_length]; exact h)]

theorem preventCollisions_later {s : Sim K} (h : LaterInv P s) : ∀ (fuel : Nat) (tol : K),
    preventCollisions P (laterSim τ s) fuel tol
      = (preventCollisions P s fuel tol).map fun r => (r.1, laterSim τ r.2)
  | 0, _ => rfl
  | fuel + 1, tol => by
    unfold preventCollisions
    have e : detectPassing (laterSim τ s).cyc (laterSim τ s).cyc0 (laterSim τ s).i tol
        = detectPassing s.cyc s.cyc0 s.i tol := detectPassing_later h.len _ _
    simp only [e, collisionSearch_later]
    split
    · rfl
    split
    · rfl
    cases hb : collisionSearch P s (detectPassing s.cyc s.cyc0 s.i tol) 4 0 with
    | some b =>
      have q := (collisionSearch_choice _ _ _ hb).1
      have l := detectPassing_lt (c0 := s.cyc0) (tol := tol) h.lt
      have f := q.fits
      have t := q.two
      simp only [Except.map]
      rw [applyRendezvous_later _ _ _ (by omega)]
    | none =>
      simp only
      rw [preventCollisions_later h fuel]
      by_cases h60 : 60 < (if tol < 10 then (10 : K) else tol + 5)
      · rw [if_pos h60, if_pos h60]; rfl
      · rw [if_neg h60, if_neg h60]

theorem coastSolve_later {s : Sim K} (h : LaterInv P s) :
    coastSolve F V P (laterSim τ s) = laterSim τ (coastSolve F V P s) := by
  unfold coastSolve
  rw [solve_later h]
  simp only [laterSim, setSpeed_later]

theorem setCoastDelay_later (s : Sim K) : setCoastDelay P (laterSim τ s) = laterSim τ (setCoastDelay P s) := by
  unfold setCoastDelay
  simp only [laterSim, startDist_later, trapzDistances_later, trapzStepDistances_later, speeds_later, later_length]
  split
  · rfl
  · split <;> rfl

theorem startCoast_later {s : Sim K} (h : LaterInv P s) :
    startCoast F V P (laterSim τ s) = (startCoast F V P s).map (laterSim τ) := by
  unfold startCoast
  have hr : (laterSim τ s).rows = s.rows := rfl
  have hi : (laterSim τ s).i = s.i := rfl
  have hm : (laterSim τ s).impose = s.impose := rfl
  rw [shouldImpose_later h, generateCoast_later h, hr, hi, hm]
  split
  · cases shouldImposeCoast F V P s with
    | error e => rfl
    | ok b =>
      cases b with
      | false => rfl
      | true =>
        simp only
        cases x : generateCoast F V P s true with
        | error e => rfl
        | ok r =>
          have hE := CoastEdit.generate x
          simp only [Except.map]
          have e : ∀ t : Sim K, LaterInv P t →
              (if P.coastAllowPassing = true then .ok (laterSim τ t)
                else match preventCollisions P (laterSim τ t) 12 1 with
                  | .error e => .error e | .ok r => .ok r.2 : Except PyErr (Sim K))
              = Except.map (laterSim τ) (if P.coastAllowPassing = true then .ok t
                else match preventCollisions P t 12 1 with
                  | .error e => .error e | .ok r => .ok r.2) := by
            intro t ht
            split
            · rfl
            · rw [preventCollisions_later ht]
              cases preventCollisions P t 12 1 <;> rfl
          have hI : LaterInv P r.2 := h.of_edit hE
          by_cases hd : r.1 < 0
          · simp only [hd, if_true]
            exact e { r.2 with impose := setFrom r.2.impose r.2.i false } ⟨hI.1, hI.2, hI.3, hI.4, hI.5, hI.6⟩
          · simp only [hd, if_false]
            exact e r.2 hI
  · rfl

theorem replanCoast_later {s : Sim K} (h : LaterInv P s) (a : K) :
    replanCoast P (laterSim τ s) a = (replanCoast P s a).map fun r => (r.1, laterSim τ r.2) := by
  unfold replanCoast
  simp only [nextRendezvous_later h]
  simp only [laterSim, speeds_later, braking_later, constJerk_later _ h.lt]
  split
  · cases modifyWithBraking s.cyc P.coastBrakeAccel s.i none <;> rfl
  split
  · rfl
  cases nextRendezvous P s P.coastBrakeAccel (min a 0) with
  | none => rfl
  | some b =>
    simp only
    split
    · cases modifyWithBraking (modifyByConstJerk s.cyc s.i b.n b.jerk b.accel).2 P.coastBrakeAccel (s.i + b.n)
        none <;> rfl
    · rfl

theorem coastHook_later : LaterMode P τ (coastHook F V P) := by
  intro s h
  refine ⟨?_, fun s' e => h.of_edit (coastHook_edit e)⟩
  unfold coastHook
  rw [startCoast_later h]
  cases x : startCoast F V P s with
  | error e => rfl
  | ok s1 =>
    have h1 : LaterInv P s1 := h.of_edit (CoastEdit.start x)
    simp only [Except.map]
    have hr : (laterSim τ s1).rows = s1.rows := rfl
    have hi : (laterSim τ s1).i = s1.i := rfl
    have hm : (laterSim τ s1).impose = s1.impose := rfl
    have hd : (laterSim τ s1).coastDelay = s1.coastDelay := rfl
    have hv : Cyc.speeds (laterSim τ s1).cyc = Cyc.speeds s1.cyc := speeds_later _
    have hv0 : Cyc.speeds (laterSim τ s1).cyc0 = Cyc.speeds s1.cyc0 := speeds_later _
    have hl0 : (laterSim τ s1).cyc0.length = s1.cyc0.length := later_length _
    simp only [hr, hi, hm, hd, hv, hv0, hl0]
    by_cases hc : s1.impose.getD s1.i false = false
    · rw [if_pos hc, if_pos hc]
      split
      · rfl
      · simp only [laterSim, setSpeed_later]
    · rw [if_neg hc, if_neg hc]
      generalize hs2 : (if P.coastBrakeStartSpeed < (s1.rows.getD (s1.i - 1) Row.zero).ach.mpsAch then
          { s1 with cyc := setSpeed s1.cyc s1.i (if P.coastAllowPassing = true then P.coastMaxSpeed else
            min (s1.cyc.speeds.getD s1.i 0) P.coastMaxSpeed) } else s1) = s2
      have e2 : (if P.coastBrakeStartSpeed < (s1.rows.getD (s1.i - 1) Row.zero).ach.mpsAch then
          ({ cyc0 := (laterSim τ s1).cyc0
             cyc := setSpeed (laterSim τ s1).cyc s1.i (if P.coastAllowPassing = true then P.coastMaxSpeed else
               min (s1.cyc.speeds.getD s1.i 0) P.coastMaxSpeed)
             rows := s1.rows, aux := (laterSim τ s1).aux, impose := s1.impose, coastDelay := s1.coastDelay
             idmTarget := (laterSim τ s1).idmTarget, missIters := (laterSim τ s1).missIters, i := s1.i
             hevCount := (laterSim τ s1).hevCount } : Sim K) else laterSim τ s1) = laterSim τ s2 := by
        rw [← hs2]
        split
        · simp only [laterSim, setSpeed_later]
        · rfl
      rw [e2]
      have h2 : LaterInv P s2 := by
        rw [← hs2]
        split
        · exact ⟨h1.pos, by simpa [setSpeed] using h1.len, by simpa [setSpeed] using h1.lt,
            by simpa [setSpeed] using h1.rows, h1.rest0, rest_setSpeed h1.rest h1.pos _⟩
        · exact h1
      rw [coastSolve_later h2]
      have h3 : LaterInv P (coastSolve F V P s2) := h2.of_edit (CoastEdit.refl (F := F) (V := V)).resolve
      generalize coastSolve F V P s2 = s3 at h3
      have hi3 : (laterSim τ s3).i = s3.i := rfl
      have hv3 : Cyc.speeds (laterSim τ s3).cyc = Cyc.speeds s3.cyc := speeds_later _
      have hd3 : dtAt (laterSim τ s3).cyc s3.i = dtAt s3.cyc s3.i := dtAt_later _ h3.lt
      have hm3 : (laterSim τ s3).impose = s3.impose := rfl
      simp only [hi3, hv3, hd3, hm3]
      split
      · have := setCoastDelay_later (P := P) (τ := τ) { s3 with impose := setFrom s3.impose s3.i false }
        have e4 : setCoastDelay P (
            { cyc0 := (laterSim τ s3).cyc0, cyc := (laterSim τ s3).cyc, rows := (laterSim τ s3).rows
              aux := (laterSim τ s3).aux, impose := setFrom s3.impose s3.i false
              coastDelay := (laterSim τ s3).coastDelay, idmTarget := (laterSim τ s3).idmTarget
              missIters := (laterSim τ s3).missIters, i := s3.i
              hevCount := (laterSim τ s3).hevCount } : Sim K) = _ := this
        rw [e4]
        simp only [laterSim, setSpeed_later]
      · split
        · rw [replanCoast_later h3]
          cases y : replanCoast P s3 ((s3.cyc.speeds.getD s3.i 0 - s3.cyc.speeds.getD (s3.i - 1) 0) / dtAt s3.cyc s3.i) with
          | error e => rfl
          | ok r =>
            obtain ⟨b, s4⟩ := r
            have h4 : LaterInv P s4 := h3.of_edit (CoastEdit.refl (F := F) (V := V) |>.replan y)
            cases b with
            | false => rfl
            | true =>
              simp only [Except.map]
              split
              · rw [coastSolve_later h4]
              · rw [preventCollisions_later h4]
                cases z : preventCollisions P s4 12 1 with
                | error e => rfl
                | ok r =>
                  simp only [Except.map]
                  rw [coastSolve_later (h4.of_edit (CoastEdit.refl (F := F) (V := V) |>.prevent z))]
        · rfl


/-- **C62.** The absolute time at which a trace starts does not matter: with the clock of the whole trace set
forward by any `τ`, a run raises the same exception or records the same results at every sample, with every
time stamp set forward by `τ` — for all vehicles, parameters and driving modes of the code, provided the trace
starts at standstill where distances from the start of the clock are used. -/
theorem C62_clock {c : Cyc K} (hr : StartsAtRest P c) (τ : K) (init : Option K) (aux : Option (List K)) :
    simDrive F (realHooks F V P) V P (Sim.new (later τ c)) init aux =
      (simDrive F (realHooks F V P) V P (Sim.new c) init aux).map (laterSim τ) := by
  have e : Sim.new (later τ c) = laterSim τ (Sim.new c) := by
    simp [Sim.new, initArrays, laterSim, later_length]
  rw [e]
  exact simDrive_later realHooks_local (fun hp => idmHook_later hp) (fun _ => coastHook_later)
    ⟨rfl, hr, hr⟩ init aux

end Floor

section Scalars
variable {K : Type*} [Field K] [LinearOrder K] [IsStrictOrderedRing K]
variable {F : Fns K} {H : Hooks K} {V : Veh K} {P : SimParams K} {τ : K}

/-- **C62 (totals).** Of the totals reported after a run only the accessory energy, and with it the audit, depends
on the clock: it grows by the initial accessory load over `τ`. -/
theorem C62_totals (hH : H.Local) {c : Cyc K} {init : Option K} {aux : Option (List K)} {s : Sim K}
    (h : simDrive F H V P (Sim.new c) init aux = .ok s) (g : K) :
    mpgge g (laterSim τ s) = mpgge g s ∧ batteryKwhPerMi V (laterSim τ s) = batteryKwhPerMi V s ∧
    electricKwhPerMi V (laterSim τ s) = electricKwhPerMi V s ∧ fuelKj (laterSim τ s) = fuelKj s ∧
    roadwayChgKj (laterSim τ s) = roadwayChgKj s ∧ dragKj (laterSim τ s) = dragKj s ∧
    ascentKj (laterSim τ s) = ascentKj s ∧ rrKj (laterSim τ s) = rrKj s ∧
    brakeKj (laterSim τ s) = brakeKj s ∧ transKj (laterSim τ s) = transKj s ∧ mcKj (laterSim τ s) = mcKj s ∧
    essEffKj F V (laterSim τ s) = essEffKj F V s ∧ fcKj (laterSim τ s) = fcKj s ∧
    keKj V (laterSim τ s) = keKj V s ∧ suppliedKj V (laterSim τ s) = suppliedKj V s ∧
    auxKj (laterSim τ s) = auxKj s + s.aux.getD 0 0 * τ ∧
    netKj F V (laterSim τ s) = netKj F V s + s.aux.getD 0 0 * τ := by
  obtain ⟨soc, w⟩ := simDrive_done hH rfl h
  have e : s.rows.getD 0 Row.zero = Row.init V soc (c.speeds.getD 0 0) (s.aux.getD 0 0) := by
    rw [List.getD_eq_getElem?_getD, w.row0]; rfl
  have q : ∀ f : Row K → K, f (Row.init V soc (c.speeds.getD 0 0) (s.aux.getD 0 0)) = 0 →
      sumDt (laterSim τ s) f = sumDt s f := fun f hf => sumDt_later f (by rw [e]; exact hf)
  have e1 : fuelKj (laterSim τ s) = fuelKj s := q _ rfl
  have e2 : roadwayChgKj (laterSim τ s) = roadwayChgKj s := q _ rfl
  have e3 : dragKj (laterSim τ s) = dragKj s := q _ rfl
  have e4 : ascentKj (laterSim τ s) = ascentKj s := q _ rfl
  have e5 : rrKj (laterSim τ s) = rrKj s := q _ rfl
  have e6 : brakeKj (laterSim τ s) = brakeKj s := q _ rfl
  have e7 : transKj (laterSim τ s) = transKj s := q _ (by simp [Row.init, Row.zero])
  have e8 : mcKj (laterSim τ s) = mcKj s := q _ (by simp [Row.init, Row.zero])
  have e9 : essEffKj F V (laterSim τ s) = essEffKj F V s := q _ (by simp [essLossKw, Row.init, Row.zero])
  have e10 : fcKj (laterSim τ s) = fcKj s := q _ (by simp [Row.init, Row.zero])
  have e11 : auxKj (laterSim τ s) = auxKj s + s.aux.getD 0 0 * τ := by
    unfold auxKj dtS
    have ha : (laterSim τ s).aux = s.aux := rfl
    have hc : (laterSim τ s).cyc = later τ s.cyc := rfl
    rw [ha, hc]
    have l1 : s.cyc.length = s.aux.length := by rw [w.lenCyc, w.lenAux]
    cases x : s.cyc with
    | nil =>
      have : s.aux = [] := List.length_eq_zero_iff.1 (by rw [← l1, x]; rfl)
      simp [this]
    | cons y l =>
      cases x' : s.aux with
      | nil => rw [x, x'] at l1; simp at l1
      | cons u us =>
        have a : diff (0 :: Cyc.times (y :: l)) = (y.t - 0) :: diff (Cyc.times (y :: l)) := rfl
        have b : diff (0 :: Cyc.times (later τ (y :: l)))
          = (y.t + τ - 0) :: diff (Cyc.times (later τ (y :: l))) := rfl
        rw [a, b, diff_later]
        simp only [List.zipWith_cons_cons, npSum_eq, List.sum_cons, List.getD_cons_zero]
        ring
  refine ⟨rfl, rfl, ?_, e1, e2, e3, e4, e5, e6, e7, e8, e9, e10, rfl, ?_, e11, ?_⟩
  · unfold electricKwhPerMi; rw [e2]; rfl
  · unfold suppliedKj; rw [e1, e2]; rfl
  · unfold netKj; rw [e3, e4, e5, e6, e7, e8, e9, e10, e11]; ring

/-- **C62 refuted for the trace-miss time ratio**: it is taken relative to the last time *stamp*, not to the
duration. -/
theorem C62_time_ratio (s : Sim K) (hc : s.cyc ≠ []) (hc0 : s.cyc0 ≠ []) :
    traceMissTimeFrac (laterSim τ s) =
      pabs ((Cyc.times s.cyc).getLast?.getD 0 - (Cyc.times s.cyc0).getLast?.getD 0)
        / ((Cyc.times s.cyc0).getLast?.getD 0 + τ) := by
  have e : ∀ l : Cyc K, l ≠ [] →
      (Cyc.times (later τ l)).getLast?.getD 0 = (Cyc.times l).getLast?.getD 0 + τ := by
    intro l hl
    have : l.getLast? = some (l.getLast hl) := List.getLast?_eq_some_getLast hl
    simp [later, Cyc.times, List.getLast?_map, this]
  unfold traceMissTimeFrac
  have h1 : (laterSim τ s).cyc = later τ s.cyc := rfl
  have h0 : (laterSim τ s).cyc0 = later τ s.cyc0 := rfl
  rw [h1, h0, e _ hc, e _ hc0]
  congr 2
  ring

end Scalars

section Demo
open Fastsim.Demo

/-- What the demo runs report: time stamps, speeds and correction counts. -/
def clockReport (r : Except PyErr (Sim ℚ)) : List ℚ × List ℚ × List Nat :=
  match r with
  | .ok s => (Cyc.times s.cyc, s.rows.map fun r : Row ℚ => r.ach.mpsAch, s.missIters)
  | .error _ => ([], [], [])

/-- Non-vacuity: a trace from standstill whose second step needs a trace-miss correction, started at 0 s and at
5 s. -/
theorem C62_demo : StartsAtRest { params with missedTrace := true } sprint ∧
    clockReport (simDrive fns (realHooks fns conv { params with missedTrace := true }) conv
      { params with missedTrace := true } (Sim.new sprint) none none) = ([0, 1, 3], [0, 2, 30], [0, 0, 1]) ∧
    clockReport (simDrive fns (realHooks fns conv { params with missedTrace := true }) conv
      { params with missedTrace := true } (Sim.new (later 5 sprint)) none none)
      = ([5, 6, 8], [0, 2, 30], [0, 0, 1]) := by
  refine ⟨fun _ => rfl, ?_, ?_⟩ <;> decide +kernel

/-- **C62 refuted for moving starts.** A car that meets a trace starting at 10 m/s in full is made to drive longer
than the trace when the clock starts at 1 s instead of 0 s: the distance from time zero to the first sample counts
as missed. -/
theorem C62_moving_start :
    clockReport (simDrive fns (realHooks fns conv { params with missedTrace := true }) conv
      { params with missedTrace := true } (Sim.new [⟨0, 10, 0, 0⟩, ⟨1, 10, 0, 0⟩, ⟨2, 10, 0, 0⟩]) none none)
      = ([0, 1, 2], [10, 10, 10], [0, 0, 0]) ∧
    clockReport (simDrive fns (realHooks fns conv { params with missedTrace := true }) conv
      { params with missedTrace := true } (Sim.new (later 1 [⟨0, 10, 0, 0⟩, ⟨1, 10, 0, 0⟩, ⟨2, 10, 0, 0⟩])) none none)
      = ([1, 3, 4], [10, 10, 10], [0, 1, 0]) := by
  constructor <;> decide +kernel

end Demo
end Fastsim.Props
