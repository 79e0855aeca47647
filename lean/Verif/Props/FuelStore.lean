import Verif.Props.Engine
import Verif.Model.Idm

/-!
# C50: the fuel storage limits
-/

set_option linter.unusedSectionVars false

namespace Fastsim.Spec

variable {K : Type*} [Zero K]

/-- The vehicle with another fuel storage. -/
def withFuelStore (V : Veh K) (maxKw secs : K) : Veh K :=
  { V with fsMaxKw := maxKw, fsSecsToPeakPwr := secs }

/-- A row without its record of the current fuel storage limit. -/
def blotRow (r : Row K) : Row K := { r with lims := { r.lims with curMaxFsKwOut := 0 } }

/-- An object without its record of the current fuel storage limits. -/
def blot (s : Sim K) : Sim K := { s with rows := s.rows.map blotRow }

/-- Outcome of a run without the record of the current fuel storage limits. -/
def blotted : Except PyErr (Sim K) → Except PyErr (Sim K)
  | .ok s => .ok (blot s)
  | .error e => .error e

end Fastsim.Spec

namespace Fastsim.Props
open Fastsim Spec

section Lawless
variable {K : Type*} [Zero K] [One K] [NatCast K] [Add K] [Sub K] [Mul K] [Div K] [Neg K]
  [LinearOrder K]
variable {F : Fns K} {H : Hooks K} {V : Veh K} {P : SimParams K}

theorem gradeLoop_fs (a b : K) (P : StepParams K) (E : StepEnv K) (v0 m : K) : ∀ (n : Nat) (g : K) (r : Nat × K),
    gradeLoop F (withFuelStore V a b) P E v0 m n g r = gradeLoop F V P E v0 m n g r
  | 0, _, _ => rfl
  | n + 1, g, r => by
    have e : speedCoeffs F (withFuelStore V a b) P E.dt v0 m g = speedCoeffs F V P E.dt v0 m g := rfl
    simp only [gradeLoop, e, gradeLoop_fs a b P E v0 m n]

/-- The limits without the fuel storage limit. -/
def blotLims (L : Lims K) : Lims K := { L with curMaxFsKwOut := 0 }

theorem setMisc_fs (a b : K) (E : StepEnv K) (p : Row K) :
    setMisc (withFuelStore V a b) E p = setMisc V E p := rfl
theorem setMisc_row (E : StepEnv K) (p : Row K) : setMisc V E (blotRow p) = setMisc V E p := rfl
theorem lims_fs (a b : K) (P : StepParams K) (E : StepEnv K) (p : Row K) (m : Misc K) :
    blotLims (setCompLims F (withFuelStore V a b) P E p m) = blotLims (setCompLims F V P E p m) := rfl
theorem lims_row (P : StepParams K) (E : StepEnv K) (p : Row K) (m : Misc K) :
    setCompLims F V P E (blotRow p) m = setCompLims F V P E p m := rfl
theorem powerAt_fs (a b : K) (P : StepParams K) (E : StepEnv K) (p : Row K) (L : Lims K) (v : K) :
    powerAt F (withFuelStore V a b) P E p L v = powerAt F V P E p (blotLims L) v := rfl
theorem powerAt_row (P : StepParams K) (E : StepEnv K) (p : Row K) (L : Lims K) (v : K) :
    powerAt F V P E (blotRow p) L v = powerAt F V P E p L v := rfl
theorem powerAt_lims (P : StepParams K) (E : StepEnv K) (p : Row K) (L : Lims K) (v : K) :
    powerAt F V P E p (blotLims L) v = powerAt F V P E p L v := rfl
theorem setAchSpeed_fs (a b : K) (P : StepParams K) (E : StepEnv K) (p : Row K) (L : Lims K) (pw : Pow K)
    (st : Stale K) : setAchSpeed F (withFuelStore V a b) P E p L pw st = setAchSpeed F V P E p (blotLims L) pw st := by
  unfold setAchSpeed
  simp only [gradeLoop_fs, powerAt_fs, blotLims]
theorem setAchSpeed_row (P : StepParams K) (E : StepEnv K) (p : Row K) (L : Lims K) (pw : Pow K)
    (st : Stale K) : setAchSpeed F V P E (blotRow p) L pw st = setAchSpeed F V P E p L pw st := rfl
theorem setAchSpeed_lims (P : StepParams K) (E : StepEnv K) (p : Row K) (L : Lims K) (pw : Pow K)
    (st : Stale K) : setAchSpeed F V P E p (blotLims L) pw st = setAchSpeed F V P E p L pw st := rfl
theorem setHyb_fs (a b : K) (E : StepEnv K) (p : Row K) (L : Lims K) (pw : Pow K) :
    setHyb (withFuelStore V a b) E p L pw = setHyb V E p (blotLims L) pw := rfl
theorem setHyb_row (E : StepEnv K) (p : Row K) (L : Lims K) (pw : Pow K) :
    setHyb V E (blotRow p) L pw = setHyb V E p L pw := rfl
theorem setHyb_lims (E : StepEnv K) (p : Row K) (L : Lims K) (pw : Pow K) :
    setHyb V E p (blotLims L) pw = setHyb V E p L pw := rfl
theorem setForced_fs (a b : K) (E : StepEnv K) (pw : Pow K) (h : Hyb K) :
    setForced (withFuelStore V a b) E pw h = setForced V E pw h := rfl
theorem setDec_fs (a b : K) (E : StepEnv K) (p : Row K) (M : Misc K) (L : Lims K) (pw : Pow K)
    (h : Hyb K) (f : Forced K) (st : Stale K) :
    setDec F (withFuelStore V a b) E p M L pw h f st = setDec F V E p M (blotLims L) pw h f st := rfl
theorem setDec_row (E : StepEnv K) (p : Row K) (M : Misc K) (L : Lims K) (pw : Pow K)
    (h : Hyb K) (f : Forced K) (st : Stale K) :
    setDec F V E (blotRow p) M L pw h f st = setDec F V E p M L pw h f st := rfl
theorem setDec_lims (E : StepEnv K) (p : Row K) (M : Misc K) (L : Lims K) (pw : Pow K)
    (h : Hyb K) (f : Forced K) (st : Stale K) :
    setDec F V E p M (blotLims L) pw h f st = setDec F V E p M L pw h f st := rfl
theorem setFc_fs (a b : K) (E : StepEnv K) (M : Misc K) (L : Lims K) (pw : Pow K) (d : Dec K) :
    setFcPower (withFuelStore V a b) E M L pw d = setFcPower V E M (blotLims L) pw d := rfl
theorem setFc_lims (E : StepEnv K) (M : Misc K) (L : Lims K) (pw : Pow K) (d : Dec K) :
    setFcPower V E M (blotLims L) pw d = setFcPower V E M L pw d := rfl

theorem solveStep_row (P : StepParams K) (E : StepEnv K) (p : Row K) (st : Stale K) :
    solveStep F V P E (blotRow p) st = solveStep F V P E p st := by
  simp only [solveStep, setPowerCalcs, setMisc_row, lims_row, powerAt_row, setAchSpeed_row, setHyb_row,
    setDec_row]

theorem solveStep_fs (a b : K) (P : StepParams K) (E : StepEnv K) (p : Row K) (st : Stale K) :
    blotRow (solveStep F (withFuelStore V a b) P E p st) = blotRow (solveStep F V P E p st) := by
  have hb : ∀ r : Row K, blotRow r = { r with lims := blotLims r.lims } := fun _ => rfl
  simp only [solveStep, setPowerCalcs, setMisc_fs, powerAt_fs, setAchSpeed_fs, setHyb_fs, setForced_fs,
    setDec_fs, setFc_fs, hb, lims_fs]
  simp only [powerAt_lims, setAchSpeed_lims, setHyb_lims, setDec_lims, setFc_lims]

theorem solveStep_blot (a b : K) (P : StepParams K) (E : StepEnv K) (p p' : Row K) (st : Stale K)
    (hp : blotRow p = blotRow p') :
    blotRow (solveStep F (withFuelStore V a b) P E p st) = blotRow (solveStep F V P E p' st) := by
  rw [solveStep_fs, ← solveStep_row (p := p), hp, solveStep_row]

theorem blot_inj {s s' : Sim K} (h : blot s = blot s') : s.cyc0 = s'.cyc0 ∧ s.cyc = s'.cyc ∧
    s.rows.map blotRow = s'.rows.map blotRow ∧ s.aux = s'.aux ∧ s.impose = s'.impose ∧
    s.coastDelay = s'.coastDelay ∧ s.idmTarget = s'.idmTarget ∧ s.missIters = s'.missIters ∧ s.i = s'.i ∧
    s.hevCount = s'.hevCount := by
  cases s; cases s'
  simp only [blot, Sim.mk.injEq] at h
  exact h

theorem blotRow_getD {l l' : List (Row K)} (h : l.map blotRow = l'.map blotRow) (i : Nat) :
    blotRow (l.getD i Row.zero) = blotRow (l'.getD i Row.zero) := by
  have e : ∀ l : List (Row K), blotRow (l.getD i Row.zero) = (l.map blotRow).getD i (blotRow Row.zero) := by
    intro l
    rw [List.getD_eq_getElem?_getD, List.getD_eq_getElem?_getD, List.getElem?_map]
    cases l[i]? <;> rfl
  rw [e, e, h]

theorem blotRow_last {l l' : List (Row K)} (h : l.map blotRow = l'.map blotRow) :
    blotRow (l.getLast?.getD Row.zero) = blotRow (l'.getLast?.getD Row.zero) := by
  have e : ∀ l : List (Row K), blotRow (l.getLast?.getD Row.zero)
      = (l.map blotRow).getLast?.getD (blotRow Row.zero) := by
    intro l
    rw [List.getLast?_map]
    cases l.getLast? <;> rfl
  rw [e, e, h]

theorem blotRow_ach {r r' : Row K} (h : blotRow r = blotRow r') : r.ach = r'.ach := (congrArg Row.ach h :)
theorem blotRow_dec {r r' : Row K} (h : blotRow r = blotRow r') : r.dec = r'.dec := (congrArg Row.dec h :)
theorem blotRow_fc {r r' : Row K} (h : blotRow r = blotRow r') : r.fc = r'.fc := (congrArg Row.fc h :)

/-- A channel of the rows that does not look at the storage limit. -/
theorem blot_channel {α : Type*} {l l' : List (Row K)} (h : l.map blotRow = l'.map blotRow) (f : Row K → α)
    (hf : ∀ r, f (blotRow r) = f r) : l.map f = l'.map f := by
  have := congrArg (List.map f) h
  simpa [List.map_map, Function.comp_def, hf] using this

theorem blot_mk {s s' : Sim K} (h0 : s.cyc0 = s'.cyc0) (h1 : s.cyc = s'.cyc)
    (h2 : s.rows.map blotRow = s'.rows.map blotRow) (h3 : s.aux = s'.aux) (h4 : s.impose = s'.impose)
    (h5 : s.coastDelay = s'.coastDelay) (h6 : s.idmTarget = s'.idmTarget) (h7 : s.missIters = s'.missIters)
    (h8 : s.i = s'.i) (h9 : s.hevCount = s'.hevCount) : blot s = blot s' := by
  cases s; cases s'
  simp only at h0 h1 h2 h3 h4 h5 h6 h7 h8 h9
  subst h0 h1 h3 h4 h5 h6 h7 h8 h9
  simp only [blot, h2]

theorem stepEnv_blot (a b : K) {s s' : Sim K} (h : blot s = blot s') :
    stepEnv F (withFuelStore V a b) P s = stepEnv F V P s' := by
  obtain ⟨h0, h1, h2, h3, h4, -, -, -, h8, -⟩ := blot_inj h
  have hg : lookupGradeAch F P s = lookupGradeAch F P s' := by
    funext m
    unfold lookupGradeAch
    rw [h0, h1, h8, blotRow_ach (blotRow_getD h2 (s'.i - 1))]
  have he : estimateGrade F P s = estimateGrade F P s' := by
    unfold estimateGrade
    rw [h0, h1, h8]
  unfold stepEnv
  rw [hg, he, h1, h8, h3, h4]
  rfl

theorem solve_blot (a b : K) {s s' : Sim K} (h : blot s = blot s') :
    blot (Sim.solve F (withFuelStore V a b) P s) = blot (Sim.solve F V P s') := by
  obtain ⟨h0, h1, h2, h3, h4, h5, h6, h7, h8, h9⟩ := blot_inj h
  refine blot_mk h0 h1 ?_ ?_ h4 h5 h6 h7 h8 h9
  · simp only [Sim.solve, List.map_set]
    rw [stepEnv_blot a b h, h2, h8]
    congr 1
    have hst : (s.rows.getD s'.i Row.zero).stale = (s'.rows.getD s'.i Row.zero).stale := by
      unfold Row.stale
      rw [blotRow_ach (blotRow_getD h2 s'.i), blotRow_fc (blotRow_getD h2 s'.i)]
    rw [hst]
    exact solveStep_blot a b _ _ _ _ _ (blotRow_getD h2 _)
  · show auxStep (withFuelStore V a b) s.aux s.i = auxStep V s'.aux s'.i
    rw [h3, h8]; rfl

theorem achieved_blot {s s' : Sim K} (h : blot s = blot s') :
    achievedDist s = achievedDist s' ∧ targetDist s = targetDist s' := by
  obtain ⟨h0, h1, h2, h3, h4, h5, h6, h7, h8, h9⟩ := blot_inj h
  unfold achievedDist targetDist
  rw [h8, h0]
  refine ⟨?_, rfl⟩
  rw [blot_channel (l := s.rows.take (s'.i + 1)) (l' := s'.rows.take (s'.i + 1))
    (by rw [List.map_take, List.map_take, h2]) _ (fun _ => rfl)]

theorem converged_blot {s s' : Sim K} (h : blot s = blot s') : distConverged P s = distConverged P s' := by
  unfold distConverged
  rw [(achieved_blot h).1, (achieved_blot h).2]

theorem bump_blot {s s' : Sim K} (h : blot s = blot s') : blot (bumpMiss s) = blot (bumpMiss s') := by
  obtain ⟨h0, h1, h2, h3, h4, h5, h6, h7, h8, h9⟩ := blot_inj h
  exact blot_mk h0 h1 h2 h3 h4 h5 h6 (by simp only [bumpMiss]; rw [h7, h8]) h8 h9

theorem dilate_blot (a b : K) {s s' : Sim K} (h : blot s = blot s') (t : K) :
    blot (dilateAndSolve F (withFuelStore V a b) P s t) = blot (dilateAndSolve F V P s' t) := by
  obtain ⟨h0, h1, h2, h3, h4, h5, h6, h7, h8, h9⟩ := blot_inj h
  exact solve_blot a b (blot_mk h0 (by simp only; rw [h1, h8]) h2 h3 h4 h5 h6 h7 h8 h9)

theorem dilationLoop_blot (a b : K) (iters : Nat) (t tPrev dPrev : K) (s : Sim K) : ∀ s' : Sim K,
    blot s = blot s' →
    blot (dilationLoop F (withFuelStore V a b) P iters t tPrev dPrev s)
      = blot (dilationLoop F V P iters t tPrev dPrev s') := by
  fun_induction dilationLoop F (withFuelStore V a b) P iters t tPrev dPrev s with
  | case1 iters t tPrev dPrev s d t' s1 hc =>
    intro s' h
    have e1 : d = targetDist s' - achievedDist s' := by
      show targetDist s - achievedDist s = _
      rw [(achieved_blot h).1, (achieved_blot h).2]
    have e2 : blot s1 = blot (bumpMiss (dilateAndSolve F V P s' t')) := bump_blot (dilate_blot a b h t')
    rw [dilationLoop]
    simp only [← e1]
    rw [dif_pos]
    · exact e2
    · rw [← converged_blot e2]; exact hc
  | case2 iters t tPrev dPrev s d t' s1 hc ih =>
    intro s' h
    have e1 : d = targetDist s' - achievedDist s' := by
      show targetDist s - achievedDist s = _
      rw [(achieved_blot h).1, (achieved_blot h).2]
    have e2 : blot s1 = blot (bumpMiss (dilateAndSolve F V P s' t')) := bump_blot (dilate_blot a b h t')
    have hl : dilationLoop F V P iters t tPrev dPrev s' = dilationLoop F V P (iters + 1) t' t d
        (bumpMiss (dilateAndSolve F V P s' t')) := by
      rw [dilationLoop]
      simp only [← e1]
      rw [dif_neg]
      rw [← converged_blot e2]; exact hc
    rw [hl]
    exact ih _ e2

theorem setTimeDilation_blot (a b : K) {s s' : Sim K} (h : blot s = blot s') :
    blot (setTimeDilation F (withFuelStore V a b) P s) = blot (setTimeDilation F V P s') := by
  obtain ⟨h0, h1, h2, h3, h4, h5, h6, h7, h8, h9⟩ := blot_inj h
  unfold setTimeDilation
  rw [converged_blot h, h1, h8, h0, (achieved_blot h).1, (achieved_blot h).2,
    blotRow_ach (blotRow_getD h2 s'.i)]
  split
  · exact h
  · have e := dilate_blot (F := F) (V := V) (P := P) a b (bump_blot h)
      (clampDilation P ((targetDist s' - achievedDist s') / dtAt s'.cyc0 s'.i
        / (s'.rows.getD s'.i Row.zero).ach.mpsAch))
    simp only
    rw [converged_blot e]
    split
    · exact e
    · rw [(blot_inj e).2.2.2.2.2.2.2.1]
      exact dilationLoop_blot a b _ _ _ _ _ _ e

theorem solveAndCorrect_blot (a b : K) {s s' : Sim K} (h : blot s = blot s') :
    blot (solveAndCorrect F (withFuelStore V a b) P s) = blot (solveAndCorrect F V P s') := by
  have e := solve_blot (F := F) (V := V) (P := P) a b h
  obtain ⟨h0, -, -, -, -, -, -, -, h8, -⟩ := blot_inj e
  unfold solveAndCorrect
  simp only
  rw [h0, h8]
  split
  · exact setTimeDilation_blot a b e
  · exact e

theorem lookupGrade_blot {s s' : Sim K} (h : blot s = blot s') : lookupGrade F P s = lookupGrade F P s' := by
  obtain ⟨h0, h1, -, -, -, -, -, -, h8, -⟩ := blot_inj h
  unfold lookupGrade
  rw [h0, h1, h8]

theorem finishStep_blot {s s' : Sim K} (h : blot s = blot s') : blot (finishStep F P s) = blot (finishStep F P s') := by
  obtain ⟨h0, h1, h2, h3, h4, h5, h6, h7, h8, h9⟩ := blot_inj h
  unfold finishStep
  simp only
  split
  · have e : blot { s with cyc := setSpeed s.cyc s.i (s.rows.getD s.i Row.zero).ach.mpsAch }
        = blot { s' with cyc := setSpeed s'.cyc s'.i (s'.rows.getD s'.i Row.zero).ach.mpsAch } :=
      blot_mk h0 (by simp only; rw [h1, h8, blotRow_ach (blotRow_getD h2 s'.i)]) h2 h3 h4 h5 h6 h7 h8 h9
    refine blot_mk h0 ?_ h2 h3 h4 h5 h6 h7 (by simp only; rw [h8]) h9
    simp only
    rw [lookupGrade_blot e, h1, h8, blotRow_ach (blotRow_getD h2 s'.i)]
  · exact blot_mk h0 h1 h2 h3 h4 h5 h6 h7 (by simp only; rw [h8]) h9

/-- Two driving modes that do the same to objects that agree up to the storage limit. -/
def _root_.Fastsim.Spec.SameMode (f f' : Sim K → Except PyErr (Sim K)) : Prop :=
  ∀ s s', blot s = blot s' → blotted (f s) = blotted (f' s')

theorem blotted_ok {x : Except PyErr (Sim K)} {y : Sim K} (h : blotted x = .ok y) :
    ∃ z, x = .ok z ∧ blot z = y := by
  cases x with
  | error e => simp [blotted] at h
  | ok z => exact ⟨z, rfl, by simpa [blotted] using h⟩

theorem blotted_err {x : Except PyErr (Sim K)} {e : PyErr} (h : blotted x = .error e) : x = .error e := by
  cases x with
  | error e' => simpa [blotted] using h
  | ok z => simp [blotted] at h

theorem step_blot (a b : K) {H H' : Hooks K} (hI : P.idmAllow = true → SameMode H.idm H'.idm)
    (hC : P.coastAllow = true → SameMode H.coast H'.coast) {s s' : Sim K} (h : blot s = blot s') :
    blotted (simDriveStep F H (withFuelStore V a b) P s) = blotted (simDriveStep F H' V P s') := by
  have e1 : blotted (if P.idmAllow then H.idm s else .ok s) = blotted (if P.idmAllow then H'.idm s' else .ok s') := by
    split
    · rename_i hi; exact hI hi s s' h
    · simp only [blotted, h]
  unfold simDriveStep
  cases x1 : (if P.idmAllow then H'.idm s' else .ok s') with
  | error e =>
    rw [x1] at e1
    rw [blotted_err (e := e) e1]
  | ok s1' =>
    rw [x1] at e1
    obtain ⟨s1, y1, z1⟩ := blotted_ok e1
    rw [y1]
    simp only
    have e2 : blotted (if P.coastAllow then H.coast s1 else .ok s1)
        = blotted (if P.coastAllow then H'.coast s1' else .ok s1') := by
      split
      · rename_i hi; exact hC hi _ _ z1
      · simp only [blotted, z1]
    cases x2 : (if P.coastAllow then H'.coast s1' else .ok s1') with
    | error e =>
      rw [x2] at e2
      rw [blotted_err (e := e) e2]
    | ok s2' =>
      rw [x2] at e2
      obtain ⟨s2, y2, z2⟩ := blotted_ok e2
      rw [y2]
      simp only [blotted]
      rw [finishStep_blot (solveAndCorrect_blot a b z2)]

theorem walkLoop_blot (a b : K) {H H' : Hooks K} (hI : P.idmAllow = true → SameMode H.idm H'.idm)
    (hC : P.coastAllow = true → SameMode H.coast H'.coast) : ∀ (n : Nat) (s s' : Sim K), blot s = blot s' →
    blotted (walkLoop F H (withFuelStore V a b) P n s) = blotted (walkLoop F H' V P n s')
  | 0, s, s', h => by
    obtain ⟨h0, h1, -, -, -, -, -, -, h8, -⟩ := blot_inj h
    unfold walkLoop
    rw [h1, h8]
    split
    · rfl
    · simp only [blotted, h]
  | n + 1, s, s', h => by
    obtain ⟨h0, h1, -, -, -, -, -, -, h8, -⟩ := blot_inj h
    unfold walkLoop
    rw [h1, h8]
    split
    · have e := step_blot (F := F) (V := V) a b hI hC h
      cases x : simDriveStep F H' V P s' with
      | error er => rw [x] at e; rw [blotted_err e]
      | ok t' =>
        rw [x] at e
        obtain ⟨t, y, z⟩ := blotted_ok e
        rw [y]
        exact walkLoop_blot a b hI hC n t t' z
    · simp only [blotted, h]

theorem walk_blot (a b : K) {H H' : Hooks K} (hI : P.idmAllow = true → SameMode H.idm H'.idm)
    (hC : P.coastAllow = true → SameMode H.coast H'.coast) {s s' : Sim K} (h : blot s = blot s') (soc : K)
    (aux : Option (List K)) :
    blotted (walk F H (withFuelStore V a b) P s soc aux) = blotted (walk F H' V P s' soc aux) := by
  obtain ⟨h0, h1, h2, h3, h4, h5, h6, h7, h8, h9⟩ := blot_inj h
  have e : initForStep (withFuelStore V a b) P s soc aux = .error .valueError ∧
        initForStep V P s' soc aux = .error .valueError ∨
      initForStep (withFuelStore V a b) P s soc aux = .error .indexError ∧
        initForStep V P s' soc aux = .error .indexError ∨
      initForStep (withFuelStore V a b) P s soc aux = .ok (initState (withFuelStore V a b) P s soc aux) ∧
        initForStep V P s' soc aux = .ok (initState V P s' soc aux) := by
    unfold initForStep
    rw [h0, h1]
    have hV : ((withFuelStore V a b).ptType ≠ .conv ∧
        ((withFuelStore V a b).maxSoc < soc ∨ soc < (withFuelStore V a b).minSoc)) =
        (V.ptType ≠ .conv ∧ (V.maxSoc < soc ∨ soc < V.minSoc)) := rfl
    simp only [hV]
    by_cases c1 : V.ptType ≠ .conv ∧ (V.maxSoc < soc ∨ soc < V.minSoc)
    · left; simp only [if_pos c1, and_self]
    · right
      by_cases c2 : s'.cyc.length = 0 ∨ s'.cyc0.length = 0
      · left; simp only [if_neg c1, if_pos c2, and_self]
      · right; simp only [if_neg c1, if_neg c2, and_self]
  unfold walk
  rcases e with ⟨x, y⟩ | ⟨x, y⟩ | ⟨x, y⟩
  · rw [x, y]
  · rw [x, y]
  · rw [x, y]
    have e2 : blot (initState (withFuelStore V a b) P s soc aux) = blot (initState V P s' soc aux) := by
      unfold initState initArrays
      simp only
      rw [h0, h1]
      exact blot_mk rfl rfl rfl rfl rfl rfl rfl rfl rfl h9
    simp only
    rw [(blot_inj e2).2.1]
    exact walkLoop_blot a b hI hC _ _ _ e2

theorem zipWith_blot {l l' : List (Row K)} (h : l.map blotRow = l'.map blotRow) (f : Row K → K)
    (hf : ∀ r, f (blotRow r) = f r) (d : List K) :
    List.zipWith (fun r dt => f r * dt) l d = List.zipWith (fun r dt => f r * dt) l' d := by
  have e : ∀ l : List (Row K), List.zipWith (fun r dt => f r * dt) l d = List.zipWith (fun x dt => x * dt) (l.map f) d := by
    intro l; rw [List.zipWith_map_left]
  rw [e, e, blot_channel h f hf]

theorem ess2Fuel_blot (a b : K) {s s' : Sim K} (h : blot s = blot s') :
    ess2Fuel (withFuelStore V a b) s = ess2Fuel V s' := by
  obtain ⟨h0, h1, h2, -⟩ := blot_inj h
  unfold ess2Fuel sumDt
  rw [zipWith_blot h2 (fun r => r.fc.fsKwOutAch) (fun _ => rfl),
    zipWith_blot h2 (fun r => r.dec.roadwayChgKwOutAch) (fun _ => rfl), h1, blotRow_dec (blotRow_getD h2 0),
    blotRow_dec (blotRow_last h2)]
  rfl

theorem hevLoop_blot (a b : K) {H H' : Hooks K} (hI : P.idmAllow = true → SameMode H.idm H'.idm)
    (hC : P.coastAllow = true → SameMode H.coast H'.coast) (aux : Option (List K)) (count : Nat) (e soc : K)
    (s : Sim K) : ∀ s' : Sim K, blot s = blot s' →
    (∃ er, hevLoop F H (withFuelStore V a b) P aux count e soc s = .error er ∧
      hevLoop F H' V P aux count e soc s' = .error er) ∨
    ∃ r r', hevLoop F H (withFuelStore V a b) P aux count e soc s = .ok r ∧
      hevLoop F H' V P aux count e soc s' = .ok r' ∧ blot r.1 = blot r'.1 ∧ r.2 = r'.2 := by
  fun_induction hevLoop F H (withFuelStore V a b) P aux count e soc s with
  | case1 aux count e soc s hc err hw =>
    intro s' h
    left
    have hc' : V.essToFuelOkError < e ∧ count < P.simCountMax := hc
    obtain ⟨h0, h1, h2, h3, h4, h5, h6, h7, h8, h9⟩ := blot_inj h
    have q := walk_blot (F := F) (V := V) a b hI hC (s := { s with hevCount := count + 1 })
      (s' := { s' with hevCount := count + 1 }) (blot_mk h0 h1 h2 h3 h4 h5 h6 h7 h8 rfl) soc aux
    rw [hw] at q
    refine ⟨err, rfl, ?_⟩
    rw [hevLoop, dif_pos hc', blotted_err q.symm]
  | case2 aux count e soc s hc s1 hw ih =>
    intro s' h
    have hc' : V.essToFuelOkError < e ∧ count < P.simCountMax := hc
    obtain ⟨h0, h1, h2, h3, h4, h5, h6, h7, h8, h9⟩ := blot_inj h
    have q := walk_blot (F := F) (V := V) a b hI hC (s := { s with hevCount := count + 1 })
      (s' := { s' with hevCount := count + 1 }) (blot_mk h0 h1 h2 h3 h4 h5 h6 h7 h8 rfl) soc aux
    rw [hw] at q
    obtain ⟨s1', y, z⟩ := blotted_ok q.symm
    have e1 : ess2Fuel (withFuelStore V a b) s1 = ess2Fuel V s1' := ess2Fuel_blot a b z.symm
    obtain ⟨g0, g1, g2, g3, -⟩ := blot_inj z.symm
    have e2 : (s1.rows.getLast?.getD Row.zero).dec = (s1'.rows.getLast?.getD Row.zero).dec :=
      blotRow_dec (blotRow_last g2)
    have e3 : auxAfter s1 aux = auxAfter s1' aux := by unfold auxAfter; rw [g3]
    have hl : hevLoop F H' V P aux count e soc s' = hevLoop F H' V P (auxAfter s1' aux) (count + 1)
        (ess2Fuel V s1') (min 1 (max 0 (s1'.rows.getLast?.getD Row.zero).dec.soc)) s1' := by
      rw [hevLoop, dif_pos hc', y]
    rw [hl]
    rw [e1, e2, e3] at ih
    rw [e1, e2, e3]
    exact ih s1' z.symm
  | case3 aux count e soc s hc =>
    intro s' h
    right
    have hc' : ¬ (V.essToFuelOkError < e ∧ count < P.simCountMax) := hc
    refine ⟨_, (s', soc, aux), rfl, ?_, h, rfl⟩
    rw [hevLoop, dif_neg hc']

/-- **C50 (no effect).** The rating of the fuel storage and its time to peak power have no effect on a
run other than on the record `cur_max_fs_kw_out`: runs that differ only in these two attributes have the
same outcome and the same results everywhere else, in any driving mode that does not look at that record;
for any rounding of the arithmetic. -/
theorem C50_no_effect (a b : K) {H H' : Hooks K} (hI : P.idmAllow = true → SameMode H.idm H'.idm)
    (hC : P.coastAllow = true → SameMode H.coast H'.coast) (s : Sim K) (init : Option K)
    (aux : Option (List K)) :
    blotted (simDrive F H (withFuelStore V a b) P s init aux) = blotted (simDrive F H' V P s init aux) := by
  unfold simDrive
  simp only
  cases init with
  | some soc => exact walk_blot a b hI hC rfl soc aux
  | none =>
    have hpt : (withFuelStore V a b).ptType = V.ptType := rfl
    rw [hpt]
    cases V.ptType with
    | conv => exact walk_blot a b hI hC rfl _ aux
    | phev => exact walk_blot a b hI hC rfl _ aux
    | bev => exact walk_blot a b hI hC rfl _ aux
    | hev =>
      simp only
      rcases hevLoop_blot (F := F) (V := V) a b hI hC aux 0 1 ((V.maxSoc + V.minSoc) / 2)
        { s with hevCount := 0 } { s with hevCount := 0 } rfl with ⟨er, x, y⟩ | ⟨r, r', x, y, z, w⟩
      · have x' : hevLoop F H (withFuelStore V a b) P aux 0 1
          (((withFuelStore V a b).maxSoc + (withFuelStore V a b).minSoc) / 2) { s with hevCount := 0 }
          = .error er := x
        rw [x', y]
      · have x' : hevLoop F H (withFuelStore V a b) P aux 0 1
          (((withFuelStore V a b).maxSoc + (withFuelStore V a b).minSoc) / 2) { s with hevCount := 0 }
          = .ok r := x
        rw [x', y]
        simp only
        rw [w]
        exact walk_blot a b hI hC z _ _

/-- Car following does not look at the record of the storage limit. -/
theorem idmHook_same : SameMode (idmHook F P) (idmHook F P) := by
  intro s s' h
  obtain ⟨h0, h1, h2, h3, h4, h5, h6, h7, h8, h9⟩ := blot_inj h
  unfold idmHook
  have e : idmTargetFor P s = idmTargetFor P s' := by unfold idmTargetFor; rw [h1, h8]
  rw [e]
  cases idmTargetFor P s' with
  | error er => rfl
  | ok v =>
    simp only [blotted, Except.ok.injEq]
    refine blot_mk h0 ?_ h2 h3 h4 h5 ?_ h7 h8 h9
    · simp only [setSpeedForTargetGap, nextSpeedByIdm]
      rw [h0, h1, h6, h8, blotRow_ach (blotRow_getD h2 (s'.i - 1))]
    · simp only [setSpeedForTargetGap]
      rw [h6, h8]

end Lawless

section Field
variable {K : Type*} [Field K] [LinearOrder K] [IsStrictOrderedRing K]
variable {F : Fns K} {H : Hooks K} {V : Veh K} {P : SimParams K}

/-- **C50 (what does bound the fuel power).** Fuel power is at most the rating of the engine divided by
the worst efficiency of its map, whatever the fuel storage. -/
theorem C50_fuel_power (hH : H.Local) (hV : EngineOk V) (hE : EffOk V) {s : Sim K}
    (h : Reachable F H V P s) (hdt : DtNonneg s) {i : Nat} {p r : Row K} {dt a : K}
    (hs : StepAt s i p r dt a) {worst : K} (hw : 0 < worst) (hworst : ∀ x ∈ V.fcEffArray, worst ≤ x) :
    r.fc.fsKwOutAch ≤ V.fcMaxKw / worst := by
  obtain ⟨h0, h1, -⟩ := C16_engine_output hH hV h hdt hs
  obtain ⟨E, st, -, -, -, rfl⟩ := StepAt.solve hH h hs
  have hx : (solveStep F V P.toStepParams E p st).fc.fsKwOutAch =
      fcKwInAch V (solveStep F V P.toStepParams E p st).fc.fcKwOutAch := rfl
  rw [hx]
  generalize (solveStep F V P.toStepParams E p st).fc.fcKwOutAch = x at h0 h1
  have hm : 0 ≤ V.fcMaxKw := h0.trans h1
  have he := fcEffAt_range hE x
  have hwx : worst ≤ fcEffAt V x := hworst _ (lookupM1_mem _ _ _ hE.nonempty hE.len)
  unfold fcKwInAch
  split
  · positivity
  · rw [if_pos (ne_of_gt he.1)]
    exact div_le_div₀ hm h1 hw hwx

end Field

/-! ### Concrete cases -/
open Demo

/-- The conventional demo car with a fuel storage rated 10 kW. -/
def smallStore : Veh ℚ := { conv with fsMaxKw := 10 }

/-- **C50 (refuted: the storage limit is a limit).** A car whose fuel storage is rated 10 kW draws more
than 20 kW from it. -/
theorem C50_limit_ignored : ∃ s, simDrive fns noHooks smallStore params (Sim.new cyc) none none = .ok s ∧
    Finished fns noHooks smallStore params s ∧ smallStore.fsMaxKw = 10 ∧
    (∀ r ∈ s.rows, r.lims.curMaxFsKwOut ≤ 10) ∧ (∃ r ∈ s.rows, 20 < r.fc.fsKwOutAch) := by
  have hall : (match simDrive fns noHooks smallStore params (Sim.new cyc) none none with
      | .ok s => decide (smallStore.fsMaxKw = 10 ∧
        (∀ r ∈ s.rows, r.lims.curMaxFsKwOut ≤ 10) ∧ (∃ r ∈ s.rows, 20 < r.fc.fsKwOutAch))
      | .error _ => false) = true := by decide +kernel
  split at hall
  · rename_i s hs
    exact ⟨s, hs, Finished.simDrive noHooks_local rfl hs, of_decide_eq_true hall⟩
  · simp at hall

/-- The hypotheses of `C50_fuel_power` are met by the demo car: fuel power at most 1000 kW. -/
theorem C50_demo : EngineOk smallStore ∧ EffOk smallStore ∧
    (∀ x ∈ smallStore.fcEffArray, (1 / 10 : ℚ) ≤ x) ∧ smallStore.fcMaxKw / (1 / 10) = 1000 := by
  refine ⟨?_, ?_, by decide +kernel, by norm_num [smallStore, conv]⟩
  · constructor <;> decide +kernel
  · constructor <;> decide +kernel

end Fastsim.Props
