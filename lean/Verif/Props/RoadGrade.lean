import Verif.Props.Coherent
import Verif.Props.Gap
import Verif.Props.GradeLookup
import Verif.Props.Causal

/-!
# C104: the road that the steps of a run climb

With car following or coasting on, the vehicle is not where the reference trace has it. The grade of a step
is then looked up on the reference road, at the distance driven so far.
-/

set_option linter.unusedSectionVars false

namespace Fastsim.Spec
open Fastsim

section Lawless
variable {K : Type*} [Zero K] [One K] [NatCast K] [Add K] [Sub K] [Mul K] [Div K] [Neg K]
  [LinearOrder K]

/-- The driving modes leave the samples before the current step alone. -/
def KeepSamples (h : Sim K → Except PyErr (Sim K)) : Prop :=
  ∀ s s', h s = .ok s' → ∀ j, j < s.i → s'.cyc[j]? = s.cyc[j]?

/-- The trial speed of a step whose trace is out of reach. `newton g n v`: on grade `g` the search takes `n`
iterations and answers `v`; `road v`: grade of the road that a step with speed `v` covers. The grade is settled
when the road of the answer has the grade searched with, within `tol`; at most `k` searches are made. -/
inductive GradeSearch (newton : K → Nat → K → Prop) (road : K → K) (tol : K) : Nat → K → Nat → K → Prop
  | settled {k : Nat} {g : K} {n : Nat} {v : K} : newton g n v → pabs (g - road v) ≤ tol →
      GradeSearch newton road tol (k + 1) g n v
  | last {g : K} {n : Nat} {v : K} : newton g n v → GradeSearch newton road tol 1 g n v
  | again {k : Nat} {g : K} {n n' : Nat} {v v' : K} : newton g n v → tol < pabs (g - road v) →
      GradeSearch newton road tol (k + 1) (road v) n' v' → GradeSearch newton road tol (k + 2) g n' v'

end Lawless

section Field
variable {K : Type*} [Field K] [LinearOrder K] [IsStrictOrderedRing K]

/-- The road of `c` is at height `e` after `x` metres; beyond its end it is level. -/
def HeightAt (F : Fns K) (c : Cyc K) (x e : K) : Prop :=
  ElevationAt F c x e ∨ ∃ n, c.length = n + 1 ∧ odometer c n ≤ x ∧ e = elevationOf F c n

/-- Distance driven up to sample `i`, from the achieved speeds. -/
def drivenTo (s : Sim K) (i : Nat) : K := odometer (driven s) i

/-- Work against gravity recorded up to sample `n`, kJ. -/
def climbedKj (s : Sim K) : Nat → K
  | 0 => 0
  | n + 1 => climbedKj s n + (s.rows.getD (n + 1) Row.zero).pow.ascentKw * dtAt s.cyc (n + 1)

end Field
end Fastsim.Spec

namespace Fastsim.Props
open Fastsim Spec

section Lawless
variable {K : Type*} [Zero K] [One K] [NatCast K] [Add K] [Sub K] [Mul K] [Div K] [Neg K]
  [LinearOrder K]
variable {F : Fns K} {H : Hooks K} {V : Veh K} {P : SimParams K}

/-- `q` is the object as it was when step `j` of `s` was solved for the last time. -/
structure SolvedFrom (F : Fns K) (V : Veh K) (P : SimParams K) (s q : Sim K) (j : Nat) : Prop where
  i : q.i = j
  cyc0 : q.cyc0 = s.cyc0
  len : q.cyc.length = s.cyc.length
  rows : ∀ k, k < j → q.rows[k]? = s.rows[k]?
  times : ∀ k, k ≤ j → (Cyc.times q.cyc)[k]? = (Cyc.times s.cyc)[k]?
  before : ∀ k, k < j → (Cyc.speeds q.cyc)[k]? = (Cyc.speeds s.cyc)[k]?
  iters : P.missedTrace = false → (q.rows.getD j Row.zero).ach.newtonIters = 0
  row : s.rows[j]? = some (solveStep F V P.toStepParams (stepEnv F V P q) (q.rows.getD (j - 1) Row.zero)
    (q.rows.getD j Row.zero).stale)

theorem Corrects.last {s s' : Sim K} (h : Corrects F V P s s') (hr : s.i < s.rows.length) :
    ∃ q, q.i = s.i ∧ q.cyc0 = s.cyc0 ∧ (∀ k, k ≠ s.i → q.rows[k]? = s.rows[k]?) ∧ q.cyc = s'.cyc ∧
      s'.rows[s.i]? = some (solveStep F V P.toStepParams (stepEnv F V P q) (q.rows.getD (s.i - 1) Row.zero)
        (q.rows.getD s.i Row.zero).stale) := by
  induction h with
  | solve =>
    refine ⟨s, rfl, rfl, fun _ _ => rfl, rfl, ?_⟩
    simp only [Sim.solve]
    rw [List.getElem?_set_self hr]
  | @again s' x h ih =>
    refine ⟨{ s' with cyc := shiftTimesFrom s'.cyc s'.i x }, h.i, h.cyc0, fun k hk => h.rows k hk, rfl, ?_⟩
    simp only [Sim.solve]
    rw [h.i, List.getElem?_set_self (by rw [h.lenRows]; exact hr)]
  | bump h ih => exact ih

theorem solveAndCorrect_last (s : Sim K) (hr : s.i < s.rows.length) :
    ∃ q, q.i = s.i ∧ q.cyc0 = s.cyc0 ∧ (∀ k, k ≠ s.i → q.rows[k]? = s.rows[k]?) ∧
      q.cyc = (solveAndCorrect F V P s).cyc ∧
      (solveAndCorrect F V P s).rows[s.i]? = some (solveStep F V P.toStepParams (stepEnv F V P q)
        (q.rows.getD (s.i - 1) Row.zero) (q.rows.getD s.i Row.zero).stale) ∧
      (P.missedTrace = false → q = s) := by
  cases hm : P.missedTrace with
  | true =>
    obtain ⟨q, h1, h2, h3, h4, h5⟩ := Corrects.last
      (solveAndCorrect_corrects (F := F) (V := V) (P := P) s) hr
    exact ⟨q, h1, h2, h3, h4, h5, by simp⟩
  | false =>
    refine ⟨s, rfl, rfl, fun _ _ => rfl, ?_, ?_, fun _ => rfl⟩
    · rw [solveAndCorrect_off hm]; rfl
    · rw [solveAndCorrect_off hm]
      simp only [Sim.solve]
      rw [List.getElem?_set_self hr]

theorem times_finishStep (s : Sim K) : Cyc.times (finishStep F P s).cyc = Cyc.times s.cyc := by
  unfold finishStep
  split
  · simp only
    rw [← times_setSpeed s.cyc s.i (s.rows.getD s.i Row.zero).ach.mpsAch]
    apply List.ext_getElem?
    intro j
    simp only [Cyc.times, List.getElem?_map, List.getElem?_modify]
    cases (setSpeed s.cyc s.i (s.rows.getD s.i Row.zero).ach.mpsAch)[j]? with
    | none => simp
    | some x => by_cases h : s.i = j <;> simp [h]
  · rfl

theorem speeds_of_samples {a b : Cyc K} {j : Nat} (h : a[j]? = b[j]?) :
    (Cyc.speeds a)[j]? = (Cyc.speeds b)[j]? := by
  simp only [Cyc.speeds, List.getElem?_map, h]

theorem keepSamples_past {h : Sim K → Except PyErr (Sim K)} (hk : KeepSamples h) : KeepPast h :=
  fun s s' e j hj => speeds_of_samples (hk s s' e j hj)

theorem SolvedFrom.congr {s s' q : Sim K} {j k : Nat} (h : SolvedFrom F V P s q j) (ha : AgreeBefore k s s')
    (hv : ∀ j, j < k → (Cyc.speeds s'.cyc)[j]? = (Cyc.speeds s.cyc)[j]?) (hj : j < k) : SolvedFrom F V P s' q j :=
  ⟨h.i, h.cyc0.trans ha.cyc0.symm, h.len.trans ha.lenCyc.symm,
    fun m hm => (h.rows m hm).trans (ha.rows m (by omega)).symm,
    fun m hm => (h.times m hm).trans (ha.times m (by omega)).symm,
    fun m hm => (h.before m hm).trans (hv m (by omega)).symm, h.iters, (ha.rows j hj).trans h.row⟩

/-- Every step of a run was solved from an object that differs from the present one only in what concerns
the step itself and later ones. -/
theorem Reachable.solvedFrom (hH : H.Local) (hK : H.KeepRows) (hI : P.idmAllow = true → KeepSamples H.idm)
    (hC : P.coastAllow = true → KeepSamples H.coast) {s : Sim K} (h : Reachable F H V P s) :
    (∀ j, s.i ≤ j → j < s.cyc.length → s.rows[j]? = some Row.zero) ∧
      ∀ j, 1 ≤ j → j < s.i → ∃ q, SolvedFrom F V P s q j := by
  induction h with
  | init hlen h =>
    have q := initForStep_spec hlen h
    have hi := q.i
    exact ⟨fun j h1 h2 => q.rowsZero j (by omega) (by rw [← q.lenCyc]; exact h2), fun j h1 h2 => by omega⟩
  | step hs hlt h ih =>
    rename_i s s'
    obtain ⟨hW, -⟩ := Reachable.inv hH hs
    obtain ⟨hW', hi', ha⟩ := simDriveStep_inv hH hW hlt h
    obtain ⟨ihz, ihs⟩ := ih
    have hpos := hW.pos
    unfold simDriveStep at h
    split at h
    · simp at h
    rename_i s1 h1
    have hz0 : (s.rows.getD s.i Row.zero).ach.newtonIters = 0 := by
      rw [List.getD_eq_getElem?_getD, ihz s.i le_rfl hlt]; rfl
    have e1 : AgreeBefore s.i s s1 ∧ s1.i = s.i ∧ (∀ j, j ≠ s.i → s1.rows[j]? = s.rows[j]?) ∧
        (s1.rows.getD s.i Row.zero).ach.newtonIters = 0 ∧ (∀ j, j < s.i → s1.cyc[j]? = s.cyc[j]?) := by
      split at h1
      · rename_i hp
        exact ⟨(hH.idm _ _ h1).1, (hH.idm _ _ h1).2.1, (hK.idm _ _ h1).1, (hK.idm _ _ h1).2 hz0, hI hp _ _ h1⟩
      · cases h1; exact ⟨AgreeBefore.refl _ _, rfl, fun _ _ => rfl, hz0, fun _ _ => rfl⟩
    obtain ⟨a1, i1, r1, z1, c1⟩ := e1
    split at h
    · simp at h
    rename_i s2 h2
    have e2 : AgreeBefore s.i s s2 ∧ s2.i = s.i ∧ (∀ j, j ≠ s.i → s2.rows[j]? = s.rows[j]?) ∧
        (s2.rows.getD s.i Row.zero).ach.newtonIters = 0 ∧ (∀ j, j < s.i → s2.cyc[j]? = s.cyc[j]?) := by
      split at h2
      · rename_i hp
        refine ⟨a1.trans (by rw [← i1]; exact (hH.coast _ _ h2).1), (hH.coast _ _ h2).2.1.trans i1,
          fun j hj => ((hK.coast _ _ h2).1 j (by omega)).trans (r1 j hj), ?_,
          fun j hj => (hC hp _ _ h2 j (by omega)).trans (c1 j hj)⟩
        have := (hK.coast _ _ h2).2 (by rw [i1]; exact z1)
        rw [i1] at this
        exact this
      · cases h2; exact ⟨a1, i1, r1, z1, c1⟩
    obtain ⟨a2, i2, r2, z2, c2⟩ := e2
    have hcor := solveAndCorrect_corrects (F := F) (V := V) (P := P) s2
    have hlr := hW.lenRows
    obtain ⟨q, q1, q2, q3, q4, q5, q6⟩ := solveAndCorrect_last (F := F) (V := V) (P := P) s2
      (by rw [i2, a2.lenRows]; omega)
    simp only [Except.ok.injEq] at h
    have hrows : s'.rows = (solveAndCorrect F V P s2).rows := by rw [← h, finishStep_rows]
    have htimes : Cyc.times s'.cyc = Cyc.times q.cyc := by rw [← h, times_finishStep, q4]
    have hpast : ∀ j, j < s.i → (Cyc.speeds s'.cyc)[j]? = (Cyc.speeds s2.cyc)[j]? := by
      intro j hj
      rw [← h, ← hcor.speeds]
      cases hm : (P.coastAllow || P.idmAllow) with
      | true => rw [finishStep_speeds _ hm, if_neg (by rw [hcor.i, i2]; omega)]
      | false => simp only [finishStep, hm]; rfl
    have hspeeds : ∀ j, j < s.i → (Cyc.speeds s'.cyc)[j]? = (Cyc.speeds s.cyc)[j]? := fun j hj =>
      (hpast j hj).trans (speeds_of_samples (c2 j hj))
    refine ⟨fun j h1 h2 => ?_, fun j h1 h2 => ?_⟩
    · rw [hrows, hcor.rows j (by omega), r2 j (by omega)]
      exact ihz j (by omega) (by rw [← ha.lenCyc]; exact h2)
    · rcases Nat.lt_or_ge j s.i with hj | hj
      · obtain ⟨q, hq⟩ := ihs j h1 hj
        exact ⟨q, hq.congr ha hspeeds hj⟩
      · have hj' : j = s.i := by omega
        subst hj'
        rw [i2] at q1 q3 q5
        refine ⟨q, q1, ?_, ?_, fun k hk => ?_, fun k _ => ?_, fun k hk => ?_, fun hm => ?_, ?_⟩
        · rw [q2, ha.cyc0, a2.cyc0]
        · have := congrArg List.length htimes
          simp only [Cyc.times, List.length_map] at this
          exact this.symm
        · rw [q3 k (by omega), ha.rows k hk, r2 k (by omega)]
        · rw [htimes]
        · rw [hpast k hk, q4, hcor.speeds]
        · rw [q6 hm]; exact z2
        · rw [hrows]; exact q5

theorem grades_finishStep (s : Sim K) (hm : (P.coastAllow || P.idmAllow) = true) (j : Nat) :
    (Cyc.grades (finishStep F P s).cyc)[j]? =
      if s.i = j then (s.cyc[j]?).map fun _ =>
        lookupGrade F P { s with cyc := setSpeed s.cyc s.i (s.rows.getD s.i Row.zero).ach.mpsAch }
      else (Cyc.grades s.cyc)[j]? := by
  simp only [finishStep, hm, if_true, Cyc.grades, List.getElem?_map, List.getElem?_modify, setSpeed]
  cases s.cyc[j]? with
  | none => simp
  | some x => by_cases h : s.i = j <;> simp [h]

/-- The grade of the road covered by step `j` of the cycle `c`, on the reference `c0`. -/
def gradeOver (F : Fns K) (c0 c : Cyc K) (j : Nat) : K :=
  if gradeAllZero c0 then 0
  else averageGradeCached F c0 (trapzStepStartDistance c j) (trapzDistanceForStep c j)

theorem take_congr {α : Type*} {l l' : List α} {n : Nat} (h : ∀ k, k < n → l[k]? = l'[k]?) :
    l.take n = l'.take n := by
  apply List.ext_getElem?
  intro k
  rcases Nat.lt_or_ge k n with hk | hk
  · rw [List.getElem?_take_of_lt hk, List.getElem?_take_of_lt hk, h k hk]
  · rw [List.getElem?_take_eq_none hk, List.getElem?_take_eq_none hk]

theorem startDistance_congr {c c' : Cyc K} {j : Nat}
    (ht : ∀ k, k < j → (Cyc.times c)[k]? = (Cyc.times c')[k]?)
    (hv : ∀ k, k < j → (Cyc.speeds c)[k]? = (Cyc.speeds c')[k]?) :
    trapzStepStartDistance c j = trapzStepStartDistance c' j := by
  unfold trapzStepStartDistance
  rw [take_congr ht, take_congr hv, take_congr (n := j - 1) fun k hk => hv k (by omega)]

theorem gradeOver_congr {c0 c c' : Cyc K} {j : Nat}
    (ht : ∀ k, k ≤ j → (Cyc.times c)[k]? = (Cyc.times c')[k]?)
    (hv : ∀ k, k ≤ j → (Cyc.speeds c)[k]? = (Cyc.speeds c')[k]?) :
    gradeOver F c0 c j = gradeOver F c0 c' j := by
  unfold gradeOver
  rw [startDistance_congr (fun k hk => ht k (by omega)) (fun k hk => hv k (by omega))]
  have hd : dtAt c j = dtAt c' j := dtAt_congr (ht j le_rfl) (ht (j - 1) (by omega))
  have : trapzDistanceForStep c j = trapzDistanceForStep c' j := by
    unfold trapzDistanceForStep averageStepSpeedAt
    simp only [List.getD_eq_getElem?_getD, hv j le_rfl, hv (j - 1) (by omega), hd]
  rw [this]

theorem Reachable.gradesWritten (hH : H.Local) (hI : P.idmAllow = true → KeepSamples H.idm)
    (hC : P.coastAllow = true → KeepSamples H.coast) (hm : (P.coastAllow || P.idmAllow) = true) {s : Sim K}
    (h : Reachable F H V P s) :
    ∀ j, 1 ≤ j → j < s.i → (Cyc.grades s.cyc)[j]? = some (gradeOver F s.cyc0 s.cyc j) := by
  induction h with
  | init hlen h =>
    have q := initForStep_spec hlen h
    have hi := q.i
    intro j h1 h2; omega
  | step hs hlt h ih =>
    rename_i s s'
    obtain ⟨hW, -⟩ := Reachable.inv hH hs
    obtain ⟨hW', hi', ha⟩ := simDriveStep_inv hH hW hlt h
    have h' := h
    unfold simDriveStep at h
    split at h
    · simp at h
    rename_i s1 h1
    have e1 : AgreeBefore s.i s s1 ∧ s1.i = s.i ∧ (∀ j, j < s.i → s1.cyc[j]? = s.cyc[j]?) := by
      split at h1
      · rename_i hp
        exact ⟨(hH.idm _ _ h1).1, (hH.idm _ _ h1).2.1, hI hp _ _ h1⟩
      · cases h1; exact ⟨AgreeBefore.refl _ _, rfl, fun _ _ => rfl⟩
    obtain ⟨a1, i1, c1⟩ := e1
    split at h
    · simp at h
    rename_i s2 h2
    have e2 : AgreeBefore s.i s s2 ∧ s2.i = s.i ∧ (∀ j, j < s.i → s2.cyc[j]? = s.cyc[j]?) := by
      split at h2
      · rename_i hp
        exact ⟨a1.trans (by rw [← i1]; exact (hH.coast _ _ h2).1), (hH.coast _ _ h2).2.1.trans i1,
          fun j hj => (hC hp _ _ h2 j (by omega)).trans (c1 j hj)⟩
      · cases h2; exact ⟨a1, i1, c1⟩
    obtain ⟨a2, i2, c2⟩ := e2
    have hcor := solveAndCorrect_corrects (F := F) (V := V) (P := P) s2
    simp only [Except.ok.injEq] at h
    have i3 : (solveAndCorrect F V P s2).i = s.i := hcor.i.trans i2
    intro j hj1 hj2
    rw [hi'] at hj2
    rcases Nat.lt_or_ge j s.i with hj | hj
    · have hg : (Cyc.grades s'.cyc)[j]? = (Cyc.grades s.cyc)[j]? := by
        rw [← h, grades_finishStep _ hm, if_neg (by omega), hcor.grades]
        simp only [Cyc.grades, List.getElem?_map, c2 j hj]
      rw [hg, ih j hj1 hj, ha.cyc0]
      congr 1
      refine gradeOver_congr (fun k hk => (ha.times k (by omega)).symm) (fun k hk => ?_)
      rw [← h, finishStep_speeds _ hm, if_neg (by omega), hcor.speeds]
      exact (speeds_of_samples (c2 k (by omega))).symm
    · have hj' : j = s.i := by omega
      subst hj'
      have hlen : s.i < (solveAndCorrect F V P s2).cyc.length := by
        have : (Cyc.speeds (solveAndCorrect F V P s2).cyc).length = (Cyc.speeds s2.cyc).length := by
          rw [hcor.speeds]
        simp only [Cyc.speeds, List.length_map] at this
        rw [this, a2.lenCyc]; exact hlt
      have hc0 : (solveAndCorrect F V P s2).cyc0 = s'.cyc0 := by
        rw [hcor.cyc0, a2.cyc0, ha.cyc0]
      have hl := grades_finishStep (F := F) (P := P) (solveAndCorrect F V P s2) hm s.i
      rw [if_pos i3, List.getElem?_eq_getElem hlen, Option.map_some, h] at hl
      rw [hl]
      congr 1
      have hmode : ¬ (P.coastAllow = false ∧ P.idmAllow = false) := by
        rintro ⟨x, y⟩; simp [x, y] at hm
      unfold lookupGrade
      simp only [if_neg hmode, i3]
      rw [hc0]
      show gradeOver F s'.cyc0 (setSpeed _ _ _) s.i = _
      refine gradeOver_congr (fun k hk => ?_) (fun k hk => ?_)
      · rw [times_setSpeed, ← h, times_finishStep]
      · rw [← h, finishStep_speeds _ hm, speeds_setSpeed_get, i3]

end Lawless

section Field
variable {K : Type*} [Field K] [LinearOrder K] [IsStrictOrderedRing K]
variable {F : Fns K} {H : Hooks K} {V : Veh K} {P : SimParams K}

/-- The conditions on the driving modes under which the grades of the steps are those of the road. -/
structure TracesRoad (H : Hooks K) (P : SimParams K) : Prop where
  loc : H.Local
  rows : H.KeepRows
  idm : P.idmAllow = true → KeepSamples H.idm
  coast : P.coastAllow = true → KeepSamples H.coast
  mode : P.coastAllow = true ∨ P.idmAllow = true

theorem TracesRoad.any (hT : TracesRoad H P) : (P.coastAllow || P.idmAllow) = true := by
  rcases hT.mode with e | e <;> simp [e]

theorem TracesRoad.speeds (hT : TracesRoad H P) {s : Sim K} (h : Reachable F H V P s) :
    ∀ j, j < s.i → (Cyc.speeds s.cyc)[j]? = (s.rows[j]?).map fun r => r.ach.mpsAch :=
  driven_speeds hT.loc (fun e => keepSamples_past (hT.idm e))
    (fun e => keepSamples_past (hT.coast e)) hT.any h

theorem TracesRoad.start (hT : TracesRoad H P) {s : Sim K} (h : Reachable F H V P s) {i : Nat} (h1 : 1 ≤ i)
    (hi : i ≤ s.i) : trapzStepStartDistance s.cyc i = drivenTo s (i - 1) := by
  obtain ⟨hW, -⟩ := Reachable.inv hT.loc h
  rw [trapzStepStartDistance_eq, drivenTo, odometer, Nat.sub_add_cancel h1,
    driven_take hW.lenRows fun k hk => hT.speeds h k (by omega)]

theorem TracesRoad.length (hT : TracesRoad H P) {s : Sim K} (h : Reachable F H V P s) :
    (driven s).length = s.cyc.length := by
  obtain ⟨hW, -⟩ := Reachable.inv hT.loc h
  simp [driven, hW.lenRows]

theorem TracesRoad.covered (hT : TracesRoad H P) {s : Sim K} (h : Reachable F H V P s) {i : Nat}
    {p r : Row K} {dt a : K} (hs : StepAt s i p r dt a) :
    drivenTo s i - drivenTo s (i - 1) = (p.ach.mpsAch + r.ach.mpsAch) / 2 * dt := by
  obtain ⟨hW, -⟩ := Reachable.inv hT.loc h
  have hpos := hs.pos
  have hlt := hs.lt
  have hle := hW.le
  have e : ∀ j, j < s.i → odometer (driven s) j = odometer s.cyc j := fun j hj => by
    rw [odometer, odometer, driven_take hW.lenRows fun k hk => hT.speeds h k (by omega)]
  have v1 := hT.speeds h i hlt
  have v0 := hT.speeds h (i - 1) (by omega)
  rw [hs.row] at v1
  rw [hs.prev] at v0
  rw [drivenTo, drivenTo, e i hlt, e (i - 1) (by omega), odometer_step hpos (by omega),
    List.getD_eq_getElem?_getD, List.getD_eq_getElem?_getD, v0, v1, hs.dt]
  simp only [Option.map_some, Option.getD_some]
  ring

theorem SolvedFrom.road (hT : TracesRoad H P) {s q : Sim K} (h : Reachable F H V P s) {i : Nat} {p r : Row K}
    {dt a : K} (hs : StepAt s i p r dt a) (hq : SolvedFrom F V P s q i) :
    (stepEnv F V P q).dt = dt ∧ (q.rows.getD (i - 1) Row.zero) = p ∧
    (∀ v, (stepEnv F V P q).gradeOf v =
      averageGradeCached F s.cyc0 (drivenTo s (i - 1)) ((p.ach.mpsAch + v) / 2 * dt)) ∧
    (stepEnv F V P q).gradeEst = interpGrade F s.cyc0 (drivenTo s (i - 1)) := by
  have hpos := hs.pos
  have hlt := hs.lt
  have hdt : dtAt q.cyc i = dt := by
    rw [hs.dt]; exact dtAt_congr (hq.times i le_rfl) (hq.times (i - 1) (by omega))
  have hp : (q.rows.getD (i - 1) Row.zero) = p := by
    rw [List.getD_eq_getElem?_getD, hq.rows (i - 1) (by omega), hs.prev]; rfl
  have hst : trapzStepStartDistance q.cyc i = drivenTo s (i - 1) := by
    rw [← hT.start h hpos (by omega)]
    exact startDistance_congr (fun k hk => hq.times k (by omega)) (fun k hk => hq.before k hk)
  have hmode : ¬ (P.coastAllow = false ∧ P.idmAllow = false) := by
    rintro ⟨x, y⟩; rcases hT.mode with e | e <;> simp_all
  refine ⟨?_, hp, fun v => ?_, ?_⟩
  · show dtAt q.cyc q.i = dt
    rw [hq.i, hdt]
  · show lookupGradeAch F P q v = _
    unfold lookupGradeAch
    rw [if_neg hmode, hq.i, hst, hp, hdt, hq.cyc0]
    have : 1 / 2 * (v + p.ach.mpsAch) * dt = (p.ach.mpsAch + v) / 2 * dt := by ring
    rw [this]
    split
    · rename_i hz; rw [averageGradeCached, if_pos hz]
    · rfl
  · show estimateGrade F P q = _
    unfold estimateGrade
    rw [if_neg hmode, hq.i, hst, hq.cyc0]
    split
    · rename_i hz; rw [interpGrade, if_pos hz]
    · rfl

/-- **C104, the road of a step.** With car following or coasting on, the powers recorded for a step are those of
the achieved speed on the average grade of the reference road between the distance driven before and after the
step, and this is the grade that the simulated cycle shows for the step afterwards. -/
theorem C104_climbs (hT : TracesRoad H P) (hm : P.missedTrace = false) {s : Sim K} (h : Reachable F H V P s)
    {i : Nat} {p r : Row K} {dt a : K} (hs : StepAt s i p r dt a) :
    let g := averageGradeCached F s.cyc0 (drivenTo s (i - 1)) (drivenTo s i - drivenTo s (i - 1))
    (Cyc.grades s.cyc)[i]? = some g ∧ PowersOf F V P.toStepParams dt g p.ach.mpsAch r.ach.mpsAch r := by
  intro g
  have hcov := hT.covered h hs
  constructor
  · rw [Reachable.gradesWritten hT.loc hT.idm hT.coast hT.any h i hs.pos hs.lt]
    congr 1
    have hstep : trapzDistanceForStep s.cyc i = drivenTo s i - drivenTo s (i - 1) := by
      have v1 := hT.speeds h i hs.lt
      have v0 := hT.speeds h (i - 1) (by have := hs.lt; omega)
      rw [hs.row] at v1
      rw [hs.prev] at v0
      have hpos := hs.pos
      rw [hcov]
      unfold trapzDistanceForStep averageStepSpeedAt
      rw [List.getD_eq_getElem?_getD, List.getD_eq_getElem?_getD, v0, v1, hs.dt]
      simp only [Option.map_some, Option.getD_some]
      try rw [if_neg (by omega)]
      ring
    unfold gradeOver
    rw [hT.start h hs.pos (by have := hs.lt; omega), hstep]
    split
    · rename_i hz
      show 0 = averageGradeCached F _ _ _
      rw [averageGradeCached, if_pos hz]
    · rfl
  · obtain ⟨q, hq⟩ := (Reachable.solvedFrom hT.loc hT.rows hT.idm hT.coast h).2 i hs.pos hs.lt
    obtain ⟨e1, e2, e3, -⟩ := hq.road hT h hs
    have hr := hq.row
    rw [hs.row, e2] at hr
    have hr' := Option.some.inj hr
    have e := powerAt_powersOf (P := P) (stepEnv F V P q) p r
      (setCompLims F V P.toStepParams (stepEnv F V P q) p (setMisc V (stepEnv F V P q) p)) r.ach.mpsAch (by
        rw [hr']
        exact solveStep_pow_fresh (F := F) (V := V) P.toStepParams (stepEnv F V P q) p _ (hq.iters hm))
    rw [e1, e3, ← hcov] at e
    exact e

/-- **C104, with missed-trace correction.** The powers are those of some speed on the road that a step with this
speed covers; it is the achieved speed unless the step is reported as met although its speed was iterated in an
earlier attempt. -/
theorem C104_correction (hT : TracesRoad H P) {s : Sim K} (h : Reachable F H V P s)
    {i : Nat} {p r : Row K} {dt a : K} (hs : StepAt s i p r dt a) :
    ∃ v, PowersOf F V P.toStepParams dt
        (averageGradeCached F s.cyc0 (drivenTo s (i - 1)) ((p.ach.mpsAch + v) / 2 * dt)) p.ach.mpsAch v r ∧
      (v = r.ach.mpsAch ∨ (r.pow.cycMet = true ∧ 0 < r.ach.newtonIters)) := by
  obtain ⟨q, hq⟩ := (Reachable.solvedFrom hT.loc hT.rows hT.idm hT.coast h).2 i hs.pos hs.lt
  obtain ⟨e1, e2, e3, -⟩ := hq.road hT h hs
  have hr := hq.row
  rw [hs.row, e2] at hr
  have hr' := Option.some.inj hr
  generalize stepEnv F V P q = E at *
  generalize (q.rows.getD i Row.zero).stale = st at *
  by_cases hc : (setPowerCalcs F V P.toStepParams E p
      (setCompLims F V P.toStepParams E p (setMisc V E p)) st).cycMet = true
  · have hpow : r.pow = powerAt F V P.toStepParams E p (setCompLims F V P.toStepParams E p (setMisc V E p))
        (if 0 < st.newtonIters then st.mpsAch else E.mps) := by
      rw [hr']
      simp only [solveStep, setAchSpeed, if_pos hc]
      rfl
    have hmet : r.pow.cycMet = true := by
      rw [hr']
      simp only [solveStep, setAchSpeed, if_pos hc]
      exact hc
    have hit : r.ach.newtonIters = st.newtonIters := by
      rw [hr']
      simp only [solveStep, setAchSpeed, if_pos hc]
    have hv : r.ach.mpsAch = E.mps := by
      rw [hr']
      simp only [solveStep, setAchSpeed, if_pos hc]
    have e := powerAt_powersOf (P := P) E p r _ _ hpow
    rw [e1, e3] at e
    refine ⟨_, e, ?_⟩
    by_cases h0 : 0 < st.newtonIters
    · exact Or.inr ⟨hmet, by rw [hit]; exact h0⟩
    · left; rw [if_neg h0, hv]
  · have hpow : r.pow = powerAt F V P.toStepParams E p (setCompLims F V P.toStepParams E p (setMisc V E p))
        r.ach.mpsAch := by
      rw [hr']
      simp only [solveStep, setAchSpeed, if_neg hc]
    have e := powerAt_powersOf (P := P) E p r _ _ hpow
    rw [e1, e3] at e
    exact ⟨_, e, Or.inl rfl⟩

/-- One search for the speed whose road load on grade `g` uses up the power `maxOut`. -/
def NewtonOn (F : Fns K) (V : Veh K) (P : SimParams K) (dt v0 maxOut g : K) (n : Nat) (v : K) : Prop :=
  ∃ f', PolyDeriv (fun v => roadLoadKw F V P.toStepParams dt g v0 v - maxOut) f' ∧
    NewtonAnswer (fun v => roadLoadKw F V P.toStepParams dt g v0 v - maxOut) f' P.newtonMaxIter
      P.newtonXtol P.newtonGain v0 n v

theorem newtonMps_on (dt v0 maxOut g : K) :
    NewtonOn F V P dt v0 maxOut g
      (newtonMps P.toStepParams v0 (speedCoeffs F V P.toStepParams dt v0 maxOut g).1
        (speedCoeffs F V P.toStepParams dt v0 maxOut g).2.1 (speedCoeffs F V P.toStepParams dt v0 maxOut g).2.2.1
        (speedCoeffs F V P.toStepParams dt v0 maxOut g).2.2.2).1
      (newtonMps P.toStepParams v0 (speedCoeffs F V P.toStepParams dt v0 maxOut g).1
        (speedCoeffs F V P.toStepParams dt v0 maxOut g).2.1 (speedCoeffs F V P.toStepParams dt v0 maxOut g).2.2.1
        (speedCoeffs F V P.toStepParams dt v0 maxOut g).2.2.2).2 := by
  have hf : (fun v => roadLoadKw F V P.toStepParams dt g v0 v - maxOut) =
      cubic (speedCoeffs F V P.toStepParams dt v0 maxOut g).1
      (speedCoeffs F V P.toStepParams dt v0 maxOut g).2.1
      (speedCoeffs F V P.toStepParams dt v0 maxOut g).2.2.1
      (speedCoeffs F V P.toStepParams dt v0 maxOut g).2.2.2 :=
    funext fun v => (cubic_eq _ _ _ _ _).symm
  refine ⟨cubicD (speedCoeffs F V P.toStepParams dt v0 maxOut g).1
      (speedCoeffs F V P.toStepParams dt v0 maxOut g).2.1
      (speedCoeffs F V P.toStepParams dt v0 maxOut g).2.2.1, ?_, ?_⟩
  · rw [hf]; exact cubic_polyDeriv _ _ _ _
  · rw [hf]; exact newtonMps_answer P.toStepParams _ _ _ _ _

theorem gradeLoop_search (E : StepEnv K) (v0 maxOut : K) : ∀ (k : Nat) (g : K) (r : Nat × K),
    GradeSearch (NewtonOn F V P E.dt v0 maxOut) E.gradeOf (1 / 1000000) (k + 1) g
      (gradeLoop F V P.toStepParams E v0 maxOut (k + 1) g r).1
      (gradeLoop F V P.toStepParams E v0 maxOut (k + 1) g r).2 := by
  intro k
  induction k with
  | zero =>
    intro g r
    have hn := newtonMps_on (F := F) (V := V) (P := P) E.dt v0 maxOut g
    unfold gradeLoop
    simp only [gradeLoop, ite_self]
    exact .last hn
  | succ k ih =>
    intro g r
    have hn := newtonMps_on (F := F) (V := V) (P := P) E.dt v0 maxOut g
    rw [gradeLoop]
    split
    · rename_i ht
      exact .again hn ht (ih _ _)
    · rename_i ht
      exact .settled hn (not_lt.1 ht)

/-- **C104, the search for a reachable speed.** When the trace is out of reach, the speed is first searched on the
grade of the reference road at the place where the step starts, then on the road that the answer covers, until
the grade changes by at most 1e-6; three searches at most. -/
theorem C104_search (hT : TracesRoad H P) {s : Sim K} (h : Reachable F H V P s)
    {i : Nat} {p r : Row K} {dt a : K} (hs : StepAt s i p r dt a) (hmiss : r.pow.cycMet = false) :
    GradeSearch (NewtonOn F V P dt p.ach.mpsAch r.lims.curMaxTransKwOut)
      (fun v => averageGradeCached F s.cyc0 (drivenTo s (i - 1)) ((p.ach.mpsAch + v) / 2 * dt)) (1 / 1000000) 3
      (interpGrade F s.cyc0 (drivenTo s (i - 1))) r.ach.newtonIters r.ach.mpsAch := by
  obtain ⟨q, hq⟩ := (Reachable.solvedFrom hT.loc hT.rows hT.idm hT.coast h).2 i hs.pos hs.lt
  obtain ⟨e1, e2, e3, e4⟩ := hq.road hT h hs
  have hr := hq.row
  rw [hs.row, e2] at hr
  have hr' := Option.some.inj hr
  generalize stepEnv F V P q = E at *
  generalize (q.rows.getD i Row.zero).stale = st at *
  by_cases hc : (setPowerCalcs F V P.toStepParams E p
      (setCompLims F V P.toStepParams E p (setMisc V E p)) st).cycMet = true
  · have : r.pow.cycMet = true := by
      rw [hr']; simp only [solveStep, setAchSpeed, if_pos hc]; exact hc
    rw [this] at hmiss; simp at hmiss
  · have e := gradeLoop_search (F := F) (V := V) (P := P) E p.ach.mpsAch
      (setCompLims F V P.toStepParams E p (setMisc V E p)).curMaxTransKwOut 2 E.gradeEst
      (st.newtonIters, st.mpsAch)
    rw [e1, e4, funext e3] at e
    rw [hr']
    simp only [solveStep, setAchSpeed, if_neg hc]
    rw [← e4] at e ⊢
    exact e

/-- **C104, neither mode.** The powers are those of the achieved speed on the grade of the sample, or on a level
road if the reference road is level everywhere. -/
theorem C104_plain (hc : P.coastAllow = false) (hd : P.idmAllow = false) (hm : P.missedTrace = false) {s : Sim K}
    (h : Reachable F H V P s) {i : Nat} {p r : Row K} {dt a : K} (hs : StepAt s i p r dt a) :
    PowersOf F V P.toStepParams dt (if ∀ x ∈ s.cyc0, x.g = 0 then 0 else (s.cyc.grades.getD i 0)) p.ach.mpsAch
      r.ach.mpsAch r := by
  obtain ⟨st, h1, h2⟩ := (Reachable.recInv hc hd h).2.solved i hs.pos hs.lt
  rw [hs.row, List.getD_eq_getElem?_getD (i := i - 1), hs.prev] at h2
  obtain rfl := Option.some.inj h2
  have e := powerAt_powersOf (P := P) (recordedEnv s i) p _ _ _
    (solveStep_pow_fresh (F := F) (V := V) P.toStepParams (recordedEnv s i) p st (by rw [h1 hm]; rfl))
  have hg : (recordedEnv s i).gradeOf = fun _ => if ∀ x ∈ s.cyc0, x.g = 0 then 0 else s.cyc.grades.getD i 0 := by
    funext v
    show recordedGrade s i = _
    unfold recordedGrade
    by_cases hz : ∀ x ∈ s.cyc0, x.g = 0
    · rw [if_pos hz, if_pos ((gradeAllZero_iff _).2 hz)]
    · rw [if_neg hz, if_neg (fun e => hz ((gradeAllZero_iff _).1 e))]
  have hdt : (recordedEnv s i).dt = dt := hs.dt.symm
  rw [hdt, hg] at e
  exact e

end Field
end Fastsim.Props
