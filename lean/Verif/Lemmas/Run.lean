import Verif.Model.Run

/-!
# What every walk guarantees, whatever the driving mode
-/

set_option linter.unusedSectionVars false

namespace Fastsim

section Lawless
variable {K : Type*} [Zero K] [One K] [NatCast K] [Add K] [Sub K] [Mul K] [Div K] [Neg K]
  [LinearOrder K]

/-- `s'` has the same arrays lengths, the same original cycle and step counter as `s`, and agrees
with `s` on everything recorded for the indices before `k`. -/
structure AgreeBefore (k : Nat) (s s' : Sim K) : Prop where
  cyc0 : s'.cyc0 = s.cyc0
  lenCyc : s'.cyc.length = s.cyc.length
  lenRows : s'.rows.length = s.rows.length
  lenAux : s'.aux.length = s.aux.length
  rows : ∀ j, j < k → s'.rows[j]? = s.rows[j]?
  aux : ∀ j, j < k → s'.aux[j]? = s.aux[j]?
  times : ∀ j, j < k → (Cyc.times s'.cyc)[j]? = (Cyc.times s.cyc)[j]?

theorem AgreeBefore.refl (k : Nat) (s : Sim K) : AgreeBefore k s s :=
  ⟨rfl, rfl, rfl, rfl, fun _ _ => rfl, fun _ _ => rfl, fun _ _ => rfl⟩

theorem AgreeBefore.trans {k : Nat} {s s' s'' : Sim K} (h : AgreeBefore k s s')
    (h' : AgreeBefore k s' s'') : AgreeBefore k s s'' :=
  ⟨h'.cyc0.trans h.cyc0, h'.lenCyc.trans h.lenCyc, h'.lenRows.trans h.lenRows,
    h'.lenAux.trans h.lenAux, fun j hj => (h'.rows j hj).trans (h.rows j hj),
    fun j hj => (h'.aux j hj).trans (h.aux j hj),
    fun j hj => (h'.times j hj).trans (h.times j hj)⟩

theorem AgreeBefore.mono {k m : Nat} {s s' : Sim K} (h : AgreeBefore k s s') (hm : m ≤ k) :
    AgreeBefore m s s' :=
  ⟨h.cyc0, h.lenCyc, h.lenRows, h.lenAux, fun j hj => h.rows j (by omega),
    fun j hj => h.aux j (by omega), fun j hj => h.times j (by omega)⟩

/-- A hook that only touches the present and the future: it keeps the original cycle, the step
counter, all array lengths, all time stamps, and everything recorded for earlier steps. -/
def HookLocal (h : Sim K → Except PyErr (Sim K)) : Prop :=
  ∀ s s', h s = .ok s' →
    AgreeBefore s.i s s' ∧ s'.i = s.i ∧ Cyc.times s'.cyc = Cyc.times s.cyc

/-- Both hooks are local. -/
structure Hooks.Local (H : Hooks K) : Prop where
  idm : HookLocal H.idm
  coast : HookLocal H.coast

theorem auxStep_length (V : Veh K) (a : List K) (i : Nat) : (auxStep V a i).length = a.length := by
  unfold auxStep; split <;> simp

theorem auxStep_before (V : Veh K) (a : List K) (i j : Nat) (h : j < i) :
    (auxStep V a i)[j]? = a[j]? := by
  unfold auxStep; split
  · rw [List.getElem?_set_ne (by omega)]
  · rfl

theorem solve_agree (F : Fns K) (V : Veh K) (P : SimParams K) (s : Sim K) :
    AgreeBefore s.i s (Sim.solve F V P s) := by
  refine ⟨rfl, rfl, by simp [Sim.solve], auxStep_length _ _ _, fun j hj => ?_, fun j hj => ?_,
    fun _ _ => rfl⟩
  · simp only [Sim.solve]; rw [List.getElem?_set_ne (by omega)]
  · exact auxStep_before _ _ _ _ hj

theorem times_shiftTimesFrom (c : Cyc K) (i : Nat) (x : K) (j : Nat) :
    (Cyc.times (shiftTimesFrom c i x))[j]? =
      if i ≤ j then ((Cyc.times c)[j]?).map (· + x) else (Cyc.times c)[j]? := by
  unfold Cyc.times shiftTimesFrom
  simp only [List.getElem?_map, List.getElem?_mapIdx]
  cases c[j]? with
  | none => simp
  | some s => by_cases h : i ≤ j <;> simp [h]

theorem length_shiftTimesFrom (c : Cyc K) (i : Nat) (x : K) :
    (shiftTimesFrom c i x).length = c.length := by simp [shiftTimesFrom]

theorem dilateAndSolve_agree (F : Fns K) (V : Veh K) (P : SimParams K) (s : Sim K) (t : K) :
    AgreeBefore s.i s (dilateAndSolve F V P s t) := by
  refine AgreeBefore.trans
    (s' := { s with cyc := shiftTimesFrom s.cyc s.i (dtAt s.cyc s.i * t) }) ?_ (solve_agree F V P
      { s with cyc := shiftTimesFrom s.cyc s.i (dtAt s.cyc s.i * t) })
  refine ⟨rfl, length_shiftTimesFrom _ _ _, rfl, rfl, fun _ _ => rfl, fun _ _ => rfl,
    fun j hj => ?_⟩
  simp only [times_shiftTimesFrom]
  rw [if_neg (by omega)]

theorem bumpMiss_agree (k : Nat) (s : Sim K) : AgreeBefore k s (bumpMiss s) :=
  ⟨rfl, rfl, rfl, rfl, fun _ _ => rfl, fun _ _ => rfl, fun _ _ => rfl⟩

/-- Row `i` of `s` is the outcome of one solve from row `i-1`, for the step duration and the
accessory load recorded in `s`. -/
def Solved (F : Fns K) (V : Veh K) (P : SimParams K) (s : Sim K) (i : Nat) : Prop :=
  ∃ E : StepEnv K, ∃ st : Stale K, E.dt = dtAt s.cyc i ∧ E.roadKw = 0 ∧
    s.aux[i]? = some E.auxIn ∧
    s.rows[i]? = some (solveStep F V P.toStepParams E (s.rows.getD (i - 1) Row.zero) st)

theorem solve_solved (F : Fns K) (V : Veh K) (P : SimParams K) (s : Sim K) (h1 : 1 ≤ s.i)
    (hr : s.i < s.rows.length) (ha : s.i < s.aux.length) : Solved F V P (Sim.solve F V P s) s.i := by
  refine ⟨stepEnv F V P s, (s.rows.getD s.i Row.zero).stale, rfl, rfl, ?_, ?_⟩
  · simp only [Sim.solve, stepEnv]
    rw [List.getD_eq_getElem?_getD, List.getElem?_eq_getElem (by rw [auxStep_length]; exact ha)]
    rfl
  · simp only [Sim.solve]
    rw [List.getElem?_set_self hr]
    congr 2
    rw [List.getD_eq_getElem?_getD, List.getD_eq_getElem?_getD, List.getElem?_set_ne (by omega)]

theorem Solved.congr {F : Fns K} {V : Veh K} {P : SimParams K} {s s' : Sim K} {i k : Nat}
    (h : Solved F V P s i) (ha : AgreeBefore k s s') (hi : i < k) : Solved F V P s' i := by
  obtain ⟨E, st, h1, h2, h3, h4⟩ := h
  refine ⟨E, st, ?_, h2, ?_, ?_⟩
  · rw [h1]
    unfold dtAt
    split
    · rfl
    · rw [List.getD_eq_getElem?_getD, List.getD_eq_getElem?_getD, List.getD_eq_getElem?_getD,
        List.getD_eq_getElem?_getD, ha.times i hi, ha.times (i - 1) (by omega)]
  · rw [ha.aux i hi, h3]
  · rw [ha.rows i hi, h4]
    congr 2
    rw [List.getD_eq_getElem?_getD, List.getD_eq_getElem?_getD, ha.rows (i - 1) (by omega)]

theorem Solved.bump {F : Fns K} {V : Veh K} {P : SimParams K} {s : Sim K} {i : Nat}
    (h : Solved F V P s i) : Solved F V P (bumpMiss s) i := h

/-- After `solve_step` and the trace-miss correction. -/
structure Fresh (F : Fns K) (V : Veh K) (P : SimParams K) (s s' : Sim K) : Prop where
  agree : AgreeBefore s.i s s'
  i : s'.i = s.i
  solved : Solved F V P s' s.i

theorem dilateAndSolve_fresh (F : Fns K) (V : Veh K) (P : SimParams K) (s : Sim K) (t : K)
    (h1 : 1 ≤ s.i) (hr : s.i < s.rows.length) (ha : s.i < s.aux.length) :
    Fresh F V P s (dilateAndSolve F V P s t) :=
  ⟨dilateAndSolve_agree F V P s t, rfl, solve_solved F V P
    { s with cyc := shiftTimesFrom s.cyc s.i (dtAt s.cyc s.i * t) } h1 hr ha⟩

theorem dilationLoop_fresh (F : Fns K) (V : Veh K) (P : SimParams K) (iters : Nat)
    (t tPrev dPrev : K) (s : Sim K) (h1 : 1 ≤ s.i) (hr : s.i < s.rows.length)
    (ha : s.i < s.aux.length) : Fresh F V P s (dilationLoop F V P iters t tPrev dPrev s) := by
  fun_induction dilationLoop F V P iters t tPrev dPrev s with
  | case1 iters t tPrev dPrev s d t' s' h =>
    have hf := dilateAndSolve_fresh F V P s t' h1 hr ha
    exact ⟨hf.agree.trans (bumpMiss_agree _ _), hf.i, hf.solved.bump⟩
  | case2 iters t tPrev dPrev s d t' s' h ih =>
    have hf := dilateAndSolve_fresh F V P s t' h1 hr ha
    have hb := hf.agree.trans (bumpMiss_agree s.i _)
    have hi : s'.i = s.i := hf.i
    have := ih (by rw [hi]; exact h1) (by rw [hi, hb.lenRows]; exact hr)
      (by rw [hi, hb.lenAux]; exact ha)
    exact ⟨hb.trans (by rw [← hi]; exact this.agree), this.i.trans hi, by rw [← hi]; exact this.solved⟩

theorem setTimeDilation_fresh (F : Fns K) (V : Veh K) (P : SimParams K) (s : Sim K) (h1 : 1 ≤ s.i)
    (hr : s.i < s.rows.length) (ha : s.i < s.aux.length) (hs : Solved F V P s s.i) :
    Fresh F V P s (setTimeDilation F V P s) := by
  unfold setTimeDilation
  split
  · exact ⟨AgreeBefore.refl _ _, rfl, hs⟩
  · simp only
    generalize clampDilation P ((targetDist s - achievedDist s) / dtAt s.cyc0 s.i /
        (s.rows.getD s.i Row.zero).ach.mpsAch) = t
    have hf := dilateAndSolve_fresh F V P (bumpMiss s) t h1 hr ha
    have hag : AgreeBefore s.i s (dilateAndSolve F V P (bumpMiss s) t) :=
      (bumpMiss_agree s.i s).trans hf.agree
    have hi : (dilateAndSolve F V P (bumpMiss s) t).i = s.i := hf.i
    split
    · exact ⟨hag, hi, hf.solved⟩
    · have hl := dilationLoop_fresh F V P
        ((dilateAndSolve F V P (bumpMiss s) t).missIters.getD s.i 0) t 0
        (targetDist s - achievedDist s) (dilateAndSolve F V P (bumpMiss s) t)
        (by rw [hi]; exact h1) (by rw [hi, hag.lenRows]; exact hr) (by rw [hi, hag.lenAux]; exact ha)
      exact ⟨hag.trans (by rw [← hi]; exact hl.agree), hl.i.trans hi, by
        have := hl.solved; rw [hi] at this; exact this⟩

theorem solveAndCorrect_fresh (F : Fns K) (V : Veh K) (P : SimParams K) (s : Sim K) (h1 : 1 ≤ s.i)
    (hr : s.i < s.rows.length) (ha : s.i < s.aux.length) :
    Fresh F V P s (solveAndCorrect F V P s) := by
  have hag := solve_agree F V P s
  have hsol := solve_solved F V P s h1 hr ha
  have hi : (Sim.solve F V P s).i = s.i := rfl
  unfold solveAndCorrect
  simp only
  split
  · have := setTimeDilation_fresh F V P (Sim.solve F V P s) h1 (by rw [hag.lenRows, hi]; exact hr)
      (by rw [hag.lenAux, hi]; exact ha) hsol
    exact ⟨hag.trans this.agree, this.i, this.solved⟩
  · exact ⟨hag, hi, hsol⟩

theorem times_modify (c : Cyc K) (i : Nat) (f : Sample K → Sample K) (hf : ∀ x, (f x).t = x.t) :
    Cyc.times (c.modify i f) = Cyc.times c := by
  unfold Cyc.times
  apply List.ext_getElem?
  intro j
  simp only [List.getElem?_map, List.getElem?_modify]
  cases c[j]? with
  | none => rfl
  | some a => by_cases h : i = j <;> simp [h, hf]

theorem times_setSpeed (c : Cyc K) (i : Nat) (v : K) :
    Cyc.times (setSpeed c i v) = Cyc.times c := times_modify _ _ _ fun _ => rfl

theorem finishStep_i (F : Fns K) (P : SimParams K) (s : Sim K) :
    (finishStep F P s).i = s.i + 1 := by
  unfold finishStep
  simp only
  split <;> rfl

theorem finishStep_times (F : Fns K) (P : SimParams K) (s : Sim K) :
    Cyc.times (finishStep F P s).cyc = Cyc.times s.cyc := by
  unfold finishStep
  simp only
  split
  · simp only
    rw [times_modify, times_setSpeed]
    intro x; rfl
  · rfl

theorem finishStep_agree (F : Fns K) (P : SimParams K) (k : Nat) (s : Sim K) :
    AgreeBefore k s (finishStep F P s) := by
  refine ⟨?_, ?_, ?_, ?_, fun j _ => ?_, fun j _ => ?_, fun j _ => ?_⟩
  · unfold finishStep; simp only; split <;> rfl
  · unfold finishStep; simp only; split <;> simp [setSpeed]
  · unfold finishStep; simp only; split <;> rfl
  · unfold finishStep; simp only; split <;> rfl
  · unfold finishStep; simp only; split <;> rfl
  · unfold finishStep; simp only; split <;> rfl
  · rw [finishStep_times]

/-- State of a walk before the step with index `s.i`: all earlier steps are solved. -/
structure WalkInv (F : Fns K) (V : Veh K) (P : SimParams K) (s : Sim K) : Prop where
  pos : 1 ≤ s.i
  le : s.i ≤ s.cyc.length
  lenRows : s.rows.length = s.cyc.length
  lenAux : s.aux.length = s.cyc.length
  solved : ∀ j, 1 ≤ j → j < s.i → Solved F V P s j

theorem simDriveStep_inv {F : Fns K} {H : Hooks K} (hH : H.Local) {V : Veh K} {P : SimParams K}
    {s s' : Sim K} (hI : WalkInv F V P s) (hlt : s.i < s.cyc.length)
    (h : simDriveStep F H V P s = .ok s') :
    WalkInv F V P s' ∧ s'.i = s.i + 1 ∧ AgreeBefore s.i s s' := by
  unfold simDriveStep at h
  split at h
  · simp at h
  · rename_i s1 h1
    have e1 : AgreeBefore s.i s s1 ∧ s1.i = s.i := by
      split at h1
      · exact ⟨(hH.idm _ _ h1).1, (hH.idm _ _ h1).2.1⟩
      · cases h1; exact ⟨AgreeBefore.refl _ _, rfl⟩
    split at h
    · simp at h
    · rename_i s2 h2
      have e2 : AgreeBefore s1.i s1 s2 ∧ s2.i = s1.i := by
        split at h2
        · exact ⟨(hH.coast _ _ h2).1, (hH.coast _ _ h2).2.1⟩
        · cases h2; exact ⟨AgreeBefore.refl _ _, rfl⟩
      simp only [Except.ok.injEq] at h
      have hi2 : s2.i = s.i := e2.2.trans e1.2
      have a2 : AgreeBefore s.i s s2 := e1.1.trans (by rw [← e1.2]; exact e2.1)
      have hf := solveAndCorrect_fresh F V P s2 (by rw [hi2]; exact hI.pos)
        (by rw [hi2, a2.lenRows, hI.lenRows]; exact hlt)
        (by rw [hi2, a2.lenAux, hI.lenAux]; exact hlt)
      rw [← h]
      have hfin := finishStep_agree F P (s.i + 1) (solveAndCorrect F V P s2)
      have a3 : AgreeBefore s.i s (solveAndCorrect F V P s2) :=
        a2.trans (by rw [← hi2]; exact hf.agree)
      have a4 := a3.trans (hfin.mono (Nat.le_succ _))
      have hi' : (finishStep F P (solveAndCorrect F V P s2)).i = s.i + 1 := by
        rw [finishStep_i, hf.i, hi2]
      refine ⟨⟨?_, ?_, ?_, ?_, ?_⟩, hi', a4⟩
      · rw [hi']; omega
      · rw [hi', a4.lenCyc]; omega
      · rw [a4.lenRows, a4.lenCyc, hI.lenRows]
      · rw [a4.lenAux, a4.lenCyc, hI.lenAux]
      · intro j h1 h2
        rw [hi'] at h2
        by_cases hj : j = s.i
        · have := hf.solved
          rw [hi2] at this
          subst hj
          exact this.congr hfin (by omega)
        · exact (hI.solved j h1 (by omega)).congr a4 (by omega)

theorem walkLoop_inv {F : Fns K} {H : Hooks K} (hH : H.Local) {V : Veh K} {P : SimParams K}
    (n : Nat) : ∀ {s s' : Sim K}, WalkInv F V P s → walkLoop F H V P n s = .ok s' →
      WalkInv F V P s' ∧ s'.i = s'.cyc.length ∧ AgreeBefore s.i s s' := by
  induction n with
  | zero =>
    intro s s' hI h
    unfold walkLoop at h
    split at h
    · simp at h
    · rename_i hlt
      cases h
      exact ⟨hI, le_antisymm hI.le (by omega), AgreeBefore.refl _ _⟩
  | succ n ih =>
    intro s s' hI h
    unfold walkLoop at h
    split at h
    · rename_i hlt
      split at h
      · simp at h
      · rename_i s1 h1
        obtain ⟨hI1, hi1, a1⟩ := simDriveStep_inv hH hI hlt h1
        obtain ⟨hI2, hi2, a2⟩ := ih hI1 h
        exact ⟨hI2, hi2, a1.trans (a2.mono (by omega))⟩
    · rename_i hlt
      cases h
      exact ⟨hI, le_antisymm hI.le (by omega), AgreeBefore.refl _ _⟩

/-- The bound on the number of iterations in `walkLoop` is never the reason to stop. -/
theorem walkLoop_fuel {F : Fns K} {H : Hooks K} (hH : H.Local) {V : Veh K} {P : SimParams K}
    (n : Nat) : ∀ {s : Sim K}, WalkInv F V P s → s.cyc.length ≤ n + s.i → ∀ m,
      walkLoop F H V P (n + m) s = walkLoop F H V P n s := by
  induction n with
  | zero =>
    intro s hI hle m
    have hlt : ¬ s.i < s.cyc.length := by omega
    cases m with
    | zero => rfl
    | succ m => rw [Nat.zero_add, walkLoop, walkLoop, if_neg hlt, if_neg hlt]
  | succ n ih =>
    intro s hI hle m
    rw [Nat.add_right_comm, walkLoop, walkLoop]
    by_cases hlt : s.i < s.cyc.length
    · rw [if_pos hlt, if_pos hlt]
      cases h : simDriveStep F H V P s with
      | error e => rfl
      | ok s1 =>
        simp only
        obtain ⟨hI1, hi1, a1⟩ := simDriveStep_inv hH hI hlt h
        exact ih hI1 (by rw [a1.lenCyc]; omega) m
    · rw [if_neg hlt, if_neg hlt]

theorem initAux_length (n : Nat) (aux : Option (List K)) : (initAux n aux).length = n := by
  unfold initAux
  cases aux with
  | none => simp
  | some a => simp only; split <;> simp [*]

/-- What `init_for_step` establishes. -/
structure InitSpec (V : Veh K) (P : SimParams K) (s : Sim K) (soc : K) (aux : Option (List K))
    (s' : Sim K) : Prop where
  eq : s' = initState V P s soc aux
  cyc0 : s'.cyc0 = s.cyc0
  lenCyc : s'.cyc.length = s.cyc0.length
  pos : 0 < s.cyc0.length
  i : s'.i = 1
  lenRows : s'.rows.length = s.cyc0.length
  aux : s'.aux = initAux s.cyc0.length aux
  lenAux : s'.aux.length = s.cyc0.length
  row0 : s'.rows[0]? = some (Row.init V soc (s.cyc0.speeds.getD 0 0) (s'.aux.getD 0 0))
  rowsZero : ∀ j, 1 ≤ j → j < s.cyc0.length → s'.rows[j]? = some Row.zero
  socOk : V.ptType = .conv ∨ (V.minSoc ≤ soc ∧ soc ≤ V.maxSoc)

theorem initForStep_spec {V : Veh K} {P : SimParams K} {s s' : Sim K} {soc : K}
    {aux : Option (List K)} (hlen : s.cyc.length = s.cyc0.length)
    (h : initForStep V P s soc aux = .ok s') : InitSpec V P s soc aux s' := by
  unfold initForStep at h
  split at h
  · simp at h
  rename_i hsoc
  split at h
  · simp at h
  rename_i hne
  simp only [Except.ok.injEq] at h
  subst h
  have hpos : 0 < s.cyc0.length := by omega
  refine ⟨rfl, rfl, ?_, hpos, rfl, ?_, ?_, ?_, ?_, ?_, ?_⟩
  · simp only [initState]; split <;> [rfl; exact hlen]
  · simp [initState, initArrays, hlen]
  · simp [initState, hlen]
  · simp [initState, initAux_length, hlen]
  · simp [initState, initArrays, hlen, hpos]
  · intro j h1 h2
    simp only [initState, initArrays]
    rw [List.getElem?_set_ne (by omega), List.getElem?_replicate, if_pos (by omega)]
  · by_contra hc
    simp only [not_or, not_and_or, not_le] at hc
    exact hsoc ⟨hc.1, hc.2.symm⟩

/-- What a completed walk looks like. -/
structure WalkDone (F : Fns K) (V : Veh K) (P : SimParams K) (c0 : Cyc K) (soc : K) (s : Sim K) :
    Prop where
  cyc0 : s.cyc0 = c0
  lenCyc : s.cyc.length = c0.length
  lenRows : s.rows.length = c0.length
  lenAux : s.aux.length = c0.length
  nonempty : 0 < c0.length
  atEnd : s.i = c0.length
  row0 : s.rows[0]? = some (Row.init V soc (c0.speeds.getD 0 0) (s.aux.getD 0 0))
  socOk : V.ptType = .conv ∨ (V.minSoc ≤ soc ∧ soc ≤ V.maxSoc)
  solved : ∀ j, 1 ≤ j → j < c0.length → Solved F V P s j

theorem walk_done {F : Fns K} {H : Hooks K} (hH : H.Local) {V : Veh K} {P : SimParams K}
    {s s' : Sim K} {soc : K} {aux : Option (List K)} (hlen : s.cyc.length = s.cyc0.length)
    (h : walk F H V P s soc aux = .ok s') : WalkDone F V P s.cyc0 soc s' := by
  unfold walk at h
  split at h
  · simp at h
  rename_i s1 h1
  have q := initForStep_spec hlen h1
  have hi := q.i
  have hI : WalkInv F V P s1 := ⟨by omega, by rw [q.lenCyc]; have := q.pos; omega,
    by rw [q.lenRows, q.lenCyc], by rw [q.lenAux, q.lenCyc], fun j a b => by omega⟩
  obtain ⟨hI', he, ha⟩ := walkLoop_inv hH _ hI h
  have hl : s'.cyc.length = s.cyc0.length := ha.lenCyc.trans q.lenCyc
  refine ⟨ha.cyc0.trans q.cyc0, hl, hI'.lenRows.trans hl, hI'.lenAux.trans hl, q.pos, he.trans hl,
    ?_, q.socOk,
    fun j a b => hI'.solved j a (by omega)⟩
  rw [ha.rows 0 (by omega), q.row0, List.getD_eq_getElem?_getD (l := s'.aux), ha.aux 0 (by omega),
    ← List.getD_eq_getElem?_getD]

theorem hevLoop_keeps {F : Fns K} {H : Hooks K} (hH : H.Local) {V : Veh K} {P : SimParams K}
    {aux : Option (List K)} (count : Nat) (e soc : K) (s : Sim K) {r : Sim K × K × Option (List K)}
    (hlen : s.cyc.length = s.cyc0.length) (h : hevLoop F H V P aux count e soc s = .ok r) :
    r.1.cyc0 = s.cyc0 ∧ r.1.cyc.length = s.cyc0.length := by
  fun_induction hevLoop F H V P aux count e soc s with
  | case1 aux count e soc s hc err hw => simp at h
  | case2 aux count e soc s hc s1 hw ih =>
    have hd := walk_done hH (s := { s with hevCount := count + 1 }) hlen hw
    have h' := ih (by rw [hd.lenCyc, hd.cyc0]) h
    have e0 : s1.cyc0 = s.cyc0 := hd.cyc0
    rw [e0] at h'
    exact h'
  | case3 aux count e soc s hc =>
    simp only [Except.ok.injEq] at h; subst h; exact ⟨rfl, hlen⟩

/-- Every completed `sim_drive` ends with a completed walk over the original cycle. -/
theorem simDrive_done {F : Fns K} {H : Hooks K} (hH : H.Local) {V : Veh K} {P : SimParams K}
    {s s' : Sim K} {init : Option K} {aux : Option (List K)} (hlen : s.cyc.length = s.cyc0.length)
    (h : simDrive F H V P s init aux = .ok s') : ∃ soc, WalkDone F V P s.cyc0 soc s' := by
  unfold simDrive at h
  simp only at h
  cases init with
  | some soc => exact ⟨soc, walk_done hH (s := { s with hevCount := 0 }) hlen h⟩
  | none =>
    simp only at h
    cases hv : V.ptType with
    | conv => rw [hv] at h; exact ⟨_, walk_done hH (s := { s with hevCount := 0 }) hlen h⟩
    | phev => rw [hv] at h; exact ⟨_, walk_done hH (s := { s with hevCount := 0 }) hlen h⟩
    | bev => rw [hv] at h; exact ⟨_, walk_done hH (s := { s with hevCount := 0 }) hlen h⟩
    | hev =>
      rw [hv] at h
      simp only at h
      split at h
      · simp at h
      · rename_i r hr
        obtain ⟨h1, h2⟩ := hevLoop_keeps hH 0 _ _ { s with hevCount := 0 } hlen hr
        simp only at h1 h2
        have := walk_done hH (by rw [h2, h1]) h
        rw [h1] at this
        exact ⟨_, this⟩

end Lawless
end Fastsim
