import Verif.Lemmas.Run
import Verif.Lemmas.Coast

/-!
# Runs of two vehicles that cannot be told apart by part of the records

`RowView F P V V' R`: one solve of a step preserves the relation `R` between rows, and `R` pins everything the rest
of the simulation reads from a row. Then whole runs are related by `R`, row by row, in all driving modes.
-/

set_option linter.unusedSectionVars false

namespace Fastsim

section Lawless
variable {K : Type*} [Zero K] [One K] [NatCast K] [Add K] [Sub K] [Mul K] [Div K] [Neg K]
  [LinearOrder K]

/-- `R` is kept by a solve and pins what the loops read. -/
structure RowView (F : Fns K) (P : StepParams K) (V V' : Veh K) (R : Row K → Row K → Prop) : Prop where
  zero : R Row.zero Row.zero
  ach : ∀ {r r'}, R r r' → r.ach = r'.ach
  out : ∀ {r r'}, R r r' → r.fc.fcKwOutAch = r'.fc.fcKwOutAch
  step : ∀ {p p'} (E : StepEnv K) (st : Stale K), E.roadKw = 0 → R p p' →
    R (solveStep F V P E p st) (solveStep F V' P E p' st)
  reset : ∀ {r r'}, R r r' → R { r with ach := { r.ach with newtonIters := 0 } }
    { r' with ach := { r'.ach with newtonIters := 0 } }
  noElecAux : V.noElecAux = V'.noElecAux
  auxKw : V.auxKw = V'.auxKw
  altEff : V.altEff = V'.altEff
  rr : V.wheelRrCoef = V'.wheelRrCoef
  cd : V.dragCoef = V'.dragCoef
  area : V.frontalAreaM2 = V'.frontalAreaM2
  kg : V.vehKg = V'.vehKg

/-- Objects that differ only in their rows, which are related by `R`. -/
def SimRel (R : Row K → Row K → Prop) (s s' : Sim K) : Prop :=
  ∃ l, List.Forall₂ R s.rows l ∧ s' = { s with rows := l }

/-- The same exception, or related objects. -/
inductive OutRel (R : Row K → Row K → Prop) : Except PyErr (Sim K) → Except PyErr (Sim K) → Prop
  | error (e : PyErr) : OutRel R (.error e) (.error e)
  | ok {s s' : Sim K} (h : SimRel R s s') : OutRel R (.ok s) (.ok s')

variable {F : Fns K} {H H' : Hooks K} {V V' : Veh K} {P : SimParams K} {R : Row K → Row K → Prop}

theorem forall₂_getD {l l' : List (Row K)} (h : List.Forall₂ R l l') {d d' : Row K} (h0 : R d d') (i : Nat) :
    R (l.getD i d) (l'.getD i d') := by
  induction h generalizing i with
  | nil => simpa using h0
  | cons a _ ih =>
    cases i with
    | zero => simpa using a
    | succ i => simpa using ih i

theorem forall₂_set {l l' : List (Row K)} (h : List.Forall₂ R l l') {d d' : Row K} (h0 : R d d') (i : Nat) :
    List.Forall₂ R (l.set i d) (l'.set i d') := by
  induction h generalizing i with
  | nil => exact .nil
  | cons a b ih =>
    cases i with
    | zero => exact .cons h0 b
    | succ i => exact .cons a (ih i)

theorem forall₂_modify {l l' : List (Row K)} (h : List.Forall₂ R l l') {f f' : Row K → Row K}
    (hf : ∀ {r r'}, R r r' → R (f r) (f' r')) (i : Nat) : List.Forall₂ R (l.modify i f) (l'.modify i f') := by
  induction h generalizing i with
  | nil => simp
  | cons a b ih =>
    cases i with
    | zero => exact .cons (hf a) b
    | succ i => exact .cons a (ih i)

theorem forall₂_map {α : Type*} {l l' : List (Row K)} (h : List.Forall₂ R l l') {f : Row K → α}
    (hf : ∀ {r r'}, R r r' → f r = f r') : l.map f = l'.map f := by
  induction h with
  | nil => rfl
  | cons a _ ih => simp [hf a, ih]

theorem RowView.mps (W : RowView F P.toStepParams V V' R) {l l' : List (Row K)} (h : List.Forall₂ R l l') (i : Nat) :
    (l'.getD i Row.zero).ach = (l.getD i Row.zero).ach := (W.ach (forall₂_getD h W.zero i)).symm

theorem RowView.aux (W : RowView F P.toStepParams V V' R) (a : List K) (i : Nat) : auxStep V' a i = auxStep V a i := by
  unfold auxStep
  rw [W.noElecAux, W.auxKw, W.altEff]

theorem RowView.env (W : RowView F P.toStepParams V V' R) {s : Sim K} {l : List (Row K)}
    (h : List.Forall₂ R s.rows l) : stepEnv F V' P { s with rows := l } = stepEnv F V P s := by
  have e : lookupGradeAch F P { s with rows := l } = lookupGradeAch F P s := by
    funext m
    simp only [lookupGradeAch, W.mps h]
  unfold stepEnv
  rw [e, W.aux]
  rfl

theorem RowView.solve (W : RowView F P.toStepParams V V' R) {s s' : Sim K} (h : SimRel R s s') :
    SimRel R (Sim.solve F V P s) (Sim.solve F V' P s') := by
  obtain ⟨l, hl, rfl⟩ := h
  refine ⟨_, forall₂_set hl (W.step (stepEnv F V P s) (s.rows.getD s.i Row.zero).stale rfl
    (forall₂_getD hl W.zero (s.i - 1))) s.i, ?_⟩
  have hst : (l.getD s.i Row.zero).stale = (s.rows.getD s.i Row.zero).stale := by
    unfold Row.stale
    rw [W.mps hl, W.out (forall₂_getD hl W.zero s.i)]
  simp only [Sim.solve, W.env hl, W.aux, hst]

theorem SimRel.cyc {s s' : Sim K} (h : SimRel R s s') (c : Cyc K) : SimRel R { s with cyc := c } { s' with cyc := c } := by
  obtain ⟨l, hl, rfl⟩ := h
  exact ⟨l, hl, rfl⟩

theorem SimRel.bump {s s' : Sim K} (h : SimRel R s s') : SimRel R (bumpMiss s) (bumpMiss s') := by
  obtain ⟨l, hl, rfl⟩ := h
  exact ⟨l, hl, rfl⟩

theorem RowView.achieved (W : RowView F P.toStepParams V V' R) {s s' : Sim K} (h : SimRel R s s') :
    achievedDist s' = achievedDist s ∧ targetDist s' = targetDist s := by
  obtain ⟨l, hl, rfl⟩ := h
  refine ⟨?_, rfl⟩
  have e : l.map (fun r => r.ach.distM) = s.rows.map (fun r => r.ach.distM) :=
    (forall₂_map hl fun a => by rw [W.ach a]).symm
  unfold achievedDist
  simp only [List.map_take, e]

theorem RowView.converged (W : RowView F P.toStepParams V V' R) {s s' : Sim K} (h : SimRel R s s') :
    distConverged P s' = distConverged P s := by
  unfold distConverged
  rw [(W.achieved h).1, (W.achieved h).2]

theorem RowView.dilate (W : RowView F P.toStepParams V V' R) {s s' : Sim K} (h : SimRel R s s') (t : K) :
    SimRel R (dilateAndSolve F V P s t) (dilateAndSolve F V' P s' t) := by
  unfold dilateAndSolve
  apply W.solve
  obtain ⟨l, hl, rfl⟩ := h
  exact ⟨l, hl, rfl⟩

theorem RowView.dilations (W : RowView F P.toStepParams V V' R) (iters : Nat) (t tPrev dPrev : K) (s : Sim K) :
    ∀ s', SimRel R s s' →
    SimRel R (dilationLoop F V P iters t tPrev dPrev s) (dilationLoop F V' P iters t tPrev dPrev s') := by
  fun_induction dilationLoop F V P iters t tPrev dPrev s with
  | case1 iters t tPrev dPrev s d t' s1 hc =>
    intro s' h
    have e2 : SimRel R s1 (bumpMiss (dilateAndSolve F V' P s' t')) := (W.dilate h t').bump
    rw [dilationLoop.eq_def F V' P iters]
    simp only [(W.achieved h).1, (W.achieved h).2]
    rw [dif_pos]
    · exact e2
    · rw [W.converged e2]; exact hc
  | case2 iters t tPrev dPrev s d t' s1 hc ih =>
    intro s' h
    have e2 : SimRel R s1 (bumpMiss (dilateAndSolve F V' P s' t')) := (W.dilate h t').bump
    rw [dilationLoop.eq_def F V' P iters]
    simp only [(W.achieved h).1, (W.achieved h).2]
    rw [dif_neg]
    · exact ih _ e2
    · rw [W.converged e2]; exact hc

theorem RowView.timeDilation (W : RowView F P.toStepParams V V' R) {s s' : Sim K} (h : SimRel R s s') :
    SimRel R (setTimeDilation F V P s) (setTimeDilation F V' P s') := by
  unfold setTimeDilation
  rw [W.converged h]
  simp only [(W.achieved h).1, (W.achieved h).2]
  have hb := h.bump
  obtain ⟨l, hl, rfl⟩ := id h
  simp only [W.mps hl]
  split
  · exact h
  · have e := W.dilate hb (clampDilation P ((targetDist s - achievedDist s) / dtAt s.cyc0 s.i
        / (s.rows.getD s.i Row.zero).ach.mpsAch))
    rw [W.converged e]
    split
    · exact e
    · have em : ∀ {a b : Sim K}, SimRel R a b → b.missIters = a.missIters := by
        rintro a b ⟨_, _, rfl⟩; rfl
      rw [em e]
      exact W.dilations _ _ _ _ _ _ e

theorem RowView.correct (W : RowView F P.toStepParams V V' R) {s s' : Sim K} (h : SimRel R s s') :
    SimRel R (solveAndCorrect F V P s) (solveAndCorrect F V' P s') := by
  have e := W.solve h
  unfold solveAndCorrect
  simp only
  have e0 : ∀ {a b : Sim K}, SimRel R a b → b.cyc0 = a.cyc0 ∧ b.i = a.i := by
    rintro a b ⟨_, _, rfl⟩; exact ⟨rfl, rfl⟩
  rw [(e0 e).1, (e0 e).2]
  split
  · exact W.timeDilation e
  · exact e

theorem RowView.finish (W : RowView F P.toStepParams V V' R) {s s' : Sim K} (h : SimRel R s s') :
    SimRel R (finishStep F P s) (finishStep F P s') := by
  obtain ⟨l, hl, rfl⟩ := h
  refine ⟨l, ?_, ?_⟩
  · have : (finishStep F P s).rows = s.rows := by unfold finishStep; simp only; split <;> rfl
    rw [this]; exact hl
  · unfold finishStep
    simp only [W.mps hl]
    split
    · simp only [lookupGrade]
    · rfl

/-- Two driving modes that keep objects related. -/
def ModeRel (R : Row K → Row K → Prop) (f f' : Sim K → Except PyErr (Sim K)) : Prop :=
  ∀ s s', SimRel R s s' → OutRel R (f s) (f' s')

theorem RowView.driveStep (W : RowView F P.toStepParams V V' R) (hI : P.idmAllow = true → ModeRel R H.idm H'.idm)
    (hC : P.coastAllow = true → ModeRel R H.coast H'.coast) {s s' : Sim K} (h : SimRel R s s') :
    OutRel R (simDriveStep F H V P s) (simDriveStep F H' V' P s') := by
  have e1 : OutRel R (if P.idmAllow then H.idm s else .ok s) (if P.idmAllow then H'.idm s' else .ok s') := by
    split
    · rename_i hi; exact hI hi s s' h
    · exact .ok h
  unfold simDriveStep
  generalize (if P.idmAllow then H.idm s else .ok s) = x at e1
  generalize (if P.idmAllow then H'.idm s' else .ok s') = x' at e1
  cases e1 with
  | error e => exact .error e
  | @ok t t' h1 =>
    simp only
    have e2 : OutRel R (if P.coastAllow then H.coast t else .ok t) (if P.coastAllow then H'.coast t' else .ok t') := by
      split
      · rename_i hi; exact hC hi t t' h1
      · exact .ok h1
    generalize (if P.coastAllow then H.coast t else .ok t) = y at e2
    generalize (if P.coastAllow then H'.coast t' else .ok t') = y' at e2
    cases e2 with
    | error e => exact .error e
    | ok h2 => exact .ok (W.finish (W.correct h2))

theorem RowView.walkLoop (W : RowView F P.toStepParams V V' R) (hI : P.idmAllow = true → ModeRel R H.idm H'.idm)
    (hC : P.coastAllow = true → ModeRel R H.coast H'.coast) : ∀ (n : Nat) {s s' : Sim K}, SimRel R s s' →
    OutRel R (walkLoop F H V P n s) (walkLoop F H' V' P n s')
  | 0, s, s', h => by
    have e : s'.cyc = s.cyc ∧ s'.i = s.i := by obtain ⟨l, -, rfl⟩ := h; exact ⟨rfl, rfl⟩
    unfold Fastsim.walkLoop
    rw [e.1, e.2]
    split
    · exact .error _
    · exact .ok h
  | n + 1, s, s', h => by
    have e : s'.cyc = s.cyc ∧ s'.i = s.i := by obtain ⟨l, -, rfl⟩ := h; exact ⟨rfl, rfl⟩
    unfold Fastsim.walkLoop
    rw [e.1, e.2]
    split
    · have q := W.driveStep hI hC h
      generalize simDriveStep F H V P s = x at q
      generalize simDriveStep F H' V' P s' = x' at q
      cases q with
      | error e => exact .error e
      | ok h1 => exact W.walkLoop hI hC n h1
    · exact .ok h

theorem RowView.initState (W : RowView F P.toStepParams V V' R) {s s' : Sim K} (h : SimRel R s s') {soc soc' : K}
    (h0 : ∀ v a, R (Row.init V soc v a) (Row.init V' soc' v a)) (aux : Option (List K)) :
    SimRel R (Fastsim.initState V P s soc aux) (Fastsim.initState V' P s' soc' aux) := by
  obtain ⟨l, -, rfl⟩ := h
  refine ⟨_, forall₂_set (l := List.replicate s.cyc.length Row.zero) (l' := List.replicate s.cyc.length Row.zero) ?_
    (h0 _ _) 0, rfl⟩
  generalize s.cyc.length = n
  induction n with
  | zero => exact .nil
  | succ n ih => exact .cons W.zero ih

/-- The range check of the initial state of charge has the same outcome. -/
def SameCheck (V V' : Veh K) (soc soc' : K) : Prop :=
  (V.ptType ≠ .conv ∧ (V.maxSoc < soc ∨ soc < V.minSoc)) ↔ (V'.ptType ≠ .conv ∧ (V'.maxSoc < soc' ∨ soc' < V'.minSoc))

theorem RowView.walk (W : RowView F P.toStepParams V V' R) (hI : P.idmAllow = true → ModeRel R H.idm H'.idm)
    (hC : P.coastAllow = true → ModeRel R H.coast H'.coast) {s s' : Sim K} (h : SimRel R s s') {soc soc' : K}
    (h0 : ∀ v a, R (Row.init V soc v a) (Row.init V' soc' v a)) (hc : SameCheck V V' soc soc')
    (aux : Option (List K)) : OutRel R (walk F H V P s soc aux) (walk F H' V' P s' soc' aux) := by
  have q := W.initState h h0 aux
  have e : s'.cyc = s.cyc ∧ s'.cyc0 = s.cyc0 := by obtain ⟨l, -, rfl⟩ := h; exact ⟨rfl, rfl⟩
  unfold Fastsim.walk initForStep
  rw [e.1, e.2]
  by_cases hx : V.ptType ≠ .conv ∧ (V.maxSoc < soc ∨ soc < V.minSoc)
  · rw [if_pos hx, if_pos (hc.1 hx)]
    exact .error _
  · rw [if_neg hx, if_neg (fun y => hx (hc.2 y))]
    by_cases hy : s.cyc.length = 0 ∨ s.cyc0.length = 0
    · rw [if_pos hy, if_pos hy]
      exact .error _
    · rw [if_neg hy, if_neg hy]
      simp only
      have e3 : (Fastsim.initState V' P s' soc' aux).cyc = (Fastsim.initState V P s soc aux).cyc := by
        obtain ⟨l, -, x⟩ := q; rw [x]
      rw [e3]
      exact W.walkLoop hI hC _ q

/-- Car following reads only achieved speeds. -/
theorem RowView.idm (W : RowView F P.toStepParams V V' R) : ModeRel R (idmHook F P) (idmHook F P) := by
  rintro s s' ⟨l, hl, rfl⟩
  unfold idmHook
  have e : idmTargetFor P { s with rows := l } = idmTargetFor P s := rfl
  rw [e]
  cases idmTargetFor P s with
  | error er => exact .error er
  | ok v =>
    refine .ok ⟨l, hl, ?_⟩
    simp only [setSpeedForTargetGap, nextSpeedByIdm, W.mps hl]

end Lawless

section Floor
variable {K : Type*} [Field K] [LinearOrder K] [FloorRing K]
variable {F : Fns K} {V V' : Veh K} {P : SimParams K} {R : Row K → Row K → Prop}

theorem RowView.length {l l' : List (Row K)} (h : List.Forall₂ R l l') : l'.length = l.length := h.length_eq.symm

theorem RowView.dvdd (W : RowView F P.toStepParams V V' R) (v g : K) : calcDvdd F V' P v g = calcDvdd F V P v g := by
  unfold calcDvdd
  rw [W.rr, W.cd, W.area, W.kg]

theorem RowView.coastIter (W : RowView F P.toStepParams V V' R) (c0 : Cyc K) (u : Option K) (d0 d v dt : K) :
    ∀ (n : Nat) (va gr k vn : K),
    coastIter F V' P c0 u d0 d v dt n va gr k vn = coastIter F V P c0 u d0 d v dt n va gr k vn
  | 0, _, _, _, _ => rfl
  | n + 1, va, gr, k, vn => by
    unfold Fastsim.coastIter
    simp only [W.dvdd]
    exact W.coastIter c0 u d0 d v dt n _ _ _ _

theorem RowView.coastStep (W : RowView F P.toStepParams V V' R) (c0 : Cyc K) (u : Option K) (d0 d v dt : K) :
    coastStep F V' P c0 u d0 d v dt = coastStep F V P c0 u d0 d v dt := by
  unfold Fastsim.coastStep
  simp only [W.dvdd, W.coastIter]

theorem RowView.coastLoop (W : RowView F P.toStepParams V V' R) (c0 : Cyc K) (u : Option K) (len : Nat)
    (d0 dMax dts0 : K) : ∀ (m : Nat) (v d : K) (idx : Nat) (acc : List K),
    coastLoop F V' P c0 u len d0 dMax dts0 m v d idx acc = coastLoop F V P c0 u len d0 dMax dts0 m v d idx acc
  | 0, _, _, _, _ => rfl
  | m + 1, v, d, idx, acc => by
    unfold Fastsim.coastLoop
    simp only [W.coastStep]
    rw [W.coastLoop c0 u len d0 dMax dts0 m]

theorem RowView.plan (W : RowView F P.toStepParams V V' R) {s : Sim K} {l : List (Row K)}
    (h : List.Forall₂ R s.rows l) : coastPlan F V' P { s with rows := l } = coastPlan F V P s := by
  unfold coastPlan
  simp only [W.mps h, W.coastLoop, RowView.length h]

theorem RowView.generate (W : RowView F P.toStepParams V V' R) {s : Sim K} {l : List (Row K)}
    (h : List.Forall₂ R s.rows l) (md : Bool) : generateCoast F V' P { s with rows := l } md
      = (generateCoast F V P s md).map fun r => (r.1, { r.2 with rows := l }) := by
  unfold generateCoast
  rw [W.plan h]
  simp only [W.mps h]
  split
  · rfl
  split
  · rfl
  split
  · rfl
  split
  · split
    · cases modifyWithBraking s.cyc P.coastBrakeAccel s.i none <;> rfl
    · rfl
  · cases coastPlan F V P s with
    | none => rfl
    | some e =>
      simp only
      split
      · cases modifyWithBraking (writeSpeeds s.cyc s.i e.1.speeds) P.coastBrakeAccel (s.i + e.1.speeds.length)
          (some e.2) <;> rfl
      · rfl

theorem RowView.distToStop (W : RowView F P.toStepParams V V' R) {s : Sim K} {l : List (Row K)}
    (h : List.Forall₂ R s.rows l) : distToStopCoast F V' P { s with rows := l } = distToStopCoast F V P s := by
  unfold distToStopCoast
  rw [W.generate h]
  simp only [W.rr, W.cd, W.area, W.kg]
  cases generateCoast F V P s false <;> rfl

theorem RowView.shouldImpose (W : RowView F P.toStepParams V V' R) {s : Sim K} {l : List (Row K)}
    (h : List.Forall₂ R s.rows l) : shouldImposeCoast F V' P { s with rows := l } = shouldImposeCoast F V P s := by
  unfold shouldImposeCoast
  rw [W.distToStop h]
  simp only [W.mps h]

theorem collisionSearch_rows (s : Sim K) {l : List (Row K)} (h : l.length = s.rows.length) (col : PassingInfo K) :
    ∀ m fbs : Nat, collisionSearch P { s with rows := l } col m fbs = collisionSearch P s col m fbs
  | 0, _ => rfl
  | m + 1, fbs => by
    unfold collisionSearch
    rw [collisionSearch_rows s h col m]
    simp only [h]

theorem fullBrakeLoop_rows (ab : K) (idx : Nat) (l : List (Row K)) : ∀ (m fbs : Nat) (s : Sim K),
    fullBrakeLoop ab idx m fbs { s with rows := l } = { fullBrakeLoop ab idx m fbs s with rows := l }
  | 0, _, _ => rfl
  | m + 1, fbs, s => by
    unfold fullBrakeLoop
    simp only
    rw [← fullBrakeLoop_rows ab idx l m (fbs + 1)]

theorem preventCollisions_rows (s : Sim K) {l : List (Row K)} (h : l.length = s.rows.length) :
    ∀ (fuel : Nat) (tol : K), preventCollisions P { s with rows := l } fuel tol
      = (preventCollisions P s fuel tol).map fun r => (r.1, { r.2 with rows := l })
  | 0, _ => rfl
  | fuel + 1, tol => by
    unfold preventCollisions
    simp only [collisionSearch_rows s h]
    split
    · rfl
    split
    · rfl
    cases collisionSearch P s (detectPassing s.cyc s.cyc0 s.i tol) 4 0 with
    | some b =>
      simp only [Except.map, applyRendezvous, fullBrakeLoop_rows]
    | none =>
      simp only
      rw [preventCollisions_rows s h fuel]
      by_cases h60 : 60 < (if tol < 10 then (10 : K) else tol + 5)
      · rw [if_pos h60, if_pos h60]; rfl
      · rw [if_neg h60, if_neg h60]

theorem CoastEdit.rowsLength {s s' : Sim K} (h : CoastEdit F V P s s') : s'.rows.length = s.rows.length :=
  h.local.1.lenRows

theorem generateCoast_rows {s : Sim K} {md : Bool} {r : K × Sim K} (h : generateCoast F V P s md = .ok r) :
    r.2.rows = s.rows := by
  unfold generateCoast at h
  simp only at h
  split at h
  · cases h
  split at h
  · cases h; rfl
  split at h
  · cases h
  split at h
  · split at h
    · split at h
      · cases h
      · cases h; rfl
    · cases h; rfl
  · split at h
    · cases h; rfl
    · split at h
      · split at h
        · cases h
        · cases h; rfl
      · cases h; rfl

theorem fullBrakeLoop_keepRows (ab : K) (idx : Nat) : ∀ (m fbs : Nat) (s : Sim K),
    (fullBrakeLoop ab idx m fbs s).rows = s.rows
  | 0, _, _ => rfl
  | m + 1, fbs, s => by
    unfold fullBrakeLoop
    simp only
    rw [fullBrakeLoop_keepRows ab idx m]

theorem preventCollisions_keepRows {s : Sim K} {fuel : Nat} {tol : K} {r : Bool × Sim K}
    (h : preventCollisions P s fuel tol = .ok r) : r.2.rows = s.rows := by
  rcases preventCollisions_cases _ _ _ h with rfl | ⟨tol', b, -, -, -, rfl⟩
  · rfl
  · simp only [applyRendezvous, fullBrakeLoop_keepRows]

theorem RowView.start (W : RowView F P.toStepParams V V' R) {s s' : Sim K} (h : SimRel R s s') :
    OutRel R (startCoast F V P s) (startCoast F V' P s') := by
  have h' := h
  obtain ⟨l, hl, rfl⟩ := h
  unfold startCoast
  rw [W.shouldImpose hl, W.generate hl]
  simp only [W.mps hl]
  split
  · cases shouldImposeCoast F V P s with
    | error e => exact .error e
    | ok b =>
      cases b with
      | false => exact .ok h'
      | true =>
        simp only
        cases x : generateCoast F V P s true with
        | error e => exact .error e
        | ok r =>
          have hr := generateCoast_rows x
          simp only [Except.map]
          have e : ∀ t : Sim K, t.rows = s.rows → OutRel R
              (if P.coastAllowPassing = true then .ok t
                else match preventCollisions P t 12 1 with
                  | .error e => .error e | .ok r => .ok r.2)
              (if P.coastAllowPassing = true then .ok { t with rows := l }
                else match preventCollisions P { t with rows := l } 12 1 with
                  | .error e => .error e | .ok r => .ok r.2) := by
            intro t ht
            split
            · exact .ok ⟨l, by rw [ht]; exact hl, rfl⟩
            · rw [preventCollisions_rows t (l := l) (by rw [ht]; exact RowView.length hl)]
              cases y : preventCollisions P t 12 1 with
              | error e => exact .error e
              | ok r => exact .ok ⟨l, by rw [preventCollisions_keepRows y, ht]; exact hl, rfl⟩
          by_cases hd : r.1 < 0
          · simp only [hd, if_true]
            exact e { r.2 with impose := setFrom r.2.impose r.2.i false } hr
          · simp only [hd, if_false]
            exact e r.2 hr
  · exact .ok h'

theorem nextRendezvous_rows (s : Sim K) (l : List (Row K)) (a b : K) :
    nextRendezvous P { s with rows := l } a b = nextRendezvous P s a b := rfl

theorem replanCoast_rows (s : Sim K) (l : List (Row K)) (a : K) :
    replanCoast P { s with rows := l } a = (replanCoast P s a).map fun r => (r.1, { r.2 with rows := l }) := by
  unfold replanCoast
  simp only [nextRendezvous_rows]
  split
  · cases modifyWithBraking s.cyc P.coastBrakeAccel s.i none <;> rfl
  split
  · rfl
  cases nextRendezvous P s P.coastBrakeAccel (min a 0) with
  | none => rfl
  | some b =>
    simp only
    split
    · cases modifyWithBraking (modifyByConstJerk s.cyc s.i b.n b.jerk b.accel).2 P.coastBrakeAccel (s.i + b.n)
        none <;> rfl
    · rfl

theorem replanCoast_keepRows {s : Sim K} {a : K} {r : Bool × Sim K} (h : replanCoast P s a = .ok r) :
    r.2.rows = s.rows := by
  unfold replanCoast at h
  simp only at h
  split at h
  · split at h
    · cases h
    · cases h; rfl
  split at h
  · cases h
  split at h
  · cases h; rfl
  · split at h
    · split at h
      · cases h
      · cases h; rfl
    · cases h; rfl

theorem RowView.coastSolve (W : RowView F P.toStepParams V V' R) {s s' : Sim K} (h : SimRel R s s') :
    SimRel R (coastSolve F V P s) (coastSolve F V' P s') := by
  obtain ⟨l, hl, e⟩ := W.solve h
  unfold Fastsim.coastSolve
  rw [e]
  refine ⟨_, forall₂_modify hl (fun a => W.reset a) _, ?_⟩
  simp only [W.mps hl]

/-- Coasting reads only achieved speeds and solves. -/
theorem RowView.coast (W : RowView F P.toStepParams V V' R) : ModeRel R (coastHook F V P) (coastHook F V' P) := by
  intro s s' h
  unfold coastHook
  have q := W.start h
  generalize startCoast F V P s = x at q
  generalize startCoast F V' P s' = x' at q
  cases q with
  | error e => exact .error e
  | @ok s1 s1' h1 =>
    simp only
    obtain ⟨l, hl, rfl⟩ := id h1
    simp only [W.mps hl]
    split
    · split
      · exact .ok h1
      · exact .ok ⟨l, hl, rfl⟩
    · generalize hs2 : (if P.coastBrakeStartSpeed < (s1.rows.getD (s1.i - 1) Row.zero).ach.mpsAch then
          { s1 with cyc := setSpeed s1.cyc s1.i (if P.coastAllowPassing = true then P.coastMaxSpeed else
            min (s1.cyc.speeds.getD s1.i 0) P.coastMaxSpeed) } else s1) = s2
      generalize hs2' : (if P.coastBrakeStartSpeed < (s1.rows.getD (s1.i - 1) Row.zero).ach.mpsAch then
          ({ cyc0 := s1.cyc0
             cyc := setSpeed s1.cyc s1.i (if P.coastAllowPassing = true then P.coastMaxSpeed else
               min (s1.cyc.speeds.getD s1.i 0) P.coastMaxSpeed)
             rows := l, aux := s1.aux, impose := s1.impose, coastDelay := s1.coastDelay
             idmTarget := s1.idmTarget, missIters := s1.missIters, i := s1.i
             hevCount := s1.hevCount } : Sim K) else { s1 with rows := l }) = s2'
      have h2 : SimRel R s2 s2' := by
        rw [← hs2, ← hs2']
        split
        · exact ⟨l, hl, rfl⟩
        · exact ⟨l, hl, rfl⟩
      have h3 := W.coastSolve h2
      generalize Fastsim.coastSolve F V P s2 = s3 at h3
      generalize Fastsim.coastSolve F V' P s2' = s3' at h3
      obtain ⟨l3, hl3, rfl⟩ := id h3
      simp only
      split
      · refine .ok ⟨l3, ?_, ?_⟩
        · have : ∀ t : Sim K, (setCoastDelay P t).rows = t.rows := by
            intro t
            unfold setCoastDelay
            simp only
            split
            · rfl
            · split <;> rfl
          simp only [this]
          exact hl3
        · have : ∀ t : Sim K, setCoastDelay P { t with rows := l3 } = { setCoastDelay P t with rows := l3 } := by
            intro t
            unfold setCoastDelay
            simp only
            split
            · rfl
            · split <;> rfl
          have e := this { s3 with impose := setFrom s3.impose s3.i false }
          simp only at e
          simp only [e]
      · split
        · rw [replanCoast_rows s3 l3]
          cases y : replanCoast P s3 ((s3.cyc.speeds.getD s3.i 0 - s3.cyc.speeds.getD (s3.i - 1) 0) / dtAt s3.cyc s3.i) with
          | error e => exact .error e
          | ok r =>
            obtain ⟨b, s4⟩ := r
            have hr : s4.rows = s3.rows := replanCoast_keepRows y
            cases b with
            | false => exact .ok ⟨l3, by rw [hr]; exact hl3, rfl⟩
            | true =>
              simp only [Except.map]
              split
              · exact .ok (W.coastSolve ⟨l3, by rw [hr]; exact hl3, rfl⟩)
              · rw [preventCollisions_rows s4 (l := l3) (by rw [hr]; exact RowView.length hl3)]
                cases z : preventCollisions P s4 12 1 with
                | error e => exact .error e
                | ok r =>
                  exact .ok (W.coastSolve ⟨l3, by rw [preventCollisions_keepRows z, hr]; exact hl3, rfl⟩)
        · exact .ok h3

end Floor
end Fastsim
