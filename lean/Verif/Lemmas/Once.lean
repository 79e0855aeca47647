import Verif.Lemmas.Basic

/-!
# Runs without missed-trace correction

The last solve of every step then starts with a cleared Newton iteration counter, in all driving modes.
-/

set_option linter.unusedSectionVars false

namespace Fastsim
open Spec

section Lawless
variable {K : Type*} [Zero K] [One K] [NatCast K] [Add K] [Sub K] [Mul K] [Div K] [Neg K]
  [LinearOrder K]
variable {F : Fns K} {H : Hooks K} {V : Veh K} {P : SimParams K}

/-- The driving mode does not touch the results of other steps, and leaves the Newton iteration counter of
the current step cleared. -/
def HookFresh (f : Sim K → Except PyErr (Sim K)) : Prop :=
  ∀ s s', f s = .ok s' → (∀ j, j ≠ s.i → s'.rows[j]? = s.rows[j]?) ∧
    ((s.rows.getD s.i Row.zero).ach.newtonIters = 0 → (s'.rows.getD s.i Row.zero).ach.newtonIters = 0)

/-- Car following and coasting do not touch the results of other steps and leave no iterations. -/
structure Hooks.KeepRows (H : Hooks K) : Prop where
  idm : HookFresh H.idm
  coast : HookFresh H.coast

theorem HookFresh.of_eq {f : Sim K → Except PyErr (Sim K)} (h : ∀ s s', f s = .ok s' → s'.rows = s.rows) :
    HookFresh f := fun s s' e => by rw [h s s' e]; exact ⟨fun _ _ => rfl, id⟩

/-- Row `i` of `s` is the outcome of a solve with a cleared iteration counter. -/
def SolvedOnce (F : Fns K) (V : Veh K) (P : SimParams K) (s : Sim K) (i : Nat) : Prop :=
  ∃ E : StepEnv K, ∃ st : Stale K, st.newtonIters = 0 ∧ E.dt = dtAt s.cyc i ∧ E.roadKw = 0 ∧ s.aux[i]? = some E.auxIn ∧
    s.rows[i]? = some (solveStep F V P.toStepParams E (s.rows.getD (i - 1) Row.zero) st)

theorem solve_solvedOnce (s : Sim K) (h1 : 1 ≤ s.i) (hr : s.i < s.rows.length)
    (ha : s.i < s.aux.length) (hz : (s.rows.getD s.i Row.zero).ach.newtonIters = 0) :
    SolvedOnce F V P (Sim.solve F V P s) s.i := by
  refine ⟨stepEnv F V P s, (s.rows.getD s.i Row.zero).stale, hz, rfl, rfl, ?_, ?_⟩
  · simp only [Sim.solve, stepEnv]
    rw [List.getD_eq_getElem?_getD, List.getElem?_eq_getElem (by rw [auxStep_length]; exact ha)]
    rfl
  · simp only [Sim.solve]
    rw [List.getElem?_set_self hr, List.getD_eq_getElem?_getD (i := s.i - 1),
      List.getD_eq_getElem?_getD (i := s.i - 1), List.getElem?_set_ne (by omega)]

theorem SolvedOnce.agree {k i : Nat} {s s' : Sim K} (h : SolvedOnce F V P s i)
    (ha : AgreeBefore k s s') (hi : i < k) : SolvedOnce F V P s' i := by
  obtain ⟨E, st, h0, h1, h2, h3, h4⟩ := h
  refine ⟨E, st, h0, ?_, h2, ?_, ?_⟩
  · rw [h1]
    unfold dtAt
    split
    · rfl
    · rw [List.getD_eq_getElem?_getD, List.getD_eq_getElem?_getD, List.getD_eq_getElem?_getD,
        List.getD_eq_getElem?_getD, ha.times i hi, ha.times (i - 1) (by omega)]
  · rw [ha.aux i hi, h3]
  · rw [ha.rows i hi, h4, List.getD_eq_getElem?_getD, List.getD_eq_getElem?_getD,
      ha.rows (i - 1) (by omega)]

theorem finishStep_rows (F : Fns K) (P : SimParams K) (s : Sim K) : (finishStep F P s).rows = s.rows := by
  unfold finishStep; simp only; split <;> rfl

/-- The last solve of every simulated step of a run without missed-trace correction started with a
cleared iteration counter, and the arrays beyond the current step are untouched. -/
theorem Spec.Reachable.once (hH : H.Local) (hK : H.KeepRows) (hm : P.missedTrace = false) {s : Sim K}
    (h : Reachable F H V P s) :
    (∀ j, s.i ≤ j → j < s.cyc.length → s.rows[j]? = some Row.zero) ∧
      ∀ j, 1 ≤ j → j < s.i → SolvedOnce F V P s j := by
  induction h with
  | init hlen h =>
    have q := initForStep_spec hlen h
    have hi := q.i
    exact ⟨fun j h1 h2 => q.rowsZero j (by omega) (by rw [← q.lenCyc]; exact h2), fun j h1 h2 => by omega⟩
  | step hs hlt h ih =>
    rename_i s s'
    obtain ⟨hI, -⟩ := Reachable.inv hH hs
    obtain ⟨hI', hi', ha⟩ := simDriveStep_inv hH hI hlt h
    obtain ⟨ihz, ihs⟩ := ih
    have h' := h
    unfold simDriveStep at h
    split at h
    · simp at h
    rename_i s1 h1
    have hz0 : (s.rows.getD s.i Row.zero).ach.newtonIters = 0 := by
      rw [List.getD_eq_getElem?_getD, ihz s.i le_rfl hlt]; rfl
    have e1 : AgreeBefore s.i s s1 ∧ s1.i = s.i ∧ (∀ j, j ≠ s.i → s1.rows[j]? = s.rows[j]?) ∧
        (s1.rows.getD s.i Row.zero).ach.newtonIters = 0 := by
      split at h1
      · exact ⟨(hH.idm _ _ h1).1, (hH.idm _ _ h1).2.1, (hK.idm _ _ h1).1, (hK.idm _ _ h1).2 hz0⟩
      · cases h1; exact ⟨AgreeBefore.refl _ _, rfl, fun _ _ => rfl, hz0⟩
    split at h
    · simp at h
    rename_i s2 h2
    have e2 : AgreeBefore s1.i s1 s2 ∧ s2.i = s1.i ∧ (∀ j, j ≠ s1.i → s2.rows[j]? = s1.rows[j]?) ∧
        (s2.rows.getD s1.i Row.zero).ach.newtonIters = 0 := by
      have hz1 : (s1.rows.getD s1.i Row.zero).ach.newtonIters = 0 := by rw [e1.2.1]; exact e1.2.2.2
      split at h2
      · exact ⟨(hH.coast _ _ h2).1, (hH.coast _ _ h2).2.1, (hK.coast _ _ h2).1, (hK.coast _ _ h2).2 hz1⟩
      · cases h2; exact ⟨AgreeBefore.refl _ _, rfl, fun _ _ => rfl, hz1⟩
    have a2 : AgreeBefore s.i s s2 := e1.1.trans (by rw [← e1.2.1]; exact e2.1)
    have hi2 : s2.i = s.i := e2.2.1.trans e1.2.1
    have hr2 : ∀ j, j ≠ s.i → s2.rows[j]? = s.rows[j]? := fun j hj =>
      (e2.2.2.1 j (by rw [e1.2.1]; exact hj)).trans (e1.2.2.1 j hj)
    rw [solveAndCorrect_off hm] at h
    simp only [Except.ok.injEq] at h
    have hrows : s'.rows = (Sim.solve F V P s2).rows := by rw [← h, finishStep_rows]
    have hlr := hI.lenRows
    have hla := hI.lenAux
    refine ⟨fun j h1 h2 => ?_, fun j h1 h2 => ?_⟩
    · rw [hrows]
      simp only [Sim.solve]
      rw [List.getElem?_set_ne (by omega), hr2 j (by omega)]
      exact ihz j (by omega) (by rw [← ha.lenCyc]; exact h2)
    · rcases Nat.lt_or_ge j s.i with hj | hj
      · exact (ihs j h1 hj).agree ha hj
      · have hj' : j = s.i := by omega
        subst hj'
        have hsol := solve_solvedOnce (F := F) (V := V) (P := P) s2 (by omega)
          (by rw [hi2, a2.lenRows]; omega) (by rw [hi2, a2.lenAux]; omega)
          (by rw [hi2, ← e1.2.1]; exact e2.2.2.2)
        rw [hi2] at hsol
        have hfin := finishStep_agree F P (s.i + 1) (Sim.solve F V P s2)
        rw [h] at hfin
        exact hsol.agree hfin (by omega)

/-- The power figures of a step solved on fresh arrays are those of the achieved speed. -/
theorem solveStep_pow_fresh (P : StepParams K) (E : StepEnv K) (p : Row K) (st : Stale K)
    (h0 : st.newtonIters = 0) :
    (solveStep F V P E p st).pow =
      powerAt F V P E p (setCompLims F V P E p (setMisc V E p)) (solveStep F V P E p st).ach.mpsAch := by
  by_cases hc : (setPowerCalcs F V P E p (setCompLims F V P E p (setMisc V E p)) st).cycMet = true
  · simp only [solveStep, setAchSpeed, if_pos hc]
    rw [setPowerCalcs, if_neg (by omega)]
  · simp only [solveStep, setAchSpeed, if_neg hc]

end Lawless
end Fastsim
