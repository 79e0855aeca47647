import Verif.Lemmas.Basic
import Verif.Lemmas.Newton
import Verif.Spec.Cycle

/-!
# Achieved speeds are never negative, in every driving mode
-/

set_option linter.unusedSectionVars false

namespace Fastsim
open Spec

section Lawless
variable {K : Type*} [Zero K] [One K] [NatCast K] [Add K] [Sub K] [Mul K] [Div K] [Neg K]
  [LinearOrder K]
variable {F : Fns K} {H : Hooks K} {V : Veh K} {P : SimParams K}

/-- Speeds of the cycle and achieved speeds are non-negative. -/
structure Forward (s : Sim K) : Prop where
  cyc0 : ∀ v ∈ Cyc.speeds s.cyc0, 0 ≤ v
  cyc : ∀ v ∈ Cyc.speeds s.cyc, 0 ≤ v
  rows : ∀ r ∈ s.rows, 0 ≤ r.ach.mpsAch

/-- A hook never commands driving backwards. -/
def HookForward (h : Sim K → Except PyErr (Sim K)) : Prop :=
  ∀ s s', Forward s → h s = .ok s' → Forward s'

/-- Both hooks never command driving backwards. -/
structure Hooks.Forward (H : Hooks K) : Prop where
  idm : HookForward H.idm
  coast : HookForward H.coast

theorem solveStep_mps_nonneg (F : Fns K) (V : Veh K) (P : StepParams K) (E : StepEnv K) (p : Row K)
    (st : Stale K) (h : 0 ≤ E.mps) : 0 ≤ (solveStep F V P E p st).ach.mpsAch := by
  by_cases hc : (setPowerCalcs F V P E p (setCompLims F V P E p (setMisc V E p)) st).cycMet = true
  · simp only [solveStep, setAchSpeed, if_pos hc]; exact h
  · simp only [solveStep, setAchSpeed, if_neg hc]; exact gradeLoop_nonneg _ _ _ _ _ _ _ _

theorem getD_nonneg {l : List K} (h : ∀ v ∈ l, 0 ≤ v) (i : Nat) : 0 ≤ l.getD i 0 := by
  rw [List.getD_eq_getElem?_getD]
  cases hi : l[i]? with
  | none => simp
  | some x => exact h x (List.mem_of_getElem? hi)

theorem row_getD_nonneg {l : List (Row K)} (h : ∀ r ∈ l, 0 ≤ r.ach.mpsAch) (i : Nat) :
    0 ≤ (l.getD i Row.zero).ach.mpsAch := by
  rw [List.getD_eq_getElem?_getD]
  cases hi : l[i]? with
  | none => exact le_rfl
  | some x => exact h x (List.mem_of_getElem? hi)

theorem Forward.solve {s : Sim K} (h : Forward s) : Forward (Sim.solve F V P s) := by
  refine ⟨h.cyc0, h.cyc, ?_⟩
  intro r hr
  simp only [Sim.solve] at hr
  rcases List.mem_or_eq_of_mem_set hr with hr | rfl
  · exact h.rows r hr
  · exact solveStep_mps_nonneg _ _ _ _ _ _ (getD_nonneg h.cyc _)

theorem Forward.shift {s : Sim K} (h : Forward s) (i : Nat) (x : K) :
    Forward { s with cyc := shiftTimesFrom s.cyc i x } :=
  ⟨h.cyc0, by simp only [speeds_shiftTimesFrom]; exact h.cyc, h.rows⟩

theorem Forward.corrects {s s' : Sim K} (hf : Forward s) (h : Corrects F V P s s') : Forward s' := by
  induction h with
  | solve => exact hf.solve
  | again x h ih => exact (ih.shift _ x).solve
  | bump h ih => exact ⟨ih.cyc0, ih.cyc, ih.rows⟩

theorem speeds_modify_grade (c : Cyc K) (i : Nat) (g : K) :
    Cyc.speeds (c.modify i fun x => { x with g := g }) = Cyc.speeds c := by
  unfold Cyc.speeds
  apply List.ext_getElem?
  intro j
  simp only [List.getElem?_map, List.getElem?_modify]
  cases c[j]? with
  | none => rfl
  | some a => simp only [Option.map_some]; split <;> rfl

theorem mem_speeds_setSpeed {c : Cyc K} {i : Nat} {v w : K} (h : w ∈ Cyc.speeds (setSpeed c i v)) :
    w ∈ Cyc.speeds c ∨ w = v := by
  unfold Cyc.speeds setSpeed at h
  obtain ⟨j, hj⟩ := List.getElem?_of_mem h
  simp only [List.getElem?_map, List.getElem?_modify] at hj
  cases hc : c[j]? with
  | none => simp [hc] at hj
  | some a =>
    rw [hc] at hj
    split at hj
    · simp at hj; exact Or.inr hj.symm
    · simp at hj; exact Or.inl (List.mem_map.2 ⟨a, List.mem_of_getElem? hc, hj⟩)

theorem Forward.finish {s : Sim K} (h : Forward s) : Forward (finishStep F P s) := by
  unfold finishStep
  simp only
  split
  · refine ⟨h.cyc0, ?_, h.rows⟩
    simp only [speeds_modify_grade]
    intro v hv
    rcases mem_speeds_setSpeed hv with hv | rfl
    · exact h.cyc v hv
    · exact row_getD_nonneg h.rows _
  · exact ⟨h.cyc0, h.cyc, h.rows⟩

theorem Forward.step {s s' : Sim K} (hH : P.idmAllow = true → HookForward H.idm)
    (hH' : P.coastAllow = true → HookForward H.coast) (hf : Forward s)
    (h : simDriveStep F H V P s = .ok s') : Forward s' := by
  unfold simDriveStep at h
  split at h
  · simp at h
  · rename_i s1 h1
    have hf1 : Forward s1 := by
      split at h1
      · rename_i hi; exact hH hi _ _ hf h1
      · cases h1; exact hf
    split at h
    · simp at h
    · rename_i s2 h2
      have hf2 : Forward s2 := by
        split at h2
        · rename_i hi; exact hH' hi _ _ hf1 h2
        · cases h2; exact hf1
      cases h
      exact (hf2.corrects (solveAndCorrect_corrects s2)).finish

theorem Forward.init {s : Sim K} {soc : K} {aux : Option (List K)}
    (h0 : ∀ v ∈ Cyc.speeds s.cyc0, 0 ≤ v) (h1 : ∀ v ∈ Cyc.speeds (initState V P s soc aux).cyc, 0 ≤ v) :
    Forward (initState V P s soc aux) := by
  refine ⟨h0, h1, ?_⟩
  intro r hr
  simp only [initState] at hr
  rcases List.mem_or_eq_of_mem_set hr with hr | rfl
  · simp only [initArrays] at hr
    rw [List.eq_of_mem_replicate hr]; exact le_rfl
  · exact getD_nonneg h0 _

/-- In every reachable state achieved speeds are non-negative, if the original cycle never goes
backwards, the hooks never command it and, when no mode resets the cycle, the cycle does not. -/
theorem Spec.Reachable.forward (hH : P.idmAllow = true → HookForward H.idm)
    (hH' : P.coastAllow = true → HookForward H.coast) {s : Sim K} (h : Reachable F H V P s)
    (h0 : ∀ v ∈ Cyc.speeds s.cyc0, 0 ≤ v)
    (h1 : P.idmAllow = false → P.coastAllow = false → ∀ v ∈ Cyc.speeds s.cyc, 0 ≤ v)
    (hl : P.idmAllow = true ∨ P.coastAllow = true → H.Local) : Forward s := by
  induction h with
  | @init s s' soc aux hlen h =>
    have q := initForStep_spec hlen h
    rw [q.eq]
    refine Forward.init (by rw [← q.cyc0]; exact h0) ?_
    rw [← q.eq]
    rcases hi : P.idmAllow with _ | _ <;> rcases hc : P.coastAllow with _ | _
    · exact h1 hi hc
    all_goals
      rw [q.eq]
      simp only [initState, hi, hc, Bool.or_true, Bool.true_or, if_true]
      rw [← q.cyc0]; exact h0
  | @step s s' hs hlt h ih =>
    refine Forward.step hH hH' (ih ?_ ?_) h
    · rcases hi : P.idmAllow with _ | _ <;> rcases hc : P.coastAllow with _ | _
      · rw [simDriveStep_eq hc hi] at h
        cases h
        have := (solveAndCorrect_corrects (F := F) (V := V) (P := P) s).cyc0
        simp only [this] at h0
        exact h0
      all_goals
        have hL := hl (by simp [hi, hc])
        have := (simDriveStep_inv hL (Reachable.inv hL hs).1 hlt h).2.2.cyc0
        rw [← this]; exact h0
    · intro hi hc
      have hs1 := h1 hi hc
      rw [simDriveStep_eq hc hi] at h
      cases h
      simp only [(solveAndCorrect_corrects (F := F) (V := V) (P := P) s).speeds] at hs1
      exact hs1

end Lawless
end Fastsim
