import Verif.Lemmas.Run

/-!
# Reachable simulation states

`Reachable F H V P s`: the object `s` was reached by `init_for_step` on some object (whose two
cycles are equally long) followed by any number of `sim_drive_step`s, in any driving mode. This
covers `sim_drive`, `sim_drive_walk` (complete or interrupted) and the step-by-step interface.
-/

set_option linter.unusedSectionVars false

namespace Fastsim
namespace Spec

section Lawless
variable {K : Type*} [Zero K] [One K] [NatCast K] [Add K] [Sub K] [Mul K] [Div K] [Neg K]
  [LinearOrder K]

/-- States of a `SimDrive` object that can be observed between two steps. -/
inductive Reachable (F : Fns K) (H : Hooks K) (V : Veh K) (P : SimParams K) : Sim K → Prop
  | init {s s' : Sim K} {soc : K} {aux : Option (List K)} (hlen : s.cyc.length = s.cyc0.length)
      (h : initForStep V P s soc aux = .ok s') : Reachable F H V P s'
  | step {s s' : Sim K} (hs : Reachable F H V P s) (hlt : s.i < s.cyc.length)
      (h : simDriveStep F H V P s = .ok s') : Reachable F H V P s'

/-- A run that simulated the whole cycle. -/
structure Finished (F : Fns K) (H : Hooks K) (V : Veh K) (P : SimParams K) (s : Sim K) : Prop where
  reachable : Reachable F H V P s
  atEnd : s.i = s.cyc.length

/-- Index `i` of the object has been simulated: `p` is the row before, `r` the row at `i`, `dt`
the duration of the step, `a` the accessory load recorded for it. -/
structure StepAt (s : Sim K) (i : Nat) (p r : Row K) (dt a : K) : Prop where
  pos : 1 ≤ i
  lt : i < s.i
  prev : s.rows[i - 1]? = some p
  row : s.rows[i]? = some r
  dt : dt = dtAt s.cyc i
  aux : s.aux[i]? = some a

end Lawless
end Spec

open Spec

section Lawless
variable {K : Type*} [Zero K] [One K] [NatCast K] [Add K] [Sub K] [Mul K] [Div K] [Neg K]
  [LinearOrder K]
variable {F : Fns K} {H : Hooks K} {V : Veh K} {P : SimParams K}

theorem Spec.Reachable.inv (hH : H.Local) {s : Sim K} (h : Reachable F H V P s) :
    WalkInv F V P s ∧ 0 < s.cyc.length ∧
      ∃ soc, (V.ptType = .conv ∨ (V.minSoc ≤ soc ∧ soc ≤ V.maxSoc)) ∧
        s.rows[0]? = some (Row.init V soc (s.cyc0.speeds.getD 0 0) (s.aux.getD 0 0)) := by
  induction h with
  | init hlen h =>
    have q := initForStep_spec hlen h
    have hi := q.i
    have hp := q.pos
    refine ⟨⟨by omega, by rw [q.lenCyc]; omega, by rw [q.lenRows, q.lenCyc],
      by rw [q.lenAux, q.lenCyc], fun j a b => by omega⟩, by rw [q.lenCyc]; exact hp, _, q.socOk, ?_⟩
    rw [q.cyc0]; exact q.row0
  | step hs hlt h ih =>
    obtain ⟨hI, hpos, soc, hsoc, h0⟩ := ih
    obtain ⟨hI', hi', ha⟩ := simDriveStep_inv hH hI hlt h
    have := hI.pos
    refine ⟨hI', by rw [ha.lenCyc]; exact hpos, soc, hsoc, ?_⟩
    rw [ha.rows 0 (by omega), h0, ha.cyc0, List.getD_eq_getElem?_getD (l := Sim.aux _),
      List.getD_eq_getElem?_getD (l := Sim.aux _), ha.aux 0 (by omega)]

/-- Every simulated index is the outcome of one solve from the row before. -/
theorem Spec.StepAt.solve (hH : H.Local) {s : Sim K} (h : Reachable F H V P s) {i : Nat} {p r : Row K}
    {dt a : K} (hs : StepAt s i p r dt a) :
    ∃ E st, E.dt = dt ∧ E.roadKw = 0 ∧ E.auxIn = a ∧
      r = solveStep F V P.toStepParams E p st := by
  obtain ⟨hI, -, -⟩ := Reachable.inv hH h
  obtain ⟨E, st, h1, h2, h3, h4⟩ := hI.solved i hs.pos hs.lt
  refine ⟨E, st, by rw [h1, hs.dt], h2, ?_, ?_⟩
  · rw [hs.aux] at h3; exact (Option.some.inj h3).symm
  · rw [List.getD_eq_getElem?_getD, hs.prev, hs.row] at h4
    exact Option.some.inj h4

/-- Indices before the step counter have been simulated. -/
theorem stepAt_exists (hH : H.Local) {s : Sim K} (h : Reachable F H V P s) {i : Nat}
    (h1 : 1 ≤ i) (h2 : i < s.i) : ∃ p r dt a, StepAt s i p r dt a := by
  obtain ⟨hI, -, -⟩ := Reachable.inv hH h
  have hle := hI.le
  have hr := hI.lenRows
  have ha := hI.lenAux
  refine ⟨s.rows[i - 1]'(by omega), s.rows[i]'(by omega), _, s.aux[i]'(by omega), h1, h2, ?_, ?_,
    rfl, ?_⟩
  all_goals rw [List.getElem?_eq_getElem]

/-- An invariant of rows that holds at the start and is kept by every solve (of a step with the
duration recorded for it) holds for every simulated row. -/
theorem Spec.Reachable.row_inv (hH : H.Local) {s : Sim K} (h : Reachable F H V P s) (Q : Row K → Prop)
    (h0 : ∀ soc mps aux, (V.ptType = .conv ∨ (V.minSoc ≤ soc ∧ soc ≤ V.maxSoc)) →
      s.cyc0.speeds.getD 0 0 = mps → Q (Row.init V soc mps aux))
    (hstep : ∀ i E st p, 1 ≤ i → i < s.i → E.dt = dtAt s.cyc i → E.roadKw = 0 →
      s.aux[i]? = some E.auxIn → Q p → Q (solveStep F V P.toStepParams E p st)) :
    ∀ i r, i < s.i → s.rows[i]? = some r → Q r := by
  obtain ⟨hI, -, soc, hsoc, hrow⟩ := Reachable.inv hH h
  intro i
  induction i with
  | zero =>
    intro r _ hr
    rw [hrow] at hr
    rw [← Option.some.inj hr]
    exact h0 soc _ _ hsoc rfl
  | succ i ih =>
    intro r hlt hr
    obtain ⟨E, st, h1, h2, h3, h4⟩ := hI.solved (i + 1) (by omega) hlt
    have hle := hI.le
    have hl := hI.lenRows
    have hp : s.rows[i]? = some (s.rows[i]'(by omega)) := List.getElem?_eq_getElem _
    rw [List.getD_eq_getElem?_getD, Nat.add_sub_cancel, hp] at h4
    rw [h4] at hr
    rw [← Option.some.inj hr]
    exact hstep (i + 1) E st _ (by omega) hlt h1 h2 h3 (ih _ (by omega) hp)

theorem Spec.Reachable.walkLoop {s s' : Sim K} (hH : H.Local) (n : Nat) (hs : Reachable F H V P s)
    (h : walkLoop F H V P n s = .ok s') : Reachable F H V P s' := by
  induction n generalizing s with
  | zero =>
    unfold Fastsim.walkLoop at h
    split at h
    · simp at h
    · cases h; exact hs
  | succ n ih =>
    unfold Fastsim.walkLoop at h
    split at h
    · rename_i hlt
      split at h
      · simp at h
      · rename_i s1 h1
        exact ih (.step hs hlt h1) h
    · cases h; exact hs

theorem Spec.Reachable.walk {s s' : Sim K} {soc : K} {aux : Option (List K)} (hH : H.Local)
    (hlen : s.cyc.length = s.cyc0.length) (h : walk F H V P s soc aux = .ok s') :
    Reachable F H V P s' := by
  unfold Fastsim.walk at h
  split at h
  · simp at h
  · rename_i s1 h1
    exact Reachable.walkLoop hH _ (.init hlen h1) h

/-- `sim_drive` only produces reachable states. -/
theorem Spec.Reachable.simDrive {s s' : Sim K} {init : Option K} {aux : Option (List K)} (hH : H.Local)
    (hlen : s.cyc.length = s.cyc0.length) (h : simDrive F H V P s init aux = .ok s') :
    Reachable F H V P s' := by
  unfold Fastsim.simDrive at h
  simp only at h
  cases init with
  | some soc => exact Reachable.walk hH (s := { s with hevCount := 0 }) hlen h
  | none =>
    simp only at h
    cases hv : V.ptType with
    | conv => rw [hv] at h; exact Reachable.walk hH (s := { s with hevCount := 0 }) hlen h
    | phev => rw [hv] at h; exact Reachable.walk hH (s := { s with hevCount := 0 }) hlen h
    | bev => rw [hv] at h; exact Reachable.walk hH (s := { s with hevCount := 0 }) hlen h
    | hev =>
      rw [hv] at h
      simp only at h
      split at h
      · simp at h
      · rename_i r hr
        obtain ⟨h1, h2⟩ := hevLoop_keeps hH 0 _ _ { s with hevCount := 0 } hlen hr
        simp only at h1 h2
        exact Reachable.walk hH (by rw [h2, h1]) h

theorem walkLoop_atEnd (n : Nat) {s s' : Sim K} (h : walkLoop F H V P n s = .ok s') :
    s'.cyc.length ≤ s'.i := by
  induction n generalizing s with
  | zero =>
    unfold Fastsim.walkLoop at h
    split at h
    · simp at h
    · cases h; omega
  | succ n ih =>
    unfold Fastsim.walkLoop at h
    split at h
    · split at h
      · simp at h
      · exact ih h
    · cases h; omega

/-- `sim_drive_walk` simulates the whole cycle. -/
theorem Spec.Finished.walk {s s' : Sim K} {soc : K} {aux : Option (List K)} (hH : H.Local)
    (hlen : s.cyc.length = s.cyc0.length) (h : Fastsim.walk F H V P s soc aux = .ok s') :
    Finished F H V P s' := by
  have hr := Reachable.walk hH hlen h
  have hle := (Reachable.inv hH hr).1.le
  unfold Fastsim.walk at h
  split at h
  · simp at h
  · have := walkLoop_atEnd _ h
    exact ⟨hr, by omega⟩

/-- `sim_drive` simulates the whole cycle. -/
theorem Spec.Finished.simDrive {s s' : Sim K} {init : Option K} {aux : Option (List K)} (hH : H.Local)
    (hlen : s.cyc.length = s.cyc0.length) (h : Fastsim.simDrive F H V P s init aux = .ok s') :
    Finished F H V P s' := by
  obtain ⟨soc, w⟩ := simDrive_done hH hlen h
  exact ⟨Reachable.simDrive hH hlen h, by rw [w.atEnd, w.lenCyc]⟩

end Lawless
end Fastsim
