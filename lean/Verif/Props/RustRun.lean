import Verif.Model.RsRun
import Verif.Props.Accessory
import Verif.Props.FuelSide
import Verif.Props.RustVeh

/-!
# C98: a run of the Rust core is the python run

For driving as the cycle says (no car following, no coasting, no trace-miss correction, which are the parameters of every
simulation that `to_rust` makes), a whole run of the Rust core is the run of the python code, except for the fuel of an engine
at full power (C96).
-/

set_option linter.unusedSectionVars false

namespace Fastsim.Spec
open Fastsim
variable {K : Type*}

/-- Driving as the cycle says. -/
structure PlainDrive (P : SimParams K) : Prop where
  coast : P.coastAllow = false
  idm : P.idmAllow = false
  trace : P.missedTrace = false

/-- An exception of the python code and the way the Rust core reports the same condition: a state of charge out of range is an
error, an empty array a panic. -/
def sameFailure : PyErr → RsErr
  | .indexError => .panic
  | _ => .err

/-- The outcome of a python call as an outcome of a Rust call. -/
def sameOutcome {α : Type*} : Except PyErr α → Except RsErr α
  | .ok x => .ok x
  | .error e => .error (sameFailure e)

end Fastsim.Spec

namespace Fastsim.Props
open Fastsim Spec

section Field
variable {K : Type*} [Field K] [LinearOrder K] [IsStrictOrderedRing K]
variable {F : Fns K} {V : Veh K} {P : SimParams K} {H : Hooks K} {RH : RsHooks K}

/-- What both loops keep. -/
structure RunInv (n : Nat) (s : Sim K) : Prop where
  pos : 1 ≤ s.i
  cyc : s.cyc.length = n
  rows : s.rows.length = n
  aux : s.aux.length = n
  times : s.cyc.times.Pairwise (· ≤ ·)
  engine : ∀ r ∈ s.rows, 0 ≤ r.fc.fcKwOutAch

theorem dtAt_nonneg' {c : Cyc K} (h : c.times.Pairwise (· ≤ ·)) {i : Nat} (hi : i < c.length) : 0 ≤ dtAt c i := by
  unfold dtAt
  split
  · exact le_refl _
  · rename_i h1
    have hl : i < c.times.length := by simpa [Cyc.times] using hi
    rw [List.getD_eq_getElem?_getD, List.getD_eq_getElem?_getD, List.getElem?_eq_getElem hl,
      List.getElem?_eq_getElem (by omega : i - 1 < c.times.length)]
    exact sub_nonneg.2 (List.pairwise_iff_getElem.1 h (i - 1) i (by omega) hl (by omega))

/-- In plain driving the grade of a step does not depend on the speed. -/
theorem grade_plain (hP : PlainDrive P) (s : Sim K) (v : K) : lookupGradeAch F P s v = estimateGrade F P s := by
  unfold lookupGradeAch estimateGrade
  simp [hP.coast, hP.idm]

theorem stepOk (hP : PlainDrive P) {n : Nat} {s : Sim K} (hI : RunInv n s) (hi : s.i < n) (U : Veh K) :
    RsStepOk (stepEnv F U P s) (s.rows.getD (s.i - 1) Row.zero) := by
  refine ⟨dtAt_nonneg' hI.times (by rw [hI.cyc]; exact hi), rfl, ?_, fun v => grade_plain hP s v⟩
  have hl : s.i - 1 < s.rows.length := by rw [hI.rows]; omega
  rw [List.getD_eq_getElem?_getD, List.getElem?_eq_getElem hl, Option.getD_some]
  exact hI.engine _ (List.getElem_mem hl)

/-- One solve of one step. -/
theorem rsSolve_eq (hV : RsOk V) (hP : PlainDrive P) {n : Nat} {s : Sim K} (hI : RunInv n s) (hi : s.i < n) (a b : K) :
    rsSolve F (withRead V a b) P s = .ok (Sim.solve F (lastEffRepeated V) P s) := by
  have hok := stepOk (F := F) hP hI hi (lastEffRepeated V)
  have hp := hI.pos
  have hc : ¬ (s.i = 0 ∨ s.aux.length ≤ s.i ∨ s.rows.length ≤ s.i ∨ s.cyc.length ≤ s.i) := by
    rw [hI.aux, hI.rows, hI.cyc]; omega
  have hE : ({ dt := rsDtAt s.cyc s.i
               mps := s.cyc.speeds.getD s.i 0
               gradeOf := rsLookupGradeAch F P s
               gradeEst := rsEstimateGrade F P s
               auxIn := (rsAuxStep (withRead V a b) s.aux s.i).getD s.i 0
               coast := s.impose.getD s.i false
               roadKw := 0 } : StepEnv K) = stepEnv F (lastEffRepeated V) P s := by
    unfold stepEnv
    have e1 : rsDtAt s.cyc s.i = dtAt s.cyc s.i := by
      unfold rsDtAt dtAt
      rw [if_neg (by omega)]
    have e2 : rsLookupGradeAch F P s = lookupGradeAch F P s := by
      funext v
      unfold rsLookupGradeAch lookupGradeAch
      simp [hP.coast, hP.idm]
    have e3 : rsEstimateGrade F P s = estimateGrade F P s := by
      unfold rsEstimateGrade estimateGrade
      simp [hP.coast, hP.idm]
    rw [e1, e2, e3]
    rfl
  unfold rsSolve
  rw [if_neg hc]
  simp only [hE, rsSolveStep_withRead, C96_step hV hok]
  rfl

theorem runInv_solve (hV : RsOk V) (hP : PlainDrive P) {n : Nat} {s : Sim K} (hI : RunInv n s) (hi : s.i < n) :
    RunInv n { Sim.solve F (lastEffRepeated V) P s with i := s.i + 1 } := by
  have hok := stepOk (F := F) hP hI hi (lastEffRepeated V)
  refine ⟨by simp, hI.cyc, ?_, ?_, hI.times, ?_⟩
  · simp [Sim.solve, hI.rows]
  · show (auxStep (lastEffRepeated V) s.aux s.i).length = n
    unfold auxStep
    split <;> simp [hI.aux]
  · intro r hr
    have hr : r ∈ s.rows.set s.i (solveStep F (lastEffRepeated V) P.toStepParams (stepEnv F (lastEffRepeated V) P s)
      (s.rows.getD (s.i - 1) Row.zero) (s.rows.getD s.i Row.zero).stale) := hr
    rcases List.mem_or_eq_of_mem_set hr with h | rfl
    · exact hI.engine r h
    · rw [solveStep_lastEffRepeated]
      exact solveStep_fc_nonneg hV hok _

/-- One step. -/
theorem rsStep_eq (hV : RsOk V) (hP : PlainDrive P) {n : Nat} {s : Sim K} (hI : RunInv n s) (hi : s.i < n) (a b : K) :
    rsStep F RH (withRead V a b) P s = .ok { Sim.solve F (lastEffRepeated V) P s with i := s.i + 1 } ∧
    simDriveStep F H (lastEffRepeated V) P s = .ok { Sim.solve F (lastEffRepeated V) P s with i := s.i + 1 } := by
  constructor
  · unfold rsStep
    simp only [hP.coast, hP.idm, hP.trace, rsSolve_eq hV hP hI hi a b, Bool.false_eq_true, if_false, false_and,
      Bool.or_self]
    rfl
  · unfold simDriveStep finishStep solveAndCorrect
    simp only [hP.coast, hP.idm, hP.trace, Bool.false_eq_true, if_false, false_and, Bool.or_self]
    rfl

/-- The loops. -/
theorem rsWalkLoop_eq (hV : RsOk V) (hP : PlainDrive P) {n : Nat} (a b : K) : ∀ (m : Nat) {s : Sim K}, RunInv n s →
    n ≤ s.i + m → rsWalkLoop F RH (withRead V a b) P m s = sameOutcome (walkLoop F H (lastEffRepeated V) P m s) := by
  intro m
  induction m with
  | zero =>
    intro s hI hm
    unfold rsWalkLoop walkLoop
    have : ¬ s.i < s.cyc.length := by rw [hI.cyc]; omega
    rw [if_neg this, if_neg this]
    rfl
  | succ m ih =>
    intro s hI hm
    unfold rsWalkLoop walkLoop
    by_cases hi : s.i < s.cyc.length
    · rw [if_pos hi, if_pos hi]
      rw [hI.cyc] at hi
      obtain ⟨e1, e2⟩ := rsStep_eq (F := F) (H := H) (RH := RH) hV hP hI hi a b
      rw [e1, e2]
      exact ih (runInv_solve hV hP hI hi) (by simp only; omega)
    · rw [if_neg hi, if_neg hi]
      rfl

theorem initAux_eq {n : Nat} (aux : Option (List K)) (ha : ∀ x, aux = some x → x.length = n) :
    initAux n aux = aux.getD (List.replicate n 0) := by
  cases aux with
  | none => rfl
  | some x => simp [initAux, ha x rfl]

/-- **C98 (walk).** `sim_drive_walk` of the Rust core is that of the python code on the vehicle whose last engine efficiency
is repeated: the same figure in every array at every sample, or the same failure. -/
theorem C98_walk (hV : RsOk V) (hP : PlainDrive P) {s : Sim K} (hlen : s.cyc.length = s.cyc0.length)
    (ht : s.cyc.times.Pairwise (· ≤ ·)) (soc : K) (aux : Option (List K))
    (ha : ∀ x, aux = some x → x.length = s.cyc0.length) (a b : K) :
    rsWalk F RH (withRead V a b) P s soc aux = sameOutcome (walk F H (lastEffRepeated V) P s soc aux) := by
  unfold rsWalk walk rsInitForStep initForStep
  have e1 : (withRead V a b).ptType = V.ptType := rfl
  have e2 : (lastEffRepeated V).ptType = V.ptType := rfl
  have e3 : (withRead V a b).minSoc = V.minSoc := rfl
  have e4 : (withRead V a b).maxSoc = V.maxSoc := rfl
  have e5 : (lastEffRepeated V).minSoc = V.minSoc := rfl
  have e6 : (lastEffRepeated V).maxSoc = V.maxSoc := rfl
  rw [e1, e2, e3, e4, e5, e6]
  by_cases hs : V.ptType = .conv ∨ (V.minSoc ≤ soc ∧ soc ≤ V.maxSoc)
  · have hs' : ¬ (V.ptType ≠ .conv ∧ (V.maxSoc < soc ∨ soc < V.minSoc)) := by
      rintro ⟨h1, h2⟩
      rcases hs with h | ⟨h3, h4⟩
      · exact h1 h
      · rcases h2 with h2 | h2
        · exact absurd h4 (not_le.2 h2)
        · exact absurd h3 (not_le.2 h2)
    rw [if_pos hs, if_neg hs']
    by_cases h0 : s.cyc0.length = 0
    · rw [if_pos h0, if_pos (Or.inr h0)]
      rfl
    · rw [if_neg h0, if_neg (c := s.cyc.length = 0 ∨ s.cyc0.length = 0) (by rw [hlen]; simp [h0])]
      have hinit : ({ rsInitArrays s with
          aux := aux.getD (List.replicate s.cyc0.length 0)
          rows := (rsInitArrays s).rows.set 0 (Row.init (withRead V a b) soc (s.cyc0.speeds.getD 0 0)
            ((aux.getD (List.replicate s.cyc0.length 0)).getD 0 0))
          cyc := if P.missedTrace || P.idmAllow || P.coastAllow then s.cyc0 else s.cyc
          i := 1 } : Sim K) = initState (lastEffRepeated V) P s soc aux := by
        unfold initState initArrays rsInitArrays
        have hx := initAux_eq aux ha
        simp only [hlen, hx]
        rfl
      simp only
      rw [hinit]
      have hc : (initState (lastEffRepeated V) P s soc aux).cyc = s.cyc := by
        unfold initState
        simp [hP.coast, hP.idm, hP.trace]
      have hI : RunInv s.cyc0.length (initState (lastEffRepeated V) P s soc aux) := by
        refine ⟨le_refl 1, by rw [hc, hlen], ?_, ?_, by rw [hc]; exact ht, ?_⟩
        · simp [initState, initArrays, hlen]
        · show (initAux s.cyc.length aux).length = _
          cases aux with
          | none => simp [initAux, hlen]
          | some x => rw [hlen, initAux_eq _ ha]; exact ha x rfl
        · intro r hr
          have hr : r ∈ (List.replicate s.cyc.length (Row.zero : Row K)).set 0 (Row.init (lastEffRepeated V) soc
            (s.cyc0.speeds.getD 0 0) ((initAux s.cyc.length aux).getD 0 0)) := hr
          rcases List.mem_or_eq_of_mem_set hr with h | rfl
          · rw [List.eq_of_mem_replicate h]; exact le_refl _
          · exact le_refl _
      rw [hc, hlen]
      have hc' : (if P.missedTrace || P.idmAllow || P.coastAllow then s.cyc0 else s.cyc) = s.cyc := hc
      rw [hc', hlen]
      exact rsWalkLoop_eq hV hP a b _ hI (Nat.le_add_left _ _)
  · have hs' : V.ptType ≠ .conv ∧ (V.maxSoc < soc ∨ soc < V.minSoc) := by
      refine ⟨fun h => hs (Or.inl h), ?_⟩
      by_contra h
      have h := not_or.1 h
      exact hs (Or.inr ⟨not_lt.1 h.2, not_lt.1 h.1⟩)
    rw [if_neg hs, if_pos hs']
    rfl

/-! ### What a plain walk keeps -/

/-- The cycles, the lengths and the first row after plain steps. -/
structure KeptPlain (c c0 : Cyc K) (r0 : Row K) (n : Nat) (s : Sim K) : Prop where
  inv : RunInv n s
  cyc : s.cyc = c
  cyc0 : s.cyc0 = c0
  row0 : s.rows[0]? = some r0

theorem walkLoop_kept (hV : RsOk V) (hP : PlainDrive P) {n : Nat} {c c0 : Cyc K} {r0 : Row K} : ∀ (m : Nat) {s t : Sim K},
    KeptPlain c c0 r0 n s → walkLoop F H (lastEffRepeated V) P m s = .ok t → KeptPlain c c0 r0 n t ∧ n ≤ t.i := by
  intro m
  induction m with
  | zero =>
    intro s t hI h
    unfold walkLoop at h
    split at h
    · cases h
    · rename_i hi
      rw [hI.inv.cyc] at hi
      cases h
      exact ⟨hI, by omega⟩
  | succ m ih =>
    intro s t hI h
    unfold walkLoop at h
    split at h
    · rename_i hi
      rw [hI.inv.cyc] at hi
      rw [(rsStep_eq (F := F) (H := H) (RH := ⟨fun s => .ok s, fun s => .ok s⟩) hV hP hI.inv hi 0 0).2] at h
      refine ih ⟨runInv_solve hV hP hI.inv hi, hI.cyc, hI.cyc0, ?_⟩ h
      have hp := hI.inv.pos
      show (s.rows.set s.i _)[0]? = _
      rw [List.getElem?_set_ne (by omega)]
      exact hI.row0
    · rename_i hi
      rw [hI.inv.cyc] at hi
      cases h
      exact ⟨hI, by omega⟩

theorem walk_kept (hV : RsOk V) (hP : PlainDrive P) {s t : Sim K} (hlen : s.cyc.length = s.cyc0.length)
    (ht : s.cyc.times.Pairwise (· ≤ ·)) {soc : K} {aux : Option (List K)}
    (h : walk F H (lastEffRepeated V) P s soc aux = .ok t) :
    KeptPlain s.cyc s.cyc0 (Row.init V soc (s.cyc0.speeds.getD 0 0) ((initAux s.cyc.length aux).getD 0 0)) s.cyc0.length t ∧
      (V.ptType ≠ .conv → V.minSoc ≤ soc ∧ soc ≤ V.maxSoc) := by
  unfold walk initForStep at h
  by_cases hs : (lastEffRepeated V).ptType ≠ .conv ∧ ((lastEffRepeated V).maxSoc < soc ∨ soc < (lastEffRepeated V).minSoc)
  · rw [if_pos hs] at h; cases h
  rw [if_neg hs] at h
  by_cases h0 : s.cyc.length = 0 ∨ s.cyc0.length = 0
  · rw [if_pos h0] at h; cases h
  rw [if_neg h0] at h
  simp only at h
  have hc : (initState (lastEffRepeated V) P s soc aux).cyc = s.cyc := by
    unfold initState
    simp [hP.coast, hP.idm, hP.trace]
  refine ⟨(walkLoop_kept (n := s.cyc0.length) hV hP _ ⟨⟨le_refl 1, by rw [hc, hlen], ?_, ?_, by rw [hc]; exact ht, ?_⟩, hc, rfl, ?_⟩ h).1, ?_⟩
  · simp [initState, initArrays, hlen]
  · show (initAux s.cyc.length aux).length = _
    cases aux with
    | none => simp [initAux, hlen]
    | some x => unfold initAux; simp only; split <;> simp [*]
  · intro r hr
    have hr : r ∈ (List.replicate s.cyc.length (Row.zero : Row K)).set 0 (Row.init (lastEffRepeated V) soc
      (s.cyc0.speeds.getD 0 0) ((initAux s.cyc.length aux).getD 0 0)) := hr
    rcases List.mem_or_eq_of_mem_set hr with h | rfl
    · rw [List.eq_of_mem_replicate h]; exact le_refl _
    · exact le_refl _
  · show ((List.replicate s.cyc.length (Row.zero : Row K)).set 0 _)[0]? = _
    rw [List.getElem?_set_self (by simp; omega)]
    rfl
  · intro hp
    have hs : ¬ (V.ptType ≠ .conv ∧ (V.maxSoc < soc ∨ soc < V.minSoc)) := hs
    exact ⟨not_lt.1 fun q => hs ⟨hp, Or.inr q⟩, not_lt.1 fun q => hs ⟨hp, Or.inl q⟩⟩

/-! ### Sums over a run -/

theorem rsSum_eq (l : List K) : rsSum l = l.sum := by
  have : rsSum l = npSum l := rfl
  rw [this, npSum_eq]

theorem zip_diff : ∀ l : List K, List.zipWith (fun b a => b - a) l.tail l.dropLast = diff l
  | [] => rfl
  | [_] => rfl
  | a :: b :: l => by
    have ih := zip_diff (b :: l)
    simp only [List.tail_cons, List.dropLast_cons₂, List.zipWith_cons_cons, diff, List.cons.injEq, true_and] at ih ⊢
    exact ih

theorem rsDt_eq {c : Cyc K} (hc : c.length ≠ 0) : rsDt c = 0 :: (dtS c).tail ∧
    dtS c = c.times.getD 0 0 :: (dtS c).tail := by
  cases c with
  | nil => simp at hc
  | cons x c =>
    unfold rsDt dtS
    rw [zip_diff]
    refine ⟨rfl, ?_⟩
    simp [Cyc.times, diff]

theorem rsSumDt_eq {s : Sim K} {r0 : Row K} (h0 : s.rows[0]? = some r0) (hc : s.cyc.length ≠ 0) {f : Row K → K}
    (hf : f r0 = 0 ∨ s.cyc.times.getD 0 0 = 0) : rsSumDt s f = sumDt s f := by
  unfold rsSumDt sumDt
  obtain ⟨e1, e2⟩ := rsDt_eq hc
  rw [rsSum_eq, npSum_eq, e1, e2]
  generalize (dtS s.cyc).tail = d at *
  cases hr : s.rows with
  | nil => simp [hr] at h0
  | cons r l =>
    simp only [hr, List.getElem?_cons_zero, Option.some.injEq] at h0
    subst h0
    simp only [List.zipWith_cons_cons, List.sum_cons, mul_zero, zero_add]
    rcases hf with h | h <;> rw [h] <;> simp

theorem rsEss2Fuel_eq {s : Sim K} {r0 : Row K} (h0 : s.rows[0]? = some r0) (hc : s.cyc.length ≠ 0)
    (h1 : r0.fc.fsKwOutAch = 0) (h2 : r0.dec.roadwayChgKwOutAch = 0) (a b : K) :
    rsEss2Fuel (withRead V a b) s = ess2Fuel (lastEffRepeated V) s := by
  unfold rsEss2Fuel ess2Fuel
  rw [rsSumDt_eq (f := fun r => r.fc.fsKwOutAch) h0 hc (Or.inl h1),
    rsSumDt_eq (f := fun r => r.dec.roadwayChgKwOutAch) h0 hc (Or.inl h2)]
  rfl

/-! ### Whole runs -/

/-- **C98 (run).** `sim_drive` of the Rust core, for every powertrain, is `sim_drive` of the python code on the vehicle whose
last engine efficiency is repeated: the same figure in every array at every sample, or the same failure. For hybrids this is
with an initial state of charge that is given; without, see `C98_balanced`. -/
theorem C98_run (hV : RsOk V) (hP : PlainDrive P) {s : Sim K} (hlen : s.cyc.length = s.cyc0.length)
    (ht : s.cyc.times.Pairwise (· ≤ ·)) (init : Option K) (aux : Option (List K))
    (ha : ∀ x, aux = some x → x.length = s.cyc0.length) (hh : V.ptType ≠ .hev ∨ init ≠ none) (a b : K) :
    rsDrive F RH (withRead V a b) P s init aux = sameOutcome (simDrive F H (lastEffRepeated V) P s init aux) := by
  have key : ∀ soc : K, rsWalk F RH (withRead V a b) P { s with hevCount := 0 } soc aux =
      sameOutcome (walk F H (lastEffRepeated V) P { s with hevCount := 0 } soc aux) :=
    fun soc => C98_walk (s := { s with hevCount := 0 }) hV hP hlen ht soc aux ha a b
  have e1 : (withRead V a b).ptType = V.ptType := rfl
  have e2 : (lastEffRepeated V).ptType = V.ptType := rfl
  unfold rsDrive simDrive
  cases init with
  | some soc => exact key soc
  | none =>
    simp only [e1, e2]
    cases hv : V.ptType with
    | conv => exact key _
    | hev => exact absurd hv (hh.resolve_right (by simp))
    | phev => exact key _
    | bev => exact key _

/-! ### Charge balancing -/

theorem plain_step_eq (hP : PlainDrive P) (U : Veh K) (s : Sim K) :
    simDriveStep F H U P s = .ok { Sim.solve F U P s with i := s.i + 1 } := by
  unfold simDriveStep finishStep solveAndCorrect
  simp only [hP.coast, hP.idm, hP.trace, Bool.false_eq_true, if_false, false_and, Bool.or_self]
  rfl

/-- Two prescriptions of the accessory load that amount to the same loads give the same walk. -/
theorem walkLoop_prescription (hP : PlainDrive P) {U : Veh K} {a a' : List K} (hl : a.length = a'.length)
    (he : ∀ i, loadAt U a i = loadAt U a' i) : ∀ (m : Nat) {s : Sim K} {b : List K}, 1 ≤ s.i → s.cyc.length = a.length →
    AuxInv U a s.i s.aux → AuxInv U a' s.i b → a.length ≤ s.i + m →
    walkLoop F H U P m s = walkLoop F H U P m { s with aux := b } := by
  have last : ∀ {s : Sim K} {b : List K}, AuxInv U a s.i s.aux → AuxInv U a' s.i b → a.length ≤ s.i → s.aux = b := by
    intro s b h1 h2 hi
    apply List.ext_getElem?
    intro j
    by_cases hj : j < a.length
    · rw [h1.2.1 j (by omega), h2.2.1 j (by omega), he]
    · rw [List.getElem?_eq_none (by rw [h1.1]; omega), List.getElem?_eq_none (by rw [h2.1]; omega)]
  intro m
  induction m with
  | zero =>
    intro s b hp hc h1 h2 hi
    rw [← last h1 h2 (by omega)]
  | succ m ih =>
    intro s b hp hc h1 h2 hi
    by_cases hlt : s.i < s.cyc.length
    · have g1 := auxInv_step (V := U) hp (by omega) h1
      have g2 := auxInv_step (V := U) hp (by omega) h2
      have hx : (auxStep U s.aux s.i).getD s.i 0 = (auxStep U b s.i).getD s.i 0 := by
        rw [List.getD_eq_getElem?_getD, List.getD_eq_getElem?_getD, g1.2.1 s.i (by omega), g2.2.1 s.i (by omega), he]
      have hsol : Sim.solve F U P { s with aux := b } = { Sim.solve F U P s with aux := auxStep U b s.i } := by
        have hE : stepEnv F U P { s with aux := b } = stepEnv F U P s := by
          unfold stepEnv
          simp only
          rw [← hx]
          rfl
        unfold Sim.solve
        rw [hE]
      unfold walkLoop
      rw [if_pos hlt, if_pos (show ({ s with aux := b } : Sim K).i < ({ s with aux := b } : Sim K).cyc.length from hlt),
        plain_step_eq hP, plain_step_eq hP, hsol]
      exact ih (s := { Sim.solve F U P s with i := s.i + 1 }) (b := auxStep U b s.i) (by simp) hc g1 g2 (by simp only; omega)
    · rw [← last h1 h2 (by omega)]

theorem walk_prescription (hP : PlainDrive P) {U : Veh K} {s : Sim K} (hlen : s.cyc.length = s.cyc0.length) (soc : K)
    {aux aux' : Option (List K)}
    (he : ∀ i, loadAt U (prescribed s.cyc0.length aux) i = loadAt U (prescribed s.cyc0.length aux') i) :
    walk F H U P s soc aux = walk F H U P s soc aux' := by
  unfold walk initForStep
  by_cases hs : U.ptType ≠ .conv ∧ (U.maxSoc < soc ∨ soc < U.minSoc)
  · simp only [if_pos hs]
  simp only [if_neg hs]
  by_cases h0 : s.cyc.length = 0 ∨ s.cyc0.length = 0
  · simp only [if_pos h0]
  simp only [if_neg h0]
  have hpl : ∀ x : Option (List K), (prescribed s.cyc0.length x).length = s.cyc0.length := by
    intro x
    unfold prescribed; split
    · split <;> simp [*]
    · simp
  have hpre : ∀ x : Option (List K), initAux s.cyc.length x = prescribed s.cyc0.length x := by
    intro x
    rw [hlen]
    unfold initAux prescribed; cases x <;> rfl
  have h00 : (prescribed s.cyc0.length aux).getD 0 0 = (prescribed s.cyc0.length aux').getD 0 0 := by
    have := he 0
    unfold loadAt at this
    rw [if_neg (by omega), if_neg (by omega)] at this
    rw [List.getD_eq_getElem?_getD, List.getD_eq_getElem?_getD, this]
  have hst : initState U P s soc aux' = { initState U P s soc aux with aux := prescribed s.cyc0.length aux' } := by
    unfold initState
    simp only [hpre, h00]
  have hinv : ∀ x : Option (List K), AuxInv U (prescribed s.cyc0.length x) 1 (prescribed s.cyc0.length x) := by
    intro x
    refine ⟨rfl, fun j hj => ?_, fun j _ => rfl⟩
    unfold loadAt
    rw [if_neg (by omega)]
  have hc : (initState U P s soc aux).cyc = s.cyc := by
    unfold initState
    simp [hP.coast, hP.idm, hP.trace]
  rw [hst]
  refine walkLoop_prescription hP (by rw [hpl, hpl]) he _ (le_refl 1) (by rw [hc, hpl, hlen]) ?_ (hinv aux') ?_
  · show AuxInv U (prescribed s.cyc0.length aux) 1 (initAux s.cyc.length aux)
    rw [hpre]; exact hinv aux
  · rw [hc, hpl, hlen]; exact Nat.le_add_left _ _

/-- No manoeuvres. -/
def idleHooks : Hooks K := ⟨fun s => .ok s, fun s => .ok s⟩

theorem walk_hooks (hP : PlainDrive P) (U : Veh K) (H' : Hooks K) (s : Sim K) (soc : K) (aux : Option (List K)) :
    walk F H U P s soc aux = walk F H' U P s soc aux := by
  have loop : ∀ (m : Nat) (s : Sim K), walkLoop F H U P m s = walkLoop F H' U P m s := by
    intro m
    induction m with
    | zero => intro s; rfl
    | succ m ih =>
      intro s
      unfold walkLoop
      rw [plain_step_eq (H := H) hP, plain_step_eq (H := H') hP]
      simp only [ih]
  unfold walk
  simp only [loop]

theorem idle_local : (idleHooks : Hooks K).Local := by
  constructor <;> · intro s s' h; cases h; exact ⟨⟨rfl, rfl, rfl, rfl, fun j hj => rfl, fun j hj => rfl, fun j hj => rfl⟩, rfl, rfl⟩

theorem idle_keep (U : Veh K) : Hooks.KeepAux (idleHooks : Hooks K) U := by
  constructor
  · intro s s' h; cases h; rfl
  · intro s s' h; cases h; exact Or.inl rfl

theorem auxAfter_load (hP : PlainDrive P) {U : Veh K} {s t : Sim K} (hlen : s.cyc.length = s.cyc0.length) {soc : K}
    {aux : Option (List K)} (h : walk F H U P s soc aux = .ok t) (i : Nat) :
    loadAt U (prescribed s.cyc0.length (auxAfter t aux)) i = loadAt U (prescribed s.cyc0.length aux) i := by
  rw [walk_hooks hP U idleHooks] at h
  have hx := walk_aux idle_local (idle_keep U) hlen h
  cases aux with
  | none => rfl
  | some b =>
    unfold auxAfter
    by_cases hb : b.length = t.aux.length
    · simp only [hb, if_true]
      have e1 : prescribed s.cyc0.length (some t.aux) = t.aux := by
        unfold prescribed; simp [hx.1]
      have e2 : prescribed s.cyc0.length (some b) = b := by
        unfold prescribed; simp [hb, hx.1]
      rw [e1]
      rw [e2] at hx ⊢
      rw [loadAt_idem hb.symm hx.2, hx.2]
    · simp only [hb, if_false]

theorem clamp_same {lo hi x : K} (h0 : 0 ≤ lo) (h1 : hi ≤ 1) (h2 : lo ≤ min 1 (max 0 x)) (h3 : min 1 (max 0 x) ≤ hi) :
    min hi (max lo x) = min 1 (max 0 x) := by
  rcases le_total x 0 with hx | hx
  · rw [max_eq_left hx, min_eq_right zero_le_one] at h2 h3 ⊢
    have : lo = 0 := le_antisymm h2 h0
    rw [this, max_eq_left hx, min_eq_right h3]
  · rw [max_eq_right hx] at h2 h3 ⊢
    rcases le_total x 1 with h | h
    · rw [min_eq_right h] at h2 h3 ⊢
      rw [max_eq_right h2, min_eq_right h3]
    · rw [min_eq_left h] at h2 h3 ⊢
      have : hi = 1 := le_antisymm h1 h3
      rw [this, max_eq_right (h2.trans h), min_eq_left h]

theorem rsHevLoop_eq (hV : RsOk V) (hP : PlainDrive P) (hv : V.ptType = .hev) (hlo : 0 ≤ V.minSoc) (hhi : V.maxSoc ≤ 1)
    {c c0 : Cyc K} (hlen : c.length = c0.length) (ht : c.times.Pairwise (· ≤ ·)) (a b : K)
    {aux : Option (List K)}
    (ha : ∀ x, aux = some x → x.length = c0.length) {t : Sim K} {r : Sim K × K × Option (List K)}
    (hw : walk F H (lastEffRepeated V) P r.1 r.2.1 r.2.2 = .ok t) : ∀ (k count : Nat) {e soc soc' : K} {s : Sim K}
    {auxp : Option (List K)}, P.simCountMax - count ≤ k → s.cyc = c → s.cyc0 = c0 →
    (∀ i, loadAt (lastEffRepeated V) (prescribed c0.length auxp) i = loadAt (lastEffRepeated V) (prescribed c0.length aux) i) →
    (V.minSoc ≤ soc → soc ≤ V.maxSoc → soc' = soc) →
    hevLoop F H (lastEffRepeated V) P auxp count e soc s = .ok r →
    rsHevLoop F RH (withRead V a b) P aux count e soc' s = .ok (r.1, r.2.1) ∧ r.1.cyc = c ∧ r.1.cyc0 = c0 ∧
      ∀ i, loadAt (lastEffRepeated V) (prescribed c0.length r.2.2) i =
        loadAt (lastEffRepeated V) (prescribed c0.length aux) i := by
  have hpt : V.ptType ≠ .conv := by rw [hv]; simp
  intro k
  induction k with
  | zero =>
    intro count e soc soc' s auxp hk hc hc0 hload hsoc h
    unfold hevLoop at h
    have hn : ¬ ((lastEffRepeated V).essToFuelOkError < e ∧ count < P.simCountMax) := by omega
    have hn' : ¬ ((withRead V a b).essToFuelOkError < e ∧ count < P.simCountMax) := by omega
    rw [dif_neg hn] at h
    cases h
    unfold rsHevLoop
    rw [dif_neg hn']
    obtain ⟨-, hwin⟩ := walk_kept hV hP (by rw [hc, hc0, hlen]) (by rw [hc]; exact ht) hw
    obtain ⟨w1, w2⟩ := hwin hpt
    rw [hsoc w1 w2]
    exact ⟨rfl, hc, hc0, hload⟩
  | succ k ih =>
    intro count e soc soc' s auxp hk hc hc0 hload hsoc h
    unfold hevLoop at h
    by_cases hn : (lastEffRepeated V).essToFuelOkError < e ∧ count < P.simCountMax
    · rw [dif_pos hn] at h
      have hn' : (withRead V a b).essToFuelOkError < e ∧ count < P.simCountMax := hn
      cases hq : walk F H (lastEffRepeated V) P { s with hevCount := count + 1 } soc auxp with
      | error err => rw [hq] at h; cases h
      | ok s' =>
        rw [hq] at h
        simp only at h
        have hlen' : ({ s with hevCount := count + 1 } : Sim K).cyc.length =
          ({ s with hevCount := count + 1 } : Sim K).cyc0.length := by simp only [hc, hc0, hlen]
        have ht' : ({ s with hevCount := count + 1 } : Sim K).cyc.times.Pairwise (· ≤ ·) := by simp only [hc]; exact ht
        obtain ⟨hk', hwin⟩ := walk_kept hV hP hlen' ht' hq
        obtain ⟨w1, w2⟩ := hwin hpt
        have hs := hsoc w1 w2
        have hq' : rsWalk F RH (withRead V a b) P { s with hevCount := count + 1 } soc aux = .ok s' := by
          rw [C98_walk (H := H) hV hP hlen' ht' soc aux (by simp only [hc0]; exact ha),
            ← walk_prescription hP hlen' soc (by simp only [hc0]; exact hload), hq]
          rfl
        have g1 : s'.cyc = c := hk'.cyc.trans hc
        have g2 : s'.cyc0 = c0 := hk'.cyc0.trans hc0
        have hl1 : s'.rows.length = s'.cyc.length := by rw [hk'.inv.rows, hk'.inv.cyc]
        unfold rsHevLoop
        rw [dif_pos hn', hs, hq']
        simp only [hl1, ne_eq, not_true_eq_false, if_false]
        have hne : s'.cyc.length ≠ 0 := by
          intro q
          have := hk'.row0
          rw [List.getElem?_eq_none (by rw [hl1, q])] at this
          cases this
        rw [rsEss2Fuel_eq hk'.row0 hne rfl rfl]
        refine ih (count + 1) (by omega) g1 g2 ?_ ?_ h
        · intro i
          have := auxAfter_load hP hlen' hq i
          simp only [hc0] at this
          rw [this, hload]
        · intro h2 h3
          exact clamp_same hlo hhi h2 h3
    · have hn' : ¬ ((withRead V a b).essToFuelOkError < e ∧ count < P.simCountMax) := hn
      rw [dif_neg hn] at h
      cases h
      unfold rsHevLoop
      rw [dif_neg hn']
      obtain ⟨-, hwin⟩ := walk_kept hV hP (by rw [hc, hc0, hlen]) (by rw [hc]; exact ht) hw
      obtain ⟨w1, w2⟩ := hwin hpt
      rw [hsoc w1 w2]
      exact ⟨rfl, hc, hc0, hload⟩

/-- **C98 (charge balancing).** For hybrids without an initial state of charge: whenever the python run ends, the Rust run ends
with the same figures. (Between rounds the Rust core clamps the state of charge to the window of the battery where python
clamps it to 0 and 1; where this makes a difference, python refuses to go on.) -/
theorem C98_balanced (hV : RsOk V) (hP : PlainDrive P) (hv : V.ptType = .hev) (hlo : 0 ≤ V.minSoc) (hhi : V.maxSoc ≤ 1)
    {s t : Sim K} (hlen : s.cyc.length = s.cyc0.length) (ht : s.cyc.times.Pairwise (· ≤ ·)) {aux : Option (List K)}
    (ha : ∀ x, aux = some x → x.length = s.cyc0.length) (a b : K)
    (h : simDrive F H (lastEffRepeated V) P s none aux = .ok t) :
    rsDrive F RH (withRead V a b) P s none aux = .ok t := by
  have hv' : (withRead V a b).ptType = .hev := hv
  have hv2 : (lastEffRepeated V).ptType = .hev := hv
  unfold simDrive at h
  unfold rsDrive
  simp only [hv2] at h
  simp only [hv']
  cases hq : hevLoop F H (lastEffRepeated V) P aux 0 1 ((lastEffRepeated V).maxSoc / 2 + (lastEffRepeated V).minSoc / 2)
      { s with hevCount := 0 } with
  | error e =>
    rw [← add_div] at hq
    rw [hq] at h; cases h
  | ok r =>
    rw [← add_div] at hq
    rw [hq] at h
    simp only at h
    obtain ⟨e1, e2, e3, e4⟩ := rsHevLoop_eq (RH := RH) (F := F) (H := H) hV hP hv hlo hhi hlen ht a b ha h
        (s := { s with hevCount := 0 }) (P.simCountMax - 0) 0 (le_refl _) rfl rfl (fun _ => rfl) (fun _ _ => rfl) hq
    have e1' : rsHevLoop F RH (withRead V a b) P aux 0 1 (((withRead V a b).maxSoc + (withRead V a b).minSoc) / 2)
      { s with hevCount := 0 } = .ok (r.1, r.2.1) := e1
    rw [e1']
    simp only
    rw [C98_walk (H := H) hV hP (by rw [e2, e3, hlen]) (by rw [e2]; exact ht) _ _ (by rw [e3]; exact ha),
      ← walk_prescription hP (by rw [e2, e3, hlen]) _ (by rw [e3]; exact e4), h]
    rfl

/-! ### Figures after a run -/

theorem last_getD {l : List (Row K)} : l.getD (l.length - 1) Row.zero = l.getLast?.getD Row.zero := by
  rw [List.getLast?_eq_getElem?, List.getD_eq_getElem?_getD]

theorem last_getD' {l : List K} : l.getD (l.length - 1) 0 = l.getLast?.getD 0 := by
  rw [List.getLast?_eq_getElem?, List.getD_eq_getElem?_getD]

theorem times_length (c : Cyc K) : c.times.length = c.length := by simp [Cyc.times]

/-- A cycle that starts at time zero has the same steps and distances in both programs. -/
theorem rsDt_start {c : Cyc K} (hc : c.length ≠ 0) (h0 : c.times.getD 0 0 = 0) : rsDt c = dtS c := by
  obtain ⟨e1, e2⟩ := rsDt_eq hc
  rw [h0] at e2
  rw [e1]
  exact e2.symm

theorem essLoss_sum {s : Sim K} (h0 : 0 < s.rows.length) {d : List K} :
    (List.zipWith (fun x d => x * d) (rsEssLoss F V s.rows) (0 :: d)).sum =
      (List.zipWith (fun r d => essLossKw F V r * d) s.rows (0 :: d)).sum := by
  cases hr : s.rows with
  | nil => simp [hr] at h0
  | cons r l =>
    unfold rsEssLoss
    simp only [List.tail_cons, List.zipWith_cons_cons, List.sum_cons, mul_zero, zero_add, List.zipWith_map_left]
    rfl

/-- **C98 (figures).** After the same run the two programs report the same figures: fuel economy, energies, audit, distance and
speed of the trace miss. Only the time fraction of the trace miss keeps its sign in the Rust core. This is for cycles that
start at time zero and have a positive distance, with arrays of the same length, as every run has them. -/
theorem C98_figures (T : MissTols K) (gge : K) {s : Sim K} (h1 : s.rows.length = s.cyc.length) (h2 : s.aux.length = s.cyc.length)
    (h3 : s.cyc.length = s.cyc0.length) (hc : s.cyc.times.getD 0 0 = 0) (hc0 : s.cyc0.times.getD 0 0 = 0)
    (hd : 0 < npSum (distM s.cyc0)) :
    ∃ p, rsPostScalars F V P T gge s = .ok p ∧ p.mpgge = mpgge gge s ∧ p.roadwayChgKj = roadwayChgKj s ∧
      p.essDischgKj = essDischgKj V s ∧ p.batteryKwhPerMi = batteryKwhPerMi V s ∧
      p.electricKwhPerMi = electricKwhPerMi V s ∧ p.fuelKj = fuelKj s ∧ p.ess2fuelKwh = ess2fuelKwh V s ∧
      p.dragKj = dragKj s ∧ p.ascentKj = ascentKj s ∧ p.rrKj = rrKj s ∧ p.brakeKj = brakeKj s ∧ p.transKj = transKj s ∧
      p.mcKj = mcKj s ∧ p.essEffKj = essEffKj F V s ∧ p.auxKj = auxKj s ∧ p.fcKj = fcKj s ∧ p.netKj = netKj F V s ∧
      p.keKj = keKj V s ∧ p.energyAuditError = energyAuditError F V s ∧ p.traceMissDistFrac = traceMissDistFrac s ∧
      p.traceMissSpeedMps = traceMissSpeedMps s ∧
      p.traceMissTimeFrac = (s.cyc.times.getLast?.getD 0 - s.cyc0.times.getLast?.getD 0) / s.cyc0.times.getLast?.getD 0 ∧
      (P.missedTrace = false → p.traceMiss = traceMiss P T s) := by
  have hne : s.cyc.length ≠ 0 := by
    intro q
    rw [h3] at q
    have : s.cyc0 = [] := List.length_eq_zero_iff.1 q
    rw [this] at hd
    exact absurd hd (lt_irrefl _)
  have hrow : ∃ r0, s.rows[0]? = some r0 := ⟨_, List.getElem?_eq_getElem (by omega)⟩
  obtain ⟨r0, hr0⟩ := hrow
  have hsum : ∀ f : Row K → K, rsSumDt s f = sumDt s f := fun f => rsSumDt_eq hr0 hne (Or.inr hc)
  have hdt : rsDt s.cyc = dtS s.cyc := rsDt_start hne hc
  have hdt0 : rsDt s.cyc0 = dtS s.cyc0 := rsDt_start (by rw [← h3]; exact hne) hc0
  have hdist : rsDist s.cyc0 = distM s.cyc0 := by unfold rsDist distM; rw [hdt0]
  have hS : ∀ l : List K, rsSum l = npSum l := fun _ => rfl
  have hbad : ¬ (s.rows.length ≠ s.cyc.length ∨ s.aux.length ≠ s.cyc.length ∨ s.rows.length = 0 ∨ s.cyc0.length = 0) := by
    omega
  have hloss : npSum (List.zipWith (fun x d => x * d) (rsEssLoss F V s.rows) (dtS s.cyc)) = essEffKj F V s := by
    unfold essEffKj sumDt
    rw [npSum_eq, npSum_eq, (rsDt_eq hne).2, hc]
    exact essLoss_sum (by omega)
  unfold rsPostScalars
  simp only [if_neg hbad, hdist, hS, if_pos hd, hsum, hdt, hloss, last_getD]
  refine ⟨_, rfl, rfl, rfl, ?_, ?_, ?_, rfl, ?_, rfl, rfl, rfl, rfl, rfl, rfl, rfl, rfl, rfl, rfl, rfl, ?_, ?_, ?_, ?_, ?_⟩
  · unfold essDischgKj Sim.lastRow Sim.firstRow; simp only; ring
  · unfold batteryKwhPerMi essDischgKj Sim.lastRow Sim.firstRow totalMiles; simp only [neg_mul, one_mul]
  · unfold electricKwhPerMi essDischgKj Sim.lastRow Sim.firstRow totalMiles roadwayChgKj; simp only [neg_mul, one_mul]
  · unfold ess2fuelKwh essDischgKj Sim.lastRow Sim.firstRow fuelKj roadwayChgKj; simp only [neg_mul, one_mul]
  · unfold energyAuditError suppliedKj essDischgKj keKj Sim.lastRow Sim.firstRow fuelKj roadwayChgKj; simp only [neg_mul, one_mul]; rfl
  · unfold traceMissDistFrac; simp only [if_pos hd]
  · unfold traceMissSpeedMps; exact rsArrMax_eq _
  · simp only [← times_length, last_getD']
  · intro hm
    unfold traceMiss traceMissDistFrac traceMissSpeedMps
    simp only [hm, if_pos hd, rsArrMax_eq]
    simp

/-- **C98 (standing still).** Without distance in the given cycle the Rust core refuses the figures, and with them the run; the
python code reports them. -/
theorem C98_no_distance (T : MissTols K) (gge : K) {s : Sim K} (hc0 : s.cyc0.length ≠ 0) (h0 : s.cyc0.times.getD 0 0 = 0)
    (hd : npSum (distM s.cyc0) ≤ 0) (p : RsPost K) : rsPostScalars F V P T gge s ≠ .ok p := by
  have hdist : rsSum (rsDist s.cyc0) = npSum (distM s.cyc0) := by
    unfold rsDist distM; rw [rsDt_start hc0 h0]; rfl
  unfold rsPostScalars
  simp only
  split
  · simp
  · rw [if_neg (by rw [hdist]; exact not_lt.2 hd)]
    simp

/-- **C98 (late start).** A cycle that does not start at time zero is longer in python, by its first speed times its first
time. -/
theorem C98_late_start {c : Cyc K} (hc : c.length ≠ 0) :
    npSum (distM c) = rsSum (rsDist c) + c.speeds.getD 0 0 * c.times.getD 0 0 := by
  unfold rsDist distM
  obtain ⟨e1, e2⟩ := rsDt_eq hc
  generalize (dtS c).tail = d at e1 e2
  rw [rsSum_eq, npSum_eq, e1, e2]
  cases hr : c.speeds with
  | nil =>
    have : c.speeds.length = c.length := by simp [Cyc.speeds]
    rw [hr] at this
    exact absurd this.symm hc
  | cons v l =>
    simp only [List.zipWith_cons_cons, List.sum_cons, mul_zero, zero_add, List.getD_cons_zero]
    ring

/-! ### Overrides of the wrong length -/

theorem rsWalkLoop_lengths (hP : PlainDrive P) (U : Veh K) : ∀ (m : Nat) {s t : Sim K}, rsWalkLoop F RH U P m s = .ok t →
    t.aux.length = s.aux.length ∧ t.cyc = s.cyc := by
  intro m
  induction m with
  | zero =>
    intro s t h
    unfold rsWalkLoop at h
    split at h
    · cases h
    · cases h; exact ⟨rfl, rfl⟩
  | succ m ih =>
    intro s t h
    unfold rsWalkLoop at h
    split at h
    · split at h
      · cases h
      · rename_i s1 h1
        obtain ⟨e1, e2⟩ := ih h
        rw [e1, e2]
        unfold rsStep at h1
        simp only [hP.coast, hP.idm, hP.trace, Bool.false_eq_true, if_false, false_and, Bool.or_self] at h1
        split at h1
        · cases h1
        · rename_i s2 h2
          cases h1
          unfold rsSolve at h2
          split at h2
          · cases h2
          · simp only at h2
            split at h2
            · cases h2
            · cases h2
              refine ⟨?_, rfl⟩
              unfold rsAuxStep
              simp only
              split <;> simp
    · cases h; exact ⟨rfl, rfl⟩

/-- A walk of the Rust core with an override keeps its length. -/
theorem rsWalk_lengths (hP : PlainDrive P) (U : Veh K) {s t : Sim K} {soc : K} {x : List K}
    (h : rsWalk F RH U P s soc (some x) = .ok t) : t.aux.length = x.length ∧ t.cyc = s.cyc := by
  unfold rsWalk rsInitForStep at h
  split at h
  · cases h
  · rename_i s1 h1
    split at h1
    · split at h1
      · cases h1
      · cases h1
        obtain ⟨e1, e2⟩ := rsWalkLoop_lengths hP U _ h
        refine ⟨e1, e2.trans ?_⟩
        simp [hP.coast, hP.idm, hP.trace]
    · cases h1

theorem rsHevLoop_cyc (hP : PlainDrive P) (U : Veh K) {x : List K} : ∀ (k count : Nat) {e soc : K} {s : Sim K}
    {r : Sim K × K}, P.simCountMax - count ≤ k → rsHevLoop F RH U P (some x) count e soc s = .ok r → r.1.cyc = s.cyc := by
  intro k
  induction k with
  | zero =>
    intro count e soc s r hk h
    unfold rsHevLoop at h
    rw [dif_neg (by omega)] at h
    cases h
    rfl
  | succ k ih =>
    intro count e soc s r hk h
    unfold rsHevLoop at h
    split at h
    · split at h
      · cases h
      · rename_i s' hw
        split at h
        · cases h
        · exact (ih _ (by omega) h).trans (rsWalk_lengths hP U hw).2
    · cases h; rfl

/-- **C98 (override of another length).** The Rust core does not check the length of an override of the accessory load. A run
with an override of another length than the cycle never succeeds, where python ignores the override. -/
theorem C98_override_length (hP : PlainDrive P) (U : Veh K) (T : MissTols K) (gge : K) {s : Sim K} (init : Option K) {x : List K}
    (hx : x.length ≠ s.cyc.length) (q : Sim K × RsPost K) : rsSimDrive F RH U P T gge s init (some x) ≠ .ok q := by
  intro h
  unfold rsSimDrive at h
  split at h
  · cases h
  · rename_i t ht
    have key : t.aux.length = x.length ∧ t.cyc = s.cyc := by
      unfold rsDrive at ht
      simp only at ht
      split at ht
      · obtain ⟨e1, e2⟩ := rsWalk_lengths hP U ht; exact ⟨e1, e2⟩
      · split at ht
        · obtain ⟨e1, e2⟩ := rsWalk_lengths hP U ht; exact ⟨e1, e2⟩
        · split at ht
          · cases ht
          · rename_i r hr
            obtain ⟨e1, e2⟩ := rsWalk_lengths hP U ht
            have e3 := rsHevLoop_cyc hP U _ 0 (le_refl _) hr
            exact ⟨e1, e2.trans e3⟩
        · obtain ⟨e1, e2⟩ := rsWalk_lengths hP U ht; exact ⟨e1, e2⟩
        · obtain ⟨e1, e2⟩ := rsWalk_lengths hP U ht; exact ⟨e1, e2⟩
    have hb : rsPostScalars F U P T gge t = .error .panic := by
      unfold rsPostScalars
      rw [if_pos (Or.inr (Or.inl (by rw [key.1, key.2]; exact hx)))]
    rw [hb] at h
    cases h

/-! ### `SimDrive.to_rust` -/

theorem rsNew_plain : PlainDrive (rsNewParams : SimParams K) := ⟨rfl, rfl, rfl⟩

/-- The default parameters of the two cores are the same numbers. -/
theorem rsNew_params : (rsNewParams : SimParams K) = newParams := by
  unfold rsNewParams newParams
  congr 1 <;> norm_num

/-- **C98 (`to_rust`).** The Rust copy of a simulation forgets its parameters and what it did to its cycle: running the copy is
running, with the default parameters, a new python simulation of the cycle it was made with (with the last engine efficiency
repeated). -/
theorem C98_to_rust (hV : RsOk V) {s : Sim K} (ht : s.cyc0.times.Pairwise (· ≤ ·)) (init : Option K)
    (aux : Option (List K)) (ha : ∀ x, aux = some x → x.length = s.cyc0.length) (hh : V.ptType ≠ .hev ∨ init ≠ none) :
    rsDrive F RH V rsNewParams s.toRust init aux =
      sameOutcome (simDrive F H (lastEffRepeated V) newParams (Sim.new s.cyc0) init aux) :=
  rsNew_params (K := K) ▸ C98_run (s := Sim.new s.cyc0) hV rsNew_plain rfl ht init aux ha hh V.mcPeakEff V.maxFcEffKw

/-- **C98 (simulations of built vehicles).** The same for the vehicle as it is built: the vehicle object `r` of the copy is made
by the Rust core from the python one (C97). -/
theorem C98_built {o o' : VehObj K} (h : o.setDerived = .ok o') (hview : o'.view = .ok V) (hr : RustReady o)
    (hf : ∀ x, o.fcPeakEffOverride = some x → 0 < x ∧ (∀ e ∈ o.fcEffMap, 0 ≤ e) ∧ 0 < o'.fcPeak)
    (hv : o'.toRust.rsValid = true) (hV : RsOk V) {s : Sim K} (ht : s.cyc0.times.Pairwise (· ≤ ·)) (init : Option K)
    (aux : Option (List K)) (ha : ∀ x, aux = some x → x.length = s.cyc0.length) (hh : V.ptType ≠ .hev ∨ init ≠ none) :
    ∃ r, o'.toRust.rsSetDerived = .ok r ∧ rsDrive F RH r.toVeh rsNewParams s.toRust init aux =
      sameOutcome (simDrive F H (lastEffRepeated V) newParams (Sim.new s.cyc0) init aux) := by
  obtain ⟨r, e1, e2, -⟩ := C97_to_rust h hview hr hf hv
  refine ⟨r, e1, ?_⟩
  have : ∃ a b, r.toVeh = withRead V a b := by
    unfold VehObj.rsView at e2
    split at e2
    · simp at e2
    · simp only [Except.ok.injEq] at e2
      subst e2
      exact ⟨r.toVeh.mcPeakEff, r.toVeh.maxFcEffKw, rfl⟩
  obtain ⟨a, b, e⟩ := this
  rw [e, ← rsNew_params]
  exact C98_run (s := Sim.new s.cyc0) hV rsNew_plain rfl ht init aux ha hh a b

/-- With the last two efficiencies of the engine the same, nothing is repeated. -/
theorem lastEff_same (h2 : 2 ≤ V.fcEffArray.length)
    (he : V.fcEffArray[V.fcEffArray.length - 2]? = V.fcEffArray[V.fcEffArray.length - 1]?) : lastEffRepeated V = V := by
  have : V.fcEffArray.set (V.fcEffArray.length - 1) (V.fcEffArray.getD (V.fcEffArray.length - 2) 0) = V.fcEffArray := by
    rw [List.getD_eq_getElem?_getD, he, List.getElem?_eq_getElem (by omega), Option.getD_some]
    exact List.set_getElem_self _
  unfold lastEffRepeated
  rw [this]

/-- A run leaves the cycle as it is, and has rows and loads for all of its samples. -/
theorem drive_kept (hV : RsOk V) (hP : PlainDrive P) {s t : Sim K} (hlen : s.cyc.length = s.cyc0.length)
    (ht : s.cyc.times.Pairwise (· ≤ ·)) {init : Option K} {aux : Option (List K)} (hh : V.ptType ≠ .hev ∨ init ≠ none)
    (h : simDrive F H (lastEffRepeated V) P s init aux = .ok t) :
    t.cyc = s.cyc ∧ t.cyc0 = s.cyc0 ∧ t.rows.length = s.cyc0.length ∧ t.aux.length = s.cyc0.length := by
  have key : ∀ soc : K, walk F H (lastEffRepeated V) P { s with hevCount := 0 } soc aux = .ok t →
      t.cyc = s.cyc ∧ t.cyc0 = s.cyc0 ∧ t.rows.length = s.cyc0.length ∧ t.aux.length = s.cyc0.length := by
    intro soc hw
    obtain ⟨k, -⟩ := walk_kept (s := { s with hevCount := 0 }) hV hP hlen ht hw
    exact ⟨k.cyc, k.cyc0, k.inv.rows, k.inv.aux⟩
  have e2 : (lastEffRepeated V).ptType = V.ptType := rfl
  unfold simDrive at h
  cases init with
  | some soc => exact key soc h
  | none =>
    simp only [e2] at h
    cases hv : V.ptType with
    | conv => rw [hv] at h; exact key _ h
    | hev => exact absurd hv (hh.resolve_right (by simp))
    | phev => rw [hv] at h; exact key _ h
    | bev => rw [hv] at h; exact key _ h

end Field

section Fuel
variable {K : Type*} [Field K] [LinearOrder K] [IsStrictOrderedRing K] [FloorRing K]
variable {F : Fns K} {V : Veh K} {P : SimParams K} {RH : RsHooks K}

theorem lastEff_fuelSide : lastEffRepeated V = withFuelSide V
    (V.fcEffArray.set (V.fcEffArray.length - 1) (V.fcEffArray.getD (V.fcEffArray.length - 2) 0)) V.fsMaxKw V.fsSecsToPeakPwr :=
  rfl

/-- **C98 (same drive).** A run of the Rust core and the run of the python code drive the same: the same cycle, and in every
sample the same of everything but fuel - speeds, powers, hybrid decisions, states of charge, engine output. -/
theorem C98_same_drive (hV : RsOk V) (hP : PlainDrive P) {s t : Sim K} (hlen : s.cyc.length = s.cyc0.length)
    (ht : s.cyc.times.Pairwise (· ≤ ·)) (init : Option K) (aux : Option (List K))
    (ha : ∀ x, aux = some x → x.length = s.cyc0.length) (hh : V.ptType ≠ .hev ∨ init ≠ none)
    (h : simDrive F (realHooks F V P) V P s init aux = .ok t) :
    ∃ t', rsDrive F RH V P s init aux = .ok t' ∧ t'.cyc = t.cyc ∧ t'.aux = t.aux ∧ t'.rows.length = t.rows.length ∧
      DtNonneg t ∧ simDrive F (realHooks F (lastEffRepeated V) P) (lastEffRepeated V) P s init aux = .ok t' ∧
      ∀ (i : Nat) (r r' : Row K), t.rows[i]? = some r → t'.rows[i]? = some r' → withoutFuel r = withoutFuel r' ∧
        ((∃ a ∈ V.fcKwOutArray, min r.fc.fcKwOutAch V.fcMaxKw < a) → r'.fc.fsKwOutAch = r.fc.fsKwOutAch) ∧
        ∀ eLast ePrev, (∀ a ∈ V.fcKwOutArray, a ≤ min r.fc.fcKwOutAch V.fcMaxKw) →
          V.fcEffArray[V.fcEffArray.length - 1]? = some eLast → V.fcEffArray[V.fcEffArray.length - 2]? = some ePrev →
          eLast ≠ 0 → ePrev ≠ 0 → r.fc.fcKwOutAch ≠ 0 →
          r.fc.fsKwOutAch = r.fc.fcKwOutAch / eLast ∧ r'.fc.fsKwOutAch = r.fc.fcKwOutAch / ePrev := by
  have q := C84_same_drive (F := F) (P := P) (V := V)
    (V.fcEffArray.set (V.fcEffArray.length - 1) (V.fcEffArray.getD (V.fcEffArray.length - 2) 0)) V.fsMaxKw V.fsSecsToPeakPwr
    s init aux hh
  rw [← lastEff_fuelSide] at q
  rw [h] at q
  cases h' : simDrive F (realHooks F (lastEffRepeated V) P) (lastEffRepeated V) P s init aux with
  | error e => rw [h'] at q; exact q.elim
  | ok t' =>
    rw [h'] at q
    have e := C98_run (F := F) (RH := RH) (H := realHooks F (lastEffRepeated V) P) hV hP hlen ht init aux ha hh V.mcPeakEff
      V.maxFcEffKw
    rw [h'] at e
    obtain ⟨-, hl, hrows⟩ := same_drive_rows (F := F) (P := P) (V := V) _ V.fsMaxKw V.fsSecsToPeakPwr hh hlen h h'
    have hx := q.2
    have hcyc : t'.cyc = t.cyc := (congrArg Sim.cyc hx :).symm
    obtain ⟨hk, hk0, -, -⟩ := drive_kept hV hP hlen ht hh h'
    have hdt : DtNonneg t := by
      intro j _ hj
      have f1 := Finished.simDrive realHooks_local hlen h
      rw [f1.atEnd] at hj
      rw [← hcyc, hk]
      refine dtAt_nonneg' ht ?_
      rw [← hk, hcyc]; exact hj
    refine ⟨t', e, hcyc, (congrArg Sim.aux hx :).symm, hl.symm, hdt, rfl, ?_⟩
    intro i r r' h1 h2
    obtain ⟨a1, a2, a3, -⟩ := hrows i r r' h1 h2
    have hnn : 0 ≤ r.fc.fcKwOutAch := by
      have f1 := Finished.simDrive realHooks_local hlen h
      have hlt : i < t.rows.length := (List.getElem?_eq_some_iff.mp h1).1
      rw [f1.lenRows realHooks_local] at hlt
      exact engine_nonneg realHooks_local ⟨hV.fcMax, hV.fcTime⟩ f1.reachable hdt i r (by rw [f1.atEnd]; exact hlt) h1
    refine ⟨a1, fun hb => ?_, fun eLast ePrev hb hl hp hl0 hp0 h0 => ?_⟩
    · rw [a2, a3, ← lastEff_fuelSide]
      unfold fcKwInAch
      rw [fcEffAt_lastEffRepeated hV hnn, if_pos hb]
    · refine ⟨?_, ?_⟩
      · rw [a2]
        unfold fcKwInAch fcEffAt lookupM1
        have q : argmaxGt V.fcKwOutArray (min r.fc.fcKwOutAch V.fcMaxKw) = 0 := by
          rcases _root_.Fastsim.argmaxGt_spec V.fcKwOutArray (min r.fc.fcKwOutAch V.fcMaxKw) with ⟨-, q⟩ | ⟨⟨a, ha, q⟩, -⟩
          · exact q
          · exact absurd q (not_lt.2 (hb a (List.mem_of_getElem? ha)))
        simp only [if_neg h0, q, if_true, List.getLast?_eq_getElem?, hl, Option.getD_some]
        rw [if_pos hl0]
      · rw [a3, ← lastEff_fuelSide]
        unfold fcKwInAch
        rw [if_neg h0, fcEffAt_lastEffRepeated hV hnn,
          if_neg (c := ∃ a ∈ V.fcKwOutArray, min r.fc.fcKwOutAch V.fcMaxKw < a)
            (by rintro ⟨a, ha, hlt⟩; exact absurd hlt (not_lt.2 (hb a ha))), List.getD_eq_getElem?_getD, hp,
          Option.getD_some, if_pos hp0]

/-- **C98 (fuel).** If the engine is no more efficient at full power than at the power before it in its table,
as engine maps usually are, the Rust core never reports more fuel than the python code, over the same miles. -/
theorem C98_fuel (hV : RsOk V) (hP : PlainDrive P) (hpos : ∀ e ∈ V.fcEffArray, 0 < e) {eLast ePrev : K}
    (hl : V.fcEffArray[V.fcEffArray.length - 1]? = some eLast) (hp : V.fcEffArray[V.fcEffArray.length - 2]? = some ePrev)
    (hle : eLast ≤ ePrev) {s t : Sim K} (hlen : s.cyc.length = s.cyc0.length) (ht : s.cyc.times.Pairwise (· ≤ ·))
    (init : Option K) (aux : Option (List K)) (ha : ∀ x, aux = some x → x.length = s.cyc0.length)
    (hh : V.ptType ≠ .hev ∨ init ≠ none) (h : simDrive F (realHooks F V P) V P s init aux = .ok t) :
    ∃ t', rsDrive F RH V P s init aux = .ok t' ∧ totalFuelKwh t' ≤ totalFuelKwh t ∧ totalMiles t' = totalMiles t ∧
      (eLast = ePrev → t' = t) := by
  obtain ⟨t', e, -, -, -, hdt, h', -⟩ := C98_same_drive (RH := RH) hV hP hlen ht init aux ha hh h
  have hb : List.Forall₂ (fun a b => 0 < a ∧ a ≤ b) V.fcEffArray
      (V.fcEffArray.set (V.fcEffArray.length - 1) (V.fcEffArray.getD (V.fcEffArray.length - 2) 0)) := by
    refine forall₂_of_getElem? (by simp) fun i a b h1 h2 => ⟨hpos a (List.mem_of_getElem? h1), ?_⟩
    rw [List.getElem?_set] at h2
    split at h2
    · rename_i hi
      rw [List.getD_eq_getElem?_getD, hp, Option.getD_some] at h2
      split at h2
      · cases h2
        rw [← hi, hl] at h1
        cases h1
        exact hle
      · cases h2
    · rw [h1] at h2
      cases h2
      exact le_refl _
  obtain ⟨-, k1, k2, -⟩ := C84_better hb ⟨hV.fcMax, hV.fcTime⟩ V.fsMaxKw V.fsSecsToPeakPwr hh hlen h h' hdt
  refine ⟨t', e, k1, k2, fun q => ?_⟩
  have h2 := hV.fcTwo
  have hq : lastEffRepeated V = V := lastEff_same (by rw [hV.fcLen]; exact h2) (by rw [hl, hp, q])
  rw [hq, h] at h'
  exact (Except.ok.inj h').symm

/-- **C98 (failures).** The Rust core fails in a run exactly if the python code does. -/
theorem C98_fails (hV : RsOk V) (hP : PlainDrive P) {s : Sim K} (hlen : s.cyc.length = s.cyc0.length)
    (ht : s.cyc.times.Pairwise (· ≤ ·)) (init : Option K) (aux : Option (List K))
    (ha : ∀ x, aux = some x → x.length = s.cyc0.length) (hh : V.ptType ≠ .hev ∨ init ≠ none) :
    (∃ e, rsDrive F RH V P s init aux = .error e) ↔ ∃ e, simDrive F (realHooks F V P) V P s init aux = .error e := by
  have q := C84_same_drive (F := F) (P := P) (V := V)
    (V.fcEffArray.set (V.fcEffArray.length - 1) (V.fcEffArray.getD (V.fcEffArray.length - 2) 0)) V.fsMaxKw V.fsSecsToPeakPwr
    s init aux hh
  rw [← lastEff_fuelSide] at q
  have e := C98_run (F := F) (RH := RH) (H := realHooks F (lastEffRepeated V) P) hV hP hlen ht init aux ha hh V.mcPeakEff
    V.maxFcEffKw
  change rsDrive F RH V P s init aux = _ at e
  rw [e]
  cases h : simDrive F (realHooks F V P) V P s init aux with
  | error x =>
    rw [h] at q
    cases h' : simDrive F (realHooks F (lastEffRepeated V) P) (lastEffRepeated V) P s init aux with
    | error y => exact ⟨fun _ => ⟨_, rfl⟩, fun _ => ⟨_, rfl⟩⟩
    | ok t' => rw [h'] at q; exact q.elim
  | ok t =>
    rw [h] at q
    cases h' : simDrive F (realHooks F (lastEffRepeated V) P) (lastEffRepeated V) P s init aux with
    | error y => rw [h'] at q; exact q.elim
    | ok t' =>
      constructor
      · rintro ⟨_, x⟩; cases x
      · rintro ⟨_, x⟩; cases x

end Fuel
section Demo
open Demo

/-- A car whose engine is at full power after a second, and a cycle that asks for all of it. -/
def quick : Veh ℚ := { conv with fcSecToPeakPwr := 1, fcKwOutArray := [0, 1, 50, 90] }
/-- The cycle that asks for all of it. -/
def rsSprint : Cyc ℚ := [⟨0, 20, 0, 0⟩, ⟨1, 23, 0, 0⟩]

/-- The hypotheses of the theorems about runs are met by the conventional car and the hybrid on the demo cycle, and by the
car and cycle that show the difference. -/
theorem C98_setting : RsOk quick ∧ PlainDrive params ∧ (Sim.new cyc).cyc.times.Pairwise (· ≤ ·) ∧
    (Sim.new rsSprint).cyc.times.Pairwise (· ≤ ·) ∧ hev.ptType = .hev ∧ 0 ≤ hev.minSoc ∧ hev.maxSoc ≤ 1 ∧
    quick.fcEffArray[quick.fcEffArray.length - 1]? = some (3 / 10) ∧
    quick.fcEffArray[quick.fcEffArray.length - 2]? = some (7 / 20) ∧ ∀ e ∈ quick.fcEffArray, 0 < e := by
  refine ⟨?_, ⟨rfl, rfl, rfl⟩, by decide +kernel, by decide +kernel, rfl, by decide +kernel, by decide +kernel, rfl, rfl,
    by decide +kernel⟩
  exact ⟨⟨by decide, by decide +kernel, by decide +kernel, by decide +kernel, by decide +kernel⟩,
      ⟨by decide, by decide +kernel, by decide +kernel, by decide +kernel, by decide +kernel⟩, by decide +kernel,
      by decide +kernel, by decide +kernel, by decide +kernel, by decide +kernel, by decide +kernel, by decide +kernel,
      by decide +kernel, by decide +kernel, by decide +kernel, by decide +kernel, by decide +kernel, by decide +kernel,
      by decide +kernel, by decide +kernel⟩

/-- Hooks of the Rust core that do nothing. -/
def rsNoHooks : RsHooks ℚ := ⟨fun s => .ok s, fun s => .ok s⟩

/-- A run that succeeds and drives, and one in which the Rust core reports less fuel, for the same engine output at 35 % instead of
30 % efficiency. -/
theorem C98_differs :
    (match rsDrive fns rsNoHooks conv params (Sim.new cyc) none none, simDrive fns noHooks conv params (Sim.new cyc) none none with
      | .ok t', .ok t => decide (t'.rows.length = 6 ∧ totalFuelKwh t' = totalFuelKwh t ∧ 0 < totalFuelKwh t)
      | _, _ => false) = true ∧
    (match rsDrive fns rsNoHooks quick params (Sim.new rsSprint) none none,
        simDrive fns noHooks quick params (Sim.new rsSprint) none none with
      | .ok t', .ok t => decide (totalFuelKwh t' * (7 / 20) = totalFuelKwh t * (3 / 10) ∧ 0 < totalFuelKwh t')
      | _, _ => false) = true := by
  decide +kernel

end Demo
end Fastsim.Props
