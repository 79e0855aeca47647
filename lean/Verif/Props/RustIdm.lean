import Verif.Model.RsIdm
import Verif.Props.RustRun
import Verif.Props.RustCycle
import Verif.Props.Follow
import Verif.Props.EcoCruise
import Verif.Model.Peaks

/-!
# C100: car following of the Rust core is that of the python code

Behind a lead vehicle on a level road, a whole run of the Rust core with car following is the run of the python code, except
for the fuel of an engine at full power (C96). The set-up for eco-cruise is the same except for extensions of half a second.
-/

set_option linter.unusedSectionVars false

namespace Fastsim.Spec
open Fastsim
variable {K : Type*}

/-- Car following as the only manoeuvre. -/
structure FollowDrive (P : SimParams K) : Prop where
  coast : P.coastAllow = false
  idm : P.idmAllow = true
  trace : P.missedTrace = false

/-- A level road. -/
def LevelRoad [Zero K] (c : Cyc K) : Prop := ∀ x ∈ c, x.g = 0

end Fastsim.Spec

namespace Fastsim.Props
open Fastsim Spec

section Field
variable {K : Type*} [Field K] [LinearOrder K] [IsStrictOrderedRing K]
variable {F : Fns K} {V : Veh K} {P : SimParams K} {H : Hooks K} {RH : RsHooks K}

/-! ### One step of the driver model -/

theorem rsAbs_eq (x : K) : rsAbs x = pabs x := rfl

/-- **C100 (next speed).** The next speed of the driver model is the same number in both programs. -/
theorem C100_next_speed {s : Sim K} (h0 : s.cyc0 ≠ []) (hi : 1 ≤ s.i) (hi' : s.i < s.cyc.length)
    (a b headway s0 vDesired delta : K) :
    rsNextSpeedByIdm F s a b headway s0 vDesired delta = nextSpeedByIdm F s a b headway s0 vDesired delta := by
  have hc : s.cyc ≠ [] := by rintro e; rw [e] at hi'; simp at hi'
  unfold rsNextSpeedByIdm nextSpeedByIdm idmSpeed
  rw [(C99_distances h0).2.1, (C99_distances hc).2.2.2.1 _ hi'.le, rsDtAt_eq _ hi, rsAbs_eq, rsAbs_eq, max_comm headway 0]

theorem rsMaxOf_eq {l : List K} (h : l ≠ []) : rsMaxOf l = .ok (maxOf l) := by
  cases l with
  | nil => exact absurd rfl h
  | cons x l =>
    have : (fun m y : K => if m < y then y else m) = max := by
      funext m y
      rcases lt_or_ge m y with h | h
      · rw [if_pos h, max_eq_right h.le]
      · rw [if_neg (not_lt.2 h), max_eq_left h]
    unfold rsMaxOf maxOf
    rw [this]

theorem rsLookup_eq (d : K) : ∀ (l : List (K × K)) (f : K), rsLookupTarget d f l = lookupTarget d f l
  | [], _ => rfl
  | p :: l, f => by
    unfold rsLookupTarget lookupTarget
    rw [rsLookup_eq d l]

/-- **C100 (desired speed).** Of a cycle that starts at time zero, both programs choose the same desired speed, and an empty
table fails in both. -/
theorem C100_target {s : Sim K} (hc : s.cyc ≠ []) (h0 : s.cyc.times.getD 0 0 = 0) :
    rsIdmTarget P s = sameOutcome (idmTargetFor P s) := by
  have hd : rsDist s.cyc = distM s.cyc := by
    unfold rsDist distM
    rw [rsDt_start (by simpa using hc) h0]
  unfold rsIdmTarget idmTargetFor
  cases P.idmByDistance with
  | none => rfl
  | some t =>
    cases t with
    | nil => rfl
    | cons p r =>
      simp only [hd, rsLookup_eq]
      rfl

/-- **C100 (hook).** The car-following part of a step is the same, or the same failure. -/
theorem C100_hook {s : Sim K} (h0 : s.cyc0 ≠ []) (hi : 1 ≤ s.i) (hi' : s.i < s.cyc.length) (ht : s.cyc.times.getD 0 0 = 0) :
    rsIdmHook F P s = sameOutcome (idmHook F P s) := by
  have hc : s.cyc ≠ [] := by rintro e; rw [e] at hi'; simp at hi'
  unfold rsIdmHook idmHook
  rw [C100_target hc ht]
  cases idmTargetFor P s with
  | error e => rfl
  | ok v =>
    have hs : s.cyc0.speeds ≠ [] := by simpa [Cyc.speeds] using h0
    simp only [sameOutcome]
    unfold rsSetSpeedForTargetGap setSpeedForTargetGap
    simp only
    split
    · rename_i e he
      split at he
      · cases he
      · rw [rsMaxOf_eq hs] at he; cases he
    · rename_i w hw
      have hw : w = if 0 < (s.idmTarget.set s.i v).getD s.i 0 then (s.idmTarget.set s.i v).getD s.i 0
          else maxOf s.cyc0.speeds := by
        split at hw
        · rename_i q; cases hw; rw [if_pos q]
        · rename_i q; rw [rsMaxOf_eq hs] at hw; cases hw; rw [if_neg q]
      rw [← hw, C100_next_speed (s := { s with idmTarget := s.idmTarget.set s.i v }) h0 hi hi']
      rfl

/-! ### Steps and walks -/

theorem level_all {c : Cyc K} (h : LevelRoad c) : gradeAllZero c = true := by
  unfold gradeAllZero Cyc.grades
  simp only [List.all_map, List.all_eq_true, Function.comp_apply, decide_eq_true_eq]
  exact h

theorem stepOk_level {n : Nat} {s : Sim K} (hz : gradeAllZero s.cyc0 = true) (hI : RunInv n s) (hi : s.i < n) (U : Veh K) :
    RsStepOk (stepEnv F U P s) (s.rows.getD (s.i - 1) Row.zero) := by
  refine ⟨dtAt_nonneg' hI.times (by rw [hI.cyc]; exact hi), rfl, ?_, fun v => ?_⟩
  · have hl : s.i - 1 < s.rows.length := by rw [hI.rows]; have := hI.pos; omega
    rw [List.getD_eq_getElem?_getD, List.getElem?_eq_getElem hl, Option.getD_some]
    exact hI.engine _ (List.getElem_mem hl)
  · show lookupGradeAch F P s v = estimateGrade F P s
    unfold lookupGradeAch estimateGrade
    rw [if_pos hz, if_pos hz]

theorem rsSolve_level (hV : RsOk V) {n : Nat} {s : Sim K} (hz : gradeAllZero s.cyc0 = true) (hI : RunInv n s) (hi : s.i < n)
    (a b : K) : rsSolve F (withRead V a b) P s = .ok (Sim.solve F (lastEffRepeated V) P s) := by
  have hok := stepOk_level (F := F) (P := P) hz hI hi (lastEffRepeated V)
  have hp := hI.pos
  have hc : ¬ (s.i = 0 ∨ s.aux.length ≤ s.i ∨ s.rows.length ≤ s.i ∨ s.cyc.length ≤ s.i) := by
    rw [hI.aux, hI.rows, hI.cyc]; omega
  have hE : ({ dt := rsDtAt s.cyc s.i
               mps := s.cyc.speeds.getD s.i 0
               gradeOf := rsLookupGradeAch F P s
               gradeEst := rsEstimateGrade F P s
               auxIn := (rsAuxStep (withRead V a b) s.aux s.i).getD s.i 0
               coast := s.impose.getD s.i false
               roadKw := 0 } : StepEnv K) = stepEnv F (lastEffRepeated V) P s := by
    unfold stepEnv
    have e2 : rsLookupGradeAch F P s = lookupGradeAch F P s := by
      funext v
      unfold rsLookupGradeAch lookupGradeAch
      rw [if_pos hz, if_pos hz]
    have e3 : rsEstimateGrade F P s = estimateGrade F P s := by
      unfold rsEstimateGrade estimateGrade
      rw [if_pos hz, if_pos hz]
    rw [rsDtAt_eq _ hp, e2, e3]
    rfl
  unfold rsSolve
  rw [if_neg hc]
  simp only [hE, rsSolveStep_withRead, C96_step hV hok]
  rfl

/-- What both loops keep. -/
structure FollowInv (c0 : Cyc K) (s : Sim K) : Prop where
  inv : RunInv c0.length s
  cyc0 : s.cyc0 = c0
  same : s.cyc.times = c0.times

theorem times_modify (c : Cyc K) (i : Nat) (f : Sample K → Sample K) (hf : ∀ x, (f x).t = x.t) :
    Cyc.times (c.modify i f) = c.times := by
  unfold Cyc.times
  apply List.ext_getElem
  · simp
  · intro j h1 h2
    simp only [List.getElem_map, List.getElem_modify]
    split
    · exact hf _
    · rfl

/-- Car following changes one speed. -/
theorem followInv_hook {c0 : Cyc K} {s s1 : Sim K} (hI : FollowInv c0 s) (h : idmHook F P s = .ok s1) :
    FollowInv c0 s1 ∧ s1.i = s.i := by
  unfold idmHook at h
  split at h
  · cases h
  · cases h
    refine ⟨⟨⟨hI.inv.pos, ?_, hI.inv.rows, hI.inv.aux, ?_, hI.inv.engine⟩, hI.cyc0, ?_⟩, rfl⟩
    · simp [setSpeedForTargetGap, setSpeed, hI.inv.cyc]
    · show (Cyc.times (setSpeed s.cyc _ _)).Pairwise _
      rw [setSpeed, times_modify _ _ _ fun _ => by rfl]
      exact hI.inv.times
    · show Cyc.times (setSpeed s.cyc _ _) = _
      rw [setSpeed, times_modify _ _ _ fun _ => by rfl]
      exact hI.same

theorem followInv_finish (hV : RsOk V) {c0 : Cyc K} {s : Sim K} (hz : gradeAllZero c0 = true) (hI : FollowInv c0 s)
    (hi : s.i < c0.length) : FollowInv c0 (finishStep F P (Sim.solve F (lastEffRepeated V) P s)) := by
  have hok := stepOk_level (F := F) (P := P) (by rw [hI.cyc0]; exact hz) hI.inv hi (lastEffRepeated V)
  have hrows : ∀ r ∈ (Sim.solve F (lastEffRepeated V) P s).rows, 0 ≤ r.fc.fcKwOutAch := by
    intro r hr
    have hr : r ∈ s.rows.set s.i (solveStep F (lastEffRepeated V) P.toStepParams (stepEnv F (lastEffRepeated V) P s)
      (s.rows.getD (s.i - 1) Row.zero) (s.rows.getD s.i Row.zero).stale) := hr
    rcases List.mem_or_eq_of_mem_set hr with h | rfl
    · exact hI.inv.engine r h
    · rw [solveStep_lastEffRepeated]
      exact solveStep_fc_nonneg hV hok _
  have haux : (Sim.solve F (lastEffRepeated V) P s).aux.length = c0.length := by
    show (auxStep (lastEffRepeated V) s.aux s.i).length = _
    unfold auxStep
    split <;> simp [hI.inv.aux]
  have hl : (Sim.solve F (lastEffRepeated V) P s).rows.length = c0.length := by
    simp [Sim.solve, hI.inv.rows]
  unfold finishStep
  split
  · refine ⟨⟨by simp, ?_, hl, haux, ?_, hrows⟩, hI.cyc0, ?_⟩
    · simp only [setSpeed, List.length_modify]; exact hI.inv.cyc
    · simp only [setSpeed]
      rw [times_modify _ _ _ fun _ => by rfl, times_modify _ _ _ fun _ => by rfl]
      exact hI.inv.times
    · simp only [setSpeed]
      rw [times_modify _ _ _ fun _ => by rfl, times_modify _ _ _ fun _ => by rfl]
      exact hI.same
  · exact ⟨⟨by simp, hI.inv.cyc, hl, haux, hI.inv.times, hrows⟩, hI.cyc0, hI.same⟩

/-- One step. -/
theorem rsStep_follow (hV : RsOk V) (hP : FollowDrive P) (hH : H.idm = idmHook F P) (hR : RH.idm = rsIdmHook F P)
    {c0 : Cyc K} (hz : gradeAllZero c0 = true) (ht0 : c0.times.getD 0 0 = 0) {s : Sim K} (hI : FollowInv c0 s)
    (hi : s.i < c0.length) (a b : K) :
    rsStep F RH (withRead V a b) P s = sameOutcome (simDriveStep F H (lastEffRepeated V) P s) := by
  have hc0 : s.cyc0 ≠ [] := by
    rw [hI.cyc0]; rintro e; rw [e] at hi; simp at hi
  unfold rsStep simDriveStep
  rw [hH, hR]
  simp only [hP.coast, hP.idm, hP.trace, if_true, Bool.false_eq_true, if_false, false_and]
  rw [C100_hook hc0 hI.inv.pos (by rw [hI.inv.cyc]; exact hi) (by rw [hI.same]; exact ht0)]
  cases h : idmHook F P s with
  | error e => rfl
  | ok s1 =>
    obtain ⟨g1, g2⟩ := followInv_hook hI h
    simp only [sameOutcome]
    rw [rsSolve_level hV (by rw [g1.cyc0]; exact hz) g1.inv (by rw [g2]; exact hi)]
    have e1 : solveAndCorrect F (lastEffRepeated V) P s1 = Sim.solve F (lastEffRepeated V) P s1 := by
      unfold solveAndCorrect; simp [hP.trace]
    rw [e1]
    have hz' : gradeAllZero (Sim.solve F (lastEffRepeated V) P s1).cyc0 = true := by
      show gradeAllZero s1.cyc0 = true
      rw [g1.cyc0]; exact hz
    unfold finishStep rsLookupGrade lookupGrade
    simp only [hP.coast, hP.idm, Bool.false_or, if_true, hz', setSpeed]

theorem rsWalkLoop_follow (hV : RsOk V) (hP : FollowDrive P) (hH : H.idm = idmHook F P) (hR : RH.idm = rsIdmHook F P)
    {c0 : Cyc K} (hz : gradeAllZero c0 = true) (ht0 : c0.times.getD 0 0 = 0) (a b : K) : ∀ (m : Nat) {s : Sim K},
    FollowInv c0 s → c0.length ≤ s.i + m →
    rsWalkLoop F RH (withRead V a b) P m s = sameOutcome (walkLoop F H (lastEffRepeated V) P m s) := by
  intro m
  induction m with
  | zero =>
    intro s hI hm
    unfold rsWalkLoop walkLoop
    have : ¬ s.i < s.cyc.length := by rw [hI.inv.cyc]; omega
    rw [if_neg this, if_neg this]
    rfl
  | succ m ih =>
    intro s hI hm
    unfold rsWalkLoop walkLoop
    by_cases hi : s.i < s.cyc.length
    · rw [if_pos hi, if_pos hi]
      rw [hI.inv.cyc] at hi
      rw [rsStep_follow (H := H) hV hP hH hR hz ht0 hI hi a b]
      cases h : simDriveStep F H (lastEffRepeated V) P s with
      | error e => rfl
      | ok s' =>
        simp only [sameOutcome]
        have : FollowInv c0 s' ∧ s'.i = s.i + 1 := by
          unfold simDriveStep at h
          rw [hH] at h
          simp only [hP.coast, hP.idm, if_true, Bool.false_eq_true, if_false] at h
          split at h
          · cases h
          · rename_i s1 h1
            obtain ⟨g1, g2⟩ := followInv_hook hI h1
            have e1 : solveAndCorrect F (lastEffRepeated V) P s1 = Sim.solve F (lastEffRepeated V) P s1 := by
              unfold solveAndCorrect; simp [hP.trace]
            rw [e1] at h
            cases h
            refine ⟨followInv_finish hV hz g1 (by rw [g2]; exact hi), ?_⟩
            rw [← g2]
            unfold finishStep
            split <;> rfl
        exact ih this.1 (by rw [this.2]; omega)
    · rw [if_neg hi, if_neg hi]
      rfl

/-- **C100 (walk).** Following a lead vehicle on a level road, `sim_drive_walk` of the Rust core is that of the python code on
the vehicle whose last engine efficiency is repeated: the same figure in every array at every sample, or the same failure. -/
theorem C100_walk (hV : RsOk V) (hP : FollowDrive P) (hH : H.idm = idmHook F P) (hR : RH.idm = rsIdmHook F P) {s : Sim K}
    (hz : LevelRoad s.cyc0) (ht0 : s.cyc0.times.getD 0 0 = 0) (hlen : s.cyc.length = s.cyc0.length)
    (ht : s.cyc0.times.Pairwise (· ≤ ·)) (soc : K) (aux : Option (List K))
    (ha : ∀ x, aux = some x → x.length = s.cyc0.length) (a b : K) :
    rsWalk F RH (withRead V a b) P s soc aux = sameOutcome (walk F H (lastEffRepeated V) P s soc aux) := by
  unfold rsWalk walk rsInitForStep initForStep
  have e1 : (withRead V a b).ptType = V.ptType := rfl
  have e2 : (lastEffRepeated V).ptType = V.ptType := rfl
  have e3 : (withRead V a b).minSoc = V.minSoc := rfl
  have e4 : (withRead V a b).maxSoc = V.maxSoc := rfl
  have e5 : (lastEffRepeated V).minSoc = V.minSoc := rfl
  have e6 : (lastEffRepeated V).maxSoc = V.maxSoc := rfl
  rw [e1, e2, e3, e4, e5, e6]
  by_cases hs : V.ptType = .conv ∨ (V.minSoc ≤ soc ∧ soc ≤ V.maxSoc)
  · have hs' : ¬ (V.ptType ≠ .conv ∧ (V.maxSoc < soc ∨ soc < V.minSoc)) := by
      rintro ⟨h1, h2⟩
      rcases hs with h | ⟨h3, h4⟩
      · exact h1 h
      · rcases h2 with h2 | h2
        · exact absurd h4 (not_le.2 h2)
        · exact absurd h3 (not_le.2 h2)
    rw [if_pos hs, if_neg hs']
    by_cases h0 : s.cyc0.length = 0
    · rw [if_pos h0, if_pos (Or.inr h0)]
      rfl
    · rw [if_neg h0, if_neg (c := s.cyc.length = 0 ∨ s.cyc0.length = 0) (by rw [hlen]; simp [h0])]
      have hinit : ({ rsInitArrays s with
          aux := aux.getD (List.replicate s.cyc0.length 0)
          rows := (rsInitArrays s).rows.set 0 (Row.init (withRead V a b) soc (s.cyc0.speeds.getD 0 0)
            ((aux.getD (List.replicate s.cyc0.length 0)).getD 0 0))
          cyc := if P.missedTrace || P.idmAllow || P.coastAllow then s.cyc0 else s.cyc
          i := 1 } : Sim K) = initState (lastEffRepeated V) P s soc aux := by
        unfold initState initArrays rsInitArrays
        have hx := initAux_eq aux ha
        simp only [hlen, hx]
        rfl
      simp only
      rw [hinit]
      have hc : (initState (lastEffRepeated V) P s soc aux).cyc = s.cyc0 := by
        unfold initState
        simp [hP.coast, hP.idm, hP.trace]
      have hI : FollowInv s.cyc0 (initState (lastEffRepeated V) P s soc aux) := by
        refine ⟨⟨le_refl 1, by rw [hc], ?_, ?_, by rw [hc]; exact ht, ?_⟩, rfl, by rw [hc]⟩
        · simp [initState, initArrays, hlen]
        · show (initAux s.cyc.length aux).length = _
          cases aux with
          | none => simp [initAux, hlen]
          | some x => rw [hlen, initAux_eq _ ha]; exact ha x rfl
        · intro r hr
          have hr : r ∈ (List.replicate s.cyc.length (Row.zero : Row K)).set 0 (Row.init (lastEffRepeated V) soc
            (s.cyc0.speeds.getD 0 0) ((initAux s.cyc.length aux).getD 0 0)) := hr
          rcases List.mem_or_eq_of_mem_set hr with h | rfl
          · rw [List.eq_of_mem_replicate h]; exact le_refl _
          · exact le_refl _
      have hc' : (if P.missedTrace || P.idmAllow || P.coastAllow then s.cyc0 else s.cyc) = s.cyc0 := hc
      rw [hc, hc']
      exact rsWalkLoop_follow hV hP hH hR (level_all hz) ht0 a b _ hI (Nat.le_add_left _ _)
  · have hs' : V.ptType ≠ .conv ∧ (V.maxSoc < soc ∨ soc < V.minSoc) := by
      refine ⟨fun h => hs (Or.inl h), ?_⟩
      by_contra h
      have h := not_or.1 h
      exact hs (Or.inr ⟨not_lt.1 h.2, not_lt.1 h.1⟩)
    rw [if_neg hs, if_pos hs']
    rfl

/-- **C100 (run).** The same for `sim_drive`, for every powertrain; for hybrids with an initial state of charge that is given. -/
theorem C100_run (hV : RsOk V) (hP : FollowDrive P) (hH : H.idm = idmHook F P) (hR : RH.idm = rsIdmHook F P) {s : Sim K}
    (hz : LevelRoad s.cyc0) (ht0 : s.cyc0.times.getD 0 0 = 0) (hlen : s.cyc.length = s.cyc0.length)
    (ht : s.cyc0.times.Pairwise (· ≤ ·)) (init : Option K) (aux : Option (List K))
    (ha : ∀ x, aux = some x → x.length = s.cyc0.length) (hh : V.ptType ≠ .hev ∨ init ≠ none) (a b : K) :
    rsDrive F RH (withRead V a b) P s init aux = sameOutcome (simDrive F H (lastEffRepeated V) P s init aux) := by
  have key : ∀ soc : K, rsWalk F RH (withRead V a b) P { s with hevCount := 0 } soc aux =
      sameOutcome (walk F H (lastEffRepeated V) P { s with hevCount := 0 } soc aux) :=
    fun soc => C100_walk (s := { s with hevCount := 0 }) hV hP hH hR hz ht0 hlen ht soc aux ha a b
  have e1 : (withRead V a b).ptType = V.ptType := rfl
  have e2 : (lastEffRepeated V).ptType = V.ptType := rfl
  unfold rsDrive simDrive
  cases init with
  | some soc => exact key soc
  | none =>
    simp only [e1, e2]
    cases hv : V.ptType with
    | conv => exact key _
    | hev => exact absurd hv (hh.resolve_right (by simp))
    | phev => exact key _
    | bev => exact key _

/-! ### The gap -/

/-- **C100 (gap).** The gap to the lead vehicle is the same in both programs at every sample. -/
theorem C100_gap {s : Sim K} (h0 : s.cyc0 ≠ []) (hc : s.cyc ≠ []) : rsGap P s = gapToLead P s := by
  unfold rsGap gapToLead
  rw [(C99_distances h0).2.1, (C99_distances hc).2.1]

end Field

section Floor
variable {K : Type*} [Field K] [LinearOrder K] [IsStrictOrderedRing K] [FloorRing K]
variable {F : Fns K} {V : Veh K} {P : SimParams K} {RH : RsHooks K}

/-- **C100 (same drive).** Behind a lead vehicle on a level road the two programs drive the same: the same speeds in the cycle
and in every sample the same of everything but fuel. -/
theorem C100_same_drive (hV : RsOk V) (hP : FollowDrive P) (hR : RH.idm = rsIdmHook F P) {s t : Sim K}
    (hz : LevelRoad s.cyc0) (ht0 : s.cyc0.times.getD 0 0 = 0) (hlen : s.cyc.length = s.cyc0.length)
    (ht : s.cyc0.times.Pairwise (· ≤ ·)) (init : Option K) (aux : Option (List K))
    (ha : ∀ x, aux = some x → x.length = s.cyc0.length) (hh : V.ptType ≠ .hev ∨ init ≠ none)
    (h : simDrive F (realHooks F V P) V P s init aux = .ok t) :
    ∃ t', rsDrive F RH V P s init aux = .ok t' ∧ t'.cyc = t.cyc ∧ t'.rows.length = t.rows.length ∧
      ∀ (i : Nat) (r r' : Row K), t.rows[i]? = some r → t'.rows[i]? = some r' → withoutFuel r = withoutFuel r' := by
  have q := C84_same_drive (F := F) (P := P) (V := V)
    (V.fcEffArray.set (V.fcEffArray.length - 1) (V.fcEffArray.getD (V.fcEffArray.length - 2) 0)) V.fsMaxKw V.fsSecsToPeakPwr
    s init aux hh
  rw [← lastEff_fuelSide, h] at q
  cases h' : simDrive F (realHooks F (lastEffRepeated V) P) (lastEffRepeated V) P s init aux with
  | error e => rw [h'] at q; exact q.elim
  | ok t' =>
    have e := C100_run (F := F) (RH := RH) (H := realHooks F (lastEffRepeated V) P) hV hP rfl hR hz ht0 hlen ht init aux ha hh
      V.mcPeakEff V.maxFcEffKw
    rw [h'] at e
    obtain ⟨hc, hl, hrows⟩ := same_drive_rows (F := F) (P := P) (V := V) _ V.fsMaxKw V.fsSecsToPeakPwr hh hlen h h'
    exact ⟨t', e, hc.symm, hl.symm, fun i r r' h1 h2 => (hrows i r r' h1 h2).1⟩

/-- **C100 (fails).** The Rust core fails in such a run exactly if the python code does. -/
theorem C100_fails (hV : RsOk V) (hP : FollowDrive P) (hR : RH.idm = rsIdmHook F P) {s : Sim K}
    (hz : LevelRoad s.cyc0) (ht0 : s.cyc0.times.getD 0 0 = 0) (hlen : s.cyc.length = s.cyc0.length)
    (ht : s.cyc0.times.Pairwise (· ≤ ·)) (init : Option K) (aux : Option (List K))
    (ha : ∀ x, aux = some x → x.length = s.cyc0.length) (hh : V.ptType ≠ .hev ∨ init ≠ none) :
    (∃ e, rsDrive F RH V P s init aux = .error e) ↔ ∃ e, simDrive F (realHooks F V P) V P s init aux = .error e := by
  have q := C84_same_drive (F := F) (P := P) (V := V)
    (V.fcEffArray.set (V.fcEffArray.length - 1) (V.fcEffArray.getD (V.fcEffArray.length - 2) 0)) V.fsMaxKw V.fsSecsToPeakPwr
    s init aux hh
  rw [← lastEff_fuelSide] at q
  have e := C100_run (F := F) (RH := RH) (H := realHooks F (lastEffRepeated V) P) hV hP rfl hR hz ht0 hlen ht init aux ha hh
    V.mcPeakEff V.maxFcEffKw
  change rsDrive F RH V P s init aux = _ at e
  rw [e]
  cases h : simDrive F (realHooks F V P) V P s init aux with
  | error x =>
    rw [h] at q
    cases h' : simDrive F (realHooks F (lastEffRepeated V) P) (lastEffRepeated V) P s init aux with
    | error y => exact ⟨fun _ => ⟨_, rfl⟩, fun _ => ⟨_, rfl⟩⟩
    | ok t' => rw [h'] at q; exact q.elim
  | ok t =>
    rw [h] at q
    cases h' : simDrive F (realHooks F (lastEffRepeated V) P) (lastEffRepeated V) P s init aux with
    | error y => rw [h'] at q; exact q.elim
    | ok t' =>
      constructor
      · rintro ⟨_, x⟩; cases x
      · rintro ⟨_, x⟩; cases x

/-! ### Eco-cruise -/

theorem rsEcoExtend_eq {e : Eco K} (hc : e.cyc0 ≠ []) {x : K} (hx : ∀ m : ℤ, x * endTime e.cyc0 ≠ m + 1 / 2) :
    rsEcoExtend e x = ((ecoExtend e x).1.map sameFailure, (ecoExtend e x).2) := by
  unfold rsEcoExtend ecoExtend
  by_cases h : x < 0
  · rw [if_pos (not_le.2 h), if_pos h]; rfl
  · rw [if_neg (not_not.2 (not_lt.1 h)), if_neg h]
    by_cases h1 : 0 < x
    · rw [if_pos h1, if_pos h1]
      obtain ⟨k1, k2, -⟩ := C99_extend hc 0 hx
      rw [Int.cast_zero] at k1
      rw [k2]
      cases hq : extendCycle e.cyc0 0 x with
      | error er => rw [hq] at k1; exact k1.elim
      | ok c => rw [hq] at k1; rw [k1]; rfl
    · rw [if_neg h1, if_neg h1]; rfl

/-- **C100 (eco-cruise).** `activate_eco_cruise` leaves the same settings and the same cycle, or the same failure, for a cycle
that starts at time zero, unless the extension asked for is a half. -/
theorem C100_eco {e : Eco K} (hc : e.cyc0 ≠ []) (h0 : e.cyc0.times.getD 0 0 = 0) (byMicrotrip : Bool) {x : K}
    (hx : ∀ m : ℤ, x * endTime e.cyc0 ≠ m + 1 / 2) (blend minTarget : K) :
    rsActivateEcoCruise e byMicrotrip x blend minTarget =
      ((activateEcoCruise e byMicrotrip x blend minTarget).1.map sameFailure,
        (activateEcoCruise e byMicrotrip x blend minTarget).2) := by
  have hl : e.cyc0.length ≠ 0 := by simpa using hc
  have hd : (rsDist e.cyc0).take e.cyc0.length = distM e.cyc0 := by
    have : rsDist e.cyc0 = distM e.cyc0 := by
      unfold rsDist distM
      rw [rsDt_start hl h0]
    rw [this]
    apply List.take_of_length_le
    unfold distM
    rw [List.length_zipWith]
    simp [Cyc.speeds]
  have hv : rsMeanSpeed e.cyc0 = if 0 < e.cyc0.length ∧ 0 < e.cyc0.times.getLast?.getD 0 then
        npSum (distM e.cyc0) / e.cyc0.times.getLast?.getD 0 else 0 := by
    unfold rsMeanSpeed
    rw [hd]
    cases hq : e.cyc0.times.getLast? with
    | none => simp
    | some t =>
      have hp : 0 < e.cyc0.length := by omega
      simp only [hp, true_and, Option.getD_some]
      rfl
  have hE : ∀ p : SimParams K, rsEcoExtend ⟨p, e.cyc0, e.cyc⟩ x =
      ((ecoExtend ⟨p, e.cyc0, e.cyc⟩ x).1.map sameFailure, (ecoExtend ⟨p, e.cyc0, e.cyc⟩ x).2) :=
    fun p => rsEcoExtend_eq (e := ⟨p, e.cyc0, e.cyc⟩) hc hx
  unfold rsActivateEcoCruise activateEcoCruise
  simp only
  cases byMicrotrip with
  | false =>
    simp only [if_true]
    rw [hv]
    exact hE _
  | true =>
    simp only [Bool.true_eq_false, if_false]
    by_cases hb : 1 < blend ∨ blend < 0
    · rw [if_pos hb, if_pos (by rintro ⟨k1, k2⟩; rcases hb with q | q; exacts [absurd k2 (not_le.2 q), absurd k1 (not_le.2 q)])]
      rfl
    · have hb' := not_or.1 hb
      rw [if_neg hb, if_neg (not_not.2 ⟨not_lt.1 hb'.2, not_lt.1 hb'.1⟩)]
      by_cases hm : minTarget < 0
      · rw [if_pos hm, if_pos (not_le.2 hm)]; rfl
      · rw [if_neg hm, if_neg (not_not.2 (not_lt.1 hm)), C99_targets]
        exact hE _

end Floor

/-! ### Concrete cases and differences -/

section Demo
open Demo

/-- The manoeuvres of the Rust core, with car following. -/
def rsFollowHooks : RsHooks ℚ := ⟨rsIdmHook fns followParams, fun s => .ok s⟩

/-- The hypotheses of the theorems about runs are met by the car of C98 behind the lead vehicle of C30, and those of
`C100_eco` by that vehicle's cycle with an extension of a third. -/
theorem C100_setting : RsOk quick ∧ FollowDrive followParams ∧ LevelRoad (Sim.new hardStop).cyc0 ∧
    (Sim.new hardStop).cyc0.times.getD 0 0 = 0 ∧ (Sim.new hardStop).cyc0.times.Pairwise (· ≤ ·) ∧
    rsFollowHooks.idm = rsIdmHook fns followParams ∧ ∀ m : ℤ, (1 / 3 : ℚ) * endTime hardStop ≠ m + 1 / 2 := by
  refine ⟨C98_setting.1, ⟨rfl, rfl, rfl⟩, by unfold LevelRoad; decide +kernel, by decide +kernel, by decide +kernel, rfl, ?_⟩
  intro m h
  have e : endTime hardStop = 3 := by decide +kernel
  rw [e] at h
  have h2 : ((2 * m + 1 : ℤ) : ℚ) = ((2 : ℤ) : ℚ) := by push_cast; linarith
  have h3 : 2 * m + 1 = 2 := by exact_mod_cast h2
  omega

/-- A run in which the Rust core follows, and slows down behind the vehicle that stops: the cycle driven is that of python. -/
theorem C100_drives :
    (match rsDrive fns rsFollowHooks conv followParams (Sim.new hardStop) (some (1 / 2)) none, followRun with
      | .ok t', .ok t => decide (t'.cyc.speeds = t.cyc.speeds ∧ t'.cyc.speeds ≠ hardStop.speeds ∧
          rsGap followParams t' = gapToLead followParams t)
      | _, _ => false) = true := by
  decide +kernel

/-- A cycle that starts at ten seconds with 4 m/s. -/
def lateLead : Cyc ℚ := [⟨10, 4, 0, 0⟩, ⟨11, 4, 0, 0⟩, ⟨12, 4, 0, 0⟩]

/-- **C100 (differences).** The python code counts the first time as a step, so that behind a cycle that starts late it looks
up another desired speed; and an extension of two and a half seconds is two in python and three in the Rust core. -/
theorem C100_differs :
    (rsIdmTarget { followParams with idmByDistance := some speedTable } { Sim.new lateLead with i := 2 } = .ok 10 ∧
      idmTargetFor { followParams with idmByDistance := some speedTable } { Sim.new lateLead with i := 2 } = .ok 15) ∧
    ((rsActivateEcoCruise ⟨params, rsRoad, rsRoad⟩ false (5 / 12) 0 8).2.cyc0.length = rsRoad.length + 3 ∧
      (activateEcoCruise ⟨params, rsRoad, rsRoad⟩ false (5 / 12) 0 8).2.cyc0.length = rsRoad.length + 2) := by
  decide +kernel

end Demo
end Fastsim.Props
