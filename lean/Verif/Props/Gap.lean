import Verif.Model.Peaks
import Verif.Lemmas.Dist
import Verif.Lemmas.Basic
import Verif.Lemmas.Coast
import Verif.Props.Real
import Verif.Props.Loops
import Verif.Props.Speed
import Verif.Lemmas.Once
import Verif.Spec.Demo

/-!
# C61: the gap to the lead vehicle
-/

set_option linter.unusedSectionVars false

namespace Fastsim.Spec

section Lawless
variable {K : Type*} [Zero K] [One K] [NatCast K] [Add K] [Sub K] [Mul K] [Div K] [Neg K]
  [LinearOrder K]

/-- The trace actually driven: the times of the run with the speeds achieved. -/
def driven (s : Sim K) : Cyc K := List.zipWith (fun x r => { x with v := r.ach.mpsAch }) s.cyc s.rows

/-- The driving modes leave the samples before the current step alone. -/
def KeepPast (h : Sim K → Except PyErr (Sim K)) : Prop :=
  ∀ s s', h s = .ok s' → ∀ j, j < s.i → (Cyc.speeds s'.cyc)[j]? = (Cyc.speeds s.cyc)[j]?

end Lawless
end Fastsim.Spec

namespace Fastsim.Props
open Fastsim Spec

section Lawless
variable {K : Type*} [Zero K] [One K] [NatCast K] [Add K] [Sub K] [Mul K] [Div K] [Neg K]
  [LinearOrder K]
variable {F : Fns K} {H : Hooks K} {V : Veh K} {P : SimParams K}

theorem speeds_setSpeed_get (c : Cyc K) (i j : Nat) (v : K) :
    (Cyc.speeds (setSpeed c i v))[j]? = if i = j then (c[j]?).map fun _ => v else (Cyc.speeds c)[j]? := by
  simp only [Cyc.speeds, setSpeed, List.getElem?_map, List.getElem?_modify]
  cases c[j]? with
  | none => simp
  | some x => by_cases h : i = j <;> simp [h]

theorem finishStep_speeds (s : Sim K) (hm : (P.coastAllow || P.idmAllow) = true) (j : Nat) :
    (Cyc.speeds (finishStep F P s).cyc)[j]? =
      if s.i = j then (s.cyc[j]?).map fun _ => (s.rows.getD s.i Row.zero).ach.mpsAch
      else (Cyc.speeds s.cyc)[j]? := by
  rw [← speeds_setSpeed_get]
  simp only [finishStep, hm, if_true, Cyc.speeds, List.getElem?_map, List.getElem?_modify]
  cases (setSpeed s.cyc s.i (s.rows.getD s.i Row.zero).ach.mpsAch)[j]? with
  | none => simp
  | some x => by_cases h : s.i = j <;> simp [h]

/-- With a driving mode on, the working cycle holds the speeds achieved so far. -/
theorem driven_speeds (hH : H.Local) (hI : P.idmAllow = true → KeepPast H.idm)
    (hC : P.coastAllow = true → KeepPast H.coast) (hm : (P.coastAllow || P.idmAllow) = true) {s : Sim K}
    (h : Reachable F H V P s) :
    ∀ j, j < s.i → (Cyc.speeds s.cyc)[j]? = (s.rows[j]?).map fun r => r.ach.mpsAch := by
  induction h with
  | @init s s' soc aux hlen h =>
    have q := initForStep_spec hlen h
    intro j hj
    have : j = 0 := by have := q.i; omega
    subst this
    rw [q.row0, q.eq]
    have hpos := q.pos
    have hmode : (P.missedTrace || P.idmAllow || P.coastAllow) = true := by
      rcases (Bool.or_eq_true _ _).mp hm with e | e <;> simp [e]
    simp only [initState, hmode, if_true, Option.map_some, Row.init]
    have : Cyc.speeds s.cyc0 ≠ [] := by
      intro e
      have := congrArg List.length e
      simp [Cyc.speeds] at this
      rw [this] at hpos
      simp at hpos
    cases hc : Cyc.speeds s.cyc0 with
    | nil => exact absurd hc this
    | cons a l => simp [Row.zero]
  | @step s s' hs hlt h ih =>
    obtain ⟨hW, -⟩ := Reachable.inv hH hs
    have ha := (simDriveStep_inv hH hW hlt h).2
    intro j hj
    rw [ha.1] at hj
    unfold simDriveStep at h
    split at h
    · simp at h
    · rename_i s1 h1
      have e1 : s1.i = s.i ∧ s1.cyc.length = s.cyc.length ∧
          ∀ j < s.i, (Cyc.speeds s1.cyc)[j]? = (Cyc.speeds s.cyc)[j]? := by
        split at h1
        · rename_i hp
          exact ⟨(hH.idm _ _ h1).2.1, (hH.idm _ _ h1).1.lenCyc, hI hp _ _ h1⟩
        · cases h1; exact ⟨rfl, rfl, fun _ _ => rfl⟩
      split at h
      · simp at h
      · rename_i s2 h2
        have e2 : s2.i = s.i ∧ s2.cyc.length = s.cyc.length ∧
            ∀ j < s.i, (Cyc.speeds s2.cyc)[j]? = (Cyc.speeds s.cyc)[j]? := by
          split at h2
          · rename_i hp
            refine ⟨(hH.coast _ _ h2).2.1.trans e1.1, (hH.coast _ _ h2).1.lenCyc.trans e1.2.1, fun j hj => ?_⟩
            rw [hC hp _ _ h2 j (by omega), e1.2.2 j hj]
          · cases h2; exact e1
        simp only [Except.ok.injEq] at h
        subst h
        have hcor := solveAndCorrect_corrects (F := F) (V := V) (P := P) s2
        rw [finishStep_speeds _ hm]
        by_cases hji : j = s.i
        · rw [if_pos (by rw [hcor.i, e2.1, hji])]
          have hlen : j < (solveAndCorrect F V P s2).cyc.length := by
            have : (Cyc.speeds (solveAndCorrect F V P s2).cyc).length = (Cyc.speeds s2.cyc).length := by
              rw [hcor.speeds]
            simp only [Cyc.speeds, List.length_map] at this
            omega
          have hr : j < (solveAndCorrect F V P s2).rows.length := by
            have := ha.2.lenRows
            rw [finishStep_rows, hW.lenRows] at this
            omega
          rw [finishStep_rows, hcor.i, e2.1, ← hji, List.getD_eq_getElem?_getD, List.getElem?_eq_getElem hlen,
            List.getElem?_eq_getElem hr]
          rfl
        · rw [if_neg (by rw [hcor.i, e2.1]; omega), hcor.speeds, e2.2.2 j (by omega), ih j (by omega),
            ha.2.rows j (by omega)]

theorem driven_take {s : Sim K} (hl : s.rows.length = s.cyc.length) {n : Nat}
    (h : ∀ j, j < n → (Cyc.speeds s.cyc)[j]? = (s.rows[j]?).map fun r => r.ach.mpsAch) :
    (driven s).take n = s.cyc.take n := by
  apply List.ext_getElem?
  intro j
  rcases Nat.lt_or_ge j n with hj | hj
  · rw [List.getElem?_take_of_lt hj, List.getElem?_take_of_lt hj]
    have := h j hj
    simp only [driven, Cyc.speeds, List.getElem?_map, List.getElem?_zipWith] at this ⊢
    rcases Nat.lt_or_ge j s.cyc.length with hc | hc
    · rw [List.getElem?_eq_getElem hc, List.getElem?_eq_getElem (by omega)] at this ⊢
      simp only [Option.map_some, Option.some.injEq] at this ⊢
      rw [← this]
    · rw [List.getElem?_eq_none hc]
  · rw [List.getElem?_take_eq_none hj, List.getElem?_take_eq_none hj]

theorem idmHook_keepPast : KeepPast (idmHook F P (K := K)) := by
  intro s s' h j hj
  obtain ⟨_, _, v, -, -, -, rfl⟩ := C30_hook h
  rw [speeds_setSpeed_get, if_neg (by omega)]

end Lawless

section Field
variable {K : Type*} [Field K] [LinearOrder K] [IsStrictOrderedRing K]
variable {F : Fns K} {H : Hooks K} {V : Veh K} {P : SimParams K}

theorem gapToLead_get {s : Sim K} (hl : s.cyc.length = s.cyc0.length) {j : Nat} (hj : j < s.cyc.length) :
    (gapToLead P s)[j]? = some (distance (s.cyc0.take (j + 1)) - distance (s.cyc.take (j + 1))
      + if P.idmAllow then P.idmMinimumGap else 0) := by
  have e1 := trapzDistances_get s.cyc0 j (by omega)
  have e2 := trapzDistances_get s.cyc j hj
  unfold gapToLead
  cases P.idmAllow <;>
    simp [List.getElem?_zipWith, e1, e2]

theorem distance_congr : ∀ {a b : Cyc K}, Cyc.times a = Cyc.times b → Cyc.speeds a = Cyc.speeds b →
    distance a = distance b
  | [], b, h, _ => by
    have : b = [] := List.map_eq_nil_iff.1 h.symm
    rw [this]
  | [x], b, h, _ => by
    obtain ⟨y, rfl⟩ : ∃ y, b = [y] := by
      have := congrArg List.length h
      simp only [Cyc.times, List.length_map, List.length_cons, List.length_nil] at this
      exact List.length_eq_one_iff.1 this.symm
    rfl
  | x :: x' :: a, b, h, hv => by
    match b, h, hv with
    | [], h, _ => simp [Cyc.times] at h
    | [y], h, _ => simp [Cyc.times] at h
    | y :: y' :: b, h, hv =>
      have ih := distance_congr (a := x' :: a) (b := y' :: b) (by
        simp only [Cyc.times, List.map_cons, List.cons.injEq] at h ⊢; exact h.2) (by
        simp only [Cyc.speeds, List.map_cons, List.cons.injEq] at hv ⊢; exact hv.2)
      simp only [Cyc.times, Cyc.speeds, List.map_cons, List.cons.injEq] at h hv
      simp only [distance, ih, h.1, h.2.1, hv.1, hv.2.1]

/-- **C61 (the reported gap).** With car following or coasting on, at every simulated sample: the distance of the
lead trace minus the distance of the trace actually driven, plus the minimum gap when car following. -/
theorem C61_gap (hH : H.Local) (hI : P.idmAllow = true → KeepPast H.idm)
    (hC : P.coastAllow = true → KeepPast H.coast) (hm : P.coastAllow = true ∨ P.idmAllow = true) {s : Sim K}
    (h : Reachable F H V P s) (hl : s.cyc.length = s.cyc0.length) {j : Nat} (hj : j < s.i) :
    (gapToLead P s)[j]? = some (distance (s.cyc0.take (j + 1)) - distance ((driven s).take (j + 1))
      + if P.idmAllow then P.idmMinimumGap else 0) := by
  obtain ⟨hW, -⟩ := Reachable.inv hH h
  have hle := hW.le
  rw [gapToLead_get hl (by omega), driven_take hW.lenRows fun k hk =>
    driven_speeds hH hI hC (by rcases hm with e | e <;> simp [e]) h k (by omega)]

/-- **C61 (the start).** The first gap is the minimum gap when car following, and zero otherwise. -/
theorem C61_start {s : Sim K} (hl : s.cyc.length = s.cyc0.length) (h0 : 0 < s.cyc.length) :
    (gapToLead P s)[0]? = some (if P.idmAllow then P.idmMinimumGap else 0) := by
  rw [gapToLead_get hl h0]
  have hd : ∀ c : Cyc K, distance (c.take 1) = 0 := by
    intro c
    cases c with
    | nil => rfl
    | cons a l => rfl
  simp [hd]

/-- **C61 (gaps stay).** Gaps reported for simulated samples do not change in later steps. -/
theorem C61_frozen (hH : H.Local) (hI : P.idmAllow = true → KeepPast H.idm)
    (hC : P.coastAllow = true → KeepPast H.coast) (hm : P.coastAllow = true ∨ P.idmAllow = true) {s s' : Sim K}
    (h : Reachable F H V P s) (hl : s.cyc.length = s.cyc0.length) (hlt : s.i < s.cyc.length)
    (hs : simDriveStep F H V P s = .ok s') {j : Nat} (hj : j < s.i) :
    (gapToLead P s')[j]? = (gapToLead P s)[j]? := by
  obtain ⟨hW, -⟩ := Reachable.inv hH h
  obtain ⟨hW', hi, ha⟩ := simDriveStep_inv hH hW hlt hs
  have hmm : (P.coastAllow || P.idmAllow) = true := by rcases hm with e | e <;> simp [e]
  have d := driven_speeds hH hI hC hmm h
  have d' := driven_speeds hH hI hC hmm (h.step hlt hs)
  rw [gapToLead_get hl (by omega), gapToLead_get (by rw [ha.lenCyc, ha.cyc0, hl]) (by rw [ha.lenCyc]; omega), ha.cyc0]
  congr 3
  refine distance_congr (List.ext_getElem? fun k => ?_) (List.ext_getElem? fun k => ?_)
  · rcases Nat.lt_or_ge k (j + 1) with hk | hk
    · have := ha.times k (by omega)
      simp only [Cyc.times, List.getElem?_map, List.getElem?_take_of_lt hk] at this ⊢
      exact this
    · simp only [Cyc.times, List.getElem?_map, List.getElem?_take_eq_none hk]
  · rcases Nat.lt_or_ge k (j + 1) with hk | hk
    · have := (d' k (by omega)).trans ((congrArg _ (ha.rows k (by omega))).trans (d k (by omega)).symm)
      simp only [Cyc.speeds, List.getElem?_map, List.getElem?_take_of_lt hk] at this ⊢
      exact this
    · simp only [Cyc.speeds, List.getElem?_map, List.getElem?_take_eq_none hk]

/-- **C61 (the driver acts on it).** With a non-negative minimum gap the speed car following chooses in a step is
that of the driver model for the gap reported for the sample before. -/
theorem C61_acted_on (hi : P.idmAllow = true) (hg : 0 ≤ P.idmMinimumGap) {s s' : Sim K}
    (hl : s.cyc.length = s.cyc0.length) (h1 : 1 ≤ s.i) (hlt : s.i < s.cyc.length) (h : idmHook F P s = .ok s') :
    ∃ vDesired gap, (gapToLead P s)[s.i - 1]? = some gap ∧
      (Cyc.speeds s'.cyc)[s.i]? = some (idmSpeed F P.idmAccel P.idmDecel P.idmDtHeadway P.idmMinimumGap vDesired
        P.idmDelta (s.rows.getD (s.i - 1) Row.zero).ach.mpsAch (s.cyc0.speeds.getD (s.i - 1) 0) gap
        (dtAt s.cyc s.i)) := by
  obtain ⟨tgt, vD, v, -, -, hv, rfl⟩ := C30_hook h
  refine ⟨vD, _, gapToLead_get hl (by omega), ?_⟩
  rw [speeds_setSpeed_get, if_pos rfl, List.getElem?_eq_getElem hlt, Option.map_some, hv]
  congr 2
  rw [List.getD_eq_getElem?_getD, trapzDistances_get _ _ (by omega), trapzStepStartDistance_eq, hi, max_eq_right hg,
    Nat.sub_add_cancel h1]
  simp only [Option.getD_some, if_true]
  ring

/-- **C61 refuted for plain runs.** Without driving modes and missed-trace correction every reported gap is zero,
even where the vehicle falls behind the trace. -/
theorem C61_plain_zero (hH : H.Local) (hi : P.idmAllow = false) (hc : P.coastAllow = false)
    (hm : P.missedTrace = false) {c : Cyc K} {init : Option K} {aux : Option (List K)} {s : Sim K}
    (h : simDrive F H V P (Sim.new c) init aux = .ok s) : ∀ x ∈ gapToLead P s, x = 0 := by
  have hk := simDrive_keeps hH rfl h
  have e : s.cyc = s.cyc0 := by
    rw [hk.cyc0, hk.cyc (by simp [Resets, hi, hc, hm])]
    rfl
  intro x hx
  obtain ⟨j, hj, rfl⟩ := List.mem_iff_getElem.1 hx
  have hlen : j < s.cyc.length := by
    simpa [gapToLead, hi, trapzDistances_length, e] using hj
  have := gapToLead_get (P := P) (by rw [e]) hlen
  rw [List.getElem?_eq_getElem hj, e, hi] at this
  simpa using this

end Field

section Floor
variable {K : Type*} [Field K] [LinearOrder K] [IsStrictOrderedRing K] [FloorRing K]
variable {F : Fns K} {V : Veh K} {P : SimParams K}

theorem coastHook_keepPast : KeepPast (coastHook F V P (K := K)) := by
  intro s s' h j hj
  have := (coastHook_edit h).before j hj
  simp only [Cyc.speeds, List.getElem?_map, this]

/-- **C61 for the driving modes of the code.** -/
theorem C61_real (hm : P.coastAllow = true ∨ P.idmAllow = true) {c : Cyc K} {init : Option K}
    {aux : Option (List K)} {s : Sim K} (h : simDrive F (realHooks F V P) V P (Sim.new c) init aux = .ok s)
    {j : Nat} (hj : j < c.length) :
    (gapToLead P s)[j]? = some (distance (c.take (j + 1)) - distance ((driven s).take (j + 1))
      + if P.idmAllow then P.idmMinimumGap else 0) := by
  obtain ⟨soc, w⟩ := simDrive_done realHooks_local rfl h
  have q := C61_gap realHooks_local (fun _ => idmHook_keepPast) (fun _ => coastHook_keepPast) hm
    (Reachable.simDrive realHooks_local rfl h) (by rw [w.lenCyc, w.cyc0]) (j := j) (by rw [w.atEnd]; exact hj)
  rw [w.cyc0] at q
  exact q

end Floor

/-! ### Concrete cases -/
open Demo

/-- Reported gaps, achieved speeds below 29 m/s and met samples of a run. -/
def demoGaps (P : SimParams ℚ) (c : Cyc ℚ) : Option (List ℚ × List Bool × List Bool) :=
  match simDrive fns (realHooks fns conv P) conv P (Sim.new c) none none with
  | .ok s => some (gapToLead P s, s.rows.map (fun r => decide (r.ach.mpsAch < 29)), s.rows.map (·.pow.cycMet))
  | .error _ => none

/-- Car following behind the start of the demo cycle: the gap opens. -/
theorem C61_demo : demoGaps { params with idmAllow := true } (cyc.take 3) =
    some ([2, 3, 103 / 18], [true, true, true], [true, true, true]) := by decide +kernel

/-- The vehicle cannot follow the last sample of this trace and falls behind; the reported gap is zero. -/
theorem C61_plain_demo : demoGaps params sprint =
    some ([0, 0, 0], [true, true, true], [true, true, false]) := by decide +kernel

end Fastsim.Props
