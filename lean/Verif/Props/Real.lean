import Verif.Props.Coast
import Verif.Props.Audit
import Verif.Props.Follow
import Verif.Props.Accessory
import Mathlib.Tactic.IntervalCases

/-!
# The driving modes of the code meet the hypotheses on driving modes

Most theorems on runs hold for every car-following and coasting logic meeting locality conditions. Here
the conditions are discharged for the code's own logic (`realHooks`), in all driving modes at once, and
runs are shown to complete (C51).
-/

set_option linter.unusedSectionVars false

namespace Fastsim
open Spec

section Lawless
variable {K : Type*} [Zero K] [One K] [NatCast K] [Add K] [Sub K] [Mul K] [Div K] [Neg K]
  [LinearOrder K]
variable {F : Fns K} {V : Veh K} {P : SimParams K}

theorem CoastEdit.aux {s s' : Sim K} (h : CoastEdit F V P s s') :
    s'.aux = s.aux ∨ s'.aux = auxStep V s.aux s.i := by
  induction h with
  | refl => exact Or.inl rfl
  | speed _ _ _ _ _ ih => exact ih
  | flags _ _ _ _ _ ih => exact ih
  | @solve s' h ih =>
    have e : (resetIters (Sim.solve F V P s')).aux = auxStep V s'.aux s'.i := rfl
    rw [e, h.i]
    rcases ih with ih | ih
    · exact Or.inr (by rw [ih])
    · exact Or.inr (by rw [ih, Props.auxStep_idem])

theorem resetIters_zero (s : Sim K) : ((resetIters s).rows.getD s.i Row.zero).ach.newtonIters = 0 := by
  simp only [resetIters, List.getD_eq_getElem?_getD, List.getElem?_modify]
  cases s.rows[s.i]? with
  | none => rfl
  | some a => simp

theorem CoastEdit.iters {s s' : Sim K} (h : CoastEdit F V P s s')
    (h0 : (s.rows.getD s.i Row.zero).ach.newtonIters = 0) :
    (s'.rows.getD s.i Row.zero).ach.newtonIters = 0 := by
  induction h with
  | refl => exact h0
  | speed _ _ _ _ _ ih => exact ih
  | flags _ _ _ _ _ ih => exact ih
  | @solve s' h ih =>
    have := resetIters_zero (Sim.solve F V P s')
    have e : (Sim.solve F V P s').i = s.i := h.i
    rw [e] at this
    exact this

end Lawless

namespace Props

section
variable {K : Type*} [Field K] [LinearOrder K] [FloorRing K]
variable {F : Fns K} {V : Veh K} {P : SimParams K}

/-- The code's driving modes only touch the cycle and the results from the current step on. -/
theorem realHooks_local : (realHooks (K := K) F V P).Local := ⟨idmHook_local, coastHook_local⟩

/-- … they do not count as trace-miss corrections, -/
theorem realHooks_keepMiss : (realHooks (K := K) F V P).KeepMiss :=
  ⟨idmHook_keepMiss, fun _ _ h => (coastHook_edit h).miss⟩

/-- … leave a cleared iteration counter cleared, -/
theorem realHooks_keepRows : (realHooks (K := K) F V P).KeepRows :=
  ⟨.of_eq fun _ _ h => (idmHook_keeps h).2.1,
    fun _ _ h => ⟨(coastHook_edit h).rows, (coastHook_edit h).iters⟩⟩

/-- … and treat the accessory load as the solver does. -/
theorem realHooks_keepAux : Hooks.KeepAux (realHooks (K := K) F V P) V :=
  ⟨fun _ _ h => (idmHook_keeps h).1, fun _ _ h => (coastHook_edit h).aux⟩

/-- **C25 (all driving modes).** No achieved speed is negative, in any driving mode. -/
theorem C25_real_nonneg (hco : P.coastAllow = true → 0 ≤ P.coastBrakeStartSpeed ∧ 0 ≤ P.coastMaxSpeed)
    {s : Sim K} (h : Reachable F (realHooks F V P) V P s) (h0 : SpeedsNonneg s.cyc0)
    (h1 : P.idmAllow = false → P.coastAllow = false → SpeedsNonneg s.cyc) :
    ∀ r ∈ s.rows, 0 ≤ r.ach.mpsAch :=
  C25_speed_nonneg realHooks_local (fun _ => idmHook_forward)
    (fun e => coastHook_forward ⟨(hco e).1, (hco e).2⟩) h h0 h1

/-- **C33 (all driving modes).** The accessory loads of a run are the prescribed ones, in any driving
mode. -/
theorem C33_real_load {s s' : Sim K} {init : Option K} {aux : Option (List K)}
    (hlen : s.cyc.length = s.cyc0.length) (h : simDrive F (realHooks F V P) V P s init aux = .ok s') :
    s'.aux.length = s.cyc0.length ∧
      ∀ i, s'.aux[i]? = loadAt V (prescribed s.cyc0.length aux) i :=
  C33_load realHooks_local realHooks_keepAux hlen h

end

section
variable {K : Type*} [Field K] [LinearOrder K] [IsStrictOrderedRing K] [FloorRing K]
variable {F : Fns K} {V : Veh K} {P : SimParams K}

/-- **C22 (all driving modes).** The energy audit of a run without missed-trace correction, in any
driving mode. -/
theorem C22_real_wheels (hm : P.missedTrace = false) (hb : BatteryOrNone V)
    {s : Sim K} (h : Finished F (realHooks F V P) V P s) (hdt : DtPos s) (h0 : s.cyc.times.getD 0 0 = 0) :
    suppliedKj V s - netKj F V s =
      overSteps s (fun i => unbalancedKw (s.row i) (s.aux.getD i 0) * dtAt s.cyc i)
      + overSteps s (fun i => ((s.row i).pow.transKwOutAch - (s.row i).pow.cycTransKwOutReq) * dtAt s.cyc i)
      + (wheelKj V s.lastRow.ach.mpsAch - wheelKj V s.firstRow.ach.mpsAch) :=
  C22_wheels realHooks_local realHooks_keepRows hm hb h hdt h0

/-- **C29 (all driving modes).** Every step is stretched by a bounded number of bounded factors, whether
or not the vehicle coasts or follows another one. -/
theorem C29_real_run (hm : P.missedTrace = true)
    (hb : P.minTimeDilation ≤ P.maxTimeDilation) {s : Sim K} (h : Reachable F (realHooks F V P) V P s) :
    (s.cyc.map Sample.t).getD 0 0 = (s.cyc0.map Sample.t).getD 0 0 ∧
    (∀ i, 1 ≤ i → i < s.i → ∃ ts : List K,
      (∀ t ∈ ts, P.minTimeDilation ≤ t ∧ t ≤ P.maxTimeDilation) ∧
      ts.length ≤ max 2 P.maxTraceMissIters ∧ s.missIters[i]? = some ts.length ∧
      duration s.cyc i = duration s.cyc0 i * stretch ts) ∧
    ∀ i, s.i ≤ i → i < s.cyc0.length → duration s.cyc i = duration s.cyc0 i :=
  C29_run realHooks_local realHooks_keepMiss hm hb h

/-- **C25 (distance, all driving modes).** -/
theorem C25_real_distance (hco : P.coastAllow = true → 0 ≤ P.coastBrakeStartSpeed ∧ 0 ≤ P.coastMaxSpeed)
    {s : Sim K} (h : Reachable F (realHooks F V P) V P s) (h0 : SpeedsNonneg s.cyc0)
    (h1 : P.idmAllow = false → P.coastAllow = false → SpeedsNonneg s.cyc) (hdt : DtNonneg s) :
    (∀ i p r dt a, StepAt s i p r dt a → r.ach.distM = r.ach.mpsAch * dt ∧
      r.ach.distMi = r.ach.distM / 1609 ∧ r.ach.mphAch = r.ach.mpsAch * (22369 / 10000)) ∧
    (∀ i j, i ≤ j → j ≤ s.i →
      0 ≤ ((s.rows.take i).map fun r => r.ach.distM).sum ∧
      ((s.rows.take i).map fun r => r.ach.distM).sum ≤
        ((s.rows.take j).map fun r => r.ach.distM).sum) :=
  C25_distance realHooks_local (fun _ => idmHook_forward)
    (fun e => coastHook_forward ⟨(hco e).1, (hco e).2⟩) h h0 h1 hdt

/-! ## Runs complete -/

/-- What a run needs to complete: a car-following table that is not empty, a negative brake acceleration,
and, when coasting, steps shorter than two seconds that trace-miss correction does not stretch. -/
structure Runnable (P : SimParams K) (c0 : Cyc K) : Prop where
  table : P.idmAllow = true → P.idmByDistance ≠ some []
  brake : P.coastAllow = true → P.coastBrakeAccel < 0
  steps : P.coastAllow = true → ShortSteps c0
  miss : P.coastAllow = true → P.missedTrace = false

theorem idmHook_ok (ht : P.idmByDistance ≠ some []) (s : Sim K) : ∃ s', idmHook F P s = .ok s' := by
  unfold idmHook idmTargetFor
  cases h : P.idmByDistance with
  | none => exact ⟨_, rfl⟩
  | some l =>
    cases l with
    | nil => exact absurd h ht
    | cons p r => exact ⟨_, rfl⟩

/-- While coasting without trace-miss correction, the times of the cycle are those of the trace. -/
theorem Reachable.coastTimes {H : Hooks K} (hH : H.Local) (hc : P.coastAllow = true) (hm : P.missedTrace = false)
    {s : Sim K} (h : Reachable F H V P s) : Cyc.times s.cyc = Cyc.times s.cyc0 := by
  induction h with
  | init hlen h =>
    have q := initForStep_spec hlen h
    rw [q.eq]
    simp [initState, hc, initArrays]
  | step hs hlt h ih =>
    rename_i s s'
    obtain ⟨-, -, ha⟩ := simDriveStep_inv hH (Reachable.inv hH hs).1 hlt h
    rw [ha.cyc0, ← ih]
    unfold simDriveStep at h
    split at h
    · simp at h
    rename_i s1 h1
    have e1 : Cyc.times s1.cyc = Cyc.times s.cyc := by
      split at h1
      · exact (hH.idm _ _ h1).2.2
      · cases h1; rfl
    split at h
    · simp at h
    rename_i s2 h2
    have e2 : Cyc.times s2.cyc = Cyc.times s1.cyc := by
      rw [if_pos hc] at h2
      exact (hH.coast _ _ h2).2.2
    rw [solveAndCorrect_off hm] at h
    simp only [Except.ok.injEq] at h
    rw [← h, finishStep_times]
    exact e2.trans e1

/-- **C51 (no step raises).** Every step of a run on a trace that meets `Runnable` completes, in any
driving mode, whatever the vehicle. -/
theorem C51_step {s : Sim K} (h : Reachable F (realHooks F V P) V P s) (hlt : s.i < s.cyc.length)
    (hr : Runnable P s.cyc0) : ∃ s', simDriveStep F (realHooks F V P) V P s = .ok s' := by
  have hI := (Reachable.inv realHooks_local h).1
  unfold simDriveStep
  have h1 : ∃ s1, (if P.idmAllow then (realHooks F V P).idm s else .ok s) = Except.ok s1 := by
    split
    · rename_i e
      exact idmHook_ok (hr.table e) s
    · exact ⟨s, rfl⟩
  obtain ⟨s1, h1⟩ := h1
  rw [h1]
  have e1 : s1.i = s.i ∧ Cyc.times s1.cyc = Cyc.times s.cyc := by
    split at h1
    · have := (realHooks_local (F := F) (V := V) (P := P)).idm _ _ h1
      exact ⟨this.2.1, this.2.2⟩
    · cases h1; exact ⟨rfl, rfl⟩
  have h2 : ∃ s2, (if P.coastAllow then (realHooks F V P).coast s1 else .ok s1) = Except.ok s2 := by
    split
    · rename_i e
      refine C31_never_raises (hr.brake e) ((hr.steps e).congr ?_) ?_ ?_
      · rw [e1.2, Reachable.coastTimes realHooks_local e (hr.miss e) h]
      · intro hn
        have hl := congrArg List.length e1.2
        simp only [Cyc.times, List.length_map, hn, List.length_nil] at hl
        omega
      · rw [e1.1]; exact hI.pos
    · exact ⟨s1, rfl⟩
  obtain ⟨s2, h2⟩ := h2
  simp only
  rw [h2]
  exact ⟨_, rfl⟩

theorem walkLoop_ok : ∀ (n : Nat) (s : Sim K), Reachable F (realHooks F V P) V P s →
    s.cyc.length ≤ s.i + n → Runnable P s.cyc0 →
    ∃ s', walkLoop F (realHooks F V P) V P n s = .ok s'
  | 0, s, _, hn, _ => ⟨s, by unfold walkLoop; rw [if_neg (by omega)]⟩
  | n + 1, s, h, hn, hr => by
    unfold walkLoop
    split
    · rename_i hlt
      obtain ⟨s', hs⟩ := C51_step h hlt hr
      obtain ⟨-, hi, ha⟩ := simDriveStep_inv realHooks_local (Reachable.inv realHooks_local h).1 hlt hs
      rw [hs]
      exact walkLoop_ok n s' (h.step hlt hs) (by rw [hi, ha.lenCyc]; omega) (by rw [ha.cyc0]; exact hr)
    · exact ⟨s, rfl⟩

/-- The outcome of `sim_drive_walk` on a non-empty trace meeting `Runnable`. -/
theorem C51_walk (s : Sim K) (hlen : s.cyc.length = s.cyc0.length) (hpos : 0 < s.cyc0.length) (soc : K)
    (aux : Option (List K)) (hr : Runnable P s.cyc0) :
    ((V.ptType = .conv ∨ (V.minSoc ≤ soc ∧ soc ≤ V.maxSoc)) ∧
      ∃ s', walk F (realHooks F V P) V P s soc aux = .ok s') ∨
    ((V.ptType ≠ .conv ∧ (V.maxSoc < soc ∨ soc < V.minSoc)) ∧
      walk F (realHooks F V P) V P s soc aux = .error .valueError) := by
  by_cases hsoc : V.ptType ≠ .conv ∧ (V.maxSoc < soc ∨ soc < V.minSoc)
  · refine Or.inr ⟨hsoc, ?_⟩
    unfold walk initForStep
    rw [if_pos hsoc]
  · have h1 : initForStep V P s soc aux = .ok (initState V P s soc aux) := by
      unfold initForStep
      rw [if_neg hsoc, if_neg (by omega)]
    have q := initForStep_spec hlen h1
    refine Or.inl ⟨q.socOk, ?_⟩
    unfold walk
    rw [h1]
    exact walkLoop_ok _ _ (.init hlen h1) (by omega) (by rw [q.cyc0]; exact hr)

/-- **C51 (a run completes).** `sim_drive` completes on every non-empty trace meeting `Runnable`, for
conventional vehicles, plug-in hybrids and electric vehicles and, given an initial state of charge inside
the window, for hybrids (whose charge balancing may leave the window: `C47_balancing_raises`). -/
theorem C51_run (s : Sim K) (hlen : s.cyc.length = s.cyc0.length) (hpos : 0 < s.cyc0.length)
    (init : Option K) (aux : Option (List K)) (hwin : V.minSoc ≤ V.maxSoc)
    (hini : ∀ soc, init = some soc → V.ptType = .conv ∨ (V.minSoc ≤ soc ∧ soc ≤ V.maxSoc))
    (hhev : init = none → V.ptType ≠ .hev) (hr : Runnable P s.cyc0) :
    ∃ s', simDrive F (realHooks F V P) V P s init aux = .ok s' ∧
      Finished F (realHooks F V P) V P s' ∧ s'.cyc0 = s.cyc0 := by
  have key : ∀ soc, (V.ptType = .conv ∨ (V.minSoc ≤ soc ∧ soc ≤ V.maxSoc)) →
      ∃ s', walk F (realHooks F V P) V P { s with hevCount := 0 } soc aux = .ok s' := by
    intro soc hs
    rcases C51_walk (F := F) (V := V) { s with hevCount := 0 } hlen hpos soc aux hr with h | h
    · exact h.2
    · exfalso
      rcases hs with e | e
      · exact h.1.1 e
      · rcases h.1.2 with h | h
        · exact absurd e.2 (not_le.2 h)
        · exact absurd e.1 (not_le.2 h)
  have hw : ∃ soc s', simDrive F (realHooks F V P) V P s init aux = .ok s' ∧
      walk F (realHooks F V P) V P { s with hevCount := 0 } soc aux = .ok s' := by
    unfold simDrive
    simp only
    cases init with
    | some soc =>
      obtain ⟨s', h⟩ := key soc (hini soc rfl)
      exact ⟨soc, s', h, h⟩
    | none =>
      cases hv : V.ptType with
      | conv =>
        obtain ⟨s', h⟩ := key ((V.maxSoc + V.minSoc) / 2) (Or.inl hv)
        exact ⟨_, s', h, h⟩
      | hev => exact absurd hv (hhev rfl)
      | phev =>
        obtain ⟨s', h⟩ := key V.maxSoc (Or.inr ⟨hwin, le_rfl⟩)
        exact ⟨_, s', h, h⟩
      | bev =>
        obtain ⟨s', h⟩ := key V.maxSoc (Or.inr ⟨hwin, le_rfl⟩)
        exact ⟨_, s', h, h⟩
  obtain ⟨soc, s', h, hw⟩ := hw
  exact ⟨s', h, Finished.simDrive realHooks_local hlen h,
    (walk_done realHooks_local (s := { s with hevCount := 0 }) hlen hw).cyc0⟩

theorem hevLoop_outcome (aux : Option (List K)) (count : Nat) (e soc : K) (s : Sim K)
    (hlen : s.cyc.length = s.cyc0.length) (hpos : 0 < s.cyc0.length) (hr : Runnable P s.cyc0) :
    (∃ r, hevLoop F (realHooks F V P) V P aux count e soc s = .ok r) ∨
      hevLoop F (realHooks F V P) V P aux count e soc s = .error .valueError := by
  fun_induction hevLoop F (realHooks F V P) V P aux count e soc s with
  | case1 aux count e soc s hc err hw =>
    rcases C51_walk (F := F) (V := V) { s with hevCount := count + 1 } hlen hpos soc aux hr with ⟨-, s', h⟩ | ⟨-, h⟩
    · rw [h] at hw; simp at hw
    · rw [h] at hw
      simp only [Except.error.injEq] at hw
      exact Or.inr (by rw [hw])
  | case2 aux count e soc s hc s1 hw ih =>
    have hd := walk_done realHooks_local (s := { s with hevCount := count + 1 }) hlen hw
    have h0 : s1.cyc0 = s.cyc0 := hd.cyc0
    exact ih (by rw [hd.lenCyc, hd.cyc0]) (by rw [h0]; exact hpos) (by rw [h0]; exact hr)
  | case3 => exact Or.inl ⟨_, rfl⟩

/-- **C51 (the only failure).** On a non-empty trace meeting `Runnable`, `sim_drive` either completes or
raises the `ValueError` about the initial state of charge, for every vehicle, initial state of charge,
accessory override and driving mode. -/
theorem C51_only_failure (s : Sim K) (hlen : s.cyc.length = s.cyc0.length) (hpos : 0 < s.cyc0.length)
    (init : Option K) (aux : Option (List K)) (hr : Runnable P s.cyc0) :
    (∃ s', simDrive F (realHooks F V P) V P s init aux = .ok s') ∨
      simDrive F (realHooks F V P) V P s init aux = .error .valueError := by
  have key : ∀ soc, (∃ s', walk F (realHooks F V P) V P { s with hevCount := 0 } soc aux = .ok s') ∨
      walk F (realHooks F V P) V P { s with hevCount := 0 } soc aux = .error .valueError := fun soc =>
    (C51_walk (F := F) (V := V) { s with hevCount := 0 } hlen hpos soc aux hr).imp And.right And.right
  unfold simDrive
  simp only
  cases init with
  | some soc => exact key soc
  | none =>
    cases hv : V.ptType with
    | conv => exact key _
    | phev => exact key _
    | bev => exact key _
    | hev =>
      simp only
      rcases hevLoop_outcome (F := F) (V := V) aux 0 1 ((V.maxSoc + V.minSoc) / 2) { s with hevCount := 0 } hlen hpos hr
        with ⟨r, h⟩ | h
      · rw [h]
        obtain ⟨k1, k2⟩ := hevLoop_keeps realHooks_local _ _ _ { s with hevCount := 0 } hlen h
        have k1' : r.1.cyc0 = s.cyc0 := k1
        exact (C51_walk (F := F) (V := V) r.1 (by rw [k2, k1]) (by rw [k1']; exact hpos) _ _
          (by rw [k1']; exact hr)).imp And.right And.right
      · rw [h]; exact Or.inr rfl

end

/-! ### Concrete cases -/

open Demo

/-- Car following and coasting, both switched on. -/
def bothModes : SimParams ℚ :=
  { params with idmAllow := true, coastAllow := true, missedTrace := false }

/-- A trace that approaches a stop. -/
def approachTrace : Cyc ℚ :=
  [⟨0, 0, 0, 0⟩, ⟨1, 2, 0, 0⟩, ⟨2, 3, 0, 0⟩, ⟨3, 0, 0, 0⟩, ⟨4, 0, 0, 0⟩]

/-- The hypotheses of `C51_run` hold, with both driving modes on. -/
theorem C51_demo : Runnable bothModes approachTrace ∧ 0 < approachTrace.length ∧ conv.minSoc ≤ conv.maxSoc ∧
    conv.ptType ≠ .hev := by
  refine ⟨⟨fun _ => by decide +kernel, fun _ => by decide +kernel, fun _ => ?_, fun _ => rfl⟩,
    by decide, by decide +kernel, by decide⟩
  intro j x y hx hy
  have hj : j < 4 := by
    have := (List.getElem?_eq_some_iff.1 hy).1
    simp only [approachTrace, List.length_cons, List.length_nil] at this
    omega
  interval_cases j <;> simp only [approachTrace, List.getElem?_cons_zero, List.getElem?_cons_succ,
    Option.some.injEq] at hx hy <;> subst hx <;> subst hy <;> norm_num

/-- Outcome of a run in short. -/
def outcome (r : Except PyErr (Sim ℚ)) : Option PyErr :=
  match r with
  | .ok _ => none
  | .error e => some e

/-- The parameters with an empty table of desired speeds. -/
def emptyTable : SimParams ℚ := { bothModes with idmByDistance := some [] }

/-- Coasting only, from 9 m/s on. -/
def coastOnly : SimParams ℚ := { params with coastAllow := true, coastStartSpeed := 9 }

/-- The approach with steps of two seconds. -/
def slowSteps : Cyc ℚ := CoastDemo.approach2.cyc0

/-- Conditions of `Runnable` are needed: an empty table of desired speeds raises `IndexError`; coasting on
two-second steps divides by zero. -/
theorem C51_conditions_needed :
    outcome (simDrive fns (realHooks fns conv emptyTable) conv emptyTable (Sim.new approachTrace) none none)
      = some .indexError ∧
    outcome (simDrive fns (realHooks fns CoastDemo.car coastOnly) CoastDemo.car coastOnly
      (Sim.new slowSteps) none none) = some .zeroDivision := by
  decide +kernel

end Props
end Fastsim
