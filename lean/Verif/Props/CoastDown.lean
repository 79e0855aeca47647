import Verif.Model.CoastDown
import Verif.Props.Loops
import Verif.Props.Coherent
import Verif.Props.Units
import Verif.Props.Hybrid
import Verif.Props.CalError
import Verif.Spec.Demo

/-!
# C76: recorded road load and coast-down coefficients, C77: imposed coasting
-/

set_option linter.unusedSectionVars false

namespace Fastsim.Spec
section Field
variable {K : Type*} [Field K] [LinearOrder K] [IsStrictOrderedRing K]

/-- Road load in newtons of a vehicle of mass `kg` going from speed `v0` to `v` on the level: resistance at the
mean speed, taken per unit of the speed reached. -/
def meanLoadN (kg area rho grav cd rr v0 v : K) : K :=
  (1 / 2 * rho * cd * area * ((v0 + v) / 2) ^ 3 + kg * grav * rr * ((v0 + v) / 2)) / v

/-- Time-averaged distance of two signals (calibration.py `get_error_val`) up to the first speed below
0.1 m/s; a trace without such a speed is an error. -/
def errUntilStop (speeds times model test : List K) : Except PyErr K :=
  match speeds.findIdx? fun v => decide (v < 1 / 10) with
  | none => .error .indexError
  | some k => getErrorVal (model.take k) (test.take k) (times.take k)

end Field
end Fastsim.Spec

namespace Fastsim.Props
open Fastsim Spec

section Field
variable {K : Type*} [Field K] [LinearOrder K] [IsStrictOrderedRing K]
variable {F : Fns K} {H : Hooks K} {V : Veh K} {P : SimParams K}

/-- **C77 (arrays assigned before a run).** Whatever is written to the result arrays, the accessory array,
the coasting flags, the coast delays or the counters of a simulation before `sim_drive` has no effect. -/
theorem C77_arrays_reset (s : Sim K) (rows : List (Row K)) (aux' : List K) (impose : List Bool)
    (delay : List Int) (tgt : List K) (miss : List Nat) (i n : Nat) (init : Option K)
    (aux : Option (List K)) :
    simDrive F H V P
      { s with
        rows := rows, aux := aux', impose := impose, coastDelay := delay
        idmTarget := tgt, missIters := miss, i := i, hevCount := n } init aux =
    simDrive F H V P s init aux := by
  apply simDrive_same
  exact ⟨rfl, rfl, fun _ => rfl⟩

/-- **C77 (an imposed coast).** In a step flagged as coasting no power is delivered to the wheels. -/
theorem C77_coasting (s : Sim K) (hi : s.i < s.rows.length) (h : s.impose.getD s.i false = true) :
    ((Sim.solve F V P s).row s.i).pow.transKwOutAch ≤ 0 := by
  have hrow : (Sim.solve F V P s).row s.i = solveStep F V P.toStepParams (stepEnv F V P s)
      (s.rows.getD (s.i - 1) Row.zero) (s.rows.getD s.i Row.zero).stale := by
    show (Sim.solve F V P s).rows.getD s.i Row.zero = _
    rw [List.getD_eq_getElem?_getD]
    show ((s.rows.set s.i _)[s.i]?).getD Row.zero = _
    rw [List.getElem?_set_self hi]; rfl
  have hcoast : (stepEnv F V P s).coast = true := h
  rw [hrow]
  obtain ⟨v, hv⟩ := solveStep_pow F V P.toStepParams (stepEnv F V P s) (s.rows.getD (s.i - 1) Row.zero)
    (s.rows.getD s.i Row.zero).stale
  have hz : (setCompLims F V P.toStepParams (stepEnv F V P s) (s.rows.getD (s.i - 1) Row.zero)
      (setMisc V (stepEnv F V P s) (s.rows.getD (s.i - 1) Row.zero))).curMaxTransKwOut = 0 := by
    show curMaxTransKwOut F V P.toStepParams _ _ _ = 0
    unfold curMaxTransKwOut
    rw [if_pos hcoast]
  rw [hv]
  unfold powerAt
  simp only [hz]
  split
  · assumption
  · exact le_rfl

/-- **C77 (imposed coasts of a run).** In every driving mode of the code: the steps that a run has flagged as coasting
delivered no power to the wheels. -/
theorem C77_run [FloorRing K] {s : Sim K} (h : Reachable F (realHooks F V P) V P s) :
    ∀ i, 1 ≤ i → i < s.i → s.impose.getD i false = true → (s.row i).pow.transKwOutAch ≤ 0 := by
  induction h with
  | init hlen h =>
    have q := initForStep_spec hlen h
    intro i h1 h2
    have := q.i
    omega
  | @step s s' hs hlt h ih =>
    obtain ⟨hI, -, -⟩ := Reachable.inv realHooks_local hs
    unfold simDriveStep at h
    split at h
    · cases h
    rename_i s1 h1
    have e1 : s1.i = s.i ∧ s1.rows = s.rows ∧ s1.impose = s.impose := by
      split at h1
      · simp only [realHooks, idmHook] at h1
        split at h1
        · cases h1
        · rw [← Except.ok.inj h1]
          exact ⟨rfl, rfl, rfl⟩
      · rw [← Except.ok.inj h1]
        exact ⟨rfl, rfl, rfl⟩
    split at h
    · cases h
    rename_i s2 h2
    have e2 : s2.i = s1.i ∧ s2.rows.length = s1.rows.length ∧ (∀ j, j ≠ s1.i → s2.rows[j]? = s1.rows[j]?) ∧
        ∀ j, j < s1.i → s2.impose[j]? = s1.impose[j]? := by
      split at h2
      · obtain ⟨a, -, b, -, -, c, -, d, -⟩ := C31_step (F := F) (V := V) (P := P) h2
        exact ⟨a, b, c, d⟩
      · rw [← Except.ok.inj h2]
        exact ⟨rfl, rfl, fun _ _ => rfl, fun _ _ => rfl⟩
    have hcor := solveAndCorrect_corrects (F := F) (V := V) (P := P) s2
    have hfin : s'.i = s2.i + 1 ∧ s'.rows = (solveAndCorrect F V P s2).rows ∧
        s'.impose = (solveAndCorrect F V P s2).impose := by
      rw [← Except.ok.inj h]
      unfold finishStep
      split <;> exact ⟨by simp [hcor.i], rfl, rfl⟩
    obtain ⟨f1, f2, f3⟩ := hfin
    rw [hcor.impose] at f3
    intro i hi1 hi2 hflag
    have hrow : s'.row i = (solveAndCorrect F V P s2).row i := by
      show s'.rows.getD i _ = (solveAndCorrect F V P s2).rows.getD i _
      rw [f2]
    rw [hrow]
    rw [f3] at hflag
    rcases Nat.lt_or_ge i s2.i with hlt2 | hge
    · have hi : i < s.i := by omega
      have : (solveAndCorrect F V P s2).row i = s.row i := by
        show (solveAndCorrect F V P s2).rows.getD i _ = s.rows.getD i _
        rw [List.getD_eq_getElem?_getD, hcor.rows i (by omega), e2.2.2.1 i (by omega), e1.2.1,
          List.getD_eq_getElem?_getD]
      rw [this]
      refine ih i hi1 hi ?_
      rw [List.getD_eq_getElem?_getD, ← e1.2.2, ← e2.2.2.2 i (by omega), ← List.getD_eq_getElem?_getD]
      exact hflag
    · have hi : i = s2.i := by omega
      subst hi
      have hlen : s2.i < s2.rows.length := by
        have := hI.lenRows
        rw [e2.2.1, e1.2.1]; omega
      clear h hrow f2
      have hl : ∀ {t : Sim K}, Corrects F V P s2 t → t.rows.length = s2.rows.length := by
        intro t ht
        induction ht with
        | solve => simp [Sim.solve]
        | again x h ih => simpa [Sim.solve] using ih
        | bump h ih => exact ih
      generalize solveAndCorrect F V P s2 = t at hcor
      induction hcor with
      | solve => exact C77_coasting s2 hlen hflag
      | @again t x h ih =>
        have := C77_coasting (F := F) (V := V) (P := P) { t with cyc := shiftTimesFrom t.cyc t.i x }
          (by show t.i < t.rows.length; rw [h.i, hl h]; exact hlen)
          (by show t.impose.getD t.i false = true; rw [h.i, h.impose]; exact hflag)
        have hti : t.i = s2.i := h.i
        rw [← hti]
        exact this
      | bump h ih => exact ih

/-- **C76 (road load at constant speed).** In a step driven at constant speed on the level, with the standard
air density and gravity, the recorded aerodynamic and rolling resistance is the coast-down polynomial with the
coefficients `drag_coeffs_to_abc` computes for the vehicle. -/
theorem C76_constant_speed (hH : H.Local) (hc : P.coastAllow = false) (hd : P.idmAllow = false)
    (hm : P.missedTrace = false) (hrho : P.airDensity = 12 / 10) (hgr : P.aGrav = 981 / 100)
    (hcos : F.cosAtan 0 = 1) {s : Sim K} (h : Reachable F H V P s)
    (hg : ∀ x ∈ s.cyc0, x.g = 0) {i : Nat} {p r : Row K} {dt a' : K} (hs : StepAt s i p r dt a')
    (hv : r.ach.mpsAch = p.ach.mpsAch) (hpos : 0 < r.ach.mpsAch) {a b c : K}
    (habc : dragCoeffsToAbc F none ⟨V.vehKg, V.frontalAreaM2, V.dragCoef, V.wheelRrCoef⟩ = .ok (a, b, c)) :
    1000 * (r.pow.dragKw + r.pow.rrKw) / r.ach.mpsAch = dynoN a b c r.ach.mphAch := by
  obtain ⟨-, hrec⟩ := Reachable.recInv hc hd h
  obtain ⟨st, hst, hr⟩ := hrec.solved i hs.pos hs.lt
  rw [List.getD_eq_getElem?_getD, hs.prev, hs.row] at hr
  have hr' := Option.some.inj hr
  have e := solveStep_pow_fresh (F := F) (V := V) P.toStepParams (recordedEnv s i) p st (by rw [hst hm]; rfl)
  have hmph : r.ach.mphAch = r.ach.mpsAch * mphPerMps := by rw [hr']; rfl
  rw [Option.getD_some] at hr'
  rw [← hr'] at e
  have hz : ∀ v, (recordedEnv s i).gradeOf v = 0 := by
    intro v
    show recordedGrade s i = 0
    unfold recordedGrade
    rw [if_pos]
    unfold gradeAllZero Cyc.grades
    simp only [List.all_eq_true, List.mem_map, decide_eq_true_eq]
    rintro g ⟨x, hx, rfl⟩
    exact hg x hx
  have h1 : r.pow.dragKw = dragKw V P.toStepParams p.ach.mpsAch r.ach.mpsAch := by rw [e]; rfl
  have h2 : r.pow.rrKw = rrKw F V P.toStepParams 0 p.ach.mpsAch r.ach.mpsAch := by
    rw [e]
    show rrKw F V P.toStepParams ((recordedEnv s i).gradeOf _) _ _ = _
    rw [hz]
  rw [toAbc_eq F none _ (rho := 12 / 10) rfl] at habc
  simp only [Except.ok.injEq, Prod.mk.injEq] at habc
  obtain ⟨rfl, rfl, rfl⟩ := habc
  rw [h1, h2, hmph, ← hv]
  unfold dragKw rrKw dynoN
  rw [hrho, hgr, hcos]
  have hp := hpos.ne'
  have hq := (mphPerMps_pos (K := K)).ne'
  have hn : (nPerLbf : K) ≠ 0 := by unfold nPerLbf; norm_num
  unfold refGrav
  field_simp
  ring

/-- Rows of a plain run on the level that follows its trace. -/
theorem plain_rows (hH : H.Local) (hc : P.coastAllow = false) (hd : P.idmAllow = false)
    (hm : P.missedTrace = false) {cyc : Cyc K} (hg : ∀ x ∈ cyc, x.g = 0) {s s0 : Sim K}
    (h0 : s0.cyc = cyc ∧ s0.cyc0 = cyc) {init : Option K} {aux : Option (List K)}
    (h : simDrive F H V P s0 init aux = .ok s) :
    s.rows.length = cyc.length ∧ 0 < cyc.length ∧
    (∃ soc a, s.rows[0]? = some (Row.init V soc (cyc.speeds.getD 0 0) a)) ∧
    ∀ i, 1 ≤ i → i < cyc.length → (s.row i).pow.dragKw =
        dragKw V P.toStepParams (s.row (i - 1)).ach.mpsAch (s.row i).ach.mpsAch ∧
      (s.row i).pow.rrKw = rrKw F V P.toStepParams 0 (s.row (i - 1)).ach.mpsAch (s.row i).ach.mpsAch ∧
      (s.row i).ach.mphAch = (s.row i).ach.mpsAch * mphPerMps := by
  have hlen : s0.cyc.length = s0.cyc0.length := by rw [h0.1, h0.2]
  have hk := simDrive_keeps hH hlen h
  have hR : ¬ Resets P := by unfold Resets; simp [hc, hd, hm]
  have hcyc : s.cyc = cyc := by rw [hk.cyc hR, h0.1]
  have hcyc0 : s.cyc0 = cyc := by rw [hk.cyc0, h0.2]
  have hfin := Finished.simDrive hH hlen h
  obtain ⟨hI, hpos, soc, -, hrow0⟩ := Reachable.inv hH hfin.reachable
  have hi : s.i = cyc.length := by rw [hfin.atEnd, hcyc]
  rw [hcyc] at hpos
  have hrl : s.rows.length = cyc.length := by rw [hI.lenRows, hcyc]
  refine ⟨hrl, hpos, ⟨soc, _, by rw [hrow0, hcyc0]⟩, fun i h1 h2 => ?_⟩
  obtain ⟨p, r, dt, a, hs⟩ := stepAt_exists hH hfin.reachable h1 (by rw [hi]; exact h2)
  obtain ⟨e1, e2⟩ := stepAt_rows hs
  obtain ⟨-, hrec⟩ := Reachable.recInv hc hd hfin.reachable
  obtain ⟨st, hst, hr⟩ := hrec.solved i hs.pos hs.lt
  have e := solveStep_pow_fresh (F := F) (V := V) P.toStepParams (recordedEnv s i)
    (s.rows.getD (i - 1) Row.zero) st (by rw [hst hm]; rfl)
  have hr' : s.row i = solveStep F V P.toStepParams (recordedEnv s i) (s.rows.getD (i - 1) Row.zero) st := by
    unfold Sim.row
    rw [List.getD_eq_getElem?_getD, hr]; rfl
  have hz : ∀ v, (recordedEnv s i).gradeOf v = 0 := by
    intro v
    show recordedGrade s i = 0
    unfold recordedGrade
    rw [if_pos]
    rw [hcyc0]
    unfold gradeAllZero Cyc.grades
    simp only [List.all_eq_true, List.mem_map, decide_eq_true_eq]
    rintro g ⟨x, hx, rfl⟩
    exact hg x hx
  rw [← hr'] at e
  rw [e]
  refine ⟨rfl, ?_, ?_⟩
  · show rrKw F V P.toStepParams ((recordedEnv s i).gradeOf _) _ _ = _
    rw [hz]
  · rw [hr']; rfl

/-- **C76 (the fit's objective).** When the run keeps to its trace, the error minimised by
`abc_to_drag_coeffs(simdrive_optimize=True)` is a function of the trace, the vehicle's mass and frontal area, the
air density, gravity and the two coefficients tried: the load at the mean speed of each step against the
coast-down polynomial, with a zero in place of the first load. -/
theorem C76_objective (hH : H.Local) (hc : P.coastAllow = false) (hd : P.idmAllow = false)
    (hm : P.missedTrace = false) (hcos : F.cosAtan 0 = 1) {cyc : Cyc K} (hg : ∀ x ∈ cyc, x.g = 0)
    (a b c cd rr : K) {s : Sim K}
    (h : simDrive F H { V with dragCoef := cd, wheelRrCoef := rr } P (Sim.new cyc) none none = .ok s)
    (hmet : s.rows.map (fun r => r.ach.mpsAch) = cyc.speeds) :
    coastDownErr F H V P cyc a b c cd rr =
      errUntilStop cyc.speeds cyc.times
        (0 :: List.zipWith (meanLoadN V.vehKg V.frontalAreaM2 P.airDensity P.aGrav cd rr) cyc.speeds
          cyc.speeds.tail)
        (cyc.speeds.map fun v => dynoN a b c (v * mphPerMps)) := by
  have hsame : simDrive F H { V with dragCoef := cd, wheelRrCoef := rr } P
      { Sim.new cyc with impose := List.replicate cyc.length true } none none = .ok s := by
    rw [← h]
    apply simDrive_same
    exact ⟨rfl, rfl, fun _ => rfl⟩
  obtain ⟨hlen, hpos, ⟨soc, x, hrow0⟩, hrows⟩ := plain_rows hH hc hd hm hg (s0 := Sim.new cyc) ⟨rfl, rfl⟩ h
  have hsp : ∀ i, (s.row i).ach.mpsAch = cyc.speeds.getD i 0 := by
    intro i
    rw [← hmet]
    unfold Sim.row
    simp only [List.getD_eq_getElem?_getD, List.getElem?_map]
    cases s.rows[i]? <;> rfl
  have hslen : cyc.speeds.length = cyc.length := by unfold Cyc.speeds; simp
  have hat : ∀ i, i < cyc.length → s.rows[i]? = some (s.row i) := by
    intro i hi
    unfold Sim.row
    rw [List.getD_eq_getElem?_getD, List.getElem?_eq_getElem (by omega)]; rfl
  have hspi : ∀ i, i < cyc.length → cyc.speeds[i]? = some (cyc.speeds.getD i 0) := by
    intro i hi
    rw [List.getD_eq_getElem?_getD, List.getElem?_eq_getElem (by omega)]; rfl
  have hmodel : (s.rows.map fun r => 1000 * (r.pow.dragKw + r.pow.rrKw) / r.ach.mpsAch) =
      0 :: List.zipWith (meanLoadN V.vehKg V.frontalAreaM2 P.airDensity P.aGrav cd rr) cyc.speeds
          cyc.speeds.tail := by
    apply List.ext_getElem?
    intro i
    by_cases hi : i < cyc.length
    · rw [List.getElem?_map, hat i hi, Option.map_some]
      rcases i with _ | j
      · have e : s.row 0 = Row.init { V with dragCoef := cd, wheelRrCoef := rr } soc (cyc.speeds.getD 0 0) x := by
          unfold Sim.row
          rw [List.getD_eq_getElem?_getD, hrow0]; rfl
        rw [e, List.getElem?_cons_zero]
        show some (1000 * ((0 : K) + 0) / _) = some 0
        simp
      · obtain ⟨e1, e2, -⟩ := hrows (j + 1) (by omega) hi
        rw [List.getElem?_cons_succ, List.getElem?_zipWith, hspi j (by omega), List.getElem?_tail,
          hspi (j + 1) hi]
        simp only [Nat.add_sub_cancel] at e1 e2
        rw [e1, e2, hsp, hsp]
        refine congrArg some ?_
        unfold dragKw rrKw meanLoadN
        simp only [hcos]
        ring
    · rw [List.getElem?_eq_none (by rw [List.length_map]; omega), List.getElem?_eq_none]
      simp only [List.length_cons, List.length_zipWith, List.length_tail, hslen]
      omega
  have htest : (s.rows.map fun r => dynoN a b c r.ach.mphAch) =
      cyc.speeds.map fun v => dynoN a b c (v * mphPerMps) := by
    rw [← hmet, List.map_map]
    refine List.map_congr_left fun r hr => ?_
    obtain ⟨i, hi, rfl⟩ := List.getElem_of_mem hr
    have e : s.rows[i] = s.row i := by
      unfold Sim.row
      rw [List.getD_eq_getElem?_getD, List.getElem?_eq_getElem hi]; rfl
    show dynoN a b c _ = dynoN a b c _
    rw [e]
    rcases i with _ | j
    · have e : s.row 0 = Row.init { V with dragCoef := cd, wheelRrCoef := rr } soc (cyc.speeds.getD 0 0) x := by
        unfold Sim.row
        rw [List.getD_eq_getElem?_getD, hrow0]; rfl
      rw [e]; rfl
    · rw [(hrows (j + 1) (by omega) (by omega)).2.2]
  have hfind : (s.rows.findIdx? fun r => decide (r.ach.mpsAch < 1 / 10)) =
      cyc.speeds.findIdx? fun v => decide (v < 1 / 10) := by
    rw [← hmet, List.findIdx?_map]; rfl
  unfold coastDownErr errUntilStop
  rw [hsame]
  simp only
  rw [hfind, hmodel, htest]
  cases cyc.speeds.findIdx? fun v => decide (v < 1 / 10) <;> rfl

/-- **C76 (no vehicle fits exactly).** The first load compared is always zero, so the error is positive for every
pair of coefficients, also for those the coast-down polynomial was computed from, as long as the polynomial is
not zero at the first speed. -/
theorem C76_never_exact (hH : H.Local) (hc : P.coastAllow = false) (hd : P.idmAllow = false)
    (hm : P.missedTrace = false) (hcos : F.cosAtan 0 = 1) {cyc : Cyc K} (hg : ∀ x ∈ cyc, x.g = 0)
    (ht : cyc.times.Pairwise (· < ·)) (a b c cd rr : K) {s : Sim K}
    (h : simDrive F H { V with dragCoef := cd, wheelRrCoef := rr } P (Sim.new cyc) none none = .ok s)
    (hmet : s.rows.map (fun r => r.ach.mpsAch) = cyc.speeds) {k : Nat} (hk : 2 ≤ k)
    (hcut : (cyc.speeds.findIdx? fun v => decide (v < 1 / 10)) = some k)
    (h0 : dynoN a b c (cyc.speeds.getD 0 0 * mphPerMps) ≠ 0) :
    ∃ e, coastDownErr F H V P cyc a b c cd rr = .ok e ∧ 0 < e := by
  rw [C76_objective hH hc hd hm hcos hg a b c cd rr h hmet]
  unfold errUntilStop
  rw [hcut]
  simp only
  have hklt : k < cyc.length := by
    have := List.findIdx?_eq_some_iff_getElem.1 hcut
    obtain ⟨hl, -⟩ := this
    unfold Cyc.speeds at hl; simpa using hl
  have hsl : cyc.speeds.length = cyc.length := by unfold Cyc.speeds; simp
  have htl : cyc.times.length = cyc.length := by unfold Cyc.times; simp
  have hbase : TimeBase (cyc.times.take k) :=
    ⟨ht.sublist (List.take_sublist _ _), by rw [List.length_take]; omega⟩
  obtain ⟨e, he, -, hnn, hz⟩ := C45_distance hbase
    (m := (0 :: List.zipWith (meanLoadN V.vehKg V.frontalAreaM2 P.airDensity P.aGrav cd rr) cyc.speeds
          cyc.speeds.tail).take k)
    (t := (cyc.speeds.map fun v => dynoN a b c (v * mphPerMps)).take k)
    (by simp only [List.length_take, List.length_cons, List.length_zipWith, List.length_tail]; omega)
    (by simp only [List.length_take, List.length_map]; omega)
  refine ⟨e, he, lt_of_le_of_ne hnn fun h' => ?_⟩
  have heq := hz.1 h'.symm
  apply h0
  obtain ⟨k', rfl⟩ : ∃ k', k = k' + 1 := ⟨k - 1, by omega⟩
  cases hsp : cyc.speeds with
  | nil => rw [hsp] at hsl; simp at hsl; omega
  | cons v0 l =>
    rw [hsp] at heq
    simp only [List.take_succ_cons, List.map_cons] at heq
    have := (List.cons.inj heq).1
    simpa using this.symm

end Field

/-! ### Concrete cases -/

open Demo

/-- A trace that falls to a stop. -/
def rollDown : Cyc ℚ := [⟨0, 10, 0, 0⟩, ⟨1, 10, 0, 0⟩, ⟨2, 8, 0, 0⟩, ⟨3, 0, 0, 0⟩]

theorem C76_demo :
    (∀ x ∈ rollDown, x.g = 0) ∧ rollDown.times.Pairwise (· < ·) ∧ fns.cosAtan 0 = 1 ∧
    params.airDensity = 12 / 10 ∧ params.aGrav = 981 / 100 ∧ params.coastAllow = false ∧
    params.idmAllow = false ∧ params.missedTrace = false ∧
    (rollDown.speeds.findIdx? fun v => decide (v < 1 / 10)) = some 3 ∧
    (∃ s, simDrive fns noHooks { conv with dragCoef := 3 / 10, wheelRrCoef := 1 / 100 } params (Sim.new rollDown)
        none none = .ok s ∧
      s.rows.map (fun r => r.ach.mpsAch) = rollDown.speeds ∧
      (s.row 1).ach.mpsAch = (s.row 0).ach.mpsAch ∧ 0 < (s.row 1).ach.mpsAch) ∧
    (∃ a b c, dragCoeffsToAbc fns none ⟨conv.vehKg, conv.frontalAreaM2, conv.dragCoef, conv.wheelRrCoef⟩
        = .ok (a, b, c) ∧ dynoN a b c (rollDown.speeds.getD 0 0 * mphPerMps) ≠ 0) := by
  refine ⟨by decide +kernel, by decide +kernel, by decide +kernel, by decide +kernel, by decide +kernel, rfl, rfl,
    rfl, by decide +kernel, ?_, ?_⟩
  · have hall : (match simDrive fns noHooks { conv with dragCoef := 3 / 10, wheelRrCoef := 1 / 100 } params
        (Sim.new rollDown) none none with
      | .ok s => decide (s.rows.map (fun r => r.ach.mpsAch) = rollDown.speeds) &&
          decide ((s.row 1).ach.mpsAch = (s.row 0).ach.mpsAch) && decide (0 < (s.row 1).ach.mpsAch)
      | .error _ => false) = true := by decide +kernel
    cases hs : simDrive fns noHooks { conv with dragCoef := 3 / 10, wheelRrCoef := 1 / 100 } params
        (Sim.new rollDown) none none with
    | error e => rw [hs] at hall; exact absurd hall (by simp)
    | ok s =>
      rw [hs] at hall
      simp only [Bool.and_eq_true, decide_eq_true_eq] at hall
      exact ⟨s, rfl, hall.1.1, hall.1.2, hall.2⟩
  · refine ⟨_, _, _, toAbc_eq fns none _ (rho := 12 / 10) rfl, ?_⟩
    decide +kernel

/-- **C77 refuted for flags set before `sim_drive`.** `impose_coast` is set for every step, as
`abc_to_drag_coeffs` does, but the flags are gone when the run starts and the vehicle accelerates under its own
power. -/
theorem C77_flags_lost :
    ∃ s, simDrive fns noHooks conv params { Sim.new cyc with impose := List.replicate 6 true } (some (1 / 2)) none
        = .ok s ∧
      s.impose = List.replicate 6 false ∧ 0 < (s.row 1).pow.transKwOutAch ∧ 0 < (s.row 1).ach.mpsAch := by
  have hall : (match simDrive fns noHooks conv params { Sim.new cyc with impose := List.replicate 6 true }
        (some (1 / 2)) none with
      | .ok s => decide (s.impose = List.replicate 6 false) && decide (0 < (s.row 1).pow.transKwOutAch) &&
          decide (0 < (s.row 1).ach.mpsAch)
      | .error _ => false) = true := by decide +kernel
  cases hs : simDrive fns noHooks conv params { Sim.new cyc with impose := List.replicate 6 true }
        (some (1 / 2)) none with
  | error e => rw [hs] at hall; exact absurd hall (by simp)
  | ok s =>
    rw [hs] at hall
    simp only [Bool.and_eq_true, decide_eq_true_eq] at hall
    exact ⟨s, rfl, hall.1.1, hall.1.2, hall.2⟩

/-- Flags set after `init_for_step` do count: the same vehicle asked to accelerate while coasting gets nothing. -/
theorem C77_demo :
    ∃ s, initForStep conv params (Sim.new cyc) (1 / 2) none = .ok s ∧
      ({ s with impose := List.replicate 6 true }).i < s.rows.length ∧
      ({ s with impose := List.replicate 6 true }).impose.getD s.i false = true ∧
      ((Sim.solve fns conv params { s with impose := List.replicate 6 true }).row s.i).pow.cycTracKwReq ≤ 10 ∧
      0 < ((Sim.solve fns conv params { s with impose := List.replicate 6 true }).row s.i).pow.cycTracKwReq := by
  have hall : (match initForStep conv params (Sim.new cyc) (1 / 2) none with
      | .ok s => decide (s.i < s.rows.length) && (List.replicate 6 true).getD s.i false &&
          decide (((Sim.solve fns conv params { s with impose := List.replicate 6 true }).row s.i).pow.cycTracKwReq
            ≤ 10) &&
          decide (0 < ((Sim.solve fns conv params { s with impose := List.replicate 6 true }).row s.i).pow.cycTracKwReq)
      | .error _ => false) = true := by decide +kernel
  cases hs : initForStep conv params (Sim.new cyc) (1 / 2) none with
  | error e => rw [hs] at hall; exact absurd hall (by simp)
  | ok s =>
    rw [hs] at hall
    simp only [Bool.and_eq_true, decide_eq_true_eq] at hall
    exact ⟨s, rfl, hall.1.1.1, hall.1.1.2, hall.1.2, hall.2⟩

end Fastsim.Props
