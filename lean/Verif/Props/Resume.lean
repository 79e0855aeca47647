import Verif.Props.Accessory
import Verif.Props.Causal
import Verif.Props.Audit
import Verif.Props.Latch
import Verif.Props.Hybrid
import Verif.Spec.Demo

/-!
# C78: a run can be interrupted while the powertrain rests
-/

set_option linter.unusedSectionVars false

namespace Fastsim.Spec
variable {K : Type*} [Zero K] [Add K] [LinearOrder K]

/-- The powertrain rests: engine and fuel flow are zero, the engine timer is reset, the motor does nothing, and
the latch that hands the accessories to the engine is open or about to open. -/
structure Resting (V : Veh K) (r : Row K) : Prop where
  motor : r.dec.mcMechKwOutAch = 0
  engine : r.fc.fcKwOutAch = 0
  fuel : r.fc.fsKwOutAch = 0
  timer : r.dec.fcTimeOn = 0
  latch : r.misc.highAccFcOnTag = false ∨ V.minSoc + V.percHighAccBuf ≤ r.dec.soc

end Fastsim.Spec

namespace Fastsim.Props
open Fastsim Spec

section Lawless
variable {K : Type*} [Zero K] [One K] [NatCast K] [Add K] [Sub K] [Mul K] [Div K] [Neg K]
  [LinearOrder K]
variable {F : Fns K} {H : Hooks K} {V : Veh K} {P : SimParams K}

/-- What a step reads from the row before, put into an otherwise empty row. -/
def memoryOf (p : Row K) : Row K :=
  { (Row.zero : Row K) with
    ach := { (Row.zero : Row K).ach with mpsAch := p.ach.mpsAch }
    dec := { (Row.zero : Row K).dec with
      soc := p.dec.soc, essCurKwh := p.dec.essCurKwh, mcMechKwOutAch := p.dec.mcMechKwOutAch
      fcTimeOn := p.dec.fcTimeOn }
    fc := { (Row.zero : Row K).fc with fcKwOutAch := p.fc.fcKwOutAch, fsKwOutAch := p.fc.fsKwOutAch } }

/-- **C78 (what is remembered).** A step reads from the row before only the speed, the state of charge, the
stored energy, the motor, engine and fuel powers, the engine timer and the accessory latch. -/
theorem C78_memory (E : StepEnv K) (st : Stale K) {p p' : Row K} (hv : p.ach.mpsAch = p'.ach.mpsAch)
    (hsoc : p.dec.soc = p'.dec.soc) (hkwh : p.dec.essCurKwh = p'.dec.essCurKwh)
    (hmc : p.dec.mcMechKwOutAch = p'.dec.mcMechKwOutAch) (hfc : p.fc.fcKwOutAch = p'.fc.fcKwOutAch)
    (hfs : p.fc.fsKwOutAch = p'.fc.fsKwOutAch) (ht : p.dec.fcTimeOn = p'.dec.fcTimeOn)
    (hlatch : p.misc.highAccFcOnTag = p'.misc.highAccFcOnTag ∨ ¬ p.dec.soc < V.minSoc + V.percHighAccBuf) :
    solveStep F V P.toStepParams E p st = solveStep F V P.toStepParams E p' st := by
  have hM : setMisc V E p = setMisc V E p' := by
    unfold setMisc
    rcases hlatch with e | e
    · simp only [hv, hsoc, e]
    · have e' : ¬ p'.dec.soc < V.minSoc + V.percHighAccBuf := by rw [← hsoc]; exact e
      simp only [hv, if_neg e, if_neg e', hsoc, Bool.true_eq_false, and_false, or_false]
  have hm : memoryOf p = memoryOf p' := by
    unfold memoryOf
    rw [hv, hsoc, hkwh, hmc, hfc, hfs, ht]
  have hL : ∀ M, setCompLims F V P.toStepParams E p M = setCompLims F V P.toStepParams E p' M := by
    intro M
    have e : ∀ q : Row K, setCompLims F V P.toStepParams E q M =
      setCompLims F V P.toStepParams E (memoryOf q) M := fun q => rfl
    rw [e p, e p', hm]
  have hpw : ∀ L v, powerAt F V P.toStepParams E p L v = powerAt F V P.toStepParams E p' L v := by
    intro L v
    unfold powerAt
    rw [hv]
  have ha : ∀ L w, setAchSpeed F V P.toStepParams E p L w st = setAchSpeed F V P.toStepParams E p' L w st := by
    intro L w
    unfold setAchSpeed
    simp only [hv, hpw]
  have hh : ∀ L w, setHyb V E p L w = setHyb V E p' L w := by
    intro L w
    unfold setHyb
    rw [hsoc, ht]
  have hdec : ∀ M L w h f, setDec F V E p M L w h f st = setDec F V E p' M L w h f st := by
    intro M L w h f
    unfold setDec
    rw [hkwh, ht]
  unfold solveStep setPowerCalcs
  simp only [hM, hL, hpw, ha, hh, hdec]

theorem plain_step (hc : P.coastAllow = false) (hd : P.idmAllow = false) (hm : P.missedTrace = false) (s : Sim K) :
    simDriveStep F H V P s = .ok { Sim.solve F V P s with i := s.i + 1 } := by
  unfold simDriveStep finishStep solveAndCorrect
  simp [hc, hd, hm]
  rfl

theorem plain_walk_ok (hc : P.coastAllow = false) (hd : P.idmAllow = false) (hm : P.missedTrace = false) :
    ∀ (n : Nat) (s : Sim K), s.cyc.length ≤ s.i + n → ∃ s', walkLoop F H V P n s = .ok s'
  | 0, s, h => by
    unfold walkLoop
    rw [if_neg (by omega)]
    exact ⟨s, rfl⟩
  | n + 1, s, h => by
    unfold walkLoop
    split
    · rw [plain_step hc hd hm]
      exact plain_walk_ok hc hd hm n _ (by show s.cyc.length ≤ s.i + 1 + n; omega)
    · exact ⟨s, rfl⟩

theorem plain_simDrive_ok (hc : P.coastAllow = false) (hd : P.idmAllow = false) (hm : P.missedTrace = false)
    {c : Cyc K} (hpos : 0 < c.length) {soc : K}
    (hsoc : V.ptType = .conv ∨ (V.minSoc ≤ soc ∧ soc ≤ V.maxSoc)) (aux : Option (List K)) :
    ∃ t, simDrive F H V P (Sim.new c) (some soc) aux = .ok t := by
  show ∃ t, walk F H V P (Sim.new c) soc aux = .ok t
  unfold walk initForStep
  rw [if_neg, if_neg]
  · simp only
    refine plain_walk_ok hc hd hm _ _ ?_
    omega
  · rintro (e | e)
    · exact absurd e (by show ¬ c.length = 0; omega)
    · exact absurd e (by show ¬ c.length = 0; omega)
  · rintro ⟨h1, h2⟩
    rcases hsoc with e | ⟨e1, e2⟩
    · exact h1 e
    · rcases h2 with h | h
      · exact absurd e2 (not_le.2 h)
      · exact absurd e1 (not_le.2 h)

theorem loadAt_drop {a : List K} {k j : Nat} (hj : 1 ≤ j) : loadAt V (a.drop k) j = loadAt V a (k + j) := by
  unfold loadAt
  have hs : Silent (a.drop k) j ↔ Silent a (k + j) := by
    unfold Silent
    constructor
    · intro h m hm x hx
      refine h (m - k) (by omega) x ?_
      rw [List.getElem?_drop, show k + (m - k) = m by omega, hx]
    · intro h m hm x hx
      rw [List.getElem?_drop] at hx
      exact h (k + m) (by omega) x hx
  have hc : (1 ≤ j ∧ j < (a.drop k).length ∧ Silent (a.drop k) j) ↔
      (1 ≤ k + j ∧ k + j < a.length ∧ Silent a (k + j)) := by
    rw [hs, List.length_drop]
    constructor <;> rintro ⟨h1, h2, h3⟩ <;> exact ⟨by omega, by omega, h3⟩
  simp only [List.getElem?_drop]
  by_cases e : 1 ≤ j ∧ j < (a.drop k).length ∧ Silent (a.drop k) j
  · rw [if_pos e, if_pos (hc.1 e)]
  · rw [if_neg e, if_neg (mt hc.2 e)]

theorem prescribed_drop {n k : Nat} {aux : Option (List K)} (ha : ∀ a, aux = some a → a.length = n) :
    prescribed (n - k) (aux.map (List.drop k)) = (prescribed n aux).drop k := by
  cases aux with
  | none => simp [prescribed]
  | some a => simp [prescribed, ha a rfl]

end Lawless

section Field
variable {K : Type*} [Field K] [LinearOrder K] [IsStrictOrderedRing K]
variable {F : Fns K} {H : Hooks K} {V : Veh K} {P : SimParams K}

/-- **C78 (resuming).** If the powertrain rests at sample `k` and the vehicle has the speed of the trace there,
simulating the rest of the trace on its own, from the state of charge reached, gives the same records as the
whole run. -/
theorem C78_resume (hH : H.Local) (hA : Hooks.KeepAux H V) (hc : P.coastAllow = false) (hd : P.idmAllow = false)
    (hm : P.missedTrace = false) {c : Cyc K} {init : Option K} {aux : Option (List K)}
    (ha : ∀ a, aux = some a → a.length = c.length) {s : Sim K}
    (h : simDrive F H V P (Sim.new c) init aux = .ok s) {k : Nat} (hk : k < c.length)
    (hrest : Resting V (s.row k)) (hv : (s.row k).ach.mpsAch = c.speeds.getD k 0)
    (hkwh : (s.row k).dec.essCurKwh = (s.row k).dec.soc * V.essMaxKwh)
    (hsoc : V.ptType = .conv ∨ (V.minSoc ≤ (s.row k).dec.soc ∧ (s.row k).dec.soc ≤ V.maxSoc)) :
    ∃ t, simDrive F H V P (Sim.new (List.drop k c)) (some (s.row k).dec.soc) (aux.map (List.drop k)) = .ok t ∧
      t.rows.tail = s.rows.drop (k + 1) ∧ t.aux.tail = s.aux.drop (k + 1) := by
  obtain ⟨t, ht⟩ := plain_simDrive_ok (F := F) (H := H) hc hd hm (c := List.drop k c)
    (by rw [List.length_drop]; omega) hsoc (aux.map (List.drop k))
  refine ⟨t, ht, ?_⟩
  have hR : ¬ Resets P := by unfold Resets; simp [hc, hd, hm]
  have ks := simDrive_keeps hH (s := Sim.new c) rfl h
  have kt := simDrive_keeps hH (s := Sim.new (List.drop k c)) rfl ht
  have cs : s.cyc = c := ks.cyc hR
  have cs0 : s.cyc0 = c := ks.cyc0
  have ct : t.cyc = List.drop k c := kt.cyc hR
  have ct0 : t.cyc0 = List.drop k c := kt.cyc0
  have fs := Finished.simDrive hH (s := Sim.new c) rfl h
  have ft := Finished.simDrive hH (s := Sim.new (List.drop k c)) rfl ht
  obtain ⟨Is, -, -⟩ := Reachable.inv hH fs.reachable
  obtain ⟨It, -, soc, -, t0⟩ := Reachable.inv hH ft.reachable
  have is : s.i = c.length := by rw [fs.atEnd, cs]
  have it : t.i = c.length - k := by rw [ft.atEnd, ct, List.length_drop]
  have ls : s.rows.length = c.length := by rw [Is.lenRows, cs]
  have lt : t.rows.length = c.length - k := by rw [It.lenRows, ct, List.length_drop]
  obtain ⟨-, recs⟩ := Reachable.recInv hc hd fs.reachable
  obtain ⟨-, rect⟩ := Reachable.recInv hc hd ft.reachable
  have as := C33_load hH hA (s := Sim.new c) rfl h
  have at' := C33_load hH hA (s := Sim.new (List.drop k c)) rfl ht
  have hauxi : ∀ j, 1 ≤ j → t.aux[j]? = s.aux[k + j]? := by
    intro j hj
    rw [at'.2, as.2]
    show loadAt V (prescribed (List.drop k c).length _) j = loadAt V (prescribed c.length aux) (k + j)
    rw [List.length_drop, prescribed_drop ha, loadAt_drop hj]
  have henv : ∀ j, 1 ≤ j → recordedEnv t j = recordedEnv s (k + j) := by
    intro j hj
    have hsp : (Cyc.speeds (List.drop k c)).getD j 0 = c.speeds.getD (k + j) 0 := by
      unfold Cyc.speeds
      rw [List.getD_eq_getElem?_getD, List.getD_eq_getElem?_getD, List.map_drop, List.getElem?_drop]
    have hti : ∀ m, (Cyc.times (List.drop k c)).getD m 0 = c.times.getD (k + m) 0 := by
      intro m
      unfold Cyc.times
      rw [List.getD_eq_getElem?_getD, List.getD_eq_getElem?_getD, List.map_drop, List.getElem?_drop]
    have hdt : dtAt (List.drop k c) j = dtAt c (k + j) := by
      unfold dtAt
      rw [if_neg (by omega), if_neg (by omega), hti, hti, show k + (j - 1) = k + j - 1 by omega]
    have hgr : recordedGrade t j = recordedGrade s (k + j) := by
      unfold recordedGrade
      rw [ct0, cs0, ct, cs]
      have e : (Cyc.grades (List.drop k c)).getD j 0 = c.grades.getD (k + j) 0 := by
        unfold Cyc.grades
        rw [List.getD_eq_getElem?_getD, List.getD_eq_getElem?_getD, List.map_drop, List.getElem?_drop]
      have hz : ∀ (l : Cyc K) (m : Nat), gradeAllZero l = true → l.grades.getD m 0 = 0 := by
        intro l m hl
        unfold gradeAllZero at hl
        rw [List.getD_eq_getElem?_getD]
        cases hx : l.grades[m]? with
        | none => rfl
        | some x =>
          have := List.all_eq_true.1 hl x (List.mem_of_getElem? hx)
          simpa using this
      by_cases h1 : gradeAllZero c = true
      · by_cases h2 : gradeAllZero (List.drop k c) = true
        · rw [if_pos h1, if_pos h2]
        · rw [if_pos h1, if_neg h2, e, hz c _ h1]
      · by_cases h2 : gradeAllZero (List.drop k c) = true
        · rw [if_neg h1, if_pos h2, ← e, hz _ _ h2]
        · rw [if_neg h1, if_neg h2, e]
    unfold recordedEnv
    have hax : t.aux.getD j 0 = s.aux.getD (k + j) 0 := by
      rw [List.getD_eq_getElem?_getD, List.getD_eq_getElem?_getD, hauxi j hj]
    rw [ct, cs, hdt, hsp, hgr, hax]
  have ht0 : t.rows.getD 0 Row.zero = Row.init V soc (t.cyc0.speeds.getD 0 0) (t.aux.getD 0 0) := by
    rw [List.getD_eq_getElem?_getD, t0]; rfl
  have h0 : soc = (s.row k).dec.soc := by
    have := (C47_run_start hH (s := Sim.new (List.drop k c)) rfl ht).2.1 _ rfl
    rw [ht0] at this
    exact this
  have hrow : ∀ j, 1 ≤ j → k + j < c.length → t.rows[j]? = s.rows[k + j]? := by
    intro j hj
    induction j, hj using Nat.le_induction with
    | base =>
      intro hlt
      obtain ⟨st, e1, e2⟩ := recs.solved (k + 1) (by omega) (by omega)
      obtain ⟨st', e1', e2'⟩ := rect.solved 1 (by omega) (by omega)
      rw [e2, e2', e1 hm, e1' hm, henv 1 (by omega)]
      rw [show 1 - 1 = 0 from rfl, ht0, show k + 1 - 1 = k by omega]
      have hv0 : t.cyc0.speeds.getD 0 0 = c.speeds.getD k 0 := by
        rw [ct0]
        unfold Cyc.speeds
        rw [List.getD_eq_getElem?_getD, List.getD_eq_getElem?_getD, List.map_drop, List.getElem?_drop]
        rfl
      refine congrArg some (C78_memory (p' := s.row k) _ _ ?_ h0 ?_ hrest.motor.symm hrest.engine.symm
        hrest.fuel.symm hrest.timer.symm ?_)
      · show t.cyc0.speeds.getD 0 0 = _
        rw [hv0, hv]
      · show soc * V.essMaxKwh = _
        rw [h0, hkwh]
      · rcases hrest.latch with e | e
        · exact Or.inl e.symm
        · refine Or.inr (not_lt.2 ?_)
          show _ ≤ soc
          rw [h0]; exact e
    | succ j hj ih =>
      intro hlt
      obtain ⟨st, e1, e2⟩ := recs.solved (k + (j + 1)) (by omega) (by omega)
      obtain ⟨st', e1', e2'⟩ := rect.solved (j + 1) (by omega) (by omega)
      rw [e2, e2', e1 hm, e1' hm, henv (j + 1) (by omega), Nat.add_sub_cancel,
        show k + (j + 1) - 1 = k + j by omega, List.getD_eq_getElem?_getD, ih (by omega),
        ← List.getD_eq_getElem?_getD]
  constructor
  · apply List.ext_getElem?
    intro j
    rw [List.getElem?_tail, List.getElem?_drop, show k + 1 + j = k + (j + 1) by omega]
    by_cases hlt : k + (j + 1) < c.length
    · exact hrow (j + 1) (by omega) hlt
    · rw [List.getElem?_eq_none (by omega), List.getElem?_eq_none (by omega)]
  · apply List.ext_getElem?
    intro j
    rw [List.getElem?_tail, List.getElem?_drop, show k + 1 + j = k + (j + 1) by omega]
    exact hauxi (j + 1) (by omega)

/-- **C78 (totals of the parts).** Distance and fuel of the whole run are those of the run up to sample `k` and
of the resumed run together. -/
theorem C78_totals (hH : H.Local) (hA : Hooks.KeepAux H V) (hc : P.coastAllow = false) (hd : P.idmAllow = false)
    (hm : P.missedTrace = false) {c : Cyc K} {soc0 : K} {s : Sim K}
    (h : simDrive F H V P (Sim.new c) (some soc0) none = .ok s) {k : Nat} (hk : k < c.length)
    (hrest : Resting V (s.row k)) (hv : (s.row k).ach.mpsAch = c.speeds.getD k 0)
    (hkwh : (s.row k).dec.essCurKwh = (s.row k).dec.soc * V.essMaxKwh)
    (hsoc : V.ptType = .conv ∨ (V.minSoc ≤ (s.row k).dec.soc ∧ (s.row k).dec.soc ≤ V.maxSoc)) :
    ∃ u t, simDrive F H V P (Sim.new (List.take (k + 1) c)) (some soc0) none = .ok u ∧
      simDrive F H V P (Sim.new (List.drop k c)) (some u.lastRow.dec.soc) none = .ok t ∧
      s.rows = u.rows ++ t.rows.tail ∧ totalMiles s = totalMiles u + totalMiles t ∧
      totalFuelKwh s = totalFuelKwh u + totalFuelKwh t := by
  obtain ⟨u, hu, hur, -, -⟩ := C58_causal hH ⟨hc, fun e => by rw [hd] at e; simp at e⟩ (n := k + 1) (by omega)
    (by omega) h
  obtain ⟨t, ht, htr, -⟩ := C78_resume hH hA hc hd hm (aux := none) (by simp) h hk hrest hv hkwh hsoc
  have hlen : s.rows.length = c.length := by
    have fs := Finished.simDrive hH (s := Sim.new c) rfl h
    have := simDrive_keeps hH (s := Sim.new c) rfl h
    rw [(Reachable.inv hH fs.reachable).1.lenRows]
    rw [this.cyc (by unfold Resets; simp [hc, hd, hm])]
    rfl
  have hlast : u.lastRow = s.row k := by
    unfold Sim.lastRow Sim.row
    rw [hur, List.getLast?_take, if_neg (by omega), Nat.add_sub_cancel, List.getD_eq_getElem?_getD]
    rw [List.getElem?_eq_getElem (by omega)]
    simp
  have happ : s.rows = u.rows ++ t.rows.tail := by rw [hur, htr, List.take_append_drop]
  have ft := Finished.simDrive hH (s := Sim.new (List.drop k c)) rfl ht
  obtain ⟨It, hpos, soc, -, t0⟩ := Reachable.inv hH ft.reachable
  have hcons : ∃ r, t.rows = r :: t.rows.tail ∧ r.ach.distMi = 0 ∧ r.fc.fsKwhOutAch = 0 := by
    cases hr : t.rows with
    | nil => rw [hr] at t0; simp at t0
    | cons r l =>
      rw [hr, List.getElem?_cons_zero] at t0
      refine ⟨r, rfl, ?_, ?_⟩ <;> rw [Option.some.inj t0] <;> rfl
  obtain ⟨r, hr, hz1, hz2⟩ := hcons
  refine ⟨u, t, hu, by rw [hlast]; exact ht, happ, ?_, ?_⟩
  · unfold totalMiles
    rw [npSum_eq, npSum_eq, npSum_eq, happ, hr]
    simp [hz1]
  · unfold totalFuelKwh
    rw [npSum_eq, npSum_eq, npSum_eq, happ, hr]
    simp [hz2]

/-- Driveline powers of a standstill. -/
theorem standstill_powers (E : StepEnv K) (p : Row K) (L : Lims K) (hp : p.ach.mpsAch = 0)
    (h1 : 0 ≤ L.curMaxTransKwOut) :
    let w := powerAt F V P.toStepParams E p L 0
    w.dragKw = 0 ∧ w.accelKw = 0 ∧ w.ascentKw = 0 ∧ w.rrKw = 0 ∧ w.cycTireInertiaKw = 0 ∧ w.cycWhlKwReq = 0 ∧
      w.cycRegenBrakeKw = 0 ∧ w.cycFricBrakeKw = 0 ∧ w.cycTransKwOutReq = 0 ∧ w.cycMet = true ∧
      w.transKwOutAch = 0 ∧ w.transKwInAch = 0 := by
  have e1 : dragKw V P.toStepParams 0 0 = 0 := by unfold dragKw; simp
  have e2 : accelKw V E.dt 0 0 = 0 := by unfold accelKw; simp
  have e3 : ascentKw F V P.toStepParams (E.gradeOf 0) 0 0 = 0 := by unfold ascentKw; simp
  have e4 : rrKw F V P.toStepParams (E.gradeOf 0) 0 0 = 0 := by unfold rrKw; simp
  have e5 : tireInertiaKw V E.dt 0 0 = 0 := by unfold tireInertiaKw; simp
  have hreg : ∀ x y : K, regenBrakeKw V x y 0 = 0 := by
    intro x y
    unfold regenBrakeKw
    rw [neg_zero, mul_zero]
    exact max_eq_right (min_le_right _ _)
  have hfr : fricBrakeKw (0 : K) 0 = 0 := by unfold fricBrakeKw; simp
  have htr : transKwIn V 0 = 0 := by unfold transKwIn; simp
  unfold powerAt
  simp only [hp, e1, e2, e3, e4, e5, add_zero, hreg, hfr, decide_eq_true_eq, h1, if_true, htr, and_self]

/-- **C78 (when the powertrain rests).** At a standstill that is driven on electricity alone, with electric
accessories, an open latch and no engine kept on, the powertrain rests. -/
theorem C78_rest (hc : P.coastAllow = false) (hd : P.idmAllow = false) (hm : P.missedTrace = false)
    (hsys : V.noElecSys = false) (haux : V.noElecAux = false) (hz : V.fcType ≠ .h2fc) {s : Sim K}
    (h : Reachable F H V P s) {i : Nat} {p r : Row K} {dt a : K} (hs : StepAt s i p r dt a)
    (hp : p.ach.mpsAch = 0) (hr0 : r.ach.mpsAch = 0) (hel : r.hyb.canPwrAllElec = true)
    (hon : r.forced.fcForcedOn = false) (htag : r.misc.highAccFcOnTag = false)
    (h1 : 0 ≤ r.lims.curMaxTransKwOut) (h2 : 0 ≤ r.lims.curMaxMechMcKwIn) (h3 : 0 ≤ r.lims.curMaxFcKwOut) :
    Resting V r := by
  obtain ⟨E, st, -, -, -, -, -, hst, hr⟩ := stepAt_recorded hc hd h hs
  have hst := hst hm
  have e := solveStep_pow_fresh (F := F) (V := V) P.toStepParams E p st (by rw [hst]; rfl)
  rw [← hr, hr0] at e
  have hL : r.lims = (solveStep F V P.toStepParams E p st).lims := by rw [hr]
  have hin : r.pow.transKwInAch = 0 := by
    rw [e]
    rw [hL] at h1
    exact (standstill_powers E p _ hp h1).2.2.2.2.2.2.2.2.2.2.2
  have hmech : r.dec.mcMechKwOutAch = 0 := by
    have e2 : r.dec.mcMechKwOutAch = mcMechKwOutAch V E r.lims r.pow r.hyb r.forced := by rw [hr]; rfl
    rw [e2]
    unfold mcMechKwOutAch
    simp only [hon, hel, hin, Bool.false_eq_true, false_and, if_false, le_refl, if_true, neg_zero, min_eq_right h2,
      min_self]
    split <;> simp
  have hout : r.fc.fcKwOutAch = 0 := by
    have e2 : r.fc.fcKwOutAch = fcKwOutAch V E r.misc r.lims r.pow r.dec := by rw [hr]; rfl
    rw [e2]
    unfold fcKwOutAch
    rw [if_neg hz, hsys, haux, htag, hin, hmech]
    simp only [Bool.or_self, Bool.false_eq_true, if_false, sub_zero, max_self, min_eq_right h3, ite_self]
  have hfuel : r.fc.fsKwOutAch = 0 := by
    have e2 : r.fc.fsKwOutAch = fcKwInAch V r.fc.fcKwOutAch := by rw [hr]; rfl
    rw [e2, hout]
    unfold fcKwInAch
    simp
  have htim : r.dec.fcTimeOn = 0 := by
    have e2 : r.dec.fcTimeOn = if r.hyb.canPwrAllElec ∧ r.forced.fcForcedOn = false ∧ st.fcKwOutAch = 0 then 0
      else p.dec.fcTimeOn + E.dt := by rw [hr]; rfl
    rw [e2, if_pos ⟨hel, hon, by rw [hst]; rfl⟩]
  exact ⟨hmech, hout, hfuel, htim, Or.inl htag⟩

end Field

/-! ### Concrete cases -/

open Demo

/-- A trace that stops for a second half way. -/
def stopGo : Cyc ℚ :=
  [⟨0, 0, 0, 0⟩, ⟨1, 2, 0, 0⟩, ⟨2, 0, 0, 0⟩, ⟨3, 0, 0, 0⟩, ⟨4, 19 / 4, 0, 0⟩, ⟨5, 0, 0, 0⟩]

/-- A hybrid and an electric car at the stop meet the hypotheses of `C78_resume`, `C78_totals` and `C78_rest`. -/
theorem C78_demo : ∀ V ∈ [hev, bev], ∃ s, simDrive fns noHooks V params (Sim.new stopGo) (some (3 / 5)) none = .ok s ∧
    Resting V (s.row 3) ∧ (s.row 3).ach.mpsAch = stopGo.speeds.getD 3 0 ∧
    (s.row 3).dec.essCurKwh = (s.row 3).dec.soc * V.essMaxKwh ∧
    V.minSoc ≤ (s.row 3).dec.soc ∧ (s.row 3).dec.soc ≤ V.maxSoc ∧
    (s.row 3).hyb.canPwrAllElec = true ∧ (s.row 3).forced.fcForcedOn = false ∧ (s.row 2).ach.mpsAch = 0 ∧
    0 ≤ (s.row 3).lims.curMaxTransKwOut ∧ 0 ≤ (s.row 3).lims.curMaxMechMcKwIn ∧
    0 ≤ (s.row 3).lims.curMaxFcKwOut := by
  have key : ∀ V : Veh ℚ, (match simDrive fns noHooks V params (Sim.new stopGo) (some (3 / 5)) none with
      | .ok s => decide ((s.row 3).dec.mcMechKwOutAch = 0) && decide ((s.row 3).fc.fcKwOutAch = 0) &&
          decide ((s.row 3).fc.fsKwOutAch = 0) && decide ((s.row 3).dec.fcTimeOn = 0) &&
          decide ((s.row 3).misc.highAccFcOnTag = false) &&
          decide ((s.row 3).ach.mpsAch = stopGo.speeds.getD 3 0) &&
          decide ((s.row 3).dec.essCurKwh = (s.row 3).dec.soc * V.essMaxKwh) &&
          decide (V.minSoc ≤ (s.row 3).dec.soc) && decide ((s.row 3).dec.soc ≤ V.maxSoc) &&
          decide ((s.row 3).hyb.canPwrAllElec = true) && decide ((s.row 3).forced.fcForcedOn = false) &&
          decide ((s.row 2).ach.mpsAch = 0) && decide (0 ≤ (s.row 3).lims.curMaxTransKwOut) &&
          decide (0 ≤ (s.row 3).lims.curMaxMechMcKwIn) && decide (0 ≤ (s.row 3).lims.curMaxFcKwOut)
      | .error _ => false) = true →
      ∃ s, simDrive fns noHooks V params (Sim.new stopGo) (some (3 / 5)) none = .ok s ∧
        Resting V (s.row 3) ∧ (s.row 3).ach.mpsAch = stopGo.speeds.getD 3 0 ∧
        (s.row 3).dec.essCurKwh = (s.row 3).dec.soc * V.essMaxKwh ∧
        V.minSoc ≤ (s.row 3).dec.soc ∧ (s.row 3).dec.soc ≤ V.maxSoc ∧
        (s.row 3).hyb.canPwrAllElec = true ∧ (s.row 3).forced.fcForcedOn = false ∧ (s.row 2).ach.mpsAch = 0 ∧
        0 ≤ (s.row 3).lims.curMaxTransKwOut ∧ 0 ≤ (s.row 3).lims.curMaxMechMcKwIn ∧
        0 ≤ (s.row 3).lims.curMaxFcKwOut := by
    intro V hall
    cases hs : simDrive fns noHooks V params (Sim.new stopGo) (some (3 / 5)) none with
    | error e => rw [hs] at hall; exact absurd hall (by simp)
    | ok s =>
      rw [hs] at hall
      simp only [Bool.and_eq_true, decide_eq_true_eq] at hall
      obtain ⟨⟨⟨⟨⟨⟨⟨⟨⟨⟨⟨⟨⟨⟨h1, h2⟩, h3⟩, h4⟩, h5⟩, h6⟩, h7⟩, h8⟩, h9⟩, h10⟩, h11⟩, h12⟩, h13⟩, h14⟩, h15⟩ := hall
      exact ⟨s, rfl, ⟨h1, h2, h3, h4, Or.inl h5⟩, h6, h7, h8, h9, h10, h11, h12, h13, h14, h15⟩
  intro V hV
  simp only [List.mem_cons, List.not_mem_nil, or_false] at hV
  rcases hV with rfl | rfl
  · exact key hev (by decide +kernel)
  · exact key bev (by decide +kernel)

/-- **C78 refuted for an idling engine.** The engine of a conventional car idles at the stop, and from there it
reaches a higher power than a freshly started simulation allows: the whole run follows the trace, the resumed
one does not. -/
theorem C78_idling_engine :
    ((rowsOf (simDrive fns noHooks conv params (Sim.new stopGo) (some (1 / 2)) none)).getD 3 Row.zero).ach.mpsAch = 0 ∧
    0 < ((rowsOf (simDrive fns noHooks conv params (Sim.new stopGo) (some (1 / 2)) none)).getD 3
      Row.zero).fc.fcKwOutAch ∧
    ((rowsOf (simDrive fns noHooks conv params (Sim.new stopGo) (some (1 / 2)) none)).getD 4
      Row.zero).ach.mpsAch = 19 / 4 ∧
    ((rowsOf (simDrive fns noHooks conv params (Sim.new (List.drop 3 stopGo)) (some (1 / 2)) none)).getD 1
      Row.zero).ach.mpsAch < 19 / 4 := by
  refine ⟨by decide +kernel, by decide +kernel, by decide +kernel, by decide +kernel⟩

end Fastsim.Props
