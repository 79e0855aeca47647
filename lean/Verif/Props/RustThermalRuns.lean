import Verif.Props.RustThermalFuel
import Verif.Props.RustLabel
import Verif.Spec.Demo

/-!
# C103: thermal simulations complete, continue and burn less when warm
-/

set_option linter.unusedSectionVars false

namespace Fastsim.Props
open Fastsim Spec

section Lawless
variable {K : Type*} [Zero K] [One K] [NatCast K] [Add K] [Sub K] [Mul K] [Div K] [Neg K]
  [LinearOrder K]
variable {F : Fns K} {C : HotConsts K} {T : VehThrm K} {V : Veh K} {P : SimParams K}

/-- **C103 (history).** A walk keeps the history of earlier ones and appends one entry for each sample of the cycle: first the
state that the walk starts with, last the state that it leaves. -/
theorem C103_history {h f : Hot K} (hlen : h.sd.cyc.length = h.sd.cyc0.length) {soc : K} {aux : Option (List K)}
    (ha : ∀ x, aux = some x → x.length = h.sd.cyc0.length) (e : hotWalk F C T V P h soc aux = .ok f) :
    f.history.take h.history.length = h.history ∧ f.history.length = h.history.length + h.sd.cyc0.length ∧
    f.history[h.history.length]? = some h.state ∧ f.history.getLast? = some f.state := by
  obtain ⟨hp, S, G, s1, -, s2, -, s3, -, s4, -⟩ := hotWalk_trace hlen ha e
  have hne : S ≠ [] := by
    intro h0
    rw [h0] at s1
    simp at s1
    omega
  refine ⟨by rw [s3]; simp, by rw [s3]; simp [s1], ?_, ?_⟩
  · rw [s3, List.getElem?_append_right le_rfl]
    simpa using s2
  · rw [s3, List.getLast?_append_of_ne_nil _ hne, s4]

/-- **C103 (no reset).** A second walk of the same object starts with the temperatures that the first one left. -/
theorem C103_again {h f f' : Hot K} (hlen : h.sd.cyc.length = h.sd.cyc0.length) {soc soc' : K} {aux aux' : Option (List K)}
    (ha : ∀ x, aux = some x → x.length = h.sd.cyc0.length) (ha' : ∀ x, aux' = some x → x.length = h.sd.cyc0.length)
    (e : hotWalk F C T V P h soc aux = .ok f) (e' : hotWalk F C T V P f soc' aux' = .ok f') :
    f.history.getLast? = some f.state ∧ f'.history[f.history.length]? = some f.state ∧
    f'.history.length = f.history.length + h.sd.cyc0.length := by
  obtain ⟨-, S, G, -, -, -, -, -, -, -, -, -, -, -, q1, q2, -⟩ := hotWalk_trace hlen ha e
  have hlen' : f.sd.cyc.length = f.sd.cyc0.length := by
    rw [q1, q2]; split
    · rfl
    · exact hlen
  obtain ⟨-, -, -, k4⟩ := C103_history hlen ha e
  obtain ⟨-, k2, k3, -⟩ := C103_history hlen' (by rw [q2]; exact ha') e'
  exact ⟨k4, k3, by rw [k2, q2]⟩

end Lawless

section Field
variable {K : Type*} [Field K] [LinearOrder K] [IsStrictOrderedRing K]
variable {F : Fns K} {C : HotConsts K} {T : VehThrm K} {V : Veh K} {P : SimParams K} {RH : RsHooks K}

/-- **C103 (a warm engine burns less).** Two steps, of one run or of two, in which an engine with the same map and the same
temperature model gives the same power: the one at the higher temperature burns no more fuel. -/
theorem C103_warmer {h f h' f' : Hot K} {soc soc' : K} {aux aux' : Option (List K)} {i i' : Nat} {s1 s2 s1' s2' : Thermal K}
    (w : Walks F C T V P h soc aux f) (w' : Walks F C T V P h' soc' aux' f') (hr : Runs h f i s1 s2) (hr' : Runs h' f' i' s1' s2')
    (ho : (f'.sd.rows.getD i' Row.zero).fc.fcKwOutAch = (f.sd.rows.getD i Row.zero).fc.fcKwOutAch)
    (hpos : 0 < (f.sd.rows.getD i Row.zero).fc.fcKwOutAch) (hte : s2.fcTe ≤ s2'.fcTe) (hcat : s2.catTe ≤ s2'.catTe)
    (hexp : ∀ x y, x ≤ y → F.exp x ≤ F.exp y) (heff : ∀ x ∈ V.fcEffArray, 0 < x)
    (hT : (∃ offset slope minimum comp, T.fcModel = some (.linear offset slope minimum, comp) ∧ 0 ≤ slope ∧ 0 < minimum) ∨
      (∃ offset lag minimum, (T.fcModel = some (.exponential offset lag minimum, .fuelConverter) ∨
        T.fcModel = some (.exponential offset lag minimum, .catalyst)) ∧ 0 < lag ∧ 0 < minimum)) :
    s2.fcEtaTempCoeff ≤ s2'.fcEtaTempCoeff ∧
    (f'.sd.rows.getD i' Row.zero).fc.fcKwInAch ≤ (f.sd.rows.getD i Row.zero).fc.fcKwInAch := by
  obtain ⟨g, g', rel⟩ := hr.rel w
  obtain ⟨k, k', rel'⟩ := hr'.rel w'
  obtain ⟨e, x⟩ := hot_coeff rel hr.out
  obtain ⟨e', x'⟩ := hot_coeff rel' hr'.out
  have key : s2.fcEtaTempCoeff ≤ s2'.fcEtaTempCoeff ∧ 0 < s2.fcEtaTempCoeff := by
    unfold tempCoeff at e e'
    rcases hT with ⟨o, sl, m, c, hT, h1, h2⟩ | ⟨o, lag, m, hT | hT, h1, h2⟩
    · simp only [hT] at e e'
      rw [e, e']
      refine ⟨max_le_max le_rfl (min_le_min le_rfl ?_), lt_of_lt_of_le h2 (le_max_left _ _)⟩
      have := mul_le_mul_of_nonneg_left hte h1
      linarith
    · simp only [hT] at e e'
      rw [e, e']
      refine ⟨max_le_max (sub_le_sub_left (hexp _ _ ?_) _) le_rfl, lt_of_lt_of_le h2 (le_max_right _ _)⟩
      have : (-1 : K) / lag ≤ 0 := div_nonpos_of_nonpos_of_nonneg (by linarith) h1.le
      exact mul_le_mul_of_nonpos_left (by linarith) this
    · simp only [hT] at e e'
      rw [e, e']
      refine ⟨max_le_max (sub_le_sub_left (hexp _ _ ?_) _) le_rfl, lt_of_lt_of_le h2 (le_max_right _ _)⟩
      have : (-1 : K) / lag ≤ 0 := div_nonpos_of_nonpos_of_nonneg (by linarith) h1.le
      exact mul_le_mul_of_nonpos_left (by linarith) this
  refine ⟨key.1, ?_⟩
  rw [ho] at x'
  obtain ⟨j, eff, a1, a2, a3, a4⟩ := hotFcKwIn_ok x
  obtain ⟨j', eff', b1, b2, b3, b4⟩ := hotFcKwIn_ok x'
  have hj : j' = j := by
    by_cases hm : (f.sd.rows.getD i Row.zero).fc.fcKwOutAch = rsArrMax C.inputKwOut
    · have := a3 hm; have := b3 hm; omega
    · obtain ⟨m, m1, m2⟩ := a4 hm
      obtain ⟨m', m1', m2'⟩ := b4 hm
      rw [m2] at m2'
      cases m2'
      rw [m1, m1']
  subst hj
  rw [a1] at b1
  cases b1
  rw [a2, b2]
  have hp : 0 < eff := heff _ (List.mem_of_getElem? a1)
  exact div_le_div_of_nonneg_left (div_nonneg hpos.le hp.le) key.2 key.1

/-! ### Completion -/

/-- What the thermal simulation needs besides what the plain one needs: an engine map that its lookups stay in and a thermostat
with an opening range. -/
structure HotOk (C : HotConsts K) (T : VehThrm K) (V : Veh K) : Prop where
  inputs : C.inputKwOut ≠ []
  points : 2 ≤ V.fcKwOutArray.length
  effs : V.fcKwOutArray.length ≤ V.fcEffArray.length
  first : ∀ x, V.fcKwOutArray[0]? = some x → x ≤ rsArrMax C.inputKwOut - dec 1 1000
  tstat : 0 < T.tstatTeDelta

theorem rsBefore_first {arr : List K} {cut : K} {k : Nat} (h : rsBefore arr cut = .ok k) :
    ∀ x, arr[0]? = some x → x ≤ cut := by
  unfold rsBefore rsFirstGrtr at h
  split at h
  · cases h
  · cases h
  · rename_i m hm
    cases h
    split at hm
    · cases hm
    · have hm := Option.some.inj hm
      cases q : arr.findIdx? fun x => decide (cut < x) with
      | none =>
        rw [List.findIdx?_eq_none_iff] at q
        intro x hx
        simpa using q x (List.mem_of_getElem? hx)
      | some j =>
        rw [q] at hm
        simp only [Option.getD_some] at hm
        subst hm
        obtain ⟨hj, h1, h2⟩ := List.findIdx?_eq_some_iff_getElem.1 q
        intro x hx
        have hml : 0 < arr.length := by omega
        rw [List.getElem?_eq_getElem hml] at hx
        cases hx
        have := h2 0 (by omega)
        simpa using this

theorem rsBefore_le {arr : List K} {cut : K} (h2 : 2 ≤ arr.length) (h0 : ∀ x, arr[0]? = some x → x ≤ cut) :
    ∃ k, rsBefore arr cut = .ok k ∧ k + 1 < arr.length := by
  unfold rsBefore rsFirstGrtr
  rw [if_neg (by omega)]
  cases q : arr.findIdx? fun x => decide (cut < x) with
  | none =>
    simp only [Option.getD_none]
    obtain ⟨m, hm⟩ : ∃ m, arr.length - 1 = m + 1 := ⟨arr.length - 2, by omega⟩
    rw [hm]
    exact ⟨m, rfl, by omega⟩
  | some j =>
    simp only [Option.getD_some]
    obtain ⟨hj, h1, -⟩ := List.findIdx?_eq_some_iff_getElem.1 q
    cases j with
    | zero =>
      have := h0 _ (List.getElem?_eq_getElem hj)
      simp only [decide_eq_true_eq] at h1
      exact absurd this (not_le.2 h1)
    | succ m => exact ⟨m, rfl, hj⟩

theorem hotFcKwIn_exists (hO : HotOk C T V) {out inp : K} (h : rsFcKwInAch V out = .ok inp) (h0 : out ≠ 0)
    (c : K) :
    ∃ x, hotFcKwIn C V c out = .ok x := by
  have hp := hO.points
  have he := hO.effs
  have hb : ∀ x, V.fcKwOutArray[0]? = some x → x ≤ out := by
    unfold rsFcKwInAch at h
    rw [if_neg h0] at h
    unfold rsLookup at h
    cases q : rsBefore V.fcKwOutArray (min out V.fcMaxKw) with
    | error _ => rw [q] at h; cases h
    | ok k => exact fun x hx => (rsBefore_first q x hx).trans (min_le_left _ _)
  unfold hotFcKwIn
  rw [if_neg hO.inputs]
  split
  · have : V.fcEffArray ≠ [] := by
      intro q; rw [q, List.length_nil] at he; omega
    rw [List.getLast?_eq_some_getLast this]
    exact ⟨_, rfl⟩
  · obtain ⟨k, k1, k2⟩ := rsBefore_le (cut := min out (rsArrMax C.inputKwOut - dec 1 1000)) hp
      (fun x hx => le_min (hb x hx) (hO.first x hx))
    have k1' := (rsBefore0_iff _ _ _).2 k1
    unfold rsLookup10 rsIdx
    have hl : max 1 k < V.fcEffArray.length := by omega
    simp only [k1', List.getElem?_eq_getElem hl]
    exact ⟨_, rfl⟩

theorem fcHtc_exists (hO : HotOk C T V) (E : HotEnv K) (s : Thermal K) : ∃ x, fcHtcToAmb F T E s = .ok x := by
  unfold fcHtcToAmb
  rw [rsInterpolate_eq (by simp [hO.tstat]) (by simp) (by simp)]
  exact ⟨_, rfl⟩

theorem setThermal_exists (hO : HotOk C T V) (E : HotEnv K) (amb : Option K) (s : Thermal K) :
    ∃ m, setThermal F C T E amb s none = .ok (m, none) := by
  have h1 : ∃ s1, afterEngine F C T E (withAmb amb s) = .ok s1 := by
    unfold afterEngine
    split
    · unfold setFcThermal
      obtain ⟨x, hx⟩ := fcHtc_exists (F := F) hO E (withAmb amb s)
      rw [hx]
      exact ⟨_, rfl⟩
    · exact ⟨_, rfl⟩
  obtain ⟨s1, h1⟩ := h1
  unfold setThermal
  rw [h1]
  exact ⟨_, rfl⟩

/-- A thermal step succeeds if the plain one does. -/
theorem hot_row_exists (hO : HotOk C T V) {Q : StepParams K} {E : StepEnv K} {p p' r : Row K} {st : Stale K}
    (hp : withoutFuel p = withoutFuel p') (h : rsSolveStep F V Q E p st = .ok r) (s : Thermal K) :
    ∃ x, hotSolveStep F C T V Q E p' st s = .ok x := by
  rw [withoutFuel_iff hp]
  generalize p'.lims.curMaxFsKwOut = a
  generalize p'.fc.fcKwInAch = b
  generalize p'.fc.fsKwOutAch = x
  generalize p'.fc.fsKwhOutAch = d
  have hfc := rsSolveStep_fc h
  unfold rsSolveStep at h
  unfold hotSolveStep
  have hM : rsSetMisc V E (otherFuel p a b x d) = rsSetMisc V E p := rfl
  rw [hM]
  generalize rsSetMisc V E p = M at h
  have hL : ∀ L, rsSetCompLims F V Q E p M = .ok L →
      ∃ y, rsSetCompLims F V Q E (otherFuel p a b x d) M = .ok { L with curMaxFsKwOut := y } := by
    intro L e
    unfold rsSetCompLims at e ⊢
    have e1 : rsMcElecInLimKw F V E (otherFuel p a b x d) = rsMcElecInLimKw F V E p := rfl
    have e2 : ∀ l, rsCurMaxMcKwOut V E (otherFuel p a b x d) l = rsCurMaxMcKwOut V E p l := fun _ => rfl
    have e3 : rsCurMaxMechMcKwIn F V E (otherFuel p a b x d) = rsCurMaxMechMcKwIn F V E p := rfl
    rw [e1, e3]
    simp only [e2, bind, Except.bind, pure, Except.pure] at e ⊢
    cases q1 : rsMcElecInLimKw F V E p with
    | error _ => rw [q1] at e; cases e
    | ok lim =>
      rw [q1] at e
      simp only at e ⊢
      cases q2 : rsCurMaxMcElecKwIn V (rsCurMaxMcKwOut V E p lim) with
      | error _ => rw [q2] at e; cases e
      | ok el =>
        rw [q2] at e
        simp only at e ⊢
        cases q3 : rsCurMaxMechMcKwIn F V E p with
        | error _ => rw [q3] at e; cases e
        | ok me =>
          rw [q3] at e
          simp only at e ⊢
          cases e
          exact ⟨_, rfl⟩
  simp only [bind, Except.bind, pure, Except.pure] at h ⊢
  split at h
  · cases h
  · rename_i L hL0
    obtain ⟨y, l1⟩ := hL L hL0
    rw [l1]
    simp only
    have ew : ∀ v, rsPowerAt F V Q E (otherFuel p a b x d) { L with curMaxFsKwOut := y } v = rsPowerAt F V Q E p L v :=
      fun _ => rfl
    have es : ∀ w, rsSetAchSpeed F V Q E (otherFuel p a b x d) { L with curMaxFsKwOut := y } w st =
        rsSetAchSpeed F V Q E p L w st := fun _ => rfl
    simp only [ew, es]
    generalize rsSetAchSpeed F V Q E p L (rsPowerAt F V Q E p L (if 0 < st.newtonIters then st.mpsAch else E.mps)) st = A at h
    have eh : rsSetHyb V E (otherFuel p a b x d) { L with curMaxFsKwOut := y } A.2 = rsSetHyb V E p L A.2 := rfl
    rw [eh]
    split at h
    · cases h
    · rename_i hy q1
      try rw [q1]
      try simp only
      split at h
      · cases h
      · rename_i f q2
        try rw [q2]
        try simp only
        have ed : rsSetDec F V E (otherFuel p a b x d) M { L with curMaxFsKwOut := y } A.2 hy f st =
            rsSetDec F V E p M L A.2 hy f st := rfl
        rw [ed]
        split at h
        · cases h
        · rename_i D q3
          try rw [q3]
          try simp only
          split at h
          · cases h
          · rename_i fc q4
            cases h
            have eo : fc.fcKwOutAch = rsFcKwOutAch V E M { L with curMaxFsKwOut := y } A.2 D := by
              unfold rsSetFcPower at q4
              simp only [bind, Except.bind, pure, Except.pure] at q4
              split at q4
              · cases q4
              · cases q4; rfl
            simp only [eo] at hfc
            have : ∃ z, hotSetFcPower F C T V E M { L with curMaxFsKwOut := y } A.2 D s = .ok z := by
              unfold hotSetFcPower
              simp only
              split
              · exact ⟨_, rfl⟩
              · rename_i h0
                obtain ⟨z, hz⟩ := hotFcKwIn_exists hO hfc h0 (tempCoeff F T s)
                rw [hz]
                exact ⟨_, rfl⟩
            obtain ⟨z, hz⟩ := this
            rw [hz]
            exact ⟨_, rfl⟩

theorem hot_step_exists (hO : HotOk C T V) (hP : PlainDrive P) {h : Hot K} {t t1 : Sim K} (hs : SameSoFar h t)
    (ha : t.aux = h.sd.aux) (hv : h.hvac = none) (hl : h.state.cabHvacPwrAuxKw = 0)
    (hamb : ∀ l, h.amb = some l → h.sd.cyc.length ≤ l.length) (e' : rsStep F RH V P t = .ok t1) :
    ∃ h1, hotStep F C T V P h = .ok h1 := by
  rw [rsStep_plain hP] at e'
  split at e'
  · cases e'
  · rename_i s2 hs2
    have hrl : t.rows.length = h.sd.rows.length := by
      have := congrArg List.length hs.rows
      simpa using this
    have hb : ¬ (h.sd.i = 0 ∨ h.sd.aux.length ≤ h.sd.i ∨ h.sd.rows.length ≤ h.sd.i ∨ h.sd.cyc.length ≤ h.sd.i) := by
      unfold rsSolve at hs2
      split at hs2
      · cases hs2
      · rename_i hb
        rw [← hs.i, ← ha, ← hrl, ← hs.cyc]
        exact hb
    obtain ⟨r2, k1, rfl⟩ := rsSolve_ok hs2
    have hst : (t.rows.getD t.i Row.zero).stale = (h.sd.rows.getD h.sd.i Row.zero).stale := by
      have := sameRow hs.rows t.i
      rw [hs.i] at this ⊢
      unfold Row.stale
      have g1 := congrArg (fun r : Row K => r.ach) this
      have g2 := congrArg (fun r : Row K => r.fc.fcKwOutAch) this
      simp only [withoutFuel] at g1 g2
      rw [g1, g2]
    have hE : ({ dt := rsDtAt t.cyc t.i
                 mps := t.cyc.speeds.getD t.i 0
                 gradeOf := rsLookupGradeAch F P t
                 gradeEst := rsEstimateGrade F P t
                 auxIn := (rsAuxStep V t.aux t.i).getD t.i 0
                 coast := t.impose.getD t.i false
                 roadKw := 0 } : StepEnv K) = hotStepEnv F V P h.sd 0 := by
      have g1 : rsLookupGradeAch F P t = rsLookupGradeAch F P h.sd := by
        funext v
        unfold rsLookupGradeAch
        simp only [hP.coast, hP.idm, hs.cyc, hs.cyc0, hs.i, Bool.not_false, Bool.and_self, if_true]
      have g2 : rsEstimateGrade F P t = rsEstimateGrade F P h.sd := by
        unfold rsEstimateGrade
        simp only [hP.coast, hP.idm, hs.cyc, hs.cyc0, hs.i, Bool.not_false, Bool.and_self, if_true]
      unfold hotStepEnv hotAux
      rw [g1, g2, ha, hs.cyc, hs.impose, hs.i, getD_modify_add_zero]
    rw [hE, hst] at k1
    have hA : ∃ x, ambAt h.amb h.sd.i = .ok x := by
      unfold ambAt
      cases q : h.amb with
      | none => exact ⟨_, rfl⟩
      | some l =>
        push_neg at hb
        have : h.sd.i < l.length := lt_of_lt_of_le hb.2.2.2 (hamb l q)
        simp only [List.getElem?_eq_getElem this]
        exact ⟨_, rfl⟩
    obtain ⟨amb, hA⟩ := hA
    obtain ⟨m, hm⟩ := setThermal_exists (F := F) hO (hotEnv V h.sd) amb h.state
    have hml := (setThermal_load hm).1
    obtain ⟨q, hq⟩ := hot_row_exists hO (p' := h.sd.rows.getD (h.sd.i - 1) Row.zero)
      (by rw [hs.i]; exact sameRow hs.rows (h.sd.i - 1)) k1 m
    unfold hotStep
    simp only [if_neg hb, hv, hA, hm, bind, Except.bind]
    rw [hml, hl, hq]
    exact ⟨_, rfl⟩

theorem hot_loop_exists (hO : HotOk C T V) (hP : PlainDrive P) : ∀ (n : Nat) {h : Hot K} {t t' : Sim K}, SameSoFar h t →
    t.aux = h.sd.aux → h.hvac = none → h.state.cabHvacPwrAuxKw = 0 → (∀ l, h.amb = some l → h.sd.cyc.length ≤ l.length) →
    rsWalkLoop F RH V P n t = .ok t' → ∃ f, hotWalkLoop F C T V P n h = .ok f := by
  intro n
  induction n with
  | zero =>
    intro h t t' hs ha hv hl hamb e'
    unfold hotWalkLoop
    unfold rsWalkLoop at e'
    rw [hs.i, hs.cyc] at e'
    split at e'
    · cases e'
    · rename_i hi
      rw [if_neg hi]
      exact ⟨_, rfl⟩
  | succ n ih =>
    intro h t t' hs ha hv hl hamb e'
    unfold hotWalkLoop
    unfold rsWalkLoop at e'
    rw [hs.i, hs.cyc] at e'
    split at e'
    · rename_i hi
      rw [if_pos hi]
      split at e'
      · cases e'
      · rename_i t1 e2
        obtain ⟨h1, e1⟩ := hot_step_exists hO hP hs ha hv hl hamb e2
        rw [e1]
        simp only
        obtain ⟨x0, hi1⟩ := hotStep_frame e1
        obtain ⟨hb, amb, r, q, q1, q2, q3, hh⟩ := hotStep_ok e1
        rw [hv] at q2
        obtain ⟨l1, l2⟩ := setThermal_load (m := r.1) (g := r.2) q2
        have haux1 : h1.sd.aux = rsAuxStep V h.sd.aux h.sd.i := by
          rw [hh]
          show hotAux V h.sd r.1.cabHvacPwrAuxKw = _
          unfold hotAux
          rw [l1, hl, getD_modify_add_zero]
        obtain ⟨s1, s2⟩ := same_step hP hs e1 e2 (by rw [haux1, ha, hs.i])
        refine ih s1 (by rw [s2, haux1, ha, hs.i]) (by rw [hh]; exact l2) ?_ (by rw [x0.amb, x0.cyc]; exact hamb) e'
        rw [hh]
        exact l1.trans hl
    · rename_i hi
      rw [if_neg hi]
      exact ⟨_, rfl⟩

/-- **C103 (completion).** A thermal simulation without a cabin model completes whenever the plain simulation of the Rust core
does, if the engine map has two points and covers its largest power, the thermostat has an opening range and there are ambient
temperatures for all samples. -/
theorem C103_completes (hO : HotOk C T V) (hP : PlainDrive P) {h : Hot K} {t : Sim K} (hlen : h.sd.cyc.length = h.sd.cyc0.length)
    (hv : h.hvac = none) (hl : h.state.cabHvacPwrAuxKw = 0) (hamb : ∀ l, h.amb = some l → h.sd.cyc0.length ≤ l.length) {soc : K}
    {aux : Option (List K)} (e' : rsWalk F RH V P h.sd soc aux = .ok t) :
    ∃ f, hotWalk F C T V P h soc aux = .ok f := by
  unfold hotWalk hotInitForStep
  unfold rsWalk at e'
  cases q : rsInitForStep V P h.sd soc aux with
  | error _ => rw [q] at e'; cases e'
  | ok s =>
    rw [q] at e'
    simp only at e' ⊢
    have hc : s.cyc.length = h.sd.cyc0.length := by
      unfold rsInitForStep at q
      split at q
      · split at q
        · cases q
        · cases q
          simp only
          split
          · rfl
          · exact hlen
      · cases q
    refine hot_loop_exists hO hP _ ?_ ?_ ?_ ?_ ?_ e'
    · exact ⟨rfl, rfl, rfl, rfl, rfl⟩
    · rfl
    · exact hv
    · exact hl
    · intro l hl'
      simp only at hl' ⊢
      rw [hc]
      exact hamb l hl'

end Field

/-! ### Concrete cases -/

section Demo
open Demo

/-- Rational stand-ins for the functions, gasoline and the power points of the engine map. -/
def hotFns : Fns ℚ := { fns with pow := fun x _ => if x = 1 then 1 else 100 }

/-- The constants of gasoline. -/
def hotConsts : HotConsts ℚ :=
  { pi := 22 / 7, kwhPerGge := 337 / 10, fuelRho := 3 / 4, fuelAfrStoich := 147 / 10, inputKwOut := [0, 50, 100] }

/-- A thermal simulation without cabin model that starts with the engine at `te`. -/
def hotStart (te : ℚ) : Hot ℚ :=
  { sd := Sim.new cyc, state := Thermal.make (some 20) (some te) none none none, hvac := none, amb := none, history := []
    hvacHistory := [] }

/-- The default vehicle with a linear dependence on the engine temperature. -/
def linearCar : VehThrm ℚ := { VehThrm.default with fcModel := some (.linear (1 / 2) (1 / 200) (1 / 5), .fuelConverter) }

/-- The default vehicle with the model of catalyst and engine; the catalyst keeps its temperature. -/
def litCar : VehThrm ℚ := { VehThrm.default with fcModel := some (.exponential 0 25 (1 / 5), .catAndFc) }

/-- The settings of the theorems are met: the plain run completes, the engine runs in the second step between the second point of
its map and its end, the coefficients are positive, and the colder of two engines burns more. At idle (below the second point of
the map) the thermal simulation burns less than the plain one, in spite of its coefficient. -/
theorem C103_demo : HotOk hotConsts VehThrm.default conv ∧ PlainDrive params ∧ (hotStart 20).hvac = none ∧
    (hotStart 20).state.cabHvacPwrAuxKw = 0 ∧ (∀ x ∈ conv.fcEffArray, 0 < x) ∧
    Hot.make cyc none (some (Thermal.make (some 20) (some 20) none none none)) none =
      .ok { hotStart 20 with sd := (Sim.new cyc).toRust } ∧
    (match hotWalk hotFns hotConsts VehThrm.default conv params (hotStart 20) (1 / 2) none,
        hotWalk hotFns hotConsts VehThrm.default conv params (hotStart 80) (1 / 2) none,
        hotWalk hotFns hotConsts linearCar conv params (hotStart 80) (1 / 2) none,
        rsWalk hotFns rsNoHooks conv params (Sim.new cyc) (1 / 2) none with
      | .ok f, .ok f', .ok l, .ok t => decide (
          (∀ i ∈ List.range 6, 0 < i → (f.sd.rows.getD i Row.zero).fc.fcKwOutAch ≠ 0 ∧
            0 < ((f.history.map Thermal.fcEtaTempCoeff).getD i 0) ∧
            ((f.history.map Thermal.fcTe).getD i 0) < ((f'.history.map Thermal.fcTe).getD i 0) ∧
            (f'.sd.rows.getD i Row.zero).fc.fcKwInAch < (f.sd.rows.getD i Row.zero).fc.fcKwInAch ∧
            1 / 5 < ((l.history.map Thermal.fcEtaTempCoeff).getD i 0) ∧ ((l.history.map Thermal.fcEtaTempCoeff).getD i 0) < 1) ∧
          (t.rows.getD 2 Row.zero).fc.fcKwInAch < (l.sd.rows.getD 2 Row.zero).fc.fcKwInAch ∧
          (l.sd.rows.getD 5 Row.zero).fc.fcKwInAch < (t.rows.getD 5 Row.zero).fc.fcKwInAch ∧
          1 ≤ (f.sd.rows.getD 2 Row.zero).fc.fcKwOutAch ∧ (f.sd.rows.getD 2 Row.zero).fc.fcKwOutAch ≤ 99)
      | _, _, _, _ => false) = true := by
  refine ⟨⟨by decide, by decide, by decide, ?_, by decide +kernel⟩, ⟨rfl, rfl, rfl⟩, rfl, rfl, by decide +kernel, rfl,
    by decide +kernel⟩
  intro x hx
  have : x = 0 := by simpa [conv] using hx.symm
  subst this
  decide +kernel

/-- **C103 (found: a hot catalyst).** A car that starts with its catalyst above the light-off temperature keeps the coefficient of
the initial state in all its steps, zero by default, although its engine runs and would have 0.44. -/
theorem C103_lit_demo :
    (match hotWalk hotFns hotConsts litCar conv params
        { hotStart 20 with state := Thermal.make (some 20) (some 20) none none (some 500) } (1 / 2) none with
      | .ok f => decide ((∀ s ∈ f.history, litCar.catTeLightoff ≤ s.catTe ∧ s.fcEtaTempCoeff = 0) ∧
          ∀ i ∈ List.range 6, 0 < i → (f.sd.rows.getD i Row.zero).fc.fcKwOutAch ≠ 0)
      | .error _ => false) = true ∧
    (match hotWalk hotFns hotConsts litCar conv params (hotStart 20) (1 / 2) none with
      | .ok f => decide (∀ i ∈ List.range 6, 0 < i → 0 < ((f.history.map Thermal.fcEtaTempCoeff).getD i 0))
      | .error _ => false) = true := by
  decide +kernel

end Demo
end Fastsim.Props
