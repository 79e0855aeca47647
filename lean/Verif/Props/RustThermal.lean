import Verif.Model.RsThermal
import Verif.Props.RustRun

/-!
# C103: the thermal simulation, its history and its drive
-/

set_option linter.unusedSectionVars false

namespace Fastsim.Props
open Fastsim Spec

section Lawless
variable {K : Type*} [Zero K] [One K] [NatCast K] [Add K] [Sub K] [Mul K] [Div K] [Neg K]
  [LinearOrder K]
variable {F : Fns K} {C : HotConsts K} {T : VehThrm K} {V : Veh K} {P : SimParams K}

/-- The environment of the powertrain calculations of step `i`, read off the finished simulation. -/
def endEnv (F : Fns K) (P : SimParams K) (s : Sim K) (i : Nat) : StepEnv K :=
  { dt := rsDtAt s.cyc i
    mps := s.cyc.speeds.getD i 0
    gradeOf := rsLookupGradeAch F P { s with i := i }
    gradeEst := rsEstimateGrade F P { s with i := i }
    auxIn := s.aux.getD i 0
    coast := s.impose.getD i false
    roadKw := 0 }

/-- Step `i` of a finished thermal simulation `f` led from the thermal state `s` (cabin model `g`) to `s'` (`g'`); `a0` is the
accessory array before the run. -/
structure HotStepRel (F : Fns K) (C : HotConsts K) (T : VehThrm K) (V : Veh K) (P : SimParams K) (a0 : List K) (f : Hot K) (i : Nat)
    (s : Thermal K) (g : Option (Hvac K)) (s' : Thermal K) (g' : Option (Hvac K)) : Prop where
  thermal : ∃ amb m, ambAt f.amb i = .ok amb ∧
    setThermal F C T (hotEnv V { f.sd with i := i }) amb s g = .ok (m, g') ∧
    s' = { m with fcEtaTempCoeff := s'.fcEtaTempCoeff } ∧
    hotSolveStep F C T V P.toStepParams (endEnv F P f.sd i) (f.sd.rows.getD (i - 1) Row.zero) Stale.fresh m =
      .ok (f.sd.rows.getD i Row.zero, s'.fcEtaTempCoeff)
  load : f.sd.aux.getD i 0 = (rsAuxStep V a0 i).getD i 0 + s'.cabHvacPwrAuxKw
  bounds : 0 < i ∧ i < f.sd.rows.length ∧ i < f.sd.aux.length ∧ i < f.sd.cyc.length

theorem hotStep_ok {h h' : Hot K} (e : hotStep F C T V P h = .ok h') :
    ¬ (h.sd.i = 0 ∨ h.sd.aux.length ≤ h.sd.i ∨ h.sd.rows.length ≤ h.sd.i ∨ h.sd.cyc.length ≤ h.sd.i) ∧
    ∃ amb r q, ambAt h.amb h.sd.i = .ok amb ∧ setThermal F C T (hotEnv V h.sd) amb h.state h.hvac = .ok r ∧
      hotSolveStep F C T V P.toStepParams (hotStepEnv F V P h.sd r.1.cabHvacPwrAuxKw)
        (h.sd.rows.getD (h.sd.i - 1) Row.zero) (h.sd.rows.getD h.sd.i Row.zero).stale r.1 = .ok q ∧
      h' = { h with
        sd := { h.sd with
          aux := hotAux V h.sd r.1.cabHvacPwrAuxKw, rows := h.sd.rows.set h.sd.i q.1, i := h.sd.i + 1 }
        state := { r.1 with fcEtaTempCoeff := q.2 }
        hvac := r.2
        history := h.history ++ [{ r.1 with fcEtaTempCoeff := q.2 }]
        hvacHistory := h.hvacHistory ++ r.2.toList } := by
  unfold hotStep at e
  simp only at e
  split at e
  · cases e
  · rename_i hb
    refine ⟨hb, ?_⟩
    simp only [bind, Except.bind] at e
    split at e
    · cases e
    · rename_i amb ha
      split at e
      · cases e
      · rename_i r hr
        split at e
        · cases e
        · rename_i q hq
          refine ⟨amb, r, q, ha, hr, hq, ?_⟩
          exact (Except.ok.inj e).symm

theorem hotAux_length (s : Sim K) (x : K) : (hotAux V s x).length = s.aux.length := by
  unfold hotAux rsAuxStep
  split <;> simp

theorem hotAux_other (s : Sim K) (x : K) {j : Nat} (hj : j ≠ s.i) : (hotAux V s x)[j]? = s.aux[j]? := by
  unfold hotAux rsAuxStep
  rw [List.getElem?_modify]
  simp only [if_neg (Ne.symm hj)]
  split
  · rw [List.getElem?_set_ne (Ne.symm hj)]; simp
  · simp

/-- What a run leaves as it is: the entries before the present step, the cycles, the flags. -/
structure HotFrame (h h' : Hot K) : Prop where
  rows : ∀ j, j < h.sd.i → h'.sd.rows[j]? = h.sd.rows[j]?
  aux : ∀ j, j < h.sd.i → h'.sd.aux[j]? = h.sd.aux[j]?
  rowsLen : h'.sd.rows.length = h.sd.rows.length
  auxLen : h'.sd.aux.length = h.sd.aux.length
  cyc : h'.sd.cyc = h.sd.cyc
  cyc0 : h'.sd.cyc0 = h.sd.cyc0
  impose : h'.sd.impose = h.sd.impose
  amb : h'.amb = h.amb
  le : h.sd.i ≤ h'.sd.i

theorem hotStep_frame {h h' : Hot K} (e : hotStep F C T V P h = .ok h') : HotFrame h h' ∧ h'.sd.i = h.sd.i + 1 := by
  obtain ⟨-, amb, r, q, -, -, -, rfl⟩ := hotStep_ok e
  refine ⟨⟨?_, ?_, ?_, ?_, rfl, rfl, rfl, rfl, Nat.le_succ _⟩, rfl⟩
  · intro j hj
    simp only
    rw [List.getElem?_set_ne (by omega)]
  · intro j hj
    exact hotAux_other _ _ (by omega)
  · simp
  · exact hotAux_length _ _

theorem HotFrame.refl (h : Hot K) : HotFrame h h := ⟨fun _ _ => rfl, fun _ _ => rfl, rfl, rfl, rfl, rfl, rfl, rfl, le_rfl⟩

theorem HotFrame.trans {a b c : Hot K} (x : HotFrame a b) (y : HotFrame b c) : HotFrame a c :=
  ⟨fun j hj => (y.rows j (lt_of_lt_of_le hj x.le)).trans (x.rows j hj),
   fun j hj => (y.aux j (lt_of_lt_of_le hj x.le)).trans (x.aux j hj),
   y.rowsLen.trans x.rowsLen, y.auxLen.trans x.auxLen, y.cyc.trans x.cyc, y.cyc0.trans x.cyc0, y.impose.trans x.impose,
   y.amb.trans x.amb, x.le.trans y.le⟩

theorem hotWalkLoop_frame : ∀ (n : Nat) {h h' : Hot K}, hotWalkLoop F C T V P n h = .ok h' →
    HotFrame h h' ∧ ¬ h'.sd.i < h'.sd.cyc.length := by
  intro n
  induction n with
  | zero =>
    intro h h' e
    unfold hotWalkLoop at e
    split at e
    · cases e
    · rename_i hi
      cases e
      exact ⟨HotFrame.refl h, hi⟩
  | succ n ih =>
    intro h h' e
    unfold hotWalkLoop at e
    split at e
    · split at e
      · cases e
      · rename_i h1 e1
        obtain ⟨x, y⟩ := ih e
        exact ⟨(hotStep_frame e1).1.trans x, y⟩
    · rename_i hi
      cases e
      exact ⟨HotFrame.refl h, hi⟩

theorem getD_of_getElem? {α : Type*} {l l' : List α} {j : Nat} {d : α} (h : l[j]? = l'[j]?) : l.getD j d = l'.getD j d := by
  rw [List.getD_eq_getElem?_getD, List.getD_eq_getElem?_getD, h]

/-- One step, seen from the finished simulation. -/
theorem hotStep_rel {h h1 f : Hot K} {a0 : List K} (e : hotStep F C T V P h = .ok h1) (x : HotFrame h1 f)
    (hs : (h.sd.rows.getD h.sd.i Row.zero).stale = Stale.fresh)
    (ha : ∀ j, h.sd.i ≤ j → h.sd.aux[j]? = a0[j]?) (hl : h.sd.aux.length = a0.length) :
    HotStepRel F C T V P a0 f h.sd.i h.state h.hvac h1.state h1.hvac := by
  obtain ⟨x0, hi1⟩ := hotStep_frame e
  obtain ⟨hb, amb, r, q, e1, e2, e3, rfl⟩ := hotStep_ok e
  push_neg at hb
  obtain ⟨hb0, hb1, hb2, hb3⟩ := hb
  have y := x0.trans x
  have hdrop : h.sd.aux.drop h.sd.i = a0.drop h.sd.i := by
    apply List.ext_getElem?
    intro j
    rw [List.getElem?_drop, List.getElem?_drop]
    exact ha _ (by omega)
  have haux : (rsAuxStep V h.sd.aux h.sd.i)[h.sd.i]? = (rsAuxStep V a0 h.sd.i)[h.sd.i]? := by
    unfold rsAuxStep
    rw [hdrop]
    split
    · rw [List.getElem?_set_self hb1, List.getElem?_set_self (by rw [← hl]; exact hb1)]
    · exact ha _ le_rfl
  have hlast : f.sd.aux[h.sd.i]? = (hotAux V h.sd r.1.cabHvacPwrAuxKw)[h.sd.i]? := x.aux _ (by simp)
  have hload : f.sd.aux.getD h.sd.i 0 = (hotAux V h.sd r.1.cabHvacPwrAuxKw).getD h.sd.i 0 := getD_of_getElem? hlast
  have hrow : f.sd.rows.getD h.sd.i Row.zero = q.1 := by
    have := x.rows h.sd.i (by simp)
    simp only at this
    rw [List.getElem?_set_self hb2] at this
    rw [List.getD_eq_getElem?_getD, this, Option.getD_some]
  have hprev : f.sd.rows.getD (h.sd.i - 1) Row.zero = h.sd.rows.getD (h.sd.i - 1) Row.zero :=
    getD_of_getElem? (y.rows _ (by omega))
  have henv : hotEnv V { f.sd with i := h.sd.i } = hotEnv V h.sd := by
    unfold hotEnv
    simp only [hprev, y.cyc]
  have hE : endEnv F P f.sd h.sd.i = hotStepEnv F V P h.sd r.1.cabHvacPwrAuxKw := by
    have g1 : rsLookupGradeAch F P { f.sd with i := h.sd.i } = rsLookupGradeAch F P h.sd := by
      funext v
      unfold rsLookupGradeAch
      simp only [hprev, y.cyc, y.cyc0]
    have g2 : rsEstimateGrade F P { f.sd with i := h.sd.i } = rsEstimateGrade F P h.sd := by
      unfold rsEstimateGrade
      simp only [y.cyc, y.cyc0]
    unfold endEnv hotStepEnv
    rw [g1, g2, hload, y.cyc, y.impose]
  refine ⟨⟨amb, r.1, ?_, ?_, rfl, ?_⟩, ?_, ?_⟩
  · rw [y.amb]; exact e1
  · rw [henv]; exact e2
  · rw [hE, hprev, hrow, ← hs]; exact e3
  · show f.sd.aux.getD h.sd.i 0 = (rsAuxStep V a0 h.sd.i).getD h.sd.i 0 + r.1.cabHvacPwrAuxKw
    rw [hload, List.getD_eq_getElem?_getD, hotAux, List.getElem?_modify, haux, List.getD_eq_getElem?_getD]
    have : h.sd.i < (rsAuxStep V a0 h.sd.i).length := by
      unfold rsAuxStep
      split <;> simp [← hl, hb1]
    rw [List.getElem?_eq_getElem this]
    simp
  · exact ⟨Nat.pos_of_ne_zero hb0, by rw [y.rowsLen]; exact hb2, by rw [y.auxLen]; exact hb1, by rw [y.cyc]; exact hb3⟩

/-- The steps of the loop, seen from the finished simulation. -/
theorem hotWalkLoop_trace {a0 : List K} : ∀ (n : Nat) {h f : Hot K}, hotWalkLoop F C T V P n h = .ok f →
    (∀ j, h.sd.i ≤ j → (h.sd.rows.getD j Row.zero).stale = Stale.fresh) →
    (∀ j, h.sd.i ≤ j → h.sd.aux[j]? = a0[j]?) → h.sd.aux.length = a0.length →
    ∃ (S : List (Thermal K)) (G : List (Option (Hvac K))), S.length = f.sd.i - h.sd.i ∧ G.length = f.sd.i - h.sd.i ∧
      f.history = h.history ++ S ∧ f.hvacHistory = h.hvacHistory ++ G.flatMap Option.toList ∧
      (h.state :: S).getLast? = some f.state ∧ (h.hvac :: G).getLast? = some f.hvac ∧
      ∀ k s g s' g', (h.state :: S)[k]? = some s → (h.hvac :: G)[k]? = some g → S[k]? = some s' → G[k]? = some g' →
        HotStepRel F C T V P a0 f (h.sd.i + k) s g s' g' := by
  intro n
  induction n with
  | zero =>
    intro h f e _ _ _
    unfold hotWalkLoop at e
    split at e
    · cases e
    · cases e
      exact ⟨[], [], by simp, by simp, by simp, by simp, rfl, rfl, by simp⟩
  | succ n ih =>
    intro h f e hs ha hl
    have e0 := e
    unfold hotWalkLoop at e
    split at e
    · split at e
      · cases e
      · rename_i h1 e1
        obtain ⟨x0, hi1⟩ := hotStep_frame e1
        have x := (hotWalkLoop_frame _ e).1
        obtain ⟨hb, amb, r, q, q1, q2, q3, hh⟩ := hotStep_ok e1
        have rel := hotStep_rel (a0 := a0) e1 x (hs _ le_rfl) ha hl
        obtain ⟨S, G, s1, s2, s3, s4, s5, s6, s7⟩ := ih e
          (by
            intro j hj
            rw [hi1] at hj
            have : h1.sd.rows[j]? = h.sd.rows[j]? := by
              rw [hh]
              simp only
              rw [List.getElem?_set_ne (by omega)]
            rw [getD_of_getElem? this]
            exact hs j (by omega))
          (by
            intro j hj
            rw [hi1] at hj
            have : h1.sd.aux[j]? = h.sd.aux[j]? := by
              rw [hh]
              exact hotAux_other _ _ (by omega)
            rw [this]
            exact ha j (by omega))
          (by rw [x0.auxLen, hl])
        have hle := x.le
        refine ⟨h1.state :: S, h1.hvac :: G, ?_, ?_, ?_, ?_, ?_, ?_, ?_⟩
        · simp only [List.length_cons]; omega
        · simp only [List.length_cons]; omega
        · rw [s3, hh]; simp
        · rw [s4, hh]; simp
        · rw [List.getLast?_cons_cons]; exact s5
        · rw [List.getLast?_cons_cons]; exact s6
        · intro k s g s' g' k1 k2 k3 k4
          cases k with
          | zero =>
            simp only [List.getElem?_cons_zero, Option.some.injEq] at k1 k2 k3 k4
            subst k1; subst k2; subst k3; subst k4
            exact rel
          | succ k =>
            simp only [List.getElem?_cons_succ] at k1 k2 k3 k4
            have := s7 k s g s' g' k1 k2 k3 k4
            rw [hi1] at this
            rw [show h.sd.i + (k + 1) = h.sd.i + 1 + k by omega]
            exact this
    · cases e
      exact ⟨[], [], by simp, by simp, by simp, by simp, rfl, rfl, by simp⟩

theorem hotWalkLoop_end : ∀ (n : Nat) {h f : Hot K}, hotWalkLoop F C T V P n h = .ok f → h.sd.i ≤ h.sd.cyc.length →
    f.sd.i = h.sd.cyc.length := by
  intro n
  induction n with
  | zero =>
    intro h f e hi
    unfold hotWalkLoop at e
    split at e
    · cases e
    · cases e; omega
  | succ n ih =>
    intro h f e hi
    unfold hotWalkLoop at e
    split at e
    · split at e
      · cases e
      · rename_i h1 e1
        obtain ⟨x0, hi1⟩ := hotStep_frame e1
        rw [ih e (by rw [x0.cyc, hi1]; omega), x0.cyc]
    · cases e; omega

/-- A walk, seen from the finished simulation: the states are those of the history, from the one the walk began with. -/
theorem hotWalk_trace {h f : Hot K} (hlen : h.sd.cyc.length = h.sd.cyc0.length) {soc : K} {aux : Option (List K)}
    (ha : ∀ x, aux = some x → x.length = h.sd.cyc0.length) (e : hotWalk F C T V P h soc aux = .ok f) :
    0 < h.sd.cyc0.length ∧
    ∃ (S : List (Thermal K)) (G : List (Option (Hvac K))), S.length = h.sd.cyc0.length ∧ G.length = h.sd.cyc0.length ∧
      S[0]? = some h.state ∧ G[0]? = some h.hvac ∧
      f.history = h.history ++ S ∧ f.hvacHistory = h.hvacHistory ++ G.flatMap Option.toList ∧
      S.getLast? = some f.state ∧ G.getLast? = some f.hvac ∧
      (∀ k s g s' g', S[k]? = some s → G[k]? = some g → S[k + 1]? = some s' → G[k + 1]? = some g' →
        HotStepRel F C T V P (aux.getD (List.replicate h.sd.cyc0.length 0)) f (k + 1) s g s' g') ∧
      f.sd.rows.length = h.sd.cyc0.length ∧ f.sd.aux.length = h.sd.cyc0.length ∧
      f.sd.cyc = (if P.missedTrace || P.idmAllow || P.coastAllow then h.sd.cyc0 else h.sd.cyc) ∧ f.sd.cyc0 = h.sd.cyc0 ∧
      f.sd.i = h.sd.cyc0.length ∧
      (V.ptType = .conv ∨ (V.minSoc ≤ soc ∧ soc ≤ V.maxSoc)) ∧
      f.sd.rows.getD 0 Row.zero = Row.init V soc (h.sd.cyc0.speeds.getD 0 0)
        ((aux.getD (List.replicate h.sd.cyc0.length 0)).getD 0 0) ∧
      f.sd.aux[0]? = (aux.getD (List.replicate h.sd.cyc0.length 0))[0]? ∧
      f.sd.impose = List.replicate h.sd.cyc0.length false := by
  unfold hotWalk hotInitForStep rsInitForStep at e
  by_cases hs : V.ptType = .conv ∨ (V.minSoc ≤ soc ∧ soc ≤ V.maxSoc)
  · rw [if_pos hs] at e
    by_cases hz : h.sd.cyc0.length = 0
    · rw [if_pos hz] at e; cases e
    · rw [if_neg hz] at e
      refine ⟨Nat.pos_of_ne_zero hz, ?_⟩
      generalize hA : aux.getD (List.replicate h.sd.cyc0.length 0) = A at e
      have hAl : A.length = h.sd.cyc0.length := by
        rw [← hA]
        cases aux with
        | none => simp
        | some x => exact ha x rfl
      simp only at e
      generalize hc : (if (P.missedTrace || P.idmAllow || P.coastAllow) = true then h.sd.cyc0 else h.sd.cyc) = c at e
      have hcl : c.length = h.sd.cyc0.length := by
        rw [← hc]; split
        · rfl
        · exact hlen
      generalize hR : (rsInitArrays h.sd).rows.set 0 (Row.init V soc (h.sd.cyc0.speeds.getD 0 0) (A.getD 0 0)) = R at e
      have hRl : R.length = h.sd.cyc0.length := by rw [← hR]; simp [rsInitArrays]
      obtain ⟨S, G, s1, s2, s3, s4, s5, s6, s7⟩ := hotWalkLoop_trace (a0 := A) _ e
        (by
          intro j hj
          have hj : 1 ≤ j := hj
          show (R.getD j Row.zero).stale = _
          rw [← hR, List.getD_eq_getElem?_getD, List.getElem?_set_ne (by omega)]
          simp only [rsInitArrays]
          by_cases q : j < h.sd.cyc0.length
          · rw [List.getElem?_replicate_of_lt q]; rfl
          · rw [List.getElem?_eq_none (by simpa using q)]; rfl)
        (fun _ _ => rfl) rfl
      have x := (hotWalkLoop_frame _ e).1
      have hi := hotWalkLoop_end _ e (by show 1 ≤ c.length; omega)
      simp only [hcl] at hi
      simp only [hi] at s1 s2
      refine ⟨h.state :: S, h.hvac :: G, ?_, ?_, rfl, rfl, ?_, ?_, s5, s6, ?_, ?_, ?_, x.cyc, x.cyc0, hi, hs, ?_, ?_, x.impose⟩
      · simp only [List.length_cons, s1]; omega
      · simp only [List.length_cons, s2]; omega
      · rw [s3]; simp
      · rw [s4]; simp
      · intro k s g s' g' k1 k2 k3 k4
        simp only [List.getElem?_cons_succ] at k3 k4
        have := s7 k s g s' g' k1 k2 k3 k4
        rw [Nat.add_comm]
        exact this
      · rw [x.rowsLen]; exact hRl
      · rw [x.auxLen]; exact hAl
      · have := x.rows 0 (by simp)
        simp only at this
        rw [getD_of_getElem? this, ← hR, List.getD_eq_getElem?_getD, List.getElem?_set_self (by simp [rsInitArrays]; omega),
          Option.getD_some]
      · exact x.aux 0 (by simp)
  · rw [if_neg hs] at e; cases e

end Lawless

section Field
variable {K : Type*} [Field K] [LinearOrder K]
variable {F : Fns K} {C : HotConsts K} {T : VehThrm K} {V : Veh K}

/-- A plain step and a thermal step from rows with the same drive, with the same environment, have the same drive. -/
theorem hot_row {P : StepParams K} {E : StepEnv K} {p p' r r' : Row K} {st : Stale K} {s : Thermal K} {c : K}
    (hp : withoutFuel p = withoutFuel p') (h : rsSolveStep F V P E p st = .ok r)
    (h' : hotSolveStep F C T V P E p' st s = .ok (r', c)) : withoutFuel r = withoutFuel r' := by
  rw [withoutFuel_iff hp] at h'
  generalize p'.lims.curMaxFsKwOut = a at h'
  generalize p'.fc.fcKwInAch = b at h'
  generalize p'.fc.fsKwOutAch = x at h'
  generalize p'.fc.fsKwhOutAch = d at h'
  clear hp p'
  unfold rsSolveStep at h
  unfold hotSolveStep at h'
  have hM : rsSetMisc V E (otherFuel p a b x d) = rsSetMisc V E p := rfl
  rw [hM] at h'
  generalize rsSetMisc V E p = M at h h'
  have hL : ∀ L', rsSetCompLims F V P E (otherFuel p a b x d) M = .ok L' → ∃ L y, rsSetCompLims F V P E p M = .ok L ∧
      L' = { L with curMaxFsKwOut := y } := by
    intro L' e
    unfold rsSetCompLims at e ⊢
    have e1 : rsMcElecInLimKw F V E (otherFuel p a b x d) = rsMcElecInLimKw F V E p := rfl
    have e2 : ∀ l, rsCurMaxMcKwOut V E (otherFuel p a b x d) l = rsCurMaxMcKwOut V E p l := fun _ => rfl
    have e3 : rsCurMaxMechMcKwIn F V E (otherFuel p a b x d) = rsCurMaxMechMcKwIn F V E p := rfl
    rw [e1, e3] at e
    simp only [e2, bind, Except.bind, pure, Except.pure] at e ⊢
    cases q1 : rsMcElecInLimKw F V E p with
    | error _ => rw [q1] at e; cases e
    | ok lim =>
      rw [q1] at e
      simp only at e ⊢
      cases q2 : rsCurMaxMcElecKwIn V (rsCurMaxMcKwOut V E p lim) with
      | error _ => rw [q2] at e; cases e
      | ok el =>
        rw [q2] at e
        simp only at e ⊢
        cases q3 : rsCurMaxMechMcKwIn F V E p with
        | error _ => rw [q3] at e; cases e
        | ok me =>
          rw [q3] at e
          simp only at e ⊢
          refine ⟨_, L'.curMaxFsKwOut, rfl, ?_⟩
          cases e
          rfl
  simp only [bind, Except.bind, pure, Except.pure] at h h'
  split at h'
  · cases h'
  · rename_i L' hL'
    obtain ⟨L, y, l1, rfl⟩ := hL L' hL'
    rw [l1] at h
    simp only at h h'
    have ew : ∀ v, rsPowerAt F V P E (otherFuel p a b x d) { L with curMaxFsKwOut := y } v = rsPowerAt F V P E p L v :=
      fun _ => rfl
    have es : ∀ w, rsSetAchSpeed F V P E (otherFuel p a b x d) { L with curMaxFsKwOut := y } w st =
        rsSetAchSpeed F V P E p L w st := fun _ => rfl
    simp only [ew, es] at h'
    generalize rsSetAchSpeed F V P E p L (rsPowerAt F V P E p L (if 0 < st.newtonIters then st.mpsAch else E.mps)) st = A at h h'
    have eh : rsSetHyb V E (otherFuel p a b x d) { L with curMaxFsKwOut := y } A.2 = rsSetHyb V E p L A.2 := rfl
    rw [eh] at h'
    split at h'
    · cases h'
    · rename_i hy q1
      rw [q1] at h
      simp only at h
      split at h'
      · cases h'
      · rename_i f q2
        rw [q2] at h
        simp only at h
        have ed : rsSetDec F V E (otherFuel p a b x d) M { L with curMaxFsKwOut := y } A.2 hy f st =
            rsSetDec F V E p M L A.2 hy f st := rfl
        rw [ed] at h'
        split at h'
        · cases h'
        · rename_i D q3
          rw [q3] at h
          simp only at h
          have eo : rsFcKwOutAch V E M { L with curMaxFsKwOut := y } A.2 D = rsFcKwOutAch V E M L A.2 D := rfl
          split at h
          · cases h
          · rename_i fc q4
            split at h'
            · cases h'
            · rename_i fc' q5
              cases h
              cases h'
              have k1 : fc.fcKwOutAch = rsFcKwOutAch V E M L A.2 D ∧
                  fc.fcKwOutAchPct = if V.fcMaxKw = 0 then 0 else rsFcKwOutAch V E M L A.2 D / V.fcMaxKw := by
                unfold rsSetFcPower at q4
                simp only [bind, Except.bind, pure, Except.pure] at q4
                split at q4
                · cases q4
                · cases q4; exact ⟨rfl, rfl⟩
              have k2 : fc'.1.fcKwOutAch = rsFcKwOutAch V E M L A.2 D ∧
                  fc'.1.fcKwOutAchPct = if V.fcMaxKw = 0 then 0 else rsFcKwOutAch V E M L A.2 D / V.fcMaxKw := by
                unfold hotSetFcPower at q5
                simp only [eo] at q5
                split at q5
                · rename_i hz
                  cases q5
                  refine ⟨rfl, ?_⟩
                  simp [hz]
                · simp only [bind, Except.bind, pure, Except.pure] at q5
                  split at q5
                  · cases q5
                  · cases q5; exact ⟨rfl, rfl⟩
              obtain ⟨a1, a2, a3, a4, a5⟩ := fc
              obtain ⟨⟨b1, b2, b3, b4, b5⟩, b6⟩ := fc'
              simp only at k1 k2
              obtain ⟨rfl, rfl⟩ := k1
              obtain ⟨rfl, rfl⟩ := k2
              rfl

variable {P : SimParams K} {RH : RsHooks K}

/-- The thermal and the plain simulation are at the same step of the same cycle, with the same drive so far. -/
structure SameSoFar (h : Hot K) (t : Sim K) : Prop where
  i : t.i = h.sd.i
  cyc : t.cyc = h.sd.cyc
  cyc0 : t.cyc0 = h.sd.cyc0
  impose : t.impose = h.sd.impose
  rows : t.rows.map withoutFuel = h.sd.rows.map withoutFuel

theorem sameRow {l l' : List (Row K)} (h : l.map withoutFuel = l'.map withoutFuel) (j : Nat) :
    withoutFuel (l.getD j Row.zero) = withoutFuel (l'.getD j Row.zero) := by
  have q : (l.map withoutFuel)[j]? = (l'.map withoutFuel)[j]? := by rw [h]
  rw [List.getElem?_map, List.getElem?_map] at q
  rw [List.getD_eq_getElem?_getD, List.getD_eq_getElem?_getD]
  cases h1 : l[j]? <;> cases h2 : l'[j]? <;> rw [h1, h2] at q <;> simp at q ⊢
  exact q

theorem rsStep_plain (hP : PlainDrive P) (t : Sim K) : rsStep F RH V P t =
    match rsSolve F V P t with
    | .error e => .error e
    | .ok s => .ok { s with i := s.i + 1 } := by
  unfold rsStep
  simp only [hP.coast, hP.idm, hP.trace, Bool.false_eq_true, if_false, false_and, Bool.or_self]
  cases rsSolve F V P t <;> rfl

theorem rsSolve_ok {t t1 : Sim K} (h : rsSolve F V P t = .ok t1) :
    ∃ r, rsSolveStep F V P.toStepParams
      { dt := rsDtAt t.cyc t.i
        mps := t.cyc.speeds.getD t.i 0
        gradeOf := rsLookupGradeAch F P t
        gradeEst := rsEstimateGrade F P t
        auxIn := (rsAuxStep V t.aux t.i).getD t.i 0
        coast := t.impose.getD t.i false
        roadKw := 0 } (t.rows.getD (t.i - 1) Row.zero) (t.rows.getD t.i Row.zero).stale = .ok r ∧
      t1 = { t with aux := rsAuxStep V t.aux t.i, rows := t.rows.set t.i r } := by
  unfold rsSolve at h
  split at h
  · cases h
  · simp only at h
    split at h
    · cases h
    · rename_i r hr
      exact ⟨r, hr, (Except.ok.inj h).symm⟩

theorem same_step (hP : PlainDrive P) {h h1 : Hot K} {t t1 : Sim K} (hs : SameSoFar h t) (e : hotStep F C T V P h = .ok h1)
    (e' : rsStep F RH V P t = .ok t1) (ha : (rsAuxStep V t.aux t.i).getD t.i 0 = h1.sd.aux.getD h.sd.i 0) :
    SameSoFar h1 t1 ∧ t1.aux = rsAuxStep V t.aux t.i := by
  obtain ⟨hb, amb, r, q, -, -, q3, rfl⟩ := hotStep_ok e
  rw [rsStep_plain hP] at e'
  split at e'
  · cases e'
  · rename_i s2 hs2
    obtain ⟨r2, k1, rfl⟩ := rsSolve_ok hs2
    cases e'
    have hst : (t.rows.getD t.i Row.zero).stale = (h.sd.rows.getD h.sd.i Row.zero).stale := by
      have := sameRow hs.rows t.i
      rw [hs.i] at this ⊢
      unfold Row.stale
      have g1 := congrArg (fun r : Row K => r.ach) this
      have g2 := congrArg (fun r : Row K => r.fc.fcKwOutAch) this
      simp only [withoutFuel] at g1 g2
      rw [g1, g2]
    have hE : ({ dt := rsDtAt t.cyc t.i
                 mps := t.cyc.speeds.getD t.i 0
                 gradeOf := rsLookupGradeAch F P t
                 gradeEst := rsEstimateGrade F P t
                 auxIn := (rsAuxStep V t.aux t.i).getD t.i 0
                 coast := t.impose.getD t.i false
                 roadKw := 0 } : StepEnv K) = hotStepEnv F V P h.sd r.1.cabHvacPwrAuxKw := by
      have g1 : rsLookupGradeAch F P t = rsLookupGradeAch F P h.sd := by
        funext v
        unfold rsLookupGradeAch
        simp only [hP.coast, hP.idm, hs.cyc, hs.cyc0, hs.i, Bool.not_false, Bool.and_self, if_true]
      have g2 : rsEstimateGrade F P t = rsEstimateGrade F P h.sd := by
        unfold rsEstimateGrade
        simp only [hP.coast, hP.idm, hs.cyc, hs.cyc0, hs.i, Bool.not_false, Bool.and_self, if_true]
      unfold hotStepEnv
      rw [g1, g2, ha, hs.cyc, hs.impose, hs.i]
    rw [hE, hst] at k1
    refine ⟨⟨?_, hs.cyc, hs.cyc0, hs.impose, ?_⟩, rfl⟩
    · simp only; rw [hs.i]
    · have hrow := hot_row (p := t.rows.getD (t.i - 1) Row.zero) (r := r2) (r' := q.1) (c := q.2)
        (by rw [hs.i]; exact sameRow hs.rows (h.sd.i - 1)) k1 q3
      simp only [List.map_set, hs.i, hrow, hs.rows]

theorem setThermal_ok {E : HotEnv K} {amb : Option K} {s m : Thermal K} {g g' : Option (Hvac K)}
    (h : setThermal F C T E amb s g = .ok (m, g')) :
    ∃ s1 s2, afterEngine F C T E (withAmb amb s) = .ok s1 ∧ afterCabin F T E s1 g = .ok (s2, g') ∧
      m = fcBalance T E (afterExhaust F C T E s2) := by
  unfold setThermal at h
  split at h
  · cases h
  · rename_i s1 h1
    split at h
    · cases h
    · rename_i r h2
      cases h
      exact ⟨s1, r.1, h1, h2, rfl⟩

theorem withAmb_load (amb : Option K) (s : Thermal K) : (withAmb amb s).cabHvacPwrAuxKw = s.cabHvacPwrAuxKw := by
  cases amb <;> rfl

theorem afterEngine_load {E : HotEnv K} {s s1 : Thermal K} (h : afterEngine F C T E s = .ok s1) :
    s1.cabHvacPwrAuxKw = s.cabHvacPwrAuxKw := by
  unfold afterEngine at h
  split at h
  · unfold setFcThermal at h
    simp only [bind, Except.bind, pure, Except.pure] at h
    split at h
    · cases h
    · cases h; rfl
  · cases h; rfl

theorem setCat_load (E : HotEnv K) (s : Thermal K) : (setCatThermal F C T E s).cabHvacPwrAuxKw = s.cabHvacPwrAuxKw := by
  unfold setCatThermal catHtc
  simp only
  split <;> rfl

theorem afterExhaust_load (E : HotEnv K) (s : Thermal K) : (afterExhaust F C T E s).cabHvacPwrAuxKw = s.cabHvacPwrAuxKw := by
  unfold afterExhaust
  simp only
  split
  · rw [setCat_load]; split <;> rfl
  · split <;> rfl

theorem fcBalance_load (E : HotEnv K) (s : Thermal K) : (fcBalance T E s).cabHvacPwrAuxKw = s.cabHvacPwrAuxKw := by
  unfold fcBalance; split <;> rfl

/-- Without a cabin model the thermal calculations assign no cabin load. -/
theorem setThermal_load {E : HotEnv K} {amb : Option K} {s m : Thermal K} {g : Option (Hvac K)}
    (h : setThermal F C T E amb s none = .ok (m, g)) : m.cabHvacPwrAuxKw = s.cabHvacPwrAuxKw ∧ g = none := by
  obtain ⟨s1, s2, h1, h2, rfl⟩ := setThermal_ok h
  cases h2
  rw [fcBalance_load, afterExhaust_load, afterEngine_load h1, withAmb_load]
  exact ⟨rfl, rfl⟩

/-! The thermal calculations leave the efficiency coefficient as it is. -/

theorem withAmb_coeff (amb : Option K) (s : Thermal K) : (withAmb amb s).fcEtaTempCoeff = s.fcEtaTempCoeff := by
  cases amb <;> rfl

theorem afterEngine_coeff {E : HotEnv K} {s s1 : Thermal K} (h : afterEngine F C T E s = .ok s1) :
    s1.fcEtaTempCoeff = s.fcEtaTempCoeff := by
  unfold afterEngine at h
  split at h
  · unfold setFcThermal at h
    simp only [bind, Except.bind, pure, Except.pure] at h
    split at h
    · cases h
    · cases h; rfl
  · cases h; rfl

theorem hvacControl_coeff {E : HotEnv K} {s s2 : Thermal K} {g g' : Hvac K} (h : hvacControl T E s g = .ok (s2, g')) :
    s2.fcEtaTempCoeff = s.fcEtaTempCoeff := by
  unfold hvacControl at h
  split at h
  · cases h; rfl
  · simp only at h
    split at h
    · split at h
      · cases h; rfl
      · unfold hvacHeat at h
        simp only at h
        split at h
        · split at h
          · cases h
          · cases h; rfl
        · cases h; rfl
    · cases h

theorem afterCabin_coeff {E : HotEnv K} {s s2 : Thermal K} {g g' : Option (Hvac K)} (h : afterCabin F T E s g = .ok (s2, g')) :
    s2.fcEtaTempCoeff = s.fcEtaTempCoeff := by
  unfold afterCabin at h
  split at h
  · cases h; rfl
  · split at h
    · cases h
    · rename_i r hr
      cases h
      unfold setCabThermal at hr
      simp only [bind, Except.bind, pure, Except.pure] at hr
      split at hr
      · cases hr
      · rename_i q hq
        cases hr
        have := hvacControl_coeff (s2 := q.1) (g' := q.2) hq
        exact this

theorem setCat_coeff (E : HotEnv K) (s : Thermal K) : (setCatThermal F C T E s).fcEtaTempCoeff = s.fcEtaTempCoeff := by
  unfold setCatThermal catHtc
  simp only
  split <;> rfl

theorem afterExhaust_coeff (E : HotEnv K) (s : Thermal K) : (afterExhaust F C T E s).fcEtaTempCoeff = s.fcEtaTempCoeff := by
  unfold afterExhaust
  simp only
  split
  · rw [setCat_coeff]; split <;> rfl
  · split <;> rfl

theorem fcBalance_coeff (E : HotEnv K) (s : Thermal K) : (fcBalance T E s).fcEtaTempCoeff = s.fcEtaTempCoeff := by
  unfold fcBalance; split <;> rfl

theorem getD_modify_add_zero (l : List K) (i : Nat) : (l.modify i fun x => x + 0) = l := by
  apply List.ext_getElem?
  intro j
  rw [List.getElem?_modify]
  cases l[j]? <;> simp

/-- The loops without cabin load. -/
theorem same_loop (hP : PlainDrive P) : ∀ (n : Nat) {h f : Hot K} {t t' : Sim K}, SameSoFar h t → t.aux = h.sd.aux →
    h.hvac = none → h.state.cabHvacPwrAuxKw = 0 → hotWalkLoop F C T V P n h = .ok f → rsWalkLoop F RH V P n t = .ok t' →
    SameSoFar f t' ∧ t'.aux = f.sd.aux ∧ f.hvac = none ∧ f.state.cabHvacPwrAuxKw = 0 := by
  intro n
  induction n with
  | zero =>
    intro h f t t' hs ha hv hl e e'
    unfold hotWalkLoop at e
    unfold rsWalkLoop at e'
    split at e
    · cases e
    · split at e'
      · cases e'
      · cases e; cases e'
        exact ⟨hs, ha, hv, hl⟩
  | succ n ih =>
    intro h f t t' hs ha hv hl e e'
    unfold hotWalkLoop at e
    unfold rsWalkLoop at e'
    rw [hs.i, hs.cyc] at e'
    split at e
    · rename_i hi
      rw [if_pos hi] at e'
      split at e
      · cases e
      · rename_i h1 e1
        split at e'
        · cases e'
        · rename_i t1 e2
          obtain ⟨hb, amb, r, q, q1, q2, q3, hh⟩ := hotStep_ok e1
          rw [hv] at q2
          obtain ⟨l1, l2⟩ := setThermal_load (m := r.1) (g := r.2) q2
          have hx : hotAux V h.sd r.1.cabHvacPwrAuxKw = rsAuxStep V h.sd.aux h.sd.i := by
            unfold hotAux
            rw [l1, hl, getD_modify_add_zero]
          have haux1 : h1.sd.aux = rsAuxStep V h.sd.aux h.sd.i := by rw [hh]; exact hx
          obtain ⟨s1, s2⟩ := same_step hP hs e1 e2 (by rw [haux1, ha, hs.i])
          refine ih s1 (by rw [s2, haux1, ha, hs.i]) (by rw [hh]; exact l2) ?_ e e'
          rw [hh]
          exact l1.trans hl
    · rename_i hi
      rw [if_neg hi] at e'
      cases e; cases e'
      exact ⟨hs, ha, hv, hl⟩

/-- **C103 (same drive).** A thermal simulation without a cabin model drives as the plain simulation of the Rust core with the
same arguments: whatever the temperatures are, every array except those of the fuel has the same entries. -/
theorem C103_same_drive (hP : PlainDrive P) {h f : Hot K} {t : Sim K} (hv : h.hvac = none)
    (hl : h.state.cabHvacPwrAuxKw = 0) {soc : K} {aux : Option (List K)} (e : hotWalk F C T V P h soc aux = .ok f)
    (e' : rsWalk F RH V P h.sd soc aux = .ok t) :
    t.rows.map withoutFuel = f.sd.rows.map withoutFuel ∧ t.aux = f.sd.aux ∧ t.cyc = f.sd.cyc := by
  unfold hotWalk hotInitForStep at e
  unfold rsWalk at e'
  cases q : rsInitForStep V P h.sd soc aux with
  | error _ => rw [q] at e; cases e
  | ok s =>
    rw [q] at e e'
    simp only at e e'
    obtain ⟨k1, k2, -, -⟩ := same_loop hP _ (h := { h with sd := s, history := h.history ++ [h.state], hvacHistory := h.hvacHistory ++ h.hvac.toList })
      ⟨rfl, rfl, rfl, rfl, rfl⟩ rfl hv hl e e'
    exact ⟨k1.rows, k2, k1.cyc⟩

/-- The override with which the plain simulation has the load of the cabin as well. -/
theorem aux_kept {a : List K} (h : ∃ x, a.getLast? = some x ∧ x ≠ 0) {i : Nat} (hi : i < a.length) : rsAuxStep V a i = a := by
  obtain ⟨x, hx, h0⟩ := h
  unfold rsAuxStep
  rw [if_neg]
  intro hall
  rw [List.all_eq_true] at hall
  have hm : x ∈ a.drop i := by
    have : (a.drop i).getLast? = some x := by rw [List.getLast?_drop, if_neg (by omega), hx]
    exact List.mem_of_getLast? this
  have := hall x hm
  simp only [decide_eq_true_eq] at this
  exact h0 this

theorem load_loop (hP : PlainDrive P) : ∀ (n : Nat) {h f : Hot K} {t t' : Sim K}, SameSoFar h t → t.aux = f.sd.aux →
    (∃ x, f.sd.aux.getLast? = some x ∧ x ≠ 0) →
    hotWalkLoop F C T V P n h = .ok f → rsWalkLoop F RH V P n t = .ok t' → SameSoFar f t' ∧ t'.aux = f.sd.aux := by
  intro n
  induction n with
  | zero =>
    intro h f t t' hs ha _ e e'
    unfold hotWalkLoop at e
    unfold rsWalkLoop at e'
    split at e
    · cases e
    · split at e'
      · cases e'
      · cases e; cases e'
        exact ⟨hs, ha⟩
  | succ n ih =>
    intro h f t t' hs ha hl e e'
    unfold hotWalkLoop at e
    unfold rsWalkLoop at e'
    rw [hs.i, hs.cyc] at e'
    split at e
    · rename_i hi
      rw [if_pos hi] at e'
      split at e
      · cases e
      · rename_i h1 e1
        split at e'
        · cases e'
        · rename_i t1 e2
          have x := (hotWalkLoop_frame _ e).1
          obtain ⟨x0, hi1⟩ := hotStep_frame e1
          obtain ⟨hb, -⟩ := hotStep_ok e1
          push_neg at hb
          have hk : rsAuxStep V t.aux t.i = t.aux := by
            rw [ha]
            exact aux_kept hl (by rw [x.auxLen, x0.auxLen, hs.i]; exact hb.2.1)
          obtain ⟨s1, s2⟩ := same_step hP hs e1 e2 (by
            rw [hk, hs.i, ha]
            exact getD_of_getElem? (x.aux _ (by omega)))
          exact ih s1 (by rw [s2, hk, ha]) hl e e'
    · rename_i hi
      rw [if_neg hi] at e'
      cases e; cases e'
      exact ⟨hs, ha⟩

/-- **C103 (the load of the cabin).** With a cabin model the thermal simulation drives as the plain simulation with the
accessory load that it ended with: the temperatures act on the drive through that load only. -/
theorem C103_load (hP : PlainDrive P) {h f : Hot K} {t : Sim K} (hlen : h.sd.cyc.length = h.sd.cyc0.length) {soc : K}
    {aux : Option (List K)} (ha : ∀ x, aux = some x → x.length = h.sd.cyc0.length)
    (hl : ∃ x, f.sd.aux.getLast? = some x ∧ x ≠ 0) (e : hotWalk F C T V P h soc aux = .ok f)
    (e' : rsWalk F RH V P h.sd soc (some f.sd.aux) = .ok t) :
    t.rows.map withoutFuel = f.sd.rows.map withoutFuel ∧ t.aux = f.sd.aux ∧ t.cyc = f.sd.cyc := by
  obtain ⟨-, S, G, -, -, -, -, -, -, -, -, -, -, hal, -, -, -, -, -, h0, -⟩ := hotWalk_trace hlen ha e
  unfold hotWalk hotInitForStep rsInitForStep at e
  unfold rsWalk rsInitForStep at e'
  by_cases hs : V.ptType = .conv ∨ (V.minSoc ≤ soc ∧ soc ≤ V.maxSoc)
  · rw [if_pos hs] at e e'
    by_cases hz : h.sd.cyc0.length = 0
    · rw [if_pos hz] at e; cases e
    · rw [if_neg hz] at e e'
      simp only [Option.getD_some] at e e'
      have g0 : f.sd.aux.getD 0 0 = (aux.getD (List.replicate h.sd.cyc0.length 0)).getD 0 0 := getD_of_getElem? h0
      rw [g0] at e'
      suffices k : SameSoFar f t ∧ t.aux = f.sd.aux from ⟨k.1.rows, k.2, k.1.cyc⟩
      refine load_loop hP _ ?_ ?_ hl e e'
      · exact ⟨rfl, rfl, rfl, rfl, rfl⟩
      · rfl
  · rw [if_neg hs] at e; cases e

end Field
end Fastsim.Props
