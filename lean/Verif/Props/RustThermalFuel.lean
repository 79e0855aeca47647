import Verif.Props.RustThermal
import Mathlib.Algebra.Order.Field.Basic

/-!
# C103: the fuel of the thermal simulation
-/

set_option linter.unusedSectionVars false

namespace Fastsim.Props
open Fastsim Spec

section Field
variable {K : Type*} [Field K] [LinearOrder K]
variable {F : Fns K} {C : HotConsts K} {T : VehThrm K} {V : Veh K} {P : SimParams K}

/-- Entry `i` of the history of a walk (entry `0` is the state at the start) and the one before it. -/
theorem hot_at {h f : Hot K} (hlen : h.sd.cyc.length = h.sd.cyc0.length) {soc : K} {aux : Option (List K)}
    (ha : ∀ x, aux = some x → x.length = h.sd.cyc0.length) (e : hotWalk F C T V P h soc aux = .ok f) {i : Nat} (hi : 0 < i)
    (hn : i < h.sd.cyc0.length) : ∃ s g s' g', f.history[h.history.length + (i - 1)]? = some s ∧
      f.history[h.history.length + i]? = some s' ∧
      HotStepRel F C T V P (aux.getD (List.replicate h.sd.cyc0.length 0)) f i s g s' g' := by
  obtain ⟨-, S, G, s1, s2, -, -, s3, -, -, -, s4, -⟩ := hotWalk_trace hlen ha e
  obtain ⟨k, rfl⟩ : ∃ k, i = k + 1 := ⟨i - 1, by omega⟩
  have l1 : k < S.length := by omega
  have l2 : k + 1 < S.length := by omega
  have l3 : k < G.length := by omega
  have l4 : k + 1 < G.length := by omega
  refine ⟨S[k], G[k], S[k + 1], G[k + 1], ?_, ?_,
    s4 k _ _ _ _ (List.getElem?_eq_getElem l1) (List.getElem?_eq_getElem l3) (List.getElem?_eq_getElem l2)
      (List.getElem?_eq_getElem l4)⟩
  · rw [s3, List.getElem?_append_right (by omega)]
    rw [show h.history.length + (k + 1 - 1) - h.history.length = k by omega]
    exact List.getElem?_eq_getElem l1
  · rw [s3, List.getElem?_append_right (by omega)]
    rw [show h.history.length + (k + 1) - h.history.length = k + 1 by omega]
    exact List.getElem?_eq_getElem l2

theorem hotSetFcPower_fc {E : StepEnv K} {M : Misc K} {L : Lims K} {pw : Pow K} {d : Dec K} {s : Thermal K} {r : FcPow K} {c : K}
    (q : hotSetFcPower F C T V E M L pw d s = .ok (r, c)) :
    r.fsKwOutAch = r.fcKwInAch ∧ r.fsKwhOutAch = r.fcKwInAch * E.dt / 3600 ∧
    (r.fcKwOutAch = 0 → r.fcKwInAch = 0 ∧ c = s.fcEtaTempCoeff) ∧
    (r.fcKwOutAch ≠ 0 → c = tempCoeff F T s ∧ hotFcKwIn C V c r.fcKwOutAch = .ok r.fcKwInAch) := by
  unfold hotSetFcPower at q
  simp only at q
  split at q
  · rename_i hz
    cases q
    exact ⟨rfl, rfl, fun _ => ⟨rfl, rfl⟩, fun hn => absurd hz hn⟩
  · rename_i hz
    simp only [bind, Except.bind, pure, Except.pure] at q
    split at q
    · cases q
    · rename_i x hx
      cases q
      exact ⟨rfl, rfl, fun h0 => absurd h0 hz, fun _ => ⟨rfl, hx⟩⟩

/-- The fuel part of a step. -/
theorem hotSolveStep_fc {Q : StepParams K} {E : StepEnv K} {p r : Row K} {st : Stale K} {s : Thermal K} {c : K}
    (h : hotSolveStep F C T V Q E p st s = .ok (r, c)) :
    r.fc.fsKwOutAch = r.fc.fcKwInAch ∧ r.fc.fsKwhOutAch = r.fc.fcKwInAch * E.dt / 3600 ∧
    (r.fc.fcKwOutAch = 0 → r.fc.fcKwInAch = 0 ∧ c = s.fcEtaTempCoeff) ∧
    (r.fc.fcKwOutAch ≠ 0 → c = tempCoeff F T s ∧ hotFcKwIn C V c r.fc.fcKwOutAch = .ok r.fc.fcKwInAch) := by
  unfold hotSolveStep at h
  simp only [bind, Except.bind, pure, Except.pure] at h
  split at h
  · cases h
  · split at h
    · cases h
    · split at h
      · cases h
      · split at h
        · cases h
        · split at h
          · cases h
          · rename_i fc q
            cases h
            exact hotSetFcPower_fc (r := fc.1) (c := fc.2) q

theorem rsBefore_index {arr : List K} {cut : K} {k : Nat} (h : rsBefore arr cut = .ok k) (hc : ∃ x ∈ arr, cut < x) :
    (∀ m x, m ≤ k → arr[m]? = some x → x ≤ cut) ∧ ∃ x, arr[k + 1]? = some x ∧ cut < x := by
  unfold rsBefore rsFirstGrtr at h
  split at h
  · cases h
  · cases h
  · rename_i m hm
    cases h
    split at hm
    · cases hm
    · have hm := Option.some.inj hm
      cases q : arr.findIdx? fun x => decide (cut < x) with
      | none =>
        rw [List.findIdx?_eq_none_iff] at q
        obtain ⟨x, hx, hlt⟩ := hc
        have := q x hx
        simp [hlt] at this
      | some j =>
        rw [q] at hm
        simp only [Option.getD_some] at hm
        subst hm
        obtain ⟨hj, h1, h2⟩ := List.findIdx?_eq_some_iff_getElem.1 q
        refine ⟨?_, _, List.getElem?_eq_getElem hj, by simpa using h1⟩
        intro m x hmk hx
        have hml : m < arr.length := by omega
        rw [List.getElem?_eq_getElem hml] at hx
        cases hx
        have := h2 m (by omega)
        simpa using this

theorem rsBefore0_iff (arr : List K) (cut : K) (k : Nat) : rsBefore0 arr cut = .ok k ↔ rsBefore arr cut = .ok k := by
  unfold rsBefore0 rsBefore
  cases rsFirstGrtr arr cut with
  | none => simp
  | some m => cases m <;> simp

/-- Where the thermal simulation looks up the efficiency for an output: at the last point at the most, which it uses at the
largest power of the map. -/
theorem hotFcKwIn_ok {c out x : K} (h : hotFcKwIn C V c out = .ok x) :
    ∃ j eff, V.fcEffArray[j]? = some eff ∧ x = out / eff / c ∧
      (out = rsArrMax C.inputKwOut → j + 1 = V.fcEffArray.length) ∧
      (out ≠ rsArrMax C.inputKwOut → ∃ k, j = max 1 k ∧
        rsBefore V.fcKwOutArray (min out (rsArrMax C.inputKwOut - dec 1 1000)) = .ok k) := by
  unfold hotFcKwIn at h
  split at h
  · cases h
  · split at h
    · rename_i hm
      split at h
      · cases h
      · rename_i eff he
        cases h
        rw [List.getLast?_eq_getElem?] at he
        refine ⟨_, eff, he, by rw [div_div], fun _ => ?_, fun hn => absurd hm hn⟩
        have := (List.getElem?_eq_some_iff.1 he).1
        omega
    · rename_i hm
      simp only [bind, Except.bind, pure, Except.pure] at h
      split at h
      · cases h
      · rename_i eff he
        cases h
        unfold rsLookup10 at he
        split at he
        · cases he
        · rename_i k hk
          unfold rsIdx at he
          split at he
          · rename_i y hy
            cases he
            exact ⟨_, eff, hy, rfl, fun hn => absurd hn hm, fun _ => ⟨k, rfl, (rsBefore0_iff _ _ _).1 hk⟩⟩
          · cases he

/-- **C103 (fuel).** In every step the fuel is zero if the engine gives no power. Otherwise it is that of the efficiency map,
divided by the efficiency coefficient that the history has for this step; the map is read at the last point not above the output
and one thousandth of a kW below the largest power, never at its first point, and at its last point at the largest power. -/
theorem C103_fuel {h f : Hot K} (hlen : h.sd.cyc.length = h.sd.cyc0.length) {soc : K} {aux : Option (List K)}
    (ha : ∀ x, aux = some x → x.length = h.sd.cyc0.length) (e : hotWalk F C T V P h soc aux = .ok f) {i : Nat} (hi : 0 < i)
    (hn : i < h.sd.cyc0.length) : ∃ s s', f.history[h.history.length + (i - 1)]? = some s ∧
      f.history[h.history.length + i]? = some s' ∧
      let r := f.sd.rows.getD i Row.zero
      r.fc.fsKwOutAch = r.fc.fcKwInAch ∧ r.fc.fsKwhOutAch = r.fc.fcKwInAch * rsDtAt f.sd.cyc i / 3600 ∧
      (r.fc.fcKwOutAch = 0 → r.fc.fcKwInAch = 0 ∧ s'.fcEtaTempCoeff = s.fcEtaTempCoeff) ∧
      (r.fc.fcKwOutAch ≠ 0 → ∃ j eff, V.fcEffArray[j]? = some eff ∧
        r.fc.fcKwInAch = r.fc.fcKwOutAch / eff / s'.fcEtaTempCoeff ∧
        (r.fc.fcKwOutAch = rsArrMax C.inputKwOut → j + 1 = V.fcEffArray.length) ∧
        (r.fc.fcKwOutAch ≠ rsArrMax C.inputKwOut → ∃ k, j = max 1 k ∧
          ((∃ x ∈ V.fcKwOutArray, min r.fc.fcKwOutAch (rsArrMax C.inputKwOut - dec 1 1000) < x) →
            (∀ m x, m ≤ k → V.fcKwOutArray[m]? = some x → x ≤ min r.fc.fcKwOutAch (rsArrMax C.inputKwOut - dec 1 1000)) ∧
            ∃ x, V.fcKwOutArray[k + 1]? = some x ∧ min r.fc.fcKwOutAch (rsArrMax C.inputKwOut - dec 1 1000) < x))) := by
  obtain ⟨s, g, s', g', a1, a2, rel⟩ := hot_at hlen ha e hi hn
  refine ⟨s, s', a1, a2, ?_⟩
  obtain ⟨amb, m, -, b2, b3, b4⟩ := rel.thermal
  obtain ⟨c1, c2, c3, c4⟩ := hotSolveStep_fc b4
  refine ⟨c1, c2, fun h0 => ⟨(c3 h0).1, ?_⟩, ?_⟩
  · rw [(c3 h0).2]
    obtain ⟨s1, s2, d1, d2, rfl⟩ := setThermal_ok b2
    rw [fcBalance_coeff, afterExhaust_coeff, afterCabin_coeff d2, afterEngine_coeff d1, withAmb_coeff]
  · intro h0
    obtain ⟨j, eff, k1, k2, k3, k4⟩ := hotFcKwIn_ok (c4 h0).2
    refine ⟨j, eff, k1, k2, k3, fun hm => ?_⟩
    obtain ⟨k, q1, q2⟩ := k4 hm
    exact ⟨k, q1, fun hx => rsBefore_index q2 hx⟩

/-- The coefficient of a running step, from the temperatures in the history. -/
theorem hot_coeff {a0 : List K} {f : Hot K} {i : Nat} {s s' : Thermal K} {g g' : Option (Hvac K)}
    (rel : HotStepRel F C T V P a0 f i s g s' g') (h0 : (f.sd.rows.getD i Row.zero).fc.fcKwOutAch ≠ 0) :
    s'.fcEtaTempCoeff = tempCoeff F T { s' with fcEtaTempCoeff := s.fcEtaTempCoeff } ∧
    hotFcKwIn C V s'.fcEtaTempCoeff (f.sd.rows.getD i Row.zero).fc.fcKwOutAch =
      .ok (f.sd.rows.getD i Row.zero).fc.fcKwInAch := by
  obtain ⟨amb, m, -, b2, b3, b4⟩ := rel.thermal
  obtain ⟨-, -, -, c4⟩ := hotSolveStep_fc b4
  have hm : m.fcEtaTempCoeff = s.fcEtaTempCoeff := by
    obtain ⟨s1, s2, d1, d2, rfl⟩ := setThermal_ok b2
    rw [fcBalance_coeff, afterExhaust_coeff, afterCabin_coeff d2, afterEngine_coeff d1, withAmb_coeff]
  refine ⟨?_, (c4 h0).2⟩
  have e1 : ({ s' with fcEtaTempCoeff := s.fcEtaTempCoeff } : Thermal K) = m := by
    rw [b3]
    simp only
    rw [← hm]
  rw [e1]
  exact (c4 h0).1

/-- Step `i` of a walk from `h` to `f`: the engine runs, and the history has the state `s` before and `s'` after it. -/
structure Runs (h f : Hot K) (i : Nat) (s s' : Thermal K) : Prop where
  pos : 0 < i
  lt : i < h.sd.cyc0.length
  before : f.history[h.history.length + (i - 1)]? = some s
  after : f.history[h.history.length + i]? = some s'
  out : (f.sd.rows.getD i Row.zero).fc.fcKwOutAch ≠ 0

/-- A walk with arrays of the length of the cycle. -/
structure Walks (F : Fns K) (C : HotConsts K) (T : VehThrm K) (V : Veh K) (P : SimParams K) (h : Hot K) (soc : K)
    (aux : Option (List K)) (f : Hot K) : Prop where
  same : h.sd.cyc.length = h.sd.cyc0.length
  load : ∀ x, aux = some x → x.length = h.sd.cyc0.length
  walk : hotWalk F C T V P h soc aux = .ok f

theorem Runs.rel {h f : Hot K} {soc : K} {aux : Option (List K)} {i : Nat} {s s' : Thermal K} (w : Walks F C T V P h soc aux f)
    (hr : Runs h f i s s') : ∃ g g', HotStepRel F C T V P (aux.getD (List.replicate h.sd.cyc0.length 0)) f i s g s' g' := by
  obtain ⟨a, g, b, g', a1, a2, rel⟩ := hot_at w.same w.load w.walk hr.pos hr.lt
  rw [hr.before] at a1
  rw [hr.after] at a2
  cases a1; cases a2
  exact ⟨g, g', rel⟩

/-- **C103 (linear temperature dependence).** With a linear model the efficiency coefficient of every step with a running engine
is `offset + slope · (engine temperature after the step's heat calculations)`, cut at the minimum and at one; the component that
the user names makes no difference. -/
theorem C103_linear [IsStrictOrderedRing K] {h f : Hot K} {soc : K} {aux : Option (List K)} {i : Nat} {s s' : Thermal K}
    (w : Walks F C T V P h soc aux f) (hr : Runs h f i s s') {offset slope minimum : K} {comp : TempEffComp}
    (hT : T.fcModel = some (.linear offset slope minimum, comp)) :
    (minimum ≤ 1 → minimum ≤ s'.fcEtaTempCoeff ∧ s'.fcEtaTempCoeff ≤ 1) ∧
    (minimum ≤ offset + slope * s'.fcTe → offset + slope * s'.fcTe ≤ 1 → s'.fcEtaTempCoeff = offset + slope * s'.fcTe) ∧
    (offset + slope * s'.fcTe ≤ minimum → s'.fcEtaTempCoeff = minimum) ∧
    (minimum ≤ 1 → 1 ≤ offset + slope * s'.fcTe → s'.fcEtaTempCoeff = 1) := by
  obtain ⟨g, g', rel⟩ := hr.rel w
  have e := (hot_coeff rel hr.out).1
  unfold tempCoeff at e
  simp only [hT] at e
  rw [e]
  refine ⟨fun hm => ⟨le_max_left _ _, max_le hm (min_le_left _ _)⟩, fun h1 h2 => ?_, fun h1 => ?_, fun h1 h2 => ?_⟩
  · rw [min_eq_right h2, max_eq_right h1]
  · exact max_eq_left ((min_le_right _ _).trans h1)
  · rw [min_eq_left h2, max_eq_right h1]

/-- **C103 (exponential temperature dependence).** With an exponential model of the engine or of the catalyst the efficiency
coefficient of every step with a running engine is `1 - exp((offset - temperature) / lag)` with the temperature of the engine or
the catalyst after the step's heat calculations, but not less than the minimum. -/
theorem C103_exponential [IsStrictOrderedRing K] {h f : Hot K} {soc : K} {aux : Option (List K)} {i : Nat} {s s' : Thermal K}
    (w : Walks F C T V P h soc aux f) (hr : Runs h f i s s') {offset lag minimum te : K}
    (hT : (T.fcModel = some (.exponential offset lag minimum, .fuelConverter) ∧ te = s'.fcTe) ∨
      (T.fcModel = some (.exponential offset lag minimum, .catalyst) ∧ te = s'.catTe)) :
    minimum ≤ s'.fcEtaTempCoeff ∧
    ((∀ x, 0 ≤ F.exp x) → minimum ≤ 1 → s'.fcEtaTempCoeff ≤ 1) ∧
    (minimum ≤ 1 - F.exp ((offset - te) / lag) → s'.fcEtaTempCoeff = 1 - F.exp ((offset - te) / lag)) ∧
    (1 - F.exp ((offset - te) / lag) ≤ minimum → s'.fcEtaTempCoeff = minimum) := by
  obtain ⟨g, g', rel⟩ := hr.rel w
  have e := (hot_coeff rel hr.out).1
  have ex : ∀ x : K, -1 / lag * (x - offset) = (offset - x) / lag := by intro x; ring
  have key : s'.fcEtaTempCoeff = max (1 - F.exp ((offset - te) / lag)) minimum := by
    unfold tempCoeff at e
    rcases hT with ⟨hT, rfl⟩ | ⟨hT, rfl⟩ <;> simp only [hT, ex] at e <;> exact e
  rw [key]
  refine ⟨le_max_right _ _, fun hx hm => max_le ?_ hm, fun h1 => max_eq_left h1, fun h1 => max_eq_right h1⟩
  have := hx ((offset - te) / lag)
  linarith

/-- **C103 (catalyst light-off).** With the model of catalyst and engine, a step with the catalyst below its light-off temperature
has the coefficient of the engine times `cat_fc_eta_coeff`. With the catalyst at or above that temperature the coefficient is not
computed: it stays what it was before the step, whatever the engine temperature. -/
theorem C103_lit [IsStrictOrderedRing K] {h f : Hot K} {soc : K} {aux : Option (List K)} {i : Nat} {s s' : Thermal K}
    (w : Walks F C T V P h soc aux f) (hr : Runs h f i s s') {offset lag minimum : K}
    (hT : T.fcModel = some (.exponential offset lag minimum, .catAndFc)) :
    (s'.catTe < T.catTeLightoff →
      s'.fcEtaTempCoeff = max (1 - F.exp ((offset - s'.fcTe) / lag)) minimum * T.catFcEtaCoeff) ∧
    (T.catTeLightoff ≤ s'.catTe → s'.fcEtaTempCoeff = s.fcEtaTempCoeff) := by
  obtain ⟨g, g', rel⟩ := hr.rel w
  have e := (hot_coeff rel hr.out).1
  have ex : ∀ x : K, -1 / lag * (x - offset) = (offset - x) / lag := by intro x; ring
  unfold tempCoeff at e
  simp only [hT, ex] at e
  constructor
  · intro hl
    rw [if_pos hl] at e
    exact e
  · intro hl
    rw [if_neg (not_lt.2 hl)] at e
    exact e

/-- **C103 (external engine model).** Without an internal engine model no step computes a coefficient: it is the one that the
simulation was started with (zero for the default state, with which the fuel of a running engine is a division by zero). -/
theorem C103_external {h f : Hot K} {soc : K} {aux : Option (List K)} (w : Walks F C T V P h soc aux f) (hT : T.fcModel = none)
    {i : Nat} (hn : i < h.sd.cyc0.length) : ∃ s', f.history[h.history.length + i]? = some s' ∧
      s'.fcEtaTempCoeff = h.state.fcEtaTempCoeff := by
  induction i with
  | zero =>
    obtain ⟨-, S, G, s1, -, s2, -, s3, -⟩ := hotWalk_trace w.same w.load w.walk
    refine ⟨h.state, ?_, rfl⟩
    rw [s3, List.getElem?_append_right (by omega)]
    simpa using s2
  | succ i ih =>
    obtain ⟨b, hb1, hb2⟩ := ih (by omega)
    obtain ⟨s, g, s', g', a1, a2, rel⟩ := hot_at w.same w.load w.walk (Nat.succ_pos i) hn
    rw [Nat.succ_sub_one, hb1] at a1
    cases a1
    refine ⟨s', a2, ?_⟩
    rw [← hb2]
    by_cases h0 : (f.sd.rows.getD (i + 1) Row.zero).fc.fcKwOutAch = 0
    · obtain ⟨x, y, k1, k2, -, -, k3, -⟩ := C103_fuel w.same w.load w.walk (Nat.succ_pos i) hn
      rw [Nat.succ_sub_one, hb1] at k1
      rw [a2] at k2
      cases k1; cases k2
      exact (k3 h0).2
    · have e := (hot_coeff rel h0).1
      unfold tempCoeff at e
      simp only [hT] at e
      exact e

/-! ### The fuel of the plain simulation -/

theorem rsSolveStep_fc {Q : StepParams K} {E : StepEnv K} {p r : Row K} {st : Stale K} (h : rsSolveStep F V Q E p st = .ok r) :
    rsFcKwInAch V r.fc.fcKwOutAch = .ok r.fc.fcKwInAch := by
  unfold rsSolveStep at h
  simp only [bind, Except.bind, pure, Except.pure] at h
  split at h
  · cases h
  · split at h
    · cases h
    · split at h
      · cases h
      · split at h
        · cases h
        · split at h
          · cases h
          · rename_i fc q
            cases h
            unfold rsSetFcPower at q
            simp only [bind, Except.bind, pure, Except.pure] at q
            generalize rsFcKwOutAch V E _ _ _ _ = out at q
            split at q
            · cases q
            · rename_i x hx
              cases q
              exact hx

variable {RH : RsHooks K}

theorem plain_fuel_loop (hP : PlainDrive P) : ∀ (n : Nat) {t t' : Sim K}, rsWalkLoop F RH V P n t = .ok t' →
    (∀ j, 0 < j → j < t.i → rsFcKwInAch V (t.rows.getD j Row.zero).fc.fcKwOutAch = .ok (t.rows.getD j Row.zero).fc.fcKwInAch) →
    ∀ j, 0 < j → j < t'.i → rsFcKwInAch V (t'.rows.getD j Row.zero).fc.fcKwOutAch = .ok (t'.rows.getD j Row.zero).fc.fcKwInAch := by
  intro n
  induction n with
  | zero =>
    intro t t' e hI
    unfold rsWalkLoop at e
    split at e
    · cases e
    · cases e; exact hI
  | succ n ih =>
    intro t t' e hI
    unfold rsWalkLoop at e
    split at e
    · split at e
      · cases e
      · rename_i t1 e1
        rw [rsStep_plain hP] at e1
        split at e1
        · cases e1
        · rename_i s2 hs2
          have hb : t.i < t.rows.length := by
            unfold rsSolve at hs2
            split at hs2
            · cases hs2
            · rename_i hb; push_neg at hb; exact hb.2.2.1
          obtain ⟨r2, k1, rfl⟩ := rsSolve_ok hs2
          cases e1
          refine ih e ?_
          intro j j1 j2
          simp only at j2 ⊢
          by_cases hj : j = t.i
          · subst hj
            rw [List.getD_eq_getElem?_getD, List.getElem?_set_self hb, Option.getD_some]
            exact rsSolveStep_fc k1
          · rw [List.getD_eq_getElem?_getD, List.getElem?_set_ne (Ne.symm hj), ← List.getD_eq_getElem?_getD]
            exact hI j j1 (by omega)
    · cases e; exact hI

/-- **C103 (fuel, compared).** For outputs from the second point of the engine map to one thousandth of a kW below its end, the
plain simulation burns the fuel of the thermal simulation times the efficiency coefficient of that step. -/
theorem C103_plain_fuel (hP : PlainDrive P) {h f : Hot K} {t : Sim K} {soc : K} {aux : Option (List K)}
    (w : Walks F C T V P h soc aux f) (hv : h.hvac = none) (hl : h.state.cabHvacPwrAuxKw = 0)
    (e' : rsWalk F RH V P h.sd soc aux = .ok t) {i : Nat} {s s' : Thermal K} (hr : Runs h f i s s')
    (hc : s'.fcEtaTempCoeff ≠ 0) (h0 : ∀ x, V.fcKwOutArray[0]? = some x → x ≤ (f.sd.rows.getD i Row.zero).fc.fcKwOutAch)
    (h1 : ∀ x, V.fcKwOutArray[1]? = some x → x ≤ (f.sd.rows.getD i Row.zero).fc.fcKwOutAch)
    (hx : ∃ x ∈ V.fcKwOutArray, (f.sd.rows.getD i Row.zero).fc.fcKwOutAch < x)
    (h2 : (f.sd.rows.getD i Row.zero).fc.fcKwOutAch ≤ rsArrMax C.inputKwOut - dec 1 1000)
    (h2' : (f.sd.rows.getD i Row.zero).fc.fcKwOutAch ≠ rsArrMax C.inputKwOut)
    (h3 : (f.sd.rows.getD i Row.zero).fc.fcKwOutAch ≤ V.fcMaxKw) (he : ∀ x ∈ V.fcEffArray, x ≠ 0) :
    (t.rows.getD i Row.zero).fc.fcKwInAch = s'.fcEtaTempCoeff * (f.sd.rows.getD i Row.zero).fc.fcKwInAch := by
  obtain ⟨k1, -, -⟩ := C103_same_drive hP hv hl w.walk e'
  obtain ⟨-, S, G, -, -, -, -, -, -, -, -, -, -, -, -, -, hfi, -⟩ := hotWalk_trace w.same w.load w.walk
  have hrow := sameRow k1 i
  have ho : (t.rows.getD i Row.zero).fc.fcKwOutAch = (f.sd.rows.getD i Row.zero).fc.fcKwOutAch := by
    have := congrArg (fun r : Row K => r.fc.fcKwOutAch) hrow
    simpa only [withoutFuel] using this
  have hti : t.i = h.sd.cyc0.length := by
    have e := w.walk
    unfold hotWalk hotInitForStep at e
    unfold rsWalk at e'
    cases q : rsInitForStep V P h.sd soc aux with
    | error _ => rw [q] at e; cases e
    | ok s0 =>
      rw [q] at e e'
      simp only at e e'
      obtain ⟨a1, -⟩ := same_loop hP _ (h := { h with sd := s0, history := h.history ++ [h.state], hvacHistory := h.hvacHistory ++ h.hvac.toList })
        ⟨rfl, rfl, rfl, rfl, rfl⟩ rfl hv hl e e'
      rw [a1.i, hfi]
  have hp : rsFcKwInAch V (t.rows.getD i Row.zero).fc.fcKwOutAch = .ok (t.rows.getD i Row.zero).fc.fcKwInAch := by
    unfold rsWalk at e'
    cases q : rsInitForStep V P h.sd soc aux with
    | error _ => rw [q] at e'; cases e'
    | ok s0 =>
      rw [q] at e'
      have hs0 : s0.i = 1 := by
        unfold rsInitForStep at q
        split at q
        · split at q
          · cases q
          · cases q; rfl
        · cases q
      exact plain_fuel_loop hP _ e' (by intro j j1 j2; omega) i hr.pos (by rw [hti]; exact hr.lt)
  obtain ⟨g, g', rel⟩ := hr.rel w
  obtain ⟨j, eff, q1, q2, -, q4⟩ := hotFcKwIn_ok (hot_coeff rel hr.out).2
  obtain ⟨k, rfl, q5⟩ := q4 h2'
  rw [min_eq_left h2] at q5
  rw [ho] at hp
  unfold rsFcKwInAch at hp
  rw [if_neg hr.out, min_eq_left h3] at hp
  simp only [bind, Except.bind, pure, Except.pure] at hp
  unfold rsLookup rsIdx at hp
  rw [q5] at hp
  simp only at hp
  have hk : max 1 k = k := by
    obtain ⟨-, x, hx1, hx2⟩ := rsBefore_index q5 hx
    rcases Nat.eq_zero_or_pos k with rfl | hk
    · exact absurd (h1 x hx1) (not_le.2 hx2)
    · exact max_eq_right hk
  rw [hk] at q1
  rw [q1] at hp
  simp only [ne_eq, he eff (List.mem_of_getElem? q1), not_false_eq_true, if_true] at hp
  rw [q2, ← Except.ok.inj hp]
  field_simp

end Field
end Fastsim.Props
