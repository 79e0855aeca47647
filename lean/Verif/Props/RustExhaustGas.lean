import Verif.Props.RustExhaustDrive
import Verif.Props.RustHeatDrive

/-!
# C145: the temperature of the exhaust gas of the thermal simulation
-/

set_option linter.unusedSectionVars false

namespace Fastsim.Spec
open Fastsim

section Field
variable {K : Type*} [Field K] [LinearOrder K] [IsStrictOrderedRing K]

/-- A fuel with heat, burnt with at least the air it needs, in an engine that is not driven. -/
structure BurnsFully (C : HotConsts K) (h f : Hot K) : Prop where
  lhv : 0 < fuelLhv C
  afr : 0 ≤ C.fuelAfrStoich
  lean : 1 ≤ h.state.fcLambda
  fuel : ∀ i, i < h.sd.cyc0.length → 0 ≤ (f.sd.rows.getD i Row.zero).fc.fsKwOutAch
  work : ∀ i, i < h.sd.cyc0.length → 0 ≤ (f.sd.rows.getD i Row.zero).fc.fcKwOutAch

end Field
end Fastsim.Spec

namespace Fastsim.Props
open Fastsim Spec

section Field
variable {K : Type*} [Field K] [LinearOrder K] [IsStrictOrderedRing K]
variable {F : Fns K} {C : HotConsts K} {T : VehThrm K} {V : Veh K} {P : SimParams K}

/-- A temperature looked up by enthalpy is in the table. -/
theorem airTe_range (x : K) : -60 ≤ airAt (airH : List K) airTe x ∧ airAt (airH : List K) airTe x ≤ 5000 := by
  rw [(airAt_ok (ys := airTe) (airH_strict (K := K)) (by simp [airH_length]) rfl x).2]
  refine interp_bounds x (-60) 5000 _ ?_ fun z hz => ?_
  · intro h0
    have := congrArg List.length h0
    rw [List.length_zip, airH_length, airTe_length] at this
    simp at this
  · have m : z.2 ∈ (airTe : List K) := (List.of_mem_zip hz).2
    revert m
    generalize z.2 = y
    revert y
    simp only [airTe, List.map, List.cons_append, List.nil_append, dec, List.forall_mem_cons]
    norm_num

/-- The fuel of a row is what its engine burns. -/
theorem fuel_burnt {h f : Hot K} {soc : K} {aux : Option (List K)} (w : Walks F C T V P h soc aux f) {i : Nat}
    (hi : i < h.sd.cyc0.length) : (f.sd.rows.getD i Row.zero).fc.fsKwOutAch = (f.sd.rows.getD i Row.zero).fc.fcKwInAch := by
  rcases Nat.eq_zero_or_pos i with rfl | p
  · obtain ⟨-, S, G, -, -, -, -, -, -, -, -, -, -, -, -, -, -, -, r, -⟩ := hotWalk_trace w.same w.load w.walk
    rw [r]
    rfl
  · obtain ⟨s, s', -, -, e, -⟩ := C103_fuel w.same w.load w.walk p hi
    exact e

/-- **C145 (the flame never limits the gas).** With models of engine and exhaust and a lean flame, the exhaust gas is as hot as air that
has the heat of combustion the engine did not keep, and no other: the limit to the temperature of the flame never acts, because
the flame is reckoned with the heat of the intake air and the gas is not. -/
theorem C145_gas {h f : Hot K} {soc : K} {aux : Option (List K)} {i : Nat} {s s' : Thermal K}
    (w : Walks F C T V P h soc aux f) (st : Steps h f i s s') (hT : T.fcModel ≠ none) (hx : T.exhportInternal = true)
    (b : BurnsFully C h f) (hm : 1 / 2000 < s'.exhMdot) :
    s'.exhportExhTeIn = airAt airH airTe (1000 * s'.exhHdotKw / s'.exhMdot) ∧
    1000 * s'.exhHdotKw / s'.exhMdot ≤ 1000 * fuelLhv C / (1 + C.fuelAfrStoich * s.fcLambda) ∧
    s'.exhportExhTeIn ≤ s'.fcTeAdiabatic := by
  obtain ⟨m, q, e, -⟩ := C105_exhaust w st hx
  obtain ⟨-, -, g⟩ := Steps.engine w st
  obtain ⟨-, htc, -, -, -, ad, sh, qd⟩ := g hT
  have lt : i - 1 < h.sd.cyc0.length := lt_of_le_of_lt (Nat.sub_le _ _) st.lt
  have lam : s.fcLambda = h.state.fcLambda := walk_invariant w (fun s => s.fcLambda = h.state.fcLambda) rfl
    (fun i s s' st e => (Steps.engine w st).1.trans e) (i - 1) s lt st.before
  have l1 : 1 ≤ s.fcLambda := lam ▸ b.lean
  have fu : 0 ≤ (lastRow f i).fc.fsKwOutAch := b.fuel _ lt
  have wo : 0 ≤ (lastRow f i).fc.fcKwOutAch := b.work _ lt
  have fb : (lastRow f i).fc.fsKwOutAch = (lastRow f i).fc.fcKwInAch := fuel_burnt w lt
  have hq := q hT
  have hh : s'.exhHdotKw = (1 - s'.fcQdotPerNetHeat) * ((lastRow f i).fc.fcKwInAch - (lastRow f i).fc.fcKwOutAch) := by
    rw [qd] at hq
    linarith
  have s0 : 0 ≤ s'.fcQdotPerNetHeat := by rw [sh]; exact le_max_right _ _
  have s1 : s'.fcQdotPerNetHeat ≤ 1 := by rw [sh]; exact max_le (min_le_right _ _) zero_le_one
  have air : 0 < 1 + C.fuelAfrStoich * s.fcLambda := by
    have := mul_nonneg b.afr (zero_le_one.trans l1)
    linarith
  have mp : 0 < s'.exhMdot := lt_trans (by norm_num) hm
  have hle : s'.exhHdotKw ≤ (lastRow f i).fc.fsKwOutAch := by
    rw [hh, fb]
    rw [fb] at fu
    have k1 := mul_nonneg (sub_nonneg.2 s1) wo
    have k2 := mul_nonneg s0 fu
    linarith
  have key : 1000 * s'.exhHdotKw / s'.exhMdot ≤ 1000 * fuelLhv C / (1 + C.fuelAfrStoich * s.fcLambda) := by
    rw [div_le_div_iff₀ mp air]
    have e1 : s'.exhMdot * fuelLhv C = (lastRow f i).fc.fsKwOutAch * (1 + C.fuelAfrStoich * s.fcLambda) := by
      rw [m]
      have := b.lhv.ne'
      field_simp
    have := mul_le_mul_of_nonneg_right hle air.le
    linarith
  have hot : 1000 * s'.exhHdotKw / s'.exhMdot ≤ ((1 + s.fcLambda * C.fuelAfrStoich) * airAt airTe airH s'.ambTe
      + fuelLhv C * 1000 * min s.fcLambda 1) / (1 + s.fcLambda * C.fuelAfrStoich) := by
    rw [min_eq_right l1, mul_one, mul_comm s.fcLambda, add_div, mul_div_cancel_left₀ _ air.ne', mul_comm (fuelLhv C)]
    have := (C114_range s'.ambTe).2.2.2.2.1
    linarith
  have flame : airAt (airH : List K) airTe (1000 * s'.exhHdotKw / s'.exhMdot) ≤ s'.fcTeAdiabatic := by
    rw [ad]
    exact (C105_air hot).2
  have en : s'.exhportExhTeIn = airAt airH airTe (1000 * s'.exhHdotKw / s'.exhMdot) := by
    rw [e hm, min_eq_left flame]
  exact ⟨en, key, en ▸ flame⟩

/-- **C145 (range of the gas).** Over a drive the exhaust gas stays between -60 and 5000 °C, the ends of the table of air, if it starts
there. -/
theorem C145_range {h f : Hot K} {soc : K} {aux : Option (List K)} (w : Walks F C T V P h soc aux f) (hT : T.fcModel ≠ none)
    (hx : T.exhportInternal = true) (h0 : -60 ≤ h.state.exhportExhTeIn) (h1 : h.state.exhportExhTeIn ≤ 5000) :
    ∀ n s, n < h.sd.cyc0.length → f.history[h.history.length + n]? = some s → -60 ≤ s.exhportExhTeIn ∧ s.exhportExhTeIn ≤ 5000 := by
  refine walk_invariant w (fun s => -60 ≤ s.exhportExhTeIn ∧ s.exhportExhTeIn ≤ 5000) ⟨h0, h1⟩ fun i s s' st a => ?_
  obtain ⟨-, -, e1, e2⟩ := C105_exhaust w st hx
  obtain ⟨-, -, g⟩ := Steps.engine w st
  obtain ⟨-, htc, -, -, -, ad, -⟩ := g hT
  rcases le_or_gt s'.exhMdot (1 / 2000) with c | c
  · rw [e2 c]; exact a
  · rw [e1 c]
    refine ⟨le_min (airTe_range _).1 ?_, (min_le_left _ _).trans (airTe_range _).2⟩
    rw [ad]
    exact (airTe_range _).1

/-- The exhaust of a fuel with heat flows outwards. -/
theorem exhaust_out {h f : Hot K} {soc : K} {aux : Option (List K)} {i : Nat} {s s' : Thermal K}
    (w : Walks F C T V P h soc aux f) (st : Steps h f i s s') (hx : T.exhportInternal = true) (b : BurnsFully C h f) :
    0 ≤ s'.exhMdot := by
  have lt : i - 1 < h.sd.cyc0.length := lt_of_le_of_lt (Nat.sub_le _ _) st.lt
  have lam : s.fcLambda = h.state.fcLambda := walk_invariant w (fun s => s.fcLambda = h.state.fcLambda) rfl
    (fun i s s' st e => (Steps.engine w st).1.trans e) (i - 1) s lt st.before
  rw [(C105_exhaust w st hx).1]
  have l0 : 0 ≤ s.fcLambda := lam ▸ zero_le_one.trans b.lean
  have := mul_nonneg b.afr l0
  exact mul_nonneg (div_nonneg (b.fuel _ lt) b.lhv.le) (by linarith)

/-- **C145 (parts in the exhaust).** Whatever the engine burns: with short steps, exhaust port and catalyst and the gas that enters them
stay between -60 and 5000 °C, if they start there and engine and air do. -/
theorem C145_parts {h f : Hot K} {soc : K} {aux : Option (List K)} (w : Walks F C T V P h soc aux f) (hT : T.fcModel ≠ none)
    (hx : T.exhportInternal = true) (hy : T.catInternal = true) (b : BurnsFully C h f) (hc : 0 < T.exhportCKjK)
    (h1 : 0 ≤ T.exhportHaToAmb) (h2 : 0 ≤ T.exhportHaInt) (hc' : 0 < T.catCKjK) (hk : 0 ≤ T.cabCKjK)
    (hdt : ∀ i, 0 < i → i < h.sd.cyc0.length → 0 < stepDt f i) (hs : PortSteps T h f)
    (hs' : CatSteps T (C.pi * F.pow T.catL (2 / 4)) h f)
    (h0 : ∀ x ∈ [h.state.exhportTe, h.state.exhportExhTeIn, h.state.catTe, h.state.catExhTeIn], -60 ≤ x ∧ x ≤ 5000)
    (he : ∀ i s s', Steps h f i s s' → (-60 ≤ s.fcTe ∧ s.fcTe ≤ 5000) ∧ -60 ≤ s'.ambTe ∧ s'.ambTe ≤ 5000) :
    ∀ n s, n < h.sd.cyc0.length → f.history[h.history.length + n]? = some s →
      ∀ x ∈ [s.exhportTe, s.exhportExhTeIn, s.catTe, s.catExhTeIn], -60 ≤ x ∧ x ≤ 5000 := by
  simp only [List.forall_mem_cons, List.not_mem_nil, false_imp_iff, implies_true, and_true] at h0 ⊢
  obtain ⟨a1, a2, a3, a4⟩ := h0
  have fl : ∀ i s s', Steps h f i s s' → -60 ≤ s'.fcTeAdiabatic ∧ s'.fcTeAdiabatic ≤ 5000 := by
    intro i s s' st
    obtain ⟨-, -, g⟩ := Steps.engine w st
    obtain ⟨-, htc, -, -, -, ad, -⟩ := g hT
    rw [ad]
    exact airTe_range _
  have out : ∀ i s s', Steps h f i s s' → 0 ≤ s'.exhMdot := fun i s s' st => exhaust_out w st hx b
  have gas := C145_range w hT hx a2.1 a2.2
  have inl : ∀ i s s', Steps h f i s s' → -60 ≤ s'.exhportExhTeIn := fun i s s' st => (gas i s' st.lt st.after).1
  have inl' : ∀ n s, n < h.sd.cyc0.length → f.history[h.history.length + n]? = some s → -60 ≤ s.catExhTeIn := by
    refine walk_invariant w (fun s => -60 ≤ s.catExhTeIn) a4.1 fun i s s' st a => ?_
    obtain ⟨i1, i2⟩ := C105_catalyst_inlet w st hy
    rcases le_or_gt s'.exhMdot (1 / 2000) with d | d
    · rw [i2 d]; exact a
    · rw [i1 d]; exact le_min (airTe_range _).1 (fl i s s' st).1
  intro n s hn hs0
  have lo := C143_lower w hx hc h1 h2 hdt hs out a1.1 (fun i s s' st => ⟨(he i s s' st).1.1, inl i s s' st⟩) n s hn hs0
  have up := C143_upper w hx hc h1 h2 hdt hs out a1.2 a2.2 (fun i s s' st => ⟨(he i s s' st).1.2, (fl i s s' st).2⟩) n s hn hs0
  have ct := C143_catalyst w hy hc' hk hdt hs' out a3.1
    (fun i s s' st => ⟨(he i s s' st).2.1, inl' i s' st.lt st.after⟩) a3.2 a4.2
    (fun i s s' st => ⟨(he i s s' st).2.2, (fl i s s' st).2⟩) n s hn hs0
  exact ⟨⟨lo, up.1⟩, gas n s hn hs0, ⟨ct.1, ct.2.1⟩, inl' n s hn hs0, ct.2.2⟩

end Field

namespace GasDemo
open Fastsim.Demo

/-- The vehicle of the cases: share of the heat of combustion that the engine takes per degree below the flame. -/
def car (c : ℚ) : VehThrm ℚ := { fullCar with fcCoeffFromComb := c }

/-- Whether no row of a drive has a negative flow of fuel or a driven engine. -/
def burns (f : Hot ℚ) : Bool :=
  decide (∀ i ∈ List.range 6, 0 ≤ (f.sd.rows.getD i Row.zero).fc.fsKwOutAch ∧ 0 ≤ (f.sd.rows.getD i Row.zero).fc.fcKwOutAch)

/-- **C145 (case).** The default engine meets the settings of `C145_gas` and `C145_range` in a drive with exhaust gas hotter than
1200 °C under a flame hotter than 2300 °C. -/
theorem C145_demo : ∃ f, Walks hotFns hotConsts (car (1 / 10000)) conv params (PortDemo.start 70) (1 / 2) none f ∧
    BurnsFully hotConsts (PortDemo.start 70) f ∧
    (∀ n s, n < (PortDemo.start 70).sd.cyc0.length → f.history[(PortDemo.start 70).history.length + n]? = some s →
      -60 ≤ s.exhportExhTeIn ∧ s.exhportExhTeIn ≤ 5000) ∧
    ∃ s ∈ f.history, 1 / 2000 < s.exhMdot ∧ 1200 < s.exhportExhTeIn ∧ 2300 < s.fcTeAdiabatic := by
  have e : (match hotWalk hotFns hotConsts (car (1 / 10000)) conv params (PortDemo.start 70) (1 / 2) none with
      | .ok f => burns f && decide (∃ s ∈ f.history, 1 / 2000 < s.exhMdot ∧ 1200 < s.exhportExhTeIn ∧ 2300 < s.fcTeAdiabatic)
      | .error _ => false) = true := by decide +kernel
  split at e
  · rename_i f w
    rw [Bool.and_eq_true, decide_eq_true_eq] at e
    obtain ⟨t, tq⟩ := e
    have ws : Walks hotFns hotConsts (car (1 / 10000)) conv params (PortDemo.start 70) (1 / 2) none f :=
      ⟨rfl, fun x e => (nomatch e), w⟩
    have r : ∀ i, i < 6 → _ := fun i l => of_decide_eq_true t i (List.mem_range.2 l)
    exact ⟨f, ws, ⟨by decide +kernel, by decide +kernel, by decide +kernel, fun i l => (r i l).1, fun i l => (r i l).2⟩,
      C145_range ws (by decide) rfl (by decide +kernel) (by decide +kernel), tq⟩
  · cases e

/-- **C145 (found: gas colder than the air).** The heat of the intake air is left out of the gas: an engine that keeps most of the heat
of combustion, in air of 20 °C and itself warmer than 50 °C, blows out gas at -60 °C, the coldest entry of the table. -/
theorem C145_cold :
    (match hotWalk hotFns hotConsts (car (1 / 2500)) conv params (PortDemo.start 70) (1 / 2) none with
      | .ok f => decide (∃ s ∈ f.history, 1 / 2000 < s.exhMdot ∧ 0 < s.exhHdotKw ∧ s.fcQdotPerNetHeat < 1 ∧ s.ambTe = 20 ∧
          50 < s.fcTe ∧ s.exhportExhTeIn = -60)
      | .error _ => false) = true := by
  decide +kernel

/-- What is checked of step `i` of a drive. -/
def check (f : Hot ℚ) (i : Nat) : Bool :=
  match f.history[i - 1]?, f.history[i]? with
  | some s, some s' => decide ((0 < stepDt f i ∧ stepDt f i ≤ 2) ∧
      (0 ≤ s'.catHtcToAmb * (hotConsts.pi * hotFns.pow (car (1 / 10000)).catL (2 / 4)) ∧
      (s'.catHtcToAmb * (hotConsts.pi * hotFns.pow (car (1 / 10000)).catL (2 / 4)) + s'.exhMdot * (13361 / 10)) * stepDt f i
        ≤ 1000 * (car (1 / 10000)).catCKjK) ∧
      (-60 ≤ s.fcTe ∧ s.fcTe ≤ 5000) ∧ -60 ≤ s'.ambTe ∧ s'.ambTe ≤ 5000)
  | _, _ => false

/-- **C145 (case: parts).** The default port and catalyst meet the settings of `C145_parts`. -/
theorem C145_demo_parts : ∃ f, Walks hotFns hotConsts (car (1 / 10000)) conv params (PortDemo.start 70) (1 / 2) none f ∧
    (∃ s ∈ f.history, 1200 < s.exhportExhTeIn ∧ 0 < s.catQdotFromExh) ∧
    ∀ n s, n < (PortDemo.start 70).sd.cyc0.length → f.history[(PortDemo.start 70).history.length + n]? = some s →
      ∀ x ∈ [s.exhportTe, s.exhportExhTeIn, s.catTe, s.catExhTeIn], -60 ≤ x ∧ x ≤ 5000 := by
  have e : (match hotWalk hotFns hotConsts (car (1 / 10000)) conv params (PortDemo.start 70) (1 / 2) none with
      | .ok f => (burns f && decide (∀ i ∈ List.range' 1 5, check f i = true)) &&
          decide (∃ s ∈ f.history, 1200 < s.exhportExhTeIn ∧ 0 < s.catQdotFromExh)
      | .error _ => false) = true := by decide +kernel
  split at e
  · rename_i f w
    rw [Bool.and_eq_true, Bool.and_eq_true, decide_eq_true_eq, decide_eq_true_eq] at e
    obtain ⟨⟨t, c⟩, tq⟩ := e
    have ws : Walks hotFns hotConsts (car (1 / 10000)) conv params (PortDemo.start 70) (1 / 2) none f :=
      ⟨rfl, fun x e => (nomatch e), w⟩
    have r : ∀ i, i < 6 → _ := fun i l => of_decide_eq_true t i (List.mem_range.2 l)
    have b : BurnsFully hotConsts (PortDemo.start 70) f :=
      ⟨by decide +kernel, by decide +kernel, by decide +kernel, fun i l => (r i l).1, fun i l => (r i l).2⟩
    have key : ∀ i s s', Steps (PortDemo.start 70) f i s s' → (0 < stepDt f i ∧ stepDt f i ≤ 2) ∧
        (0 ≤ s'.catHtcToAmb * (hotConsts.pi * hotFns.pow (car (1 / 10000)).catL (2 / 4)) ∧
        (s'.catHtcToAmb * (hotConsts.pi * hotFns.pow (car (1 / 10000)).catL (2 / 4)) + s'.exhMdot * (13361 / 10)) * stepDt f i
          ≤ 1000 * (car (1 / 10000)).catCKjK) ∧
        (-60 ≤ s.fcTe ∧ s.fcTe ≤ 5000) ∧ -60 ≤ s'.ambTe ∧ s'.ambTe ≤ 5000 := by
      intro i s s' st
      have l : i < 6 := st.lt
      have := c i (List.mem_range'_1.2 ⟨st.pos, by omega⟩)
      have b : f.history[i - 1]? = some s := by simpa [PortDemo.start, hotStart] using st.before
      have a : f.history[i]? = some s' := by simpa [PortDemo.start, hotStart] using st.after
      simpa only [check, a, b, decide_eq_true_eq] using this
    have hd : ∀ i, 0 < i → i < (PortDemo.start 70).sd.cyc0.length → 0 < stepDt f i := by
      intro i hi hl
      have l : i < 6 := hl
      have := c i (List.mem_range'_1.2 ⟨hi, by omega⟩)
      simp only [check] at this
      split at this
      · simp only [decide_eq_true_eq] at this
        exact this.1.1
      · cases this
    have a1 : (car (1 / 10000)).exhportHaToAmb = 5 := by decide +kernel
    have a2 : (car (1 / 10000)).exhportHaInt = 100 := by decide +kernel
    have a3 : (car (1 / 10000)).exhportCKjK = 10 := by decide +kernel
    have hs : PortSteps (car (1 / 10000)) (PortDemo.start 70) f := by
      intro i s s' st
      have := (key i s s' st).1.2
      rw [a1, a2, a3]
      linarith
    exact ⟨f, ws, tq, C145_parts ws (by decide) rfl rfl b (by rw [a3]; norm_num) (by rw [a1]; norm_num) (by rw [a2]; norm_num)
      (by decide +kernel) (by decide +kernel) hd hs (fun i s s' st => (key i s s' st).2.1) (by decide +kernel)
      fun i s s' st => (key i s s' st).2.2⟩
  · cases e

/-- **C145 (found: rich mixtures).** With less air than the fuel needs the flame is cooler, but the engine burns all of its fuel: the
limit acts, at half the temperature of the recorded heat, and heat of the exhaust disappears. So the air of `BurnsFully` is needed. -/
theorem C145_rich :
    (match hotWalk hotFns hotConsts (car (1 / 10000)) conv params
        { PortDemo.start 70 with state := { (PortDemo.start 70).state with fcLambda := 3 / 10 } } (1 / 2) none with
      | .ok f => decide (∃ s ∈ f.history, 1 / 2000 < s.exhMdot ∧ s.exhportExhTeIn = s.fcTeAdiabatic ∧ s.fcTeAdiabatic < 2100 ∧
          4000 < airAt airH airTe (1000 * s.exhHdotKw / s.exhMdot) ∧
          s.exhMdot * airAt airTe airH s.exhportExhTeIn < 1000 * s.exhHdotKw)
      | .error _ => false) = true := by
  decide +kernel

end GasDemo
end Fastsim.Props
