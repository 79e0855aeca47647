import Verif.Props.VehicleMass
import Verif.Props.Engine
import Verif.Lemmas.Vehicle

/-!
# C38, C46: peak efficiencies and derived efficiency curves
-/

set_option linter.unusedSectionVars false

namespace Fastsim.Props
open Fastsim Spec

section Lawless
variable {K : Type*} [Zero K] [One K] [NatCast K] [Add K] [Sub K] [Mul K] [Div K] [Neg K]
  [LinearOrder K]

theorem setVehMass_arrays (q : VehObj K) :
    q.setVehMass.fcEffArray = q.fcEffArray ∧ q.setVehMass.fcKwOutArray = q.fcKwOutArray ∧
    q.setVehMass.mcFullEffArray = q.mcFullEffArray ∧ q.setVehMass.mcKwOutArray = q.mcKwOutArray ∧
    q.setVehMass.mcKwInArray = q.mcKwInArray ∧ q.setVehMass.mcEffArray = q.mcEffArray ∧
    q.setVehMass.mcEffMap = q.mcEffMap ∧ q.setVehMass.fcEffMap = q.fcEffMap ∧
    q.setVehMass.mcMaxElecInKw = q.mcMaxElecInKw := by
  unfold VehObj.setVehMass
  rcases q.vehOverrideKg with _ | k
  · exact ⟨rfl, rfl, rfl, rfl, rfl, rfl, rfl, rfl, rfl⟩
  · by_cases hk : 0 < k
    · simp only [if_pos hk, and_self]
    · simp only [if_neg hk, and_self]

theorem npInterp_ok {xs xp fp ys : List K} (h : npInterp xs xp fp = .ok ys) :
    xp ≠ [] ∧ xp.length = fp.length ∧ ys = xs.map fun x => interp x (xp.zip fp) := by
  unfold npInterp at h
  split at h
  · simp at h
  · rename_i hn
    push Not at hn
    simp only [Except.ok.injEq] at h
    exact ⟨fun e => hn.1 (by simp [e]), hn.2, h.symm⟩

/-- What a built vehicle's curves are, before the overrides: `fcEff` and `mid` are the interpolated
maps, `map` the motor map in use. -/
theorem setDerived_curves {o o' : VehObj K} (h : o.setDerived = .ok o') :
    ∃ o1 fcEff mid map, CurvesSpec o.setSwitches o1 fcEff mid map ∧
      o1.setOverrides.effOk = true ∧ o' = o1.setOverrides.setVehMass := by
  obtain ⟨-, o1, h1, he, e⟩ := setDerived_stages h
  obtain ⟨a, b, c, hc⟩ := setCurves_spec h1
  exact ⟨o1, a, b, c, hc, he, e⟩

/-- **C46 (first law).** Every efficiency of a vehicle that could be built, engine or motor, lies in
`[0, 1)`, whatever the maps and overrides given. -/
theorem C46_efficiencies {o o' : VehObj K} (h : o.setDerived = .ok o') :
    (∀ e ∈ o'.fcEffArray, 0 ≤ e ∧ e < 1) ∧ (∀ e ∈ o'.mcFullEffArray, 0 ≤ e ∧ e < 1) := by
  obtain ⟨o1, _, _, _, -, he, rfl⟩ := setDerived_curves h
  obtain ⟨a1, -, a3, -⟩ := setVehMass_arrays o1.setOverrides
  rw [a1, a3]
  unfold VehObj.effOk at he
  simp only [Bool.and_eq_true, decide_eq_true_eq] at he
  obtain ⟨⟨⟨h1, h2⟩, h3⟩, h4⟩ := he
  refine ⟨fun e hm => ⟨h1.trans (listMin_le hm), lt_of_le_of_lt (le_listMax hm) h2⟩, fun e hm =>
    ⟨h3.trans (listMin_le hm), ?_⟩⟩
  split at h4
  · rename_i x hx
    unfold VehObj.mcPeak at hx
    split at hx
    · simp only [Except.ok.injEq] at hx
      subst hx
      exact lt_of_le_of_lt (le_listMax hm) (by simpa using h4)
    · simp at hx
  · simp at h4

theorem view_arrays {o : VehObj K} {V : Veh K} (hv : o.view = .ok V) :
    V.fcEffArray = o.fcEffArray ∧ V.fcKwOutArray = o.fcKwOutArray ∧
    V.mcFullEffArray = o.mcFullEffArray ∧ V.mcKwOutArray = o.mcKwOutArray ∧
    V.mcKwInArray = o.mcKwInArray ∧ V.fcMaxKw = o.fcMaxKw ∧ V.mcMaxKw = o.mcMaxKw ∧
    V.maxFcEffKw = o.fcKwOutArray.getD (argmaxIdx o.fcEffArray) 0 ∧
    o.mcPeak = .ok V.mcPeakEff := by
  unfold VehObj.view at hv
  split at hv
  · simp at hv
  · rename_i x hx
    simp only [Except.ok.injEq] at hv
    subst hv
    exact ⟨rfl, rfl, rfl, rfl, rfl, rfl, rfl, rfl, hx⟩

/-- **C46 (readable).** The attributes of a built vehicle can all be read: the consistency check in
`mc_peak_eff` does not fail. -/
theorem C46_readable {o o' : VehObj K} (h : o.setDerived = .ok o') : ∃ V, o'.view = .ok V := by
  obtain ⟨o1, _, _, _, -, he, rfl⟩ := setDerived_curves h
  obtain ⟨a1, a2, a3, a4, a5, a6, -⟩ := setVehMass_arrays o1.setOverrides
  unfold VehObj.effOk at he
  simp only [Bool.and_eq_true] at he
  have h4 := he.2
  split at h4
  · rename_i x hx
    unfold VehObj.view
    have : o1.setOverrides.setVehMass.mcPeak = .ok x := by
      rw [← hx]
      unfold VehObj.mcPeak
      rw [a3, a6]
    rw [this]
    exact ⟨_, rfl⟩
  · simp at h4

theorem argmaxIdx_spec {l : List K} (hl : l ≠ []) :
    ∃ h : argmaxIdx l < l.length, ∀ x ∈ l, x ≤ l[argmaxIdx l] := by
  have hex : ∃ x ∈ l, decide (listMax l ≤ x) = true := ⟨listMax l, listMax_mem hl, by simp⟩
  have h : argmaxIdx l < l.length := List.findIdx_lt_length.2 hex
  refine ⟨h, fun x hx => (le_listMax hx).trans ?_⟩
  have := List.findIdx_getElem (w := h)
  simp only [decide_eq_true_eq] at this
  exact this

theorem lenTo (o1 : VehObj K) (fcEff mid map : List K) (o : VehObj K)
    (hc : CurvesSpec o o1 fcEff mid map) :
    o1.setOverrides.fcKwOutArray = (fcPercOutArray : List K).map (o.fcMaxKw * ·) ∧
    o1.setOverrides.mcKwOutArray = (mcPercOutArray : List K).map (· * o.mcMaxKw) ∧
    o1.setOverrides.mcKwInArray = kwInOf ((mcPercOutArray : List K).map (· * o.mcMaxKw)) (fullEff mid map) ∧
    o1.setOverrides.mcMaxElecInKw =
      listMax (kwInOf ((mcPercOutArray : List K).map (· * o.mcMaxKw)) (fullEff mid map)) := by
  have e := hc.eq
  rw [setOverrides_eq]
  unfold mcOverride fcOverride
  subst e
  split <;> split <;> exact ⟨rfl, rfl, rfl, rfl⟩

theorem override_cases (o1 : VehObj K) :
    (o1.setOverrides.fcEffArray = (match o1.fcPeakEffOverride with
        | none => o1.fcEffArray | some x => scaleTo x o1.fcEffArray)) ∧
    (o1.setOverrides.mcFullEffArray = (match o1.mcPeakEffOverride with
        | none => o1.mcFullEffArray | some x => scaleTo x o1.mcFullEffArray)) ∧
    (o1.setOverrides.mcEffArray = (match o1.mcPeakEffOverride with
        | none => o1.mcEffArray | some x => scaleTo x o1.mcEffArray)) := by
  rcases hf : o1.fcPeakEffOverride with _ | x <;> rcases hm : o1.mcPeakEffOverride with _ | y <;>
  · rw [setOverrides_eq]
    unfold mcOverride fcOverride
    rw [hf]
    simp only [VehObj.setFcPeak, VehObj.setMcPeak, hm, and_self]

theorem curves_eff (o o1 : VehObj K) (fcEff mid map : List K) (hc : CurvesSpec o o1 fcEff mid map) :
    o1.fcEffArray = fcEff ∧ o1.mcFullEffArray = fullEff mid map ∧ o1.mcEffArray = map ∧
    o1.fcPeakEffOverride = o.fcPeakEffOverride ∧ o1.mcPeakEffOverride = o.mcPeakEffOverride ∧
    o1.fcEffMap = o.fcEffMap ∧ o1.mcEffMap = some map := by
  rw [hc.eq]
  exact ⟨rfl, rfl, rfl, rfl, rfl, rfl, rfl⟩

theorem fullEff_length (mid map : List K) : (fullEff mid map).length = mid.length := by
  simp [fullEff]

/-- **C46 (most efficient power).** `max_fc_eff_kw` is the tabulated output power at which the
engine is most efficient: nowhere in the table is the efficiency higher. -/
theorem C46_best_power {o o' : VehObj K} {V : Veh K} (h : o.setDerived = .ok o')
    (hv : o'.view = .ok V) :
    ∃ (k : Nat) (e : K), V.fcKwOutArray[k]? = some V.maxFcEffKw ∧ V.fcEffArray[k]? = some e ∧
      ∀ e' ∈ V.fcEffArray, e' ≤ e := by
  obtain ⟨o1, fcEff, mid, map, hc, -, rfl⟩ := setDerived_curves h
  obtain ⟨a1, a2, -⟩ := setVehMass_arrays o1.setOverrides
  obtain ⟨b1, b2, -, -, -, -, -, b8, -⟩ := view_arrays hv
  obtain ⟨c1, -⟩ := lenTo o1 fcEff mid map _ hc
  obtain ⟨d1, -⟩ := override_cases o1
  obtain ⟨e1, -⟩ := curves_eff _ _ _ _ _ hc
  obtain ⟨-, -, hf⟩ := npInterp_ok hc.fc
  have hlen : V.fcEffArray.length = 100 := by
    rw [b1, a1, d1, e1, hf]
    split <;> simp [scaleTo, fcPercOutArray]
  have hlen' : V.fcKwOutArray.length = 100 := by
    rw [b2, a2, c1]; simp [fcPercOutArray]
  obtain ⟨hk, hmax⟩ := argmaxIdx_spec (l := V.fcEffArray) (by intro e; rw [e] at hlen; simp at hlen)
  refine ⟨argmaxIdx V.fcEffArray, _, ?_, List.getElem?_eq_getElem hk, hmax⟩
  rw [b8, ← b1, ← b2, List.getD_eq_getElem?_getD, List.getElem?_eq_getElem (by omega)]
  rfl

/-- **C46 (rejected maps).** Maps whose length differs from the number of breakpoints are rejected
with a `ValueError` (engine). -/
theorem C46_engine_length {o : VehObj K} (ht : o.typeOk = true)
    (hl : o.fcPwrOutPerc.length ≠ o.fcEffMap.length) : o.setDerived = .error .valueError := by
  unfold VehObj.setDerived
  rw [ht]
  simp only [if_true]
  have : o.setSwitches.setCurves = .error .valueError := by
    unfold VehObj.setCurves
    have : npInterp fcPercOutArray o.setSwitches.fcPwrOutPerc o.setSwitches.fcEffMap = .error .valueError :=
      if_pos (.inr hl)
    rw [this]
  rw [this]

end Lawless

section Field
variable {K : Type*} [Field K] [LinearOrder K] [IsStrictOrderedRing K]

/-! ### Curves -/

theorem npInterp_bounds {xs xp fp ys : List K} (h : npInterp xs xp fp = .ok ys) {lo hi : K}
    (hb : ∀ e ∈ fp, lo ≤ e ∧ e ≤ hi) : ∀ y ∈ ys, lo ≤ y ∧ y ≤ hi := by
  obtain ⟨hne, hlen, rfl⟩ := npInterp_ok h
  intro y hy
  obtain ⟨x, -, rfl⟩ := List.mem_map.1 hy
  refine interp_bounds x lo hi _ ?_ fun p hp => hb p.2 ?_
  · intro e
    rw [List.zip_eq_nil_iff] at e
    rcases e with e | e
    · exact hne e
    · rw [e] at hlen; exact hne (List.length_eq_zero_iff.1 hlen)
  · exact (List.of_mem_zip hp).2

/-- **C46 (engine).** Without an override of its peak, the engine's efficiencies lie between the
smallest and the largest value of its map. -/
theorem C46_engine_range {o o' : VehObj K} (h : o.setDerived = .ok o')
    (ho : o.fcPeakEffOverride = none) {lo hi : K} (hb : ∀ e ∈ o.fcEffMap, lo ≤ e ∧ e ≤ hi) :
    o'.fcEffArray.length = 100 ∧ ∀ e ∈ o'.fcEffArray, lo ≤ e ∧ e ≤ hi := by
  obtain ⟨o1, fcEff, mid, map, hc, -, rfl⟩ := setDerived_curves h
  obtain ⟨a1, -⟩ := setVehMass_arrays o1.setOverrides
  obtain ⟨d1, -⟩ := override_cases o1
  obtain ⟨e1, -, -, e4, -⟩ := curves_eff _ _ _ _ _ hc
  rw [e4, show o.setSwitches.fcPeakEffOverride = o.fcPeakEffOverride from rfl, ho, e1] at d1
  rw [a1, d1]
  refine ⟨?_, npInterp_bounds hc.fc hb⟩
  rw [(npInterp_ok hc.fc).2.2]; simp [fcPercOutArray]

theorem fullEff_tail_mem {mid map : List K} (hm : 1 < mid.length) (hne : map ≠ []) {e : K}
    (h : e ∈ (fullEff mid map).tail) : e ∈ mid ∨ e ∈ map := by
  unfold fullEff at h
  have hx : e ∈ (mid.set (mid.length - 1) (map.getLast?.getD 0)) := by
    rcases mid with _ | ⟨a, l⟩
    · simp at hm
    · obtain ⟨n, hn⟩ : ∃ n, (a :: l).length - 1 = n + 1 := ⟨l.length - 1, by simp at hm ⊢; omega⟩
      rw [hn] at h ⊢
      simp only [List.set_cons_zero, List.set_cons_succ, List.tail_cons] at h ⊢
      exact List.mem_cons_of_mem _ h
  rcases List.mem_or_eq_of_mem_set hx with h | h
  · exact .inl h
  · right
    rw [h, List.getLast?_eq_some_getLast hne]
    exact List.getLast_mem hne

/-- **C46 (motor).** Without an override of its peak, the motor's efficiency is 0 at zero power, and
all others lie between the smallest and the largest value of the map in use (the one given, or the
built-in one). -/
theorem C46_motor_range {o o' : VehObj K} (h : o.setDerived = .ok o')
    (ho : o.mcPeakEffOverride = none) {lo hi : K}
    (hb : ∀ e ∈ o.mcEffMap.getD (defaultMcEffMap o.mcMaxKw), lo ≤ e ∧ e ≤ hi) :
    o'.mcFullEffArray.length = 101 ∧ o'.mcFullEffArray[0]? = some 0 ∧
    (∀ e ∈ o'.mcFullEffArray.tail, lo ≤ e ∧ e ≤ hi) ∧
    o'.mcFullEffArray.getLast? = (o.mcEffMap.getD (defaultMcEffMap o.mcMaxKw)).getLast? := by
  obtain ⟨o1, fcEff, mid, map, hc, -, rfl⟩ := setDerived_curves h
  obtain ⟨-, -, a3, -⟩ := setVehMass_arrays o1.setOverrides
  obtain ⟨-, d2, -⟩ := override_cases o1
  obtain ⟨-, e2, -, -, e5, -⟩ := curves_eff _ _ _ _ _ hc
  rw [e5, show o.setSwitches.mcPeakEffOverride = o.mcPeakEffOverride from rfl, ho, e2] at d2
  have hmap : map = o.mcEffMap.getD (defaultMcEffMap o.mcMaxKw) := hc.hmap
  obtain ⟨hne, hlen, hmid⟩ := npInterp_ok hc.mc
  have hl : mid.length = 101 := by rw [hmid]; simp [mcPercOutArray]
  have hne' : map ≠ [] := by
    intro e
    rw [e] at hlen; exact hne (List.length_eq_zero_iff.1 hlen)
  rw [a3, d2]
  refine ⟨by rw [fullEff_length, hl], ?_, ?_, ?_⟩
  · unfold fullEff
    rw [List.getElem?_set_ne (by omega), List.getElem?_set_self (by omega)]
  · intro e he
    rw [← hmap] at hb
    rcases fullEff_tail_mem (by omega) hne' he with he | he
    · exact npInterp_bounds hc.mc hb e he
    · exact hb e he
  · rw [← hmap]
    unfold fullEff
    rw [List.getLast?_eq_getElem?]
    simp only [List.length_set]
    rw [List.getElem?_set_self (by simp; omega), List.getLast?_eq_some_getLast hne']
    rfl

/-- **C46 (engine powers).** The tabulated engine powers start at 0, end at the rated power, and, for
a positive rating, strictly increase; there is one for each efficiency. -/
theorem C46_engine_table {o o' : VehObj K} (h : o.setDerived = .ok o') :
    o'.fcKwOutArray[0]? = some 0 ∧ o'.fcKwOutArray.getLast? = some o.fcMaxKw ∧
    o'.fcKwOutArray.length = o'.fcEffArray.length ∧
    (0 < o.fcMaxKw → o'.fcKwOutArray.Pairwise (· < ·)) := by
  obtain ⟨o1, fcEff, mid, map, hc, -, rfl⟩ := setDerived_curves h
  obtain ⟨a1, a2, -⟩ := setVehMass_arrays o1.setOverrides
  obtain ⟨c1, -⟩ := lenTo o1 fcEff mid map _ hc
  obtain ⟨d1, -⟩ := override_cases o1
  obtain ⟨e1, -⟩ := curves_eff _ _ _ _ _ hc
  have hlen : o1.setOverrides.fcEffArray.length = 100 := by
    rw [d1, e1, (npInterp_ok hc.fc).2.2]
    split <;> simp [scaleTo, fcPercOutArray]
  have hm : o.setSwitches.fcMaxKw = o.fcMaxKw := rfl
  rw [hm] at c1
  rw [a2, a1, hlen, c1]
  refine ⟨?_, ?_, by simp [fcPercOutArray], fun hp => ?_⟩
  · have : (fcPercOutArray : List K)[0]? = some (dec 0 1000) := rfl
    rw [List.getElem?_map, this, dec_zero]; simp
  · have : (fcPercOutArray : List K).getLast? = some (dec 1000 1000) := by
      rw [fcPercOutArray_eq, List.getLast?_map]
      have : fcThousandths.getLast? = some 1000 := by decide +kernel
      rw [this]; rfl
    rw [List.getLast?_map, this, dec_one (by norm_num)]; simp
  · rw [List.pairwise_map]
    exact fcPercOutArray_strict.imp fun hab => mul_lt_mul_of_pos_left hab hp

theorem kwInOf_get {out eff : List K} {k : Nat} (hk : 1 ≤ k) {x e : K} (hx : out[k]? = some x)
    (he : eff[k]? = some e) : (kwInOf out eff)[k]? = some (x / e) := by
  obtain ⟨n, rfl⟩ : ∃ n, k = n + 1 := ⟨k - 1, by omega⟩
  unfold kwInOf
  rw [List.getElem?_cons_succ, List.getElem?_zipWith, List.getElem?_tail, List.getElem?_tail, hx, he]

/-- **C46 (motor powers).** The tabulated motor output powers start at 0, end at the rated power and,
for a positive rating, strictly increase. Without an override of the peak, every tabulated input
power times its efficiency is the output power, provided the efficiency is not zero. -/
theorem C46_motor_table {o o' : VehObj K} (h : o.setDerived = .ok o') :
    o'.mcKwOutArray.length = 101 ∧ o'.mcKwInArray.length = 101 ∧
    (∀ k : Nat, k ≤ 100 → o'.mcKwOutArray[k]? = some ((k : K) / 100 * o.mcMaxKw)) ∧
    (0 < o.mcMaxKw → o'.mcKwOutArray.Pairwise (· < ·)) ∧
    o'.mcKwInArray[0]? = some 0 ∧
    (o.mcPeakEffOverride = none → ∀ k : Nat, 1 ≤ k → ∀ e i p : K, o'.mcFullEffArray[k]? = some e →
      o'.mcKwInArray[k]? = some i → o'.mcKwOutArray[k]? = some p → e ≠ 0 → i * e = p) := by
  obtain ⟨o1, fcEff, mid, map, hc, -, rfl⟩ := setDerived_curves h
  obtain ⟨-, -, a3, a4, a5, -⟩ := setVehMass_arrays o1.setOverrides
  obtain ⟨-, c2, c3, -⟩ := lenTo o1 fcEff mid map _ hc
  obtain ⟨-, d2, -⟩ := override_cases o1
  obtain ⟨-, e2, -, -, e5, -⟩ := curves_eff _ _ _ _ _ hc
  have hm : o.setSwitches.mcMaxKw = o.mcMaxKw := rfl
  rw [hm] at c2 c3
  have hl : mid.length = 101 := by rw [(npInterp_ok hc.mc).2.2]; simp [mcPercOutArray]
  rw [a3, a4, a5, c2, c3]
  refine ⟨by simp [mcPercOutArray], ?_, fun k hk => ?_, fun hp => ?_, rfl, ?_⟩
  · unfold kwInOf
    simp [fullEff_length, hl, mcPercOutArray]
  · rw [List.getElem?_map, mcPercOutArray_get hk]
    simp [dec]
  · rw [List.pairwise_map]
    exact mcPercOutArray_strict.imp fun hab => mul_lt_mul_of_pos_right hab hp
  · intro ho k hk e i p h1 h2 h3 hne
    rw [e5, show o.setSwitches.mcPeakEffOverride = o.mcPeakEffOverride from rfl, ho, e2] at d2
    simp only at d2
    rw [d2] at h1
    rw [kwInOf_get hk h3 h1] at h2
    simp only [Option.some.injEq] at h2
    rw [← h2]
    field_simp

/-- **C46 (lookup).** At any output between 0 and the rating, the engine efficiency used is the table
entry of the largest tabulated power not above that output. -/
theorem C46_engine_lookup {o o' : VehObj K} {V : Veh K} (h : o.setDerived = .ok o')
    (hv : o'.view = .ok V) (hp : 0 < o.fcMaxKw) {x : K} (h0 : 0 ≤ x) (hx : x ≤ o.fcMaxKw) :
    ∃ k, InForce V.fcKwOutArray x k ∧ V.fcEffArray[k]? = some (fcEffAt V x) := by
  obtain ⟨t1, -, t3, t4⟩ := C46_engine_table h
  obtain ⟨b1, b2, -, -, -, b6, -⟩ := view_arrays hv
  have hi := C37_inputs_kept h
  unfold fcEffAt
  rw [b6, hi.fcMaxKw, min_eq_left hx, b1, b2]
  exact lookupM1_inForce (t4 hp) t3.symm t1 h0

/-- **C46 (ready for simulation).** If all map values are positive and the overrides, if any, are
positive, a built vehicle meets the assumptions on efficiencies under which C16–C24 are proved. -/
theorem C46_sim_ready {o o' : VehObj K} {V : Veh K} (h : o.setDerived = .ok o')
    (hv : o'.view = .ok V) (hf : ∀ e ∈ o.fcEffMap, 0 < e)
    (hm : ∀ e ∈ o.mcEffMap.getD (defaultMcEffMap o.mcMaxKw), 0 < e)
    (hfo : ∀ x, o.fcPeakEffOverride = some x → 0 < x)
    (hmo : ∀ x, o.mcPeakEffOverride = some x → 0 < x) : EffOk V ∧ MotorOk V := by
  obtain ⟨hle1, hle2⟩ := C46_efficiencies h
  obtain ⟨o1, fcEff, mid, map, hc, -, rfl⟩ := setDerived_curves h
  obtain ⟨a1, a2, a3, a4, a5, -⟩ := setVehMass_arrays o1.setOverrides
  obtain ⟨c1, c2, c3, -⟩ := lenTo o1 fcEff mid map _ hc
  obtain ⟨d1, d2, -⟩ := override_cases o1
  obtain ⟨e1, e2, -, e4, e5, -⟩ := curves_eff _ _ _ _ _ hc
  obtain ⟨b1, b2, b3, b4, b5, -⟩ := view_arrays hv
  have e4' : o1.fcPeakEffOverride = o.fcPeakEffOverride := e4
  have e5' : o1.mcPeakEffOverride = o.mcPeakEffOverride := e5
  have hmap : map = o.mcEffMap.getD (defaultMcEffMap o.mcMaxKw) := hc.hmap
  obtain ⟨fne, flen, hfe⟩ := npInterp_ok hc.fc
  obtain ⟨mne, mlen, hmid⟩ := npInterp_ok hc.mc
  have hl : mid.length = 101 := by rw [hmid]; simp [mcPercOutArray]
  have hne' : map ≠ [] := by
    intro e
    rw [e] at mlen; exact mne (List.length_eq_zero_iff.1 mlen)
  have hfl : fcEff.length = 100 := by rw [hfe]; simp [fcPercOutArray]
  -- positivity of interpolated values
  have pos : ∀ {xs xp fp ys : List K}, npInterp xs xp fp = .ok ys → (∀ e ∈ fp, 0 < e) →
      ∀ y ∈ ys, 0 < y := by
    intro xs xp fp ys hi hpos y hy
    obtain ⟨n1, n2, -⟩ := npInterp_ok hi
    have hfp : fp ≠ [] := by
      intro e
      rw [e] at n2; exact n1 (List.length_eq_zero_iff.1 n2)
    have := npInterp_bounds hi (lo := listMin fp) (hi := listMax fp)
      (fun e he => ⟨listMin_le he, le_listMax he⟩) y hy
    exact lt_of_lt_of_le (hpos _ (listMin_mem hfp)) this.1
  have hfpos : ∀ e ∈ fcEff, 0 < e := pos hc.fc hf
  have hmpos : ∀ e ∈ (fullEff mid map).tail, 0 < e := by
    intro e he
    rcases fullEff_tail_mem (by omega) hne' he with he | he
    · exact pos hc.mc (by rw [hmap]; exact hm) e he
    · rw [hmap] at he; exact hm e he
  have hscale : ∀ {l : List K} {x : K}, 0 < x → 0 < listMax l → ∀ {e : K}, 0 < e →
      0 < e * (x / listMax l) := fun hx hl _ he => mul_pos he (div_pos hx hl)
  have hfmax : 0 < listMax fcEff :=
    hfpos _ (listMax_mem (by intro e; rw [e] at hfl; simp at hfl))
  have hmmax : 0 < listMax (fullEff mid map) := by
    have hlen : (fullEff mid map).length = 101 := by rw [fullEff_length, hl]
    rcases hfu : fullEff mid map with _ | ⟨a, _ | ⟨b, l⟩⟩
    · rw [hfu] at hlen; simp at hlen
    · rw [hfu] at hlen; simp at hlen
    · have hb : 0 < b := hmpos b (by rw [hfu]; simp)
      exact lt_of_lt_of_le hb (le_listMax (by simp))
  have hF : ∀ e ∈ o1.setOverrides.fcEffArray, 0 < e := by
    rw [d1, e1, e4']
    split
    · exact hfpos
    · rename_i x hx
      intro e he
      obtain ⟨y, hy, rfl⟩ := List.mem_map.1 he
      exact hscale (hfo x hx) hfmax (hfpos y hy)
  have hM : ∀ e ∈ o1.setOverrides.mcFullEffArray.tail, 0 < e := by
    rw [d2, e2, e5']
    split
    · exact hmpos
    · rename_i x hx
      intro e he
      unfold scaleTo at he
      rw [← List.map_tail] at he
      obtain ⟨y, hy, rfl⟩ := List.mem_map.1 he
      exact hscale (hmo x hx) hmmax (hmpos y hy)
  have hFl : o1.setOverrides.fcEffArray.length = 100 := by
    rw [d1, e1]; split <;> simp [scaleTo, hfl]
  have hMl : o1.setOverrides.mcFullEffArray.length = 101 := by
    rw [d2, e2]; split <;> simp [scaleTo, fullEff_length, hl]
  constructor
  · refine ⟨?_, ?_, ?_⟩
    · rw [b1, a1]; intro e; rw [e] at hFl; simp at hFl
    · rw [b1, a1, b2, a2, c1, hFl]; simp [fcPercOutArray]
    · rw [b1]
      intro e he
      exact ⟨hF e (by rw [← a1]; exact he), (hle1 e he).2.le⟩
  · refine ⟨?_, ?_, ?_, ?_, ?_⟩
    · rw [b3, a3, hMl]; norm_num
    · rw [b5, b3, a5, a3, c3, hMl]
      simp [kwInOf, mcPercOutArray, fullEff_length, hl]
    · rw [b4, b3, a4, a3, c2, hMl]; simp [mcPercOutArray]
    · rw [b3, a3]; exact hM
    · rw [b3]
      intro e he
      exact (hle2 e (List.mem_of_mem_tail he)).2.le

/-! ### The built-in motor map -/

theorem adj_range (m : K) : 0 ≤ mcKwAdjPerc m ∧ mcKwAdjPerc m ≤ 1 :=
  ⟨le_max_left _ _, max_le zero_le_one (min_le_right _ _)⟩

theorem largeMax : listMax (largeBaselineEff : List K) = dec 94 100 := by
  refine listMax_eq (by simp [largeBaselineEff]) fun x hx => ?_
  simp only [largeBaselineEff, List.mem_cons, List.not_mem_nil, or_false] at hx
  rcases hx with rfl | rfl | rfl | rfl | rfl | rfl | rfl | rfl | rfl | rfl | rfl <;>
    exact dec_le (by norm_num) (by norm_num)

/-- The built-in map written out: between a small and a large motor's values, by motor size. -/
theorem defaultMcEffMap_eq (m : K) : defaultMcEffMap m =
    [(84, 12), (86, 16), (88, 21), (90, 29), (91, 35), (92, 42), (94, 75), (95, 92), (95, 93),
     (94, 93), (93, 92)].map fun (p : Nat × Nat) =>
      mcKwAdjPerc m * ((p.1 : K) / 100) + (1 - mcKwAdjPerc m) * ((p.2 : K) / 100) := by
  unfold defaultMcEffMap
  simp only [largeMax]
  simp only [largeBaselineEff, smallBaselineEff, modernMax, dec, List.zipWith_cons_cons,
    List.zipWith_nil_left, List.map_cons, List.map_nil]
  norm_num

/-- **C46 (built-in motor map).** When no motor map is given, efficiencies interpolate between those
of a 7.5 kW and of a 75 kW motor: all values lie between 0.12 and 0.95, the largest between 0.93 and
0.95, and a larger motor has no lower largest efficiency. -/
theorem C46_default_map (m : K) :
    (∀ e ∈ defaultMcEffMap m, 12 / 100 ≤ e ∧ e ≤ 95 / 100) ∧
    listMax (defaultMcEffMap m) = 93 / 100 + 2 / 100 * mcKwAdjPerc m ∧
    (m ≤ 15 / 2 → listMax (defaultMcEffMap m) = 93 / 100) ∧
    (75 ≤ m → listMax (defaultMcEffMap m) = 95 / 100) := by
  obtain ⟨h0, h1⟩ := adj_range m
  have hmax : listMax (defaultMcEffMap m) = 93 / 100 + 2 / 100 * mcKwAdjPerc m := by
    rw [defaultMcEffMap_eq]
    refine listMax_eq ?_ ?_
    · simp only [List.map_cons, List.mem_cons]
      right; right; right; right; right; right; right; right; left
      norm_num
      ring
    · intro x hx
      simp only [List.map_cons, List.map_nil, List.mem_cons, List.not_mem_nil, or_false] at hx
      rcases hx with rfl | rfl | rfl | rfl | rfl | rfl | rfl | rfl | rfl | rfl | rfl <;>
        · push_cast; linarith
  refine ⟨?_, hmax, fun hm => ?_, fun hm => ?_⟩
  · intro x hx
    rw [defaultMcEffMap_eq] at hx
    simp only [List.map_cons, List.map_nil, List.mem_cons, List.not_mem_nil, or_false] at hx
    rcases hx with rfl | rfl | rfl | rfl | rfl | rfl | rfl | rfl | rfl | rfl | rfl <;>
      · push_cast; constructor <;> linarith
  · have : mcKwAdjPerc m = 0 := by
      unfold mcKwAdjPerc dec
      refine max_eq_left ((min_le_left _ _).trans ?_)
      refine div_nonpos_of_nonpos_of_nonneg ?_ ?_ <;> push_cast <;> linarith
    rw [hmax, this]; ring
  · have : mcKwAdjPerc m = 1 := by
      unfold mcKwAdjPerc dec
      rw [min_eq_right, max_eq_right zero_le_one]
      rw [le_div_iff₀ (by push_cast; linarith)]
      push_cast; linarith
    rw [hmax, this]; ring

theorem default_zip_strict (m : K) :
    StrictX ((defaultMcPwrOutPerc : List K).zip (defaultMcEffMap m)) := by
  rw [defaultMcEffMap_eq]
  unfold StrictX defaultMcPwrOutPerc dec
  simp only [List.map_cons, List.map_nil, List.zip_cons_cons, List.zip_nil_left, List.pairwise_cons,
    List.mem_cons, List.not_mem_nil, or_false, forall_eq_or_imp, forall_eq, List.Pairwise.nil]
  norm_num

theorem default_zip_damped (m : K) :
    Damped ((defaultMcPwrOutPerc : List K).zip (defaultMcEffMap m)) := by
  obtain ⟨h0, h1⟩ := adj_range m
  rw [defaultMcEffMap_eq]
  unfold defaultMcPwrOutPerc dec
  simp only [List.map_cons, List.map_nil, List.zip_cons_cons, List.zip_nil_left, Damped, and_true]
  push_cast
  refine ⟨?_, ?_, ?_, ?_, ?_, ?_, ?_, ?_, ?_, ?_⟩ <;> linarith

theorem defaultMcEffMap_length (m : K) : (defaultMcEffMap m).length = 11 := by
  rw [defaultMcEffMap_eq]; rfl

/-- Over the grid, output share over built-in efficiency strictly increases. -/
theorem default_ratio (m : K) {x y : K} (h0 : 0 ≤ x) (hxy : x < y) (hy : y ≤ 1) :
    x / interp x ((defaultMcPwrOutPerc : List K).zip (defaultMcEffMap m)) <
      y / interp y ((defaultMcPwrOutPerc : List K).zip (defaultMcEffMap m)) := by
  have hpos : ∀ z, 0 < interp z ((defaultMcPwrOutPerc : List K).zip (defaultMcEffMap m)) := by
    intro z
    have := interp_bounds z (12 / 100) (95 / 100)
      ((defaultMcPwrOutPerc : List K).zip (defaultMcEffMap m))
      (by rw [defaultMcEffMap_eq]; simp [defaultMcPwrOutPerc])
      (fun p hp => (C46_default_map m).1 p.2 (List.of_mem_zip hp).2)
    linarith
  have hs := default_zip_strict m
  have hd := default_zip_damped m
  have key : x * interp y ((defaultMcPwrOutPerc : List K).zip (defaultMcEffMap m)) <
      y * interp x ((defaultMcPwrOutPerc : List K).zip (defaultMcEffMap m)) := by
    have hz : ∃ p l, (defaultMcPwrOutPerc : List K).zip (defaultMcEffMap m) = p :: l ∧ p.1 = 0 ∧
        ((p :: l).getLast (by simp)).1 = 1 := by
      rw [defaultMcEffMap_eq]
      refine ⟨_, _, rfl, by simp [dec], ?_⟩
      simp [dec]
    obtain ⟨p, l, e, hp, hl⟩ := hz
    rw [e] at hs hd ⊢
    exact interp_damped hs hd hp.ge (by rw [hp]; exact h0) hxy (by rw [hl]; exact hy)
  rw [div_lt_div_iff₀ (hpos x) (hpos y)]
  exact key

/-- The tabulated motor inputs with the built-in map and breakpoints. -/
theorem default_input_get {o o' : VehObj K} (h : o.setDerived = .ok o') (hm : o.mcEffMap = none)
    (hb : o.mcPwrOutPerc = defaultMcPwrOutPerc) {k : Nat} (hk : k ≤ 100) :
    o'.mcKwInArray[k]? = some (dec k 100 /
      interp (dec k 100) ((defaultMcPwrOutPerc : List K).zip (defaultMcEffMap o.mcMaxKw)) * o.mcMaxKw) := by
  obtain ⟨o1, fcEff, mid, map, hc, -, rfl⟩ := setDerived_curves h
  obtain ⟨-, -, -, -, a5, -⟩ := setVehMass_arrays o1.setOverrides
  obtain ⟨-, -, c3, -⟩ := lenTo o1 fcEff mid map _ hc
  have hmap : map = defaultMcEffMap o.mcMaxKw := by
    have : map = o.mcEffMap.getD (defaultMcEffMap o.mcMaxKw) := hc.hmap
    rw [this, hm]; rfl
  obtain ⟨-, -, hmid⟩ := npInterp_ok hc.mc
  have hperc : o.setSwitches.mcPwrOutPerc = defaultMcPwrOutPerc := hb
  rw [hperc, hmap] at hmid
  have hkw : o.setSwitches.mcMaxKw = o.mcMaxKw := rfl
  rw [hkw] at c3
  set f : K → K := fun x => interp x ((defaultMcPwrOutPerc : List K).zip (defaultMcEffMap o.mcMaxKw))
    with hf
  have hl : mid.length = 101 := by rw [hmid]; simp [mcPercOutArray]
  -- the efficiency at entry k ≥ 1 is the interpolated one
  have heff : ∀ k : Nat, 1 ≤ k → k ≤ 100 → (fullEff mid map)[k]? = some (f (dec k 100)) := by
    intro k h1 h2
    have hgrid : mid[k]? = some (f (dec k 100)) := by
      rw [hmid, List.getElem?_map, mcPercOutArray_get h2]; rfl
    unfold fullEff
    rcases (by omega : k = 100 ∨ k < 100) with rfl | hk
    · rw [hl, List.getElem?_set_self (by simp; omega)]
      rw [hmap, Option.some.injEq]
      have h1 : f (dec 100 100) = f 1 := by rw [dec_one (by norm_num)]
      rw [h1, hf]
      simp only
      have hknot := interp_knot (default_zip_strict o.mcMaxKw)
        (p := (dec 100 100, mcKwAdjPerc o.mcMaxKw * ((93 : Nat) / 100) +
          (1 - mcKwAdjPerc o.mcMaxKw) * ((92 : Nat) / 100)))
        (by rw [defaultMcEffMap_eq]; simp [defaultMcPwrOutPerc])
      simp only [dec_one (by norm_num : 0 < 100)] at hknot
      rw [hknot, defaultMcEffMap_eq]
      rfl
    · rw [hl, List.getElem?_set_ne (by omega), List.getElem?_set_ne (by omega), hgrid]
  show _ = some (dec k 100 / f (dec k 100) * o.mcMaxKw)
  rw [a5, c3]
  rcases Nat.eq_zero_or_pos k with rfl | h1
  · simp [kwInOf, dec]
  · rw [kwInOf_get h1 (x := dec k 100 * o.mcMaxKw) (e := f (dec k 100)) _ (heff k h1 hk)]
    · rw [Option.some.injEq]; ring
    · rw [List.getElem?_map, mcPercOutArray_get hk]; rfl

/-- **C46 (motor inputs).** With the built-in motor map and breakpoints, the tabulated motor input
powers strictly increase, for every motor of positive power and whatever overrides are given. So the
lookups in that table are well defined. -/
theorem C46_default_inputs {o o' : VehObj K} (h : o.setDerived = .ok o') (hm : o.mcEffMap = none)
    (hb : o.mcPwrOutPerc = defaultMcPwrOutPerc) (hp : 0 < o.mcMaxKw) :
    o'.mcKwInArray.Pairwise (· < ·) := by
  have hin := fun k (hk : k ≤ 100) => default_input_get h hm hb hk
  have hlen : o'.mcKwInArray.length = 101 := (C46_motor_table h).2.1
  rw [List.pairwise_iff_getElem]
  intro i j hi hj hij
  have e1 := hin i (by omega)
  have e2 := hin j (by omega)
  rw [List.getElem?_eq_getElem hi] at e1
  rw [List.getElem?_eq_getElem hj] at e2
  simp only [Option.some.injEq] at e1 e2
  rw [e1, e2]
  refine mul_lt_mul_of_pos_right (default_ratio o.mcMaxKw ?_ (dec_lt (by norm_num) hij) ?_) hp
  · have := dec_le (K := K) (a := 0) (b := i) (d := 100) (by norm_num) (Nat.zero_le i)
    rwa [dec_zero] at this
  · have := dec_le (K := K) (a := j) (b := 100) (d := 100) (by norm_num) (by omega)
    rwa [dec_one (by norm_num)] at this

/-- Every default engine breakpoint is a point of the engine grid. -/
theorem fc_breakpoints_on_grid {x : K} (h : x ∈ (defaultFcPwrOutPerc : List K)) :
    x ∈ (fcPercOutArray : List K) := by
  have : (defaultFcPwrOutPerc : List K) =
      [0, 5, 15, 40, 60, 100, 140, 200, 400, 600, 800, 1000].map fun n => dec n 1000 := rfl
  rw [this] at h
  rw [fcPercOutArray_eq]
  obtain ⟨n, hn, rfl⟩ := List.mem_map.1 h
  refine List.mem_map.2 ⟨n, ?_, rfl⟩
  have hall : ∀ n ∈ [0, 5, 15, 40, 60, 100, 140, 200, 400, 600, 800, 1000], n ∈ fcThousandths := by
    decide +kernel
  exact hall n hn

theorem defaultFc_strict : (defaultFcPwrOutPerc : List K).Pairwise (· < ·) := by
  have : (defaultFcPwrOutPerc : List K) =
      [0, 5, 15, 40, 60, 100, 140, 200, 400, 600, 800, 1000].map fun n => dec n 1000 := rfl
  rw [this, List.pairwise_map]
  have h : [0, 5, 15, 40, 60, 100, 140, 200, 400, 600, 800, 1000].Pairwise (· < ·) := by
    decide +kernel
  exact h.imp fun hab => dec_lt (by norm_num) hab

/-- **C46 (peak of the engine).** With the default breakpoints and no override, every value of the
engine map is an entry of the derived table, and `fc_peak_eff` is the largest value of the map. -/
theorem C46_engine_peak {o o' : VehObj K} (h : o.setDerived = .ok o')
    (ho : o.fcPeakEffOverride = none) (hb : o.fcPwrOutPerc = defaultFcPwrOutPerc) :
    (∀ e ∈ o.fcEffMap, e ∈ o'.fcEffArray) ∧ o'.fcPeak = listMax o.fcEffMap := by
  have hrange := C46_engine_range h ho (lo := listMin o.fcEffMap) (hi := listMax o.fcEffMap)
    (fun e he => ⟨listMin_le he, le_listMax he⟩)
  have hmem : ∀ e ∈ o.fcEffMap, e ∈ o'.fcEffArray := by
    obtain ⟨o1, fcEff, mid, map, hc, -, rfl⟩ := setDerived_curves h
    obtain ⟨a1, -⟩ := setVehMass_arrays o1.setOverrides
    obtain ⟨d1, -⟩ := override_cases o1
    obtain ⟨e1, -, -, e4, -⟩ := curves_eff _ _ _ _ _ hc
    rw [e4, show o.setSwitches.fcPeakEffOverride = o.fcPeakEffOverride from rfl, ho, e1] at d1
    obtain ⟨-, hlen, hf⟩ := npInterp_ok hc.fc
    have hlen' : o.fcPwrOutPerc.length = o.fcEffMap.length := hlen
    have hf' : fcEff = fcPercOutArray.map fun x => interp x (o.fcPwrOutPerc.zip o.fcEffMap) := hf
    intro e he
    rw [a1, d1, hf']
    obtain ⟨n, hn, rfl⟩ := List.getElem_of_mem he
    have hn' : n < o.fcPwrOutPerc.length := by omega
    refine List.mem_map.2 ⟨o.fcPwrOutPerc[n], ?_, ?_⟩
    · exact fc_breakpoints_on_grid (by rw [← hb]; exact List.getElem_mem _)
    · have hstrict : StrictX (o.fcPwrOutPerc.zip o.fcEffMap) := by
        unfold StrictX
        have hp : o.fcPwrOutPerc.Pairwise (· < ·) := by rw [hb]; exact defaultFc_strict
        rw [List.pairwise_iff_getElem] at hp ⊢
        intro i j hi hj hij
        simp only [List.length_zip] at hi hj
        simp only [List.getElem_zip]
        exact hp i j (by omega) (by omega) hij
      exact interp_knot hstrict (p := (o.fcPwrOutPerc[n], o.fcEffMap[n]))
        (by rw [List.mem_iff_getElem]; exact ⟨n, by simp; omega, by simp⟩)
  refine ⟨hmem, ?_⟩
  have hne : o.fcEffMap ≠ [] := by
    obtain ⟨o1, fcEff, mid, map, hc, -, -⟩ := setDerived_curves h
    obtain ⟨q1, q2, -⟩ := npInterp_ok hc.fc
    intro e
    have q2' : o.fcPwrOutPerc.length = o.fcEffMap.length := q2
    rw [e] at q2'
    exact q1 (List.length_eq_zero_iff.1 q2')
  exact listMax_eq (hmem _ (listMax_mem hne)) fun x hx => (hrange.2 x hx).2

/-! ### C38: setting the peak efficiencies -/

/-- **C38 (engine).** After `fc_peak_eff = x` the peak read back is `x`, and every engine efficiency
has been multiplied by the same factor, new peak over old peak. Nothing else of the vehicle
changes. -/
theorem C38_engine_peak (o : VehObj K) {x : K} (hx : 0 < x) (hp : 0 < o.fcPeak) :
    (o.setFcPeak x).fcPeak = x ∧
    (∀ k : Nat, (o.setFcPeak x).fcEffArray[k]? = o.fcEffArray[k]?.map (· * (x / o.fcPeak))) ∧
    o.setFcPeak x = { o with fcEffArray := (o.setFcPeak x).fcEffArray } := by
  have h1 : listMax (scaleTo x o.fcEffArray) = x := listMax_scaleTo hx.le hp
  refine ⟨h1, fun k => ?_, ?_⟩
  · show (scaleTo x o.fcEffArray)[k]? = _
    unfold scaleTo
    rw [List.getElem?_map]; rfl
  · unfold VehObj.setFcPeak
    simp only [h1, div_self hx.ne', mul_one, List.map_id']

/-- **C38 refuted for the engine's map.** `fc_peak_eff = x` promises to set the peak "everywhere",
but `fc_eff_map` keeps its old values. -/
theorem C38_engine_map_refuted (o : VehObj K) {x : K} (hx : 0 < x) (hp : 0 < o.fcPeak) :
    (o.setFcPeak x).fcEffMap = o.fcEffMap := by
  rw [(C38_engine_peak o hx hp).2.2]

/-- **C38 (motor).** After `mc_peak_eff = x` the peak read back is `x`, and the motor map and the
derived efficiencies have all been multiplied by the same factor, new peak over old peak. -/
theorem C38_motor_peak {o : VehObj K} {m : K} (hm : o.mcPeak = .ok m) (h0 : 0 < m) {x : K}
    (hx : 0 < x) :
    (o.setMcPeak x).mcPeak = .ok x ∧
    (∀ k : Nat, (o.setMcPeak x).mcFullEffArray[k]? = o.mcFullEffArray[k]?.map (· * (x / m))) ∧
    (∀ k : Nat, (o.setMcPeak x).mcEffArray[k]? = o.mcEffArray[k]?.map (· * (x / m))) ∧
    (o.setMcPeak x).mcEffMap = some (o.setMcPeak x).mcEffArray := by
  unfold VehObj.mcPeak at hm
  split at hm
  · rename_i he
    simp only [Except.ok.injEq] at hm
    have e1 : listMax o.mcEffArray = m := he.symm.trans hm
    have s1 : listMax (scaleTo x o.mcFullEffArray) = x := listMax_scaleTo hx.le (by rw [hm]; exact h0)
    have s2 : listMax (scaleTo x o.mcEffArray) = x := listMax_scaleTo hx.le (by rw [e1]; exact h0)
    refine ⟨?_, fun k => ?_, fun k => ?_, rfl⟩
    · unfold VehObj.mcPeak
      show (if listMax (scaleTo x o.mcFullEffArray) = listMax (scaleTo x o.mcEffArray) then
        Except.ok (listMax (scaleTo x o.mcFullEffArray)) else _) = _
      rw [s1, s2]; simp
    · show (scaleTo x o.mcFullEffArray)[k]? = _
      unfold scaleTo
      rw [List.getElem?_map, hm]
    · show (scaleTo x o.mcEffArray)[k]? = _
      unfold scaleTo
      rw [List.getElem?_map, e1]
  · simp at hm

/-- **C38 refuted for the motor's input powers.** Compare a vehicle built with an override `x` of the
motor's peak (`o'`) with the same vehicle built without (`q'`, peak `m`): every efficiency is
multiplied by `x / m`, but input and output powers are those of the motor without override. So input
power times efficiency is no longer output power, but off by the factor `x / m`. -/
theorem C38_motor_inputs_refuted {o o' q' : VehObj K} {x m : K} (h : o.setDerived = .ok o')
    (ho : o.mcPeakEffOverride = some x) (hq : { o with mcPeakEffOverride := none }.setDerived = .ok q')
    (hm : q'.mcPeak = .ok m) :
    (∀ k : Nat, o'.mcFullEffArray[k]? = q'.mcFullEffArray[k]?.map (· * (x / m))) ∧
    o'.mcKwInArray = q'.mcKwInArray ∧ o'.mcKwOutArray = q'.mcKwOutArray ∧
    ∀ k : Nat, 1 ≤ k → ∀ e i p : K, o'.mcFullEffArray[k]? = some e →
      o'.mcKwInArray[k]? = some i → o'.mcKwOutArray[k]? = some p → e ≠ 0 → i * e = p * (x / m) := by
  have htab := (C46_motor_table hq).2.2.2.2.2 rfl
  obtain ⟨o1, fcEff, mid, map, hc, -, rfl⟩ := setDerived_curves h
  obtain ⟨p1, fcEff', mid', map', hc', -, rfl⟩ := setDerived_curves hq
  have e1 : map' = map := hc'.hmap.trans hc.hmap.symm
  subst e1
  have e2 : mid' = mid := Except.ok.inj (hc'.mc.symm.trans hc.mc)
  subst e2
  obtain ⟨-, -, a3, a4, a5, -⟩ := setVehMass_arrays o1.setOverrides
  obtain ⟨-, -, b3, b4, b5, b6, -⟩ := setVehMass_arrays p1.setOverrides
  obtain ⟨-, c2, c3, -⟩ := lenTo o1 _ _ _ _ hc
  obtain ⟨-, c2', c3', -⟩ := lenTo p1 _ _ _ _ hc'
  obtain ⟨-, d2, -⟩ := override_cases o1
  obtain ⟨-, d2', -⟩ := override_cases p1
  obtain ⟨-, g2, -, -, g5, -⟩ := curves_eff _ _ _ _ _ hc
  obtain ⟨-, g2', -, -, g5', -⟩ := curves_eff _ _ _ _ _ hc'
  have hov : o1.mcPeakEffOverride = some x := g5.trans ho
  have hov' : p1.mcPeakEffOverride = none := g5'
  simp only [hov, g2] at d2
  simp only [hov', g2'] at d2'
  have hmax : listMax (fullEff mid' map') = m := by
    unfold VehObj.mcPeak at hm
    split at hm
    · simp only [Except.ok.injEq] at hm
      rw [b3, d2'] at hm
      exact hm
    · simp at hm
  have s1 : ∀ k : Nat, o1.setOverrides.setVehMass.mcFullEffArray[k]? =
      p1.setOverrides.setVehMass.mcFullEffArray[k]?.map (· * (x / m)) := by
    intro k
    rw [a3, b3, d2, d2', scaleTo, List.getElem?_map, hmax]
  have s2 : o1.setOverrides.setVehMass.mcKwInArray = p1.setOverrides.setVehMass.mcKwInArray := by
    rw [a5, b5, c3, c3']; rfl
  have s3 : o1.setOverrides.setVehMass.mcKwOutArray = p1.setOverrides.setVehMass.mcKwOutArray := by
    rw [a4, b4, c2, c2']; rfl
  refine ⟨s1, s2, s3, fun k hk e i p h1 h2 h3 hne => ?_⟩
  rw [s1] at h1
  rw [s2] at h2
  rw [s3] at h3
  rcases hE : p1.setOverrides.setVehMass.mcFullEffArray[k]? with _ | q
  · rw [hE] at h1; simp at h1
  · rw [hE] at h1
    simp only [Option.map_some, Option.some.injEq] at h1
    have hq : q ≠ 0 := by
      rintro rfl
      rw [zero_mul] at h1
      exact hne h1.symm
    rw [← htab k hk q i p hE h2 h3 hq, ← h1]
    ring

/-- The parts of the object that `set_veh_mass` writes. -/
structure MassPart (K : Type*) where
  override : Option K
  ess : K
  mc : K
  fc : K
  fs : K
  kg : K
  trac : K

/-- Replace those parts. -/
def withMass (q : VehObj K) (p : MassPart K) : VehObj K :=
  { q with vehOverrideKg := p.override, essMassKg := p.ess, mcMassKg := p.mc, fcMassKg := p.fc
           fsMassKg := p.fs, vehKg := p.kg, maxTracMps2 := p.trac }

theorem setVehMass_withMass (q : VehObj K) : ∃ p, q.setVehMass = withMass q p := by
  unfold VehObj.setVehMass
  rcases hv : q.vehOverrideKg with _ | k
  · exact ⟨⟨_, _, _, _, _, _, _⟩, rfl⟩
  · by_cases hk : 0 < k
    · simp only [if_pos hk]
      exact ⟨⟨some k, _, _, _, _, _, _⟩, rfl⟩
    · simp only [if_neg hk]
      exact ⟨⟨_, _, _, _, _, _, _⟩, rfl⟩

theorem setCurves_withMass (q : VehObj K) (p : MassPart K) {q1 : VehObj K} (h : q.setCurves = .ok q1) :
    (withMass q p).setCurves = .ok (withMass q1 p) := by
  obtain ⟨_, _, _, hc⟩ := setCurves_spec h
  obtain ⟨hc1, hc2, hc3, rfl⟩ := hc
  subst hc2
  unfold VehObj.setCurves
  have e1 : npInterp fcPercOutArray (withMass q p).fcPwrOutPerc (withMass q p).fcEffMap =
    npInterp fcPercOutArray q.fcPwrOutPerc q.fcEffMap := rfl
  have e2 : npInterp mcPercOutArray (withMass q p).mcPwrOutPerc
      ((withMass q p).mcEffMap.getD (defaultMcEffMap (withMass q p).mcMaxKw)) =
    npInterp mcPercOutArray q.mcPwrOutPerc (q.mcEffMap.getD (defaultMcEffMap q.mcMaxKw)) := rfl
  simp only [e1, hc1, e2, hc3]
  rfl

theorem setOverrides_withMass (q : VehObj K) (p : MassPart K) :
    (withMass q p).setOverrides = withMass q.setOverrides p := by
  rcases hf : q.fcPeakEffOverride with _ | x <;> rcases hm : q.mcPeakEffOverride with _ | y <;>
  · unfold VehObj.setOverrides
    simp only [show (withMass q p).fcPeakEffOverride = q.fcPeakEffOverride from rfl, hf]
    simp only [VehObj.setFcPeak, VehObj.setMcPeak, withMass, hm]

/-- **C38 (deriving again).** Calling `set_derived` again on a built vehicle changes nothing, if no
override of the motor's peak is set. Engine map values and the engine override, if any, are assumed
non-negative and positive. -/
theorem C38_derive_again {o o' : VehObj K} (h : o.setDerived = .ok o')
    (ho : o.mcPeakEffOverride = none)
    (hf : ∀ x, o.fcPeakEffOverride = some x → 0 < x ∧ (∀ e ∈ o.fcEffMap, 0 ≤ e) ∧ 0 < o'.fcPeak) :
    o'.setDerived = .ok o' := by
  have hi := C37_inputs_kept h
  obtain ⟨ht, o1, h1, he, heq⟩ := setDerived_stages h
  obtain ⟨fcEff, mid, map, hc⟩ := setCurves_spec h1
  obtain ⟨g1, g2, g3, g4, g5, g6, g7⟩ := curves_eff _ _ _ _ _ hc
  have g4' : o1.fcPeakEffOverride = o.fcPeakEffOverride := g4
  have g5' : o1.mcPeakEffOverride = none := g5.trans ho
  -- the core object before masses
  have hpeak : ∀ x, o1.fcPeakEffOverride = some x → 0 < x ∧ 0 < o1.fcPeak := by
    intro x hx
    rw [g4'] at hx
    obtain ⟨q1, q2, q3⟩ := hf x hx
    refine ⟨q1, ?_⟩
    have hnn : ∀ e ∈ fcEff, 0 ≤ e := by
      intro e hm
      obtain ⟨n1, n2, -⟩ := npInterp_ok hc.fc
      have := npInterp_bounds hc.fc (lo := 0) (hi := listMax o.fcEffMap)
        (fun e he => ⟨q2 e he, le_listMax he⟩) e hm
      exact this.1
    have hlen : fcEff ≠ [] := by
      rw [(npInterp_ok hc.fc).2.2]; simp [fcPercOutArray]
    have h0 : 0 ≤ listMax fcEff := hnn _ (listMax_mem hlen)
    rcases h0.lt_or_eq with hlt | heq0
    · show 0 < listMax o1.fcEffArray
      rw [g1]; exact hlt
    · exfalso
      rw [heq] at q3
      unfold VehObj.fcPeak at q3
      rw [(setVehMass_arrays _).1, (override_cases o1).1, g4', hx, g1] at q3
      simp only at q3
      unfold scaleTo at q3
      rw [← heq0, div_zero, listMax_scale _ le_rfl, mul_zero] at q3
      exact lt_irrefl _ q3
  -- overrides only change the engine table
  have hover : o1.setOverrides = { o1 with fcEffArray := o1.setOverrides.fcEffArray } := by
    obtain hx | ⟨x, hx⟩ : o1.fcPeakEffOverride = none ∨ ∃ x, o1.fcPeakEffOverride = some x := by
      cases o1.fcPeakEffOverride <;> simp
    · have : o1.setOverrides = o1 := by
        unfold VehObj.setOverrides
        simp only [hx, g5']
      rw [this]
    · obtain ⟨p1, p2⟩ := hpeak x hx
      have e : o1.setOverrides = o1.setFcPeak x := by
        unfold VehObj.setOverrides
        simp only [hx, show (o1.setFcPeak x).mcPeakEffOverride = o1.mcPeakEffOverride from rfl, g5']
      rw [e]
      exact (C38_engine_peak o1 p1 p2).2.2
  obtain ⟨mp, hmp⟩ := setVehMass_withMass o1.setOverrides
  -- deriving the curves again gives the curves before the override
  have hcurves : ({ o1 with fcEffArray := o1.setOverrides.fcEffArray } : VehObj K).setSwitches.setCurves =
      .ok o1 := by
    obtain ⟨w1, w2, w3, w4⟩ := hc
    unfold VehObj.setCurves
    have e1 : npInterp fcPercOutArray
        ({ o1 with fcEffArray := o1.setOverrides.fcEffArray } : VehObj K).setSwitches.fcPwrOutPerc
        ({ o1 with fcEffArray := o1.setOverrides.fcEffArray } : VehObj K).setSwitches.fcEffMap =
        .ok fcEff := by
      rw [← w1, w4]; rfl
    have e2 : npInterp mcPercOutArray
        ({ o1 with fcEffArray := o1.setOverrides.fcEffArray } : VehObj K).setSwitches.mcPwrOutPerc
        (({ o1 with fcEffArray := o1.setOverrides.fcEffArray } : VehObj K).setSwitches.mcEffMap.getD
          (defaultMcEffMap
            ({ o1 with fcEffArray := o1.setOverrides.fcEffArray } : VehObj K).setSwitches.mcMaxKw)) =
        .ok mid := by
      rw [← w3, w4]; rfl
    rw [e1]
    simp only [e2]
    rw [w4]
    rfl
  have htype : o'.typeOk = true := by
    rw [← ht]
    unfold VehObj.typeOk
    rw [hi.ptType, hi.template, hi.stopStart, hi.fsMaxKw, hi.fsKwh, hi.fcMaxKw, hi.mcMaxKw,
      hi.essMaxKw, hi.essMaxKwh]
  have hsw : o'.setSwitches.setCurves = .ok (withMass o1 mp) := by
    have e : o'.setSwitches =
        withMass ({ o1 with fcEffArray := o1.setOverrides.fcEffArray } : VehObj K).setSwitches mp := by
      rw [heq, hmp, hover]; rfl
    rw [e]
    exact setCurves_withMass _ mp hcurves
  have hov2 : (withMass o1 mp).setOverrides = o' := by
    rw [setOverrides_withMass, ← hmp, ← heq]
  unfold VehObj.setDerived
  rw [htype]
  simp only [if_true, hsw, hov2]
  have hok : o'.effOk = true := by
    rw [← he, heq, hmp]; rfl
  rw [hok]
  simp only [if_true]
  rw [heq, C37_mass_again]

/-- **C38 (setting is lost).** An engine peak set on a built vehicle is forgotten when the vehicle is
derived again, since it is not recorded in the map: the result is the vehicle as it was. -/
theorem C38_engine_setting_lost {o o' : VehObj K} (h : o.setDerived = .ok o')
    (ho : o.mcPeakEffOverride = none) (hof : o.fcPeakEffOverride = none) {x : K} (hx : 0 < x)
    (hp : 0 < o'.fcPeak) : (o'.setFcPeak x).setDerived = .ok o' := by
  have h2 := C38_derive_again h ho (by rw [hof]; simp)
  rw [(C38_engine_peak o' hx hp).2.2, ← h2]
  generalize (o'.setFcPeak x).fcEffArray = arr
  have : ({ o' with fcEffArray := arr } : VehObj K).setSwitches.setCurves = o'.setSwitches.setCurves := by
    unfold VehObj.setCurves
    rfl
  unfold VehObj.setDerived
  rw [this]
  rfl

end Field

/-! ### The hypotheses are met, and the refutations are real -/

/-- The demo hybrid has positive peaks, so that they can be set. -/
theorem demo_peaks :
    (match Demo.hevObj.setDerived with
      | .ok o' => decide (o'.fcPeak = 36 / 100 ∧ o'.mcPeak = .ok (93/100 + 2/100 * (17/27)) ∧
          (o'.setFcPeak (1/2)).fcPeak = 1 / 2 ∧ (o'.setFcPeak (1/2)).fcEffMap = o'.fcEffMap ∧
          (o'.setMcPeak (3/5)).mcPeak = .ok (3 / 5))
      | .error _ => false) = true := by decide +kernel

/-- With an override of the motor's peak, building works, but deriving again changes the input
powers of the motor. -/
theorem demo_motor_override_unstable :
    (match { Demo.hevObj with mcPeakEffOverride := some (3 / 5) }.setDerived with
      | .ok o' => (match o'.setDerived with
        | .ok o'' => decide (o''.mcFullEffArray = o'.mcFullEffArray ∧ o''.mcKwInArray ≠ o'.mcKwInArray)
        | .error _ => false)
      | .error _ => false) = true := by decide +kernel

/-- Engine override: the peak is as asked for. -/
theorem demo_engine_override :
    (match { Demo.hevObj with fcPeakEffOverride := some (1 / 2) }.setDerived with
      | .ok o' => decide (o'.fcPeak = 1 / 2 ∧ o'.setDerived.isOk = true)
      | .error _ => false) = true := by decide +kernel

example : ∀ e ∈ Demo.hevObj.fcEffMap, 0 < e := by decide +kernel

example : ∀ e ∈ Demo.hevObj.mcEffMap.getD (defaultMcEffMap Demo.hevObj.mcMaxKw), 0 < e := by
  intro e he
  have := ((C46_default_map Demo.hevObj.mcMaxKw).1 e he).1
  linarith


end Fastsim.Props
