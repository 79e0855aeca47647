import Verif.Props.RustCabin

/-!
# C105: heat of exhaust port and catalyst, whole drives, soaking
-/

set_option linter.unusedSectionVars false

namespace Fastsim.Spec
open Fastsim

section Lawless
variable {K : Type*} [Zero K] [One K] [NatCast K] [Add K] [Sub K] [Mul K] [Div K] [Neg K] [LinearOrder K]

/-- The heat that the engine stores in step `i`, as recorded. -/
def engineGain (h f : Hot K) (i : Nat) : K :=
  match f.history[h.history.length + i]? with
  | some s => (s.fcQdotKw - s.fcQdotToAmbKw - s.fcQdotToHtrKw) * stepDt f i
  | none => 0

/-- The heat that the cabin stores in step `i`, as recorded. -/
def cabinGain (h f : Hot K) (i : Nat) : K :=
  match f.history[h.history.length + i]? with
  | some s => (s.cabQdotFromHvacKw - s.cabQdotToAmbKw) * stepDt f i
  | none => 0

/-- Equal but for the efficiency coefficient. -/
def SameHeat (a b : Thermal K) : Prop := a = { b with fcEtaTempCoeff := a.fcEtaTempCoeff }

end Lawless
end Fastsim.Spec

namespace Fastsim.Props
open Fastsim Spec

section Field
variable {K : Type*} [Field K] [LinearOrder K] [IsStrictOrderedRing K]
variable {F : Fns K} {C : HotConsts K} {T : VehThrm K} {V : Veh K} {P : SimParams K}

theorem setCat_exh (E : HotEnv K) (s : Thermal K) : (setCatThermal F C T E s).exhMdot = s.exhMdot ∧
    (setCatThermal F C T E s).exhHdotKw = s.exhHdotKw ∧ (setCatThermal F C T E s).exhportExhTeIn = s.exhportExhTeIn ∧
    (setCatThermal F C T E s).exhportQdotToAmb = s.exhportQdotToAmb ∧
    (setCatThermal F C T E s).exhportQdotFromExh = s.exhportQdotFromExh ∧
    (setCatThermal F C T E s).exhportQdotNet = s.exhportQdotNet ∧ (setCatThermal F C T E s).exhportTe = s.exhportTe := by
  unfold setCatThermal catHtc
  by_cases hm : E.mps < 1 <;> simp [hm]

/-- What a step leaves to exhaust port and catalyst: `x` before and `y` after the exhaust port. -/
theorem Steps.exhaust {h f : Hot K} {soc : K} {aux : Option (List K)} {i : Nat} {s s' : Thermal K}
    (w : Walks F C T V P h soc aux f) (st : Steps h f i s s') : ∃ x y : Thermal K,
      y = (if T.exhportInternal then setExhportThermal C T (hotEnv V { f.sd with i := i }) x else x) ∧
      x.fcTe = s.fcTe ∧ x.fcLambda = s.fcLambda ∧ x.fcQdotPerNetHeat = s'.fcQdotPerNetHeat ∧
      x.fcTeAdiabatic = s'.fcTeAdiabatic ∧ x.ambTe = s'.ambTe ∧
      x.exhMdot = s.exhMdot ∧ x.exhHdotKw = s.exhHdotKw ∧ x.exhportExhTeIn = s.exhportExhTeIn ∧ x.exhportTe = s.exhportTe ∧
      x.exhportQdotFromExh = s.exhportQdotFromExh ∧ x.catTe = s.catTe ∧ x.catHtcToAmb = s.catHtcToAmb ∧
      x.catExhTeIn = s.catExhTeIn ∧
      s'.exhMdot = y.exhMdot ∧ s'.exhHdotKw = y.exhHdotKw ∧ s'.exhportExhTeIn = y.exhportExhTeIn ∧
      s'.exhportQdotToAmb = y.exhportQdotToAmb ∧ s'.exhportQdotFromExh = y.exhportQdotFromExh ∧
      s'.exhportQdotNet = y.exhportQdotNet ∧ s'.exhportTe = y.exhportTe ∧
      y.catTe = s.catTe ∧ y.catHtcToAmb = s.catHtcToAmb ∧ y.catExhTeIn = s.catExhTeIn ∧ y.ambTe = s'.ambTe ∧
      y.fcTeAdiabatic = s'.fcTeAdiabatic ∧
      (∀ π : Thermal K → K, (∀ t (a b : K), π { t with fcTe := a, fcEtaTempCoeff := b } = π t) →
        π s' = π (if T.catInternal then setCatThermal F C T (hotEnv V { f.sd with i := i }) y else y)) := by
  obtain ⟨g, g', amb, s1, s2, s3, -, -, b1, c1, c2, c3, c4⟩ := Steps.parts w st
  have e0 := withAmb_frame amb s
  have e1 := afterEngine_frame c1
  have e2 := (afterCabin_frame c2).1
  have e3 := fcBalance_frame (T := T) (hotEnv V { f.sd with i := i }) s3
  have p : ∀ π : Thermal K → K, (∀ t (a b : K), π { t with fcTe := a, fcEtaTempCoeff := b } = π t) → π s' = π s3 := by
    intro π hπ
    rw [c4, e3]
    exact hπ s3 _ _
  obtain ⟨x, hx, f1, f2, f3, f4, f5, f6, f7, f8, f9, f10, f11, f12, f13, f14, -, -⟩ :=
    afterExhaust_frame (F := F) (C := C) (T := T) (hotEnv V { f.sd with i := i }) s2
  rw [← c3] at hx
  subst hx
  have z : ∀ π : Thermal K → K, (∀ t (a b c d e k l m n o q r : K), π { t with
      ambTe := a, fcTeAdiabatic := b, fcQdotPerNetHeat := c, fcQdotKw := d, fcHtcToAmb := e, fcQdotToAmbKw := k
      cabTe := l, cabPrevTe := m, cabQdotToAmbKw := n, cabQdotFromHvacKw := o, cabHvacPwrAuxKw := q, fcQdotToHtrKw := r } = π t) →
      π s2 = π s := by
    intro π hπ
    rw [e2, e1, e0]
    exact hπ s _ _ _ _ _ _ _ _ _ _ _ _
  generalize hy : (if T.exhportInternal then setExhportThermal C T (hotEnv V { f.sd with i := i }) s2 else s2) = y
  have c5 : x = if T.catInternal then setCatThermal F C T (hotEnv V { f.sd with i := i }) y else y := by
    rw [c3, ← hy]; rfl
  obtain ⟨k1, k2, k3, k4, k5, k6, k7⟩ := setCat_exh (F := F) (C := C) (T := T) (hotEnv V { f.sd with i := i }) y
  have t : ∀ π : Thermal K → K, π (setCatThermal F C T (hotEnv V { f.sd with i := i }) y) = π y → π x = π y := by
    intro π hπ
    rw [c5]
    split
    · exact hπ
    · rfl
  have u : ∀ π : Thermal K → K, (∀ t (a b c d e k l : K), π { t with
      exhMdot := a, exhHdotKw := b, exhportExhTeIn := c, exhportQdotToAmb := d, exhportQdotFromExh := e, exhportQdotNet := k
      exhportTe := l } = π t) → π y = π s2 := by
    intro π hπ
    rw [← hy]
    split
    · exact hπ s2 _ _ _ _ _ _ _
    · rfl
  refine ⟨s2, y, hy.symm, z Thermal.fcTe (fun _ _ _ _ _ _ _ _ _ _ _ _ _ => rfl), z Thermal.fcLambda (fun _ _ _ _ _ _ _ _ _ _ _ _ _ => rfl),
    ?_, ?_, ?_, z Thermal.exhMdot (fun _ _ _ _ _ _ _ _ _ _ _ _ _ => rfl), z Thermal.exhHdotKw (fun _ _ _ _ _ _ _ _ _ _ _ _ _ => rfl),
    z Thermal.exhportExhTeIn (fun _ _ _ _ _ _ _ _ _ _ _ _ _ => rfl), z Thermal.exhportTe (fun _ _ _ _ _ _ _ _ _ _ _ _ _ => rfl),
    z Thermal.exhportQdotFromExh (fun _ _ _ _ _ _ _ _ _ _ _ _ _ => rfl), z Thermal.catTe (fun _ _ _ _ _ _ _ _ _ _ _ _ _ => rfl),
    z Thermal.catHtcToAmb (fun _ _ _ _ _ _ _ _ _ _ _ _ _ => rfl), z Thermal.catExhTeIn (fun _ _ _ _ _ _ _ _ _ _ _ _ _ => rfl),
    ?_, ?_, ?_, ?_, ?_, ?_, ?_, ?_, ?_, ?_, ?_, ?_, ?_⟩
  · rw [p Thermal.fcQdotPerNetHeat fun _ _ _ => rfl, f3]
  · rw [p Thermal.fcTeAdiabatic fun _ _ _ => rfl, f8]
  · rw [p Thermal.ambTe fun _ _ _ => rfl, f14]
  · rw [p Thermal.exhMdot fun _ _ _ => rfl, t Thermal.exhMdot k1]
  · rw [p Thermal.exhHdotKw fun _ _ _ => rfl, t Thermal.exhHdotKw k2]
  · rw [p Thermal.exhportExhTeIn fun _ _ _ => rfl, t Thermal.exhportExhTeIn k3]
  · rw [p Thermal.exhportQdotToAmb fun _ _ _ => rfl, t Thermal.exhportQdotToAmb k4]
  · rw [p Thermal.exhportQdotFromExh fun _ _ _ => rfl, t Thermal.exhportQdotFromExh k5]
  · rw [p Thermal.exhportQdotNet fun _ _ _ => rfl, t Thermal.exhportQdotNet k6]
  · rw [p Thermal.exhportTe fun _ _ _ => rfl, t Thermal.exhportTe k7]
  · rw [u Thermal.catTe fun _ _ _ _ _ _ _ _ => rfl, z Thermal.catTe (fun _ _ _ _ _ _ _ _ _ _ _ _ _ => rfl)]
  · rw [u Thermal.catHtcToAmb fun _ _ _ _ _ _ _ _ => rfl, z Thermal.catHtcToAmb (fun _ _ _ _ _ _ _ _ _ _ _ _ _ => rfl)]
  · rw [u Thermal.catExhTeIn fun _ _ _ _ _ _ _ _ => rfl, z Thermal.catExhTeIn (fun _ _ _ _ _ _ _ _ _ _ _ _ _ => rfl)]
  · rw [u Thermal.ambTe fun _ _ _ _ _ _ _ _ => rfl, p Thermal.ambTe fun _ _ _ => rfl, f14]
  · rw [u Thermal.fcTeAdiabatic fun _ _ _ _ _ _ _ _ => rfl, p Thermal.fcTeAdiabatic fun _ _ _ => rfl, f8]
  · intro π hπ
    rw [p π hπ, c5]

/-- **C105 (the exhaust).** With an exhaust model, the exhaust carries the mass of fuel and air of the step before and all the heat
of combustion that the engine does not keep. It is as hot as air with that enthalpy, but no hotter than the flame; while almost
nothing flows it keeps its temperature. -/
theorem C105_exhaust {h f : Hot K} {soc : K} {aux : Option (List K)} {i : Nat} {s s' : Thermal K}
    (w : Walks F C T V P h soc aux f) (st : Steps h f i s s') (hx : T.exhportInternal = true) :
    s'.exhMdot = (lastRow f i).fc.fsKwOutAch / fuelLhv C * (1 + C.fuelAfrStoich * s.fcLambda) ∧
    (T.fcModel ≠ none → s'.fcQdotKw + s'.exhHdotKw = (lastRow f i).fc.fcKwInAch - (lastRow f i).fc.fcKwOutAch) ∧
    (1 / 2000 < s'.exhMdot →
      s'.exhportExhTeIn = min (airAt airH airTe (1000 * s'.exhHdotKw / s'.exhMdot)) s'.fcTeAdiabatic) ∧
    (s'.exhMdot ≤ 1 / 2000 → s'.exhportExhTeIn = s.exhportExhTeIn) := by
  obtain ⟨x, y, hy, x1, x2, x3, x4, x5, x6, x7, x8, x9, x10, x11, x12, x13, y1, y2, y3, -⟩ := Steps.exhaust w st
  rw [if_pos hx] at hy
  have hd : (dec 5 10000 : K) = 1 / 2000 := by unfold dec; norm_num
  have m1 : s'.exhMdot = (lastRow f i).fc.fsKwOutAch / fuelLhv C * (1 + C.fuelAfrStoich * s.fcLambda) := by
    rw [y1, hy, ← x2]; rfl
  have m2 : s'.exhHdotKw = (1 - s'.fcQdotPerNetHeat) * ((lastRow f i).fc.fcKwInAch - (lastRow f i).fc.fcKwOutAch) := by
    rw [y2, hy, ← x3]; rfl
  have m3 : s'.exhportExhTeIn = if dec 5 10000 < s'.exhMdot then
      min (airAt airH airTe (s'.exhHdotKw * 1000 / s'.exhMdot)) s'.fcTeAdiabatic else s.exhportExhTeIn := by
    rw [y3, y1, y2, hy, ← x4, ← x8]; rfl
  refine ⟨m1, fun hT => ?_, fun h => ?_, fun h => ?_⟩
  · rw [m2, (C105_combustion w st hT).2.2.1]
    ring
  · rw [m3, hd, if_pos h, mul_comm]
  · rw [m3, hd, if_neg (not_lt.2 h)]

theorem exhport_eq {h f : Hot K} {soc : K} {aux : Option (List K)} {i : Nat} {s s' : Thermal K}
    (w : Walks F C T V P h soc aux f) (st : Steps h f i s s') (hx : T.exhportInternal = true) :
    s'.exhportTe = s.exhportTe + (s'.exhportQdotFromExh - s'.exhportQdotToAmb) / (T.exhportCKjK * 1000) * stepDt f i ∧
    s'.exhportQdotNet = s'.exhportQdotFromExh - s'.exhportQdotToAmb ∧
    s'.exhportQdotToAmb = (if 0 < s.exhportTe - s.fcTe then
        min (T.exhportHaToAmb * (s.exhportTe - s.fcTe)) (T.exhportCKjK * 1000 * (s.exhportTe - s.fcTe) / stepDt f i)
      else max (T.exhportHaToAmb * (s.exhportTe - s.fcTe)) (T.exhportCKjK * 1000 * (s.exhportTe - s.fcTe) / stepDt f i)) ∧
    s'.exhportQdotFromExh = (if 0 < s'.exhportExhTeIn - s.exhportTe then
        rsArrMin [T.exhportHaInt * (s'.exhportExhTeIn - s.exhportTe),
          s'.exhMdot * (airAt airTe airH s'.exhportExhTeIn - airAt airTe airH s.exhportTe),
          T.exhportCKjK * 1000 * (s'.exhportExhTeIn - s.exhportTe) / stepDt f i]
      else rsArrMax [T.exhportHaInt * (s'.exhportExhTeIn - s.exhportTe),
          s'.exhMdot * (airAt airTe airH s'.exhportExhTeIn - airAt airTe airH s.exhportTe),
          T.exhportCKjK * 1000 * (s'.exhportExhTeIn - s.exhportTe) / stepDt f i]) := by
  obtain ⟨x, y, hy, x1, x2, x3, x4, x5, x6, x7, x8, x9, x10, x11, x12, x13, y1, y2, y3, y4, y5, y6, y7, -⟩ := Steps.exhaust w st
  rw [if_pos hx] at hy
  refine ⟨?_, ?_, ?_, ?_⟩
  · rw [y7, y5, y4, hy, ← x9]; rfl
  · rw [y6, y5, y4, hy]; rfl
  · rw [y4, hy, ← x9, ← x1]; rfl
  · rw [y5, y3, y1, hy, ← x9]; rfl

/-- A flow limited by what it would change: it goes with the difference `d`, no further than `m·d`. -/
theorem capped {n m d : K} (h : 0 ≤ d → 0 ≤ n) (h' : d ≤ 0 → n ≤ 0) (hm : 0 ≤ m) :
    (0 ≤ d → 0 ≤ (if 0 < d then min n (m * d) else max n (m * d)) ∧ (if 0 < d then min n (m * d) else max n (m * d)) ≤ m * d) ∧
    (d ≤ 0 → m * d ≤ (if 0 < d then min n (m * d) else max n (m * d)) ∧ (if 0 < d then min n (m * d) else max n (m * d)) ≤ 0) := by
  constructor
  · intro h0
    rcases lt_or_eq_of_le h0 with h1 | h1
    · rw [if_pos h1]
      exact ⟨le_min (h h0) (mul_nonneg hm h0), min_le_right _ _⟩
    · subst h1
      have : n = 0 := le_antisymm (h' le_rfl) (h le_rfl)
      simp [this]
  · intro h0
    rw [if_neg (not_lt.2 h0)]
    exact ⟨le_max_right _ _, max_le (h' h0) (mul_nonpos_of_nonneg_of_nonpos hm h0)⟩

/-- **C105 (the exhaust port).** The port stores what the exhaust gives less what it gives to the engine compartment. Each of the two
flows goes from hot to cold and alone would not overshoot. So a port between engine and exhaust temperature stays between them. -/
theorem C105_port {h f : Hot K} {soc : K} {aux : Option (List K)} {i : Nat} {s s' : Thermal K}
    (w : Walks F C T V P h soc aux f) (st : Steps h f i s s') (hx : T.exhportInternal = true) (hc : 0 < T.exhportCKjK)
    (hdt : 0 < stepDt f i) (h1 : 0 ≤ T.exhportHaToAmb) (h2 : 0 ≤ T.exhportHaInt) (h3 : 0 ≤ s'.exhMdot) :
    T.exhportCKjK * 1000 * (s'.exhportTe - s.exhportTe) = s'.exhportQdotNet * stepDt f i ∧
    s'.exhportQdotNet = s'.exhportQdotFromExh - s'.exhportQdotToAmb ∧
    (s.fcTe ≤ s.exhportTe → 0 ≤ s'.exhportQdotToAmb ∧
      s'.exhportQdotToAmb * stepDt f i ≤ T.exhportCKjK * 1000 * (s.exhportTe - s.fcTe)) ∧
    (s.exhportTe ≤ s.fcTe → s'.exhportQdotToAmb ≤ 0 ∧
      T.exhportCKjK * 1000 * (s.exhportTe - s.fcTe) ≤ s'.exhportQdotToAmb * stepDt f i) ∧
    (s.exhportTe ≤ s'.exhportExhTeIn → 0 ≤ s'.exhportQdotFromExh ∧
      s'.exhportQdotFromExh * stepDt f i ≤ T.exhportCKjK * 1000 * (s'.exhportExhTeIn - s.exhportTe)) ∧
    (s'.exhportExhTeIn ≤ s.exhportTe → s'.exhportQdotFromExh ≤ 0 ∧
      T.exhportCKjK * 1000 * (s'.exhportExhTeIn - s.exhportTe) ≤ s'.exhportQdotFromExh * stepDt f i) ∧
    (s.fcTe ≤ s.exhportTe → s.exhportTe ≤ s'.exhportExhTeIn → s.fcTe ≤ s'.exhportTe ∧ s'.exhportTe ≤ s'.exhportExhTeIn) ∧
    (s'.exhportExhTeIn ≤ s.exhportTe → s.exhportTe ≤ s.fcTe → s'.exhportExhTeIn ≤ s'.exhportTe ∧ s'.exhportTe ≤ s.fcTe) := by
  obtain ⟨e1, e2, e3, e4⟩ := exhport_eq w st hx
  have hm : 0 ≤ T.exhportCKjK * 1000 / stepDt f i := div_nonneg (by linarith) hdt.le
  have sw : ∀ d : K, T.exhportCKjK * 1000 * d / stepDt f i = T.exhportCKjK * 1000 / stepDt f i * d := fun d => by ring
  have bal : T.exhportCKjK * 1000 * (s'.exhportTe - s.exhportTe) = s'.exhportQdotNet * stepDt f i := by
    rw [e1, add_sub_cancel_left, e2]
    field_simp
  have unsw : ∀ d : K, T.exhportCKjK * 1000 / stepDt f i * d * stepDt f i = T.exhportCKjK * 1000 * d := fun d => by
    field_simp
  have t1 := capped (n := T.exhportHaToAmb * (s.exhportTe - s.fcTe)) (d := s.exhportTe - s.fcTe) (mul_nonneg h1)
    (mul_nonpos_of_nonneg_of_nonpos h1) hm
  rw [← sw, ← e3, sw] at t1
  have e5 : s'.exhportQdotFromExh = if 0 < s'.exhportExhTeIn - s.exhportTe then
        min (min (T.exhportHaInt * (s'.exhportExhTeIn - s.exhportTe))
          (s'.exhMdot * (airAt airTe airH s'.exhportExhTeIn - airAt airTe airH s.exhportTe)))
          (T.exhportCKjK * 1000 / stepDt f i * (s'.exhportExhTeIn - s.exhportTe))
      else max (max (T.exhportHaInt * (s'.exhportExhTeIn - s.exhportTe))
          (s'.exhMdot * (airAt airTe airH s'.exhportExhTeIn - airAt airTe airH s.exhportTe)))
          (T.exhportCKjK * 1000 / stepDt f i * (s'.exhportExhTeIn - s.exhportTe)) := by
    rw [e4, sw]; rfl
  have p1 : 0 ≤ s'.exhportExhTeIn - s.exhportTe →
      0 ≤ s'.exhMdot * (airAt airTe airH s'.exhportExhTeIn - airAt airTe airH s.exhportTe) := fun h =>
    mul_nonneg h3 (sub_nonneg.2 (C105_air (sub_nonneg.1 h)).1)
  have p2 : s'.exhportExhTeIn - s.exhportTe ≤ 0 →
      s'.exhMdot * (airAt airTe airH s'.exhportExhTeIn - airAt airTe airH s.exhportTe) ≤ 0 := fun h =>
    mul_nonpos_of_nonneg_of_nonpos h3 (sub_nonpos.2 (C105_air (sub_nonpos.1 h)).1)
  have t2 : (0 ≤ s'.exhportExhTeIn - s.exhportTe → 0 ≤ s'.exhportQdotFromExh ∧ s'.exhportQdotFromExh ≤
        T.exhportCKjK * 1000 / stepDt f i * (s'.exhportExhTeIn - s.exhportTe)) ∧
      (s'.exhportExhTeIn - s.exhportTe ≤ 0 → T.exhportCKjK * 1000 / stepDt f i * (s'.exhportExhTeIn - s.exhportTe) ≤
        s'.exhportQdotFromExh ∧ s'.exhportQdotFromExh ≤ 0) := by
    constructor
    · intro h0
      rcases lt_or_eq_of_le h0 with h | h
      · rw [e5, if_pos h]
        exact ⟨le_min (le_min (mul_nonneg h2 h0) (p1 h0)) (mul_nonneg hm h0), min_le_right _ _⟩
      · have z := le_antisymm (p2 h.ge) (p1 h.le)
        rw [e5, if_neg (by rw [← h]; exact lt_irrefl _), z, ← h]
        simp
    · intro h0
      rw [e5, if_neg (not_lt.2 h0)]
      exact ⟨le_max_right _ _, max_le (max_le (mul_nonpos_of_nonneg_of_nonpos h2 h0) (p2 h0))
        (mul_nonpos_of_nonneg_of_nonpos hm h0)⟩
  have up : ∀ {q d : K}, q ≤ T.exhportCKjK * 1000 / stepDt f i * d → q * stepDt f i ≤ T.exhportCKjK * 1000 * d := by
    intro q d h
    have := mul_le_mul_of_nonneg_right h hdt.le
    rwa [unsw] at this
  have dn : ∀ {q d : K}, T.exhportCKjK * 1000 / stepDt f i * d ≤ q → T.exhportCKjK * 1000 * d ≤ q * stepDt f i := by
    intro q d h
    have := mul_le_mul_of_nonneg_right h hdt.le
    rwa [unsw] at this
  have a1 : s.fcTe ≤ s.exhportTe → 0 ≤ s'.exhportQdotToAmb ∧
      s'.exhportQdotToAmb * stepDt f i ≤ T.exhportCKjK * 1000 * (s.exhportTe - s.fcTe) := fun h =>
    ⟨(t1.1 (sub_nonneg.2 h)).1, up (t1.1 (sub_nonneg.2 h)).2⟩
  have a2 : s.exhportTe ≤ s.fcTe → s'.exhportQdotToAmb ≤ 0 ∧
      T.exhportCKjK * 1000 * (s.exhportTe - s.fcTe) ≤ s'.exhportQdotToAmb * stepDt f i := fun h =>
    ⟨(t1.2 (sub_nonpos.2 h)).2, dn (t1.2 (sub_nonpos.2 h)).1⟩
  have a3 : s.exhportTe ≤ s'.exhportExhTeIn → 0 ≤ s'.exhportQdotFromExh ∧
      s'.exhportQdotFromExh * stepDt f i ≤ T.exhportCKjK * 1000 * (s'.exhportExhTeIn - s.exhportTe) := fun h =>
    ⟨(t2.1 (sub_nonneg.2 h)).1, up (t2.1 (sub_nonneg.2 h)).2⟩
  have a4 : s'.exhportExhTeIn ≤ s.exhportTe → s'.exhportQdotFromExh ≤ 0 ∧
      T.exhportCKjK * 1000 * (s'.exhportExhTeIn - s.exhportTe) ≤ s'.exhportQdotFromExh * stepDt f i := fun h =>
    ⟨(t2.2 (sub_nonpos.2 h)).2, dn (t2.2 (sub_nonpos.2 h)).1⟩
  have fin : ∀ {z : K}, T.exhportCKjK * 1000 * 0 ≤ T.exhportCKjK * 1000 * z → 0 ≤ z := by
    intro z hz
    rw [mul_zero] at hz
    exact nonneg_of_mul_nonneg_right hz (by linarith)
  refine ⟨bal, e2, a1, a2, a3, a4, fun g1 g2 => ?_, fun g1 g2 => ?_⟩
  · obtain ⟨b1, b2⟩ := a1 g1
    obtain ⟨b3, b4⟩ := a3 g2
    have n1 := mul_nonneg b1 hdt.le
    have n2 := mul_nonneg b3 hdt.le
    rw [e2] at bal
    constructor
    · refine sub_nonneg.1 (fin ?_)
      linarith
    · refine sub_nonneg.1 (fin ?_)
      linarith
  · obtain ⟨b1, b2⟩ := a2 g2
    obtain ⟨b3, b4⟩ := a4 g1
    have n1 := mul_nonneg (neg_nonneg.2 b1) hdt.le
    have n2 := mul_nonneg (neg_nonneg.2 b3) hdt.le
    rw [e2] at bal
    constructor
    · refine sub_nonneg.1 (fin ?_)
      linarith
    · refine sub_nonneg.1 (fin ?_)
      linarith

theorem cat_eq {h f : Hot K} {soc : K} {aux : Option (List K)} {i : Nat} {s s' : Thermal K}
    (w : Walks F C T V P h soc aux f) (st : Steps h f i s s') (hx : T.catInternal = true) :
    s'.catHtcToAmb = (if (lastRow f i).ach.mpsAch < 1 then T.catHtcToAmbStop else s.catHtcToAmb) ∧
    s'.catQdotToAmb = (if 0 < s.catTe - s'.ambTe then
        min (s'.catHtcToAmb * (C.pi * F.pow T.catL (2 / 4)) * (s.catTe - s'.ambTe)) (T.catCKjK * 1000 * (s.catTe - s'.ambTe) / stepDt f i)
      else max (s'.catHtcToAmb * (C.pi * F.pow T.catL (2 / 4)) * (s.catTe - s'.ambTe))
        (T.catCKjK * 1000 * (s.catTe - s'.ambTe) / stepDt f i)) ∧
    s'.catExhTeIn = (if dec 5 10000 < s'.exhMdot then
      min (airAt airH airTe ((s'.exhHdotKw * 1000 - s'.exhportQdotFromExh) / s'.exhMdot)) s'.fcTeAdiabatic else s.catExhTeIn) ∧
    s'.catQdotFromExh = (if 0 < s'.catExhTeIn - s.catTe then
        min (s'.exhMdot * (airAt airTe airH s'.catExhTeIn - airAt airTe airH s.catTe))
          (T.cabCKjK * 1000 * (s'.catExhTeIn - s.catTe) / stepDt f i)
      else max (s'.exhMdot * (airAt airTe airH s'.catExhTeIn - airAt airTe airH s.catTe))
          (T.catCKjK * 1000 * (s'.catExhTeIn - s.catTe) / stepDt f i)) ∧
    s'.catQdotNet = s'.catQdotFromExh - s'.catQdotToAmb ∧ s'.catQdot = 0 ∧
    s'.catTe = s.catTe + s'.catQdotNet / 1000 / T.catCKjK * stepDt f i := by
  obtain ⟨x, y, -, -, -, -, -, -, -, -, -, -, -, -, -, -, y1, y2, y3, y4, y5, y6, y7, y8, y9, y10, y11, y12, z⟩ :=
    Steps.exhaust w st
  rw [if_pos hx] at z
  have hm : (hotEnv V { f.sd with i := i }).mps = (lastRow f i).ach.mpsAch := rfl
  have h1 : s'.catHtcToAmb = (if (lastRow f i).ach.mpsAch < 1 then T.catHtcToAmbStop else s.catHtcToAmb) := by
    rw [z Thermal.catHtcToAmb fun _ _ _ => rfl, ← y9]
    unfold setCatThermal catHtc
    simp only
    rw [hm]
    split <;> rfl
  have k : ∀ (E : HotEnv K), (catHtc F T E y).catTe = y.catTe ∧ (catHtc F T E y).ambTe = y.ambTe ∧
      (catHtc F T E y).exhMdot = y.exhMdot ∧ (catHtc F T E y).exhHdotKw = y.exhHdotKw ∧
      (catHtc F T E y).exhportQdotFromExh = y.exhportQdotFromExh ∧ (catHtc F T E y).fcTeAdiabatic = y.fcTeAdiabatic ∧
      (catHtc F T E y).catExhTeIn = y.catExhTeIn := by
    intro E
    unfold catHtc
    simp only
    split <;> simp
  obtain ⟨k1, k2, k3, k4, k5, k6, k7⟩ := k (hotEnv V { f.sd with i := i })
  have c1 : (catHtc F T (hotEnv V { f.sd with i := i }) y).catHtcToAmb = s'.catHtcToAmb := by
    rw [z Thermal.catHtcToAmb fun _ _ _ => rfl]; rfl
  have h2 : s'.catQdotToAmb = catQdotToAmb F C T (hotEnv V { f.sd with i := i }) (catHtc F T (hotEnv V { f.sd with i := i }) y) := by
    rw [z Thermal.catQdotToAmb fun _ _ _ => rfl]; rfl
  have h3 : s'.catExhTeIn = catExhTeIn (catHtc F T (hotEnv V { f.sd with i := i }) y) := by
    rw [z Thermal.catExhTeIn fun _ _ _ => rfl]; rfl
  have h4 : s'.catQdotFromExh = (if 0 < s'.catExhTeIn - s.catTe then
        min (s'.exhMdot * (airAt airTe airH s'.catExhTeIn - airAt airTe airH s.catTe))
          (T.cabCKjK * 1000 * (s'.catExhTeIn - s.catTe) / stepDt f i)
      else max (s'.exhMdot * (airAt airTe airH s'.catExhTeIn - airAt airTe airH s.catTe))
          (T.catCKjK * 1000 * (s'.catExhTeIn - s.catTe) / stepDt f i)) := by
    rw [z Thermal.catQdotFromExh fun _ _ _ => rfl, h3]
    unfold setCatThermal catQdotFromExh
    simp only [k1, k3]
    rw [y8, ← y1]
    rfl
  have h5 : s'.catQdotNet = s'.catQdotFromExh - s'.catQdotToAmb := by
    rw [z Thermal.catQdotNet fun _ _ _ => rfl, z Thermal.catQdotFromExh fun _ _ _ => rfl, z Thermal.catQdotToAmb fun _ _ _ => rfl]
    unfold setCatThermal
    simp only
    rw [zero_add]
  refine ⟨h1, ?_, ?_, h4, h5, z Thermal.catQdot fun _ _ _ => rfl, ?_⟩
  · rw [h2]
    unfold catQdotToAmb
    simp only
    rw [c1, k1, k2, y8, y11]
    rfl
  · rw [h3]
    unfold catExhTeIn
    rw [k3, k4, k5, k6, k7, ← y1, ← y2, ← y5, y10, y12]
  · rw [z Thermal.catTe fun _ _ _ => rfl, z Thermal.catQdotNet fun _ _ _ => rfl]
    unfold setCatThermal
    simp only [k1]
    rw [y8]
    have : (dec 1 1000 : K) = 1 / 1000 := by unfold dec; norm_num
    rw [this]
    have : (hotEnv V { f.sd with i := i }).dt = stepDt f i := rfl
    rw [this]
    ring

/-- **C105 (the catalyst).** The catalyst stores what the exhaust gives less what it gives to the air. The flow to the air goes from
hot to cold and alone would not overshoot; so does the flow from the exhaust, if the catalyst has at least the thermal mass of the
*cabin*, by which the code limits it (`C105_catalyst_demo` shows what happens to a light catalyst otherwise). Then a
catalyst between ambient and exhaust temperature stays between them. -/
theorem C105_catalyst {h f : Hot K} {soc : K} {aux : Option (List K)} {i : Nat} {s s' : Thermal K}
    (w : Walks F C T V P h soc aux f) (st : Steps h f i s s') (hx : T.catInternal = true) (hc : 0 < T.catCKjK)
    (hdt : 0 < stepDt f i) (h1 : 0 ≤ s'.catHtcToAmb * (C.pi * F.pow T.catL (2 / 4))) (h3 : 0 ≤ s'.exhMdot) :
    T.catCKjK * 1000 * (s'.catTe - s.catTe) = (s'.catQdotFromExh - s'.catQdotToAmb) * stepDt f i ∧
    (s'.ambTe ≤ s.catTe → 0 ≤ s'.catQdotToAmb ∧ s'.catQdotToAmb * stepDt f i ≤ T.catCKjK * 1000 * (s.catTe - s'.ambTe)) ∧
    (s.catTe ≤ s'.ambTe → s'.catQdotToAmb ≤ 0 ∧ T.catCKjK * 1000 * (s.catTe - s'.ambTe) ≤ s'.catQdotToAmb * stepDt f i) ∧
    (s'.catExhTeIn ≤ s.catTe → s'.catQdotFromExh ≤ 0 ∧
      T.catCKjK * 1000 * (s'.catExhTeIn - s.catTe) ≤ s'.catQdotFromExh * stepDt f i) ∧
    (0 ≤ T.cabCKjK → s.catTe ≤ s'.catExhTeIn → 0 ≤ s'.catQdotFromExh ∧
      s'.catQdotFromExh * stepDt f i ≤ T.cabCKjK * 1000 * (s'.catExhTeIn - s.catTe)) ∧
    (0 ≤ T.cabCKjK → T.cabCKjK ≤ T.catCKjK → s'.ambTe ≤ s.catTe → s.catTe ≤ s'.catExhTeIn →
      s'.ambTe ≤ s'.catTe ∧ s'.catTe ≤ s'.catExhTeIn) ∧
    (s'.catExhTeIn ≤ s.catTe → s.catTe ≤ s'.ambTe → s'.catExhTeIn ≤ s'.catTe ∧ s'.catTe ≤ s'.ambTe) := by
  obtain ⟨-, e3, -, e4, e5, -, e6⟩ := cat_eq w st hx
  have hm : 0 ≤ T.catCKjK * 1000 / stepDt f i := div_nonneg (by linarith) hdt.le
  have bal : T.catCKjK * 1000 * (s'.catTe - s.catTe) = (s'.catQdotFromExh - s'.catQdotToAmb) * stepDt f i := by
    rw [e6, add_sub_cancel_left, e5]
    field_simp
  have unsw : ∀ m d : K, m * 1000 / stepDt f i * d * stepDt f i = m * 1000 * d := fun m d => by field_simp
  have sw : ∀ m d : K, m * 1000 * d / stepDt f i = m * 1000 / stepDt f i * d := fun m d => by ring
  have t1 := capped (n := s'.catHtcToAmb * (C.pi * F.pow T.catL (2 / 4)) * (s.catTe - s'.ambTe)) (d := s.catTe - s'.ambTe)
    (mul_nonneg h1) (mul_nonpos_of_nonneg_of_nonpos h1) hm
  rw [← sw, ← e3, sw] at t1
  have up : ∀ {q m d : K}, q ≤ m * 1000 / stepDt f i * d → q * stepDt f i ≤ m * 1000 * d := by
    intro q m d h
    have := mul_le_mul_of_nonneg_right h hdt.le
    rwa [unsw] at this
  have dn : ∀ {q m d : K}, m * 1000 / stepDt f i * d ≤ q → m * 1000 * d ≤ q * stepDt f i := by
    intro q m d h
    have := mul_le_mul_of_nonneg_right h hdt.le
    rwa [unsw] at this
  have p1 : s.catTe ≤ s'.catExhTeIn → 0 ≤ s'.exhMdot * (airAt airTe airH s'.catExhTeIn - airAt airTe airH s.catTe) := fun h =>
    mul_nonneg h3 (sub_nonneg.2 (C105_air h).1)
  have p2 : s'.catExhTeIn ≤ s.catTe → s'.exhMdot * (airAt airTe airH s'.catExhTeIn - airAt airTe airH s.catTe) ≤ 0 := fun h =>
    mul_nonpos_of_nonneg_of_nonpos h3 (sub_nonpos.2 (C105_air h).1)
  have a1 : s'.ambTe ≤ s.catTe → 0 ≤ s'.catQdotToAmb ∧
      s'.catQdotToAmb * stepDt f i ≤ T.catCKjK * 1000 * (s.catTe - s'.ambTe) := fun h =>
    ⟨(t1.1 (sub_nonneg.2 h)).1, up (t1.1 (sub_nonneg.2 h)).2⟩
  have a2 : s.catTe ≤ s'.ambTe → s'.catQdotToAmb ≤ 0 ∧
      T.catCKjK * 1000 * (s.catTe - s'.ambTe) ≤ s'.catQdotToAmb * stepDt f i := fun h =>
    ⟨(t1.2 (sub_nonpos.2 h)).2, dn (t1.2 (sub_nonpos.2 h)).1⟩
  have a4 : s'.catExhTeIn ≤ s.catTe → s'.catQdotFromExh ≤ 0 ∧
      T.catCKjK * 1000 * (s'.catExhTeIn - s.catTe) ≤ s'.catQdotFromExh * stepDt f i := by
    intro h
    have h0 := sub_nonpos.2 h
    rw [e4, if_neg (not_lt.2 h0)]
    refine ⟨max_le (p2 h) ?_, ?_⟩
    · rw [sw]; exact mul_nonpos_of_nonneg_of_nonpos hm h0
    · refine dn ?_
      rw [← sw]
      exact le_max_right _ _
  have a3 : 0 ≤ T.cabCKjK → s.catTe ≤ s'.catExhTeIn → 0 ≤ s'.catQdotFromExh ∧
      s'.catQdotFromExh * stepDt f i ≤ T.cabCKjK * 1000 * (s'.catExhTeIn - s.catTe) := by
    intro hcab h
    have h0 := sub_nonneg.2 h
    have hm' : 0 ≤ T.cabCKjK * 1000 / stepDt f i := div_nonneg (by linarith) hdt.le
    rcases lt_or_eq_of_le h0 with g | g
    · rw [e4, if_pos g]
      refine ⟨le_min (p1 h) ?_, ?_⟩
      · rw [sw]; exact mul_nonneg hm' h0
      · refine up ?_
        rw [← sw]
        exact min_le_right _ _
    · have z := le_antisymm (p2 (sub_nonpos.1 g.ge)) (p1 h)
      rw [e4, if_neg (by rw [← g]; exact lt_irrefl _), z, ← g]
      simp
  have fin : ∀ {z : K}, T.catCKjK * 1000 * 0 ≤ T.catCKjK * 1000 * z → 0 ≤ z := by
    intro z hz
    rw [mul_zero] at hz
    exact nonneg_of_mul_nonneg_right hz (by linarith)
  refine ⟨bal, a1, a2, a4, a3, fun hcab hle g1 g2 => ?_, fun g1 g2 => ?_⟩
  · obtain ⟨b1, b2⟩ := a1 g1
    obtain ⟨b3, b4⟩ := a3 hcab g2
    have n1 := mul_nonneg b1 hdt.le
    have n2 := mul_nonneg b3 hdt.le
    have n3 : T.cabCKjK * 1000 * (s'.catExhTeIn - s.catTe) ≤ T.catCKjK * 1000 * (s'.catExhTeIn - s.catTe) :=
      mul_le_mul_of_nonneg_right (by linarith) (sub_nonneg.2 g2)
    constructor
    · refine sub_nonneg.1 (fin ?_)
      linarith
    · refine sub_nonneg.1 (fin ?_)
      linarith
  · obtain ⟨b1, b2⟩ := a2 g2
    obtain ⟨b3, b4⟩ := a4 g1
    have n1 := mul_nonneg (neg_nonneg.2 b1) hdt.le
    have n2 := mul_nonneg (neg_nonneg.2 b3) hdt.le
    constructor
    · refine sub_nonneg.1 (fin ?_)
      linarith
    · refine sub_nonneg.1 (fin ?_)
      linarith

/-- **C105 (exhaust at the catalyst).** The exhaust arrives at the catalyst with what the port left of its heat, no hotter than the
flame; while almost nothing flows, the temperature is kept. -/
theorem C105_catalyst_inlet {h f : Hot K} {soc : K} {aux : Option (List K)} {i : Nat} {s s' : Thermal K}
    (w : Walks F C T V P h soc aux f) (st : Steps h f i s s') (hx : T.catInternal = true) :
    (1 / 2000 < s'.exhMdot → s'.catExhTeIn =
      min (airAt airH airTe ((1000 * s'.exhHdotKw - s'.exhportQdotFromExh) / s'.exhMdot)) s'.fcTeAdiabatic) ∧
    (s'.exhMdot ≤ 1 / 2000 → s'.catExhTeIn = s.catExhTeIn) := by
  obtain ⟨-, -, e, -⟩ := cat_eq w st hx
  have hd : (dec 5 10000 : K) = 1 / 2000 := by unfold dec; norm_num
  rw [hd] at e
  exact ⟨fun h => by rw [e, if_pos h, mul_comm 1000], fun h => by rw [e, if_neg (not_lt.2 h)]⟩

/-- **C105 (found: the moving catalyst).** The coefficient of the catalyst's heat to the air is always that of the standing vehicle,
or that of the initial state until the vehicle first stands: for the moving vehicle the code computes a coefficient with the
catalyst's size, and writes it to the field of the engine. -/
theorem C105_catalyst_found {h f : Hot K} {soc : K} {aux : Option (List K)} {i : Nat} {s s' : Thermal K}
    (w : Walks F C T V P h soc aux f) (st : Steps h f i s s') (hx : T.catInternal = true) :
    ((lastRow f i).ach.mpsAch < 1 → s'.catHtcToAmb = T.catHtcToAmbStop) ∧
    (1 ≤ (lastRow f i).ach.mpsAch → s'.catHtcToAmb = s.catHtcToAmb ∧
      SphereHtc F T.catL (lastRow f i).ach.mpsAch ((s.catTe + s'.ambTe) / 2) s'.fcHtcToAmb) := by
  obtain ⟨e, -⟩ := cat_eq w st hx
  refine ⟨fun h => by rw [e, if_pos h], fun h => ⟨by rw [e, if_neg (not_lt.2 h)], ?_⟩⟩
  obtain ⟨x, y, -, -, -, -, -, -, -, -, -, -, -, -, -, -, y1, y2, y3, y4, y5, y6, y7, y8, y9, y10, y11, y12, z⟩ :=
    Steps.exhaust w st
  rw [if_pos hx] at z
  have hm : (hotEnv V { f.sd with i := i }).mps = (lastRow f i).ach.mpsAch := rfl
  have film : dec 5 10 * (s.catTe + s'.ambTe) = (s.catTe + s'.ambTe) / 2 := by
    unfold dec; norm_num; ring
  rw [z Thermal.fcHtcToAmb fun _ _ _ => rfl]
  unfold setCatThermal catHtc
  simp only
  rw [hm, if_neg (not_lt.2 h), y8, y11, film]
  exact ⟨_, _, _, _, _, ⟨rfl, rfl, rfl, rfl⟩, sphere_nu F _ _, rfl⟩

/-- **C105 (components handled outside).** A component without model keeps its temperature. -/
theorem C105_outside {h f : Hot K} {soc : K} {aux : Option (List K)} {i : Nat} {s s' : Thermal K}
    (w : Walks F C T V P h soc aux f) (st : Steps h f i s s') :
    (T.fcModel = none → s'.fcTe = s.fcTe) ∧ (h.hvac = none → s'.cabTe = s.cabTe) ∧
    (T.exhportInternal = false → s'.exhportTe = s.exhportTe) ∧ (T.catInternal = false → s'.catTe = s.catTe) := by
  obtain ⟨x, y, hy, -, -, -, -, -, -, -, -, x9, -, -, -, -, y1, y2, y3, y4, y5, y6, y7, y8, y9, y10, y11, y12, z⟩ :=
    Steps.exhaust w st
  refine ⟨fun hn => ((Steps.engine w st).2.1 hn).1, fun hn => ((Steps.cabin w st).1 hn).1, fun hn => ?_, fun hn => ?_⟩
  · rw [y7, hy, hn, if_neg (by simp), x9]
  · rw [z Thermal.catTe fun _ _ _ => rfl, hn, if_neg (by simp), y8]

theorem steps_of {h f : Hot K} {soc : K} {aux : Option (List K)} (w : Walks F C T V P h soc aux f) {i : Nat}
    (hi : i + 1 < h.sd.cyc0.length) : ∃ s s', Steps h f (i + 1) s s' := by
  have hl := (C103_history w.same w.load w.walk).2.1
  exact ⟨_, _, by omega, hi, List.getElem?_eq_getElem (by omega : h.history.length + (i + 1 - 1) < f.history.length),
    List.getElem?_eq_getElem (by omega : h.history.length + (i + 1) < f.history.length)⟩

theorem telescope {h f : Hot K} {soc : K} {aux : Option (List K)} (w : Walks F C T V P h soc aux f) (te : Thermal K → K)
    (gain : Nat → K) (c : K) (hg : ∀ i s s', Steps h f i s s' → c * (te s' - te s) = gain i) :
    c * (te f.state - te h.state) = ((List.range (h.sd.cyc0.length - 1)).map fun i => gain (i + 1)).sum := by
  obtain ⟨q1, q2, q3, q4⟩ := C103_history w.same w.load w.walk
  have key : ∀ n, n < h.sd.cyc0.length → ∃ s, f.history[h.history.length + n]? = some s ∧
      c * (te s - te h.state) = ((List.range n).map fun i => gain (i + 1)).sum := by
    intro n
    induction n with
    | zero =>
      intro _
      exact ⟨_, q3, by simp⟩
    | succ n ih =>
      intro hn
      obtain ⟨s, hs, e⟩ := ih (by omega)
      have hlt : h.history.length + (n + 1) < f.history.length := by omega
      refine ⟨_, List.getElem?_eq_getElem hlt, ?_⟩
      have := hg (n + 1) s f.history[h.history.length + (n + 1)] ⟨by omega, hn, hs, List.getElem?_eq_getElem hlt⟩
      rw [List.range_succ, List.map_append, List.sum_append, ← e]
      simp only [List.map_cons, List.map_nil, List.sum_cons, List.sum_nil, add_zero]
      rw [← this]
      ring
  have h0 := (hotWalk_trace w.same w.load w.walk).1
  obtain ⟨s, hs, e⟩ := key (h.sd.cyc0.length - 1) (by omega)
  have : s = f.state := by
    rw [List.getLast?_eq_getElem?, q2] at q4
    rw [show h.history.length + (h.sd.cyc0.length - 1) = h.history.length + h.sd.cyc0.length - 1 by omega, q4] at hs
    exact (Option.some.inj hs).symm
  rw [← this]
  exact e

/-- **C105 (a whole drive).** Over a drive the heat stored in the engine is the sum of what it got less what it gave in the steps,
and the same holds for the cabin. -/
theorem C105_total {h f : Hot K} {soc : K} {aux : Option (List K)} (w : Walks F C T V P h soc aux f) :
    (T.fcModel ≠ none → T.fcCKjK ≠ 0 → T.fcCKjK * (f.state.fcTe - h.state.fcTe) =
      ((List.range (h.sd.cyc0.length - 1)).map fun i => engineGain h f (i + 1)).sum) ∧
    (h.hvac ≠ none → T.cabCKjK ≠ 0 → T.cabCKjK * (f.state.cabTe - h.state.cabTe) =
      ((List.range (h.sd.cyc0.length - 1)).map fun i => cabinGain h f (i + 1)).sum) := by
  constructor
  · intro hT hc
    refine telescope w Thermal.fcTe (engineGain h f) _ fun i s s' st => ?_
    rw [(C105_engine w st hc).1 hT]
    unfold engineGain
    rw [st.after]
  · intro hn hc
    refine telescope w Thermal.cabTe (cabinGain h f) _ fun i s s' st => ?_
    rw [((C105_cabin w st hc).1 hn).1]
    unfold cabinGain
    rw [st.after]

/-! ### Soaking -/

theorem setThermal_coeff {E : HotEnv K} {amb : Option K} {s m : Thermal K} {g g' : Option (Hvac K)} (c : K)
    (h : setThermal F C T E amb s g = .ok (m, g')) :
    setThermal F C T E amb { s with fcEtaTempCoeff := c } g = .ok ({ m with fcEtaTempCoeff := c }, g') := by
  obtain ⟨s1, s2, c1, c2, rfl⟩ := setThermal_ok h
  have d0 : withAmb amb { s with fcEtaTempCoeff := c } = { withAmb amb s with fcEtaTempCoeff := c } := by cases amb <;> rfl
  have d1 : afterEngine F C T E { withAmb amb s with fcEtaTempCoeff := c } = .ok { s1 with fcEtaTempCoeff := c } := by
    unfold afterEngine setFcThermal at c1 ⊢
    split at c1
    · rename_i hT
      rw [if_pos hT]
      simp only [bind, Except.bind, pure, Except.pure] at c1 ⊢
      have e : fcHtcToAmb F T E { withAmb amb s with fcEtaTempCoeff := c } = fcHtcToAmb F T E (withAmb amb s) := rfl
      rw [e]
      split at c1
      · cases c1
      · cases c1
        rfl
    · rename_i hT
      rw [if_neg hT]
      cases c1
      rfl
  have d2 : afterCabin F T E { s1 with fcEtaTempCoeff := c } g = .ok ({ s2 with fcEtaTempCoeff := c }, g') := by
    cases g with
    | none =>
      obtain ⟨rfl, rfl⟩ := afterCabin_none c2
      rfl
    | some H =>
      obtain ⟨H', rfl, e⟩ := afterCabin_some c2
      obtain ⟨r, hr, e2⟩ := setCabThermal_ok e
      have e3 : hvacControl T E { { s1 with fcEtaTempCoeff := c } with
          cabQdotToAmbKw := cabQdotToAmb F T E { s1 with fcEtaTempCoeff := c } } H =
          .ok ({ r.1 with fcEtaTempCoeff := c }, r.2) := by
        have e4 : cabQdotToAmb F T E { s1 with fcEtaTempCoeff := c } = cabQdotToAmb F T E s1 := rfl
        rw [e4]
        unfold hvacControl at hr ⊢
        split at hr
        · rename_i hd
          rw [if_pos hd]
          cases hr
          rfl
        · rename_i hd
          rw [if_neg hd]
          simp only at hr ⊢
          have e5 : ∀ t : Thermal K, hvacEfforts E { t with fcEtaTempCoeff := c } H = hvacEfforts E t H := fun _ => rfl
          have e6 := e5 { s1 with cabQdotToAmbKw := cabQdotToAmb F T E s1 }
          simp only at e6
          rw [e6]
          split at hr
          · rename_i hp
            rw [if_pos hp]
            split at hr
            · rename_i hq
              rw [if_pos hq]
              cases hr
              rfl
            · rename_i hq
              rw [if_neg hq]
              unfold hvacHeat at hr ⊢
              simp only at hr ⊢
              split at hr
              · rename_i hw
                rw [if_pos hw]
                split at hr
                · cases hr
                · rename_i hb
                  rw [if_neg hb]
                  cases hr
                  rfl
              · rename_i hw
                rw [if_neg hw]
                cases hr
                rfl
          · cases hr
      unfold afterCabin setCabThermal
      simp only [bind, Except.bind, pure, Except.pure]
      simp only at e3
      rw [e3]
      simp only
      have u1 := congrArg Prod.fst e2
      have u2 := congrArg Prod.snd e2
      simp only at u1 u2
      rw [u1, u2]
  have d3 : afterExhaust F C T E { s2 with fcEtaTempCoeff := c } = { afterExhaust F C T E s2 with fcEtaTempCoeff := c } := by
    unfold afterExhaust
    have a : ∀ t : Thermal K, setExhportThermal C T E { t with fcEtaTempCoeff := c } =
        { setExhportThermal C T E t with fcEtaTempCoeff := c } := fun _ => rfl
    have b : ∀ t : Thermal K, setCatThermal F C T E { t with fcEtaTempCoeff := c } =
        { setCatThermal F C T E t with fcEtaTempCoeff := c } := by
      intro t
      have hh : catHtc F T E { t with fcEtaTempCoeff := c } = { catHtc F T E t with fcEtaTempCoeff := c } := by
        unfold catHtc
        simp only
        split <;> rfl
      unfold setCatThermal
      rw [hh]
      rfl
    cases T.exhportInternal <;> cases T.catInternal <;> simp [a, b]
  have d4 : ∀ t : Thermal K, fcBalance T E { t with fcEtaTempCoeff := c } = { fcBalance T E t with fcEtaTempCoeff := c } := by
    intro t
    unfold fcBalance
    split <;> rfl
  unfold setThermal
  rw [d0, d1]
  simp only
  rw [d2]
  simp only
  rw [d3, d4]

theorem soakLoop_frame : ∀ (n : Nat) {h k : Hot K}, soakLoop F C T V n h = .ok k →
    k = { h with sd := { h.sd with i := h.sd.i + n }, state := k.state, hvac := k.hvac } := by
  intro n
  induction n with
  | zero => intro h k e; cases e; rfl
  | succ n ih =>
    intro h k e
    unfold soakLoop at e
    split at e
    · cases e
    · split at e
      · cases e
      · split at e
        · cases e
        · have := ih e
          rw [this]
          simp only
          rw [show h.sd.i + 1 + n = h.sd.i + (n + 1) by omega]

/-- **C105 (soaking).** `thermal_soak_walk` changes the thermal state and the cabin model only: no row, no load, no history. -/
theorem C105_soak_frame {f k : Hot K} (e : thermalSoakWalk F C T V f = .ok k) :
    k.sd.rows = f.sd.rows ∧ k.sd.aux = f.sd.aux ∧ k.sd.cyc = f.sd.cyc ∧ k.history = f.history ∧
    k.hvacHistory = f.hvacHistory ∧ k.amb = f.amb := by
  have := soakLoop_frame _ e
  rw [this]
  exact ⟨rfl, rfl, rfl, rfl, rfl, rfl⟩

/-- **C105 (found: a soak burns the fuel again).** The soak after a drive is not a soak with the engine off: it repeats the heat
calculations with the fuel, work and speeds that the drive left in the simulation. Started from the state in which the drive
started, it ends with all the temperatures of the drive. -/
theorem C105_soak_found {h f : Hot K} {soc : K} {aux : Option (List K)} (w : Walks F C T V P h soc aux f) :
    ∃ k, thermalSoakWalk F C T V { f with state := h.state, hvac := h.hvac } = .ok k ∧ SameHeat k.state f.state ∧
      k.hvac = f.hvac := by
  obtain ⟨hp, S, G, s1, s2, s3, s4, s5, s6, s7, s8, s9, s10, s11, s12, s13, s14, -⟩ := hotWalk_trace w.same w.load w.walk
  have hcyc : f.sd.cyc.length = h.sd.cyc0.length := by
    rw [s12]; split
    · rfl
    · exact w.same
  have key : ∀ n j, j + n + 1 = h.sd.cyc0.length → ∀ (x : Hot K) s g, S[j]? = some s → G[j]? = some g →
      SameHeat x.state s → x.hvac = g → x.sd = { f.sd with i := j + 1 } → x.amb = f.amb →
      ∃ k, soakLoop F C T V n x = .ok k ∧ SameHeat k.state f.state ∧ k.hvac = f.hvac := by
    intro n
    induction n with
    | zero =>
      intro j hj x s g hs hg a b c d
      refine ⟨x, rfl, ?_, ?_⟩
      · rw [List.getLast?_eq_getElem?, s1, show h.sd.cyc0.length - 1 = j by omega, hs] at s7
        cases s7
        exact a
      · rw [List.getLast?_eq_getElem?, s2, show h.sd.cyc0.length - 1 = j by omega, hg] at s8
        cases s8
        exact b
    | succ n ih =>
      intro j hj x s g hs hg a b c d
      have l1 : j + 1 < S.length := by omega
      have l2 : j + 1 < G.length := by omega
      have rel := s9 j s g _ _ hs hg (List.getElem?_eq_getElem l1) (List.getElem?_eq_getElem l2)
      obtain ⟨amb, m, r1, r2, r3, -⟩ := rel.thermal
      have r2' := setThermal_coeff x.state.fcEtaTempCoeff r2
      have a' : x.state = { s with fcEtaTempCoeff := x.state.fcEtaTempCoeff } := a
      rw [← a'] at r2'
      unfold soakLoop
      have hi : x.sd.i = j + 1 := by rw [c]
      rw [if_neg (by
        have hr : x.sd.rows = f.sd.rows := by rw [c]
        rw [hi, hr, s10]; omega), hi, d, r1]
      simp only
      have henv : hotEnv V x.sd = hotEnv V { f.sd with i := j + 1 } := by rw [c]
      rw [henv, b, r2']
      refine ih (j + 1) (by omega) _ _ _ (List.getElem?_eq_getElem l1) (List.getElem?_eq_getElem l2) ?_ rfl ?_ rfl
      · unfold SameHeat
        simp only
        rw [r3]
      · simp only [c]
  unfold thermalSoakWalk
  refine key _ 0 ?_ _ _ _ s3 s4 rfl rfl rfl rfl
  simp only [hcyc]
  omega

end Field
end Fastsim.Props
