import Verif.Props.RustHeatSteps

/-!
# C105: heat of the cabin
-/

set_option linter.unusedSectionVars false

namespace Fastsim.Spec
open Fastsim

section Lawless
variable {K : Type*} [Zero K] [One K] [NatCast K] [Add K] [Sub K] [Mul K] [Div K] [Neg K] [LinearOrder K]

/-- The cabin model of step `i`: `a` before and `b` after it, in the history of the cabin model. -/
structure HvacStep (h f : Hot K) (i : Nat) (a b : Hvac K) : Prop where
  before : f.hvacHistory[h.hvacHistory.length + (i - 1)]? = some a
  after : f.hvacHistory[h.hvacHistory.length + i]? = some b

/-- The coefficient of performance: a fraction of the ideal one, for a difference of at least five degrees. -/
def copAt (H : Hvac K) (te amb : K) : K := (te + dec 27315 100) / max 5 (max (te - amb) (amb - te)) * H.fracOfIdealCop

/-- What the controller asks for, as heat taken from the cabin: proportional to the error, to its sum `i` and to the change of
temperature. -/
def asksKw (H : Hvac K) (i dt : K) (s : Thermal K) : K :=
  H.pPerDegC * (s.cabTe - H.teSet) + i + H.dPerDegC * ((s.cabTe - s.cabPrevTe) / dt)

end Lawless
end Fastsim.Spec

namespace Fastsim.Props
open Fastsim Spec

section Field
variable {K : Type*} [Field K] [LinearOrder K] [IsStrictOrderedRing K]
variable {F : Fns K} {C : HotConsts K} {T : VehThrm K} {V : Veh K} {P : SimParams K}

theorem pabs_eq_max (x : K) : pabs x = max x (-x) := by
  unfold pabs
  split
  · rw [max_eq_right (by linarith)]
  · rw [max_eq_left (by linarith)]

theorem max_of_neg (x y : K) : max (-x) (-y) = -min x y := by
  rcases le_total x y with h | h
  · rw [min_eq_left h, max_eq_left (neg_le_neg h)]
  · rw [min_eq_right h, max_eq_right (neg_le_neg h)]

theorem efforts_cop (E : HotEnv K) (s : Thermal K) (H : Hvac K) : (hvacEfforts E s H).cop = copAt H s.cabTe s.ambTe := by
  unfold hvacEfforts copAt
  simp only [pabs_eq_max, neg_sub]
  split
  · rename_i h
    rw [max_eq_left h.le]
  · rename_i h
    rw [max_eq_right (not_lt.1 h)]

/-- What a step leaves to the cabin. -/
theorem Steps.cabin {h f : Hot K} {soc : K} {aux : Option (List K)} {i : Nat} {s s' : Thermal K}
    (w : Walks F C T V P h soc aux f) (st : Steps h f i s s') :
    (h.hvac = none → s'.cabTe = s.cabTe ∧ s'.cabPrevTe = s.cabPrevTe ∧ s'.cabQdotToAmbKw = s.cabQdotToAmbKw ∧
      s'.cabQdotFromHvacKw = s.cabQdotFromHvacKw ∧ s'.cabHvacPwrAuxKw = s.cabHvacPwrAuxKw ∧
      s'.fcQdotToHtrKw = s.fcQdotToHtrKw) ∧
    (∀ H, h.hvac = some H → ∃ a b, HvacStep h f i a b ∧ SameHvac a H ∧ SameHvac b H ∧ ∃ x c : Thermal K,
      hvacControl T (hotEnv V { f.sd with i := i }) x a = .ok (c, b) ∧ x.cabTe = s.cabTe ∧ x.cabPrevTe = s.cabPrevTe ∧
      x.ambTe = s'.ambTe ∧ x.fcTe = s.fcTe ∧ x.cabHvacPwrAuxKw = s.cabHvacPwrAuxKw ∧ x.fcQdotToHtrKw = s.fcQdotToHtrKw ∧
      s'.cabQdotFromHvacKw = c.cabQdotFromHvacKw ∧ s'.cabHvacPwrAuxKw = c.cabHvacPwrAuxKw ∧
      s'.fcQdotToHtrKw = c.fcQdotToHtrKw ∧
      s'.cabQdotToAmbKw = cabQdotToAmb F T (hotEnv V { f.sd with i := i }) { s with ambTe := s'.ambTe } ∧
      s'.cabPrevTe = s.cabTe ∧
      s'.cabTe = s.cabTe + (s'.cabQdotFromHvacKw - s'.cabQdotToAmbKw) / T.cabCKjK * stepDt f i) := by
  obtain ⟨g, g', amb, s1, s2, s3, d1, d2, b1, c1, c2, c3, c4⟩ := Steps.parts w st
  obtain ⟨x, hx, f1, f2, f3, f4, f5, f6, f7, f8, f9, f10, f11, f12, f13, f14, -, f15⟩ :=
    afterExhaust_frame (F := F) (C := C) (T := T) (hotEnv V { f.sd with i := i }) s2
  rw [← c3] at hx
  subst hx
  have e0 := withAmb_frame amb s
  have e1 := afterEngine_frame c1
  have e3 := fcBalance_frame (T := T) (hotEnv V { f.sd with i := i }) x
  have p : ∀ {A : Type _} (π : Thermal K → A), π s' = π { fcBalance T (hotEnv V { f.sd with i := i }) x with
      fcEtaTempCoeff := s'.fcEtaTempCoeff } := fun π => congrArg π c4
  have q1 : s'.cabTe = s2.cabTe := by
    rw [p Thermal.cabTe]; simp only
    rw [e3]; simp only
    rw [f9]
  have q2 : s'.cabPrevTe = s2.cabPrevTe := by
    rw [p Thermal.cabPrevTe]; simp only
    rw [e3]; simp only
    rw [f10]
  have q3 : s'.cabQdotToAmbKw = s2.cabQdotToAmbKw := by
    rw [p Thermal.cabQdotToAmbKw]; simp only
    rw [e3]; simp only
    rw [f11]
  have q4 : s'.cabQdotFromHvacKw = s2.cabQdotFromHvacKw := by
    rw [p Thermal.cabQdotFromHvacKw]; simp only
    rw [e3]; simp only
    rw [f12]
  have q5 : s'.cabHvacPwrAuxKw = s2.cabHvacPwrAuxKw := by
    rw [p Thermal.cabHvacPwrAuxKw]; simp only
    rw [e3]; simp only
    rw [f13]
  have q6 : s'.fcQdotToHtrKw = s2.fcQdotToHtrKw := by
    rw [p Thermal.fcQdotToHtrKw]; simp only
    rw [e3]; simp only
    rw [f6]
  have q7 : s'.ambTe = s2.ambTe := by
    rw [p Thermal.ambTe]; simp only
    rw [e3]; simp only
    rw [f14]
  refine ⟨fun hn => ?_, fun H hH => ?_⟩
  · rw [d1 hn] at c2
    obtain ⟨rfl, -⟩ := afterCabin_none c2
    refine ⟨?_, ?_, ?_, ?_, ?_, ?_⟩
    · rw [q1, e1]; simp only; rw [e0]
    · rw [q2, e1]; simp only; rw [e0]
    · rw [q3, e1]; simp only; rw [e0]
    · rw [q4, e1]; simp only; rw [e0]
    · rw [q5, e1]; simp only; rw [e0]
    · rw [q6, e1]; simp only; rw [e0]
  · obtain ⟨a, b, rfl, rfl, sa, sb, ha, hb⟩ := d2 H hH
    obtain ⟨b', hb', hc⟩ := afterCabin_some c2
    cases hb'
    obtain ⟨c, hc, hr⟩ := setCabThermal_ok hc
    have hr1 := congrArg Prod.fst hr
    have hr2 := congrArg Prod.snd hr
    simp only at hr1 hr2
    obtain ⟨fr, -⟩ := hvacControl_frame hc
    have a1 : s1.ambTe = s'.ambTe := by
      rw [q7, hr1]; simp only
      rw [fr]
    have a2 : s1.cabTe = s.cabTe := by rw [e1]; simp only; rw [e0]
    have a3 : s1.cabPrevTe = s.cabPrevTe := by rw [e1]; simp only; rw [e0]
    have a4 : s1.fcTe = s.fcTe := by rw [e1]; simp only; rw [e0]
    have a5 : s1.cabHvacPwrAuxKw = s.cabHvacPwrAuxKw := by rw [e1]; simp only; rw [e0]
    have a6 : s1.fcQdotToHtrKw = s.fcQdotToHtrKw := by rw [e1]; simp only; rw [e0]
    have a7 : c.1.cabTe = s.cabTe := by rw [fr]; exact a2
    have a8 : s'.cabQdotToAmbKw = cabQdotToAmb F T (hotEnv V { f.sd with i := i }) { s with ambTe := s'.ambTe } := by
      rw [q3, hr1]; simp only
      rw [fr]; simp only
      unfold cabQdotToAmb
      rw [a1, a2]
    have a9 : s'.cabQdotToAmbKw = c.1.cabQdotToAmbKw := by rw [q3, hr1]
    have a10 : s'.cabQdotFromHvacKw = c.1.cabQdotFromHvacKw := by rw [q4, hr1]
    refine ⟨a, b, ⟨ha, hb⟩, sa, sb, { s1 with cabQdotToAmbKw := cabQdotToAmb F T (hotEnv V { f.sd with i := i }) s1 }, c.1, ?_, a2, a3, a1, a4, a5, a6, a10, ?_, ?_, a8, ?_, ?_⟩
    · rw [hr2]; exact hc
    · rw [q5, hr1]
    · rw [q6, hr1]
    · rw [q2, hr1]; exact a7
    · rw [a9, a10, q1, hr1]
      simp only
      rw [a7]
      rfl

/-- **C105 (the cabin's heat).** In every step the heat stored in the cabin is what the climate control gives less what goes to
the air, as recorded. Without cabin model nothing about the cabin changes. -/
theorem C105_cabin {h f : Hot K} {soc : K} {aux : Option (List K)} {i : Nat} {s s' : Thermal K}
    (w : Walks F C T V P h soc aux f) (st : Steps h f i s s') (hc : T.cabCKjK ≠ 0) :
    (h.hvac ≠ none → T.cabCKjK * (s'.cabTe - s.cabTe) = (s'.cabQdotFromHvacKw - s'.cabQdotToAmbKw) * stepDt f i ∧
      s'.cabPrevTe = s.cabTe) ∧
    (h.hvac = none → s'.cabTe = s.cabTe ∧ s'.cabHvacPwrAuxKw = s.cabHvacPwrAuxKw ∧ s'.fcQdotToHtrKw = s.fcQdotToHtrKw) := by
  obtain ⟨n, q⟩ := Steps.cabin w st
  refine ⟨fun hn => ?_, fun hn => ⟨(n hn).1, (n hn).2.2.2.2.1, (n hn).2.2.2.2.2⟩⟩
  cases hH : h.hvac with
  | none => exact absurd hH hn
  | some H =>
    obtain ⟨a, b, -, -, -, x, c, -, -, -, -, -, -, -, -, -, -, -, e1, e2⟩ := q H hH
    refine ⟨?_, e1⟩
    rw [e2, add_sub_cancel_left]
    field_simp

/-- **C105 (heat through the walls).** The cabin gives heat to the air through its surface (length times width), the resistance of
its walls and that of the air outside: at up to 2 mph a constant, above that of a flat plate at the speed of the step before. -/
theorem C105_walls {h f : Hot K} {soc : K} {aux : Option (List K)} {i : Nat} {s s' : Thermal K}
    (w : Walks F C T V P h soc aux f) (st : Steps h f i s s') (hn : h.hvac ≠ none) :
    ∃ htc, 1000 * s'.cabQdotToAmbKw =
        T.cabLLength * T.cabLWidth / (1 / htc + T.cabRToAmb) * (s.cabTe - s'.ambTe) ∧
      ((lastRow f i).ach.mphAch ≤ 2 → htc = T.cabHtcToAmbStop) ∧
      (2 < (lastRow f i).ach.mphAch → ∃ rho mu k pr nu, AirProps F ((s.cabTe + s'.ambTe) / 2) rho mu k pr ∧
        PlateNu F (rho * (lastRow f i).ach.mpsAch * T.cabLLength / mu) pr nu ∧ htc = nu * k / T.cabLLength) := by
  have film : dec 5 10 * (s.cabTe + s'.ambTe) = (s.cabTe + s'.ambTe) / 2 := by
    unfold dec; norm_num; ring
  cases hH : h.hvac with
  | none => exact absurd hH hn
  | some H =>
    obtain ⟨a, b, -, -, -, x, c, -, -, -, -, -, -, -, -, -, -, e1, -, -⟩ := (Steps.cabin w st).2 H hH
    unfold cabQdotToAmb at e1
    simp only [film] at e1
    have hm : (hotEnv V { f.sd with i := i }).mph = (lastRow f i).ach.mphAch := rfl
    have hv : (hotEnv V { f.sd with i := i }).mps = (lastRow f i).ach.mpsAch := rfl
    rw [hm, hv] at e1
    rcases lt_or_ge 2 (lastRow f i).ach.mphAch with h2 | h2
    · rw [if_pos h2] at e1
      have nu : ∀ re pr : K, PlateNu F re pr (if re < 500000 then dec 664 1000 * F.pow re (dec 5 10) * F.pow pr (1 / 3)
          else (dec 37 1000 * F.pow re (dec 8 10) - 871) * pr) := fun re pr =>
        ⟨fun h => by rw [if_pos h], fun h => by rw [if_neg (not_lt.2 h)]⟩
      have key := nu (airRho F ((s.cabTe + s'.ambTe) / 2) * (lastRow f i).ach.mpsAch * T.cabLLength /
        airAt airTe airMu ((s.cabTe + s'.ambTe) / 2)) (airAt airTe airPr ((s.cabTe + s'.ambTe) / 2))
      generalize (if airRho F ((s.cabTe + s'.ambTe) / 2) * (lastRow f i).ach.mpsAch * T.cabLLength /
        airAt airTe airMu ((s.cabTe + s'.ambTe) / 2) < 500000 then _ else _ : K) = n at e1 key
      refine ⟨n * airAt airTe airK ((s.cabTe + s'.ambTe) / 2) / T.cabLLength, ?_, fun h => absurd h2 (not_lt.2 h),
        fun _ => ⟨_, _, _, _, n, ⟨rfl, rfl, rfl, rfl⟩, key, rfl⟩⟩
      rw [e1]
      have : (dec 1 1000 : K) = 1 / 1000 := by unfold dec; norm_num
      rw [this]
      ring
    · rw [if_neg (not_lt.2 h2)] at e1
      refine ⟨T.cabHtcToAmbStop, ?_, fun _ => rfl, fun h => absurd h (not_lt.2 h2)⟩
      rw [e1]
      have : (dec 1 1000 : K) = 1 / 1000 := by unfold dec; norm_num
      rw [this]
      ring

/-- **C105 (inside the deadband; found).** Between the set point less and plus the deadband the climate control gives no heat, and
the sum of the errors starts again. But the load on the auxiliaries and the heat that the engine gives to the heater keep the
values of the last step outside: the documentation says "no hvac power is needed", while the load is still drawn. -/
theorem C105_deadband {h f : Hot K} {soc : K} {aux : Option (List K)} {i : Nat} {s s' : Thermal K}
    (w : Walks F C T V P h soc aux f) (st : Steps h f i s s') {H : Hvac K} (hH : h.hvac = some H)
    (h1 : s.cabTe ≤ H.teSet + H.deadband) (h2 : H.teSet - H.deadband ≤ s.cabTe) :
    s'.cabQdotFromHvacKw = 0 ∧ (∃ a b, HvacStep h f i a b ∧ b.iKw = 0) ∧
    s'.cabHvacPwrAuxKw = s.cabHvacPwrAuxKw ∧ s'.fcQdotToHtrKw = s.fcQdotToHtrKw := by
  obtain ⟨a, b, st', sa, -, x, c, e, x1, x2, x3, x4, x5, x6, e1, e2, e3, -⟩ := (Steps.cabin w st).2 H hH
  unfold hvacControl at e
  rw [if_pos ⟨by rw [x1, sa.teSet, sa.dead]; exact h1, by rw [x1, sa.teSet, sa.dead]; exact h2⟩] at e
  cases e
  exact ⟨e1, ⟨a, _, st', rfl⟩, e2.trans x5, e3.trans x6⟩

/-- **C105 (cooling).** In a cabin above the deadband the controller sums the errors, not below zero and not above its maximum,
asks for heat to be taken, up to that maximum, and the load on the auxiliaries is that heat by the coefficient of performance,
between zero and the largest load; the heat taken is the load times the coefficient. The heat that the engine gives to the heater
keeps its value. -/
theorem C105_cool {h f : Hot K} {soc : K} {aux : Option (List K)} {i : Nat} {s s' : Thermal K}
    (w : Walks F C T V P h soc aux f) (st : Steps h f i s s') {H : Hvac K} (hH : h.hvac = some H)
    (h1 : H.teSet + H.deadband < s.cabTe) :
    ∃ a b, HvacStep h f i a b ∧ 0 < copAt H s.cabTe s'.ambTe ∧
      b.iKw = min (max (a.iKw + H.iPerDegCSec * (s.cabTe - H.teSet) * stepDt f i) 0) H.cntrlMaxKw ∧
      s'.cabHvacPwrAuxKw =
        max (min (min (asksKw H b.iKw (stepDt f i) s) H.cntrlMaxKw / copAt H s.cabTe s'.ambTe) H.maxAuxKw) 0 ∧
      s'.cabQdotFromHvacKw = -(s'.cabHvacPwrAuxKw * copAt H s.cabTe s'.ambTe) ∧ s'.fcQdotToHtrKw = s.fcQdotToHtrKw := by
  obtain ⟨a, b, st', sa, -, x, c, e, x1, x2, x3, x4, x5, x6, e1, e2, e3, -⟩ := (Steps.cabin w st).2 H hH
  unfold hvacControl at e
  rw [if_neg (by
    rintro ⟨q, -⟩
    rw [x1, sa.teSet, sa.dead] at q
    exact absurd h1 (not_lt.2 q))] at e
  simp only at e
  have hcop : copAt a x.cabTe x.ambTe = copAt H s.cabTe s'.ambTe := by unfold copAt; rw [x1, x3, sa.frac]
  rw [efforts_cop, hcop] at e
  by_cases hp : 0 < copAt H s.cabTe s'.ambTe
  · rw [if_pos hp, if_pos (by rw [x1, sa.teSet, sa.dead]; exact h1)] at e
    have e := Except.ok.inj e
    have u1 := congrArg Prod.fst e
    have u2 := congrArg Prod.snd e
    dsimp only at u1 u2
    have hi : b.iKw = min (max (a.iKw + H.iPerDegCSec * (s.cabTe - H.teSet) * stepDt f i) 0) H.cntrlMaxKw := by
      rw [← u2]
      unfold hvacCool hvacEfforts
      simp only
      rw [x1, sa.teSet, sa.most, sa.i]
      have : ∀ z : K, (if z < 0 then 0 else z) = max z 0 := by
        intro z
        split
        · rename_i hz; rw [max_eq_right hz.le]
        · rename_i hz; rw [max_eq_left (not_lt.1 hz)]
      rw [this]
      rfl
    have ha : c.cabHvacPwrAuxKw =
        max (min (min (asksKw H b.iKw (stepDt f i) s) H.cntrlMaxKw / copAt H s.cabTe s'.ambTe) H.maxAuxKw) 0 := by
      rw [← u1]
      unfold hvacCool
      simp only
      rw [efforts_cop, hcop]
      have v1 : (hvacEfforts (hotEnv V { f.sd with i := i }) x a).cntrlMaxKw = H.cntrlMaxKw := sa.most
      have v2 : (hvacEfforts (hotEnv V { f.sd with i := i }) x a).maxAuxKw = H.maxAuxKw := sa.aux
      have v3 : (min (if (hvacEfforts (hotEnv V { f.sd with i := i }) x a).iKw < 0 then 0
          else (hvacEfforts (hotEnv V { f.sd with i := i }) x a).iKw)
          (hvacEfforts (hotEnv V { f.sd with i := i }) x a).cntrlMaxKw) = b.iKw := by rw [← u2]; rfl
      rw [v3, v1, v2]
      have v4 : -(hvacEfforts (hotEnv V { f.sd with i := i }) x a).pKw - b.iKw -
          (hvacEfforts (hotEnv V { f.sd with i := i }) x a).dKw = -asksKw H b.iKw (stepDt f i) s := by
        unfold asksKw hvacEfforts
        simp only
        rw [x1, x2, sa.teSet, sa.p, sa.d]
        have : (hotEnv V { f.sd with i := i }).dt = stepDt f i := rfl
        rw [this]
        ring
      rw [v4, max_of_neg, neg_neg]
    refine ⟨a, b, st', hp, hi, e2.trans ha, ?_, ?_⟩
    · rw [e1, e2, ← u1]
      unfold hvacCool
      simp only
      rw [efforts_cop, hcop]
      ring
    · rw [e3, ← u1, ← x6]
      rfl
  · rw [if_neg hp] at e
    cases e

/-- **C105 (heating).** In a cabin below the deadband the controller works the same way with the other sign. With an electric
heater the load is the heat by the coefficient of performance, between zero and the largest load. With the heat of the engine the
heat is at most a tenth of what would bring the cabin to the temperature of the engine, and at least zero; the engine gives just
that heat, and the load on the auxiliaries keeps its value. -/
theorem C105_heat {h f : Hot K} {soc : K} {aux : Option (List K)} {i : Nat} {s s' : Thermal K}
    (w : Walks F C T V P h soc aux f) (st : Steps h f i s s') {H : Hvac K} (hH : h.hvac = some H) (hd : 0 ≤ H.deadband)
    (h1 : s.cabTe < H.teSet - H.deadband) :
    ∃ a b, HvacStep h f i a b ∧ 0 < copAt H s.cabTe s'.ambTe ∧
      b.iKw = max (min (a.iKw + H.iPerDegCSec * (s.cabTe - H.teSet) * stepDt f i) 0) (-H.cntrlMaxKw) ∧
      (H.useFcWasteHeat = false →
        s'.cabHvacPwrAuxKw =
          max (min (min (-asksKw H b.iKw (stepDt f i) s) H.cntrlMaxKw / copAt H s.cabTe s'.ambTe) H.maxAuxKw) 0 ∧
        s'.cabQdotFromHvacKw = s'.cabHvacPwrAuxKw * copAt H s.cabTe s'.ambTe ∧ s'.fcQdotToHtrKw = s.fcQdotToHtrKw) ∧
      (H.useFcWasteHeat = true → V.ptType ≠ .bev ∧
        s'.cabQdotFromHvacKw = max (min (min (-asksKw H b.iKw (stepDt f i) s) H.cntrlMaxKw)
          ((s.fcTe - s.cabTe) / 10 * T.cabCKjK / stepDt f i)) 0 ∧
        s'.fcQdotToHtrKw = s'.cabQdotFromHvacKw ∧ s'.cabHvacPwrAuxKw = s.cabHvacPwrAuxKw) := by
  obtain ⟨a, b, st', sa, -, x, c, e, x1, x2, x3, x4, x5, x6, e1, e2, e3, -⟩ := (Steps.cabin w st).2 H hH
  unfold hvacControl at e
  rw [if_neg (by
    rintro ⟨-, q⟩
    rw [x1, sa.teSet, sa.dead] at q
    exact absurd h1 (not_lt.2 q))] at e
  simp only at e
  have hcop : copAt a x.cabTe x.ambTe = copAt H s.cabTe s'.ambTe := by unfold copAt; rw [x1, x3, sa.frac]
  rw [efforts_cop, hcop] at e
  by_cases hp : 0 < copAt H s.cabTe s'.ambTe
  · rw [if_pos hp, if_neg (by rw [x1, sa.teSet, sa.dead]; exact not_lt.2 (by linarith))] at e
    unfold hvacHeat at e
    simp only at e
    have v1 : (hvacEfforts (hotEnv V { f.sd with i := i }) x a).cntrlMaxKw = H.cntrlMaxKw := sa.most
    have v2 : (hvacEfforts (hotEnv V { f.sd with i := i }) x a).maxAuxKw = H.maxAuxKw := sa.aux
    have v5 : (hvacEfforts (hotEnv V { f.sd with i := i }) x a).useFcWasteHeat = H.useFcWasteHeat := sa.waste
    have hi : max (if 0 < (hvacEfforts (hotEnv V { f.sd with i := i }) x a).iKw then 0
        else (hvacEfforts (hotEnv V { f.sd with i := i }) x a).iKw) (-H.cntrlMaxKw) =
        max (min (a.iKw + H.iPerDegCSec * (s.cabTe - H.teSet) * stepDt f i) 0) (-H.cntrlMaxKw) := by
      have : ∀ z : K, (if 0 < z then 0 else z) = min z 0 := by
        intro z
        split
        · rename_i hz; rw [min_eq_right hz.le]
        · rename_i hz; rw [min_eq_left (not_lt.1 hz)]
      rw [this]
      unfold hvacEfforts
      simp only
      rw [x1, sa.teSet, sa.i]
      rfl
    have v4 : ∀ z : K, -(hvacEfforts (hotEnv V { f.sd with i := i }) x a).pKw - z -
        (hvacEfforts (hotEnv V { f.sd with i := i }) x a).dKw = -asksKw H z (stepDt f i) s := by
      intro z
      unfold asksKw hvacEfforts
      simp only
      rw [x1, x2, sa.teSet, sa.p, sa.d]
      have : (hotEnv V { f.sd with i := i }).dt = stepDt f i := rfl
      rw [this]
      ring
    rw [v1, v5, hi, v4, efforts_cop, hcop, v2, x1, x4] at e
    cases hw : H.useFcWasteHeat with
    | false =>
      rw [hw, if_neg (by simp)] at e
      have e := Except.ok.inj e
      have u1 := congrArg Prod.fst e
      have u2 := congrArg Prod.snd e
      dsimp only at u1 u2
      have hb : b.iKw = max (min (a.iKw + H.iPerDegCSec * (s.cabTe - H.teSet) * stepDt f i) 0) (-H.cntrlMaxKw) := by
        rw [← u2]
      refine ⟨a, b, st', hp, hb, fun _ => ⟨?_, ?_, ?_⟩, fun h => by cases h⟩
      · rw [e2, ← u1, hb]
      · rw [e1, e2, ← u1]
      · rw [e3, ← u1]; exact x6
    | true =>
      rw [hw, if_pos rfl] at e
      by_cases hbev : V.ptType = .bev
      · have : (hotEnv V { f.sd with i := i }).bev = true := by unfold hotEnv; simp [hbev]
        rw [this, if_pos rfl] at e
        cases e
      · have : (hotEnv V { f.sd with i := i }).bev = false := by unfold hotEnv; simp [hbev]
        rw [this, if_neg (by simp)] at e
        have e := Except.ok.inj e
        have u1 := congrArg Prod.fst e
        have u2 := congrArg Prod.snd e
        dsimp only at u1 u2
        have hb : b.iKw = max (min (a.iKw + H.iPerDegCSec * (s.cabTe - H.teSet) * stepDt f i) 0) (-H.cntrlMaxKw) := by
          rw [← u2]
        refine ⟨a, b, st', hp, hb, (fun h => by cases h), fun _ => ⟨hbev, ?_, ?_, ?_⟩⟩
        · rw [e1, ← u1, hb]
          simp only
          have d : (hotEnv V { f.sd with i := i }).dt = stepDt f i := rfl
          have d1 : (s.fcTe - s.cabTe) * dec 1 10 = (s.fcTe - s.cabTe) / 10 := by unfold dec; norm_num; ring
          rw [d, d1]
        · rw [e3, e1, ← u1]
        · rw [e2, ← u1]; exact x5
  · rw [if_neg hp] at e
    cases e

/-- **C105 (signs and limits).** Above the deadband the climate control takes heat from the cabin, below it gives heat, never
more than its maximum. -/
theorem C105_limits {h f : Hot K} {soc : K} {aux : Option (List K)} {i : Nat} {s s' : Thermal K}
    (w : Walks F C T V P h soc aux f) (st : Steps h f i s s') {H : Hvac K} (hH : h.hvac = some H) (hd : 0 ≤ H.deadband)
    (hm : 0 ≤ H.cntrlMaxKw) :
    (H.teSet + H.deadband < s.cabTe → -H.cntrlMaxKw ≤ s'.cabQdotFromHvacKw ∧ s'.cabQdotFromHvacKw ≤ 0) ∧
    (s.cabTe < H.teSet - H.deadband → 0 ≤ s'.cabQdotFromHvacKw ∧ s'.cabQdotFromHvacKw ≤ H.cntrlMaxKw) := by
  have key : ∀ {x c m : K}, 0 < c → x ≤ H.cntrlMaxKw → 0 ≤ max (min (x / c) m) 0 * c ∧ max (min (x / c) m) 0 * c ≤ H.cntrlMaxKw := by
    intro x c m hc hx
    refine ⟨mul_nonneg (le_max_right _ _) hc.le, ?_⟩
    rw [← le_div_iff₀ hc]
    exact max_le ((min_le_left _ _).trans ((div_le_div_iff_of_pos_right hc).2 hx)) (div_nonneg hm hc.le)
  constructor
  · intro h1
    obtain ⟨a, b, -, hc, -, e1, e2, -⟩ := C105_cool w st hH h1
    obtain ⟨k1, k2⟩ := key (m := H.maxAuxKw) hc (min_le_right (asksKw H b.iKw (stepDt f i) s) H.cntrlMaxKw)
    rw [e2, e1]
    exact ⟨neg_le_neg k2, neg_nonpos.2 k1⟩
  · intro h1
    obtain ⟨a, b, -, hc, -, e1, e2⟩ := C105_heat w st hH hd h1
    cases hw : H.useFcWasteHeat with
    | false =>
      obtain ⟨e3, e4, -⟩ := e1 hw
      obtain ⟨k1, k2⟩ := key (m := H.maxAuxKw) hc (min_le_right (-asksKw H b.iKw (stepDt f i) s) H.cntrlMaxKw)
      rw [e4, e3]
      exact ⟨k1, k2⟩
    | true =>
      rw [(e2 hw).2.1]
      exact ⟨le_max_right _ _, max_le ((min_le_left _ _).trans (min_le_right _ _)) hm⟩

/-- **C105 (the load).** The load of the climate control on the auxiliaries stays between zero and the largest load in the whole
history, if it starts there. -/
theorem C105_load {h f : Hot K} {soc : K} {aux : Option (List K)} (w : Walks F C T V P h soc aux f) {H : Hvac K}
    (hH : h.hvac = some H) (hd : 0 ≤ H.deadband) (hm : 0 ≤ H.maxAuxKw) (h0 : 0 ≤ h.state.cabHvacPwrAuxKw)
    (h1 : h.state.cabHvacPwrAuxKw ≤ H.maxAuxKw) : ∀ i, i < h.sd.cyc0.length → ∃ s, f.history[h.history.length + i]? = some s ∧
      0 ≤ s.cabHvacPwrAuxKw ∧ s.cabHvacPwrAuxKw ≤ H.maxAuxKw := by
  intro i
  induction i with
  | zero =>
    intro hi
    exact ⟨h.state, (C103_history w.same w.load w.walk).2.2.1, h0, h1⟩
  | succ i ih =>
    intro hi
    obtain ⟨s, hs, a1, a2⟩ := ih (by omega)
    have hl := (C103_history w.same w.load w.walk).2.1
    have hlt : h.history.length + (i + 1) < f.history.length := by omega
    have st : Steps h f (i + 1) s f.history[h.history.length + (i + 1)] :=
      ⟨by omega, hi, hs, List.getElem?_eq_getElem hlt⟩
    refine ⟨_, List.getElem?_eq_getElem hlt, ?_⟩
    generalize f.history[h.history.length + (i + 1)] = s' at st
    have key : ∀ x : K, 0 ≤ max (min x H.maxAuxKw) 0 ∧ max (min x H.maxAuxKw) 0 ≤ H.maxAuxKw :=
      fun x => ⟨le_max_right _ _, max_le (min_le_right _ _) hm⟩
    rcases lt_or_ge (H.teSet + H.deadband) s.cabTe with c | c
    · obtain ⟨a, b, -, -, -, e1, -⟩ := C105_cool w st hH c
      rw [e1]
      exact key _
    · rcases lt_or_ge s.cabTe (H.teSet - H.deadband) with d | d
      · obtain ⟨a, b, -, -, -, e1, e2⟩ := C105_heat w st hH hd d
        cases hw : H.useFcWasteHeat with
        | false => rw [(e1 hw).1]; exact key _
        | true => rw [(e2 hw).2.2.2]; exact ⟨a1, a2⟩
      · rw [(C105_deadband w st hH c d).2.2.1]
        exact ⟨a1, a2⟩

/-- **C105 (the heater does not overdraw).** With a positive step, the heat that the heater takes from the engine does not bring
the engine below the cabin, if the cabin has at most ten times the engine's thermal mass; from an engine colder than the cabin it
takes nothing. -/
theorem C105_waste {h f : Hot K} {soc : K} {aux : Option (List K)} {i : Nat} {s s' : Thermal K}
    (w : Walks F C T V P h soc aux f) (st : Steps h f i s s') {H : Hvac K} (hH : h.hvac = some H) (hd : 0 ≤ H.deadband)
    (hw : H.useFcWasteHeat = true) (h1 : s.cabTe < H.teSet - H.deadband) (hdt : 0 < stepDt f i) (hc : 0 < T.fcCKjK)
    (hcab : 0 ≤ T.cabCKjK) (h10 : T.cabCKjK ≤ 10 * T.fcCKjK) :
    (s.fcTe ≤ s.cabTe → s'.fcQdotToHtrKw = 0) ∧
    (s.cabTe ≤ s.fcTe → s.cabTe ≤ s.fcTe - s'.fcQdotToHtrKw / T.fcCKjK * stepDt f i) := by
  obtain ⟨a, b, -, -, -, -, e2⟩ := C105_heat w st hH hd h1
  obtain ⟨-, e3, e4, -⟩ := e2 hw
  constructor
  · intro hle
    rw [e4, e3]
    refine max_eq_right ((min_le_right _ _).trans ?_)
    refine div_nonpos_of_nonpos_of_nonneg ?_ hdt.le
    exact mul_nonpos_of_nonpos_of_nonneg (by linarith) hcab
  · intro hle
    have hq : s'.fcQdotToHtrKw ≤ (s.fcTe - s.cabTe) / 10 * T.cabCKjK / stepDt f i := by
      rw [e4, e3]
      exact max_le (min_le_right _ _) (div_nonneg (mul_nonneg (by linarith) hcab) hdt.le)
    have h2 : s'.fcQdotToHtrKw * stepDt f i ≤ (s.fcTe - s.cabTe) / 10 * T.cabCKjK := by
      rwa [le_div_iff₀ hdt] at hq
    have h3 : (s.fcTe - s.cabTe) / 10 * T.cabCKjK ≤ (s.fcTe - s.cabTe) * T.fcCKjK := by
      have := mul_le_mul_of_nonneg_left h10 (by linarith : 0 ≤ (s.fcTe - s.cabTe) / 10)
      linarith
    have : s'.fcQdotToHtrKw / T.fcCKjK * stepDt f i ≤ s.fcTe - s.cabTe := by
      rw [div_mul_eq_mul_div, div_le_iff₀ hc]
      exact h2.trans h3
    linarith

end Field
end Fastsim.Props
