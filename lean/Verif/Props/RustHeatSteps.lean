import Verif.Props.RustHeat

/-!
# C105: heat of engine and cabin
-/

set_option linter.unusedSectionVars false

namespace Fastsim.Spec
open Fastsim

section Lawless
variable {K : Type*} [Zero K] [One K] [NatCast K] [Add K] [Sub K] [Mul K] [Div K] [Neg K] [LinearOrder K]

/-- The Nusselt number of a sphere (Incropera, eq. 7.44): five ranges of the Reynolds number. -/
structure SphereNu (F : Fns K) (re pr nu : K) : Prop where
  first : re < 4 → nu = dec 989 1000 * F.pow re (dec 330 1000) * F.pow pr (1 / 3)
  second : 4 ≤ re → re < 40 → nu = dec 911 1000 * F.pow re (dec 385 1000) * F.pow pr (1 / 3)
  third : 40 ≤ re → re < 4000 → nu = dec 683 1000 * F.pow re (dec 466 1000) * F.pow pr (1 / 3)
  fourth : 4000 ≤ re → re < 40000 → nu = dec 193 1000 * F.pow re (dec 618 1000) * F.pow pr (1 / 3)
  fifth : 40000 ≤ re → nu = dec 27 1000 * F.pow re (dec 805 1000) * F.pow pr (1 / 3)

/-- The Nusselt number of a flat plate: laminar (Incropera, eq. 7.30) and mixed flow (eq. 7.38; the code multiplies by the
Prandtl number instead of its cube root). -/
structure PlateNu (F : Fns K) (re pr nu : K) : Prop where
  laminar : re < 500000 → nu = dec 664 1000 * F.pow re (dec 5 10) * F.pow pr (1 / 3)
  mixed : 500000 ≤ re → nu = (dec 37 1000 * F.pow re (dec 8 10) - 871) * pr

/-- Properties of air at a temperature: density, viscosity, conductivity, Prandtl number. -/
structure AirProps (F : Fns K) (te rho mu k pr : K) : Prop where
  rho : rho = airRho F te
  mu : mu = airAt airTe airMu te
  k : k = airAt airTe airK te
  pr : pr = airAt airTe airPr te

/-- The heat transfer coefficient of a sphere of diameter `l` in air of film temperature `te` at speed `v`. -/
def SphereHtc (F : Fns K) (l v te htc : K) : Prop :=
  ∃ rho mu k pr nu, AirProps F te rho mu k pr ∧ SphereNu F (rho * v * l / mu) pr nu ∧ htc = nu * k / l

/-- The effect of the thermostat on a coefficient: `closed` below the opening temperature, `eps` times as much when fully open,
linear between. -/
structure Thermostat (T : VehThrm K) (te closed htc : K) : Prop where
  cold : te ≤ T.tstatTeSto → htc = closed
  open' : T.tstatTeSto + T.tstatTeDelta ≤ te → htc = closed * T.radEps
  between : T.tstatTeSto ≤ te → te ≤ T.tstatTeSto + T.tstatTeDelta →
    htc = closed + closed * (T.radEps - 1) * (te - T.tstatTeSto) / T.tstatTeDelta

/-- Parameters with the signs that make sense. -/
structure WarmCar (F : Fns K) (C : HotConsts K) (T : VehThrm K) : Prop where
  pow : ∀ x y, 0 ≤ x → 0 ≤ F.pow x y
  pi : 0 ≤ C.pi
  l : 0 < T.fcL
  stop : 0 ≤ T.fcHtcToAmbStop
  eps : 0 ≤ T.radEps
  delta : 0 < T.tstatTeDelta

end Lawless
end Fastsim.Spec

namespace Fastsim.Props
open Fastsim Spec

section Field
variable {K : Type*} [Field K] [LinearOrder K] [IsStrictOrderedRing K]
variable {F : Fns K} {C : HotConsts K} {T : VehThrm K} {V : Veh K} {P : SimParams K}

/-- The parts of step `i`. -/
theorem Steps.parts {h f : Hot K} {soc : K} {aux : Option (List K)} {i : Nat} {s s' : Thermal K}
    (w : Walks F C T V P h soc aux f) (st : Steps h f i s s') : ∃ g g' amb s1 s2 s3,
      (h.hvac = none → g = none) ∧
      (∀ H, h.hvac = some H → ∃ a b, g = some a ∧ g' = some b ∧ SameHvac a H ∧ SameHvac b H ∧
        f.hvacHistory[h.hvacHistory.length + (i - 1)]? = some a ∧ f.hvacHistory[h.hvacHistory.length + i]? = some b) ∧
      ambAt h.amb i = .ok amb ∧
      afterEngine F C T (hotEnv V { f.sd with i := i }) (withAmb amb s) = .ok s1 ∧
      afterCabin F T (hotEnv V { f.sd with i := i }) s1 g = .ok (s2, g') ∧
      s3 = afterExhaust F C T (hotEnv V { f.sd with i := i }) s2 ∧
      s' = { fcBalance T (hotEnv V { f.sd with i := i }) s3 with fcEtaTempCoeff := s'.fcEtaTempCoeff } := by
  obtain ⟨g, g', rel, h1, h2⟩ := Steps.rel w st
  obtain ⟨amb, m, b1, b2, b3, -⟩ := rel.thermal
  rw [hotWalk_amb w.walk] at b1
  obtain ⟨s1, s2, c1, c2, rfl⟩ := setThermal_ok b2
  exact ⟨g, g', amb, s1, s2, _, h1, h2, b1, c1, c2, rfl, b3⟩

theorem withAmb_te (amb : Option K) (s : Thermal K) : (withAmb amb s).ambTe = amb.getD s.ambTe := by
  cases amb <;> rfl

/-- **C105 (ambient temperature).** Every entry of the history has the given ambient temperature of its step; without an array it
is that of the start. -/
theorem C105_ambient {h f : Hot K} {soc : K} {aux : Option (List K)} {i : Nat} {s s' : Thermal K}
    (w : Walks F C T V P h soc aux f) (st : Steps h f i s s') :
    (h.amb = none → s'.ambTe = s.ambTe) ∧ ∀ l, h.amb = some l → l[i]? = some s'.ambTe := by
  obtain ⟨g, g', amb, s1, s2, s3, -, -, b1, c1, c2, c3, c4⟩ := Steps.parts w st
  have e1 := congrArg Thermal.ambTe (afterEngine_frame c1)
  have e2 := congrArg Thermal.ambTe (afterCabin_frame c2).1
  obtain ⟨x, rfl, f1, f2, f3, f4, f5, f6, f7, f8, f9, f10, f11, f12, f13, f14, -⟩ :=
    afterExhaust_frame (F := F) (C := C) (T := T) (hotEnv V { f.sd with i := i }) s2
  have e3 := congrArg Thermal.ambTe (fcBalance_frame (T := T) (hotEnv V { f.sd with i := i }) s3)
  have e4 := congrArg Thermal.ambTe c4
  simp only at e1 e2 e3 e4
  rw [c3] at e3 e4
  rw [e3, f14, e2, e1, withAmb_te] at e4
  unfold ambAt at b1
  cases hA : h.amb with
  | none =>
    rw [hA] at b1
    cases b1
    exact ⟨fun _ => e4, fun l hl => by cases hl⟩
  | some l =>
    rw [hA] at b1
    refine ⟨(fun hn => by cases hn), fun l' hl' => ?_⟩
    cases hl'
    simp only at b1
    split at b1
    · rename_i a ha
      cases b1
      rw [ha, e4]
      rfl
    · cases b1

/-- What a step leaves to the engine. -/
theorem Steps.engine {h f : Hot K} {soc : K} {aux : Option (List K)} {i : Nat} {s s' : Thermal K}
    (w : Walks F C T V P h soc aux f) (st : Steps h f i s s') :
    s'.fcLambda = s.fcLambda ∧
    (T.fcModel = none → s'.fcTe = s.fcTe ∧ s'.fcQdotKw = s.fcQdotKw ∧ s'.fcQdotToAmbKw = s.fcQdotToAmbKw ∧
      s'.fcQdotPerNetHeat = s.fcQdotPerNetHeat ∧ s'.fcTeAdiabatic = s.fcTeAdiabatic) ∧
    (T.fcModel ≠ none →
      s'.fcTe = s.fcTe + (s'.fcQdotKw - s'.fcQdotToAmbKw - s'.fcQdotToHtrKw) / T.fcCKjK * stepDt f i ∧
      ∃ htc, fcHtcToAmb F T (hotEnv V { f.sd with i := i }) { s with ambTe := s'.ambTe } = .ok htc ∧
        (T.catInternal = false → s'.fcHtcToAmb = htc) ∧
        s'.fcQdotToAmbKw = htc * dec 1 1000 * (C.pi * F.pow T.fcL (2 / 4)) * (s.fcTe - s'.ambTe) ∧
        s'.fcTeAdiabatic = fcTeAdiabatic C { s with ambTe := s'.ambTe } ∧
        s'.fcQdotPerNetHeat = max (min (T.fcCoeffFromComb * (s'.fcTeAdiabatic - s.fcTe)) 1) 0 ∧
        s'.fcQdotKw = s'.fcQdotPerNetHeat * ((lastRow f i).fc.fcKwInAch - (lastRow f i).fc.fcKwOutAch)) := by
  obtain ⟨g, g', amb, s1, s2, s3, -, -, b1, c1, c2, c3, c4⟩ := Steps.parts w st
  obtain ⟨x, hx, f1, f2, f3, f4, f5, f6, f7, f8, f9, f10, f11, f12, f13, f14, -, f15⟩ :=
    afterExhaust_frame (F := F) (C := C) (T := T) (hotEnv V { f.sd with i := i }) s2
  rw [← c3] at hx
  subst hx
  have e0 := withAmb_frame amb s
  have e1 := afterEngine_frame c1
  have e2 := (afterCabin_frame c2).1
  have e3 := fcBalance_frame (T := T) (hotEnv V { f.sd with i := i }) x
  have p : ∀ {A : Type _} (π : Thermal K → A), π s' = π { fcBalance T (hotEnv V { f.sd with i := i }) x with
      fcEtaTempCoeff := s'.fcEtaTempCoeff } := fun π => congrArg π c4
  have amb2 : s'.ambTe = (withAmb amb s).ambTe := by
    rw [p Thermal.ambTe]; simp only
    rw [e3]; simp only
    rw [f14, e2]; simp only
    rw [e1]
  have hs : ({ s with ambTe := s'.ambTe } : Thermal K) = withAmb amb s := by rw [e0, amb2]
  have q1 : s'.fcQdotKw = s1.fcQdotKw := by
    rw [p Thermal.fcQdotKw]; simp only
    rw [e3]; simp only
    rw [f4, e2]
  have q2 : s'.fcQdotToAmbKw = s1.fcQdotToAmbKw := by
    rw [p Thermal.fcQdotToAmbKw]; simp only
    rw [e3]; simp only
    rw [f5, e2]
  have q3 : s'.fcQdotPerNetHeat = s1.fcQdotPerNetHeat := by
    rw [p Thermal.fcQdotPerNetHeat]; simp only
    rw [e3]; simp only
    rw [f3, e2]
  have q4 : s'.fcTeAdiabatic = s1.fcTeAdiabatic := by
    rw [p Thermal.fcTeAdiabatic]; simp only
    rw [e3]; simp only
    rw [f8, e2]
  have q5 : s'.fcQdotToHtrKw = x.fcQdotToHtrKw := by
    rw [p Thermal.fcQdotToHtrKw]; simp only
    rw [e3]
  have q6 : x.fcTe = s.fcTe := by
    rw [f1, e2]; simp only
    rw [e1]; simp only
    rw [e0]
  have q7 : T.catInternal = false → s'.fcHtcToAmb = s1.fcHtcToAmb := by
    intro hc
    rw [p Thermal.fcHtcToAmb]; simp only
    rw [e3]; simp only
    rw [(f15 hc).1, e2]
  refine ⟨?_, fun hn => ?_, fun hn => ?_⟩
  · rw [p Thermal.fcLambda]; simp only
    rw [e3]; simp only
    rw [f7, e2]; simp only
    rw [e1]; simp only
    rw [e0]
  · have z : s1 = withAmb amb s := by
      unfold afterEngine at c1
      rw [hn] at c1
      cases c1; rfl
    refine ⟨?_, ?_, ?_, ?_, ?_⟩
    · rw [p Thermal.fcTe]; simp only
      unfold fcBalance
      rw [hn]
      simp [q6]
    · rw [q1, z, e0]
    · rw [q2, z, e0]
    · rw [q3, z, e0]
    · rw [q4, z, e0]
  · have hi : T.fcModel.isSome = true := by
      cases q : T.fcModel with
      | none => exact absurd q hn
      | some _ => rfl
    refine ⟨?_, ?_⟩
    · rw [q1, q2, q5]
      rw [p Thermal.fcTe]; simp only
      unfold fcBalance
      rw [if_pos hi]
      simp only
      have r1 : x.fcQdotKw = s1.fcQdotKw := by rw [f4, e2]
      have r2 : x.fcQdotToAmbKw = s1.fcQdotToAmbKw := by rw [f5, e2]
      rw [q6, r1, r2]
      rfl
    · unfold afterEngine setFcThermal at c1
      rw [if_pos hi] at c1
      simp only [bind, Except.bind, pure, Except.pure] at c1
      split at c1
      · cases c1
      · rename_i htc hh
        cases c1
        rw [hs]
        have t1 : (withAmb amb s).fcTe = s.fcTe := by rw [e0]
        refine ⟨htc, hh, q7, ?_, q4, ?_, ?_⟩
        · rw [q2, amb2, ← t1]
        · rw [q3, q4, ← t1]
        · rw [q1, q3]; rfl

/-- **C105 (the engine's heat).** In every step the heat stored in the engine, thermal mass times change of temperature, is what
combustion leaves to it less what it gives to the air and to the heater, all as recorded in the history. An engine that is handled
outside keeps its temperature. -/
theorem C105_engine {h f : Hot K} {soc : K} {aux : Option (List K)} {i : Nat} {s s' : Thermal K}
    (w : Walks F C T V P h soc aux f) (st : Steps h f i s s') (hc : T.fcCKjK ≠ 0) :
    (T.fcModel ≠ none →
      T.fcCKjK * (s'.fcTe - s.fcTe) = (s'.fcQdotKw - s'.fcQdotToAmbKw - s'.fcQdotToHtrKw) * stepDt f i) ∧
    (T.fcModel = none → s'.fcTe = s.fcTe) := by
  obtain ⟨-, a, b⟩ := Steps.engine w st
  refine ⟨fun hn => ?_, fun hn => (a hn).1⟩
  rw [(b hn).1, add_sub_cancel_left]
  field_simp

/-- **C105 (heat of combustion).** What the fuel of the step before gave beyond the work of the engine goes in part to the
engine and, with an exhaust model, the rest to the exhaust; the part is between nothing and all of it, and grows with the
difference between flame and engine. -/
theorem C105_combustion {h f : Hot K} {soc : K} {aux : Option (List K)} {i : Nat} {s s' : Thermal K}
    (w : Walks F C T V P h soc aux f) (st : Steps h f i s s') (hT : T.fcModel ≠ none) :
    0 ≤ s'.fcQdotPerNetHeat ∧ s'.fcQdotPerNetHeat ≤ 1 ∧
    s'.fcQdotKw = s'.fcQdotPerNetHeat * ((lastRow f i).fc.fcKwInAch - (lastRow f i).fc.fcKwOutAch) ∧
    (0 ≤ T.fcCoeffFromComb * (s'.fcTeAdiabatic - s.fcTe) → T.fcCoeffFromComb * (s'.fcTeAdiabatic - s.fcTe) ≤ 1 →
      s'.fcQdotPerNetHeat = T.fcCoeffFromComb * (s'.fcTeAdiabatic - s.fcTe)) ∧
    (T.fcCoeffFromComb * (s'.fcTeAdiabatic - s.fcTe) ≤ 0 → s'.fcQdotKw = 0) ∧
    (1 ≤ T.fcCoeffFromComb * (s'.fcTeAdiabatic - s.fcTe) →
      s'.fcQdotKw = (lastRow f i).fc.fcKwInAch - (lastRow f i).fc.fcKwOutAch) := by
  obtain ⟨-, -, b⟩ := Steps.engine w st
  obtain ⟨-, htc, -, -, -, -, c1, c2⟩ := b hT
  refine ⟨?_, ?_, c2, fun h0 h1 => ?_, fun h0 => ?_, fun h1 => ?_⟩
  · rw [c1]; exact le_max_right _ _
  · rw [c1]; exact max_le (min_le_right _ _) zero_le_one
  · rw [c1, min_eq_left h1, max_eq_left h0]
  · rw [c2, c1, max_eq_right ((min_le_left _ _).trans h0), zero_mul]
  · rw [c2, c1, min_eq_right h1, max_eq_left zero_le_one, one_mul]

/-- **C105 (the flame).** The adiabatic flame temperature is that at which the exhaust, one part of fuel and `λ·AFR` of air, has
the enthalpy of the ambient air and the heat of the fuel that finds air. -/
theorem C105_flame {h f : Hot K} {soc : K} {aux : Option (List K)} {i : Nat} {s s' : Thermal K}
    (w : Walks F C T V P h soc aux f) (st : Steps h f i s s') (hT : T.fcModel ≠ none)
    (hpos : 0 < 1 + s.fcLambda * C.fuelAfrStoich) (heat : 0 ≤ fuelLhv C * 1000 * min s.fcLambda 1)
    (hmax : airAt airTe airH s'.ambTe + fuelLhv C * 1000 * min s.fcLambda 1 / (1 + s.fcLambda * C.fuelAfrStoich) ≤ 6662000) :
    (1 + s.fcLambda * C.fuelAfrStoich) * airAt airTe airH s'.fcTeAdiabatic =
      (1 + s.fcLambda * C.fuelAfrStoich) * airAt airTe airH s'.ambTe + fuelLhv C * 1000 * min s.fcLambda 1 ∧
    s'.fcLambda = s.fcLambda := by
  obtain ⟨hl, -, b⟩ := Steps.engine w st
  obtain ⟨-, htc, -, -, -, c1, -, -⟩ := b hT
  refine ⟨?_, hl⟩
  rw [c1]
  unfold fcTeAdiabatic
  simp only
  have e : ((1 + s.fcLambda * C.fuelAfrStoich) * airAt airTe airH s'.ambTe + fuelLhv C * 1000 * min s.fcLambda 1) /
      (1 + s.fcLambda * C.fuelAfrStoich) =
      airAt airTe airH s'.ambTe + fuelLhv C * 1000 * min s.fcLambda 1 / (1 + s.fcLambda * C.fuelAfrStoich) := by
    field_simp
  rw [e, air_back ?_ hmax]
  · field_simp
  · have : (338940 : K) ≤ airAt airTe airH s'.ambTe := by
      rw [(airAt_ok (ys := airH) (airTe_strict (K := K)) (by simp [airTe_length]) rfl _).2]
      have z := pairwise_zip (airTe_strict (K := K)) (airH_strict (K := K))
      cases q : (airTe : List K).zip (airH : List K) with
      | nil => cases q
      | cons p l =>
        rw [q] at z
        have f1 : p.2 = 338940 := by
          have : ((airTe : List K).zip (airH : List K))[0]? = some p := by rw [q]; rfl
          have h : ((airTe : List K).zip (airH : List K))[0]? = some ((-(dec 60 1) : K), (dec 338940 1 : K)) := rfl
          rw [h] at this
          cases this
          simp [dec]
        rw [← f1]
        exact interp_first_le (z.imp fun q => q.1) (z.imp fun q => q.2.le)
    have := div_nonneg heat hpos.le
    linarith

theorem sphere_nu (F : Fns K) (re pr : K) : SphereNu F re pr ((sphereConv re).1 * F.pow re (sphereConv re).2 * F.pow pr (1 / 3)) := by
  unfold sphereConv
  constructor
  · intro h; simp [h]
  · intro h1 h2; simp [h2, not_lt.2 h1]
  · intro h1 h2
    rw [if_neg (by linarith), if_neg (by linarith), if_pos h2]
  · intro h1 h2
    rw [if_neg (by linarith), if_neg (by linarith), if_neg (by linarith), if_pos h2]
  · intro h1
    rw [if_neg (by linarith), if_neg (by linarith), if_neg (by linarith), if_neg (by linarith)]

theorem thermostat_of {E : HotEnv K} {s : Thermal K} {htc : K} (hd : 0 < T.tstatTeDelta) (h : fcHtcToAmb F T E s = .ok htc) :
    ∃ closed, Thermostat T s.fcTe closed htc ∧ (E.mps < 1 → closed = T.fcHtcToAmbStop) ∧
      (1 ≤ E.mps → SphereHtc F T.fcL E.mps ((s.fcTe + s.ambTe) / 2) closed) := by
  have film : dec 5 10 * (s.fcTe + s.ambTe) = (s.fcTe + s.ambTe) / 2 := by
    unfold dec; norm_num; ring
  unfold fcHtcToAmb at h
  simp only [film] at h
  generalize hc : (if E.mps < 1 then T.fcHtcToAmbStop else _) = closed at h
  rw [rsInterpolate_eq (by simp [hd]) (by simp) (by simp)] at h
  have h := Except.ok.inj h
  refine ⟨closed, ⟨fun h0 => ?_, fun h1 => ?_, fun h0 h1 => ?_⟩, fun hm => ?_, fun hm => ?_⟩
  · rw [← h]
    simp only [List.zip_cons_cons, interp]
    rw [if_pos (by linarith), if_pos h0]
  · rw [← h]
    simp only [List.zip_cons_cons, List.zip_nil_right, interp]
    rw [if_neg (by linarith)]
  · rw [← h]
    simp only [List.zip_cons_cons, List.zip_nil_right, interp]
    have := hd.ne'
    rcases lt_or_eq_of_le h1 with h1 | h1
    · rw [if_pos h1]
      rcases lt_or_eq_of_le h0 with h0 | h0
      · rw [if_neg (by linarith), add_sub_cancel_left]
        field_simp
        ring
      · rw [if_pos h0.ge, h0]
        simp
    · rw [if_neg (by linarith), h1, add_sub_cancel_left]
      field_simp
      ring
  · rw [← hc, if_pos hm]
  · rw [if_neg (not_lt.2 hm)] at hc
    exact ⟨_, _, _, _, _, ⟨rfl, rfl, rfl, rfl⟩, sphere_nu F _ _, hc.symm⟩

/-- **C105 (heat to the air).** The engine gives heat to the air in proportion to the difference of temperatures: the
coefficient is a constant below 1 m/s and that of a sphere at the speed of the step before otherwise, scaled by the thermostat;
the surface is `π·√l`. -/
theorem C105_loss {h f : Hot K} {soc : K} {aux : Option (List K)} {i : Nat} {s s' : Thermal K}
    (w : Walks F C T V P h soc aux f) (st : Steps h f i s s') (hT : T.fcModel ≠ none) (hd : 0 < T.tstatTeDelta) :
    ∃ closed htc, Thermostat T s.fcTe closed htc ∧
      ((lastRow f i).ach.mpsAch < 1 → closed = T.fcHtcToAmbStop) ∧
      (1 ≤ (lastRow f i).ach.mpsAch → SphereHtc F T.fcL (lastRow f i).ach.mpsAch ((s.fcTe + s'.ambTe) / 2) closed) ∧
      1000 * s'.fcQdotToAmbKw = htc * (C.pi * F.pow T.fcL (2 / 4)) * (s.fcTe - s'.ambTe) ∧
      (T.catInternal = false → s'.fcHtcToAmb = htc) := by
  obtain ⟨-, -, b⟩ := Steps.engine w st
  obtain ⟨-, htc, c1, c2, c3, -, -, -⟩ := b hT
  obtain ⟨closed, d1, d2, d3⟩ := thermostat_of hd c1
  refine ⟨closed, htc, d1, d2, d3, ?_, c2⟩
  rw [c3]
  unfold dec
  norm_num
  ring

theorem sphereNu_nonneg {F : Fns K} (hp : ∀ x y, 0 ≤ x → 0 ≤ F.pow x y) {re pr nu : K} (h1 : 0 ≤ re) (h2 : 0 ≤ pr)
    (h : SphereNu F re pr nu) : 0 ≤ nu := by
  have d : ∀ a b : Nat, (0 : K) ≤ dec a b := fun a b => div_nonneg (Nat.cast_nonneg _) (Nat.cast_nonneg _)
  have q := fun y => hp re y h1
  have r := hp pr (1 / 3) h2
  rcases lt_or_ge re 4 with a | a
  · rw [h.first a]; exact mul_nonneg (mul_nonneg (d _ _) (q _)) r
  · rcases lt_or_ge re 40 with b | b
    · rw [h.second a b]; exact mul_nonneg (mul_nonneg (d _ _) (q _)) r
    · rcases lt_or_ge re 4000 with c | c
      · rw [h.third b c]; exact mul_nonneg (mul_nonneg (d _ _) (q _)) r
      · rcases lt_or_ge re 40000 with e | e
        · rw [h.fourth c e]; exact mul_nonneg (mul_nonneg (d _ _) (q _)) r
        · rw [h.fifth e]; exact mul_nonneg (mul_nonneg (d _ _) (q _)) r

theorem airRho_nonneg {F : Fns K} (hp : ∀ x y, 0 ≤ x → 0 ≤ F.pow x y) {te : K} (h : -(27315 / 100) ≤ te) : 0 ≤ airRho F te := by
  unfold airRho
  simp only [dec]
  refine div_nonneg (mul_nonneg (by norm_num) (hp _ _ (by norm_num))) (mul_nonneg (by norm_num) ?_)
  norm_num
  linarith

/-- **C105 (heat flows to the cold).** Above absolute zero, and with parameters that make sense, the heat that the engine gives to
the air has the sign of the difference between their temperatures. -/
theorem C105_direction {h f : Hot K} {soc : K} {aux : Option (List K)} {i : Nat} {s s' : Thermal K}
    (w : Walks F C T V P h soc aux f) (st : Steps h f i s s') (hT : T.fcModel ≠ none) (hw : WarmCar F C T)
    (h1 : -(27315 / 100) ≤ s.fcTe) (h2 : -(27315 / 100) ≤ s'.ambTe) (hv : 0 ≤ (lastRow f i).ach.mpsAch) :
    (s'.ambTe ≤ s.fcTe → 0 ≤ s'.fcQdotToAmbKw) ∧ (s.fcTe ≤ s'.ambTe → s'.fcQdotToAmbKw ≤ 0) := by
  obtain ⟨closed, htc, t, c1, c2, c3, -⟩ := C105_loss w st hT hw.delta
  have hcl : 0 ≤ closed := by
    rcases lt_or_ge (lastRow f i).ach.mpsAch 1 with a | a
    · rw [c1 a]; exact hw.stop
    · obtain ⟨rho, mu, k, pr, nu, ⟨rfl, rfl, rfl, rfl⟩, hn, rfl⟩ := c2 a
      refine div_nonneg (mul_nonneg (sphereNu_nonneg hw.pow ?_ (airPr_nonneg _) hn) (airK_nonneg _)) hw.l.le
      exact div_nonneg (mul_nonneg (mul_nonneg (airRho_nonneg hw.pow (by linarith)) hv) hw.l.le) (airMu_nonneg _)
  have hh : 0 ≤ htc := by
    rcases le_total s.fcTe T.tstatTeSto with a | a
    · rw [t.cold a]; exact hcl
    · rcases le_total s.fcTe (T.tstatTeSto + T.tstatTeDelta) with b | b
      · rw [t.between a b]
        have hd := hw.delta
        have e : closed + closed * (T.radEps - 1) * (s.fcTe - T.tstatTeSto) / T.tstatTeDelta =
            closed * ((T.tstatTeSto + T.tstatTeDelta - s.fcTe) + T.radEps * (s.fcTe - T.tstatTeSto)) / T.tstatTeDelta := by
          field_simp
          ring
        rw [e]
        exact div_nonneg (mul_nonneg hcl (add_nonneg (by linarith) (mul_nonneg hw.eps (by linarith)))) hd.le
      · rw [t.open' b]; exact mul_nonneg hcl hw.eps
  have hk : 0 ≤ htc * (C.pi * F.pow T.fcL (2 / 4)) := mul_nonneg hh (mul_nonneg hw.pi (hw.pow _ _ hw.l.le))
  constructor
  · intro hle
    have := mul_nonneg hk (sub_nonneg.2 hle)
    linarith
  · intro hle
    have := mul_nonneg hk (sub_nonneg.2 hle)
    have e : htc * (C.pi * F.pow T.fcL (2 / 4)) * (s'.ambTe - s.fcTe) = -(1000 * s'.fcQdotToAmbKw) := by rw [c3]; ring
    linarith

end Field
end Fastsim.Props
