import Verif.Props.RustExhaust
import Verif.Props.RustHeatDemo

/-!
# C139: how the engine of the thermal simulation cools
-/

set_option linter.unusedSectionVars false

namespace Fastsim.Spec
open Fastsim

section Field
variable {K : Type*} [Field K] [LinearOrder K] [IsStrictOrderedRing K]

/-- `g` is the conductance (kW/K) between engine and air in step `i`: the coefficient of the standing vehicle below 1 m/s, of a sphere
in air above, changed by the thermostat, times the surface the code uses. -/
def Conducts (F : Fns K) (C : HotConsts K) (T : VehThrm K) (f : Hot K) (i : Nat) (te amb g : K) : Prop :=
  ∃ closed htc, Thermostat T te closed htc ∧ ((lastRow f i).ach.mpsAch < 1 → closed = T.fcHtcToAmbStop) ∧
    (1 ≤ (lastRow f i).ach.mpsAch → SphereHtc F T.fcL (lastRow f i).ach.mpsAch ((te + amb) / 2) closed) ∧
    1000 * g = htc * (C.pi * F.pow T.fcL (2 / 4))

/-- The engine model keeps the efficiency coefficient between a positive minimum and one: linear, or exponential in the temperature of
the engine or of the catalyst. -/
def CoeffCut (F : Fns K) (T : VehThrm K) : Prop :=
  ∃ minimum, 0 < minimum ∧ minimum ≤ 1 ∧
    ((∃ offset slope comp, T.fcModel = some (.linear offset slope minimum, comp)) ∨
     ((∀ x, 0 ≤ F.exp x) ∧ ∃ offset lag, T.fcModel = some (.exponential offset lag minimum, .fuelConverter) ∨
        T.fcModel = some (.exponential offset lag minimum, .catalyst)))

/-- Every step is short: what the engine would lose in it at its conductance is no more than the difference to the air. -/
def CoolingSteps (F : Fns K) (C : HotConsts K) (T : VehThrm K) (h f : Hot K) : Prop :=
  ∀ i s s', Steps h f i s s' → ∀ g, Conducts F C T f i s.fcTe s'.ambTe g → g * stepDt f i ≤ T.fcCKjK

end Field
end Fastsim.Spec

namespace Fastsim.Props
open Fastsim Spec

section Field
variable {K : Type*} [Field K] [LinearOrder K] [IsStrictOrderedRing K]
variable {F : Fns K} {C : HotConsts K} {T : VehThrm K} {V : Veh K} {P : SimParams K}

theorem conducts_nonneg {f : Hot K} {i : Nat} {te amb g : K} (hw : WarmCar F C T) (h1 : -(27315 / 100) ≤ te)
    (h2 : -(27315 / 100) ≤ amb) (hv : 0 ≤ (lastRow f i).ach.mpsAch) (h : Conducts F C T f i te amb g) : 0 ≤ g := by
  obtain ⟨closed, htc, t, c1, c2, c3⟩ := h
  have hcl : 0 ≤ closed := by
    rcases lt_or_ge (lastRow f i).ach.mpsAch 1 with a | a
    · rw [c1 a]; exact hw.stop
    · obtain ⟨rho, mu, k, pr, nu, ⟨rfl, rfl, rfl, rfl⟩, hn, rfl⟩ := c2 a
      refine div_nonneg (mul_nonneg (sphereNu_nonneg hw.pow ?_ (airPr_nonneg _) hn) (airK_nonneg _)) hw.l.le
      exact div_nonneg (mul_nonneg (mul_nonneg (airRho_nonneg hw.pow (by linarith)) hv) hw.l.le) (airMu_nonneg _)
  have hh : 0 ≤ htc := by
    rcases le_total te T.tstatTeSto with a | a
    · rw [t.cold a]; exact hcl
    · rcases le_total te (T.tstatTeSto + T.tstatTeDelta) with b | b
      · rw [t.between a b]
        have hd := hw.delta
        have e : closed + closed * (T.radEps - 1) * (te - T.tstatTeSto) / T.tstatTeDelta =
            closed * ((T.tstatTeSto + T.tstatTeDelta - te) + T.radEps * (te - T.tstatTeSto)) / T.tstatTeDelta := by
          field_simp
          ring
        rw [e]
        exact div_nonneg (mul_nonneg hcl (add_nonneg (by linarith) (mul_nonneg hw.eps (by linarith)))) hd.le
      · rw [t.open' b]; exact mul_nonneg hcl hw.eps
  have hk : 0 ≤ htc * (C.pi * F.pow T.fcL (2 / 4)) := mul_nonneg hh (mul_nonneg hw.pi (hw.pow _ _ hw.l.le))
  linarith

/-- There is one conductance. -/
theorem conducts_unique {f : Hot K} {i : Nat} {te amb g g' : K} (h : Conducts F C T f i te amb g) (h' : Conducts F C T f i te amb g') :
    g = g' := by
  obtain ⟨closed, htc, t, c1, c2, c3⟩ := h
  obtain ⟨closed', htc', t', c1', c2', c3'⟩ := h'
  have e : closed = closed' := by
    rcases lt_or_ge (lastRow f i).ach.mpsAch 1 with a | a
    · rw [c1 a, c1' a]
    · obtain ⟨rho, mu, k, pr, nu, ⟨rfl, rfl, rfl, rfl⟩, hn, rfl⟩ := c2 a
      obtain ⟨rho', mu', k', pr', nu', ⟨rfl, rfl, rfl, rfl⟩, hn', rfl⟩ := c2' a
      have : nu = nu' := by
        generalize airRho F ((te + amb) / 2) * (lastRow f i).ach.mpsAch * T.fcL / airAt airTe airMu ((te + amb) / 2) = re at hn hn'
        rcases lt_or_ge re 4 with b | b
        · rw [hn.first b, hn'.first b]
        · rcases lt_or_ge re 40 with b' | b'
          · rw [hn.second b b', hn'.second b b']
          · rcases lt_or_ge re 4000 with d | d
            · rw [hn.third b' d, hn'.third b' d]
            · rcases lt_or_ge re 40000 with d' | d'
              · rw [hn.fourth d d', hn'.fourth d d']
              · rw [hn.fifth d', hn'.fifth d']
      rw [this]
  subst e
  have e : htc = htc' := by
    rcases le_total te T.tstatTeSto with a | a
    · rw [t.cold a, t'.cold a]
    · rcases le_total te (T.tstatTeSto + T.tstatTeDelta) with b | b
      · rw [t.between a b, t'.between a b]
      · rw [t.open' b, t'.open' b]
  rw [e] at c3
  linarith

/-- The conductance, from the recorded heat. -/
theorem conducts_recorded {h f : Hot K} {soc : K} {aux : Option (List K)} {i : Nat} {s s' : Thermal K}
    (w : Walks F C T V P h soc aux f) (st : Steps h f i s s') (hT : T.fcModel ≠ none) (hd : 0 < T.tstatTeDelta) {g : K}
    (hg : Conducts F C T f i s.fcTe s'.ambTe g) : s'.fcQdotToAmbKw = g * (s.fcTe - s'.ambTe) := by
  obtain ⟨closed, htc, t, c1, c2, c3, -⟩ := C105_loss w st hT hd
  have : g = htc * (C.pi * F.pow T.fcL (2 / 4)) / 1000 := conducts_unique hg ⟨closed, htc, t, c1, c2, by ring⟩
  rw [this]
  linarith

/-- **C139 (one step).** In every step the distance of the engine's temperature from that of the air is multiplied by one less the
conductance times the duration over the thermal mass, and the heat of combustion less that of the heater is added. -/
theorem C139_step {h f : Hot K} {soc : K} {aux : Option (List K)} {i : Nat} {s s' : Thermal K}
    (w : Walks F C T V P h soc aux f) (st : Steps h f i s s') (hT : T.fcModel ≠ none) (hd : 0 < T.tstatTeDelta)
    (hc : T.fcCKjK ≠ 0) : ∃ g, Conducts F C T f i s.fcTe s'.ambTe g ∧
      s'.fcTe - s'.ambTe = (1 - g * stepDt f i / T.fcCKjK) * (s.fcTe - s'.ambTe) +
        (s'.fcQdotKw - s'.fcQdotToHtrKw) * stepDt f i / T.fcCKjK := by
  obtain ⟨closed, htc, t, c1, c2, c3, -⟩ := C105_loss w st hT hd
  have e := (C105_engine w st hc).1 hT
  refine ⟨htc * (C.pi * F.pow T.fcL (2 / 4)) / 1000, ⟨closed, htc, t, c1, c2, by ring⟩, ?_⟩
  have q : s'.fcQdotToAmbKw = htc * (C.pi * F.pow T.fcL (2 / 4)) / 1000 * (s.fcTe - s'.ambTe) := by linarith
  rw [q] at e
  generalize htc * (C.pi * F.pow T.fcL (2 / 4)) / 1000 = g at e ⊢
  field_simp
  linarith

/-- **C139 (an engine that is off).** If neither combustion nor the heater moves heat, a short step brings the engine towards the air
and not past it, and a longer step brings it past. -/
theorem C139_off {h f : Hot K} {soc : K} {aux : Option (List K)} {i : Nat} {s s' : Thermal K}
    (w : Walks F C T V P h soc aux f) (st : Steps h f i s s') (hT : T.fcModel ≠ none) (hw : WarmCar F C T)
    (hc : 0 < T.fcCKjK) (h1 : -(27315 / 100) ≤ s.fcTe) (h2 : -(27315 / 100) ≤ s'.ambTe) (hv : 0 ≤ (lastRow f i).ach.mpsAch)
    (hoff : (lastRow f i).fc.fcKwInAch = (lastRow f i).fc.fcKwOutAch) (hheat : s'.fcQdotToHtrKw = 0) (hdt : 0 ≤ stepDt f i) :
    ∃ g, Conducts F C T f i s.fcTe s'.ambTe g ∧ 0 ≤ g ∧
      (g * stepDt f i ≤ T.fcCKjK → min s.fcTe s'.ambTe ≤ s'.fcTe ∧ s'.fcTe ≤ max s.fcTe s'.ambTe) ∧
      (T.fcCKjK < g * stepDt f i →
        (s'.ambTe < s.fcTe → s'.fcTe < s'.ambTe) ∧ (s.fcTe < s'.ambTe → s'.ambTe < s'.fcTe)) := by
  obtain ⟨g, hg, e⟩ := C139_step w st hT hw.delta hc.ne'
  have g0 := conducts_nonneg hw h1 h2 hv hg
  obtain ⟨-, -, c, -⟩ := C105_combustion w st hT
  rw [hoff, sub_self, mul_zero] at c
  rw [c, hheat, sub_zero, zero_mul, zero_div, add_zero] at e
  have k0 : 0 ≤ g * stepDt f i / T.fcCKjK := div_nonneg (mul_nonneg g0 hdt) hc.le
  refine ⟨g, hg, g0, fun hs => ?_, fun hs => ?_⟩
  · have k1 : g * stepDt f i / T.fcCKjK ≤ 1 := (div_le_one hc).2 hs
    generalize g * stepDt f i / T.fcCKjK = k at *
    rcases le_total s.fcTe s'.ambTe with a | a
    · rw [min_eq_left a, max_eq_right a]
      constructor <;> nlinarith
    · rw [min_eq_right a, max_eq_left a]
      constructor <;> nlinarith
  · have k1 : 1 < g * stepDt f i / T.fcCKjK := (one_lt_div hc).2 hs
    generalize g * stepDt f i / T.fcCKjK = k at *
    constructor <;> intro a <;> nlinarith

/-- A property that the state at the start of a walk has and every step keeps. -/
theorem walk_invariant {h f : Hot K} {soc : K} {aux : Option (List K)} (w : Walks F C T V P h soc aux f) (Q : Thermal K → Prop)
    (h0 : Q h.state) (hs : ∀ i s s', Steps h f i s s' → Q s → Q s') :
    ∀ n s, n < h.sd.cyc0.length → f.history[h.history.length + n]? = some s → Q s := by
  obtain ⟨q1, q2, q3, q4⟩ := C103_history w.same w.load w.walk
  intro n
  induction n with
  | zero =>
    intro s _ e
    rw [add_zero, q3] at e
    exact Option.some.inj e ▸ h0
  | succ n ih =>
    intro s hn e
    have hlt : h.history.length + n < f.history.length := by omega
    exact hs (n + 1) _ s ⟨by omega, hn, List.getElem?_eq_getElem hlt, e⟩ (ih _ (by omega) (List.getElem?_eq_getElem hlt))

/-- **C139 (fuel).** With an engine model that keeps its coefficient between a positive minimum and one, and efficiencies from zero to
one in the engine map, every row of a thermal simulation has at least as much fuel power as engine output, wherever that is not
negative. -/
theorem C139_fuel {h f : Hot K} {soc : K} {aux : Option (List K)} (w : Walks F C T V P h soc aux f) (hk : CoeffCut F T)
    (heff : ∀ x ∈ V.fcEffArray, 0 < x ∧ x ≤ 1) {i : Nat} (hi : i < h.sd.cyc0.length)
    (ho : 0 ≤ (f.sd.rows.getD i Row.zero).fc.fcKwOutAch) :
    (f.sd.rows.getD i Row.zero).fc.fcKwOutAch ≤ (f.sd.rows.getD i Row.zero).fc.fcKwInAch := by
  rcases Nat.eq_zero_or_pos i with rfl | pos
  · obtain ⟨-, S, G, -, -, -, -, -, -, -, -, -, -, -, -, -, -, -, e, -⟩ := hotWalk_trace w.same w.load w.walk
    rw [e]
    exact le_refl (0 : K)
  · obtain ⟨s, s', a, b, k⟩ := C103_fuel w.same w.load w.walk pos hi
    simp only at k
    obtain ⟨-, -, k0, k1⟩ := k
    by_cases z : (f.sd.rows.getD i Row.zero).fc.fcKwOutAch = 0
    · rw [(k0 z).1, z]
    · obtain ⟨j, eff, q1, q2, -⟩ := k1 z
      obtain ⟨e0, e1⟩ := heff eff (List.mem_of_getElem? q1)
      have hr : Runs h f i s s' := ⟨pos, hi, a, b, z⟩
      have cc : 0 < s'.fcEtaTempCoeff ∧ s'.fcEtaTempCoeff ≤ 1 := by
        obtain ⟨minimum, m0, m1, ⟨offset, slope, comp, e⟩ | ⟨hx, offset, lag, e⟩⟩ := hk
        · obtain ⟨l, u⟩ := (C103_linear w hr e).1 m1
          exact ⟨m0.trans_le l, u⟩
        · rcases e with e | e
          · obtain ⟨l, u, -⟩ := C103_exponential w hr (Or.inl ⟨e, rfl⟩)
            exact ⟨m0.trans_le l, u hx m1⟩
          · obtain ⟨l, u, -⟩ := C103_exponential w hr (Or.inr ⟨e, rfl⟩)
            exact ⟨m0.trans_le l, u hx m1⟩
      rw [q2, div_div]
      exact (le_div_iff₀ (mul_pos e0 cc.1)).2 (mul_le_of_le_one_right ho (mul_le_one₀ e1 cc.1.le cc.2))

/-- **C139 (no colder than the air).** In a drive of a vehicle without cabin model, with short steps, the engine never gets colder than
a temperature that neither it at the start nor the air is below. -/
theorem C139_floor {h f : Hot K} {soc : K} {aux : Option (List K)} (w : Walks F C T V P h soc aux f) (hT : T.fcModel ≠ none)
    (hw : WarmCar F C T) (hc : 0 < T.fcCKjK) (hn : h.hvac = none) (hq : h.state.fcQdotToHtrKw = 0)
    (hdt : ∀ i, 0 < i → i < h.sd.cyc0.length → 0 ≤ stepDt f i)
    (hv : ∀ i, 0 < i → i < h.sd.cyc0.length → 0 ≤ (lastRow f i).ach.mpsAch)
    (hfuel : ∀ i, 0 < i → i < h.sd.cyc0.length → (lastRow f i).fc.fcKwOutAch ≤ (lastRow f i).fc.fcKwInAch)
    (hshort : CoolingSteps F C T h f) {m : K} (hm : -(27315 / 100) ≤ m) (h0 : m ≤ h.state.fcTe) (ha : ∀ i s s', Steps h f i s s' → m ≤ s'.ambTe) :
    ∀ n s, n < h.sd.cyc0.length → f.history[h.history.length + n]? = some s → m ≤ s.fcTe := by
  intro n s hlt e
  refine (walk_invariant w (fun s => m ≤ s.fcTe ∧ s.fcQdotToHtrKw = 0) ⟨h0, hq⟩ ?_ n s hlt e).1
  rintro i s s' st ⟨a, b⟩
  have hh : s'.fcQdotToHtrKw = 0 := by rw [((Steps.cabin w st).1 hn).2.2.2.2.2, b]
  refine ⟨?_, hh⟩
  obtain ⟨g, hg, e⟩ := C139_step w st hT hw.delta hc.ne'
  have amb := ha i s s' st
  have g0 := conducts_nonneg hw (hm.trans a) (hm.trans amb) (hv i st.pos st.lt) hg
  obtain ⟨p0, -, c, -⟩ := C105_combustion w st hT
  have d := hdt i st.pos st.lt
  have k0 : 0 ≤ g * stepDt f i / T.fcCKjK := div_nonneg (mul_nonneg g0 d) hc.le
  have k1 : g * stepDt f i / T.fcCKjK ≤ 1 := (div_le_one hc).2 (hshort i s s' st g hg)
  have q0 : 0 ≤ (s'.fcQdotKw - s'.fcQdotToHtrKw) * stepDt f i / T.fcCKjK := by
    rw [hh, sub_zero, c]
    exact div_nonneg (mul_nonneg (mul_nonneg p0 (sub_nonneg.2 (hfuel i st.pos st.lt))) d) hc.le
  generalize g * stepDt f i / T.fcCKjK = k at *
  nlinarith

/-- **C139 (no colder than the air, from the vehicle).** The fuel that `C139_floor` asks for follows from the engine model and map. -/
theorem C139_floor_vehicle {h f : Hot K} {soc : K} {aux : Option (List K)} (w : Walks F C T V P h soc aux f) (hk : CoeffCut F T)
    (heff : ∀ x ∈ V.fcEffArray, 0 < x ∧ x ≤ 1) (hw : WarmCar F C T) (hc : 0 < T.fcCKjK) (hn : h.hvac = none)
    (hq : h.state.fcQdotToHtrKw = 0) (hdt : ∀ i, 0 < i → i < h.sd.cyc0.length → 0 ≤ stepDt f i)
    (hv : ∀ r ∈ f.sd.rows, 0 ≤ r.ach.mpsAch ∧ 0 ≤ r.fc.fcKwOutAch)
    (hshort : CoolingSteps F C T h f) {m : K} (hm : -(27315 / 100) ≤ m) (h0 : m ≤ h.state.fcTe)
    (ha : ∀ i s s', Steps h f i s s' → m ≤ s'.ambTe) :
    ∀ n s, n < h.sd.cyc0.length → f.history[h.history.length + n]? = some s → m ≤ s.fcTe := by
  have hT : T.fcModel ≠ none := by
    obtain ⟨_, -, -, ⟨_, _, _, e⟩ | ⟨-, _, _, e | e⟩⟩ := hk <;> rw [e] <;> exact Option.some_ne_none _
  have hr : ∀ i, 0 ≤ (f.sd.rows.getD i Row.zero).ach.mpsAch ∧ 0 ≤ (f.sd.rows.getD i Row.zero).fc.fcKwOutAch := by
    intro i
    rw [List.getD_eq_getElem?_getD]
    cases q : f.sd.rows[i]? with
    | none => exact ⟨le_refl (0 : K), le_refl (0 : K)⟩
    | some r => exact hv r (List.mem_of_getElem? q)
  exact C139_floor w hT hw hc hn hq hdt (fun i _ _ => (hr (i - 1)).1)
    (fun i _ b => C139_fuel w hk heff (by omega) (hr (i - 1)).2) hshort hm h0 ha

/-- **C139 (no warmer than the air without fuel).** If no fuel is burnt either, the engine never gets warmer than a temperature that
neither it at the start nor the air is above. -/
theorem C139_ceiling {h f : Hot K} {soc : K} {aux : Option (List K)} (w : Walks F C T V P h soc aux f) (hT : T.fcModel ≠ none)
    (hw : WarmCar F C T) (hc : 0 < T.fcCKjK) (hn : h.hvac = none) (hq : h.state.fcQdotToHtrKw = 0)
    (hdt : ∀ i, 0 < i → i < h.sd.cyc0.length → 0 ≤ stepDt f i)
    (hv : ∀ i, 0 < i → i < h.sd.cyc0.length → 0 ≤ (lastRow f i).ach.mpsAch)
    (hoff : ∀ i, 0 < i → i < h.sd.cyc0.length → (lastRow f i).fc.fcKwOutAch = (lastRow f i).fc.fcKwInAch)
    (hshort : CoolingSteps F C T h f) {m M : K}
    (hm : -(27315 / 100) ≤ m) (h0 : m ≤ h.state.fcTe) (h0' : h.state.fcTe ≤ M)
    (ha : ∀ i s s', Steps h f i s s' → m ≤ s'.ambTe ∧ s'.ambTe ≤ M) :
    ∀ n s, n < h.sd.cyc0.length → f.history[h.history.length + n]? = some s → s.fcTe ≤ M := by
  intro n s hlt e
  refine (walk_invariant w (fun s => (m ≤ s.fcTe ∧ s.fcTe ≤ M) ∧ s.fcQdotToHtrKw = 0) ⟨⟨h0, h0'⟩, hq⟩ ?_ n s hlt e).1.2
  rintro i s s' st ⟨⟨a, a'⟩, b⟩
  have hh : s'.fcQdotToHtrKw = 0 := by rw [((Steps.cabin w st).1 hn).2.2.2.2.2, b]
  obtain ⟨amb, amb'⟩ := ha i s s' st
  obtain ⟨g, hg, -, k, -⟩ := C139_off w st hT hw hc (hm.trans a) (hm.trans amb) (hv i st.pos st.lt) (hoff i st.pos st.lt).symm hh
    (hdt i st.pos st.lt)
  obtain ⟨k1, k2⟩ := k (hshort i s s' st g hg)
  exact ⟨⟨(le_min a amb).trans k1, k2.trans (max_le a' amb')⟩, hh⟩

/-- Steps are short if the recorded heat says so. -/
theorem cooling_of_recorded {h f : Hot K} {soc : K} {aux : Option (List K)} (w : Walks F C T V P h soc aux f)
    (hT : T.fcModel ≠ none) (hd : 0 < T.tstatTeDelta)
    (ok : ∀ i s s', Steps h f i s s' → s'.ambTe < s.fcTe ∧ s'.fcQdotToAmbKw * stepDt f i ≤ T.fcCKjK * (s.fcTe - s'.ambTe)) :
    CoolingSteps F C T h f := by
  intro i s s' st g hg
  obtain ⟨a, b⟩ := ok i s s' st
  rw [conducts_recorded w st hT hd hg] at b
  have d : 0 < s.fcTe - s'.ambTe := sub_pos.2 a
  exact le_of_mul_le_mul_right (by linarith) d

end Field

namespace CoolingDemo
open Fastsim.Demo

/-- The car of the cases: thermal mass `c` of the engine. -/
def car (c : ℚ) : VehThrm ℚ := { linearCar with fcCKjK := c }

theorem warm (c : ℚ) : WarmCar hotFns hotConsts (car c) := by
  refine ⟨?_, by decide +kernel, ?_, ?_, ?_, ?_⟩
  · intro x y _
    show (0 : ℚ) ≤ if x = 1 then 1 else 100
    split <;> norm_num
  all_goals
    first
    | show (0 : ℚ) < linearCar.fcL; decide +kernel
    | show (0 : ℚ) ≤ linearCar.fcHtcToAmbStop; decide +kernel
    | show (0 : ℚ) < linearCar.tstatTeDelta; decide +kernel
    | show (0 : ℚ) ≤ linearCar.radEps; decide +kernel

/-- What is checked of a drive of six samples: in air at 20 °C steps are short and last, the vehicle does not go backwards. -/
def check (c : ℚ) (f : Hot ℚ) (i : Nat) : Bool :=
  match f.history[i - 1]?, f.history[i]? with
  | some s, some s' => decide (s'.ambTe = 20 ∧ 20 < s.fcTe ∧ s'.fcQdotToAmbKw * stepDt f i ≤ c * (s.fcTe - s'.ambTe) ∧
      0 < stepDt f i ∧ 0 ≤ (lastRow f i).ach.mpsAch ∧ (lastRow f i).fc.fcKwOutAch ≤ (lastRow f i).fc.fcKwInAch)
  | _, _ => false

theorem check_sound {c : ℚ} {V : Veh ℚ} {f : Hot ℚ} {te : ℚ} (w : hotWalk hotFns hotConsts (car c) V params (hotStart te) (1 / 2) none = .ok f)
    (hc : ∀ i ∈ List.range' 1 5, check c f i = true) :
    Walks hotFns hotConsts (car c) V params (hotStart te) (1 / 2) none f ∧
    CoolingSteps hotFns hotConsts (car c) (hotStart te) f ∧
    (∀ i, 0 < i → i < (hotStart te).sd.cyc0.length → 0 < stepDt f i ∧ 0 ≤ (lastRow f i).ach.mpsAch ∧
      (lastRow f i).fc.fcKwOutAch ≤ (lastRow f i).fc.fcKwInAch) ∧
    ∀ i s s', Steps (hotStart te) f i s s' → s'.ambTe = 20 := by
  have ws : Walks hotFns hotConsts (car c) V params (hotStart te) (1 / 2) none f := ⟨rfl, fun x e => (nomatch e), w⟩
  have key : ∀ i s s', Steps (hotStart te) f i s s' → s'.ambTe = 20 ∧ 20 < s.fcTe ∧
      s'.fcQdotToAmbKw * stepDt f i ≤ c * (s.fcTe - s'.ambTe) := by
    intro i s s' st
    have l : i < 6 := st.lt
    have := hc i (List.mem_range'_1.2 ⟨st.pos, by omega⟩)
    have b : f.history[i - 1]? = some s := by simpa [hotStart] using st.before
    have a : f.history[i]? = some s' := by simpa [hotStart] using st.after
    simp only [check, a, b, decide_eq_true_eq] at this
    exact ⟨this.1, this.2.1, this.2.2.1⟩
  refine ⟨ws, cooling_of_recorded ws (by simp [car, linearCar]) (warm c).delta ?_, ?_, fun i s s' st => (key i s s' st).1⟩
  · intro i s s' st
    obtain ⟨a, b, d⟩ := key i s s' st
    exact ⟨by rw [a]; exact b, d⟩
  · intro i hi hl
    have l : i < 6 := hl
    have := hc i (List.mem_range'_1.2 ⟨hi, by omega⟩)
    simp only [check] at this
    split at this
    · simp only [decide_eq_true_eq] at this
      exact this.2.2.2
    · cases this

/-- A drive that completes and passes a test. -/
theorem found {c : ℚ} {V : Veh ℚ} {te : ℚ} {t : Hot ℚ → Bool}
    (h : (match hotWalk hotFns hotConsts (car c) V params (hotStart te) (1 / 2) none with | .ok f => t f | .error _ => false) = true) :
    ∃ f, hotWalk hotFns hotConsts (car c) V params (hotStart te) (1 / 2) none = .ok f ∧ t f = true := by
  split at h
  · exact ⟨_, ‹_›, h⟩
  · cases h

/-- **C139 (case).** The settings of `C139_floor` are met by the vehicle with an engine in air at 20 °C, starting at 60 °C. The engine
cools in the first step and warms in the second. -/
theorem C139_demo : ∃ f, Walks hotFns hotConsts (car 150) conv params (hotStart 60) (1 / 2) none f ∧
    WarmCar hotFns hotConsts (car 150) ∧ CoolingSteps hotFns hotConsts (car 150) (hotStart 60) f ∧
    (∀ i, 0 < i → i < (hotStart 60).sd.cyc0.length → 0 < stepDt f i ∧ 0 ≤ (lastRow f i).ach.mpsAch ∧
      (lastRow f i).fc.fcKwOutAch ≤ (lastRow f i).fc.fcKwInAch) ∧
    (∀ i s s', Steps (hotStart 60) f i s s' → (20 : ℚ) ≤ s'.ambTe) ∧
    (hotStart 60).hvac = none ∧ (hotStart 60).state.fcQdotToHtrKw = 0 ∧ (car 150).fcModel ≠ none ∧
    (∀ n s, n < (hotStart 60).sd.cyc0.length → f.history[(hotStart 60).history.length + n]? = some s → 20 ≤ s.fcTe) ∧
    (∃ a b c, f.history[0]? = some a ∧ f.history[1]? = some b ∧ f.history[2]? = some c ∧ b.fcTe < a.fcTe ∧ b.fcTe < c.fcTe) := by
  obtain ⟨f, w, t⟩ := found (c := 150) (V := conv) (te := 60)
    (t := fun f => decide (∀ i ∈ List.range' 1 5, check 150 f i = true) && match f.history with
      | a :: b :: c :: _ => decide (b.fcTe < a.fcTe ∧ b.fcTe < c.fcTe)
      | _ => false) (by decide +kernel)
  rw [Bool.and_eq_true, decide_eq_true_eq] at t
  obtain ⟨ws, k, m, n⟩ := check_sound w t.1
  have hm : (car 150).fcModel ≠ none := by simp [car, linearCar]
  have amb : ∀ i s s', Steps (hotStart 60) f i s s' → (20 : ℚ) ≤ s'.ambTe := fun i s s' st => (n i s s' st).ge
  refine ⟨f, ws, warm _, k, m, amb, rfl, rfl, hm, C139_floor ws hm (warm _) (by norm_num [car]) rfl rfl (fun i a b => (m i a b).1.le)
    (fun i a b => (m i a b).2.1) (fun i a b => (m i a b).2.2) k (by norm_num) (by decide +kernel) amb, ?_⟩
  have t2 := t.2
  split at t2
  · rename_i a b c l e
    simp only [decide_eq_true_eq] at t2
    exact ⟨a, b, c, by rw [e]; rfl, by rw [e]; rfl, by rw [e]; rfl, t2.1, t2.2⟩
  · cases t2

/-- The drive of `C139_demo` meets the hypotheses of `C139_floor_vehicle`, and its engine runs. -/
theorem C139_demo_vehicle : CoeffCut hotFns (car 150) ∧ (∀ x ∈ (conv : Veh ℚ).fcEffArray, 0 < x ∧ x ≤ 1) ∧
    ∃ f, Walks hotFns hotConsts (car 150) conv params (hotStart 60) (1 / 2) none f ∧
      (∀ r ∈ f.sd.rows, 0 ≤ r.ach.mpsAch ∧ 0 ≤ r.fc.fcKwOutAch) ∧
      (∀ n s, n < (hotStart 60).sd.cyc0.length → f.history[(hotStart 60).history.length + n]? = some s → 20 ≤ s.fcTe) ∧
      ∃ r ∈ f.sd.rows, 0 < r.fc.fcKwOutAch ∧ r.fc.fcKwOutAch < r.fc.fcKwInAch := by
  have hk : CoeffCut hotFns (car 150) := ⟨_, by norm_num, by norm_num, Or.inl ⟨_, _, _, rfl⟩⟩
  have he : ∀ x ∈ (conv : Veh ℚ).fcEffArray, 0 < x ∧ x ≤ 1 := by decide +kernel
  obtain ⟨f, w, t⟩ := found (c := 150) (V := conv) (te := 60)
    (t := fun f => decide (∀ i ∈ List.range' 1 5, check 150 f i = true) && decide ((∀ r ∈ f.sd.rows, 0 ≤ r.ach.mpsAch ∧
      0 ≤ r.fc.fcKwOutAch) ∧ ∃ r ∈ f.sd.rows, 0 < r.fc.fcKwOutAch ∧ r.fc.fcKwOutAch < r.fc.fcKwInAch)) (by decide +kernel)
  rw [Bool.and_eq_true, decide_eq_true_eq, decide_eq_true_eq] at t
  obtain ⟨t, tv, te⟩ := t
  obtain ⟨ws, k, m, n⟩ := check_sound w t
  exact ⟨hk, he, f, ws, tv, C139_floor_vehicle ws hk he (warm _) (by norm_num [car]) rfl rfl (fun i a b => (m i a b).1.le) tv k
    (by norm_num) (by decide +kernel) (fun i s s' st => (n i s s' st).ge), te⟩

/-- **C139 (case without fuel).** The settings of `C139_ceiling` are met by the battery-electric vehicle: what the model calls engine
cools in every step. -/
theorem C139_demo_off : ∃ f, Walks hotFns hotConsts (car 2) bev params (hotStart 60) (1 / 2) none f ∧
    CoolingSteps hotFns hotConsts (car 2) (hotStart 60) f ∧
    (∀ i, 0 < i → i < (hotStart 60).sd.cyc0.length → (lastRow f i).fc.fcKwOutAch = (lastRow f i).fc.fcKwInAch) ∧
    (∀ n s, n < (hotStart 60).sd.cyc0.length → f.history[(hotStart 60).history.length + n]? = some s → 20 ≤ s.fcTe ∧ s.fcTe ≤ 60) ∧
    f.history.length = 6 ∧ ∀ p ∈ pairs f, p.2.fcTe < p.1.fcTe := by
  obtain ⟨f, w, t⟩ := found (c := 2) (V := bev) (te := 60)
    (t := fun f => decide (∀ i ∈ List.range' 1 5, check 2 f i = true) && decide ((∀ i ∈ List.range' 1 5,
      (lastRow f i).fc.fcKwOutAch = (lastRow f i).fc.fcKwInAch) ∧ f.history.length = 6 ∧ ∀ p ∈ pairs f, p.2.fcTe < p.1.fcTe))
    (by decide +kernel)
  rw [Bool.and_eq_true, decide_eq_true_eq, decide_eq_true_eq] at t
  obtain ⟨t, tf, tl, tp⟩ := t
  obtain ⟨ws, k, m, n⟩ := check_sound w t
  have hm : (car 2).fcModel ≠ none := by simp [car, linearCar]
  have off : ∀ i, 0 < i → i < (hotStart 60).sd.cyc0.length → (lastRow f i).fc.fcKwOutAch = (lastRow f i).fc.fcKwInAch := by
    intro i a b
    have l : i < 6 := b
    exact tf i (List.mem_range'_1.2 ⟨a, by omega⟩)
  have lo := C139_floor ws hm (warm _) (by norm_num [car]) rfl rfl (fun i a b => (m i a b).1.le)
    (fun i a b => (m i a b).2.1) (fun i a b => (m i a b).2.2) k (m := 20) (by norm_num) (by decide +kernel)
    (fun i s s' st => (n i s s' st).ge)
  have hi := C139_ceiling ws hm (warm _) (by norm_num [car]) rfl rfl (fun i a b => (m i a b).1.le)
    (fun i a b => (m i a b).2.1) off k (m := 20) (M := 60) (by norm_num) (by decide +kernel) (by decide +kernel)
    (fun i s s' st => ⟨(n i s s' st).ge, by rw [n i s s' st]; norm_num⟩)
  exact ⟨f, ws, k, off, fun i s a b => ⟨lo i s a b, hi i s a b⟩, tl, tp⟩

/-- **C139 (found: a light engine).** The loss of a step is not limited by the difference to the air: with a small thermal mass the
engine is below freezing after one second in air at 20 °C. -/
theorem C139_overshoot : ∃ f, Walks hotFns hotConsts (car (1 / 10)) bev params (hotStart 60) (1 / 2) none f ∧
    ∃ s, f.history[1]? = some s ∧ s.ambTe = 20 ∧ s.fcTe < 0 := by
  obtain ⟨f, w, t⟩ := found (c := 1 / 10) (V := bev) (te := 60)
    (t := fun f => match f.history with
      | _ :: b :: _ => decide (b.ambTe = 20 ∧ b.fcTe < 0)
      | _ => false) (by decide +kernel)
  refine ⟨f, ⟨rfl, fun x e => (nomatch e), w⟩, ?_⟩
  split at t
  · rename_i a b l e
    simp only [decide_eq_true_eq] at t
    exact ⟨b, by rw [e]; rfl, t⟩
  · cases t

end CoolingDemo
end Fastsim.Props
