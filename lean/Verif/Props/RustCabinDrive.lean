import Verif.Props.RustCooling

/-!
# C141: the cabin of the thermal simulation over a drive
-/

set_option linter.unusedSectionVars false

namespace Fastsim.Spec
open Fastsim

section Field
variable {K : Type*} [Field K] [LinearOrder K] [IsStrictOrderedRing K]

/-- `g` is the conductance (kW/K) between cabin and air in step `i`: surface over the resistance of the walls and that of the air, which
is the one of the standing vehicle up to 2 mph and of a plate in air above. -/
def CabinConducts (F : Fns K) (T : VehThrm K) (f : Hot K) (i : Nat) (te amb g : K) : Prop :=
  ∃ htc, ((lastRow f i).ach.mphAch ≤ 2 → htc = T.cabHtcToAmbStop) ∧
    (2 < (lastRow f i).ach.mphAch → ∃ rho mu k pr nu, AirProps F ((te + amb) / 2) rho mu k pr ∧
      PlateNu F (rho * (lastRow f i).ach.mpsAch * T.cabLLength / mu) pr nu ∧ htc = nu * k / T.cabLLength) ∧
    1000 * g = T.cabLLength * T.cabLWidth / (1 / htc + T.cabRToAmb)

/-- Every step is short for the cabin, and heat goes to the colder side. -/
def CabinSteps (F : Fns K) (T : VehThrm K) (h f : Hot K) : Prop :=
  ∀ i s s', Steps h f i s s' → ∀ g, CabinConducts F T f i s.cabTe s'.ambTe g → 0 ≤ g ∧ g * stepDt f i ≤ T.cabCKjK

/-- Within the deadband of the climate control. -/
def Comfortable (H : Hvac K) (te : K) : Prop := H.teSet - H.deadband ≤ te ∧ te ≤ H.teSet + H.deadband

end Field
end Fastsim.Spec

namespace Fastsim.Props
open Fastsim Spec

section Field
variable {K : Type*} [Field K] [LinearOrder K] [IsStrictOrderedRing K]
variable {F : Fns K} {C : HotConsts K} {T : VehThrm K} {V : Veh K} {P : SimParams K}

/-- The conductance is not negative if the settings make sense and the formula of the plate is not used where it is negative. -/
theorem cabinConducts_nonneg {f : Hot K} {i : Nat} {te amb g : K} (hp : ∀ x y, 0 ≤ x → 0 ≤ F.pow x y)
    (hplate : ∀ re, 500000 ≤ re → 871 ≤ dec 37 1000 * F.pow re (dec 8 10)) (hl : 0 < T.cabLLength) (hw : 0 ≤ T.cabLWidth)
    (hr : 0 ≤ T.cabRToAmb) (hs : 0 ≤ T.cabHtcToAmbStop) (h1 : -(27315 / 100) ≤ te) (h2 : -(27315 / 100) ≤ amb)
    (hv : 0 ≤ (lastRow f i).ach.mpsAch) (h : CabinConducts F T f i te amb g) : 0 ≤ g := by
  obtain ⟨htc, c1, c2, c3⟩ := h
  have hh : 0 ≤ htc := by
    rcases le_or_gt (lastRow f i).ach.mphAch 2 with a | a
    · rw [c1 a]; exact hs
    · obtain ⟨rho, mu, k, pr, nu, ⟨rfl, rfl, rfl, rfl⟩, n, rfl⟩ := c2 a
      refine div_nonneg (mul_nonneg ?_ (airK_nonneg _)) hl.le
      have re0 : 0 ≤ airRho F ((te + amb) / 2) * (lastRow f i).ach.mpsAch * T.cabLLength / airAt airTe airMu ((te + amb) / 2) :=
        div_nonneg (mul_nonneg (mul_nonneg (airRho_nonneg hp (by linarith)) hv) hl.le) (airMu_nonneg _)
      generalize airRho F ((te + amb) / 2) * (lastRow f i).ach.mpsAch * T.cabLLength / airAt airTe airMu ((te + amb) / 2) = re
        at n re0
      rcases lt_or_ge re 500000 with b | b
      · rw [n.laminar b]
        exact mul_nonneg (mul_nonneg (div_nonneg (Nat.cast_nonneg _) (Nat.cast_nonneg _)) (hp _ _ re0)) (hp _ _ (airPr_nonneg _))
      · rw [n.mixed b]
        exact mul_nonneg (sub_nonneg.2 (hplate re b)) (airPr_nonneg _)
  have : 0 ≤ T.cabLLength * T.cabLWidth / (1 / htc + T.cabRToAmb) :=
    div_nonneg (mul_nonneg hl.le hw) (add_nonneg (div_nonneg zero_le_one hh) hr)
  linarith

/-- There is one conductance. -/
theorem cabinConducts_unique {f : Hot K} {i : Nat} {te amb g g' : K} (h : CabinConducts F T f i te amb g)
    (h' : CabinConducts F T f i te amb g') : g = g' := by
  obtain ⟨htc, c1, c2, c3⟩ := h
  obtain ⟨htc', c1', c2', c3'⟩ := h'
  have e : htc = htc' := by
    rcases le_or_gt (lastRow f i).ach.mphAch 2 with a | a
    · rw [c1 a, c1' a]
    · obtain ⟨rho, mu, k, pr, nu, ⟨rfl, rfl, rfl, rfl⟩, n, rfl⟩ := c2 a
      obtain ⟨rho', mu', k', pr', nu', ⟨rfl, rfl, rfl, rfl⟩, n', rfl⟩ := c2' a
      generalize airRho F ((te + amb) / 2) * (lastRow f i).ach.mpsAch * T.cabLLength / airAt airTe airMu ((te + amb) / 2) = re
        at n n'
      rcases lt_or_ge re 500000 with b | b
      · rw [n.laminar b, n'.laminar b]
      · rw [n.mixed b, n'.mixed b]
  rw [e] at c3
  linarith

/-- **C141 (one step).** In every step the distance of the cabin's temperature from that of the air is multiplied by one less the
conductance times the duration over the thermal mass, and the heat of the climate control is added. -/
theorem C141_step {h f : Hot K} {soc : K} {aux : Option (List K)} {i : Nat} {s s' : Thermal K}
    (w : Walks F C T V P h soc aux f) (st : Steps h f i s s') (hn : h.hvac ≠ none) (hc : T.cabCKjK ≠ 0) :
    ∃ g, CabinConducts F T f i s.cabTe s'.ambTe g ∧ s'.cabQdotToAmbKw = g * (s.cabTe - s'.ambTe) ∧
      s'.cabTe - s'.ambTe = (1 - g * stepDt f i / T.cabCKjK) * (s.cabTe - s'.ambTe) +
        s'.cabQdotFromHvacKw * stepDt f i / T.cabCKjK := by
  obtain ⟨htc, c1, c2, c3⟩ := C105_walls w st hn
  have e := ((C105_cabin w st hc).1 hn).1
  refine ⟨T.cabLLength * T.cabLWidth / (1 / htc + T.cabRToAmb) / 1000, ⟨htc, c2, c3, by ring⟩, by linarith, ?_⟩
  have q : s'.cabQdotToAmbKw = T.cabLLength * T.cabLWidth / (1 / htc + T.cabRToAmb) / 1000 * (s.cabTe - s'.ambTe) := by linarith
  rw [q] at e
  generalize T.cabLLength * T.cabLWidth / (1 / htc + T.cabRToAmb) / 1000 = g at e ⊢
  field_simp
  linarith

/-- Steps are short if the recorded heat says so. -/
theorem cabin_of_recorded {h f : Hot K} {soc : K} {aux : Option (List K)} (w : Walks F C T V P h soc aux f) (hn : h.hvac ≠ none)
    (hc : T.cabCKjK ≠ 0)
    (ok : ∀ i s s', Steps h f i s s' → s'.ambTe ≠ s.cabTe ∧ 0 ≤ s'.cabQdotToAmbKw / (s.cabTe - s'.ambTe) ∧
      s'.cabQdotToAmbKw / (s.cabTe - s'.ambTe) * stepDt f i ≤ T.cabCKjK) : CabinSteps F T h f := by
  intro i s s' st g hg
  obtain ⟨g', hg', e, -⟩ := C141_step w st hn hc
  obtain ⟨a, b, d⟩ := ok i s s' st
  have z : s.cabTe - s'.ambTe ≠ 0 := sub_ne_zero.2 (Ne.symm a)
  rw [cabinConducts_unique hg hg']
  rw [e, mul_div_cancel_right₀ _ z] at b d
  exact ⟨b, d⟩

/-- What climate control and walls do to a cabin in a short step. -/
theorem cabin_step {h f : Hot K} {soc : K} {aux : Option (List K)} {i : Nat} {s s' : Thermal K}
    (w : Walks F C T V P h soc aux f) (st : Steps h f i s s') (hn : h.hvac ≠ none) (hc : 0 < T.cabCKjK)
    (hs : CabinSteps F T h f) (hdt : 0 ≤ stepDt f i) :
    min s.cabTe s'.ambTe + s'.cabQdotFromHvacKw * stepDt f i / T.cabCKjK ≤ s'.cabTe ∧
    s'.cabTe ≤ max s.cabTe s'.ambTe + s'.cabQdotFromHvacKw * stepDt f i / T.cabCKjK := by
  obtain ⟨g, hg, -, e⟩ := C141_step w st hn hc.ne'
  obtain ⟨g0, g1⟩ := hs i s s' st g hg
  have k0 : 0 ≤ g * stepDt f i / T.cabCKjK := div_nonneg (mul_nonneg g0 hdt) hc.le
  have k1 : g * stepDt f i / T.cabCKjK ≤ 1 := (div_le_one hc).2 g1
  generalize g * stepDt f i / T.cabCKjK = k at *
  generalize s'.cabQdotFromHvacKw * stepDt f i / T.cabCKjK = q at *
  rcases le_total s.cabTe s'.ambTe with a | a
  · rw [min_eq_left a, max_eq_right a]
    constructor <;> nlinarith
  · rw [min_eq_right a, max_eq_left a]
    constructor <;> nlinarith

/-- **C141 (air in the deadband).** With short steps and air that stays within the deadband of the climate control, a cabin that gets
into the deadband stays in it to the end of the drive, without any heat of the climate control. What this draws from the vehicle is,
in every step to the end of the drive, what it drew when the cabin got there, and so is the heat taken from the engine. -/
theorem C141_deadband {h f : Hot K} {soc : K} {aux : Option (List K)} (w : Walks F C T V P h soc aux f) {H : Hvac K}
    (hH : h.hvac = some H) (hc : 0 < T.cabCKjK) (hs : CabinSteps F T h f)
    (hdt : ∀ i, 0 < i → i < h.sd.cyc0.length → 0 ≤ stepDt f i) {j : Nat}
    (ha : ∀ i s s', j < i → Steps h f i s s' → Comfortable H s'.ambTe) {s0 : Thermal K}
    (h0 : f.history[h.history.length + j]? = some s0) (c0 : Comfortable H s0.cabTe) :
    ∀ n s, j ≤ n → n < h.sd.cyc0.length → f.history[h.history.length + n]? = some s →
      Comfortable H s.cabTe ∧ s.cabHvacPwrAuxKw = s0.cabHvacPwrAuxKw ∧ s.fcQdotToHtrKw = s0.fcQdotToHtrKw ∧
      (j < n → s.cabQdotFromHvacKw = 0) := by
  obtain ⟨q1, q2, q3, q4⟩ := C103_history w.same w.load w.walk
  intro n
  induction n with
  | zero =>
    intro s hj _ e
    obtain rfl : j = 0 := by omega
    rw [h0] at e
    cases e
    exact ⟨c0, rfl, rfl, fun h => absurd h (lt_irrefl 0)⟩
  | succ n ih =>
    intro s hj hn e
    rcases Nat.eq_or_lt_of_le hj with rfl | lt
    · rw [h0] at e
      cases e
      exact ⟨c0, rfl, rfl, fun h => absurd h (lt_irrefl _)⟩
    · have hlt : h.history.length + n < f.history.length := by omega
      obtain ⟨a1, a2, a3, -⟩ := ih _ (by omega) (by omega) (List.getElem?_eq_getElem hlt)
      have st : Steps h f (n + 1) _ s := ⟨by omega, hn, List.getElem?_eq_getElem hlt, e⟩
      obtain ⟨d1, -, d2, d3⟩ := C105_deadband w st hH a1.2 a1.1
      obtain ⟨b1, b2⟩ := cabin_step w st (by rw [hH]; exact Option.some_ne_none _) hc hs (hdt _ (by omega) hn)
      rw [d1, zero_mul, zero_div, add_zero] at b1 b2
      have am := ha _ _ _ lt st
      exact ⟨⟨(le_min a1.1 am.1).trans b1, b2.trans (max_le a1.2 am.2)⟩, d2.trans a2, d3.trans a3, fun _ => d1⟩

/-- **C141 (bounds of the cabin's temperature).** With short steps the cabin never gets colder than its start or, by more than the
climate control can cool it in one step, than both the air and the upper end of the deadband; and never warmer than its start or, by
more than it can be heated in one step, than both the air and the lower end. -/
theorem C141_bounds {h f : Hot K} {soc : K} {aux : Option (List K)} (w : Walks F C T V P h soc aux f) {H : Hvac K}
    (hH : h.hvac = some H) (hd : 0 ≤ H.deadband) (hm : 0 ≤ H.cntrlMaxKw) (hc : 0 < T.cabCKjK) (hs : CabinSteps F T h f)
    (hdt : ∀ i, 0 < i → i < h.sd.cyc0.length → 0 ≤ stepDt f i) {D : K}
    (hD : ∀ i, 0 < i → i < h.sd.cyc0.length → H.cntrlMaxKw * stepDt f i ≤ T.cabCKjK * D) {m M : K}
    (h0 : m ≤ h.state.cabTe ∧ h.state.cabTe ≤ M) (hlo : m + D ≤ H.teSet + H.deadband) (hhi : H.teSet - H.deadband + D ≤ M)
    (ha : ∀ i s s', Steps h f i s s' → m + D ≤ s'.ambTe ∧ s'.ambTe + D ≤ M) :
    ∀ n s, n < h.sd.cyc0.length → f.history[h.history.length + n]? = some s → m ≤ s.cabTe ∧ s.cabTe ≤ M := by
  refine walk_invariant w (fun s => m ≤ s.cabTe ∧ s.cabTe ≤ M) h0 ?_
  rintro i s s' st ⟨a1, a2⟩
  have dt := hdt i st.pos st.lt
  obtain ⟨b1, b2⟩ := cabin_step w st (by rw [hH]; exact Option.some_ne_none _) hc hs dt
  obtain ⟨l1, l2⟩ := C105_limits w st hH hd hm
  obtain ⟨am1, am2⟩ := ha i s s' st
  have d1 : H.cntrlMaxKw * stepDt f i / T.cabCKjK ≤ D := (div_le_iff₀ hc).2 (by rw [mul_comm D]; exact hD i st.pos st.lt)
  have d0 : 0 ≤ H.cntrlMaxKw * stepDt f i / T.cabCKjK := div_nonneg (mul_nonneg hm dt) hc.le
  have up : ∀ x y : K, x ≤ y → x * stepDt f i / T.cabCKjK ≤ y * stepDt f i / T.cabCKjK := fun x y hxy =>
    div_le_div_of_nonneg_right (mul_le_mul_of_nonneg_right hxy dt) hc.le
  have z : (0 : K) * stepDt f i / T.cabCKjK = 0 := by rw [zero_mul, zero_div]
  rcases lt_or_ge (H.teSet + H.deadband) s.cabTe with c | c
  · obtain ⟨e1, e2⟩ := l1 c
    have u1 := up _ _ e1
    have u2 := up _ _ e2
    rw [z] at u2
    rw [neg_mul, neg_div] at u1
    have k1 : m + D ≤ min s.cabTe s'.ambTe := le_min (by linarith) am1
    have k2 : max s.cabTe s'.ambTe ≤ M := max_le a2 (by linarith)
    constructor <;> linarith
  · rcases lt_or_ge s.cabTe (H.teSet - H.deadband) with c' | c'
    · obtain ⟨e1, e2⟩ := l2 c'
      have u1 := up _ _ e1
      have u2 := up _ _ e2
      rw [z] at u1
      have k1 : m ≤ min s.cabTe s'.ambTe := le_min a1 (by linarith)
      have k2 : max s.cabTe s'.ambTe ≤ M - D := max_le (by linarith) (by linarith)
      constructor <;> linarith
    · obtain ⟨e, -⟩ := C105_deadband w st hH c c'
      rw [e, z, add_zero] at b1 b2
      exact ⟨(le_min a1 (by linarith)).trans b1, b2.trans (max_le a2 (by linarith))⟩

/-- **C141 (a fresh state).** A state made from temperatures has them, with that of the air for those not given; the controller's first
request has no part for a change of temperature: the cabin has not changed yet. -/
theorem C141_fresh (amb fc cab port cat : Option K) (H : Hvac K) (i dt : K) :
    (Thermal.make amb fc cab port cat).cabTe = cab.getD (amb.getD 22) ∧
    (Thermal.make amb fc cab port cat).fcTe = fc.getD (amb.getD 22) ∧
    (Thermal.make amb fc cab port cat).exhportTe = port.getD (amb.getD 22) ∧
    (Thermal.make amb fc cab port cat).catTe = cat.getD (amb.getD 22) ∧
    asksKw H i dt (Thermal.make amb fc cab port cat) = H.pPerDegC * (cab.getD (amb.getD 22) - H.teSet) + i := by
  refine ⟨rfl, rfl, rfl, rfl, ?_⟩
  unfold asksKw
  have e : (Thermal.make amb fc cab port cat).cabTe = (Thermal.make amb fc cab port cat).cabPrevTe := rfl
  rw [← e, sub_self, zero_div, mul_zero, add_zero]
  rfl

/-- **C141 (making a simulation).** A thermal simulation can be made exactly if an array of air temperatures, where one is given, is not
empty and begins with the air of the state, where one is given. It then starts in the air of the array and with empty histories.
Found: with an array alone, engine, cabin, port and catalyst start at 22 °C, however cold the air. -/
theorem C141_make (c : Cyc K) (hvac : Option (Hvac K)) (init : Option (Thermal K)) (amb : Option (List K)) :
    ((∃ h, Hot.make c hvac init amb = .ok h) ↔ ∀ l, amb = some l → ∃ a, l.head? = some a ∧ ∀ s, init = some s → s.ambTe = a) ∧
    ∀ h, Hot.make c hvac init amb = .ok h → h.history = [] ∧ h.hvacHistory = [] ∧ h.hvac = hvac ∧ h.amb = amb ∧
      (∀ s, init = some s → h.state = s) ∧ (∀ l, amb = some l → l.head? = some h.state.ambTe) ∧
      (init = none → h.state.fcTe = 22 ∧ h.state.cabTe = 22 ∧ h.state.exhportTe = 22 ∧ h.state.catTe = 22) := by
  rcases amb with _ | (_ | ⟨a, l⟩)
  · refine ⟨⟨fun _ l e => (nomatch e), fun _ => ⟨_, rfl⟩⟩, fun h e => ?_⟩
    injection e with e
    subst e
    refine ⟨rfl, rfl, rfl, rfl, fun s e => by rw [e]; rfl, fun l e => (nomatch e), fun e => by rw [e]; exact ⟨rfl, rfl, rfl, rfl⟩⟩
  · refine ⟨⟨fun ⟨h, e⟩ => (nomatch e), fun q => ?_⟩, fun h e => (nomatch e)⟩
    obtain ⟨a, e, -⟩ := q [] rfl
    exact nomatch e
  · rcases init with _ | s
    · refine ⟨⟨fun _ l' e => ⟨a, by injection e with e; subst e; rfl, fun s e => (nomatch e)⟩, fun _ => ⟨_, rfl⟩⟩, fun h e => ?_⟩
      injection e with e
      subst e
      refine ⟨rfl, rfl, rfl, rfl, fun s e => (nomatch e), fun l' e => by injection e with e; subst e; rfl,
        fun _ => ⟨rfl, rfl, rfl, rfl⟩⟩
    · have e0 : Hot.make c hvac (some s) (some (a :: l)) = if s.ambTe = a then .ok
          { sd := (Sim.new c).toRust, state := s, hvac := hvac, amb := some (a :: l), history := [], hvacHistory := [] }
          else .error .panic := rfl
      rw [e0]
      by_cases q : s.ambTe = a
      · rw [if_pos q]
        refine ⟨⟨fun _ l' e => ⟨a, by injection e with e; subst e; rfl, fun s' e => by injection e with e; subst e; exact q⟩,
          fun _ => ⟨_, rfl⟩⟩, fun h e => ?_⟩
        injection e with e
        subst e
        exact ⟨rfl, rfl, rfl, rfl, fun s' e => by injection e, fun l' e => by injection e with e; subst e; rw [q]; rfl,
          fun e => (nomatch e)⟩
      · rw [if_neg q]
        refine ⟨⟨fun ⟨h, e⟩ => (nomatch e), fun k => ?_⟩, fun h e => (nomatch e)⟩
        obtain ⟨a', e, k⟩ := k _ rfl
        injection e with e
        exact absurd ((k s rfl).trans e.symm) q

end Field

namespace CabinDemo
open Fastsim.Demo

/-- The functions of the cases: the formula of the plate is not used where it is negative. -/
def fns : Fns ℚ := { hotFns with pow := fun x y => if y = dec 8 10 then 30000 else hotFns.pow x y }

/-- The vehicle of the cases: thermal mass `c` of the cabin. -/
def car (c : ℚ) : VehThrm ℚ := { fullCar with cabCKjK := c }

/-- A default climate control that asks for 5 kW per degree. -/
def control : Hvac ℚ := { climate false with pPerDegC := 5 }

/-- A simulation with air and cabin at the given temperatures. -/
def start (amb cab : ℚ) : Hot ℚ :=
  { hotStart 60 with state := Thermal.make (some amb) (some 60) (some cab) (some 70) (some 50), hvac := some control }

/-- What is checked of step `i` of a drive. -/
def check (c amb : ℚ) (f : Hot ℚ) (i : Nat) : Bool :=
  match f.history[i - 1]?, f.history[i]? with
  | some s, some s' => decide (s'.ambTe = amb ∧ amb ≠ s.cabTe ∧ 0 ≤ s'.cabQdotToAmbKw / (s.cabTe - s'.ambTe) ∧
      s'.cabQdotToAmbKw / (s.cabTe - s'.ambTe) * stepDt f i ≤ c ∧ 0 ≤ stepDt f i ∧ stepDt f i ≤ 2)
  | _, _ => false

theorem check_sound {c amb cab : ℚ} {f : Hot ℚ} (h0 : c ≠ 0)
    (w : hotWalk fns hotConsts (car c) conv params (start amb cab) (1 / 2) none = .ok f)
    (hc : ∀ i ∈ List.range' 1 5, check c amb f i = true) :
    Walks fns hotConsts (car c) conv params (start amb cab) (1 / 2) none f ∧ CabinSteps fns (car c) (start amb cab) f ∧
    (∀ i, 0 < i → i < (start amb cab).sd.cyc0.length → 0 ≤ stepDt f i ∧ stepDt f i ≤ 2) ∧
    ∀ i s s', Steps (start amb cab) f i s s' → s'.ambTe = amb := by
  have ws : Walks fns hotConsts (car c) conv params (start amb cab) (1 / 2) none f := ⟨rfl, fun x e => (nomatch e), w⟩
  have key : ∀ i s s', Steps (start amb cab) f i s s' → s'.ambTe = amb ∧ amb ≠ s.cabTe ∧
      0 ≤ s'.cabQdotToAmbKw / (s.cabTe - s'.ambTe) ∧ s'.cabQdotToAmbKw / (s.cabTe - s'.ambTe) * stepDt f i ≤ c := by
    intro i s s' st
    have l : i < 6 := st.lt
    have := hc i (List.mem_range'_1.2 ⟨st.pos, by omega⟩)
    have b : f.history[i - 1]? = some s := by simpa [start, hotStart] using st.before
    have a : f.history[i]? = some s' := by simpa [start, hotStart] using st.after
    simp only [check, a, b, decide_eq_true_eq] at this
    exact ⟨this.1, this.2.1, this.2.2.1, this.2.2.2.1⟩
  refine ⟨ws, cabin_of_recorded ws (by simp [start]) h0 ?_, ?_, fun i s s' st => (key i s s' st).1⟩
  · intro i s s' st
    obtain ⟨a, b, d, e⟩ := key i s s' st
    exact ⟨by rw [a]; exact b, d, e⟩
  · intro i hi hl
    have l : i < 6 := hl
    have := hc i (List.mem_range'_1.2 ⟨hi, by omega⟩)
    simp only [check] at this
    split at this
    · simp only [decide_eq_true_eq] at this
      exact this.2.2.2.2
    · cases this

/-- A drive that completes and passes a test. -/
theorem found {c amb cab : ℚ} {t : Hot ℚ → Bool}
    (h : (match hotWalk fns hotConsts (car c) conv params (start amb cab) (1 / 2) none with | .ok f => t f | .error _ => false) = true) :
    ∃ f, hotWalk fns hotConsts (car c) conv params (start amb cab) (1 / 2) none = .ok f ∧ t f = true := by
  split at h
  · exact ⟨_, ‹_›, h⟩
  · cases h

/-- **C141 (case).** The settings of `C141_bounds` are met by a warm cabin in colder air: the climate control cools it, and it stays
between 19 and 25 °C. -/
theorem C141_demo : ∃ f, Walks fns hotConsts (car 20) conv params (start 20 24) (1 / 2) none f ∧
    CabinSteps fns (car 20) (start 20 24) f ∧
    (∀ n s, n < (start 20 24).sd.cyc0.length → f.history[(start 20 24).history.length + n]? = some s → 19 ≤ s.cabTe ∧ s.cabTe ≤ 25) ∧
    ∃ s ∈ f.history, s.cabQdotFromHvacKw < 0 := by
  obtain ⟨f, w, t⟩ := found (c := 20) (amb := 20) (cab := 24)
    (t := fun f => decide (∀ i ∈ List.range' 1 5, check 20 20 f i = true) && decide (∃ s ∈ f.history, s.cabQdotFromHvacKw < 0))
    (by decide +kernel)
  rw [Bool.and_eq_true, decide_eq_true_eq, decide_eq_true_eq] at t
  obtain ⟨t, tq⟩ := t
  obtain ⟨ws, k, m, n⟩ := check_sound (by norm_num) w t
  have cm : control.cntrlMaxKw = 5 := by decide +kernel
  have ct : control.teSet = 22 := by decide +kernel
  have cd : control.deadband = 1 := by decide +kernel
  refine ⟨f, ws, k, C141_bounds (D := 1 / 2) ws rfl (by rw [cd]; norm_num) (by rw [cm]; norm_num) (by norm_num [car]) k
    (fun i a b => (m i a b).1) (fun i a b => ?_) (by decide +kernel) (by rw [ct, cd]; norm_num) (by rw [ct, cd]; norm_num)
    (fun i s s' st => by rw [n i s s' st]; norm_num), tq⟩
  have := (m i a b).2
  rw [cm]
  show 5 * stepDt f i ≤ 20 * (1 / 2)
  linarith

/-- **C141 (case: found).** The settings of `C141_deadband` are met: in air at 22 °C the cabin is in the deadband after one step, and
every later step draws the power of that step without any cooling. -/
theorem C141_demo_deadband : ∃ f, Walks fns hotConsts (car 20) conv params (start 22 (231 / 10)) (1 / 2) none f ∧
    CabinSteps fns (car 20) (start 22 (231 / 10)) f ∧ ∃ s0, f.history[1]? = some s0 ∧ Comfortable control s0.cabTe ∧
    1 < s0.cabHvacPwrAuxKw ∧ ∀ n s, 1 ≤ n → n < (start 22 (231 / 10)).sd.cyc0.length →
      f.history[(start 22 (231 / 10)).history.length + n]? = some s → Comfortable control s.cabTe ∧
        s.cabHvacPwrAuxKw = s0.cabHvacPwrAuxKw ∧ s.fcQdotToHtrKw = s0.fcQdotToHtrKw ∧ (1 < n → s.cabQdotFromHvacKw = 0) := by
  obtain ⟨f, w, t⟩ := found (c := 20) (amb := 22) (cab := 231 / 10)
    (t := fun f => decide (∀ i ∈ List.range' 1 5, check 20 22 f i = true) && match f.history[1]? with
      | some s0 => decide (control.teSet - control.deadband ≤ s0.cabTe ∧ s0.cabTe ≤ control.teSet + control.deadband ∧
          1 < s0.cabHvacPwrAuxKw)
      | none => false) (by decide +kernel)
  rw [Bool.and_eq_true, decide_eq_true_eq] at t
  obtain ⟨t, tq⟩ := t
  obtain ⟨ws, k, m, n⟩ := check_sound (by norm_num) w t
  have ct : control.teSet = 22 := by decide +kernel
  have cd : control.deadband = 1 := by decide +kernel
  split at tq
  · rename_i s0 e0
    simp only [decide_eq_true_eq] at tq
    refine ⟨f, ws, k, s0, e0, ⟨tq.1, tq.2.1⟩, tq.2.2, C141_deadband ws rfl (by norm_num [car]) k (fun i a b => (m i a b).1)
      (fun i s s' _ st => ?_) e0 ⟨tq.1, tq.2.1⟩⟩
    rw [n i s s' st]
    constructor <;> rw [ct, cd] <;> norm_num
  · cases tq

/-- **C141 (found: a light cabin).** The controller does not look at the thermal mass: a cabin with 1 kJ/K at 24 °C in air at 20 °C is
cooled below 19 °C, and heated above the upper end of the deadband later. -/
theorem C141_swing : (match hotWalk fns hotConsts (car 1) conv params (start 20 24) (1 / 2) none with
    | .ok f => decide ((∃ s ∈ f.history, s.cabTe < 19) ∧ ∃ p ∈ pairs f, p.1.cabTe < 21 ∧ 23 < p.2.cabTe)
    | .error _ => false) = true := by
  decide +kernel

/-- **C141 (case).** A start in air at -20 °C without a state: everything but the air is at 22 °C. A state in other air is refused. -/
theorem C141_demo_make :
    (match Hot.make cyc none none (some [-20, -19]) with
      | .ok h => decide (h.state.ambTe = -20 ∧ h.state.fcTe = 22 ∧ h.state.cabTe = 22)
      | .error _ => false) = true ∧
    (match Hot.make cyc none (some (Thermal.make (some 20) none none none none)) (some [-20, -19]) with
      | .ok _ => false
      | .error e => decide (e = .panic)) = true := by
  constructor <;> decide +kernel

end CabinDemo
end Fastsim.Props
