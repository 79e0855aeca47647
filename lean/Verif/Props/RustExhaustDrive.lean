import Verif.Props.RustCabinDrive
import Verif.Props.RustExhaust
import Verif.Props.RustAirTables

/-!
# C143: exhaust port and catalyst of the thermal simulation over a drive
-/

set_option linter.unusedSectionVars false

namespace Fastsim.Spec
open Fastsim

section Field
variable {K : Type*} [Field K] [LinearOrder K] [IsStrictOrderedRing K]

/-- Every step is short for the exhaust port: both conductances (W/K) together do not empty its thermal mass (kJ/K). -/
def PortSteps (T : VehThrm K) (h f : Hot K) : Prop :=
  ∀ i s s', Steps h f i s s' → (T.exhportHaToAmb + T.exhportHaInt) * stepDt f i ≤ 1000 * T.exhportCKjK

/-- Every step is short for the catalyst: its conductance to the air and the heat (at most 1336.1 J/(kg K)) that the exhaust can carry
together do not empty its thermal mass. `area` is the outer area. -/
def CatSteps (T : VehThrm K) (area : K) (h f : Hot K) : Prop :=
  ∀ i s s', Steps h f i s s' → 0 ≤ s'.catHtcToAmb * area ∧
    (s'.catHtcToAmb * area + s'.exhMdot * (13361 / 10)) * stepDt f i ≤ 1000 * T.catCKjK

end Field
end Fastsim.Spec

namespace Fastsim.Props
open Fastsim Spec

section Field
variable {K : Type*} [Field K] [LinearOrder K] [IsStrictOrderedRing K]
variable {F : Fns K} {C : HotConsts K} {T : VehThrm K} {V : Veh K} {P : SimParams K}

/-- The heat flows of the port are at most those of its conductances. -/
theorem port_flows {h f : Hot K} {soc : K} {aux : Option (List K)} {i : Nat} {s s' : Thermal K}
    (w : Walks F C T V P h soc aux f) (st : Steps h f i s s') (hx : T.exhportInternal = true) (hc : 0 < T.exhportCKjK)
    (hdt : 0 < stepDt f i) (h1 : 0 ≤ T.exhportHaToAmb) (h2 : 0 ≤ T.exhportHaInt) (h3 : 0 ≤ s'.exhMdot) {m M : K}
    (p1 : m ≤ s.exhportTe) (p2 : m ≤ s.fcTe) (p3 : m ≤ s'.exhportExhTeIn) (q1 : s.exhportTe ≤ M) (q2 : s.fcTe ≤ M)
    (q3 : s'.exhportExhTeIn ≤ M) :
    s'.exhportQdotToAmb ≤ T.exhportHaToAmb * (s.exhportTe - m) ∧ -(T.exhportHaToAmb * (M - s.exhportTe)) ≤ s'.exhportQdotToAmb ∧
    -(T.exhportHaInt * (s.exhportTe - m)) ≤ s'.exhportQdotFromExh ∧ s'.exhportQdotFromExh ≤ T.exhportHaInt * (M - s.exhportTe) := by
  obtain ⟨-, -, a1, a2, a3, a4, -⟩ := C105_port w st hx hc hdt h1 h2 h3
  obtain ⟨-, -, e3, e4⟩ := exhport_eq w st hx
  have n1 : 0 ≤ T.exhportHaToAmb * (s.exhportTe - m) := mul_nonneg h1 (by linarith)
  have n2 : 0 ≤ T.exhportHaToAmb * (M - s.exhportTe) := mul_nonneg h1 (by linarith)
  have n3 : 0 ≤ T.exhportHaInt * (s.exhportTe - m) := mul_nonneg h2 (by linarith)
  have n4 : 0 ≤ T.exhportHaInt * (M - s.exhportTe) := mul_nonneg h2 (by linarith)
  refine ⟨?_, ?_, ?_, ?_⟩
  · rcases le_or_gt s.exhportTe s.fcTe with c | c
    · exact (a2 c).1.trans n1
    · rw [e3, if_pos (sub_pos.2 c)]
      exact (min_le_left _ _).trans (mul_le_mul_of_nonneg_left (by linarith) h1)
  · rcases le_or_gt s.exhportTe s.fcTe with c | c
    · rw [e3, if_neg (not_lt.2 (sub_nonpos.2 c))]
      refine le_trans ?_ (le_max_left _ _)
      rw [← mul_neg]
      exact mul_le_mul_of_nonneg_left (by linarith) h1
    · exact (neg_nonpos.2 n2).trans (a1 c.le).1
  · rcases le_or_gt s'.exhportExhTeIn s.exhportTe with c | c
    · rw [e4, if_neg (not_lt.2 (sub_nonpos.2 c))]
      show _ ≤ max (max _ _) _
      refine le_trans ?_ ((le_max_left _ _).trans (le_max_left _ _))
      rw [← mul_neg]
      exact mul_le_mul_of_nonneg_left (by linarith) h2
    · exact (neg_nonpos.2 n3).trans (a3 c.le).1
  · rcases le_or_gt s'.exhportExhTeIn s.exhportTe with c | c
    · exact (a4 c).1.trans n4
    · rw [e4, if_pos (sub_pos.2 c)]
      show min (min _ _) _ ≤ _
      exact ((min_le_left _ _).trans (min_le_left _ _)).trans (mul_le_mul_of_nonneg_left (by linarith) h2)

/-- **C143 (one step of the port).** In a short step the exhaust port stays between the coldest and the hottest of itself, the engine
and the exhaust gas. -/
theorem C143_step {h f : Hot K} {soc : K} {aux : Option (List K)} {i : Nat} {s s' : Thermal K}
    (w : Walks F C T V P h soc aux f) (st : Steps h f i s s') (hx : T.exhportInternal = true) (hc : 0 < T.exhportCKjK)
    (hdt : 0 < stepDt f i) (h1 : 0 ≤ T.exhportHaToAmb) (h2 : 0 ≤ T.exhportHaInt) (h3 : 0 ≤ s'.exhMdot)
    (hs : (T.exhportHaToAmb + T.exhportHaInt) * stepDt f i ≤ 1000 * T.exhportCKjK) :
    min s.exhportTe (min s.fcTe s'.exhportExhTeIn) ≤ s'.exhportTe ∧
    s'.exhportTe ≤ max s.exhportTe (max s.fcTe s'.exhportExhTeIn) := by
  obtain ⟨bal, net, -⟩ := C105_port w st hx hc hdt h1 h2 h3
  obtain ⟨r1, r2, r3, r4⟩ := port_flows w st hx hc hdt h1 h2 h3 (m := min s.exhportTe (min s.fcTe s'.exhportExhTeIn))
    (M := max s.exhportTe (max s.fcTe s'.exhportExhTeIn)) (min_le_left _ _) ((min_le_right _ _).trans (min_le_left _ _))
    ((min_le_right _ _).trans (min_le_right _ _)) (le_max_left _ _) ((le_max_left _ _).trans (le_max_right _ _))
    ((le_max_right _ _).trans (le_max_right _ _))
  have l : 0 ≤ s.exhportTe - min s.exhportTe (min s.fcTe s'.exhportExhTeIn) := sub_nonneg.2 (min_le_left _ _)
  have u : 0 ≤ max s.exhportTe (max s.fcTe s'.exhportExhTeIn) - s.exhportTe := sub_nonneg.2 (le_max_left _ _)
  generalize min s.exhportTe (min s.fcTe s'.exhportExhTeIn) = m at *
  generalize max s.exhportTe (max s.fcTe s'.exhportExhTeIn) = M at *
  rw [net] at bal
  have hc' : 0 < T.exhportCKjK * 1000 := by linarith
  constructor
  · have k : -((T.exhportHaToAmb + T.exhportHaInt) * stepDt f i * (s.exhportTe - m)) ≤
        (s'.exhportQdotFromExh - s'.exhportQdotToAmb) * stepDt f i := by
      have := mul_le_mul_of_nonneg_right (show -((T.exhportHaToAmb + T.exhportHaInt) * (s.exhportTe - m)) ≤
        s'.exhportQdotFromExh - s'.exhportQdotToAmb by linarith) hdt.le
      linarith
    have k2 := mul_le_mul_of_nonneg_right hs l
    have k3 : 0 ≤ T.exhportCKjK * 1000 * (s'.exhportTe - m) := by linarith
    exact sub_nonneg.1 (nonneg_of_mul_nonneg_right k3 hc')
  · have k : (s'.exhportQdotFromExh - s'.exhportQdotToAmb) * stepDt f i ≤
        (T.exhportHaToAmb + T.exhportHaInt) * stepDt f i * (M - s.exhportTe) := by
      have := mul_le_mul_of_nonneg_right (show s'.exhportQdotFromExh - s'.exhportQdotToAmb ≤
        (T.exhportHaToAmb + T.exhportHaInt) * (M - s.exhportTe) by linarith) hdt.le
      linarith
    have k2 := mul_le_mul_of_nonneg_right hs u
    have k3 : 0 ≤ T.exhportCKjK * 1000 * (M - s'.exhportTe) := by linarith
    exact sub_nonneg.1 (nonneg_of_mul_nonneg_right k3 hc')

/-- **C143 (the port stays warm).** With short steps the exhaust port never gets colder than its start, the engine and the exhaust gas
have been. -/
theorem C143_lower {h f : Hot K} {soc : K} {aux : Option (List K)} (w : Walks F C T V P h soc aux f)
    (hx : T.exhportInternal = true) (hc : 0 < T.exhportCKjK) (h1 : 0 ≤ T.exhportHaToAmb) (h2 : 0 ≤ T.exhportHaInt)
    (hdt : ∀ i, 0 < i → i < h.sd.cyc0.length → 0 < stepDt f i) (hs : PortSteps T h f)
    (h3 : ∀ i s s', Steps h f i s s' → 0 ≤ s'.exhMdot) {m : K} (h0 : m ≤ h.state.exhportTe)
    (he : ∀ i s s', Steps h f i s s' → m ≤ s.fcTe ∧ m ≤ s'.exhportExhTeIn) :
    ∀ n s, n < h.sd.cyc0.length → f.history[h.history.length + n]? = some s → m ≤ s.exhportTe := by
  refine walk_invariant w (fun s => m ≤ s.exhportTe) h0 fun i s s' st a => ?_
  exact (le_min a (le_min (he i s s' st).1 (he i s s' st).2)).trans
    (C143_step w st hx hc (hdt i st.pos st.lt) h1 h2 (h3 i s s' st) (hs i s s' st)).1

/-- **C143 (the port does not overheat).** With short steps the exhaust port and the gas that enters it never get hotter than at the
start, than the engine has been, and than the adiabatic flame. -/
theorem C143_upper {h f : Hot K} {soc : K} {aux : Option (List K)} (w : Walks F C T V P h soc aux f)
    (hx : T.exhportInternal = true) (hc : 0 < T.exhportCKjK) (h1 : 0 ≤ T.exhportHaToAmb) (h2 : 0 ≤ T.exhportHaInt)
    (hdt : ∀ i, 0 < i → i < h.sd.cyc0.length → 0 < stepDt f i) (hs : PortSteps T h f)
    (h3 : ∀ i s s', Steps h f i s s' → 0 ≤ s'.exhMdot) {M : K} (h0 : h.state.exhportTe ≤ M) (h0' : h.state.exhportExhTeIn ≤ M)
    (he : ∀ i s s', Steps h f i s s' → s.fcTe ≤ M ∧ s'.fcTeAdiabatic ≤ M) :
    ∀ n s, n < h.sd.cyc0.length → f.history[h.history.length + n]? = some s → s.exhportTe ≤ M ∧ s.exhportExhTeIn ≤ M := by
  refine walk_invariant w (fun s => s.exhportTe ≤ M ∧ s.exhportExhTeIn ≤ M) ⟨h0, h0'⟩ fun i s s' st ⟨a, b⟩ => ?_
  obtain ⟨-, -, i1, i2⟩ := C105_exhaust w st hx
  have hin : s'.exhportExhTeIn ≤ M := by
    rcases le_or_gt s'.exhMdot (1 / 2000) with c | c
    · rw [i2 c]; exact b
    · rw [i1 c]; exact (min_le_right _ _).trans (he i s s' st).2
  exact ⟨(C143_step w st hx hc (hdt i st.pos st.lt) h1 h2 (h3 i s s' st) (hs i s s' st)).2.trans
    (max_le a (max_le (he i s s' st).1 hin)), hin⟩

/-- **C143 (engine off).** When no exhaust flows, the port gets no heat from the gas that stands in it: it comes closer to the engine and
never past it, however long the step. -/
theorem C143_off {h f : Hot K} {soc : K} {aux : Option (List K)} {i : Nat} {s s' : Thermal K}
    (w : Walks F C T V P h soc aux f) (st : Steps h f i s s') (hx : T.exhportInternal = true) (hc : 0 < T.exhportCKjK)
    (hdt : 0 < stepDt f i) (h1 : 0 ≤ T.exhportHaToAmb) (h2 : 0 ≤ T.exhportHaInt) (h3 : s'.exhMdot = 0) :
    s'.exhportQdotFromExh = 0 ∧ (s.fcTe ≤ s.exhportTe → s.fcTe ≤ s'.exhportTe ∧ s'.exhportTe ≤ s.exhportTe) ∧
    (s.exhportTe ≤ s.fcTe → s.exhportTe ≤ s'.exhportTe ∧ s'.exhportTe ≤ s.fcTe) := by
  obtain ⟨bal, net, a1, a2, a3, a4, -⟩ := C105_port w st hx hc hdt h1 h2 h3.ge
  obtain ⟨-, -, -, e4⟩ := exhport_eq w st hx
  have z : s'.exhportQdotFromExh = 0 := by
    rcases le_or_gt s'.exhportExhTeIn s.exhportTe with c | c
    · refine le_antisymm (a4 c).1 ?_
      rw [e4, if_neg (not_lt.2 (sub_nonpos.2 c))]
      show _ ≤ max (max _ _) _
      refine le_trans ?_ ((le_max_right _ _).trans (le_max_left _ _))
      rw [h3, zero_mul]
    · refine le_antisymm ?_ (a3 c.le).1
      rw [e4, if_pos (sub_pos.2 c)]
      show min (min _ _) _ ≤ _
      refine ((min_le_left _ _).trans (min_le_right _ _)).trans ?_
      rw [h3, zero_mul]
  have hc' : 0 < T.exhportCKjK * 1000 := by linarith
  rw [net, z, zero_sub] at bal
  refine ⟨z, fun c => ?_, fun c => ?_⟩
  · obtain ⟨b1, b2⟩ := a1 c
    have n := mul_nonneg b1 hdt.le
    constructor
    · exact sub_nonneg.1 (nonneg_of_mul_nonneg_right (show 0 ≤ T.exhportCKjK * 1000 * (s'.exhportTe - s.fcTe) by linarith) hc')
    · exact sub_nonneg.1 (nonneg_of_mul_nonneg_right (show 0 ≤ T.exhportCKjK * 1000 * (s.exhportTe - s'.exhportTe) by linarith) hc')
  · obtain ⟨b1, b2⟩ := a2 c
    have n := mul_nonneg (neg_nonneg.2 b1) hdt.le
    constructor
    · exact sub_nonneg.1 (nonneg_of_mul_nonneg_right (show 0 ≤ T.exhportCKjK * 1000 * (s'.exhportTe - s.exhportTe) by linarith) hc')
    · exact sub_nonneg.1 (nonneg_of_mul_nonneg_right (show 0 ≤ T.exhportCKjK * 1000 * (s.fcTe - s'.exhportTe) by linarith) hc')

/-- **C143 (catalyst, engine off).** When no exhaust flows, the catalyst comes closer to the air and never past it, however long the
step. -/
theorem C143_catalyst_off {h f : Hot K} {soc : K} {aux : Option (List K)} {i : Nat} {s s' : Thermal K}
    (w : Walks F C T V P h soc aux f) (st : Steps h f i s s') (hx : T.catInternal = true) (hc : 0 < T.catCKjK)
    (hk : 0 ≤ T.cabCKjK)
    (hdt : 0 < stepDt f i) (h1 : 0 ≤ s'.catHtcToAmb * (C.pi * F.pow T.catL (2 / 4))) (h3 : s'.exhMdot = 0) :
    s'.catQdotFromExh = 0 ∧ (s'.ambTe ≤ s.catTe → s'.ambTe ≤ s'.catTe ∧ s'.catTe ≤ s.catTe) ∧
    (s.catTe ≤ s'.ambTe → s.catTe ≤ s'.catTe ∧ s'.catTe ≤ s'.ambTe) := by
  obtain ⟨bal, a1, a2, a3, a4, -⟩ := C105_catalyst w st hx hc hdt h1 h3.ge
  obtain ⟨-, -, -, e4, -⟩ := cat_eq w st hx
  have z : s'.catQdotFromExh = 0 := by
    rcases le_or_gt s'.catExhTeIn s.catTe with c | c
    · refine le_antisymm (a3 c).1 ?_
      rw [e4, if_neg (not_lt.2 (sub_nonpos.2 c))]
      refine le_trans ?_ (le_max_left _ _)
      rw [h3, zero_mul]
    · refine le_antisymm ?_ (a4 hk c.le).1
      rw [e4, if_pos (sub_pos.2 c)]
      refine (min_le_left _ _).trans ?_
      rw [h3, zero_mul]
  have hc' : 0 < T.catCKjK * 1000 := by linarith
  rw [z, zero_sub] at bal
  refine ⟨z, fun c => ?_, fun c => ?_⟩
  · obtain ⟨b1, b2⟩ := a1 c
    have n := mul_nonneg b1 hdt.le
    constructor
    · exact sub_nonneg.1 (nonneg_of_mul_nonneg_right (show 0 ≤ T.catCKjK * 1000 * (s'.catTe - s'.ambTe) by linarith) hc')
    · exact sub_nonneg.1 (nonneg_of_mul_nonneg_right (show 0 ≤ T.catCKjK * 1000 * (s.catTe - s'.catTe) by linarith) hc')
  · obtain ⟨b1, b2⟩ := a2 c
    have n := mul_nonneg (neg_nonneg.2 b1) hdt.le
    constructor
    · exact sub_nonneg.1 (nonneg_of_mul_nonneg_right (show 0 ≤ T.catCKjK * 1000 * (s'.catTe - s.catTe) by linarith) hc')
    · exact sub_nonneg.1 (nonneg_of_mul_nonneg_right (show 0 ≤ T.catCKjK * 1000 * (s'.ambTe - s'.catTe) by linarith) hc')

/-- Heating air by a degree takes at most 1336.1 J/kg, also outside the tables. -/
theorem enthalpy_at_most {x y : K} (h : x ≤ y) : airAt airTe airH y - airAt airTe airH x ≤ 13361 / 10 * (y - x) := by
  rw [C114_outside (ys := airH) (by simp) x, C114_outside (ys := airH) (by simp) y]
  have o : into (-60) 5000 x ≤ into (-60) 5000 y := max_le_max le_rfl (min_le_min h le_rfl)
  have k := (C114_enthalpy (K := K) (x := into (-60) 5000 x) (y := into (-60) 5000 y) (le_max_left _ _) o
    (max_le (by norm_num) (min_le_right _ _))).2
  have d : into (-60) 5000 y - into (-60) 5000 x ≤ y - x := by
    have c1 : -60 ≤ into (-60) 5000 x := le_max_left _ _
    have c2 : min x 5000 ≤ into (-60) 5000 x := le_max_right _ _
    have c3 : into (-60) 5000 y ≤ into (-60) 5000 x + (y - x) := by
      refine max_le (by linarith) ?_
      rcases le_total x 5000 with q | q
      · rw [min_eq_left q] at c2
        exact (min_le_left _ _).trans (by linarith)
      · rw [min_eq_right q] at c2
        exact (min_le_right _ _).trans (by linarith)
    linarith
  exact k.trans (mul_le_mul_of_nonneg_left d (by norm_num))

/-- **C143 (one step of the catalyst).** In a short step the catalyst stays between the coldest and the hottest of itself, the air and
the exhaust gas, although its heating is limited with the thermal mass of the cabin. -/
theorem C143_catalyst_step {h f : Hot K} {soc : K} {aux : Option (List K)} {i : Nat} {s s' : Thermal K}
    (w : Walks F C T V P h soc aux f) (st : Steps h f i s s') (hx : T.catInternal = true) (hc : 0 < T.catCKjK)
    (hk : 0 ≤ T.cabCKjK) (hdt : 0 < stepDt f i) (h1 : 0 ≤ s'.catHtcToAmb * (C.pi * F.pow T.catL (2 / 4)))
    (h3 : 0 ≤ s'.exhMdot)
    (hs : (s'.catHtcToAmb * (C.pi * F.pow T.catL (2 / 4)) + s'.exhMdot * (13361 / 10)) * stepDt f i ≤ 1000 * T.catCKjK) :
    min s.catTe (min s'.ambTe s'.catExhTeIn) ≤ s'.catTe ∧ s'.catTe ≤ max s.catTe (max s'.ambTe s'.catExhTeIn) := by
  obtain ⟨bal, a1, a2, a3, a4, -⟩ := C105_catalyst w st hx hc hdt h1 h3
  obtain ⟨-, e3, -, e4, -⟩ := cat_eq w st hx
  have p1 : min s.catTe (min s'.ambTe s'.catExhTeIn) ≤ s.catTe := min_le_left _ _
  have p2 : min s.catTe (min s'.ambTe s'.catExhTeIn) ≤ s'.ambTe := (min_le_right _ _).trans (min_le_left _ _)
  have p3 : min s.catTe (min s'.ambTe s'.catExhTeIn) ≤ s'.catExhTeIn := (min_le_right _ _).trans (min_le_right _ _)
  have q1 : s.catTe ≤ max s.catTe (max s'.ambTe s'.catExhTeIn) := le_max_left _ _
  have q2 : s'.ambTe ≤ max s.catTe (max s'.ambTe s'.catExhTeIn) := (le_max_left _ _).trans (le_max_right _ _)
  have q3 : s'.catExhTeIn ≤ max s.catTe (max s'.ambTe s'.catExhTeIn) := (le_max_right _ _).trans (le_max_right _ _)
  generalize min s.catTe (min s'.ambTe s'.catExhTeIn) = m at *
  generalize max s.catTe (max s'.ambTe s'.catExhTeIn) = M at *
  generalize s'.catHtcToAmb * (C.pi * F.pow T.catL (2 / 4)) = A at *
  have hB : 0 ≤ s'.exhMdot * (13361 / 10) := mul_nonneg h3 (by norm_num)
  have n1 : 0 ≤ A * (s.catTe - m) := mul_nonneg h1 (by linarith)
  have n2 : 0 ≤ A * (M - s.catTe) := mul_nonneg h1 (by linarith)
  have n3 : 0 ≤ s'.exhMdot * (13361 / 10) * (s.catTe - m) := mul_nonneg hB (by linarith)
  have n4 : 0 ≤ s'.exhMdot * (13361 / 10) * (M - s.catTe) := mul_nonneg hB (by linarith)
  have r1 : s'.catQdotToAmb ≤ A * (s.catTe - m) := by
    rcases le_or_gt s.catTe s'.ambTe with c | c
    · exact (a2 c).1.trans n1
    · rw [e3, if_pos (sub_pos.2 c)]
      exact (min_le_left _ _).trans (mul_le_mul_of_nonneg_left (by linarith) h1)
  have r2 : -(A * (M - s.catTe)) ≤ s'.catQdotToAmb := by
    rcases le_or_gt s.catTe s'.ambTe with c | c
    · rw [e3, if_neg (not_lt.2 (sub_nonpos.2 c))]
      refine le_trans ?_ (le_max_left _ _)
      rw [← mul_neg]
      exact mul_le_mul_of_nonneg_left (by linarith) h1
    · exact (neg_nonpos.2 n2).trans (a1 c.le).1
  have r3 : -(s'.exhMdot * (13361 / 10) * (s.catTe - m)) ≤ s'.catQdotFromExh := by
    rcases le_or_gt s'.catExhTeIn s.catTe with c | c
    · rw [e4, if_neg (not_lt.2 (sub_nonpos.2 c))]
      have k := mul_le_mul_of_nonneg_left (show -(13361 / 10 * (s.catTe - m)) ≤
        airAt airTe airH s'.catExhTeIn - airAt airTe airH s.catTe by have := enthalpy_at_most c; linarith) h3
      exact (show _ = _ by ring).trans_le (k.trans (le_max_left _ _))
    · exact (neg_nonpos.2 n3).trans (a4 hk c.le).1
  have r4 : s'.catQdotFromExh ≤ s'.exhMdot * (13361 / 10) * (M - s.catTe) := by
    rcases le_or_gt s'.catExhTeIn s.catTe with c | c
    · exact (a3 c).1.trans n4
    · rw [e4, if_pos (sub_pos.2 c)]
      have k := mul_le_mul_of_nonneg_left (show airAt airTe airH s'.catExhTeIn - airAt airTe airH s.catTe ≤
        13361 / 10 * (M - s.catTe) by have := enthalpy_at_most c.le; linarith) h3
      exact ((min_le_left _ _).trans k).trans_eq (by ring)
  have hc' : 0 < T.catCKjK * 1000 := by linarith
  constructor
  · have k := mul_le_mul_of_nonneg_right (show -((A + s'.exhMdot * (13361 / 10)) * (s.catTe - m)) ≤
      s'.catQdotFromExh - s'.catQdotToAmb by linarith) hdt.le
    have k2 := mul_le_mul_of_nonneg_right hs (sub_nonneg.2 p1)
    exact sub_nonneg.1 (nonneg_of_mul_nonneg_right (show 0 ≤ T.catCKjK * 1000 * (s'.catTe - m) by linarith) hc')
  · have k := mul_le_mul_of_nonneg_right (show s'.catQdotFromExh - s'.catQdotToAmb ≤
      (A + s'.exhMdot * (13361 / 10)) * (M - s.catTe) by linarith) hdt.le
    have k2 := mul_le_mul_of_nonneg_right hs (sub_nonneg.2 q1)
    exact sub_nonneg.1 (nonneg_of_mul_nonneg_right (show 0 ≤ T.catCKjK * 1000 * (M - s'.catTe) by linarith) hc')

/-- **C143 (the catalyst over a drive).** With short steps the catalyst never gets colder than its start, the air and the exhaust gas
have been; it never gets hotter than its start, the air, the gas at the start and the adiabatic flame. -/
theorem C143_catalyst {h f : Hot K} {soc : K} {aux : Option (List K)} (w : Walks F C T V P h soc aux f)
    (hx : T.catInternal = true) (hc : 0 < T.catCKjK) (hk : 0 ≤ T.cabCKjK)
    (hdt : ∀ i, 0 < i → i < h.sd.cyc0.length → 0 < stepDt f i) (hs : CatSteps T (C.pi * F.pow T.catL (2 / 4)) h f)
    (h3 : ∀ i s s', Steps h f i s s' → 0 ≤ s'.exhMdot) {m M : K} (h0 : m ≤ h.state.catTe)
    (he : ∀ i s s', Steps h f i s s' → m ≤ s'.ambTe ∧ m ≤ s'.catExhTeIn) (g0 : h.state.catTe ≤ M) (g0' : h.state.catExhTeIn ≤ M)
    (ge : ∀ i s s', Steps h f i s s' → s'.ambTe ≤ M ∧ s'.fcTeAdiabatic ≤ M) :
    ∀ n s, n < h.sd.cyc0.length → f.history[h.history.length + n]? = some s →
      m ≤ s.catTe ∧ s.catTe ≤ M ∧ s.catExhTeIn ≤ M := by
  refine walk_invariant w (fun s => m ≤ s.catTe ∧ s.catTe ≤ M ∧ s.catExhTeIn ≤ M) ⟨h0, g0, g0'⟩ fun i s s' st ⟨a, b, c⟩ => ?_
  obtain ⟨i1, i2⟩ := C105_catalyst_inlet w st hx
  have hin : s'.catExhTeIn ≤ M := by
    rcases le_or_gt s'.exhMdot (1 / 2000) with d | d
    · rw [i2 d]; exact c
    · rw [i1 d]; exact (min_le_right _ _).trans (ge i s s' st).2
  obtain ⟨l, u⟩ := C143_catalyst_step w st hx hc hk (hdt i st.pos st.lt) (hs i s s' st).1 (h3 i s s' st) (hs i s s' st).2
  exact ⟨(le_min a (le_min (he i s s' st).1 (he i s s' st).2)).trans l, u.trans (max_le b (max_le (ge i s s' st).1 hin)), hin⟩

end Field

namespace PortDemo
open Fastsim.Demo

/-- The vehicle of the cases: thermal mass `c` of the exhaust port. -/
def car (c : ℚ) : VehThrm ℚ := { fullCar with exhportCKjK := c }

/-- A simulation in air at 20 °C with the engine at 60 °C, the catalyst at 50 °C and the port at the given temperature. -/
def start (port : ℚ) : Hot ℚ :=
  { hotStart 60 with state := Thermal.make (some 20) (some 60) none (some port) (some 50) }

/-- What is checked of step `i` of a drive. -/
def check (f : Hot ℚ) (i : Nat) : Bool :=
  match f.history[i - 1]?, f.history[i]? with
  | some s, some s' => decide (0 < stepDt f i ∧ stepDt f i ≤ 2 ∧ 0 ≤ s'.exhMdot ∧ 20 ≤ s.fcTe ∧ 20 ≤ s'.exhportExhTeIn ∧
      s.fcTe ≤ 2400 ∧ s'.fcTeAdiabatic ≤ 2400)
  | _, _ => false

/-- **C143 (case).** The settings of `C143_lower` and `C143_upper` are met by the default port: it stays between 20 and 2400 °C, and
gets warmer in the drive. -/
theorem C143_demo : ∃ f, Walks hotFns hotConsts (car 10) conv params (start 70) (1 / 2) none f ∧ PortSteps (car 10) (start 70) f ∧
    (∀ n s, n < (start 70).sd.cyc0.length → f.history[(start 70).history.length + n]? = some s →
      20 ≤ s.exhportTe ∧ s.exhportTe ≤ 2400 ∧ s.exhportExhTeIn ≤ 2400) ∧
    ∃ s ∈ f.history, 76 < s.exhportTe ∧ 1200 < s.exhportExhTeIn := by
  have e : (match hotWalk hotFns hotConsts (car 10) conv params (start 70) (1 / 2) none with
      | .ok f => decide (∀ i ∈ List.range' 1 5, check f i = true) &&
          decide (∃ s ∈ f.history, 76 < s.exhportTe ∧ 1200 < s.exhportExhTeIn)
      | .error _ => false) = true := by decide +kernel
  split at e
  · rename_i f w
    rw [Bool.and_eq_true, decide_eq_true_eq, decide_eq_true_eq] at e
    obtain ⟨t, tq⟩ := e
    have ws : Walks hotFns hotConsts (car 10) conv params (start 70) (1 / 2) none f := ⟨rfl, fun x e => (nomatch e), w⟩
    have key : ∀ i s s', Steps (start 70) f i s s' → 0 < stepDt f i ∧ stepDt f i ≤ 2 ∧ 0 ≤ s'.exhMdot ∧ 20 ≤ s.fcTe ∧
        20 ≤ s'.exhportExhTeIn ∧ s.fcTe ≤ 2400 ∧ s'.fcTeAdiabatic ≤ 2400 := by
      intro i s s' st
      have l : i < 6 := st.lt
      have := t i (List.mem_range'_1.2 ⟨st.pos, by omega⟩)
      have b : f.history[i - 1]? = some s := by simpa [start, hotStart] using st.before
      have a : f.history[i]? = some s' := by simpa [start, hotStart] using st.after
      simpa only [check, a, b, decide_eq_true_eq] using this
    have hd : ∀ i, 0 < i → i < (start 70).sd.cyc0.length → 0 < stepDt f i := by
      intro i hi hl
      have l : i < 6 := hl
      have := t i (List.mem_range'_1.2 ⟨hi, by omega⟩)
      simp only [check] at this
      split at this
      · simp only [decide_eq_true_eq] at this
        exact this.1
      · cases this
    have a1 : (car 10).exhportHaToAmb = 5 := by decide +kernel
    have a2 : (car 10).exhportHaInt = 100 := by decide +kernel
    have hs : PortSteps (car 10) (start 70) f := by
      intro i s s' st
      have := (key i s s' st).2.1
      rw [a1, a2]
      show (5 + 100) * stepDt f i ≤ 1000 * 10
      linarith
    have h1 : 0 ≤ (car 10).exhportHaToAmb := by rw [a1]; norm_num
    have h2 : 0 ≤ (car 10).exhportHaInt := by rw [a2]; norm_num
    have hc : 0 < (car 10).exhportCKjK := by norm_num [car]
    have k := C143_lower (m := 20) ws rfl hc h1 h2 hd hs (fun i s s' st => (key i s s' st).2.2.1) (by decide +kernel)
      fun i s s' st => ⟨(key i s s' st).2.2.2.1, (key i s s' st).2.2.2.2.1⟩
    have k' := C143_upper (M := 2400) ws rfl hc h1 h2 hd hs (fun i s s' st => (key i s s' st).2.2.1) (by decide +kernel)
      (by decide +kernel) fun i s s' st => ⟨(key i s s' st).2.2.2.2.2.1, (key i s s' st).2.2.2.2.2.2⟩
    exact ⟨f, ws, hs, fun n s a b => ⟨k n s a b, k' n s a b⟩, tq⟩
  · cases e

/-- **C143 (case: engine off).** In the first step no exhaust flows: port and catalyst cool, and stay above engine and air. -/
theorem C143_demo_off :
    (match hotWalk hotFns hotConsts (car 10) conv params (start 70) (1 / 2) none with
      | .ok f => match f.history[0]?, f.history[1]? with
        | some s, some s' => decide (s'.exhMdot = 0 ∧ 0 < stepDt f 1 ∧ s.fcTe < s'.exhportTe ∧ s'.exhportTe < s.exhportTe ∧
            s'.ambTe < s'.catTe ∧ s'.catTe < s.catTe ∧
            0 ≤ s'.catHtcToAmb * (hotConsts.pi * hotFns.pow (car 10).catL (2 / 4)))
        | _, _ => false
      | .error _ => false) = true := by
  decide +kernel

/-- **C143 (found: a light port).** The flows from engine and exhaust are limited one at a time, each as if it were alone: without
short steps, a light port that is colder than both gets hotter than both. -/
theorem C143_swing :
    (match hotWalk hotFns hotConsts (car (1 / 100)) conv params (start 0) (1 / 2) none with
      | .ok f => decide (∃ p ∈ pairs f, p.1.exhportTe < p.1.fcTe ∧ p.1.fcTe < p.2.exhportExhTeIn ∧
          p.2.exhportExhTeIn < p.2.exhportTe)
      | .error _ => false) = true := by
  decide +kernel

/-- What is checked of the catalyst in step `i` of a drive. -/
def catCheck (f : Hot ℚ) (i : Nat) : Bool :=
  match f.history[i - 1]?, f.history[i]? with
  | some _, some s' => decide (0 < stepDt f i ∧ 0 ≤ s'.exhMdot ∧
      0 ≤ s'.catHtcToAmb * (hotConsts.pi * hotFns.pow (car 10).catL (2 / 4)) ∧
      (s'.catHtcToAmb * (hotConsts.pi * hotFns.pow (car 10).catL (2 / 4)) + s'.exhMdot * (13361 / 10)) * stepDt f i
        ≤ 1000 * (car 10).catCKjK ∧
      20 ≤ s'.ambTe ∧ 20 ≤ s'.catExhTeIn ∧ s'.ambTe ≤ 2400 ∧ s'.fcTeAdiabatic ≤ 2400)
  | _, _ => false

/-- **C143 (case: catalyst).** The settings of `C143_catalyst` are met by the default catalyst: it stays between 20 and 2400 °C while
exhaust flows through it. -/
theorem C143_demo_catalyst : ∃ f, Walks hotFns hotConsts (car 10) conv params (start 70) (1 / 2) none f ∧
    CatSteps (car 10) (hotConsts.pi * hotFns.pow (car 10).catL (2 / 4)) (start 70) f ∧
    (∀ n s, n < (start 70).sd.cyc0.length → f.history[(start 70).history.length + n]? = some s →
      20 ≤ s.catTe ∧ s.catTe ≤ 2400 ∧ s.catExhTeIn ≤ 2400) ∧ ∃ s ∈ f.history, 0 < s.catQdotFromExh := by
  have e : (match hotWalk hotFns hotConsts (car 10) conv params (start 70) (1 / 2) none with
      | .ok f => decide (∀ i ∈ List.range' 1 5, catCheck f i = true) && decide (∃ s ∈ f.history, 0 < s.catQdotFromExh)
      | .error _ => false) = true := by decide +kernel
  split at e
  · rename_i f w
    rw [Bool.and_eq_true, decide_eq_true_eq, decide_eq_true_eq] at e
    obtain ⟨t, tq⟩ := e
    have ws : Walks hotFns hotConsts (car 10) conv params (start 70) (1 / 2) none f := ⟨rfl, fun x e => (nomatch e), w⟩
    have key : ∀ i s s', Steps (start 70) f i s s' → 0 < stepDt f i ∧ 0 ≤ s'.exhMdot ∧
        0 ≤ s'.catHtcToAmb * (hotConsts.pi * hotFns.pow (car 10).catL (2 / 4)) ∧
        (s'.catHtcToAmb * (hotConsts.pi * hotFns.pow (car 10).catL (2 / 4)) + s'.exhMdot * (13361 / 10)) * stepDt f i
          ≤ 1000 * (car 10).catCKjK ∧
        20 ≤ s'.ambTe ∧ 20 ≤ s'.catExhTeIn ∧ s'.ambTe ≤ 2400 ∧ s'.fcTeAdiabatic ≤ 2400 := by
      intro i s s' st
      have l : i < 6 := st.lt
      have := t i (List.mem_range'_1.2 ⟨st.pos, by omega⟩)
      have b : f.history[i - 1]? = some s := by simpa [start, hotStart] using st.before
      have a : f.history[i]? = some s' := by simpa [start, hotStart] using st.after
      simpa only [catCheck, a, b, decide_eq_true_eq] using this
    have hd : ∀ i, 0 < i → i < (start 70).sd.cyc0.length → 0 < stepDt f i := by
      intro i hi hl
      have l : i < 6 := hl
      have := t i (List.mem_range'_1.2 ⟨hi, by omega⟩)
      simp only [catCheck] at this
      split at this
      · simp only [decide_eq_true_eq] at this
        exact this.1
      · cases this
    have hs : CatSteps (car 10) (hotConsts.pi * hotFns.pow (car 10).catL (2 / 4)) (start 70) f := fun i s s' st =>
      ⟨(key i s s' st).2.2.1, (key i s s' st).2.2.2.1⟩
    exact ⟨f, ws, hs, C143_catalyst (m := 20) (M := 2400) ws rfl (by decide +kernel) (by decide +kernel) hd hs
      (fun i s s' st => (key i s s' st).2.1) (by decide +kernel)
      (fun i s s' st => ⟨(key i s s' st).2.2.2.2.1, (key i s s' st).2.2.2.2.2.1⟩) (by decide +kernel) (by decide +kernel)
      fun i s s' st => (key i s s' st).2.2.2.2.2.2, tq⟩
  · cases e

end PortDemo

end Fastsim.Props
