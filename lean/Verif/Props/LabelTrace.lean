import Verif.Props.LabelSim
import Verif.Props.Within
import Verif.Props.MassWork
import Verif.Props.FirstLaw

set_option linter.unusedSectionVars false

/-!
# C137: the label of a conventional vehicle, from the legs of the test cycles, and the labels of two vehicles
-/

namespace Fastsim.Spec
open Props
section Field
variable {K : Type*} [Field K] [LinearOrder K] [IsStrictOrderedRing K]

/-- Length (miles of 1609 m) of a trace that is met: the speed at the end of each leg counts. -/
def testMiles (c : Cyc K) : K := ((legs c).map fun l => l.v * l.dt).sum / 1609

/-- Work of the engine (kJ) over a trace that is met. -/
def testWorkKj (F : Fns K) (V : Veh K) (P : SimParams K) (c : Cyc K) : K :=
  ((legs c).map fun l => legWorkKw F V P.toStepParams (ownAux V) l * l.dt).sum

/-- A trace that leads somewhere, takes time in every leg and is within the limits of the vehicle. -/
structure TestWithin (F : Fns K) (V : Veh K) (P : SimParams K) (c : Cyc K) : Prop where
  time : ∀ l ∈ legs c, 0 < l.dt
  miles : 0 < testMiles c
  within : LegsWithin F V P.toStepParams (ownAux V) 0 (legs c)

/-- A conventional vehicle, with accessories, driven as the trace says. -/
structure LabelCar (V : Veh K) (P : SimParams K) : Prop where
  noCoast : P.coastAllow = false
  noIdm : P.idmAllow = false
  noDilation : P.missedTrace = false
  conventional : Conventional V
  type : V.ptType = .conv
  window : V.minSoc ≤ V.maxSoc
  accessories : 0 < ownAux V
  map : EffOk V

/-- The economies on a label. -/
def economies : List String :=
  ["labUddsMpgge", "labHwyMpgge", "labCombMpgge", "adjUddsMpgge", "adjHwyMpgge", "adjCombMpgge"]

end Field
end Fastsim.Spec

namespace Fastsim.Props
open Fastsim Spec

section Field
variable {K : Type*} [Field K] [LinearOrder K] [IsStrictOrderedRing K] [FloorRing K]
variable {F : Fns K} {V V' : Veh K} {P P' : SimParams K}

theorem miles_met (hc : P.coastAllow = false) (hd : P.idmAllow = false) (hm : P.missedTrace = false) {c : Cyc K} {init : Option K} {s : Sim K}
    (h : simDrive F (realHooks F V P) V P (Sim.new c) init none = .ok s) (hmet : MeetsTrace s) :
    totalMiles s = testMiles c := by
  have hH : (realHooks F V P).Local := realHooks_local
  have hk := simDrive_keeps hH (s := Sim.new c) rfl h
  have hcyc : s.cyc = c := hk.cyc (by unfold Resets; simp [hc, hd, hm])
  have fin := Finished.simDrive hH (s := Sim.new c) rfl h
  have hlen := fin.lenRows hH
  have hpos := fin.pos hH
  obtain ⟨soc, -, hrow0⟩ := Reachable.row0 hH fin.reachable
  obtain ⟨n, hn⟩ : ∃ n, s.cyc.length = n + 1 := ⟨s.cyc.length - 1, by omega⟩
  have e : s.rows.map (fun r => r.ach.distMi) = (List.range (n + 1)).map fun i => (s.row i).ach.distMi := by
    apply List.ext_getElem
    · simp [hlen, hn]
    · intro i h1 h2
      simp only [List.length_map] at h1
      simp only [List.getElem_map, List.getElem_range, Sim.row, List.getD_eq_getElem?_getD,
        List.getElem?_eq_getElem h1, Option.getD_some]
  have e2 : ∀ (m : Nat) (g : Nat → K), ((List.range m).map g).sum = ∑ i ∈ Finset.range m, g i := by
    intro m g
    induction m with
    | zero => rfl
    | succ m ih => rw [List.range_succ, List.map_append, List.sum_append, ih, Finset.sum_range_succ]; simp
  have z : (s.row 0).ach.distMi = 0 := by rw [Sim.row, hrow0]; rfl
  unfold totalMiles testMiles
  rw [npSum_eq, e, e2, Finset.sum_range_succ', z, add_zero, legs_sum, ← hcyc, hn, Nat.add_sub_cancel, div_eq_mul_inv,
    Finset.sum_mul]
  refine Finset.sum_congr rfl fun i hi => ?_
  have hi' := Finset.mem_range.1 hi
  obtain ⟨p, r, dt, a, hs⟩ := stepAt_exists hH fin.reachable (i := i + 1) (by omega) (by rw [fin.atEnd]; omega)
  have e1 : s.row (i + 1) = r := by rw [Sim.row, List.getD_eq_getElem?_getD, hs.row]; rfl
  obtain ⟨E, st, hE, -, -, hr⟩ := StepAt.solve hH fin.reachable hs
  have m : (s.row (i + 1)).ach.distMi = r.ach.mpsAch * E.dt * (1 / mPerMi) := by rw [e1, hr]; rfl
  rw [m, (hmet _ _ _ _ _ hs).1, askedMps, hE, hs.dt]
  simp only [mPerMi, one_div]

/-- What a run over a trace within the limits gives. -/
theorem test_run (hC : LabelCar V P) : ∃ rate : K → K, (∀ x, ∃ e ∈ V.fcEffArray, rate x * e = x) ∧
    ∀ c, TestWithin F V P c → ∃ s, simDrive F (realHooks F V P) V P (Sim.new c) none none = .ok s ∧ MeetsTrace s ∧
      totalMiles s = testMiles c ∧ totalFuelKwh s = traceFuelKj F V P.toStepParams rate (ownAux V) c / 3600 ∧
      sumDt s (fun r => r.fc.fcKwOutAch) = testWorkKj F V P c := by
  obtain ⟨rate, hrate, hR⟩ := C121_run (F := F) hC.noCoast hC.noIdm hC.noDilation hC.conventional hC.type hC.window
    hC.accessories.le
  refine ⟨rate, fun x => hrate x hC.map, fun c hT => ?_⟩
  have hne : c ≠ [] := by
    rintro rfl
    have := hT.miles
    simp [testMiles, legs] at this
  obtain ⟨s, h, hmet, hf, hw⟩ := hR c none hne hT.within
  exact ⟨s, h, hmet, miles_met hC.noCoast hC.noIdm hC.noDilation h hmet, by
    rw [totalFuel_eq realHooks_local (Finished.simDrive realHooks_local (s := Sim.new c) rfl h), hf], hw⟩

/-- Engine work and fuel of a trace bound each other by the efficiencies of the map. -/
theorem fuel_work (hC : LabelCar V P) {rate : K → K} (hrate : ∀ x, ∃ e ∈ V.fcEffArray, rate x * e = x) {c : Cyc K}
    (hT : ∀ l ∈ legs c, 0 < l.dt) :
    (∀ lo, (∀ e ∈ V.fcEffArray, lo ≤ e) → lo * traceFuelKj F V P.toStepParams rate (ownAux V) c ≤ testWorkKj F V P c) ∧
    (∀ hi, (∀ e ∈ V.fcEffArray, e ≤ hi) → testWorkKj F V P c ≤ hi * traceFuelKj F V P.toStepParams rate (ownAux V) c) ∧
    (legs c ≠ [] → 0 < traceFuelKj F V P.toStepParams rate (ownAux V) c) := by
  unfold traceFuelKj testWorkKj
  generalize legs c = ls at hT
  have hrp : ∀ l : Leg K, 0 < rate (legWorkKw F V P.toStepParams (ownAux V) l) := by
    intro l
    obtain ⟨e, he, hre⟩ := hrate (legWorkKw F V P.toStepParams (ownAux V) l)
    have hw : 0 < legWorkKw F V P.toStepParams (ownAux V) l :=
      add_pos_of_nonneg_of_pos (div_nonneg (le_max_left _ _) hC.conventional.eff.le) hC.accessories
    by_contra hn
    have := mul_nonpos_of_nonpos_of_nonneg (not_lt.1 hn) (hC.map.range e he).1.le
    linarith
  induction ls with
  | nil => simp
  | cons l ls ih =>
    obtain ⟨i1, i2, i3⟩ := ih fun k hk => hT k (List.mem_cons_of_mem _ hk)
    have hdt := hT l (by simp)
    obtain ⟨e, he, hre⟩ := hrate (legWorkKw F V P.toStepParams (ownAux V) l)
    have hr := hrp l
    have hx : 0 < rate (legWorkKw F V P.toStepParams (ownAux V) l) * l.dt := mul_pos hr hdt
    simp only [List.map_cons, List.sum_cons, legFuelKj] at i1 i2 i3 ⊢
    refine ⟨fun lo hlo => ?_, fun hi hhi => ?_, fun _ => ?_⟩
    · have k1 := mul_le_mul_of_nonneg_right (hlo e he) hx.le
      have k2 := i1 lo hlo
      have k3 : e * (rate (legWorkKw F V P.toStepParams (ownAux V) l) * l.dt) = legWorkKw F V P.toStepParams (ownAux V) l * l.dt := by
        rw [← mul_assoc, mul_comm e, hre]
      linarith
    · have k1 := mul_le_mul_of_nonneg_right (hhi e he) hx.le
      have k2 := i2 hi hhi
      have k3 : e * (rate (legWorkKw F V P.toStepParams (ownAux V) l) * l.dt) = legWorkKw F V P.toStepParams (ownAux V) l * l.dt := by
        rw [← mul_assoc, mul_comm e, hre]
      linarith
    · cases ls with
      | nil => simpa using hx
      | cons k ls => exact add_pos hx (i3 (by simp))

theorem legs_ne {c : Cyc K} (h : 0 < testMiles c) : legs c ≠ [] := by
  intro e
  simp [testMiles, e] at h

theorem label_accel (hC : LabelCar V P) : ∃ acc, accelSpeeds F V P = .ok acc := by
  obtain ⟨acc, h, -⟩ := C57_test (F := F) (V := V) (P := P) hC.window (fun e => absurd e (by simp [hC.noIdm]))
    (fun e => absurd e (by simp [hC.noCoast])) (fun e => absurd e (by simp [hC.noCoast]))
  exact ⟨acc, h⟩

/-- **C137 (label from data).** A conventional vehicle within whose limits the two test cycles lie has a label, and its laboratory
economies can be computed leg by leg from the cycles: one table gives the fuel for the engine power of every leg. -/
theorem C137_label (hC : LabelCar V P) : ∃ rate : K → K, (∀ x, ∃ e ∈ V.fcEffArray, rate x * e = x) ∧
    ∀ {c : LabelConst K} {tbl : List (K × K)} {veh : LabelVeh K} {udds hwy : Cyc K}, veh.ptType = .conv → 0 < c.kwhPerGge →
      TestWithin F V P udds → TestWithin F V P hwy →
      let gal := fun d => traceFuelKj F V P.toStepParams rate (ownAux V) d / 3600 / c.kwhPerGge
      ∃ out lc, vehicleLabel F V P c tbl veh udds hwy = .ok out ∧ 0 < gal udds ∧ 0 < gal hwy ∧
        Reads out "labUddsMpgge" (testMiles udds / gal udds) ∧ Reads out "labHwyMpgge" (testMiles hwy / gal hwy) ∧
        Reads out "labCombMpgge" lc ∧
        100 / lc = 55 * gal udds / testMiles udds + 45 * gal hwy / testMiles hwy := by
  obtain ⟨rate, hrate, hR⟩ := test_run (F := F) hC
  refine ⟨rate, hrate, fun {c tbl veh udds hwy} hpt hg hu hh => ?_⟩
  obtain ⟨su, h1, -, m1, f1, -⟩ := hR udds hu
  obtain ⟨sh, h2, -, m2, f2, -⟩ := hR hwy hh
  obtain ⟨acc, ha⟩ := label_accel (F := F) hC
  have p1 := (fuel_work (F := F) hC hrate hu.time).2.2 (legs_ne hu.miles)
  have p2 := (fuel_work (F := F) hC hrate hh.time).2.2 (legs_ne hh.miles)
  have q1 : 0 < totalFuelKwh su := by rw [f1]; positivity
  have q2 : 0 < totalFuelKwh sh := by rw [f2]; positivity
  obtain ⟨out, lc, r1, r2, r3, r4, -, r5⟩ := C87_mpg (c := c) (tbl := tbl) (.inl hpt) hg h1 h2 ha q1 q2 (by rw [m1]; exact hu.miles)
    (by rw [m2]; exact hh.miles)
  rw [m1, f1] at r2 r5
  rw [m2, f2] at r3 r5
  exact ⟨out, lc, r1, by positivity, by positivity, r2, r3, r4, r5⟩

theorem ratio_inv {a a' q : K} (ha : 0 < a) (ha' : 0 < a') (hq : 0 < q) (h : 1 / (q * a) ≤ 1 / a') : a' ≤ q * a :=
  (one_div_le_one_div (mul_pos hq ha) ha').1 h

/-- Labels of two vehicles whose simulated economies are within a ratio. -/
theorem labels_ratio {c : LabelConst K} {tbl : List (K × K)} {veh veh' : LabelVeh K} {udds hwy : Cyc K} {su sh su' sh' : Sim K}
    {acc acc' : List (K × K)} (hpt : veh.ptType = .conv) (hpt' : veh'.ptType = .conv)
    (hy : veh.vehYear < 2017 ↔ veh'.vehYear < 2017)
    (hu : simDrive F (realHooks F V P) V P (Sim.new udds) none none = .ok su)
    (hh : simDrive F (realHooks F V P) V P (Sim.new hwy) none none = .ok sh) (ha : accelSpeeds F V P = .ok acc)
    (hu' : simDrive F (realHooks F V' P') V' P' (Sim.new udds) none none = .ok su')
    (hh' : simDrive F (realHooks F V' P') V' P' (Sim.new hwy) none none = .ok sh') (ha' : accelSpeeds F V' P' = .ok acc')
    {q : K} (hq : 1 ≤ q) (pu : 0 < mpgge c.kwhPerGge su) (ph : 0 < mpgge c.kwhPerGge sh) (pu' : 0 < mpgge c.kwhPerGge su')
    (ph' : 0 < mpgge c.kwhPerGge sh') (qu : mpgge c.kwhPerGge su' ≤ q * mpgge c.kwhPerGge su)
    (qh : mpgge c.kwhPerGge sh' ≤ q * mpgge c.kwhPerGge sh) :
    ∃ out out', vehicleLabel F V P c tbl veh udds hwy = .ok out ∧ vehicleLabel F V' P' c tbl veh' udds hwy = .ok out' ∧
      ∀ k ∈ economies, ∃ x x', Reads out k x ∧ Reads out' k x' ∧ 0 < x ∧ 0 < x' ∧ x' ≤ q * x := by
  have eu : labelSim F V P c udds hwy .udds none = .ok (labelRun c.kwhPerGge V su) := by unfold labelSim; simp only [hu]
  have eh : labelSim F V P c udds hwy .hwy none = .ok (labelRun c.kwhPerGge V sh) := by unfold labelSim; simp only [hh]
  have eu' : labelSim F V' P' c udds hwy .udds none = .ok (labelRun c.kwhPerGge V' su') := by unfold labelSim; simp only [hu']
  have eh' : labelSim F V' P' c udds hwy .hwy none = .ok (labelRun c.kwhPerGge V' sh') := by unfold labelSim; simp only [hh']
  obtain ⟨out, lc, au, ah, ac, r1, r2, r3, r4, r5, r6, r7, r8, r9, r10, l1, -, p1, -, p2, -, p3, -⟩ :=
    C40_mpg (c := c) (tbl := tbl) (acc := acc) (Or.inl hpt) eu eh pu ph
  obtain ⟨out', lc', au', ah', ac', s1, s2, s3, s4, s5, s6, s7, s8, s9, s10, l1', -, q1, -, q2, -, q3, -⟩ :=
    C40_mpg (c := c) (tbl := tbl) (acc := acc') (Or.inl hpt') eu' eh' pu' ph'
  have k1 : ∀ s : Sim K, ∀ X : Veh K, (labelRun c.kwhPerGge X s).mpgge = mpgge c.kwhPerGge s := fun _ _ => rfl
  rw [k1] at r2 r3 s2 s3
  simp only [k1] at r8 r10 s8 s10 l1 l1'
  generalize mpgge c.kwhPerGge su = x at *
  generalize mpgge c.kwhPerGge sh = y at *
  generalize mpgge c.kwhPerGge su' = x' at *
  generalize mpgge c.kwhPerGge sh' = y' at *
  have q0 : 0 < q := one_pos.trans_le hq
  have part : ∀ {s m m' : K}, 0 < s → 0 < m → 0 < m' → m' ≤ q * m → s / m / q ≤ s / m' := by
    intro s m m' hs hm hm' h
    rw [div_div, mul_comm m q]
    exact div_le_div_of_nonneg_left hs.le hm' h
  have adj : ∀ {i s m m' a a' : K}, 0 < i → 0 < s → 0 < m → 0 < m' → m' ≤ q * m → 0 < a → 0 < a' → 1 / a = i + s / m →
      1 / a' = i + s / m' → a' ≤ q * a := by
    intro i s m m' a a' hi hs hm hm' hmm h1 h2 e1 e2
    refine ratio_inv h1 h2 q0 ?_
    have e : 1 / (q * a) = i / q + s / m / q := by rw [mul_comm, ← div_div, e1, add_div]
    rw [e, e2]
    exact add_le_add (div_le_self hi.le hq) (part hs hm hm' hmm)
  have comb : ∀ {m n m' n' z z' : K}, 0 < m → 0 < n → 0 < m' → 0 < n' → m' ≤ q * m → n' ≤ q * n → 0 < z → 0 < z' →
      100 / z = 55 / m + 45 / n → 100 / z' = 55 / m' + 45 / n' → z' ≤ q * z := by
    intro m n m' n' z z' hm hn hm' hn' h1 h2 hz hz' e1 e2
    refine ratio_inv hz hz' q0 ?_
    have a1 := part (show (0 : K) < 55 by norm_num) hm hm' h1
    have a2 := part (show (0 : K) < 45 by norm_num) hn hn' h2
    have e : 100 / z / q ≤ 100 / z' := by rw [e1, e2, add_div]; exact add_le_add a1 a2
    rw [mul_comm, ← div_div]
    have f1 : (100 : K) / z / q = 100 * (1 / z / q) := by ring
    have f2 : (100 : K) / z' = 100 * (1 / z') := by ring
    rw [f1, f2] at e
    exact le_of_mul_le_mul_left e (by norm_num)
  have hau : au' ≤ q * au ∧ ah' ≤ q * ah := by
    by_cases hyy : veh.vehYear < 2017
    · rw [if_pos hyy] at r10
      rw [if_pos (hy.1 hyy)] at s10
      exact ⟨adj (by norm_num) (by norm_num) pu pu' qu p1 q1 r10.1 s10.1, adj (by norm_num) (by norm_num) ph ph' qh p2 q2 r10.2 s10.2⟩
    · rw [if_neg hyy] at r10
      rw [if_neg fun e => hyy (hy.2 e)] at s10
      exact ⟨adj (by norm_num) (by norm_num) pu pu' qu p1 q1 r10.1 s10.1, adj (by norm_num) (by norm_num) ph ph' qh p2 q2 r10.2 s10.2⟩
  have lp : 0 < lc := (lt_min pu ph).trans_le l1.1
  have lp' : 0 < lc' := (lt_min pu' ph').trans_le l1'.1
  refine ⟨out, out', by unfold vehicleLabel; rw [ha]; exact r1, by unfold vehicleLabel; rw [ha']; exact s1, ?_⟩
  intro k hk
  simp only [economies, List.mem_cons, List.not_mem_nil, or_false] at hk
  rcases hk with rfl | rfl | rfl | rfl | rfl | rfl
  · exact ⟨x, x', r2, s2, pu, pu', qu⟩
  · exact ⟨y, y', r3, s3, ph, ph', qh⟩
  · exact ⟨lc, lc', r4, s4, lp, lp', comb pu ph pu' ph' qu qh lp lp' r8 s8⟩
  · exact ⟨au, au', r5, s5, p1, q1, hau.1⟩
  · exact ⟨ah, ah', r6, s6, p2, q2, hau.2⟩
  · exact ⟨ac, ac', r7, s7, p3, q3, comb p1 p2 q1 q2 hau.1 hau.2 p3 q3 r9 s9⟩

/-- **C137 (two vehicles).** If the engine of the first vehicle has no more work to do on either test cycle, no economy on the label of
the second vehicle exceeds that of the first by more than the ratio of the best efficiency of the second engine and the worst of the
first; with one efficiency at every power in both, it is no better. -/
theorem C137_compare (hC : LabelCar V P) (hC' : LabelCar V' P') {lo hi : K} (hlo : 0 < lo) (hlh : lo ≤ hi)
    (h1 : ∀ e ∈ V.fcEffArray, lo ≤ e) (h2 : ∀ e ∈ V'.fcEffArray, e ≤ hi) {c : LabelConst K} {tbl : List (K × K)}
    {veh veh' : LabelVeh K} (hpt : veh.ptType = .conv) (hpt' : veh'.ptType = .conv)
    (hy : veh.vehYear < 2017 ↔ veh'.vehYear < 2017) (hg : 0 < c.kwhPerGge) {udds hwy : Cyc K}
    (hu : TestWithin F V P udds) (hh : TestWithin F V P hwy) (hu' : TestWithin F V' P' udds) (hh' : TestWithin F V' P' hwy)
    (wu : testWorkKj F V P udds ≤ testWorkKj F V' P' udds) (wh : testWorkKj F V P hwy ≤ testWorkKj F V' P' hwy) :
    ∃ out out', vehicleLabel F V P c tbl veh udds hwy = .ok out ∧ vehicleLabel F V' P' c tbl veh' udds hwy = .ok out' ∧
      ∀ k ∈ economies, ∃ x x', Reads out k x ∧ Reads out' k x' ∧ 0 < x ∧ 0 < x' ∧ x' ≤ hi / lo * x := by
  obtain ⟨rate, hrate, hR⟩ := test_run (F := F) hC
  obtain ⟨rate', hrate', hR'⟩ := test_run (F := F) hC'
  have key : ∀ d, TestWithin F V P d → TestWithin F V' P' d → testWorkKj F V P d ≤ testWorkKj F V' P' d → ∃ s s',
      simDrive F (realHooks F V P) V P (Sim.new d) none none = .ok s ∧
      simDrive F (realHooks F V' P') V' P' (Sim.new d) none none = .ok s' ∧ 0 < mpgge c.kwhPerGge s ∧ 0 < mpgge c.kwhPerGge s' ∧
      mpgge c.kwhPerGge s' ≤ hi / lo * mpgge c.kwhPerGge s := by
    intro d hd hd' hw
    obtain ⟨s, g1, -, m1, f1, -⟩ := hR d hd
    obtain ⟨s', g2, -, m2, f2, -⟩ := hR' d hd'
    obtain ⟨a1, -, a3⟩ := fuel_work (F := F) hC hrate hd.time
    obtain ⟨-, b2, b3⟩ := fuel_work (F := F) hC' hrate' hd'.time
    have a := a1 lo h1
    have b := b2 hi h2
    have p := a3 (legs_ne hd.miles)
    have p' := b3 (legs_ne hd.miles)
    have hm := hd.miles
    generalize traceFuelKj F V P.toStepParams rate (ownAux V) d = x at *
    generalize traceFuelKj F V' P'.toStepParams rate' (ownAux V') d = x' at *
    have e1 : mpgge c.kwhPerGge s = testMiles d / (x / 3600 / c.kwhPerGge) := by
      unfold mpgge; rw [if_neg (by rw [f1]; positivity), m1, f1]
    have e2 : mpgge c.kwhPerGge s' = testMiles d / (x' / 3600 / c.kwhPerGge) := by
      unfold mpgge; rw [if_neg (by rw [f2]; positivity), m2, f2]
    refine ⟨s, s', g1, g2, by rw [e1]; positivity, by rw [e2]; positivity, ?_⟩
    rw [e1, e2]
    have hx : lo * x ≤ hi * x' := by linarith
    have hhi : 0 < hi := hlo.trans_le hlh
    have e3 : hi / lo * (testMiles d / (x / 3600 / c.kwhPerGge)) = hi / (lo * x) * (testMiles d * 3600 * c.kwhPerGge) := by
      field_simp
    have e4 : testMiles d / (x' / 3600 / c.kwhPerGge) = 1 / x' * (testMiles d * 3600 * c.kwhPerGge) := by
      field_simp
    rw [e3, e4]
    refine mul_le_mul_of_nonneg_right ?_ (by positivity)
    rw [div_le_div_iff₀ p' (mul_pos hlo p)]
    linarith
  obtain ⟨su, su', g1, g2, g3, g4, g5⟩ := key udds hu hu' wu
  obtain ⟨sh, sh', k1, k2, k3, k4, k5⟩ := key hwy hh hh' wh
  obtain ⟨acc, ha⟩ := label_accel (F := F) hC
  obtain ⟨acc', ha'⟩ := label_accel (F := F) hC'
  exact labels_ratio hpt hpt' hy g1 k1 ha g2 k2 ha' ((one_le_div hlo).2 hlh) g3 k3 g4 k4 g5 k5

/-- **C137 (resistance).** A conventional vehicle with more air or rolling resistance or accessories has no better economy on its label,
up to the ratio of the best and the worst efficiency of the engine. -/
theorem C137_resistance (hC : LabelCar V P) (hC' : LabelCar V' P') (hM : MoreResistance V V' P P') (haux : ownAux V ≤ ownAux V')
    (hcos : ∀ g, 0 ≤ F.cosAtan g) {lo hi : K} (hlo : 0 < lo) (hb : ∀ e ∈ V.fcEffArray, lo ≤ e ∧ e ≤ hi) {c : LabelConst K}
    {tbl : List (K × K)} {veh : LabelVeh K} (hpt : veh.ptType = .conv) (hg : 0 < c.kwhPerGge) {udds hwy : Cyc K}
    (hu : TestWithin F V P udds) (hh : TestWithin F V P hwy) (hu' : TestWithin F V' P' udds) (hh' : TestWithin F V' P' hwy)
    (vu : ∀ l ∈ legs udds, 0 ≤ l.v0 ∧ 0 ≤ l.v) (vh : ∀ l ∈ legs hwy, 0 ≤ l.v0 ∧ 0 ≤ l.v) :
    ∃ out out', vehicleLabel F V P c tbl veh udds hwy = .ok out ∧ vehicleLabel F V' P' c tbl veh udds hwy = .ok out' ∧
      ∀ k ∈ economies, ∃ x x', Reads out k x ∧ Reads out' k x' ∧ 0 < x ∧ 0 < x' ∧ x' ≤ hi / lo * x := by
  have hlh : lo ≤ hi := by
    obtain ⟨e, he⟩ := List.exists_mem_of_ne_nil _ hC.map.nonempty
    exact (hb e he).1.trans (hb e he).2
  have ee : V'.fcEffArray = V.fcEffArray := by rw [hM.vehicle]
  have et : V'.transEff = V.transEff := by rw [hM.vehicle]
  have work : ∀ d : Cyc K, (∀ l ∈ legs d, 0 < l.dt) → (∀ l ∈ legs d, 0 ≤ l.v0 ∧ 0 ≤ l.v) →
      testWorkKj F V P d ≤ testWorkKj F V' P' d := by
    intro d ht hv
    unfold testWorkKj
    refine List.sum_le_sum fun l hl => mul_le_mul_of_nonneg_right ?_ (ht l hl).le
    unfold legWorkKw
    rw [et]
    have := roadLoad_mono (F := F) hM hcos (hv l hl).1 (hv l hl).2 l.dt l.grade
    have k := div_le_div_of_nonneg_right (max_le_max (le_refl (0 : K)) this) hC.conventional.eff.le
    linarith
  exact C137_compare hC hC' hlo hlh (fun e he => (hb e he).1) (fun e he => (hb e (ee ▸ he)).2) hpt hpt Iff.rfl hg hu hh hu' hh'
    (work _ hu.time vu) (work _ hh.time vh)

/-- **C137 (mass).** So does a heavier one, on test cycles that do not end slower than they start and do not go downhill more steeply
than rolling resistance holds. -/
theorem C137_mass {m m' : K} (h0 : 0 ≤ m) (hmm : m ≤ m') (hC : LabelCar (ofMass V m) P) (hS : SoundData V P.toStepParams)
    {lo hi : K} (hlo : 0 < lo) (hb : ∀ e ∈ V.fcEffArray, lo ≤ e ∧ e ≤ hi) {c : LabelConst K}
    {tbl : List (K × K)} {veh : LabelVeh K} (hpt : veh.ptType = .conv) (hg : 0 < c.kwhPerGge) {udds hwy : Cyc K}
    (hcyc : ∀ d ∈ [udds, hwy], TestWithin F (ofMass V m) P d ∧ TestWithin F (ofMass V m') P d ∧ DrivenForward d ∧ EndsNoSlower d ∧
      ∀ l ∈ legs d, 0 ≤ slopeShare F V l.grade) :
    ∃ out out', vehicleLabel F (ofMass V m) P c tbl veh udds hwy = .ok out ∧
      vehicleLabel F (ofMass V m') P c tbl veh udds hwy = .ok out' ∧
      ∀ k ∈ economies, ∃ x x', Reads out k x ∧ Reads out' k x' ∧ 0 < x ∧ 0 < x' ∧ x' ≤ hi / lo * x := by
  have hC' : LabelCar (ofMass V m') P :=
    ⟨hC.noCoast, hC.noIdm, hC.noDilation, ⟨hC.conventional.1, hC.conventional.2, hC.conventional.3, hC.conventional.4, hC.conventional.5,
      hC.conventional.6, hC.conventional.7⟩, hC.type, hC.window, hC.accessories, ⟨hC.map.1, hC.map.2, hC.map.3⟩⟩
  have hVc : Conventional V := ⟨hC.conventional.1, hC.conventional.2, hC.conventional.3, hC.conventional.4, hC.conventional.5,
      hC.conventional.6, hC.conventional.7⟩
  have hlh : lo ≤ hi := by
    obtain ⟨e, he⟩ := List.exists_mem_of_ne_nil _ hC.map.nonempty
    exact (hb e he).1.trans (hb e he).2
  have work : ∀ d ∈ [udds, hwy], testWorkKj F (ofMass V m) P d ≤ testWorkKj F (ofMass V m') P d := by
    intro d hd
    obtain ⟨t1, t2, d1, d2, d3⟩ := hcyc d hd
    exact legs_heavier hVc hS d1 d2 d3 h0 hmm
  obtain ⟨u1, u2, -⟩ := hcyc udds (by simp)
  obtain ⟨w1, w2, -⟩ := hcyc hwy (by simp)
  exact C137_compare hC hC' hlo hlh (fun e he => (hb e he).1) (fun e he => (hb e he).2) hpt hpt Iff.rfl hg u1 w1 u2 w2
    (work _ (by simp)) (work _ (by simp))

end Field

namespace LabelTraceDemo
open Demo

/-- The demo car, one with more resistance and heavier ones meet the hypotheses of `C137_label`, `C137_compare`, `C137_resistance` and
`C137_mass` with two trips as test cycles. -/
theorem C137_demo : LabelCar conv params ∧ LabelCar boxy denseAir ∧ MoreResistance conv boxy params denseAir ∧
    ownAux conv ≤ ownAux boxy ∧ (∀ g, 0 ≤ fns.cosAtan g) ∧ (∀ e ∈ conv.fcEffArray, 1 / 10 ≤ e ∧ e ≤ 7 / 20) ∧
    (∀ c ∈ [hop, hopFine], TestWithin fns conv params c ∧ TestWithin fns boxy denseAir c ∧ (∀ l ∈ legs c, 0 ≤ l.v0 ∧ 0 ≤ l.v)) ∧
    LabelCar (ofMass conv 1200) params ∧ SoundData conv params.toStepParams ∧
    ∀ c ∈ [hop, hopFine], TestWithin fns (ofMass conv 1200) params c ∧ TestWithin fns (ofMass conv 1600) params c ∧ DrivenForward c ∧
      EndsNoSlower c ∧ ∀ l ∈ legs c, 0 ≤ slopeShare fns conv l.grade := by
  have car : ∀ V ∈ [conv, boxy, ofMass conv 1200], ∀ P ∈ [params, denseAir], LabelCar V P := by
    intro V hV P hP
    simp only [List.mem_cons, List.not_mem_nil, or_false] at hV hP
    rcases hV with rfl | rfl | rfl <;> rcases hP with rfl | rfl <;>
      exact ⟨rfl, rfl, rfl, ⟨rfl, by decide, by decide +kernel, by decide +kernel, by decide +kernel, by decide +kernel,
        by decide +kernel⟩, rfl, by decide +kernel, by decide +kernel, ⟨by decide, by decide, by decide +kernel⟩⟩
  have test : ∀ V ∈ [conv, ofMass conv 1200, ofMass conv 1600], ∀ c ∈ [hop, hopFine], TestWithin fns V params c := by
    intro V hV c hc
    have : (∀ l ∈ legs c, 0 < l.dt) ∧ 0 < testMiles c ∧ LegsWithin fns V params.toStepParams (ownAux V) 0 (legs c) := by
      revert V c; decide +kernel
    exact ⟨this.1, this.2.1, this.2.2⟩
  have test' : ∀ c ∈ [hop, hopFine], TestWithin fns boxy denseAir c := by
    intro c hc
    have : (∀ l ∈ legs c, 0 < l.dt) ∧ 0 < testMiles c ∧ LegsWithin fns boxy denseAir.toStepParams (ownAux boxy) 0 (legs c) := by
      revert c; decide +kernel
    exact ⟨this.1, this.2.1, this.2.2⟩
  have sp : ∀ c ∈ [hop, hopFine], ∀ l ∈ legs c, (0 ≤ l.v0 ∧ 0 ≤ l.v) ∧ (0 < l.dt ∧ 0 ≤ avgSpeed l.v0 l.v) ∧
      0 ≤ slopeShare fns conv l.grade := by decide +kernel
  have ends : ∀ c ∈ [hop, hopFine], EndsNoSlower c := by
    intro c hc
    simp only [List.mem_cons, List.not_mem_nil, or_false] at hc
    rcases hc with rfl | rfl <;> (intro x y hx hy; cases hx; cases hy; decide +kernel)
  exact ⟨car _ (by simp) _ (by simp), car _ (by simp) _ (by simp), C80_demo.2.1, by decide +kernel, C80_demo.2.2.1, by decide +kernel,
    fun c hc => ⟨test _ (by simp) c hc, test' c hc, fun l hl => (sp c hc l hl).1⟩, car _ (by simp) _ (by simp), C119_demo.2.1,
    fun c hc => ⟨test _ (by simp) c hc, test _ (by simp) c hc, fun l hl => (sp c hc l hl).2.1, ends c hc,
      fun l hl => (sp c hc l hl).2.2⟩⟩

/-- A trip with a long stop. -/
def hopStop : Cyc ℚ := hop ++ [⟨60, 0, 0, 0⟩]

/-- **C137 (the ratio is needed).** Efficiencies are looked up without interpolation, so a car with more accessories can have the better
label: idling with them, its engine passes an entry of its map. -/
theorem C137_more_load {c : LabelConst ℚ} {tbl : List (ℚ × ℚ)} {veh : LabelVeh ℚ} (hpt : veh.ptType = .conv) (hg : 0 < c.kwhPerGge) :
    ∃ out out' x x', vehicleLabel fns { conv with auxKw := 9 / 10 } params c tbl veh hopStop hopStop = .ok out ∧
      vehicleLabel fns { conv with auxKw := 1 } params c tbl veh hopStop hopStop = .ok out' ∧
      Reads out "labUddsMpgge" x ∧ Reads out' "labUddsMpgge" x' ∧ x < x' := by
  have car : ∀ a ∈ [(9 / 10 : ℚ), 1], LabelCar { conv with auxKw := a } params := by
    intro a ha
    simp only [List.mem_cons, List.not_mem_nil, or_false] at ha
    rcases ha with rfl | rfl <;>
      exact ⟨rfl, rfl, rfl, ⟨rfl, by decide, by decide +kernel, by decide +kernel, by decide +kernel, by decide +kernel,
        by decide +kernel⟩, rfl, by decide +kernel, by decide +kernel, ⟨by decide, by decide, by decide +kernel⟩⟩
  obtain ⟨acc, ha⟩ := label_accel (F := fns) (car (9 / 10) (by simp))
  obtain ⟨acc', ha'⟩ := label_accel (F := fns) (car 1 (by simp))
  have runs : (match simDrive fns (realHooks fns { conv with auxKw := 9 / 10 } params) { conv with auxKw := 9 / 10 } params
        (Sim.new hopStop) none none,
      simDrive fns (realHooks fns { conv with auxKw := 1 } params) { conv with auxKw := 1 } params (Sim.new hopStop) none none with
      | .ok s, .ok s' => decide (0 < totalMiles s ∧ totalMiles s' = totalMiles s ∧ 0 < totalFuelKwh s' ∧
          totalFuelKwh s' < totalFuelKwh s)
      | _, _ => false) = true := by decide +kernel
  cases h : simDrive fns (realHooks fns { conv with auxKw := 9 / 10 } params) { conv with auxKw := 9 / 10 } params
      (Sim.new hopStop) none none with
  | error e => rw [h] at runs; simp at runs
  | ok s =>
    cases h' : simDrive fns (realHooks fns { conv with auxKw := 1 } params) { conv with auxKw := 1 } params
        (Sim.new hopStop) none none with
    | error e => rw [h, h'] at runs; simp at runs
    | ok s' =>
      rw [h, h'] at runs
      obtain ⟨m, me, f, ff⟩ := of_decide_eq_true runs
      obtain ⟨out, -, r1, r2, -⟩ := C87_mpg (c := c) (tbl := tbl) (.inl hpt) hg h h ha (f.trans ff) (f.trans ff) m m
      obtain ⟨out', -, s1, s2, -⟩ := C87_mpg (c := c) (tbl := tbl) (.inl hpt) hg h' h' ha' f f (me ▸ m) (me ▸ m)
      refine ⟨out, out', _, _, r1, s1, r2, s2, ?_⟩
      rw [me]
      exact div_lt_div_of_pos_left m (div_pos f hg) (div_lt_div_of_pos_right ff hg)

end LabelTraceDemo
end Fastsim.Props
