import Verif.Props.LabelTrace
import Verif.Props.Better

set_option linter.unusedSectionVars false

/-!
# C138: the label of a battery-electric vehicle, from the legs of the test cycles, and the labels of two vehicles
-/

namespace Fastsim.Spec
open Props
section Field
variable {K : Type*} [Field K] [LinearOrder K] [IsStrictOrderedRing K]

/-- A battery-electric vehicle with a strong battery, driven as the trace says. -/
structure LabelBev (F : Fns K) (V : Veh K) (P : SimParams K) : Prop where
  noCoast : P.coastAllow = false
  noIdm : P.idmAllow = false
  noDilation : P.missedTrace = false
  data : BevData V
  battery : StrongBattery V
  motor : MotorOk V
  braking : BrakeShareOk F V
  cells : 0 < F.sqrt V.essRoundTripEff

/-- A trace that leads somewhere, takes charge and is within the limits of the vehicle from a full battery. -/
structure BevTest (F : Fns K) (V : Veh K) (P : SimParams K) (elec : K → K) (c : Cyc K) : Prop where
  miles : 0 < testMiles c
  takes : 0 < traceCellKj F V P.toStepParams elec V.auxKw c
  within : BevLegsWithin F V P.toStepParams elec V.auxKw V.maxSoc 0 (legs c)

/-- Charge (kWh) per mile of a trace. -/
def useKwhPerMi (F : Fns K) (V : Veh K) (P : SimParams K) (elec : K → K) (c : Cyc K) : K :=
  traceCellKj F V P.toStepParams elec V.auxKw c / 3600 / testMiles c

/-- An adjusted use: intercept and slope of the agency, but no more than a share `a` of the result added. -/
def adjustedUse (g a i s x : K) : K := min (i * g + s * x) (x / (1 - a))

/-- The energy uses on a label. -/
def energyUses : List String :=
  ["labUddsKwhPerMile", "labHwyKwhPerMile", "labCombKwhPerMile", "adjUddsKwhPerMile", "adjHwyKwhPerMile", "adjCombKwhPerMile",
    "adjUddsEssKwhPerMile", "adjHwyEssKwhPerMile", "adjCombEssKwhPerMile"]

/-- Sound constants of the label: an energy content, a bound of the adjustment that is a proper share, a charging efficiency. -/
structure LabelConstOk (c : LabelConst K) : Prop where
  gge : 0 < c.kwhPerGge
  adj0 : 0 ≤ c.maxEpaAdj
  adj1 : c.maxEpaAdj < 1
  chg : 0 < c.chgEff

/-- City and highway coefficients of the agency: intercept and slope. -/
def epaCoefs (year : Int) : (K × K) × (K × K) :=
  if year < 2017 then ((3259 / 1000000, 11805 / 10000), (1376 / 1000000, 13466 / 10000))
  else ((4091 / 1000000, 11601 / 10000), (3191 / 1000000, 12945 / 10000))

/-- The adjusted uses in the city and on the highway. -/
def adjCity (c : LabelConst K) (year : Int) (x : K) : K :=
  adjustedUse c.kwhPerGge c.maxEpaAdj (epaCoefs year).1.1 (epaCoefs year).1.2 x
def adjHwy (c : LabelConst K) (year : Int) (x : K) : K :=
  adjustedUse c.kwhPerGge c.maxEpaAdj (epaCoefs year).2.1 (epaCoefs year).2.2 x

end Field
end Fastsim.Spec

namespace Fastsim.Props
open Fastsim Spec

section Field
variable {K : Type*} [Field K] [LinearOrder K] [IsStrictOrderedRing K] [FloorRing K]
variable {F : Fns K} {V V' : Veh K} {P P' : SimParams K}

/-- What is on the label of a battery-electric vehicle, given what its simulations take per mile. -/
theorem bev_label {c : LabelConst K} (hC : LabelConstOk c) {tbl : List (K × K)} {veh : LabelVeh K} {udds hwy : Cyc K} {su sh : Sim K}
    {acc : List (K × K)} (hpt : veh.ptType = .bev)
    (hu : simDrive F (realHooks F V P) V P (Sim.new udds) none none = .ok su)
    (hh : simDrive F (realHooks F V P) V P (Sim.new hwy) none none = .ok sh) (ha : accelSpeeds F V P = .ok acc) {x y : K}
    (hx : 0 < x) (hy : 0 < y) (ex : batteryKwhPerMi V su = x) (ey : batteryKwhPerMi V sh = y) :
    ∃ out, vehicleLabel F V P c tbl veh udds hwy = .ok out ∧
      Reads out "labUddsKwhPerMile" x ∧ Reads out "labHwyKwhPerMile" y ∧ Reads out "labCombKwhPerMile" (55 / 100 * x + 45 / 100 * y) ∧
      Reads out "adjUddsKwhPerMile" (adjCity c veh.vehYear x / c.chgEff) ∧
      Reads out "adjHwyKwhPerMile" (adjHwy c veh.vehYear y / c.chgEff) ∧
      Reads out "adjCombKwhPerMile" ((55 / 100 * adjCity c veh.vehYear x + 45 / 100 * adjHwy c veh.vehYear y) / c.chgEff) ∧
      Reads out "adjUddsEssKwhPerMile" (adjCity c veh.vehYear x) ∧ Reads out "adjHwyEssKwhPerMile" (adjHwy c veh.vehYear y) ∧
      Reads out "adjCombEssKwhPerMile" (55 / 100 * adjCity c veh.vehYear x + 45 / 100 * adjHwy c veh.vehYear y) ∧
      Reads out "netRangeMiles" (veh.essMaxKwh / (55 / 100 * adjCity c veh.vehYear x + 45 / 100 * adjHwy c veh.vehYear y)) ∧
      x ≤ adjCity c veh.vehYear x ∧ y ≤ adjHwy c veh.vehYear y := by
  obtain ⟨hg, ha0, ha1, hc⟩ := hC
  have eu : labelSim F V P c udds hwy .udds none = .ok (labelRun c.kwhPerGge V su) := by unfold labelSim; simp only [hu]
  have eh : labelSim F V P c udds hwy .hwy none = .ok (labelRun c.kwhPerGge V sh) := by unfold labelSim; simp only [hh]
  have kx : (labelRun c.kwhPerGge V su).kwhPerMi = x := ex
  have ky : (labelRun c.kwhPerGge V sh).kwhPerMi = y := ey
  obtain ⟨p1, p2, p3, p4⟩ := adjParams_pos (K := K) veh.vehYear
  have hU := adjKwh_bounds hg ha0 ha1 p1 p2 hx
  have hH := adjKwh_bounds hg ha0 ha1 p3 p4 hy
  simp only at hU hH
  have cu : adjCity c veh.vehYear x = min ((adjParams veh.vehYear).cityInt * c.kwhPerGge + (adjParams veh.vehYear).citySlope * x)
      (x / (1 - c.maxEpaAdj)) := by
    unfold adjCity adjustedUse epaCoefs adjParams
    split
    · simp only [adjCoef2008]; norm_num
    · simp only [adjCoef2017]; norm_num
  have ch : adjHwy c veh.vehYear y = min ((adjParams veh.vehYear).hwyInt * c.kwhPerGge + (adjParams veh.vehYear).hwySlope * y)
      (y / (1 - c.maxEpaAdj)) := by
    unfold adjHwy adjustedUse epaCoefs adjParams
    split
    · simp only [adjCoef2008]; norm_num
    · simp only [adjCoef2017]; norm_num
  obtain ⟨u1, -, u3⟩ := hU
  obtain ⟨h1, -, h3⟩ := hH
  rw [← cu] at u3
  rw [← ch] at h3
  rw [u3] at u1
  rw [h3] at h1
  have hau : adjKwhBev c (adjParams veh.vehYear).cityInt (adjParams veh.vehYear).citySlope x = adjCity c veh.vehYear x / c.chgEff := by
    rw [← u3]; rfl
  have hah : adjKwhBev c (adjParams veh.vehYear).hwyInt (adjParams veh.vehYear).hwySlope y = adjHwy c veh.vehYear y / c.chgEff := by
    rw [← h3]; rfl
  have ho := bev_out (c := c) (tbl := tbl) (acc := acc) hpt eu eh (by rw [kx]) (by rw [ky])
  have hcomb : ∀ a b : K, combKwh a b = 55 / 100 * a + 45 / 100 * b := by
    intro a b; unfold combKwh wCity wHwy; push_cast; rfl
  have hback : ∀ x : K, x / c.chgEff * c.chgEff = x := fun x => div_mul_cancel₀ x hc.ne'
  have hec : combKwh (adjCity c veh.vehYear x / c.chgEff) (adjHwy c veh.vehYear y / c.chgEff) =
      (55 / 100 * adjCity c veh.vehYear x + 45 / 100 * adjHwy c veh.vehYear y) / c.chgEff := by
    rw [hcomb]; ring
  rw [hau, hah, hec, hback, hback, hback, kx, ky, hcomb x y] at ho
  refine ⟨_, by unfold vehicleLabel; rw [ha]; exact ho, ?_, ?_, ?_, ?_, ?_, ?_, ?_, ?_, ?_, ?_, u1, h1⟩ <;> exact rfl

theorem adjustedUse_mono {g a i s x y : K} (ha : a < 1) (hs : 0 < s) (h : x ≤ y) : adjustedUse g a i s x ≤ adjustedUse g a i s y :=
  min_le_min (add_le_add_right (mul_le_mul_of_nonneg_left h hs.le) _) (div_le_div_of_nonneg_right h (sub_nonneg.2 ha.le))

theorem epaCoefs_pos (year : Int) : (0 : K) < (epaCoefs year).1.2 ∧ (0 : K) < (epaCoefs year).2.2 := by
  unfold epaCoefs
  split <;> constructor <;> norm_num

theorem bev_accel (hC : LabelBev F V P) : ∃ acc, accelSpeeds F V P = .ok acc := by
  obtain ⟨acc, h, -⟩ := C57_test (F := F) (V := V) (P := P) hC.battery.window (fun e => absurd e (by simp [hC.noIdm]))
    (fun e => absurd e (by simp [hC.noCoast])) (fun e => absurd e (by simp [hC.noCoast]))
  exact ⟨acc, h⟩

/-- What a run over a trace within the limits takes per mile. -/
theorem bev_test_run (hC : LabelBev F V P) {c : Cyc K} (hT : BevTest F V P (mcElecKwInAch V) c) :
    ∃ s, simDrive F (realHooks F V P) V P (Sim.new c) none none = .ok s ∧
      batteryKwhPerMi V s = useKwhPerMi F V P (mcElecKwInAch V) c ∧ 0 < useKwhPerMi F V P (mcElecKwInAch V) c := by
  have hne : c ≠ [] := by
    rintro rfl
    have := hT.miles
    simp [testMiles, legs] at this
  obtain ⟨s, h, -, -⟩ := C51_run (F := F) (V := V) (P := P) (Sim.new c) rfl
    (show 0 < c.length from List.length_pos_iff.2 hne) none none hC.battery.window (fun soc e => by simp at e)
    (fun _ => by rw [hC.data.type]; decide)
    ⟨fun e => absurd e (by simp [hC.noIdm]), fun e => absurd e (by simp [hC.noCoast]), fun e => absurd e (by simp [hC.noCoast]),
      fun e => absurd e (by simp [hC.noCoast])⟩
  obtain ⟨hu, hk⟩ := bev_free hC.noCoast hC.noIdm hC.noDilation hC.data hC.battery hC.motor hC.braking hC.cells realHooks_local
    realHooks_keepAux h (init := none) hT.within
  have hm := miles_met hC.noCoast hC.noIdm hC.noDilation h hu.met
  have p1 := hT.takes
  have p2 := hT.miles
  refine ⟨s, h, ?_, ?_⟩
  · unfold batteryKwhPerMi useKwhPerMi
    rw [hm, hk, if_pos hT.miles]
  · unfold useKwhPerMi
    positivity

/-- **C138 (label from data).** A battery-electric vehicle within whose limits the two test cycles lie has a label, and everything
about energy and range on it can be computed leg by leg from the cycles: one table gives the electric power for the motor power of
every leg. -/
theorem C138_label (hC : LabelBev F V P) : ∃ elec : K → K, MotorTable V elec ∧
    ∀ {c : LabelConst K} {tbl : List (K × K)} {veh : LabelVeh K} {udds hwy : Cyc K}, LabelConstOk c → veh.ptType = .bev →
      BevTest F V P elec udds → BevTest F V P elec hwy →
      let x := useKwhPerMi F V P elec udds
      let y := useKwhPerMi F V P elec hwy
      let e := 55 / 100 * adjCity c veh.vehYear x + 45 / 100 * adjHwy c veh.vehYear y
      ∃ out, vehicleLabel F V P c tbl veh udds hwy = .ok out ∧ Reads out "labUddsKwhPerMile" x ∧ Reads out "labHwyKwhPerMile" y ∧
        Reads out "labCombKwhPerMile" (55 / 100 * x + 45 / 100 * y) ∧
        Reads out "adjUddsEssKwhPerMile" (adjCity c veh.vehYear x) ∧ Reads out "adjHwyEssKwhPerMile" (adjHwy c veh.vehYear y) ∧
        Reads out "adjCombEssKwhPerMile" e ∧ Reads out "adjCombKwhPerMile" (e / c.chgEff) ∧
        Reads out "netRangeMiles" (veh.essMaxKwh / e) := by
  refine ⟨mcElecKwInAch V, motorTable hC.motor, fun {c tbl veh udds hwy} hc hpt hu hh => ?_⟩
  obtain ⟨su, h1, e1, p1⟩ := bev_test_run hC hu
  obtain ⟨sh, h2, e2, p2⟩ := bev_test_run hC hh
  obtain ⟨acc, ha⟩ := bev_accel hC
  obtain ⟨out, r1, r2, r3, r4, -, -, r5, r6, r7, r8, r9, -⟩ := bev_label hc (tbl := tbl) hpt h1 h2 ha p1 p2 e1 e2
  exact ⟨out, r1, r2, r3, r4, r6, r7, r8, r5, r9⟩

/-- Labels of two vehicles, one of which takes no more on either test cycle. -/
theorem bev_labels_le (hC : LabelBev F V P) (hC' : LabelBev F V' P') {c : LabelConst K} (hc : LabelConstOk c) {tbl : List (K × K)}
    {veh veh' : LabelVeh K} (hpt : veh.ptType = .bev) (hpt' : veh'.ptType = .bev)
    (hy : veh.vehYear < 2017 ↔ veh'.vehYear < 2017) (hE : veh'.essMaxKwh ≤ veh.essMaxKwh) (hE0 : 0 ≤ veh'.essMaxKwh)
    {udds hwy : Cyc K} (hu : BevTest F V P (mcElecKwInAch V) udds) (hh : BevTest F V P (mcElecKwInAch V) hwy)
    (hu' : BevTest F V' P' (mcElecKwInAch V') udds) (hh' : BevTest F V' P' (mcElecKwInAch V') hwy)
    (wu : traceCellKj F V P.toStepParams (mcElecKwInAch V) V.auxKw udds ≤
      traceCellKj F V' P'.toStepParams (mcElecKwInAch V') V'.auxKw udds)
    (wh : traceCellKj F V P.toStepParams (mcElecKwInAch V) V.auxKw hwy ≤
      traceCellKj F V' P'.toStepParams (mcElecKwInAch V') V'.auxKw hwy) :
    ∃ out out', vehicleLabel F V P c tbl veh udds hwy = .ok out ∧ vehicleLabel F V' P' c tbl veh' udds hwy = .ok out' ∧
      (∀ k ∈ energyUses, ∃ x x', Reads out k x ∧ Reads out' k x' ∧ 0 < x ∧ x ≤ x') ∧
      ∃ r r', Reads out "netRangeMiles" r ∧ Reads out' "netRangeMiles" r' ∧ r' ≤ r := by
  obtain ⟨su, h1, e1, p1⟩ := bev_test_run hC hu
  obtain ⟨sh, h2, e2, p2⟩ := bev_test_run hC hh
  obtain ⟨acc, ha⟩ := bev_accel hC
  obtain ⟨su', h1', e1', p1'⟩ := bev_test_run hC' hu'
  obtain ⟨sh', h2', e2', p2'⟩ := bev_test_run hC' hh'
  obtain ⟨acc', ha'⟩ := bev_accel hC'
  have q1 : useKwhPerMi F V P (mcElecKwInAch V) udds ≤ useKwhPerMi F V' P' (mcElecKwInAch V') udds :=
    div_le_div_of_nonneg_right (div_le_div_of_nonneg_right wu (by norm_num)) hu.miles.le
  have q2 : useKwhPerMi F V P (mcElecKwInAch V) hwy ≤ useKwhPerMi F V' P' (mcElecKwInAch V') hwy :=
    div_le_div_of_nonneg_right (div_le_div_of_nonneg_right wh (by norm_num)) hh.miles.le
  obtain ⟨out, r1, a1, a2, a3, a4, a5, a6, a7, a8, a9, a10, b1, b2⟩ := bev_label hc (tbl := tbl) hpt h1 h2 ha p1 p2 e1 e2
  obtain ⟨out', r1', a1', a2', a3', a4', a5', a6', a7', a8', a9', a10', -, -⟩ :=
    bev_label hc (tbl := tbl) hpt' h1' h2' ha' p1' p2' e1' e2'
  obtain ⟨-, -, hlt, hch⟩ := hc
  obtain ⟨s1, s2⟩ := epaCoefs_pos (K := K) veh.vehYear
  have ey : (epaCoefs veh'.vehYear : (K × K) × (K × K)) = epaCoefs veh.vehYear := by
    unfold epaCoefs
    by_cases h : veh.vehYear < 2017
    · rw [if_pos h, if_pos (hy.1 h)]
    · rw [if_neg h, if_neg (fun h' => h (hy.2 h'))]
  generalize useKwhPerMi F V P (mcElecKwInAch V) udds = x at *
  generalize useKwhPerMi F V P (mcElecKwInAch V) hwy = y at *
  generalize useKwhPerMi F V' P' (mcElecKwInAch V') udds = x' at *
  generalize useKwhPerMi F V' P' (mcElecKwInAch V') hwy = y' at *
  have c1 : adjCity c veh.vehYear x ≤ adjCity c veh'.vehYear x' := by
    unfold adjCity; rw [ey]; exact adjustedUse_mono hlt s1 q1
  have c2 : adjHwy c veh.vehYear y ≤ adjHwy c veh'.vehYear y' := by
    unfold adjHwy; rw [ey]; exact adjustedUse_mono hlt s2 q2
  have n1 := p1.trans_le b1
  have n2 := p2.trans_le b2
  generalize adjCity c veh.vehYear x = X at *
  generalize adjHwy c veh.vehYear y = Y at *
  generalize adjCity c veh'.vehYear x' = X' at *
  generalize adjHwy c veh'.vehYear y' = Y' at *
  have e3 : 55 / 100 * X + 45 / 100 * Y ≤ 55 / 100 * X' + 45 / 100 * Y' := by linarith
  have e4 : 0 < 55 / 100 * X + 45 / 100 * Y := by linarith
  refine ⟨out, out', r1, r1', ?_, _, _, a10, a10', div_le_div₀ (hE0.trans hE) hE e4 e3⟩
  intro k hk
  simp only [energyUses, List.mem_cons, List.not_mem_nil, or_false] at hk
  have dv : ∀ {a b : K}, a ≤ b → a / c.chgEff ≤ b / c.chgEff := fun h => div_le_div_of_nonneg_right h hch.le
  rcases hk with rfl | rfl | rfl | rfl | rfl | rfl | rfl | rfl | rfl
  · exact ⟨_, _, a1, a1', p1, q1⟩
  · exact ⟨_, _, a2, a2', p2, q2⟩
  · exact ⟨_, _, a3, a3', by linarith, by linarith⟩
  · exact ⟨_, _, a4, a4', div_pos n1 hch, dv c1⟩
  · exact ⟨_, _, a5, a5', div_pos n2 hch, dv c2⟩
  · exact ⟨_, _, a6, a6', div_pos e4 hch, dv e3⟩
  · exact ⟨_, _, a7, a7', n1, c1⟩
  · exact ⟨_, _, a8, a8', n2, c2⟩
  · exact ⟨_, _, a9, a9', e4, e3⟩

theorem within_time {Q : StepParams K} {elec : K → K} {a : K} : ∀ (ls : List (Leg K)) {soc m : K},
    BevLegsWithin F V Q elec a soc m ls → ∀ l ∈ ls, 0 < l.dt
  | [], _, _, _ => by simp
  | l :: ls, _, _, h => by
    intro k hk
    rcases List.mem_cons.1 hk with rfl | hk
    · exact h.1.time
    · exact within_time ls h.2 k hk

/-- **C138 (transmission and recuperation).** With a better transmission and more of the braking left to the motor no energy use on
the label rises and the range does not fall, if the motor has one efficiency. -/
theorem C138_drive (hC : LabelBev F V P) (hC' : LabelBev F V' P) (h1 : OneEff V) (hB : BetterDrive V V') :
    ∃ elec : K → K, MotorTable V elec ∧
      ∀ {c : LabelConst K} {tbl : List (K × K)} {veh : LabelVeh K} {udds hwy : Cyc K}, LabelConstOk c → veh.ptType = .bev →
        0 ≤ veh.essMaxKwh → BevTest F V P elec udds → BevTest F V P elec hwy → BevTest F V' P elec udds → BevTest F V' P elec hwy →
        ∃ out out', vehicleLabel F V P c tbl veh udds hwy = .ok out ∧ vehicleLabel F V' P c tbl veh udds hwy = .ok out' ∧
          (∀ k ∈ energyUses, ∃ x x', Reads out k x ∧ Reads out' k x' ∧ 0 < x' ∧ x' ≤ x) ∧
          ∃ r r', Reads out "netRangeMiles" r ∧ Reads out' "netRangeMiles" r' ∧ r ≤ r' := by
  have ee : mcElecKwInAch V' = mcElecKwInAch V := by rw [hB.same]; rfl
  refine ⟨mcElecKwInAch V, motorTable hC.motor, fun {c tbl veh udds hwy} hc hpt hE hu hh hu' hh' => ?_⟩
  have key : ∀ d, BevTest F V P (mcElecKwInAch V) d → traceCellKj F V' P.toStepParams (mcElecKwInAch V') V'.auxKw d ≤
      traceCellKj F V P.toStepParams (mcElecKwInAch V) V.auxKw d := by
    intro d hd
    unfold traceCellKj
    refine List.sum_le_sum fun l hl => mul_le_mul_of_nonneg_right ?_ (within_time _ hd.within l hl).le
    have k := elec_mono hC.motor h1 (hB.duty hC.data hC.braking P.toStepParams l.dt l.grade l.v0 l.v)
    generalize motorDutyKw F V' P.toStepParams l.dt l.grade l.v0 l.v = z at *
    rw [hB.same]
    exact cellKw_mono hC.cells (by have : mcElecKwInAch V z + V.auxKw ≤ _ := add_le_add_left k V.auxKw; exact this)
  obtain ⟨out', out, r1, r2, r3, r, r', q1, q2, q3⟩ := bev_labels_le (tbl := tbl) hC' hC hc hpt hpt Iff.rfl le_rfl hE (by rw [ee]; exact hu')
    (by rw [ee]; exact hh') hu hh (key _ hu) (key _ hh)
  refine ⟨out, out', r2, r1, fun k hk => ?_, _, _, q2, q1, q3⟩
  obtain ⟨x, x', s1, s2, s3, s4⟩ := r3 k hk
  exact ⟨x', x, s2, s1, s3, s4⟩

/-- **C138 (resistance).** More air or rolling resistance or accessories lower no energy use on the label and raise no range, if the
motor has one efficiency. -/
theorem C138_resistance (hC : LabelBev F V P) (hC' : LabelBev F V' P') (h1 : OneEff V) (hM : MoreResistance V V' P P')
    (haux : V.auxKw ≤ V'.auxKw) (hcos : ∀ g, 0 ≤ F.cosAtan g) :
    ∃ elec : K → K, MotorTable V elec ∧
      ∀ {c : LabelConst K} {tbl : List (K × K)} {veh : LabelVeh K} {udds hwy : Cyc K}, LabelConstOk c → veh.ptType = .bev →
        0 ≤ veh.essMaxKwh → BevTest F V P elec udds → BevTest F V P elec hwy → BevTest F V' P' elec udds → BevTest F V' P' elec hwy →
        (∀ l ∈ legs udds, 0 ≤ l.v0 ∧ 0 ≤ l.v) → (∀ l ∈ legs hwy, 0 ≤ l.v0 ∧ 0 ≤ l.v) →
        ∃ out out', vehicleLabel F V P c tbl veh udds hwy = .ok out ∧ vehicleLabel F V' P' c tbl veh udds hwy = .ok out' ∧
          (∀ k ∈ energyUses, ∃ x x', Reads out k x ∧ Reads out' k x' ∧ 0 < x ∧ x ≤ x') ∧
          ∃ r r', Reads out "netRangeMiles" r ∧ Reads out' "netRangeMiles" r' ∧ r' ≤ r := by
  have ee : mcElecKwInAch V' = mcElecKwInAch V := by rw [hM.vehicle]; rfl
  refine ⟨mcElecKwInAch V, motorTable hC.motor, fun {c tbl veh udds hwy} hc hpt hE hu hh hu' hh' vu vh => ?_⟩
  have key : ∀ d, BevTest F V P (mcElecKwInAch V) d → (∀ l ∈ legs d, 0 ≤ l.v0 ∧ 0 ≤ l.v) →
      traceCellKj F V P.toStepParams (mcElecKwInAch V) V.auxKw d ≤
        traceCellKj F V' P'.toStepParams (mcElecKwInAch V') V'.auxKw d := by
    intro d hd hv
    unfold traceCellKj
    refine List.sum_le_sum fun l hl => mul_le_mul_of_nonneg_right ?_ (within_time _ hd.within l hl).le
    have k := elec_mono hC.motor h1 (hM.duty hcos hC.data hC.braking (hv l hl).1 (hv l hl).2 l.dt l.grade)
    generalize motorDutyKw F V' P'.toStepParams l.dt l.grade l.v0 l.v = z at *
    have e2 : ∀ x, cellKw F V' x = cellKw F V x := fun x => by rw [hM.vehicle]; rfl
    rw [ee, e2]
    exact cellKw_mono hC.cells (add_le_add k haux)
  exact bev_labels_le (tbl := tbl) hC hC' hc hpt hpt Iff.rfl le_rfl hE hu hh (by rw [ee]; exact hu') (by rw [ee]; exact hh')
    (key _ hu vu) (key _ hh vh)

/-- **C138 (larger battery).** With a larger battery, all else being equal, the vehicle still has a label, every energy use on it is
the same, and the range grows in proportion to the battery. -/
theorem C138_capacity (hC : LabelBev F V P) {E : K} (hE : V.essMaxKwh ≤ E) :
    ∃ elec : K → K, MotorTable V elec ∧
      ∀ {c : LabelConst K} {tbl : List (K × K)} {veh : LabelVeh K} {udds hwy : Cyc K}, LabelConstOk c → veh.ptType = .bev →
        veh.essMaxKwh = V.essMaxKwh → BevTest F V P elec udds → BevTest F V P elec hwy →
        ∃ out out', vehicleLabel F V P c tbl veh udds hwy = .ok out ∧
          vehicleLabel F { V with essMaxKwh := E } P c tbl { veh with essMaxKwh := E } udds hwy = .ok out' ∧
          (∀ k ∈ energyUses, ∃ x, Reads out k x ∧ Reads out' k x) ∧
          ∃ r, 0 < r ∧ Reads out "netRangeMiles" r ∧ Reads out' "netRangeMiles" (r * (E / V.essMaxKwh)) := by
  have hV := hC.data
  have hB := hC.battery
  have hM := hC.motor
  have hR := hC.braking
  have hC' : LabelBev F { V with essMaxKwh := E } P :=
    ⟨hC.1, hC.2, hC.3, ⟨hV.1, hV.2, hV.3, hV.4, hV.5, hV.6.trans_le hE, hV.7, hV.8, hV.9, hV.10⟩,
      ⟨hB.1, hB.2, hB.3, hB.4, hB.5, hB.6, hB.7, hB.8, hB.9, hB.10, hB.11, hB.12⟩, ⟨hM.1, hM.2, hM.3, hM.4, hM.5⟩,
      ⟨hR.1, hR.2, hR.3, hR.4⟩, hC.8⟩
  refine ⟨mcElecKwInAch V, motorTable hC.motor, fun {c tbl veh udds hwy} hc hpt hk hu hh => ?_⟩
  have test : ∀ d, BevTest F V P (mcElecKwInAch V) d → BevTest F { V with essMaxKwh := E } P (mcElecKwInAch V) d := by
    intro d hd
    refine ⟨hd.miles, hd.takes, ?_⟩
    have hw := hd.within
    cases hl : legs d with
    | nil => trivial
    | cons l ls =>
      rw [hl] at hw
      exact larger_within hV hE hC.cells (l :: ls) hB.window le_rfl hw.1.reserve (by ring) hw
  obtain ⟨su, h1, e1, p1⟩ := bev_test_run hC hu
  obtain ⟨sh, h2, e2, p2⟩ := bev_test_run hC hh
  obtain ⟨acc, ha⟩ := bev_accel hC
  obtain ⟨su', h1', e1', p1'⟩ := bev_test_run hC' (test _ hu)
  obtain ⟨sh', h2', e2', p2'⟩ := bev_test_run hC' (test _ hh)
  obtain ⟨acc', ha'⟩ := bev_accel hC'
  obtain ⟨out, r1, a1, a2, a3, a4, a5, a6, a7, a8, a9, a10, b1, b2⟩ := bev_label hc (tbl := tbl) hpt h1 h2 ha p1 p2 e1 e2
  obtain ⟨out', r1', a1', a2', a3', a4', a5', a6', a7', a8', a9', a10', -, -⟩ :=
    bev_label hc (tbl := tbl) (veh := { veh with essMaxKwh := E }) hpt h1' h2' ha' p1 p2 e1' e2'
  have n1 := p1.trans_le b1
  have n2 := p2.trans_le b2
  have hcap := hV.capacity
  refine ⟨out, out', r1, r1', ?_, _, ?_, a10, ?_⟩
  · intro k hk
    simp only [energyUses, List.mem_cons, List.not_mem_nil, or_false] at hk
    rcases hk with rfl | rfl | rfl | rfl | rfl | rfl | rfl | rfl | rfl
    exacts [⟨_, a1, a1'⟩, ⟨_, a2, a2'⟩, ⟨_, a3, a3'⟩, ⟨_, a4, a4'⟩, ⟨_, a5, a5'⟩, ⟨_, a6, a6'⟩, ⟨_, a7, a7'⟩, ⟨_, a8, a8'⟩, ⟨_, a9, a9'⟩]
  · rw [hk]
    exact div_pos hcap (by linarith)
  · have : veh.essMaxKwh / (55 / 100 * adjCity c veh.vehYear (useKwhPerMi F V P (mcElecKwInAch V) udds) +
        45 / 100 * adjHwy c veh.vehYear (useKwhPerMi F V P (mcElecKwInAch V) hwy)) * (E / V.essMaxKwh) =
        E / (55 / 100 * adjCity c veh.vehYear (useKwhPerMi F V P (mcElecKwInAch V) udds) +
        45 / 100 * adjHwy c veh.vehYear (useKwhPerMi F V P (mcElecKwInAch V) hwy)) := by
      rw [hk]
      field_simp
    rw [this]
    exact a10'

/-- **C138 (smaller losses in the battery).** With smaller losses in the battery, all else being equal, no energy use on the label
rises and the range does not fall. -/
theorem C138_battery (hC : LabelBev F V P) {e : K} (he : F.sqrt V.essRoundTripEff ≤ F.sqrt e) :
    ∃ elec : K → K, MotorTable V elec ∧
      ∀ {c : LabelConst K} {tbl : List (K × K)} {veh : LabelVeh K} {udds hwy : Cyc K}, LabelConstOk c → veh.ptType = .bev →
        0 ≤ veh.essMaxKwh → BevTest F V P elec udds → BevTest F V P elec hwy →
        BevTest F { V with essRoundTripEff := e } P elec udds → BevTest F { V with essRoundTripEff := e } P elec hwy →
        ∃ out out', vehicleLabel F V P c tbl veh udds hwy = .ok out ∧
          vehicleLabel F { V with essRoundTripEff := e } P c tbl veh udds hwy = .ok out' ∧
          (∀ k ∈ energyUses, ∃ x x', Reads out k x ∧ Reads out' k x' ∧ 0 < x' ∧ x' ≤ x) ∧
          ∃ r r', Reads out "netRangeMiles" r ∧ Reads out' "netRangeMiles" r' ∧ r ≤ r' := by
  have hV := hC.data
  have hB := hC.battery
  have hM := hC.motor
  have hR := hC.braking
  have hC' : LabelBev F { V with essRoundTripEff := e } P :=
    ⟨hC.1, hC.2, hC.3, ⟨hV.1, hV.2, hV.3, hV.4, hV.5, hV.6, hV.7, hV.8, hV.9, hV.10⟩,
      ⟨hB.1, hB.2, hB.3, hB.4, hB.5, hB.6, hB.7, hB.8, hB.9, hB.10, hB.11, hB.12⟩, ⟨hM.1, hM.2, hM.3, hM.4, hM.5⟩,
      ⟨hR.1, hR.2, hR.3, hR.4⟩, hC.8.trans_le he⟩
  refine ⟨mcElecKwInAch V, motorTable hC.motor, fun {c tbl veh udds hwy} hc hpt hE hu hh hu' hh' => ?_⟩
  have key : ∀ d, BevTest F V P (mcElecKwInAch V) d →
      traceCellKj F { V with essRoundTripEff := e } P.toStepParams (mcElecKwInAch V) V.auxKw d ≤
        traceCellKj F V P.toStepParams (mcElecKwInAch V) V.auxKw d := by
    intro d hd
    unfold traceCellKj
    refine List.sum_le_sum fun l hl => mul_le_mul_of_nonneg_right ?_ (within_time _ hd.within l hl).le
    show cellKw F { V with essRoundTripEff := e } (mcElecKwInAch V (motorDutyKw F V P.toStepParams l.dt l.grade l.v0 l.v) + V.auxKw) ≤
      cellKw F V (mcElecKwInAch V (motorDutyKw F V P.toStepParams l.dt l.grade l.v0 l.v) + V.auxKw)
    generalize mcElecKwInAch V (motorDutyKw F V P.toStepParams l.dt l.grade l.v0 l.v) + V.auxKw = x
    unfold cellKw
    simp only
    split
    · rename_i hx
      exact mul_le_mul_of_nonpos_left he hx.le
    · rename_i hx
      exact div_le_div_of_nonneg_left (not_lt.1 hx) hC.cells he
  obtain ⟨out', out, r1, r2, r3, r, r', q1, q2, q3⟩ := bev_labels_le (tbl := tbl) hC' hC hc hpt hpt Iff.rfl le_rfl hE hu' hh' hu hh
    (key _ hu) (key _ hh)
  refine ⟨out, out', r2, r1, fun k hk => ?_, _, _, q2, q1, q3⟩
  obtain ⟨x, x', s1, s2, s3, s4⟩ := r3 k hk
  exact ⟨x', x, s2, s1, s3, s4⟩

/-- **C138 (what the range leaves out).** The range on the label counts the whole battery, though only the window between the least
and the largest charge can be used. If that window is a smaller share of the battery than the adjustment leaves, the range is longer
than the way the vehicle can go: repeated as often as the range asks, the harder of the two test cycles cannot be driven from a full
battery without feeling a limit or ending below the least charge. -/
theorem C138_promise (hC : LabelBev F V P) :
    ∃ elec : K → K, MotorTable V elec ∧
      ∀ {c : LabelConst K} {tbl : List (K × K)} {veh : LabelVeh K} {udds hwy : Cyc K}, LabelConstOk c → veh.ptType = .bev →
        veh.essMaxKwh = V.essMaxKwh → BevTest F V P elec udds → BevTest F V P elec hwy →
        V.maxSoc - V.minSoc < 1 - c.maxEpaAdj →
        ∃ out r, vehicleLabel F V P c tbl veh udds hwy = .ok out ∧ Reads out "netRangeMiles" r ∧
          ∀ d ∈ [udds, hwy], useKwhPerMi F V P elec udds ≤ useKwhPerMi F V P elec d →
            useKwhPerMi F V P elec hwy ≤ useKwhPerMi F V P elec d → startTime d = 0 → StandingEnds d →
            ∀ (n : Nat) (all : Cyc K), r ≤ n * testMiles d → concat (List.replicate n d) = .ok all →
              ∀ {H : Hooks K}, H.Local → Hooks.KeepAux H V → ∀ s, simDrive F H V P (Sim.new all) none none = .ok s →
                ¬ (Unlimited V s ∧ V.minSoc ≤ (s.lastRow).dec.soc) := by
  refine ⟨mcElecKwInAch V, motorTable hC.motor, fun {c tbl veh udds hwy} hc hpt hk hu hh hw => ?_⟩
  obtain ⟨su, h1, e1, p1⟩ := bev_test_run hC hu
  obtain ⟨sh, h2, e2, p2⟩ := bev_test_run hC hh
  obtain ⟨acc, ha⟩ := bev_accel hC
  obtain ⟨out, r1, a1, a2, a3, a4, a5, a6, a7, a8, a9, a10, b1, b2⟩ := bev_label hc (tbl := tbl) hpt h1 h2 ha p1 p2 e1 e2
  refine ⟨out, _, r1, a10, fun d hd d1 d2 d0 dst n all hn hall H hH hA s hs hfree => absurd hfree.2 (not_le.2 ?_)⟩
  replace hfree := hfree.1
  have hT : BevTest F V P (mcElecKwInAch V) d := by
    simp only [List.mem_cons, List.not_mem_nil, or_false] at hd
    rcases hd with rfl | rfl
    exacts [hu, hh]
  have hcap := hC.data.capacity
  have hlt : 0 < 1 - c.maxEpaAdj := sub_pos.2 hc.adj1
  -- the combined use is at most that of the harder cycle, adjusted
  have k1 : adjCity c veh.vehYear (useKwhPerMi F V P (mcElecKwInAch V) udds) ≤
      useKwhPerMi F V P (mcElecKwInAch V) d / (1 - c.maxEpaAdj) :=
    (min_le_right _ _).trans (div_le_div_of_nonneg_right d1 hlt.le)
  have k2 : adjHwy c veh.vehYear (useKwhPerMi F V P (mcElecKwInAch V) hwy) ≤
      useKwhPerMi F V P (mcElecKwInAch V) d / (1 - c.maxEpaAdj) :=
    (min_le_right _ _).trans (div_le_div_of_nonneg_right d2 hlt.le)
  have n1 := p1.trans_le b1
  have n2 := p2.trans_le b2
  have hz : 0 < useKwhPerMi F V P (mcElecKwInAch V) d := p1.trans_le d1
  have hne : d ≠ [] := by
    rintro rfl
    have := hT.miles
    simp [testMiles, legs] at this
  have hl : legs all = (List.replicate n (legs d)).flatten := by
    rw [legs_concat_standing _ all (fun x hx => by rw [List.eq_of_mem_replicate hx]; exact hne)
      (fun x hx => by rw [List.eq_of_mem_replicate hx]; exact d0)
      (fun x hx => by rw [List.eq_of_mem_replicate hx]; exact dst) hall, List.map_replicate]
  have tot : traceCellKj F V P.toStepParams (mcElecKwInAch V) V.auxKw all =
      n * (useKwhPerMi F V P (mcElecKwInAch V) d * testMiles d * 3600) := by
    have e : useKwhPerMi F V P (mcElecKwInAch V) d * testMiles d * 3600 =
        traceCellKj F V P.toStepParams (mcElecKwInAch V) V.auxKw d := by
      unfold useKwhPerMi
      have := hT.miles.ne'
      field_simp
    rw [e]
    unfold traceCellKj
    rw [hl, List.map_flatten, List.sum_flatten, List.map_replicate, List.map_replicate, List.sum_replicate, nsmul_eq_mul]
  have ch : essDischgKj V s = traceCellKj F V P.toStepParams (mcElecKwInAch V) V.auxKw all :=
    bev_charge hC.noCoast hC.noIdm hC.noDilation hC.data hH hA hs hfree
  rw [tot] at ch
  have hs0 : (s.firstRow).dec.soc = V.maxSoc := start_charge hC.data hH hs
  have e : essDischgKj V s = (V.maxSoc - (s.lastRow).dec.soc) * (V.essMaxKwh * 3600) := by
    unfold essDischgKj
    rw [hs0]
    ring
  rw [e] at ch
  generalize useKwhPerMi F V P (mcElecKwInAch V) d = z at *
  generalize testMiles d = mi at *
  rw [hk] at hn
  have h3 : V.essMaxKwh * (1 - c.maxEpaAdj) ≤ n * mi * z := by
    have q : V.essMaxKwh / (z / (1 - c.maxEpaAdj)) ≤ n * mi :=
      (div_le_div_of_nonneg_left hcap.le (by linarith) (by linarith)).trans hn
    rw [div_div_eq_mul_div, div_le_iff₀ hz] at q
    exact q
  have h4 : (V.maxSoc - V.minSoc) * V.essMaxKwh < (V.maxSoc - (s.lastRow).dec.soc) * V.essMaxKwh := by
    have : (V.maxSoc - V.minSoc) * V.essMaxKwh < (1 - c.maxEpaAdj) * V.essMaxKwh := mul_lt_mul_of_pos_right hw hcap
    linarith
  have := lt_of_mul_lt_mul_right h4 hcap.le
  linarith

end Field

/-! ### Concrete cases -/

namespace LabelBevDemo
open Demo BetterDemo

/-- A trip in town with braking. -/
def town : Cyc ℚ := [⟨0, 0, 0, 0⟩, ⟨10, 15, 0, 0⟩, ⟨20, 15, 1 / 100, 0⟩, ⟨22, 12, 0, 0⟩, ⟨24, 8, 0, 0⟩, ⟨28, 0, 0, 0⟩]
/-- A faster one. -/
def road : Cyc ℚ := [⟨0, 0, 0, 0⟩, ⟨12, 20, 0, 0⟩, ⟨40, 22, 0, 0⟩, ⟨42, 20, 0, 0⟩, ⟨52, 20, 0, 0⟩]

/-- The demo cars meet the hypotheses of `C138_label`, `C138_drive`, `C138_resistance` and `C138_capacity` with two trips with braking
as test cycles. -/
theorem C138_demo : (∀ V ∈ [bev, even, smooth, boxyBev], LabelBev fns V params ∧ MotorTable V (mcElecKwInAch V) ∧
      ∀ c ∈ [town, road], BevTest fns V params (mcElecKwInAch V) c) ∧
    OneEff even ∧ BetterDrive even smooth ∧ MoreResistance even boxyBev params params ∧ even.auxKw ≤ boxyBev.auxKw ∧
    (∀ g, 0 ≤ fns.cosAtan g) ∧ (∀ c ∈ [town, road], ∀ l ∈ legs c, 0 ≤ l.v0 ∧ 0 ≤ l.v) ∧ bev.essMaxKwh ≤ 60 ∧
    LabelConstOk (labelConst : LabelConst ℚ) ∧ ∃ l ∈ legs town, roadLoadKw fns bev params.toStepParams l.dt l.grade l.v0 l.v < 0 := by
  have hx := C119_demo_bev.2.1.exp
  have car : ∀ V ∈ [bev, even, smooth, boxyBev], LabelBev fns V params := by
    intro V hV
    simp only [List.mem_cons, List.not_mem_nil, or_false] at hV
    rcases hV with rfl | rfl | rfl | rfl <;>
      exact ⟨rfl, rfl, rfl, ⟨rfl, rfl, by decide, by decide +kernel, by decide +kernel, by decide +kernel, rfl, rfl, by decide +kernel,
        by decide +kernel⟩, ⟨by decide +kernel, by decide +kernel, by decide +kernel, by decide +kernel, by decide +kernel,
        by decide +kernel, by decide +kernel, rfl, by decide +kernel, by decide +kernel, by decide +kernel, by decide +kernel⟩,
        ⟨by decide, by decide, by decide, by decide +kernel, by decide +kernel⟩,
        ⟨hx, by decide +kernel, by decide +kernel, by decide +kernel⟩, by decide +kernel⟩
  have test : ∀ V ∈ [bev, even, smooth, boxyBev], ∀ c ∈ [town, road], 0 < testMiles c ∧
      0 < traceCellKj fns V params.toStepParams (mcElecKwInAch V) V.auxKw c ∧
      BevLegsWithin fns V params.toStepParams (mcElecKwInAch V) V.auxKw V.maxSoc 0 (legs c) := by decide +kernel
  refine ⟨fun V hV => ⟨car V hV, motorTable (car V hV).motor, fun c hc => ?_⟩, C134_demo.2.2.2.1, C134_demo.2.2.2.2.2.2.1,
    C134_demo.2.2.2.2.2.2.2.1, C134_demo.2.2.2.2.2.2.2.2.1, C134_demo.2.2.2.2.2.2.2.2.2.1, by decide +kernel, by decide +kernel,
    ⟨by decide +kernel, by decide +kernel, by decide +kernel, by decide +kernel⟩, by decide +kernel⟩
  obtain ⟨t1, t2, t3⟩ := test V hV c hc
  exact ⟨t1, t2, t3⟩

/-- The demo car with a battery without losses, and one that uses less of its battery. -/
def lossless : Veh ℚ := { bev with essRoundTripEff := 1 }
def narrow : Veh ℚ := { bev with minSoc := 3 / 10 }

/-- They meet the hypotheses of `C138_battery` and `C138_promise`. -/
theorem C138_demo_window : LabelBev fns lossless params ∧ LabelBev fns narrow params ∧
    (∀ V ∈ [bev, lossless, narrow], MotorTable V (mcElecKwInAch bev) ∧
      ∀ c ∈ [town, road], BevTest fns V params (mcElecKwInAch bev) c) ∧
    fns.sqrt bev.essRoundTripEff ≤ fns.sqrt 1 ∧ narrow.maxSoc - narrow.minSoc < 1 - (labelConst : LabelConst ℚ).maxEpaAdj ∧
    startTime town = 0 ∧ StandingEnds town ∧
    useKwhPerMi fns narrow params (mcElecKwInAch bev) road ≤ useKwhPerMi fns narrow params (mcElecKwInAch bev) town := by
  have hx := C119_demo_bev.2.1.exp
  have car : ∀ V ∈ [bev, lossless, narrow], LabelBev fns V params := by
    intro V hV
    simp only [List.mem_cons, List.not_mem_nil, or_false] at hV
    rcases hV with rfl | rfl | rfl <;>
      exact ⟨rfl, rfl, rfl, ⟨rfl, rfl, by decide, by decide +kernel, by decide +kernel, by decide +kernel, rfl, rfl, by decide +kernel,
        by decide +kernel⟩, ⟨by decide +kernel, by decide +kernel, by decide +kernel, by decide +kernel, by decide +kernel,
        by decide +kernel, by decide +kernel, rfl, by decide +kernel, by decide +kernel, by decide +kernel, by decide +kernel⟩,
        ⟨by decide, by decide, by decide, by decide +kernel, by decide +kernel⟩,
        ⟨hx, by decide +kernel, by decide +kernel, by decide +kernel⟩, by decide +kernel⟩
  have test : ∀ V ∈ [bev, lossless, narrow], ∀ c ∈ [town, road], 0 < testMiles c ∧
      0 < traceCellKj fns V params.toStepParams (mcElecKwInAch bev) V.auxKw c ∧
      BevLegsWithin fns V params.toStepParams (mcElecKwInAch bev) V.auxKw V.maxSoc 0 (legs c) := by decide +kernel
  refine ⟨car _ (by simp), car _ (by simp), fun V hV => ⟨?_, fun c hc => ?_⟩, by decide +kernel, by decide +kernel, rfl,
    ⟨by rintro x ⟨⟩; rfl, by rintro x ⟨⟩; rfl⟩, by decide +kernel⟩
  · have := motorTable (car V hV).motor
    simp only [List.mem_cons, List.not_mem_nil, or_false] at hV
    rcases hV with rfl | rfl | rfl <;> exact this
  · obtain ⟨t1, t2, t3⟩ := test V hV c hc
    exact ⟨t1, t2, t3⟩

end LabelBevDemo
end Fastsim.Props
