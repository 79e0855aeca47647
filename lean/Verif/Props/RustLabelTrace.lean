import Verif.Props.RustLabelSim
import Verif.Props.LabelBev

/-!
# C140: the labels of the Rust core can be read off vehicle and test cycles
-/

set_option linter.unusedSectionVars false

namespace Fastsim.Spec
open Props
section Field
variable {K : Type*} [Field K] [LinearOrder K] [IsStrictOrderedRing K] [FloorRing K]

/-- A vehicle that the Rust core accepts, with a flat end of the engine curve, whose speed in the acceleration test rises until it
passes 60 mph or never reaches it. -/
structure RsLabelled (F : Fns K) (V : Veh K) : Prop where
  ok : RsOk V
  map : EffOk V
  low : 0 ≤ V.minSoc
  high : V.maxSoc ≤ 1
  flat : V.fcEffArray[V.fcEffArray.length - 2]? = V.fcEffArray[V.fcEffArray.length - 1]?
  accel : ∀ acc, accelSpeeds F V newParams = .ok acc → RisesTo60 acc ∨ ∀ p ∈ acc, p.1 < ((60 : ℕ) : K)

/-- The economies of a label of the Rust core. -/
def rsEconomies (r : RsLabelFe K) : List K :=
  [r.labUddsMpgge, r.labHwyMpgge, r.labCombMpgge, r.adjUddsMpgge, r.adjHwyMpgge, r.adjCombMpgge]

/-- The energy uses of a label of the Rust core. -/
def rsEnergyUses (r : RsLabelFe K) : List K :=
  [r.labUddsKwhPerMi, r.labHwyKwhPerMi, r.labCombKwhPerMi, r.adjUddsKwhPerMi, r.adjHwyKwhPerMi, r.adjCombKwhPerMi,
    r.adjUddsEssKwhPerMi, r.adjHwyEssKwhPerMi, r.adjCombEssKwhPerMi]

end Field
end Fastsim.Spec

namespace Fastsim.Props
open Fastsim Spec

section Field
variable {K : Type*} [Field K] [LinearOrder K] [IsStrictOrderedRing K] [FloorRing K]
variable {F : Fns K} {V V' : Veh K} {RH : RsHooks K}

theorem reads_eq {d : PyDict (LabelVal K)} {k : String} {x y : K} (h : Reads d k x) (h' : Reads d k y) : x = y := by
  unfold Reads at h h'
  rw [h] at h'
  cases h'
  rfl

/-- A label of the python code is one of the Rust core. -/
theorem rs_label (hV : RsLabelled F V) (T : MissTols K) {c : LabelConst K} (hg : 0 < c.kwhPerGge) {tbl : List (K × K)}
    (hf : FlatEnd tbl) {veh : LabelVeh K} {udds hwy : Cyc K} (hu : LabelTrace udds) (hh : LabelTrace hwy) {acc : List (K × K)}
    (ha : accelSpeeds F V newParams = .ok acc) {d : PyDict (LabelVal K)} (h : vehicleLabel F V newParams c tbl veh udds hwy = .ok d) :
    ∃ r, rsVehicleLabel F RH V T c tbl veh udds hwy = .ok r ∧ SameLabel veh.ptType d r :=
  C102_vehicle_same hV.ok hV.map hV.low hV.high hV.flat T hg hf hu hh ha (hV.accel acc ha) h

theorem same_economies {pt : PtType} {d d' : PyDict (LabelVal K)} {r r' : RsLabelFe K} (h : SameLabel pt d r)
    (h' : SameLabel pt d' r') {R : K → K → Prop} (hk : ∀ k ∈ economies, ∃ x x', Reads d k x ∧ Reads d' k x' ∧ R x x') :
    List.Forall₂ R (rsEconomies r) (rsEconomies r') := by
  have one : ∀ k ∈ economies, ∀ x x', (k, x) ∈ labelNames r → (k, x') ∈ labelNames r' → R x x' := by
    intro k hk' x x' m m'
    obtain ⟨y, y', a, b, q⟩ := hk k hk'
    have e1 : Reads d k x := h.1 _ m
    have e2 : Reads d' k x' := h'.1 _ m'
    rw [reads_eq e1 a, reads_eq e2 b]
    exact q
  unfold rsEconomies
  refine .cons (one "labUddsMpgge" ?_ _ _ ?_ ?_) (.cons (one "labHwyMpgge" ?_ _ _ ?_ ?_) (.cons (one "labCombMpgge" ?_ _ _ ?_ ?_)
    (.cons (one "adjUddsMpgge" ?_ _ _ ?_ ?_) (.cons (one "adjHwyMpgge" ?_ _ _ ?_ ?_) (.cons (one "adjCombMpgge" ?_ _ _ ?_ ?_) .nil)))))
    <;> simp [economies, labelNames]

theorem same_uses {d d' : PyDict (LabelVal K)} {r r' : RsLabelFe K} (h : SameLabel .bev d r)
    (h' : SameLabel .bev d' r') {R : K → K → Prop} (hk : ∀ k ∈ energyUses, ∃ x x', Reads d k x ∧ Reads d' k x' ∧ R x x') :
    List.Forall₂ R (rsEnergyUses r) (rsEnergyUses r') := by
  have one : ∀ k ∈ energyUses, ∀ x x', (k, x) ∈ labelNames r ++ plugNames r → (k, x') ∈ labelNames r' ++ plugNames r' → R x x' := by
    intro k hk' x x' m m'
    obtain ⟨y, y', a, b, q⟩ := hk k hk'
    have e1 : Reads d k x := (List.mem_append.1 m).elim (h.1 _) (h.2.1 (.inl rfl) _)
    have e2 : Reads d' k x' := (List.mem_append.1 m').elim (h'.1 _) (h'.2.1 (.inl rfl) _)
    rw [reads_eq e1 a, reads_eq e2 b]
    exact q
  unfold rsEnergyUses
  refine .cons (one "labUddsKwhPerMile" ?_ _ _ ?_ ?_) (.cons (one "labHwyKwhPerMile" ?_ _ _ ?_ ?_)
    (.cons (one "labCombKwhPerMile" ?_ _ _ ?_ ?_) (.cons (one "adjUddsKwhPerMile" ?_ _ _ ?_ ?_)
    (.cons (one "adjHwyKwhPerMile" ?_ _ _ ?_ ?_) (.cons (one "adjCombKwhPerMile" ?_ _ _ ?_ ?_)
    (.cons (one "adjUddsEssKwhPerMile" ?_ _ _ ?_ ?_) (.cons (one "adjHwyEssKwhPerMile" ?_ _ _ ?_ ?_)
    (.cons (one "adjCombEssKwhPerMile" ?_ _ _ ?_ ?_) .nil))))))))
    <;> simp [energyUses, labelNames, plugNames]

theorem same_range {d : PyDict (LabelVal K)} {r : RsLabelFe K} (h : SameLabel .bev d r) {x : K} (hx : Reads d "netRangeMiles" x) :
    r.netRangeMiles = x :=
  reads_eq (h.2.1 (.inl rfl) ("netRangeMiles", r.netRangeMiles) (by simp [plugNames])) hx

/-- **C140 (a conventional vehicle).** The laboratory economies of the Rust core's label are the miles of the test cycles over the fuel
of their legs, and the combined one is their weighted harmonic mean. -/
theorem C140_conv (hV : RsLabelled F V) (hC : LabelCar V newParams) :
    ∃ rate : K → K, (∀ x, ∃ e ∈ V.fcEffArray, rate x * e = x) ∧
    ∀ (T : MissTols K) {c : LabelConst K} {tbl : List (K × K)} {veh : LabelVeh K} {udds hwy : Cyc K}, FlatEnd tbl →
      veh.ptType = .conv → 0 < c.kwhPerGge → LabelTrace udds → LabelTrace hwy →
      TestWithin F V newParams udds → TestWithin F V newParams hwy →
      let gal := fun d => traceFuelKj F V (newParams : SimParams K).toStepParams rate (ownAux V) d / 3600 / c.kwhPerGge
      ∃ r, rsVehicleLabel F RH V T c tbl veh udds hwy = .ok r ∧ 0 < gal udds ∧ 0 < gal hwy ∧
        r.labUddsMpgge = testMiles udds / gal udds ∧ r.labHwyMpgge = testMiles hwy / gal hwy ∧
        100 / r.labCombMpgge = 55 * gal udds / testMiles udds + 45 * gal hwy / testMiles hwy := by
  obtain ⟨rate, hr, hL⟩ := C137_label (F := F) hC
  refine ⟨rate, hr, fun T {c tbl veh udds hwy} hf hpt hg tu th hu hh => ?_⟩
  obtain ⟨out, lc, h1, g1, g2, r1, r2, r3, e⟩ := hL (c := c) (tbl := tbl) hpt hg hu hh
  obtain ⟨acc, ha⟩ := label_accel (F := F) hC
  obtain ⟨r, q, s⟩ := rs_label (RH := RH) hV T hg hf tu th ha h1
  refine ⟨r, q, g1, g2, reads_eq (s.1 ("labUddsMpgge", _) (by simp [labelNames])) r1,
    reads_eq (s.1 ("labHwyMpgge", _) (by simp [labelNames])) r2, ?_⟩
  have e3 : r.labCombMpgge = lc := reads_eq (s.1 ("labCombMpgge", r.labCombMpgge) (by simp [labelNames])) r3
  rw [e3]
  exact e

/-- **C140 (resistance).** A conventional vehicle with more air or rolling resistance or accessories has no better economy on the Rust
core's label, up to the ratio of the best and the worst efficiency of the engine. -/
theorem C140_resistance (hV : RsLabelled F V) (hV' : RsLabelled F V') (hC : LabelCar V newParams) (hC' : LabelCar V' newParams)
    (hM : MoreResistance V V' newParams newParams) (haux : ownAux V ≤ ownAux V') (hcos : ∀ g, 0 ≤ F.cosAtan g) {lo hi : K}
    (hlo : 0 < lo) (hb : ∀ e ∈ V.fcEffArray, lo ≤ e ∧ e ≤ hi) (T : MissTols K) {c : LabelConst K}
    {tbl : List (K × K)} (hf : FlatEnd tbl) {veh : LabelVeh K} (hpt : veh.ptType = .conv) (hg : 0 < c.kwhPerGge) {udds hwy : Cyc K}
    (tu : LabelTrace udds) (th : LabelTrace hwy) (hu : TestWithin F V newParams udds) (hh : TestWithin F V newParams hwy)
    (hu' : TestWithin F V' newParams udds) (hh' : TestWithin F V' newParams hwy)
    (vu : ∀ l ∈ legs udds, 0 ≤ l.v0 ∧ 0 ≤ l.v) (vh : ∀ l ∈ legs hwy, 0 ≤ l.v0 ∧ 0 ≤ l.v) :
    ∃ r r', rsVehicleLabel F RH V T c tbl veh udds hwy = .ok r ∧ rsVehicleLabel F RH V' T c tbl veh udds hwy = .ok r' ∧
      List.Forall₂ (fun x x' => 0 < x ∧ 0 < x' ∧ x' ≤ hi / lo * x) (rsEconomies r) (rsEconomies r') := by
  obtain ⟨out, out', h1, h2, hk⟩ := C137_resistance (tbl := tbl) hC hC' hM haux hcos hlo hb hpt hg hu hh hu' hh' vu vh
  obtain ⟨acc, ha⟩ := label_accel (F := F) hC
  obtain ⟨acc', ha'⟩ := label_accel (F := F) hC'
  obtain ⟨r, q, s⟩ := rs_label (RH := RH) hV T hg hf tu th ha h1
  obtain ⟨r', q', s'⟩ := rs_label (RH := RH) hV' T hg hf tu th ha' h2
  exact ⟨r, r', q, q', same_economies s s' hk⟩

/-- **C140 (a battery-electric vehicle).** The uses of the Rust core's label are the charge of the legs per mile, adjusted, and the range
is the battery over the combined use. -/
theorem C140_bev (hV : RsLabelled F V) (hC : LabelBev F V newParams) : ∃ elec : K → K, MotorTable V elec ∧
    ∀ (T : MissTols K) {c : LabelConst K} {tbl : List (K × K)} {veh : LabelVeh K} {udds hwy : Cyc K}, FlatEnd tbl → LabelConstOk c →
      veh.ptType = .bev → LabelTrace udds → LabelTrace hwy → BevTest F V newParams elec udds → BevTest F V newParams elec hwy →
      let x := useKwhPerMi F V newParams elec udds
      let y := useKwhPerMi F V newParams elec hwy
      let e := 55 / 100 * adjCity c veh.vehYear x + 45 / 100 * adjHwy c veh.vehYear y
      ∃ r, rsVehicleLabel F RH V T c tbl veh udds hwy = .ok r ∧ r.labUddsKwhPerMi = x ∧ r.labHwyKwhPerMi = y ∧
        r.labCombKwhPerMi = 55 / 100 * x + 45 / 100 * y ∧ r.adjUddsEssKwhPerMi = adjCity c veh.vehYear x ∧
        r.adjHwyEssKwhPerMi = adjHwy c veh.vehYear y ∧ r.adjCombEssKwhPerMi = e ∧ r.adjCombKwhPerMi = e / c.chgEff ∧
        r.netRangeMiles = veh.essMaxKwh / e := by
  obtain ⟨elec, hm, hL⟩ := C138_label (F := F) hC
  refine ⟨elec, hm, fun T {c tbl veh udds hwy} hf hc hpt tu th hu hh => ?_⟩
  obtain ⟨out, h1, a1, a2, a3, a4, a5, a6, a7, a8⟩ := hL (c := c) (tbl := tbl) hc hpt hu hh
  obtain ⟨acc, ha⟩ := bev_accel (F := F) hC
  obtain ⟨r, q, s⟩ := rs_label (RH := RH) hV T hc.gge hf tu th ha h1
  rw [hpt] at s
  refine ⟨r, q, reads_eq (s.1 ("labUddsKwhPerMile", _) ?_) a1, reads_eq (s.1 ("labHwyKwhPerMile", _) ?_) a2,
    reads_eq (s.1 ("labCombKwhPerMile", _) ?_) a3, reads_eq (s.1 ("adjUddsEssKwhPerMile", _) ?_) a4,
    reads_eq (s.1 ("adjHwyEssKwhPerMile", _) ?_) a5, reads_eq (s.2.1 (.inl rfl) ("adjCombEssKwhPerMile", _) ?_) a6,
    reads_eq (s.1 ("adjCombKwhPerMile", _) ?_) a7, same_range s a8⟩ <;> simp [labelNames, plugNames]

theorem bev_larger {P : SimParams K} {E : K} (hC : LabelBev F V P) (hE : V.essMaxKwh ≤ E) :
    LabelBev F { V with essMaxKwh := E } P := by
  have hV := hC.data
  have hB := hC.battery
  have hM := hC.motor
  have hR := hC.braking
  exact ⟨hC.1, hC.2, hC.3, ⟨hV.1, hV.2, hV.3, hV.4, hV.5, hV.6.trans_le hE, hV.7, hV.8, hV.9, hV.10⟩,
    ⟨hB.1, hB.2, hB.3, hB.4, hB.5, hB.6, hB.7, hB.8, hB.9, hB.10, hB.11, hB.12⟩, ⟨hM.1, hM.2, hM.3, hM.4, hM.5⟩,
    ⟨hR.1, hR.2, hR.3, hR.4⟩, hC.8⟩

/-- **C140 (a larger battery).** With a larger battery, all else being equal, the Rust core reports the same energy uses and a range
longer in proportion. -/
theorem C140_capacity {E : K} (hV : RsLabelled F V) (hV' : RsLabelled F { V with essMaxKwh := E }) (hC : LabelBev F V newParams)
    (hE : V.essMaxKwh ≤ E) : ∃ elec : K → K, MotorTable V elec ∧
      ∀ (T : MissTols K) {c : LabelConst K} {tbl : List (K × K)} {veh : LabelVeh K} {udds hwy : Cyc K}, FlatEnd tbl → LabelConstOk c →
        veh.ptType = .bev → veh.essMaxKwh = V.essMaxKwh → LabelTrace udds → LabelTrace hwy → BevTest F V newParams elec udds →
        BevTest F V newParams elec hwy →
        ∃ r r', rsVehicleLabel F RH V T c tbl veh udds hwy = .ok r ∧
          rsVehicleLabel F RH { V with essMaxKwh := E } T c tbl { veh with essMaxKwh := E } udds hwy = .ok r' ∧
          rsEnergyUses r' = rsEnergyUses r ∧ 0 < r.netRangeMiles ∧ r'.netRangeMiles = r.netRangeMiles * (E / V.essMaxKwh) := by
  obtain ⟨elec, hm, hL⟩ := C138_capacity (F := F) hC hE
  refine ⟨elec, hm, fun T {c tbl veh udds hwy} hf hc hpt he tu th hu hh => ?_⟩
  obtain ⟨out, out', h1, h2, hk, x, x0, x1, x2⟩ := hL (c := c) (tbl := tbl) hc hpt he hu hh
  obtain ⟨acc, ha⟩ := bev_accel (F := F) hC
  obtain ⟨acc', ha'⟩ := bev_accel (F := F) (bev_larger hC hE)
  obtain ⟨r, q, s⟩ := rs_label (RH := RH) hV T hc.gge hf tu th ha h1
  obtain ⟨r', q', s'⟩ := rs_label (RH := RH) hV' T hc.gge hf tu th ha' h2
  rw [hpt] at s
  have s'' : SameLabel .bev out' r' := by rw [← hpt]; exact s'
  have g := same_uses s s'' (R := fun x x' => x' = x) fun k m => by
    obtain ⟨y, a, b⟩ := hk k m
    exact ⟨y, y, a, b, rfl⟩
  refine ⟨r, r', q, q', ?_, by rw [same_range s x1]; exact x0, by rw [same_range s x1, same_range s'' x2]⟩
  exact List.forall₂_eq_eq_eq ▸ g.flip

end Field

namespace RsLabelDemo
open Fastsim.Demo

/-- A vehicle that meets the acceleration trace in its first step has passed 60 mph. -/
theorem rises {V : Veh ℚ}
    (hall : (match simDrive fns (realHooks fns V newParams) V newParams
      (Sim.new [⟨0, 0, 0, 0⟩, ⟨1 / 10, 90 / mphPerMps, 0, 0⟩]) (some (accelTestSoc V)) none with
      | .ok t => decide (t.rows.map (fun r => r.ach.mphAch) = [0, 90])
      | .error _ => false) = true) {acc : List (ℚ × ℚ)} (ha : accelSpeeds fns V newParams = .ok acc) : RisesTo60 acc := by
  unfold accelSpeeds at ha
  rw [accelTest_simDrive] at ha
  split at ha
  · cases ha
  · rename_i s hs
    obtain ⟨t, ht, hr, -⟩ := C58_real (F := fns) (V := V) (P := newParams) rfl (fun h => by simp [newParams] at h) (n := 2)
      (by norm_num) (by rw [accelTrace_length]; norm_num) hs
    have h2 : List.take 2 (accelTrace : Cyc ℚ) = [⟨0, 0, 0, 0⟩, ⟨1 / 10, 90 / mphPerMps, 0, 0⟩] := by
      apply List.ext_getElem?
      intro i
      rcases Nat.lt_or_ge i 2 with hi | hi
      · rw [List.getElem?_take_of_lt hi, accelTrace_get (by omega)]
        interval_cases i <;> simp
      · rw [List.getElem?_eq_none (by simp; omega), List.getElem?_eq_none (by simpa using hi)]
    rw [h2] at ht
    rw [ht] at hall
    have hm := of_decide_eq_true hall
    rw [hr, List.map_take] at hm
    obtain rfl := Except.ok.inj ha
    generalize (s.rows.map fun r => r.ach.mphAch) = mph at hm
    have ht' : ∃ l : List ℚ, Cyc.times (accelTrace : Cyc ℚ) = 0 :: 1 / 10 :: l := by
      refine ⟨(Cyc.times (accelTrace : Cyc ℚ)).drop 2, ?_⟩
      conv_lhs => rw [← List.take_append_drop 2 (Cyc.times (accelTrace : Cyc ℚ))]
      unfold Cyc.times
      rw [← List.map_take, h2]
      rfl
    obtain ⟨l, hl⟩ := ht'
    rw [hl]
    match mph, hm with
    | [a, b], h =>
      obtain ⟨rfl, rfl⟩ : a = 0 ∧ b = 90 := by simpa using h
      exact ⟨[(0, 0)], (90, 1 / 10), _, rfl, by simp, by simp, by simp, by norm_num, fun h => by norm_num at h⟩
    | a :: b :: c :: m, h =>
      obtain ⟨rfl, rfl⟩ : a = 0 ∧ b = 90 := by simpa using h
      exact ⟨[(0, 0)], (90, 1 / 10), _, rfl, by simp, by simp, by simp, by norm_num, fun h => by norm_num at h⟩

/-- The strong car of C102 with more resistance. -/
def boxyRocket : Veh ℚ := { rocket with dragCoef := 4 / 10, auxKw := 6 / 10 }

/-- A light electric car with a strong motor. -/
def kart (kwh : ℚ) : Veh ℚ :=
  { bev with
    vehKg := 20, wheelInertiaKgM2 := 0, mcSecToPeakPwr := 1 / 10, mcMaxKw := 360, mcKwOutArray := [0, 20, 360], mcKwInArray := [0, 25, 400]
    mcMaxElecInKw := 400, essMaxKw := 500, essMaxKwh := kwh, wheelCoefOfFric := 200, wheelBaseM := 1000, maxTracMps2 := 1000
    fcEffArray := [1 / 10, 1 / 5, 7 / 20, 7 / 20], maxFcEffKw := 0 }

/-- Two trips without braking. -/
def slowTrip : Cyc ℚ := [⟨0, 0, 0, 0⟩, ⟨10, 15, 0, 0⟩, ⟨20, 15, 1 / 100, 0⟩, ⟨60, 14, 0, 0⟩]
def fastTrip : Cyc ℚ := [⟨0, 0, 0, 0⟩, ⟨12, 20, 0, 0⟩, ⟨40, 22, 0, 0⟩, ⟨52, 22, 0, 0⟩]

theorem traces : ∀ c ∈ [hop, hopFine, slowTrip, fastTrip], LabelTrace c := by
  have : ∀ c ∈ [hop, hopFine, slowTrip, fastTrip], c.times.getD 0 0 = 0 ∧ c.times.Pairwise (· ≤ ·) ∧ 0 < npSum (distM c) := by
    decide +kernel
  have sp : ∀ c ∈ [hop, hopFine, slowTrip, fastTrip], SpeedsNonneg c := by unfold SpeedsNonneg; decide +kernel
  exact fun c hc => ⟨(this c hc).1, (this c hc).2.1, sp c hc, (this c hc).2.2⟩

/-- **C140 (cases).** Two conventional cars meet the hypotheses of `C140_conv` and `C140_resistance`. -/
theorem C140_demo : (∀ V ∈ [rocket, boxyRocket], RsLabelled fns V ∧ LabelCar V newParams ∧
      ∀ c ∈ [hop, hopFine], TestWithin fns V newParams c) ∧
    MoreResistance rocket boxyRocket newParams newParams ∧ ownAux rocket ≤ ownAux boxyRocket ∧ (∀ g, 0 ≤ fns.cosAtan g) ∧
    (∀ e ∈ rocket.fcEffArray, 1 / 10 ≤ e ∧ e ≤ 7 / 20) ∧ FlatEnd (ufTable : List (ℚ × ℚ)) ∧
    (∀ c ∈ [hop, hopFine], LabelTrace c ∧ ∀ l ∈ legs c, 0 ≤ l.v0 ∧ 0 ≤ l.v) := by
  have test : ∀ V ∈ [rocket, boxyRocket], ∀ c ∈ [hop, hopFine], (∀ l ∈ legs c, 0 < l.dt) ∧ 0 < testMiles c ∧
      LegsWithin fns V (newParams : SimParams ℚ).toStepParams (ownAux V) 0 (legs c) := by decide +kernel
  have sp : ∀ c ∈ [hop, hopFine], ∀ l ∈ legs c, 0 ≤ l.v0 ∧ 0 ≤ l.v := by decide +kernel
  have ok : ∀ V ∈ [rocket, boxyRocket], RsOk V := by
    intro V hV
    simp only [List.mem_cons, List.not_mem_nil, or_false] at hV
    rcases hV with rfl | rfl
    · exact rocket_ok.1
    · have := rocket_ok.1
      exact ⟨this.1, this.2, this.3, this.4, this.5, this.6, this.7, this.8, this.9, this.10, this.11, this.12, this.13, this.14,
        this.15, this.16, this.17⟩
  refine ⟨fun V hV => ⟨?_, ?_, fun c hc => ?_⟩, ?_, by decide +kernel, C80_demo.2.2.1, by decide +kernel, C102_constants.2.2,
    fun c hc => ⟨traces c ?_, sp c hc⟩⟩
  · have o := ok V hV
    simp only [List.mem_cons, List.not_mem_nil, or_false] at hV
    rcases hV with rfl | rfl <;>
      exact ⟨o, ⟨by decide, by decide, by decide +kernel⟩, by decide +kernel, by decide +kernel, by decide +kernel,
        fun acc h => .inl (rises (by decide +kernel) h)⟩
  · simp only [List.mem_cons, List.not_mem_nil, or_false] at hV
    rcases hV with rfl | rfl <;>
      exact ⟨rfl, rfl, rfl, ⟨rfl, by decide, by decide +kernel, by decide +kernel, by decide +kernel, by decide +kernel,
        by decide +kernel⟩, rfl, by decide +kernel, by decide +kernel, ⟨by decide, by decide, by decide +kernel⟩⟩
  · exact ⟨(test V hV c hc).1, (test V hV c hc).2.1, (test V hV c hc).2.2⟩
  · constructor <;> first | rfl | decide +kernel
  · simp only [List.mem_cons, List.not_mem_nil, or_false] at hc ⊢
    tauto

/-- **C140 (cases).** The light electric car meets the hypotheses of `C140_bev` and `C140_capacity`, with 30 and 60 kWh. -/
theorem C140_demo_bev : (∀ kwh ∈ [30, 60], RsLabelled fns (kart kwh) ∧ LabelBev fns (kart kwh) newParams) ∧
    MotorTable (kart 30) (mcElecKwInAch (kart 30)) ∧
    (∀ c ∈ [slowTrip, fastTrip], LabelTrace c ∧ BevTest fns (kart 30) newParams (mcElecKwInAch (kart 30)) c) ∧
    LabelConstOk (labelConst : LabelConst ℚ) := by
  have hx := C119_demo_bev.2.1.exp
  have car : ∀ kwh ∈ [(30 : ℚ), 60], LabelBev fns (kart kwh) newParams := by
    intro kwh hk
    simp only [List.mem_cons, List.not_mem_nil, or_false] at hk
    rcases hk with rfl | rfl <;>
      exact ⟨rfl, rfl, rfl, ⟨rfl, rfl, by decide, by decide +kernel, by decide +kernel, by decide +kernel, rfl, rfl, by decide +kernel,
        by decide +kernel⟩, ⟨by decide +kernel, by decide +kernel, by decide +kernel, by decide +kernel, by decide +kernel,
        by decide +kernel, by decide +kernel, rfl, by decide +kernel, by decide +kernel, by decide +kernel, by decide +kernel⟩,
        ⟨by decide, by decide, by decide, by decide +kernel, by decide +kernel⟩,
        ⟨hx, by decide +kernel, by decide +kernel, by decide +kernel⟩, by decide +kernel⟩
  have test : ∀ c ∈ [slowTrip, fastTrip], 0 < testMiles c ∧
      0 < traceCellKj fns (kart 30) (newParams : SimParams ℚ).toStepParams (mcElecKwInAch (kart 30)) (kart 30).auxKw c ∧
      BevLegsWithin fns (kart 30) (newParams : SimParams ℚ).toStepParams (mcElecKwInAch (kart 30)) (kart 30).auxKw (kart 30).maxSoc 0
        (legs c) := by decide +kernel
  refine ⟨fun kwh hk => ⟨?_, car kwh hk⟩, motorTable (car 30 (by simp)).motor, fun c hc => ⟨traces c ?_, (test c hc).1, (test c hc).2.1,
    (test c hc).2.2⟩, ⟨by decide +kernel, by decide +kernel, by decide +kernel, by decide +kernel⟩⟩
  · simp only [List.mem_cons, List.not_mem_nil, or_false] at hk
    rcases hk with rfl | rfl <;>
      exact ⟨⟨⟨by decide, by decide +kernel, by decide +kernel, by decide +kernel, by decide +kernel⟩,
        ⟨by decide, by decide +kernel, by decide +kernel, by decide +kernel, by decide +kernel⟩, by decide +kernel,
        by decide +kernel, by decide +kernel, by decide +kernel, by decide +kernel, by decide +kernel, by decide +kernel,
        by decide +kernel, by decide +kernel, by decide +kernel, by decide +kernel, by decide +kernel, by decide +kernel,
        by decide +kernel, by decide +kernel⟩, ⟨by decide, by decide, by decide +kernel⟩, by decide +kernel, by decide +kernel,
        by decide +kernel, fun acc h => .inl (rises (by decide +kernel) h)⟩
  · simp only [List.mem_cons, List.not_mem_nil, or_false] at hc ⊢
    tauto

end RsLabelDemo
end Fastsim.Props
