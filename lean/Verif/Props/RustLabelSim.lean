import Verif.Props.RustLabel
import Verif.Props.RustRun
import Verif.Props.LabelSim
import Verif.Props.Causal

/-!
# C102: the label of the Rust core, with its simulations
-/

set_option linter.unusedSectionVars false

namespace Fastsim.Spec

/-- A cycle as the label needs it: it starts at time zero and at least one sample, its times do not decrease, nothing drives
backwards, and it is not all rest. -/
structure LabelTrace {K : Type*} [Field K] [LinearOrder K] (c : Cyc K) : Prop where
  start : c.times.getD 0 0 = 0
  times : c.times.Pairwise (· ≤ ·)
  speeds : SpeedsNonneg c
  moves : 0 < npSum (distM c)

end Fastsim.Spec

namespace Fastsim.Props
open Fastsim Spec

section Field
variable {K : Type*} [Field K] [LinearOrder K] [IsStrictOrderedRing K] [FloorRing K]
variable {F : Fns K} {V : Veh K} {P : SimParams K} {RH : RsHooks K}

theorem plain_not_resets (hP : PlainDrive P) : ¬ Resets P := by
  unfold Resets
  rw [hP.coast, hP.idm, hP.trace]
  simp

/-- Whatever the powertrain, a completed run without corrections leaves the cycle as it is. -/
theorem drive_same_cycle (hP : PlainDrive P) {W : Veh K} {s t : Sim K} (hlen : s.cyc.length = s.cyc0.length) {init : Option K}
    {aux : Option (List K)} (h : simDrive F (realHooks F W P) W P s init aux = .ok t) :
    t.cyc = s.cyc ∧ t.cyc0 = s.cyc0 ∧ t.rows.length = s.cyc0.length ∧ t.aux.length = s.cyc0.length := by
  obtain ⟨soc, hd⟩ := simDrive_done realHooks_local hlen h
  refine ⟨?_, hd.cyc0, hd.lenRows, hd.lenAux⟩
  have key : ∀ (s1 t1 : Sim K) (soc : K) (aux : Option (List K)), s1.cyc.length = s1.cyc0.length →
      walk F (realHooks F W P) W P s1 soc aux = .ok t1 → t1.cyc = s1.cyc :=
    fun s1 t1 soc aux hl hw => (walk_keeps realHooks_local hl hw).cyc (plain_not_resets hP)
  unfold simDrive at h
  simp only at h
  split at h
  · exact key { s with hevCount := 0 } _ _ _ hlen h
  · split at h
    · exact key { s with hevCount := 0 } _ _ _ hlen h
    · split at h
      · cases h
      · rename_i r hr
        have q := hevLoop_inputs realHooks_local (P := P) _ _ _ _ _ (by exact hlen) hr
        have e : r.1.cyc = s.cyc := q.cyc (plain_not_resets hP)
        rw [← e]
        exact key _ _ _ _ (by rw [q.len, q.cyc0]; exact hlen) h
    · exact key { s with hevCount := 0 } _ _ _ hlen h
    · exact key { s with hevCount := 0 } _ _ _ hlen h

theorem first_last (s : Sim K) : s.rows.getD 0 Row.zero = s.firstRow ∧ s.rows.getD (s.rows.length - 1) Row.zero = s.lastRow := by
  unfold Sim.firstRow Sim.lastRow
  rw [List.getLast?_eq_getElem?, ← List.getD_eq_getElem?_getD]
  exact ⟨rfl, rfl⟩

theorem minSoc_rs (s : Sim K) (h : s.rows ≠ []) : rsArrMin (s.rows.map fun r => r.dec.soc) =
    (s.rows.map fun r => r.dec.soc).foldl min s.firstRow.dec.soc := by
  unfold Sim.firstRow
  cases hr : s.rows with
  | nil => exact absurd hr h
  | cons r l => simp [rsArrMin]

theorem labelRun_rs (hV : RsOk V) (hlo : 0 ≤ V.minSoc) (hhi : V.maxSoc ≤ 1) (T : MissTols K) (gge : K) {cyc : Cyc K}
    (hc : LabelTrace cyc) {init : Option K} {t : Sim K}
    (ht : simDrive F (realHooks F (lastEffRepeated V) newParams) (lastEffRepeated V) newParams (Sim.new cyc) init none = .ok t) :
    ∃ p, rsSimDrive F RH V rsNewParams T gge (Sim.new cyc) init none = .ok (t, p) ∧
      rsLabelRun t p = ⟨labelRun gge (lastEffRepeated V) t, p.traceMissSpeedMps⟩ := by
  obtain ⟨k1, k2, k3, k4⟩ := drive_same_cycle (rsNew_params (K := K) ▸ rsNew_plain) (W := lastEffRepeated V) (s := Sim.new cyc) rfl ht
  have e : rsDrive F RH V rsNewParams (Sim.new cyc) init none = .ok t := by
    by_cases hhev : V.ptType ≠ .hev ∨ init ≠ none
    · have := C98_run (F := F) (RH := RH) (H := realHooks F (lastEffRepeated V) newParams) (s := Sim.new cyc) hV
        (rsNew_plain (K := K)) rfl hc.times init none (fun _ e => by simp at e) hhev V.mcPeakEff V.maxFcEffKw
      rw [rsNew_params] at this ⊢
      change rsDrive F RH V newParams (Sim.new cyc) init none = _ at this
      rw [this, ht]; rfl
    · push Not at hhev
      obtain ⟨h1, rfl⟩ := hhev
      have := C98_balanced (F := F) (RH := RH) (H := realHooks F (lastEffRepeated V) newParams) (s := Sim.new cyc) (t := t) (aux := none) hV
        (rsNew_plain (K := K)) h1 hlo hhi rfl hc.times (fun _ e => by simp at e) V.mcPeakEff V.maxFcEffKw
        (by rw [rsNew_params]; exact ht)
      exact this
  have f1 : t.cyc = cyc := k1
  have f0 : t.cyc0 = cyc := k2
  have hl : t.cyc0.length = t.cyc.length := by rw [f0, f1]
  obtain ⟨p, e1, e2, -, -, e3, -⟩ := C98_figures (F := F) (V := V) (P := rsNewParams) T gge (s := t)
    (by rw [k3, f1]; rfl) (by rw [k4, f1]; rfl) hl.symm (by rw [f1]; exact hc.start) (by rw [f0]; exact hc.start)
    (by rw [f0]; exact hc.moves)
  have hne : t.rows ≠ [] := by
    intro q
    rw [q] at k3
    have : cyc = [] := List.length_eq_zero_iff.1 k3.symm
    have hm := hc.moves
    rw [this] at hm
    exact absurd hm (by simp [distM, npSum_eq, Cyc.speeds])
  refine ⟨p, ?_, ?_⟩
  · unfold rsSimDrive
    rw [e]
    simp only [e1]
  unfold rsLabelRun labelRun
  rw [(first_last t).1, (first_last t).2, minSoc_rs t hne, e2, e3]
  rfl

/-- **C102 (simulations).** A run for the label: what the label reads from the Rust run is what python reads. -/
theorem C102_run (hV : RsOk V) (hlo : 0 ≤ V.minSoc) (hhi : V.maxSoc ≤ 1) (T : MissTols K) {c : LabelConst K} {udds hwy : Cyc K}
    (hu : LabelTrace udds) (hh : LabelTrace hwy) {k : LabelCyc} {init : Option K} {x : LabelRun K}
    (h : labelSim F (lastEffRepeated V) newParams c udds hwy k init = .ok x) :
    ∃ m, rsLabelSim F RH V T c udds hwy k init = .ok ⟨x, m⟩ := by
  unfold labelSim at h
  unfold rsLabelSim
  split at h
  · cases h
  · rename_i t ht
    obtain rfl := Except.ok.inj h
    cases k
    · obtain ⟨p, e1, e2⟩ := labelRun_rs (RH := RH) hV hlo hhi T c.kwhPerGge hu ht
      exact ⟨p.traceMissSpeedMps, by simp only [e1, e2]⟩
    · obtain ⟨p, e1, e2⟩ := labelRun_rs (RH := RH) hV hlo hhi T c.kwhPerGge hh ht
      exact ⟨p.traceMissSpeedMps, by simp only [e1, e2]⟩

/-! ### The acceleration test -/

theorem rsAccelTrace_eq : (rsAccelTrace : Cyc K) = accelTrace := by
  have h : ⌈((300 : K) - 0) / (1 / 10)⌉.toNat = 3000 := by
    rw [show ((300 : K) - 0) / (1 / 10) = ((3000 : ℤ) : K) by norm_num, Int.ceil_intCast]; rfl
  rw [accelTrace_eq]
  unfold rsAccelTrace arange
  rw [h]
  generalize (3000 : ℕ) = N
  apply List.ext_getElem?
  intro i
  rw [List.getElem?_map, List.getElem?_map, List.getElem?_zipIdx, List.getElem?_map]
  by_cases hi : i < N
  · rw [List.getElem?_range hi]
    simp only [Option.map_some, Nat.zero_add]
    congr 2
    ring
  · rw [List.getElem?_eq_none (by simpa using hi)]
    rfl

theorem accelTrace_trace : LabelTrace (accelTrace : Cyc K) := by
  have ht : Cyc.times (accelTrace : Cyc K) = (List.range 3000).map fun k : ℕ => (k : K) / 10 := by
    unfold Cyc.times; rw [accelTrace_eq, List.map_map]; rfl
  have hs : Cyc.speeds (accelTrace : Cyc K) = (List.range 3000).map fun k : ℕ => if k = 0 then (0 : K) else 90 / mphPerMps := by
    unfold Cyc.speeds; rw [accelTrace_eq, List.map_map]; rfl
  have hp : (Cyc.times (accelTrace : Cyc K)).Pairwise (· ≤ ·) := by
    rw [ht, List.pairwise_map]
    refine List.Pairwise.imp (fun {a b} (h : a < b) => ?_) List.pairwise_lt_range
    have : (a : K) ≤ (b : K) := by exact_mod_cast h.le
    exact div_le_div_of_nonneg_right this (by norm_num)
  refine ⟨?_, hp, accelTrace_nonneg, ?_⟩
  · rw [ht]; simp
  · have hlen : (accelTrace : Cyc K).length = 3000 := accelTrace_length
    have hd : ∀ i, i < 3000 → (distM (accelTrace : Cyc K))[i]? =
        some ((if i = 0 then (0 : K) else 90 / mphPerMps) * (dtS (accelTrace : Cyc K)).getD i 0) := by
      intro i hi
      unfold distM
      have h2 : i < (dtS (accelTrace : Cyc K)).length := by rw [dtS_length, hlen]; exact hi
      rw [List.getElem?_zipWith, hs, List.getElem?_map, List.getElem?_range hi, List.getD_eq_getElem?_getD,
        List.getElem?_eq_getElem h2]
      rfl
    have hv : (0 : K) < 90 / mphPerMps := by unfold mphPerMps; norm_num
    have h1 : (dtS (accelTrace : Cyc K)).getD 1 0 = 1 / 10 := by
      rw [dtS_get _ 1 le_rfl (by rw [hlen]; norm_num)]
      unfold dtAt
      rw [if_neg (by norm_num), ht, List.getD_eq_getElem?_getD, List.getD_eq_getElem?_getD, List.getElem?_map, List.getElem?_map,
        List.getElem?_range (by norm_num), List.getElem?_range (by norm_num)]
      simp
    have hm : (90 / mphPerMps * (1 / 10) : K) ∈ distM (accelTrace : Cyc K) := by
      refine List.mem_of_getElem? (i := 1) ?_
      rw [hd 1 (by norm_num), h1, if_neg (by norm_num)]
    have hnn : ∀ x ∈ distM (accelTrace : Cyc K), 0 ≤ x := by
      intro x hx
      obtain ⟨i, hi⟩ := List.getElem?_of_mem hx
      have hi' : i < 3000 := by
        have := (List.getElem?_eq_some_iff.1 hi).1
        unfold distM at this
        rw [List.length_zipWith, dtS_length, hlen] at this
        omega
      rw [hd i hi'] at hi
      obtain rfl := Option.some.inj hi
      by_cases h0 : i = 0
      · rw [if_pos h0, zero_mul]
      · rw [if_neg h0, dtS_get _ i (by omega) (by rw [hlen]; exact hi')]
        exact mul_nonneg hv.le (dtAt_nonneg' hp (by rw [hlen]; exact hi'))
    rw [npSum_eq]
    have := List.single_le_sum hnn _ hm
    have : (0 : K) < 90 / mphPerMps * (1 / 10) := mul_pos hv (by norm_num)
    linarith

/-- **C102 (acceleration test).** The acceleration test of the Rust core is that of python. -/
theorem C102_test (hV : RsOk V) (T : MissTols K) (c : LabelConst K) {acc : List (K × K)}
    (h : accelSpeeds F (lastEffRepeated V) newParams = .ok acc) :
    ∃ mph times, rsAccelSpeeds F RH V T c = .ok (mph, times) ∧ mph.length = times.length ∧ acc = mph.zip times := by
  unfold accelSpeeds at h
  unfold rsAccelSpeeds
  rw [rsAccelTrace_eq]
  split at h
  · cases h
  · rename_i t ht
    obtain rfl := Except.ok.inj h
    have ht' := ht
    rw [accelTest_simDrive] at ht'
    obtain ⟨k1, k2, k3, k4⟩ := drive_same_cycle (rsNew_params (K := K) ▸ rsNew_plain) (W := lastEffRepeated V) (s := Sim.new accelTrace)
      rfl ht'
    have e : rsDriveAccel F RH V rsNewParams (Sim.new accelTrace) none none = .ok t := by
      have q := C98_walk (F := F) (RH := RH) (H := realHooks F (lastEffRepeated V) newParams) (s := Sim.new accelTrace) hV
        (rsNew_plain (K := K)) rfl accelTrace_trace.times (accelTestSoc V) none (fun _ e => by simp at e) V.mcPeakEff V.maxFcEffKw
      change rsWalk F RH V rsNewParams _ _ _ = _ at q
      have q2 : rsDriveAccel F RH V rsNewParams (Sim.new accelTrace) none none =
          rsWalk F RH V rsNewParams (Sim.new accelTrace) (accelTestSoc V) none := by
        unfold rsDriveAccel accelTestSoc
        cases V.ptType <;> rfl
      rw [q2, q, rsNew_params]
      have : walk F (realHooks F (lastEffRepeated V) newParams) (lastEffRepeated V) newParams (Sim.new accelTrace) (accelTestSoc V)
          none = .ok t := ht
      rw [this]; rfl
    have f1 : t.cyc = accelTrace := k1
    have f0 : t.cyc0 = accelTrace := k2
    obtain ⟨p, e1, -⟩ := C98_figures (F := F) (V := V) (P := rsNewParams) T c.kwhPerGge (s := t)
      (by rw [k3, f1]; rfl) (by rw [k4, f1]; rfl) (by rw [f1, f0]) (by rw [f1]; exact accelTrace_trace.start)
      (by rw [f0]; exact accelTrace_trace.start) (by rw [f0]; exact accelTrace_trace.moves)
    refine ⟨t.rows.map fun r => r.ach.mphAch, t.cyc0.times, by simp only [e, e1], ?_, by rw [f0]⟩
    rw [List.length_map, k3, f0]
    simp [Cyc.times, Sim.new, initArrays]

/-! ### The label -/

theorem lastEff_ok (h : EffOk V) : EffOk (lastEffRepeated V) := by
  obtain ⟨h1, h2, h3⟩ := h
  refine ⟨?_, by simpa [lastEffRepeated] using h2, ?_⟩
  · intro q
    have : (lastEffRepeated V).fcEffArray.length = V.fcEffArray.length := by simp [lastEffRepeated]
    rw [q] at this
    exact h1 (List.length_eq_zero_iff.1 this.symm)
  · intro e he
    rcases List.mem_or_eq_of_mem_set he with he | rfl
    · exact h3 e he
    · refine h3 _ ?_
      have hl : 0 < V.fcEffArray.length := List.length_pos_of_ne_nil h1
      rw [List.getD_eq_getElem?_getD, List.getElem?_eq_getElem (by omega)]
      exact List.getElem_mem _

/-- The economies of a label run are not negative. -/
theorem labelSim_nonneg {W : Veh K} (hE : EngineOk W) (hF : EffOk W) (hP : PlainDrive P) {c : LabelConst K} (hg : 0 < c.kwhPerGge) {udds hwy : Cyc K}
    (hu : LabelTrace udds) (hh : LabelTrace hwy) {k : LabelCyc} {init : Option K} {x : LabelRun K}
    (h : labelSim F W P c udds hwy k init = .ok x) : 0 ≤ x.mpgge := by
  have key : ∀ {cyc : Cyc K} {t : Sim K}, LabelTrace cyc → simDrive F (realHooks F W P) W P (Sim.new cyc) init none = .ok t →
      0 ≤ mpgge c.kwhPerGge t := by
    intro cyc t hc ht
    obtain ⟨k1, k2, -, -⟩ := drive_same_cycle hP (W := W) (s := Sim.new cyc) rfl ht
    have f1 : t.cyc = cyc := k1
    have f0 : t.cyc0 = cyc := k2
    have hfin := Finished.simDrive realHooks_local (s := Sim.new cyc) rfl ht
    refine (C17_mpgge realHooks_local (by rw [hP.idm]; simp) (by rw [hP.coast]; simp) hE hF hfin (by rw [f0]; exact hc.speeds)
      (fun _ _ => by rw [f1]; exact hc.speeds) ?_ _ hg).1
    intro i h1 h2
    have h3 := hfin.atEnd
    rw [f1] at h3 ⊢
    exact dtAt_nonneg' hc.times (by omega)
  unfold labelSim at h
  split at h
  · cases h
  · rename_i t ht
    obtain rfl := Except.ok.inj h
    cases k
    · exact key hu ht
    · exact key hh ht

/-- **C102 (the label of a vehicle).** Whenever python has a label for a vehicle (with the last engine efficiency repeated, C96),
the Rust core has the same label for it, provided that in the acceleration test the speed rises until it passes 60 mph or never
reaches it. -/
theorem C102_vehicle (hV : RsOk V) (hF : EffOk V) (hlo : 0 ≤ V.minSoc) (hhi : V.maxSoc ≤ 1) (T : MissTols K) {c : LabelConst K}
    (hg : 0 < c.kwhPerGge) {tbl : List (K × K)} (hf : FlatEnd tbl) {veh : LabelVeh K} {udds hwy : Cyc K} (hu : LabelTrace udds)
    (hh : LabelTrace hwy) {acc : List (K × K)} (ha : accelSpeeds F (lastEffRepeated V) newParams = .ok acc)
    (hacc : RisesTo60 acc ∨ ∀ p ∈ acc, p.1 < ((60 : ℕ) : K)) {d : PyDict (LabelVal K)}
    (h : vehicleLabel F (lastEffRepeated V) newParams c tbl veh udds hwy = .ok d) :
    ∃ r, rsVehicleLabel F RH V T c tbl veh udds hwy = .ok r ∧ SameLabel veh.ptType d r := by
  obtain ⟨mph, times, e1, e2, rfl⟩ := C102_test (RH := RH) hV T c ha
  unfold vehicleLabel at h
  rw [ha] at h
  unfold rsVehicleLabel
  rw [e1]
  obtain ⟨r, u, w, r1, r2, -⟩ := C102_label hf (rsim := rsLabelSim F RH V T c udds hwy)
    (fun k init x hx => C102_run hV hlo hhi T hu hh hx)
    (fun k x hx => labelSim_nonneg (W := lastEffRepeated V) ⟨hV.fcMax, hV.fcTime⟩ (lastEff_ok hF)
      (rsNew_params (K := K) ▸ rsNew_plain) hg hu hh hx) e2
    (hacc.imp id fun q x hx => by
      obtain ⟨i, hi⟩ := List.getElem?_of_mem hx
      have hlt := (List.getElem?_eq_some_iff.1 hi).1
      exact q (x, times[i]'(by omega)) (List.mem_of_getElem? (i := i) (by
        rw [List.getElem?_zip_eq_some]; exact ⟨hi, List.getElem?_eq_getElem (by omega)⟩))) h
  exact ⟨r, r1, r2⟩

/-- **C102 (same engine curve).** If the last two efficiencies of the engine are the same, the label of the vehicle itself. -/
theorem C102_vehicle_same (hV : RsOk V) (hF : EffOk V) (hlo : 0 ≤ V.minSoc) (hhi : V.maxSoc ≤ 1)
    (he : V.fcEffArray[V.fcEffArray.length - 2]? = V.fcEffArray[V.fcEffArray.length - 1]?) (T : MissTols K) {c : LabelConst K}
    (hg : 0 < c.kwhPerGge) {tbl : List (K × K)} (hf : FlatEnd tbl) {veh : LabelVeh K} {udds hwy : Cyc K} (hu : LabelTrace udds)
    (hh : LabelTrace hwy) {acc : List (K × K)} (ha : accelSpeeds F V newParams = .ok acc)
    (hacc : RisesTo60 acc ∨ ∀ p ∈ acc, p.1 < ((60 : ℕ) : K)) {d : PyDict (LabelVal K)}
    (h : vehicleLabel F V newParams c tbl veh udds hwy = .ok d) :
    ∃ r, rsVehicleLabel F RH V T c tbl veh udds hwy = .ok r ∧ SameLabel veh.ptType d r := by
  have e : lastEffRepeated V = V := lastEff_same (by rw [hV.fcLen]; exact hV.fcTwo) he
  exact C102_vehicle hV hF hlo hhi T hg hf hu hh (by rw [e]; exact ha) hacc (by rw [e]; exact h)

end Field

/-! ### Concrete cases -/
section Demo
open Demo

/-- A car that meets the acceleration trace at once. -/
def rocket : Veh ℚ :=
  { conv with
    fcSecToPeakPwr := 1, fcMaxKw := 500000, fcKwOutArray := [0, 1, 50, 500000], fcEffArray := [1 / 10, 1 / 5, 7 / 20, 7 / 20]
    fsMaxKw := 5000000, wheelCoefOfFric := 200, wheelBaseM := 1000, maxTracMps2 := 1000 }

theorem rocket_ok : RsOk rocket ∧ EffOk rocket ∧
    rocket.fcEffArray[rocket.fcEffArray.length - 2]? = rocket.fcEffArray[rocket.fcEffArray.length - 1]? := by
  refine ⟨⟨⟨by decide, by decide +kernel, by decide +kernel, by decide +kernel, by decide +kernel⟩,
      ⟨by decide, by decide +kernel, by decide +kernel, by decide +kernel, by decide +kernel⟩, by decide +kernel,
      by decide +kernel, by decide +kernel, by decide +kernel, by decide +kernel, by decide +kernel, by decide +kernel,
      by decide +kernel, by decide +kernel, by decide +kernel, by decide +kernel, by decide +kernel, by decide +kernel,
      by decide +kernel, by decide +kernel⟩, ⟨by decide +kernel, by decide +kernel, by decide +kernel⟩, by decide +kernel⟩

theorem demo_traces : LabelTrace cyc ∧ LabelTrace demoHwy := by
  refine ⟨⟨by decide +kernel, by decide +kernel, ?_, by decide +kernel⟩, ⟨by decide +kernel, by decide +kernel, ?_, by decide +kernel⟩⟩ <;>
  · unfold SpeedsNonneg; decide +kernel

/-- The acceleration test of this car rises to more than 60 mph. -/
theorem rocket_rises : ∃ acc, accelSpeeds fns rocket newParams = .ok acc ∧ RisesTo60 acc := by
  obtain ⟨s, hs, -⟩ := C51_run (F := fns) (V := rocket) (P := newParams) (Sim.new accelTrace) rfl
    (by show 0 < (accelTrace : Cyc ℚ).length; rw [accelTrace_length]; norm_num) (some (accelTestSoc rocket)) none
    (by decide +kernel) (fun soc e => Or.inr (by obtain rfl := Option.some.inj e; exact accelTestSoc_mem (by decide +kernel)))
    (fun e => by simp at e) ⟨fun h => by simp [newParams] at h, fun h => by simp [newParams] at h, fun h => by simp [newParams] at h,
      fun h => by simp [newParams] at h⟩
  obtain ⟨t, ht, hr, -⟩ := C58_real (F := fns) (V := rocket) (P := newParams) rfl (fun h => by simp [newParams] at h) (n := 2)
    (by norm_num) (by rw [accelTrace_length]; norm_num) hs
  have h2 : List.take 2 (accelTrace : Cyc ℚ) = [⟨0, 0, 0, 0⟩, ⟨1 / 10, 90 / mphPerMps, 0, 0⟩] := by
    apply List.ext_getElem?
    intro i
    rcases Nat.lt_or_ge i 2 with hi | hi
    · rw [List.getElem?_take_of_lt hi, accelTrace_get (by omega)]
      interval_cases i <;> simp
    · rw [List.getElem?_eq_none (by simp; omega), List.getElem?_eq_none (by simpa using hi)]
  rw [h2] at ht
  have hall : (match simDrive fns (realHooks fns rocket newParams) rocket newParams
      (Sim.new [⟨0, 0, 0, 0⟩, ⟨1 / 10, 90 / mphPerMps, 0, 0⟩]) (some (accelTestSoc rocket)) none with
      | .ok t => decide (t.rows.map (fun r => r.ach.mphAch) = [0, 90])
      | .error _ => false) = true := by decide +kernel
  rw [ht] at hall
  have hm := of_decide_eq_true hall
  rw [hr, List.map_take] at hm
  refine ⟨_, by unfold accelSpeeds; rw [accelTest_simDrive, hs], ?_⟩
  generalize (s.rows.map fun r => r.ach.mphAch) = mph at hm
  have ht' : ∃ l : List ℚ, Cyc.times (accelTrace : Cyc ℚ) = 0 :: 1 / 10 :: l := by
    refine ⟨(Cyc.times (accelTrace : Cyc ℚ)).drop 2, ?_⟩
    conv_lhs => rw [← List.take_append_drop 2 (Cyc.times (accelTrace : Cyc ℚ))]
    unfold Cyc.times
    rw [← List.map_take, h2]
    rfl
  obtain ⟨l, hl⟩ := ht'
  rw [hl]
  match mph, hm with
  | [a, b], h => 
    obtain ⟨rfl, rfl⟩ : a = 0 ∧ b = 90 := by simpa using h
    exact ⟨[(0, 0)], (90, 1 / 10), _, rfl, by simp, by simp, by simp, by norm_num, fun h => by norm_num at h⟩
  | a :: b :: c :: m, h =>
    obtain ⟨rfl, rfl⟩ : a = 0 ∧ b = 90 := by simpa using h
    exact ⟨[(0, 0)], (90, 1 / 10), _, rfl, by simp, by simp, by simp, by norm_num, fun h => by norm_num at h⟩

/-- The label of this car comes out of both programs, and is the same. -/
theorem C102_demo (T : MissTols ℚ) : ∃ d r, vehicleLabel fns rocket newParams labelConst ufTable (demoVeh .conv) cyc demoHwy = .ok d ∧
    rsVehicleLabel fns rsNoHooks rocket T labelConst ufTable (demoVeh .conv) cyc demoHwy = .ok r ∧ SameLabel .conv d r := by
  obtain ⟨acc, ha, hacc⟩ := rocket_rises
  have hall : (match simDrive fns (realHooks fns rocket newParams) rocket newParams (Sim.new cyc) none none,
      simDrive fns (realHooks fns rocket newParams) rocket newParams (Sim.new demoHwy) none none with
    | .ok t, .ok h => decide (0 < totalFuelKwh t ∧ 0 < totalFuelKwh h ∧ 0 < totalMiles t ∧ 0 < totalMiles h)
    | _, _ => false) = true := by decide +kernel
  split at hall
  · rename_i su sh h1 h2
    obtain ⟨f1, f2, m1, m2⟩ := of_decide_eq_true hall
    obtain ⟨d, lc, hd, -⟩ := C87_mpg (c := labelConst) (tbl := ufTable) (veh := demoVeh .conv) (Or.inl rfl)
      (by decide +kernel) h1 h2 ha f1 f2 m1 m2
    obtain ⟨r, hr, hs⟩ := C102_vehicle_same (RH := rsNoHooks) rocket_ok.1 rocket_ok.2.1 (by decide +kernel) (by decide +kernel)
      rocket_ok.2.2 T (by decide +kernel) C102_constants.2.2 demo_traces.1 demo_traces.2 ha (Or.inl hacc) hd
    exact ⟨d, r, hd, hr, hs⟩
  · simp at hall

/-- The simulations of a plug-in hybrid, for the Rust core. -/
def rsPhevSim (eU : ℚ) (k : LabelCyc) (s : Option ℚ) : Except RsErr (RsLabelRun ℚ) :=
  match phevSim eU k s with
  | .ok x => .ok ⟨x, 1 / 10⟩
  | .error _ => .error .err

/-- The label of the plug-in hybrid comes out of both programs. -/
theorem C102_demo_phev : ∃ d r, getLabelFe labelConst ufTable phevVeh (phevSim (3 / 8)) (.ok [(0, 0), (55, 8), (65, 9)]) = .ok d ∧
    rsGetLabelFe labelConst ufTable phevVeh (rsPhevSim (3 / 8)) (.ok ([0, 55, 65], [0, 8, 9])) = .ok r ∧
    SameLabel .phev d r := by
  obtain ⟨d, -, hd, -⟩ := demo_phev
  obtain ⟨r, -, -, hr, hs, -⟩ := C102_label (c := labelConst) (tbl := ufTable) (veh := phevVeh) C102_constants.2.2
    (sim := phevSim (3 / 8)) (rsim := rsPhevSim (3 / 8)) (mph := [0, 55, 65]) (times := [0, 8, 9])
    (fun k init x h => ⟨1 / 10, by unfold rsPhevSim; rw [h]⟩)
    (fun k x h => by
      have : x.mpgge = 40 := by cases k <;> (simp only [phevSim] at h; obtain rfl := Except.ok.inj h; rfl)
      rw [this]; norm_num) rfl
    (Or.inl ⟨[(0, 0), (55, 8)], (65, 9), [], rfl, by simp, by decide +kernel, by decide +kernel, by decide +kernel, fun h => by norm_num at h⟩) hd
  exact ⟨d, r, hd, hr, hs⟩

/-- The simulations of a plug-in hybrid that drives 975 miles on a charge, one and a half cycles. -/
def farSim : LabelCyc → Option ℚ → Except PyErr (LabelRun ℚ)
  | _, some s => if s = 95 / 100 then .ok ⟨0, 9 / 975, 650, 0, 7 / 10, 95 / 100, 7 / 10⟩ else .ok ⟨40, 0, 650, 600, 5 / 100, s, s⟩
  | _, none => .ok ⟨40, 0, 650, 600, 1 / 2, 1 / 2, 1 / 2⟩

/-- **C102 (beyond the table).** The two cycles end beyond the 1201 miles of the table: python raises `ValueError`, the Rust core
takes the share of the last entry but one and reports a label. -/
theorem C102_beyond :
    (match getLabelFe labelConst ufTable phevVeh farSim (.ok [(0, 0), (55, 8), (65, 9)]) with
      | .ok _ => false
      | .error e => decide (e = PyErr.valueError)) = true ∧
    (match rsGetLabelFe labelConst ufTable phevVeh (fun k s => match farSim k s with | .ok x => .ok ⟨x, 0⟩ | .error _ => .error .err)
        (.ok ([0, 55, 65], [0, 8, 9])) with
      | .ok r => decide (999 / 1000 < r.uf ∧ 0 < r.labUddsKwhPerMi ∧ r.netAccel = 17 / 2)
      | .error _ => false) = true := by
  decide +kernel

/-- **C102 (speeds that stand still).** For speeds 0, 55, 55 and 65 mph at seconds 0 to 3 the Rust core interpolates from the first
of the two equal speeds, python from the second. -/
theorem C102_standstill :
    (match rsNetAccel ([0, 55, 55, 65] : List ℚ) [0, 1, 2, 3] with | .ok x => decide (x = 2) | .error _ => false) = true ∧
    netAccel ([(0, 0), (55, 1), (55, 2), (65, 3)] : List (ℚ × ℚ)) = 5 / 2 := by
  decide +kernel

end Demo
end Fastsim.Props
