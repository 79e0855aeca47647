import Verif.Model.LabelSim
import Verif.Props.Label
import Verif.Props.FuelSide
import Verif.Props.Real

set_option linter.unusedSectionVars false

/-!
# C87: the label of a vehicle, from its simulations
-/

namespace Fastsim.Props
open Fastsim Spec

section Field
variable {K : Type*} [Field K] [LinearOrder K] [IsStrictOrderedRing K] [FloorRing K]
variable {F : Fns K} {V : Veh K} {P : SimParams K}

/-- A trace at rest at first. -/
theorem restThen (f : ℕ → K) (v : K) (N : ℕ) (hN : 0 < N) :
    (match (List.range N).map f with
      | [] => []
      | t :: ts => ⟨t, 0, 0, 0⟩ :: ts.map fun x => ⟨x, v, 0, 0⟩ : Cyc K) =
    (List.range N).map fun k : ℕ => ⟨f k, if k = 0 then 0 else v, 0, 0⟩ := by
  obtain ⟨n, rfl⟩ : ∃ n, N = n + 1 := ⟨N - 1, by omega⟩
  rw [List.range_succ_eq_map]
  simp [Function.comp_def]

/-- The samples of the acceleration test. -/
theorem accelTrace_eq : (accelTrace : Cyc K) =
    (List.range 3000).map fun k : ℕ => ⟨(k : K) / 10, if k = 0 then 0 else 90 / mphPerMps, 0, 0⟩ := by
  have h : ⌈((300 : K) - 0) / (1 / 10)⌉.toNat = 3000 := by
    rw [show ((300 : K) - 0) / (1 / 10) = ((3000 : ℤ) : K) by norm_num, Int.ceil_intCast]; rfl
  have e : ∀ k : ℕ, (0 : K) + (k : K) * (1 / 10) = (k : K) / 10 := fun k => by ring
  unfold accelTrace arange
  rw [h]
  generalize hN : (3000 : ℕ) = N
  simp only [e]
  exact restThen (fun k : ℕ => (k : K) / 10) _ _ (by omega)

theorem accelTrace_length : (accelTrace : Cyc K).length = 3000 := by rw [accelTrace_eq]; simp

theorem accelTrace_get {k : ℕ} (hk : k < 3000) :
    (accelTrace : Cyc K)[k]? = some ⟨(k : K) / 10, if k = 0 then 0 else 90 / mphPerMps, 0, 0⟩ := by
  rw [accelTrace_eq, List.getElem?_map, List.getElem?_range hk]; rfl

theorem accelTrace_short : ShortSteps (accelTrace : Cyc K) := by
  intro j x y hx hy
  have hj : j + 1 < 3000 := by
    have := (List.getElem?_eq_some_iff.1 hy).1
    rwa [accelTrace_length] at this
  rw [accelTrace_get (by omega)] at hx
  rw [accelTrace_get hj] at hy
  obtain rfl := Option.some.inj hx
  obtain rfl := Option.some.inj hy
  have : ((j + 1 : ℕ) : K) / 10 - (j : K) / 10 = 1 / 10 := by push_cast; ring
  simp only [this]
  norm_num

theorem accelTrace_nonneg : SpeedsNonneg (accelTrace : Cyc K) := by
  intro x hx
  rw [accelTrace_eq, List.mem_map] at hx
  obtain ⟨k, -, rfl⟩ := hx
  simp only
  split
  · exact le_rfl
  · unfold mphPerMps; norm_num

/-- The start of the acceleration test lies in the window. -/
theorem accelTestSoc_mem (hw : V.minSoc ≤ V.maxSoc) : V.minSoc ≤ accelTestSoc V ∧ accelTestSoc V ≤ V.maxSoc := by
  unfold accelTestSoc
  split <;> constructor <;> linarith

omit [IsStrictOrderedRing K] in
/-- The acceleration test of a new simulation is a run from a given charge. -/
theorem accelTest_simDrive (c : Cyc K) :
    accelTest F (realHooks F V P) V P (Sim.new c) = simDrive F (realHooks F V P) V P (Sim.new c) (some (accelTestSoc V)) none := rfl

/-- Without car following and coasting a walk keeps the speeds of the trace. -/
theorem walk_speeds (hc : P.coastAllow = false) (hd : P.idmAllow = false) {s s' : Sim K} {soc : K} {aux : Option (List K)}
    (hs : s.cyc = s.cyc0) (h : walk F (realHooks F V P) V P s soc aux = .ok s') :
    Cyc.speeds s'.cyc = Cyc.speeds s.cyc0 := by
  have loop : ∀ (n : Nat) (s s' : Sim K), walkLoop F (realHooks F V P) V P n s = .ok s' →
      Cyc.speeds s'.cyc = Cyc.speeds s.cyc := by
    intro n
    induction n with
    | zero =>
      intro s s' h
      unfold walkLoop at h
      split at h
      · simp at h
      · rw [← Except.ok.inj h]
    | succ n ih =>
      intro s s' h
      unfold walkLoop at h
      split at h
      · rw [simDriveStep_eq hc hd] at h
        exact (ih _ _ h).trans (solveAndCorrect_corrects (F := F) (V := V) (P := P) s).speeds
      · rw [← Except.ok.inj h]
  unfold walk at h
  split at h
  · simp at h
  · rename_i s1 h1
    rw [loop _ _ _ h]
    unfold initForStep at h1
    split at h1
    · simp at h1
    · split at h1
      · simp at h1
      · rw [← Except.ok.inj h1]
        simp only [initState]
        split
        · rfl
        · rw [hs]

/-- **C57 (the test itself).** With a charge window that is not empty, the acceleration test of every vehicle completes; it has
3000 samples, a tenth of a second apart, starts at rest at time zero, and no speed is negative. -/
theorem C57_test (hw : V.minSoc ≤ V.maxSoc) (ht : P.idmAllow = true → P.idmByDistance ≠ some [])
    (hb : P.coastAllow = true → P.coastBrakeAccel < 0 ∧ P.missedTrace = false)
    (hco : P.coastAllow = true → 0 ≤ P.coastBrakeStartSpeed ∧ 0 ≤ P.coastMaxSpeed) :
    ∃ l, accelSpeeds F V P = .ok l ∧ l.length = 3000 ∧ l[0]? = some (0, 0) ∧
      ∀ k : ℕ, k < 3000 → ∃ v, l[k]? = some (v, (k : K) / 10) ∧ 0 ≤ v := by
  have hr : Runnable P (accelTrace : Cyc K) :=
    ⟨ht, fun e => (hb e).1, fun _ => accelTrace_short, fun e => (hb e).2⟩
  obtain ⟨s, hs, hf, hc⟩ := C51_run (F := F) (V := V) (P := P) (Sim.new accelTrace) rfl
    (by show 0 < (accelTrace : Cyc K).length; rw [accelTrace_length]; norm_num) (some (accelTestSoc V)) none hw
    (fun soc e => Or.inr (by obtain rfl := Option.some.inj e; exact accelTestSoc_mem hw)) (fun e => by simp at e) hr
  have hd := walk_done realHooks_local (s := { (Sim.new accelTrace : Sim K) with hevCount := 0 }) rfl
    (show walk F (realHooks F V P) V P _ (accelTestSoc V) none = .ok s from hs)
  have hlen : s.rows.length = 3000 := hd.lenRows.trans accelTrace_length
  have htl : (Cyc.times (accelTrace : Cyc K)).length = 3000 := by simp [Cyc.times, accelTrace_length]
  have h0 : SpeedsNonneg s.cyc0 := by rw [hc]; exact accelTrace_nonneg
  refine ⟨_, by unfold accelSpeeds; rw [accelTest_simDrive, hs], ?_, ?_, ?_⟩
  · simp [hlen, htl]
  · rw [List.getElem?_zip_eq_some]
    refine ⟨?_, ?_⟩
    · rw [List.getElem?_map, hd.row0]
      have : (Cyc.speeds (accelTrace : Cyc K)).getD 0 0 = 0 := by
        rw [List.getD_eq_getElem?_getD, Cyc.speeds, List.getElem?_map, accelTrace_get (by norm_num)]; rfl
      show some ((Cyc.speeds (accelTrace : Cyc K)).getD 0 0 * mphPerMps) = _
      rw [this, zero_mul]
    · rw [Cyc.times, List.getElem?_map, accelTrace_get (by norm_num)]; simp
  · intro k hk
    have hv : ∀ r ∈ s.rows, 0 ≤ r.ach.mpsAch := by
      refine C25_real_nonneg hco hf.reachable h0 fun hd hc' => ?_
      have e := walk_speeds hc' hd (s := { (Sim.new accelTrace : Sim K) with hevCount := 0 }) rfl
        (show walk F (realHooks F V P) V P _ (accelTestSoc V) none = .ok s from hs)
      intro x hx
      have : x.v ∈ Cyc.speeds s.cyc := List.mem_map.2 ⟨x, hx, rfl⟩
      rw [e] at this
      obtain ⟨y, hy, hxy⟩ := List.mem_map.1 this
      rw [← hxy]
      exact accelTrace_nonneg y hy
    have hr : s.rows[k]? = some (s.rows[k]'(by omega)) := List.getElem?_eq_getElem _
    have hm : (s.rows[k]'(by omega)).ach.mphAch = (s.rows[k]'(by omega)).ach.mpsAch * mphPerMps := by
      rcases Nat.eq_zero_or_pos k with rfl | hp
      · have := hd.row0
        rw [hr] at this
        rw [Option.some.inj this]; rfl
      · obtain ⟨E, st, -, -, -, e⟩ := hd.solved k hp (by
          show k < (accelTrace : Cyc K).length; rw [accelTrace_length]; exact hk)
        rw [hr] at e
        rw [Option.some.inj e]; rfl
    refine ⟨(s.rows[k]'(by omega)).ach.mphAch, ?_, ?_⟩
    · rw [List.getElem?_zip_eq_some]
      refine ⟨by rw [List.getElem?_map, hr]; rfl, ?_⟩
      rw [Cyc.times, List.getElem?_map, accelTrace_get hk]; rfl
    · rw [hm]
      refine mul_nonneg (hv _ (List.getElem_mem _)) ?_
      unfold mphPerMps; norm_num

/-- The number under `netAccel`. -/
theorem reads_netAccel {c : LabelConst K} {tbl : List (K × K)} {veh : LabelVeh K}
    {sim : LabelCyc → Option K → Except PyErr (LabelRun K)} {l : List (K × K)} {out : PyDict (LabelVal K)}
    (h : getLabelFe c tbl veh sim (.ok l) = .ok out) : Reads out "netAccel" (netAccel l) := by
  unfold getLabelFe at h
  obtain ⟨u, hu, h⟩ := bind_ok' h
  obtain ⟨hw, hh, h⟩ := bind_ok' h
  obtain ⟨d, hd, h⟩ := bind_ok' h
  obtain ⟨a', ha, h⟩ := bind_ok' h
  obtain rfl := Except.ok.inj ha
  rw [← Except.ok.inj h]
  simp only [Reads, setNums, List.foldl, PyDict.get?_set]
  rw [if_neg (by decide)]
  simp

/-- **C87 (conventional vehicles have a label).** The simulations a label needs complete for every conventional vehicle whose
charge window is not empty, on any two cycles of at least one sample. -/
theorem C87_completes (hpt : V.ptType = .conv) (hw : V.minSoc ≤ V.maxSoc) {udds hwy : Cyc K} (hu : 0 < udds.length)
    (hh : 0 < hwy.length) (hru : Runnable P udds) (hrh : Runnable P hwy)
    (hco : P.coastAllow = true → 0 ≤ P.coastBrakeStartSpeed ∧ 0 ≤ P.coastMaxSpeed) :
    ∃ su sh acc, simDrive F (realHooks F V P) V P (Sim.new udds) none none = .ok su ∧
      simDrive F (realHooks F V P) V P (Sim.new hwy) none none = .ok sh ∧ accelSpeeds F V P = .ok acc := by
  have hn : V.ptType ≠ .hev := by rw [hpt]; decide
  obtain ⟨su, h1, -⟩ := C51_run (F := F) (V := V) (P := P) (Sim.new udds) rfl hu none none hw (fun _ e => by simp at e)
    (fun _ => hn) hru
  obtain ⟨sh, h2, -⟩ := C51_run (F := F) (V := V) (P := P) (Sim.new hwy) rfl hh none none hw (fun _ e => by simp at e)
    (fun _ => hn) hrh
  obtain ⟨acc, h3, -⟩ := C57_test (F := F) (V := V) (P := P) hw hru.table (fun e => ⟨hru.brake e, hru.miss e⟩) hco
  exact ⟨su, sh, acc, h1, h2, h3⟩

/-- **C87 (fuel economy).** The label of a conventional or hybrid vehicle that burns fuel on both cycles: laboratory economies are
the miles driven over the gallon equivalents burnt in the simulations, and the combined one gives the gallons for 55 miles of the
first and 45 of the second cycle. -/
theorem C87_mpg {c : LabelConst K} {tbl : List (K × K)} {veh : LabelVeh K} {udds hwy : Cyc K} {su sh : Sim K}
    {acc : List (K × K)} (hpt : veh.ptType = .conv ∨ veh.ptType = .hev) (hg : 0 < c.kwhPerGge)
    (hu : simDrive F (realHooks F V P) V P (Sim.new udds) none none = .ok su)
    (hh : simDrive F (realHooks F V P) V P (Sim.new hwy) none none = .ok sh) (ha : accelSpeeds F V P = .ok acc)
    (fu : 0 < totalFuelKwh su) (fh : 0 < totalFuelKwh sh) (mu : 0 < totalMiles su) (mh : 0 < totalMiles sh) :
    ∃ out lc, vehicleLabel F V P c tbl veh udds hwy = .ok out ∧
      Reads out "labUddsMpgge" (totalMiles su / (totalFuelKwh su / c.kwhPerGge)) ∧
      Reads out "labHwyMpgge" (totalMiles sh / (totalFuelKwh sh / c.kwhPerGge)) ∧
      Reads out "labCombMpgge" lc ∧ Reads out "netAccel" (netAccel acc) ∧
      100 / lc = 55 * (totalFuelKwh su / c.kwhPerGge) / totalMiles su + 45 * (totalFuelKwh sh / c.kwhPerGge) / totalMiles sh := by
  have eu : labelSim F V P c udds hwy .udds none = .ok (labelRun c.kwhPerGge V su) := by unfold labelSim; simp only [hu]
  have eh : labelSim F V P c udds hwy .hwy none = .ok (labelRun c.kwhPerGge V sh) := by unfold labelSim; simp only [hh]
  have ku : (labelRun c.kwhPerGge V su).mpgge = totalMiles su / (totalFuelKwh su / c.kwhPerGge) := if_neg fu.ne'
  have kh : (labelRun c.kwhPerGge V sh).mpgge = totalMiles sh / (totalFuelKwh sh / c.kwhPerGge) := if_neg fh.ne'
  obtain ⟨out, lc, -, -, -, r1, r2, r3, r4, -, -, -, r5, -⟩ := C40_mpg (c := c) (tbl := tbl) (acc := acc) hpt eu eh
    (by rw [ku]; exact div_pos mu (div_pos fu hg)) (by rw [kh]; exact div_pos mh (div_pos fh hg))
  rw [ku] at r2 r5
  rw [kh] at r3 r5
  refine ⟨out, lc, by unfold vehicleLabel; rw [ha]; exact r1, r2, r3, r4, reads_netAccel r1, ?_⟩
  rw [r5, div_div_eq_mul_div, div_div_eq_mul_div]

/-- **C87 (no fuel).** A conventional or hybrid vehicle that burns nothing on one of the cycles has no label. -/
theorem C87_no_fuel {c : LabelConst K} {tbl : List (K × K)} {veh : LabelVeh K} {udds hwy : Cyc K} {su sh : Sim K}
    (hpt : veh.ptType = .conv ∨ veh.ptType = .hev)
    (hu : simDrive F (realHooks F V P) V P (Sim.new udds) none none = .ok su)
    (hh : simDrive F (realHooks F V P) V P (Sim.new hwy) none none = .ok sh)
    (h0 : totalFuelKwh su = 0 ∨ totalFuelKwh sh = 0) :
    vehicleLabel F V P c tbl veh udds hwy = .error .zeroDivision := by
  refine C40_no_fuel (u := labelRun c.kwhPerGge V su) (h := labelRun c.kwhPerGge V sh) hpt
    (by unfold labelSim; simp only [hu]) (by unfold labelSim; simp only [hh]) ?_
  exact h0.imp (fun e => if_pos e) (fun e => if_pos e)

/-- The acceleration test is the same for every efficiency curve. -/
theorem accelSpeeds_fuelSide (eff : List K) (fsMax fsSecs : K) :
    accelSpeeds F (withFuelSide V eff fsMax fsSecs) P = accelSpeeds F V P := by
  have q := C84_same_drive (F := F) (V := V) (P := P) eff fsMax fsSecs (Sim.new accelTrace) (some (accelTestSoc V)) none
    (Or.inr (by simp))
  have ev : accelTestSoc (withFuelSide V eff fsMax fsSecs) = accelTestSoc V := rfl
  unfold accelSpeeds
  rw [accelTest_simDrive, accelTest_simDrive, ev]
  generalize simDrive F (realHooks F V P) V P (Sim.new accelTrace) (some (accelTestSoc V)) none = x at q
  generalize simDrive F (realHooks F (withFuelSide V eff fsMax fsSecs) P) (withFuelSide V eff fsMax fsSecs) P
    (Sim.new accelTrace) (some (accelTestSoc V)) none = y at q
  cases x <;> cases y <;> simp only [SameRun] at q
  · rw [q]
  · have := congrArg (List.map fun r : Row K => r.ach.mphAch) q.1
    simp only [List.map_map] at this
    have e : ((fun r : Row K => r.ach.mphAch) ∘ withoutFuel) = fun r : Row K => r.ach.mphAch := rfl
    rw [e] at this
    simp only [this]

/-- **C87 (peak efficiency).** Setting another peak efficiency of the engine of a conventional vehicle multiplies its laboratory
fuel economies by new over old peak and leaves its time to 60 mph as it is; the adjusted economies of a better engine improve, but
by less than that factor. -/
theorem C87_peak {o : VehObj K} {V V' : Veh K} {x : K} (hx : 0 < x) (hp : 0 < o.fcPeak) (hv : o.view = .ok V)
    (hv' : (o.setFcPeak x).view = .ok V') {c : LabelConst K} {tbl : List (K × K)} {veh : LabelVeh K} {udds hwy : Cyc K}
    (hV : V.ptType = .conv) (hpt : veh.ptType = .conv) (hg : 0 < c.kwhPerGge) {su sh su' sh' : Sim K} {acc : List (K × K)}
    (hu : simDrive F (realHooks F V P) V P (Sim.new udds) none none = .ok su)
    (hh : simDrive F (realHooks F V P) V P (Sim.new hwy) none none = .ok sh)
    (hu' : simDrive F (realHooks F V' P) V' P (Sim.new udds) none none = .ok su')
    (hh' : simDrive F (realHooks F V' P) V' P (Sim.new hwy) none none = .ok sh') (ha : accelSpeeds F V P = .ok acc)
    (fu : 0 < totalFuelKwh su) (fh : 0 < totalFuelKwh sh) (mu : 0 < totalMiles su) (mh : 0 < totalMiles sh) :
    ∃ out out' lu lh lc lc' au ah au' ah' t,
      vehicleLabel F V P c tbl veh udds hwy = .ok out ∧ vehicleLabel F V' P c tbl veh udds hwy = .ok out' ∧
      Reads out "labUddsMpgge" lu ∧ Reads out' "labUddsMpgge" (lu * (x / o.fcPeak)) ∧
      Reads out "labHwyMpgge" lh ∧ Reads out' "labHwyMpgge" (lh * (x / o.fcPeak)) ∧
      Reads out "labCombMpgge" lc ∧ Reads out' "labCombMpgge" lc' ∧ lc' = lc * (x / o.fcPeak) ∧
      Reads out "netAccel" t ∧ Reads out' "netAccel" t ∧
      Reads out "adjUddsMpgge" au ∧ Reads out' "adjUddsMpgge" au' ∧ Reads out "adjHwyMpgge" ah ∧ Reads out' "adjHwyMpgge" ah' ∧
      (o.fcPeak < x → au < au' ∧ au' < au * (x / o.fcPeak) ∧ ah < ah' ∧ ah' < ah * (x / o.fcPeak)) := by
  have hn : V.ptType ≠ .hev ∨ (none : Option K) ≠ none := Or.inl (by rw [hV]; decide)
  have hr : 0 < x / o.fcPeak := div_pos hx hp
  obtain ⟨-, -, -, qu⟩ := C84_peak (F := F) (P := P) hx hp hv hv' hn rfl hu hu' c.kwhPerGge
  obtain ⟨-, -, -, qh⟩ := C84_peak (F := F) (P := P) hx hp hv hv' hn rfl hh hh' c.kwhPerGge
  have ha' : accelSpeeds F V' P = .ok acc := by rw [setFcPeak_view hx hp hv hv', accelSpeeds_fuelSide, ha]
  have eu : labelSim F V P c udds hwy .udds none = .ok (labelRun c.kwhPerGge V su) := by unfold labelSim; simp only [hu]
  have eh : labelSim F V P c udds hwy .hwy none = .ok (labelRun c.kwhPerGge V sh) := by unfold labelSim; simp only [hh]
  have eu' : labelSim F V' P c udds hwy .udds none = .ok (labelRun c.kwhPerGge V' su') := by unfold labelSim; simp only [hu']
  have eh' : labelSim F V' P c udds hwy .hwy none = .ok (labelRun c.kwhPerGge V' sh') := by unfold labelSim; simp only [hh']
  have pu : 0 < mpgge c.kwhPerGge su := by
    unfold mpgge; rw [if_neg fu.ne']; exact div_pos mu (div_pos fu hg)
  have ph : 0 < mpgge c.kwhPerGge sh := by
    unfold mpgge; rw [if_neg fh.ne']; exact div_pos mh (div_pos fh hg)
  obtain ⟨out, lc, au, ah, ac, r1, r2, r3, r4, r5, r6, -, r7, -, r8, -, -, r9, -, r10, -⟩ :=
    C40_mpg (c := c) (tbl := tbl) (acc := acc) (Or.inl hpt) eu eh pu ph
  obtain ⟨out', lc', au', ah', ac', s1, s2, s3, s4, s5, s6, -, s7, -, s8, -, -, s9, -, s10, -⟩ :=
    C40_mpg (c := c) (tbl := tbl) (acc := acc) (Or.inl hpt) eu' eh'
      (by show 0 < mpgge c.kwhPerGge su'; rw [qu]; exact mul_pos pu hr)
      (by show 0 < mpgge c.kwhPerGge sh'; rw [qh]; exact mul_pos ph hr)
  have k1 : ∀ s : Sim K, ∀ W : Veh K, (labelRun c.kwhPerGge W s).mpgge = mpgge c.kwhPerGge s := fun _ _ => rfl
  rw [k1] at r2 r3 s2 s3
  simp only [k1] at r7 r8 s7 s8
  rw [qu] at s2
  rw [qh] at s3
  rw [qu, qh] at s7 s8
  set mu' := mpgge c.kwhPerGge su
  set mh' := mpgge c.kwhPerGge sh
  set r := x / o.fcPeak with hrdef
  have hc1 : lc' = lc * r := by
    have e : 100 / lc' = 100 / lc / r := by rw [s7, r7]; field_simp
    have p : 0 < 100 / lc := by rw [r7]; exact add_pos (div_pos (by norm_num) pu) (div_pos (by norm_num) ph)
    have hl : lc ≠ 0 := by rintro rfl; simp at p
    have p' : 0 < 100 / lc' := by rw [e]; exact div_pos p hr
    have hl' : lc' ≠ 0 := by rintro rfl; simp at p'
    have hr' := hr.ne'
    field_simp at e
    linarith
  have adj : 1 < r → ∀ {i s m a a' : K}, 0 < i → 0 < s → 0 < m → 0 < a → 0 < a' → 1 / a = i + s / m →
      1 / a' = i + s / (m * r) → a < a' ∧ a' < a * r := by
    intro h1 i s m a a' hi hs hm h2 h3 h4 h5
    have hq : s / (m * r) = s / m / r := by rw [div_div]
    have hlt : s / m / r < s / m := div_lt_self (div_pos hs hm) h1
    refine ⟨(one_div_lt_one_div h3 h2).1 (by rw [h4, h5, hq]; linarith), ?_⟩
    refine (one_div_lt_one_div (mul_pos h2 hr) h3).1 ?_
    rw [← div_div, h4, h5, hq, add_div]
    have := div_lt_self hi h1
    linarith
  refine ⟨out, out', mu', mh', lc, lc', au, ah, au', ah', netAccel acc, by unfold vehicleLabel; rw [ha]; exact r1,
    by unfold vehicleLabel; rw [ha']; exact s1, r2, s2, r3, s3, r4, s4, hc1, reads_netAccel r1, reads_netAccel s1,
    r5, s5, r6, s6, fun hlt => ?_⟩
  have h1 : 1 < r := (one_lt_div hp).2 hlt
  by_cases hy : veh.vehYear < 2017
  · rw [if_pos hy] at r8 s8
    obtain ⟨y1, y2⟩ := adj h1 (by norm_num) (by norm_num) pu r9 s9 r8.1 s8.1
    obtain ⟨y3, y4⟩ := adj h1 (by norm_num) (by norm_num) ph r10 s10 r8.2 s8.2
    exact ⟨y1, y2, y3, y4⟩
  · rw [if_neg hy] at r8 s8
    obtain ⟨y1, y2⟩ := adj h1 (by norm_num) (by norm_num) pu r9 s9 r8.1 s8.1
    obtain ⟨y3, y4⟩ := adj h1 (by norm_num) (by norm_num) ph r10 s10 r8.2 s8.2
    exact ⟨y1, y2, y3, y4⟩

/-- **C87 (better engine).** An engine whose efficiency is nowhere worse lowers no economy on the label of a conventional vehicle
and leaves the time to 60 mph as it is. -/
theorem C87_better {eff : List K} (hb : List.Forall₂ (fun a b => 0 < a ∧ a ≤ b) V.fcEffArray eff) (hE : EngineOk V)
    (fsMax fsSecs : K) {c : LabelConst K} {tbl : List (K × K)} {veh : LabelVeh K} {udds hwy : Cyc K}
    (hV : V.ptType = .conv) (hpt : veh.ptType = .conv) (hg : 0 < c.kwhPerGge) {su sh su' sh' : Sim K} {acc : List (K × K)}
    (hu : simDrive F (realHooks F V P) V P (Sim.new udds) none none = .ok su)
    (hh : simDrive F (realHooks F V P) V P (Sim.new hwy) none none = .ok sh)
    (hu' : simDrive F (realHooks F (withFuelSide V eff fsMax fsSecs) P) (withFuelSide V eff fsMax fsSecs) P (Sim.new udds)
      none none = .ok su')
    (hh' : simDrive F (realHooks F (withFuelSide V eff fsMax fsSecs) P) (withFuelSide V eff fsMax fsSecs) P (Sim.new hwy)
      none none = .ok sh') (ha : accelSpeeds F V P = .ok acc) (du : DtNonneg su) (dh : DtNonneg sh)
    (fu : 0 < totalFuelKwh su') (fh : 0 < totalFuelKwh sh') (mu : 0 < totalMiles su) (mh : 0 < totalMiles sh) :
    ∃ out out' t, vehicleLabel F V P c tbl veh udds hwy = .ok out ∧
      vehicleLabel F (withFuelSide V eff fsMax fsSecs) P c tbl veh udds hwy = .ok out' ∧
      Reads out "netAccel" t ∧ Reads out' "netAccel" t ∧
      ∀ k ∈ ["labUddsMpgge", "labHwyMpgge", "labCombMpgge", "adjUddsMpgge", "adjHwyMpgge", "adjCombMpgge"],
        ∃ x x', Reads out k x ∧ Reads out' k x' ∧ 0 < x ∧ x ≤ x' := by
  have hn : V.ptType ≠ .hev ∨ (none : Option K) ≠ none := Or.inl (by rw [hV]; decide)
  obtain ⟨-, u1, u2, u3⟩ := C84_better (F := F) (P := P) hb hE fsMax fsSecs hn rfl hu hu' du
  obtain ⟨-, g1, g2, g3⟩ := C84_better (F := F) (P := P) hb hE fsMax fsSecs hn rfl hh hh' dh
  have qu := u3 c.kwhPerGge hg mu.le fu
  have qh := g3 c.kwhPerGge hg mh.le fh
  have fu0 := fu.trans_le u1
  have fh0 := fh.trans_le g1
  have ha' : accelSpeeds F (withFuelSide V eff fsMax fsSecs) P = .ok acc := by rw [accelSpeeds_fuelSide, ha]
  have eu : labelSim F V P c udds hwy .udds none = .ok (labelRun c.kwhPerGge V su) := by unfold labelSim; simp only [hu]
  have eh : labelSim F V P c udds hwy .hwy none = .ok (labelRun c.kwhPerGge V sh) := by unfold labelSim; simp only [hh]
  generalize hW : withFuelSide V eff fsMax fsSecs = W at *
  have eu' : labelSim F W P c udds hwy .udds none = .ok (labelRun c.kwhPerGge W su') := by unfold labelSim; simp only [hu']
  have eh' : labelSim F W P c udds hwy .hwy none = .ok (labelRun c.kwhPerGge W sh') := by unfold labelSim; simp only [hh']
  have pu : 0 < mpgge c.kwhPerGge su := by
    unfold mpgge; rw [if_neg fu0.ne']; exact div_pos mu (div_pos fu0 hg)
  have ph : 0 < mpgge c.kwhPerGge sh := by
    unfold mpgge; rw [if_neg fh0.ne']; exact div_pos mh (div_pos fh0 hg)
  obtain ⟨out, lc, au, ah, ac, r1, r2, r3, r4, r5, r6, r7, r8, r9, r10, l1, -, p1, -, p2, -, p3, -⟩ :=
    C40_mpg (c := c) (tbl := tbl) (acc := acc) (Or.inl hpt) eu eh pu ph
  obtain ⟨out', lc', au', ah', ac', s1, s2, s3, s4, s5, s6, s7, s8, s9, s10, l1', -, q1, -, q2, -, q3, -⟩ :=
    C40_mpg (c := c) (tbl := tbl) (acc := acc) (Or.inl hpt) eu' eh' (pu.trans_le qu) (ph.trans_le qh)
  have k1 : ∀ s : Sim K, ∀ X : Veh K, (labelRun c.kwhPerGge X s).mpgge = mpgge c.kwhPerGge s := fun _ _ => rfl
  rw [k1] at r2 r3 s2 s3
  simp only [k1] at r8 r10 s8 s10 l1 l1'
  generalize mpgge c.kwhPerGge su = x at *
  generalize mpgge c.kwhPerGge sh = y at *
  generalize mpgge c.kwhPerGge su' = x' at *
  generalize mpgge c.kwhPerGge sh' = y' at *
  have inv : ∀ {a a' : K}, 0 < a → 0 < a' → 1 / a' ≤ 1 / a → a ≤ a' := fun h1 h2 h => (one_div_le_one_div h2 h1).1 h
  have adj : ∀ {i s m m' a a' : K}, 0 < s → 0 < m → m ≤ m' → 0 < a → 0 < a' → 1 / a = i + s / m →
      1 / a' = i + s / m' → a ≤ a' := by
    intro i s m m' a a' hs hm hmm h1 h2 e1 e2
    refine inv h1 h2 ?_
    rw [e1, e2]
    have := div_le_div_of_nonneg_left hs.le hm hmm
    linarith
  have comb : ∀ {m n m' n' z z' : K}, 0 < m → 0 < n → m ≤ m' → n ≤ n' → 0 < z → 0 < z' → 100 / z = 55 / m + 45 / n →
      100 / z' = 55 / m' + 45 / n' → z ≤ z' := by
    intro m n m' n' z z' hm hn' h1 h2 hz hz' e1 e2
    refine inv hz hz' ?_
    have a1 := div_le_div_of_nonneg_left (show (0 : K) ≤ 55 by norm_num) hm h1
    have a2 := div_le_div_of_nonneg_left (show (0 : K) ≤ 45 by norm_num) hn' h2
    have e : 100 / z' ≤ 100 / z := by rw [e1, e2]; linarith
    rw [div_eq_mul_one_div, div_eq_mul_one_div (100 : K) z] at e
    linarith
  have hau : au ≤ au' ∧ ah ≤ ah' := by
    by_cases hy : veh.vehYear < 2017
    · rw [if_pos hy] at r10 s10
      exact ⟨adj (by norm_num) pu qu p1 q1 r10.1 s10.1, adj (by norm_num) ph qh p2 q2 r10.2 s10.2⟩
    · rw [if_neg hy] at r10 s10
      exact ⟨adj (by norm_num) pu qu p1 q1 r10.1 s10.1, adj (by norm_num) ph qh p2 q2 r10.2 s10.2⟩
  have lp : 0 < lc := (lt_min pu ph).trans_le l1.1
  have lp' : 0 < lc' := (lt_min (pu.trans_le qu) (ph.trans_le qh)).trans_le l1'.1
  refine ⟨out, out', netAccel acc, by unfold vehicleLabel; rw [ha]; exact r1, by unfold vehicleLabel; rw [ha']; exact s1,
    reads_netAccel r1, reads_netAccel s1, ?_⟩
  intro k hk
  simp only [List.mem_cons, List.not_mem_nil, or_false] at hk
  rcases hk with rfl | rfl | rfl | rfl | rfl | rfl
  · exact ⟨x, x', r2, s2, pu, qu⟩
  · exact ⟨y, y', r3, s3, ph, qh⟩
  · exact ⟨lc, lc', r4, s4, lp, comb pu ph qu qh lp lp' r8 s8⟩
  · exact ⟨au, au', r5, s5, p1, hau.1⟩
  · exact ⟨ah, ah', r6, s6, p2, hau.2⟩
  · exact ⟨ac, ac', r7, s7, p3, comb p1 p2 hau.1 hau.2 p3 q3 r9 s9⟩

/-- **C87 (battery-electric vehicles).** Laboratory energy uses are the charge taken from the battery in the simulations per mile,
and the range is what the battery holds over the combined adjusted use. -/
theorem C87_bev {c : LabelConst K} {tbl : List (K × K)} {veh : LabelVeh K} {udds hwy : Cyc K} {su sh : Sim K}
    {acc : List (K × K)} (hpt : veh.ptType = .bev) (hk : veh.essMaxKwh = V.essMaxKwh) (hk0 : 0 < V.essMaxKwh)
    (hg : 0 < c.kwhPerGge) (ha0 : 0 ≤ c.maxEpaAdj) (ha1 : c.maxEpaAdj < 1) (hc : 0 < c.chgEff)
    (hu : simDrive F (realHooks F V P) V P (Sim.new udds) none none = .ok su)
    (hh : simDrive F (realHooks F V P) V P (Sim.new hwy) none none = .ok sh) (ha : accelSpeeds F V P = .ok acc)
    (mu : 0 < totalMiles su) (mh : 0 < totalMiles sh) (du : su.lastRow.dec.soc < su.firstRow.dec.soc)
    (dh : sh.lastRow.dec.soc < sh.firstRow.dec.soc) :
    ∃ out ec rng, vehicleLabel F V P c tbl veh udds hwy = .ok out ∧
      Reads out "labUddsKwhPerMile" ((su.firstRow.dec.soc - su.lastRow.dec.soc) * V.essMaxKwh / totalMiles su) ∧
      Reads out "labHwyKwhPerMile" ((sh.firstRow.dec.soc - sh.lastRow.dec.soc) * V.essMaxKwh / totalMiles sh) ∧
      Reads out "adjCombEssKwhPerMile" ec ∧ Reads out "netRangeMiles" rng ∧ rng * ec = V.essMaxKwh ∧
      Reads out "labCombMpgge" 0 ∧ Reads out "netAccel" (netAccel acc) := by
  have eu : labelSim F V P c udds hwy .udds none = .ok (labelRun c.kwhPerGge V su) := by unfold labelSim; simp only [hu]
  have eh : labelSim F V P c udds hwy .hwy none = .ok (labelRun c.kwhPerGge V sh) := by unfold labelSim; simp only [hh]
  have key : ∀ s : Sim K, 0 < totalMiles s → (labelRun c.kwhPerGge V s).kwhPerMi =
      (s.firstRow.dec.soc - s.lastRow.dec.soc) * V.essMaxKwh / totalMiles s := by
    intro s hm
    show batteryKwhPerMi V s = _
    unfold batteryKwhPerMi essDischgKj
    rw [if_pos hm]
    ring
  obtain ⟨out, _, _, ec, rng, r1, r2, r3, r4, -, -, -, r5, -, -, -, r6, -, r7, -⟩ := C40_bev (c := c) (tbl := tbl) (acc := acc)
    hg ha0 ha1 hc hpt eu eh (by rw [key su mu]; exact div_pos (mul_pos (sub_pos.2 du) hk0) mu)
    (by rw [key sh mh]; exact div_pos (mul_pos (sub_pos.2 dh) hk0) mh)
  rw [key su mu] at r3
  rw [key sh mh] at r4
  exact ⟨out, ec, rng, by unfold vehicleLabel; rw [ha]; exact r1, r3, r4, r5, r6, by rw [r7, hk], r2 _ (by simp),
    reads_netAccel r1⟩

end Field

/-! ### Concrete cases -/

open Demo

/-- A second cycle. -/
def demoHwy : Cyc ℚ := [⟨0, 0, 0, 0⟩, ⟨1, 3, 0, 0⟩, ⟨2, 6, 0, 0⟩, ⟨4, 8, 0, 0⟩, ⟨5, 8, 0, 0⟩]

theorem params_runnable (c : Cyc ℚ) : Runnable params c :=
  ⟨fun h => by simp [params] at h, fun h => by simp [params] at h, fun h => by simp [params] at h,
    fun h => by simp [params] at h⟩

/-- What the theorems ask of the runs: the conventional demo car and its version with another peak efficiency burn fuel on both
cycles, the battery-electric one discharges. -/
theorem C87_demo_runs :
    (match convObj.setDerived with
      | .ok o =>
        (match o.view, (o.setFcPeak (2 / 5)).view with
          | .ok V, .ok V' => decide (V.ptType = .conv) && decide (0 < o.fcPeak) && decide (o.fcPeak < 2 / 5) &&
            decide (V.minSoc ≤ V.maxSoc) &&
            (match simDrive fns (realHooks fns V params) V params (Sim.new cyc) none none,
                simDrive fns (realHooks fns V params) V params (Sim.new demoHwy) none none,
                simDrive fns (realHooks fns V' params) V' params (Sim.new cyc) none none,
                simDrive fns (realHooks fns V' params) V' params (Sim.new demoHwy) none none with
              | .ok t, .ok h, .ok _, .ok _ => decide (0 < totalFuelKwh t) && decide (0 < totalFuelKwh h) &&
                  decide (0 < totalMiles t) && decide (0 < totalMiles h)
              | _, _, _, _ => false)
          | _, _ => false)
      | .error _ => false) = true := by
  decide +kernel

/-- The label of the conventional demo car exists and has the economies of its simulations. -/
theorem C87_demo : ∃ su sh out lc, simDrive fns (realHooks fns conv params) conv params (Sim.new cyc) none none = .ok su ∧
    simDrive fns (realHooks fns conv params) conv params (Sim.new demoHwy) none none = .ok sh ∧
    vehicleLabel fns conv params labelConst [] (demoVeh .conv) cyc demoHwy = .ok out ∧
    Reads out "labUddsMpgge" (totalMiles su / (totalFuelKwh su / labelConst.kwhPerGge)) ∧ Reads out "labCombMpgge" lc ∧
    0 < totalFuelKwh su ∧ 0 < totalFuelKwh sh := by
  obtain ⟨su, sh, acc, h1, h2, h3⟩ := C87_completes (F := fns) (V := conv) (P := params) (udds := cyc) (hwy := demoHwy) rfl
    (by decide +kernel) (by decide) (by decide) (params_runnable _) (params_runnable _) (fun h => by simp [params] at h)
  have hall : (match simDrive fns (realHooks fns conv params) conv params (Sim.new cyc) none none,
      simDrive fns (realHooks fns conv params) conv params (Sim.new demoHwy) none none with
    | .ok t, .ok h => decide (0 < totalFuelKwh t ∧ 0 < totalFuelKwh h ∧ 0 < totalMiles t ∧ 0 < totalMiles h)
    | _, _ => false) = true := by decide +kernel
  rw [h1, h2] at hall
  obtain ⟨f1, f2, m1, m2⟩ := of_decide_eq_true hall
  obtain ⟨out, lc, r1, r2, -, r3, -⟩ := C87_mpg (c := labelConst) (tbl := []) (veh := demoVeh .conv) (Or.inl rfl)
    (by decide +kernel) h1 h2 h3 f1 f2 m1 m2
  exact ⟨su, sh, out, lc, h1, h2, r1, r2, r3, f1, f2⟩

/-- The thrifty demo car meets what `C87_better` asks. -/
theorem C87_demo_better : EngineOk conv ∧
    List.Forall₂ (fun a b => 0 < a ∧ a ≤ b) conv.fcEffArray [1 / 10, 1 / 4, 2 / 5, 2 / 5] ∧
    thrifty = withFuelSide conv [1 / 10, 1 / 4, 2 / 5, 2 / 5] 40 2 ∧
    (match simDrive fns (realHooks fns conv params) conv params (Sim.new cyc) none none,
        simDrive fns (realHooks fns conv params) conv params (Sim.new demoHwy) none none,
        simDrive fns (realHooks fns thrifty params) thrifty params (Sim.new cyc) none none,
        simDrive fns (realHooks fns thrifty params) thrifty params (Sim.new demoHwy) none none with
      | .ok t, .ok h, .ok t', .ok h' => decide ((∀ i, i < t.i → 1 ≤ i → 0 ≤ dtAt t.cyc i) ∧
          (∀ i, i < h.i → 1 ≤ i → 0 ≤ dtAt h.cyc i) ∧ 0 < totalFuelKwh t' ∧ 0 < totalFuelKwh h' ∧ 0 < totalMiles t ∧
          0 < totalMiles h ∧ totalFuelKwh t' < totalFuelKwh t)
      | _, _, _, _ => false) = true :=
  ⟨C84_demo.1, C84_demo.2.1, rfl, by decide +kernel⟩

/-- The battery-electric demo car drives both cycles and discharges on each. -/
theorem C87_demo_bev :
    (match simDrive fns (realHooks fns bev params) bev params (Sim.new cyc) none none,
        simDrive fns (realHooks fns bev params) bev params (Sim.new demoHwy) none none with
      | .ok t, .ok h => decide (0 < totalMiles t ∧ 0 < totalMiles h ∧ t.lastRow.dec.soc < t.firstRow.dec.soc ∧
          h.lastRow.dec.soc < h.firstRow.dec.soc ∧ 0 < bev.essMaxKwh ∧ bev.minSoc ≤ bev.maxSoc)
      | _, _ => false) = true := by
  decide +kernel

end Fastsim.Props
