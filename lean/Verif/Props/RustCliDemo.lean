import Verif.Props.RustCliMain
import Verif.Props.RustLabelSim

/-!
# C107: concrete cases
-/

namespace Fastsim.Props
open Fastsim Fastsim.Spec Demo

/-- The split of a run of three steps: three kWh of fuel, of which a quarter, a half and three quarters are hydrogen. -/
theorem C107_split_demo : h2Diesel (20 : ℚ) 100 (337 / 10) [0, 50, 200] [1, 1, 1] [0, 1] [1 / 4, 3 / 4] =
    .ok ⟨3 / 2, 15 / 337, 20 / (15 / 337), 3 / 2, 30 / 759, 15 / 337, 20 / (30 / 759)⟩ := by decide +kernel

/-- The table of this case meets the hypotheses of `C107_table` and `C107_share`. -/
theorem C107_table_found : ([0, 1] : List ℚ).Pairwise (· < ·) ∧ (∀ y ∈ ([1 / 4, 3 / 4] : List ℚ), 1 / 4 ≤ y ∧ y ≤ 3 / 4) ∧
    ∀ x ∈ ([1, 1, 1] : List ℚ), 0 ≤ x := by decide +kernel

/-- A table of a single point is met by `C107_flat_table`. -/
theorem C107_flat_found : h2Diesel (20 : ℚ) 100 (337 / 10) [0] [1] [1] [1 / 4] = .error .panic :=
  C107_flat_table _ _ _ rfl rfl (by simp) (a := 1) rfl (by simp)

theorem labelFe_accel {c : LabelConst ℚ} {tbl : List (ℚ × ℚ)} {veh : LabelVeh ℚ}
    {sim : LabelCyc → Option ℚ → Except RsErr (RsLabelRun ℚ)} {accel : Except RsErr (List ℚ × List ℚ)} {r : RsLabelFe ℚ}
    (h : rsGetLabelFe c tbl veh sim accel = .ok r) : ∃ a x, accel = .ok a ∧ rsNetAccel a.1 a.2 = .ok x := by
  cases accel with
  | error e =>
    unfold rsGetLabelFe at h
    simp only [bind, Except.bind] at h
    exfalso
    repeat' (first | cases h | split at h)
  | ok a =>
    cases hx : rsNetAccel a.1 a.2 with
    | ok x => exact ⟨a, x, rfl, hx⟩
    | error e =>
      unfold rsGetLabelFe at h
      simp only [bind, Except.bind, hx] at h
      exfalso
      repeat' (first | cases h | split at h)

theorem adoptHd_ok {F : Fns ℚ} {H : RsHooks ℚ} {T : MissTols ℚ} {veh : CliVeh ℚ}
    {tables : Option (List ℚ) × Option (List ℚ)} {c : Cyc ℚ} {s : Sim ℚ} {p : RsPost ℚ} {a : List ℚ × List ℚ} {x g : ℚ}
    {q : Option (H2Diesel ℚ)} (hg : (rsLabelConst : LabelConst ℚ).kwhPerGge = g)
    (hp : rsSimDrive F H veh.sim rsNewParams T g (Sim.new c) none none = .ok (s, p))
    (ha : rsAccelSpeeds F H veh.sim T rsLabelConst = .ok a) (hx : rsNetAccel a.1 a.2 = .ok x)
    (hq : splitOf tables (fun perc share => h2Diesel (rsSum (s.rows.map fun r => r.ach.distMi)) veh.sim.fcMaxKw g
      (s.rows.map fun r => r.fc.fcKwOutAch) (s.rows.map fun r => r.fc.fsKwhOutAch) perc share) = .ok q) :
    ∃ r, adoptHdRun F H T veh tables c = .ok r ∧ r.h2AndDiesel = q := by
  unfold adoptHdRun cliRun
  simp only [hg, hp, ha, hx, hq]
  exact ⟨_, rfl, rfl⟩

theorem rocket_run (T : MissTols ℚ) : ∃ t p,
    rsSimDrive fns rsNoHooks rocket rsNewParams T (337 / 10) (Sim.new cyc) none none = .ok (t, p) ∧ 0 < totalFuelKwh t := by
  have hall : (match simDrive fns (realHooks fns rocket newParams) rocket newParams (Sim.new cyc) none none with
    | .ok t => decide (0 < totalFuelKwh t) | _ => false) = true := by decide +kernel
  cases h1 : simDrive fns (realHooks fns rocket newParams) rocket newParams (Sim.new cyc) none none with
  | error e => rw [h1] at hall; simp at hall
  | ok t =>
  rw [h1] at hall
  have f1 := of_decide_eq_true hall
  have e : lastEffRepeated rocket = rocket :=
    lastEff_same (by rw [rocket_ok.1.fcLen]; exact rocket_ok.1.fcTwo) rocket_ok.2.2
  obtain ⟨p, hp, -⟩ := labelRun_rs (RH := rsNoHooks) rocket_ok.1 (by decide +kernel) (by decide +kernel) T (337 / 10)
    demo_traces.1 (init := none) (t := t) (by rw [e]; exact h1)
  exact ⟨t, p, hp, f1⟩

/-- A car whose run, with and without a table of hydrogen, is printed, and which burns fuel: the hypotheses of
`C107_hd_figures` and `C107_tables_split` are met. -/
theorem C107_hd_found (T : MissTols ℚ) : ∃ r r', adoptHdRun fns rsNoHooks T ⟨rocket, demoVeh .conv⟩ (some [0, 1], some [1 / 4, 3 / 4]) cyc = .ok r ∧
    adoptHdRun fns rsNoHooks T ⟨rocket, demoVeh .conv⟩ (none, none) cyc = .ok r' ∧ r.h2AndDiesel ≠ none ∧
    ∀ s p, rsSimDrive fns rsNoHooks rocket rsNewParams T (337 / 10) (Sim.new cyc) none none = .ok (s, p) →
      (s.rows.map fun r => r.fc.fsKwhOutAch).sum ≠ 0 := by
  obtain ⟨d, l, -, hl, -⟩ := C102_demo T
  obtain ⟨a, x, ha, hx⟩ := labelFe_accel hl
  have hg : (rsLabelConst : LabelConst ℚ).kwhPerGge = 337 / 10 := by simp [rsLabelConst]
  have ha' : rsAccelSpeeds fns rsNoHooks rocket T rsLabelConst = .ok a := ha
  obtain ⟨t, p, hp, f1⟩ := rocket_run T
  obtain ⟨q, ps, hq, -⟩ := C107_table (dist := rsSum (t.rows.map fun r => r.ach.distMi)) (maxKw := rocket.fcMaxKw) (gge := 337 / 10)
    (fc := t.rows.map fun r => r.fc.fcKwOutAch) (fs := t.rows.map fun r => r.fc.fsKwhOutAch) (perc := [0, 1])
    (share := [1 / 4, 3 / 4]) (by simp) C107_table_found.1 le_rfl rfl
  obtain ⟨r, hr, hn⟩ := adoptHd_ok (veh := ⟨rocket, demoVeh .conv⟩) (tables := (some [0, 1], some [1 / 4, 3 / 4])) (q := some q)
    hg hp ha' hx (by unfold splitOf; simp only; rw [hq])
  obtain ⟨r', hr', -⟩ := adoptHd_ok (veh := ⟨rocket, demoVeh .conv⟩) (tables := (none, none)) (q := none)
    hg hp ha' hx rfl
  refine ⟨r, r', hr, hr', by rw [hn]; exact Option.some_ne_none q, ?_⟩
  intro s p' h
  rw [hp, Except.ok.injEq, Prod.mk.injEq] at h
  obtain ⟨rfl, -⟩ := h
  have : totalFuelKwh t = (t.rows.map fun r => r.fc.fsKwhOutAch).sum := by
    unfold totalFuelKwh; rw [npSum_eq]
  rw [← this]; exact f1.ne'

/-- Options that ask for a heavy-duty run, a label, a coast-down and a plain run. -/
theorem C107_options_found :
    AsksHd (⟨none, none, none, some "False".toList, some "{}".toList, none, none, none, none⟩ : CliArgs ℚ) "False".toList ∧
    Bundled "False".toList ∧ ¬ Bundled "truck.csv".toList ∧
    AsksLabel (⟨none, none, some true, none, none, some "veh.json".toList, none, none, none⟩ : CliArgs ℚ) true ∧
    AsksFile (⟨none, some "coastdown".toList, none, none, none, some "veh.yaml".toList, some 25, some 0, some 1⟩ : CliArgs ℚ)
      "coastdown".toList ∧
    AsksFile (⟨none, some "udds.csv".toList, none, none, none, some "veh.yaml".toList, none, none, none⟩ : CliArgs ℚ)
      "udds.csv".toList ∧ "udds.csv".toList ≠ "coastdown".toList := by
  refine ⟨⟨rfl, rfl, rfl, rfl, .inl ⟨by simp, rfl⟩⟩, .inr (.inr (by decide)), by unfold Bundled; decide,
    ⟨rfl, rfl, rfl, rfl, .inr ⟨rfl, by simp⟩⟩, ⟨rfl, rfl, rfl, rfl, .inr ⟨rfl, by simp⟩⟩,
    ⟨rfl, rfl, rfl, rfl, .inr ⟨rfl, by simp⟩⟩, by decide⟩

end Fastsim.Props
