import Verif.Props.RustCli
import Verif.Props.RustCliJson

/-!
# C107: what the program prints

Which cycle and which vehicle the options choose, and where every figure of the result comes from.
-/

set_option linter.unusedSectionVars false

namespace Fastsim.Spec

section
variable {K : Type*}

/-- The options ask for a heavy-duty run and nothing else, of one vehicle. -/
def AsksHd (g : CliArgs K) (s : Txt) : Prop :=
  g.adoptHd = some s ∧ g.cyc = none ∧ g.cycFile = none ∧ g.adopt = none ∧
    ((g.veh ≠ none ∧ g.vehFile = none) ∨ (g.veh = none ∧ g.vehFile ≠ none))

/-- The options ask for a cycle file and nothing else, with one vehicle. -/
def AsksFile (g : CliArgs K) (f : Txt) : Prop :=
  g.cycFile = some f ∧ g.cyc = none ∧ g.adopt = none ∧ g.adoptHd = none ∧
    ((g.veh ≠ none ∧ g.vehFile = none) ∨ (g.veh = none ∧ g.vehFile ≠ none))

/-- The options give the label flag and no cycle, with one vehicle. -/
def AsksLabel (g : CliArgs K) (b : Bool) : Prop :=
  g.adopt = some b ∧ g.cyc = none ∧ g.cycFile = none ∧ g.adoptHd = none ∧
    ((g.veh ≠ none ∧ g.vehFile = none) ∨ (g.veh = none ∧ g.vehFile ≠ none))

/-- The text after `--adopt-hd` that stands for the bundled cycle: nothing, `true` or `false` in any case. -/
def Bundled (s : Txt) : Prop :=
  s.map Char.toLower = [] ∨ s.map Char.toLower = "true".toList ∨ s.map Char.toLower = "false".toList

end

section
variable {K : Type*} [Field K] [LinearOrder K] [IsStrictOrderedRing K]

/-- The JSON value that a request for a heavy-duty run or a label reads its vehicle from. -/
def GivenJson (E : CliEnv K) (g : CliArgs K) (v : Json K) : Prop :=
  (∃ s, g.veh = some s ∧ E.parse s = .ok v) ∨
  (∃ f s, g.veh = none ∧ g.vehFile = some f ∧ E.text f = .ok s ∧ E.parse s = .ok v)

end
end Fastsim.Spec

namespace Fastsim.Props
open Fastsim Fastsim.Spec

section Floor
variable {K : Type*} [Field K] [LinearOrder K] [IsStrictOrderedRing K] [FloorRing K]
variable {F : Fns K} {H : RsHooks K} {T : MissTols K} {E : CliEnv K} {g : CliArgs K}

theorem accepted_one_vehicle {K : Type*} {g : CliArgs K}
    (h : (g.veh ≠ none ∧ g.vehFile = none) ∨ (g.veh = none ∧ g.vehFile ≠ none)) :
    given [g.veh.isSome, g.vehFile.isSome] = 1 := by
  rcases h with ⟨a, b⟩ | ⟨a, b⟩
  · obtain ⟨x, hx⟩ := Option.ne_none_iff_exists'.1 a
    rw [hx, b]; rfl
  · obtain ⟨x, hx⟩ := Option.ne_none_iff_exists'.1 b
    rw [hx, a]; rfl

/-- Anything but exactly one cycle and exactly one vehicle is an error. -/
theorem C107_groups (hok : ∃ o, cliMain F H T E g = .ok o) :
    ((∃ f, AsksFile g f) ∨ (∃ b, AsksLabel g b) ∨ (∃ s, AsksHd g s)) := by
  obtain ⟨o, ho⟩ := hok
  unfold cliMain at ho
  split at ho
  · cases ho
  rename_i hacc
  split at ho
  · cases ho
  rename_i hcyc
  clear ho
  rw [Bool.not_eq_true, Bool.not_eq_false'] at hacc
  simp only [CliArgs.accepted, Bool.and_eq_true, decide_eq_true_eq] at hacc
  obtain ⟨h1, h2⟩ := hacc
  have hv : (g.veh ≠ none ∧ g.vehFile = none) ∨ (g.veh = none ∧ g.vehFile ≠ none) := by
    revert h2
    cases g.veh <;> cases g.vehFile <;> simp [given]
  have hc : g.cyc = none := by simpa using hcyc
  rw [hc] at h1
  cases h3 : g.cycFile with
  | some f =>
    rw [h3] at h1
    refine .inl ⟨f, h3, hc, ?_, ?_, hv⟩
    · revert h1; cases g.adopt <;> cases g.adoptHd <;> simp [given]
    · revert h1; cases g.adopt <;> cases g.adoptHd <;> simp [given]
  | none =>
    rw [h3] at h1
    cases h4 : g.adopt with
    | some b =>
      rw [h4] at h1
      refine .inr (.inl ⟨b, h4, hc, h3, ?_, hv⟩)
      revert h1; cases g.adoptHd <;> simp [given]
    | none =>
      rw [h4] at h1
      cases h5 : g.adoptHd with
      | some s => exact .inr (.inr ⟨s, h5, hc, h3, h4, hv⟩)
      | none => rw [h5] at h1; simp [given] at h1

theorem main_hd {s : Txt} (h : AsksHd g s) : cliMain F H T E g = g.drive F H T E := by
  obtain ⟨h1, h2, h3, h4, h5⟩ := h
  have ha : g.accepted = true := by
    simp only [CliArgs.accepted, Bool.and_eq_true, decide_eq_true_eq]
    exact ⟨by rw [h1, h2, h3, h4]; rfl, accepted_one_vehicle h5⟩
  unfold cliMain
  rw [ha, h2, h3]
  simp

theorem main_label {b : Bool} (h : AsksLabel g b) : cliMain F H T E g = g.drive F H T E := by
  obtain ⟨h1, h2, h3, h4, h5⟩ := h
  have ha : g.accepted = true := by
    simp only [CliArgs.accepted, Bool.and_eq_true, decide_eq_true_eq]
    exact ⟨by rw [h1, h2, h3, h4]; rfl, accepted_one_vehicle h5⟩
  unfold cliMain
  rw [ha, h2, h3]
  simp

theorem main_file {f : Txt} (h : AsksFile g f) : cliMain F H T E g =
    if f = "coastdown".toList then coastDownOf E g
    else g.drive F H T E := by
  obtain ⟨h1, h2, h3, h4, h5⟩ := h
  have ha : g.accepted = true := by
    simp only [CliArgs.accepted, Bool.and_eq_true, decide_eq_true_eq]
    exact ⟨by rw [h1, h2, h3, h4]; rfl, accepted_one_vehicle h5⟩
  unfold cliMain
  rw [ha, h2, h1]
  generalize "coastdown".toList = w
  simp

/-! ### Coast-down -/

/-- The coefficients of a coast-down do not depend on the vehicle that has to be given with it, nor on any file. -/
theorem C107_coastdown {E' : CliEnv K} {g' : CliArgs K} (h : AsksFile g "coastdown".toList)
    (h' : AsksFile g' "coastdown".toList) (ha : g.a = g'.a) (hb : g.b = g'.b) (hc : g.c = g'.c) (hf : E.fit = E'.fit) :
    cliMain F H T E g = cliMain F H T E' g' := by
  rw [main_file h, main_file h', if_pos rfl, if_pos rfl, coastDownOf, coastDownOf, ha, hb, hc, hf]

/-- They are fitted for the vehicle that the Rust core has built in; all three figures have to be given. -/
theorem C107_coastdown_fit (h : AsksFile g "coastdown".toList) (o : CliOut K) :
    cliMain F H T E g = .ok o ↔
    ∃ a b c d cd rr, g.a = some a ∧ g.b = some b ∧ g.c = some c ∧ (mockInputs : VehObj K).rsSetDerived = .ok d ∧
      E.fit d a b c = .ok (cd, rr) ∧ o = .coefficients cd rr := by
  rw [main_file h, if_pos rfl, coastDownOf]
  cases g.a with
  | none => simp
  | some a =>
    cases g.b with
    | none => simp
    | some b =>
      cases g.c with
      | none => simp
      | some c =>
        simp only [Option.some.injEq]
        cases hd : (mockInputs : VehObj K).rsSetDerived with
        | error e => simp
        | ok d =>
          simp only [Except.ok.injEq]
          cases hf : E.fit d a b c with
          | error e =>
            constructor
            · intro h; cases h
            · rintro ⟨_, _, _, _, _, _, rfl, rfl, rfl, rfl, h, -⟩
              rw [hf] at h; cases h
          | ok p =>
            obtain ⟨cd, rr⟩ := p
            simp only [Except.ok.injEq]
            constructor
            · rintro rfl
              exact ⟨a, b, c, d, cd, rr, rfl, rfl, rfl, rfl, hf, rfl⟩
            · rintro ⟨_, _, _, _, cd', rr', rfl, rfl, rfl, rfl, h, rfl⟩
              rw [hf, Except.ok.injEq, Prod.mk.injEq] at h
              rw [h.1, h.2]

/-! ### Vehicles -/

/-- For a label and for a heavy-duty run the vehicle is the rewritten JSON of the option or of the file, with its tables of
hydrogen. -/
theorem vehicle_rewritten (hv : (g.isAdopt || g.adoptHd.isSome) = true) (x : CliVeh K × Option (List K) × Option (List K)) :
    g.vehicle E = .ok x ↔ ∃ v w, GivenJson E g v ∧ jsonRewrite v = .ok (w, x.2) ∧ E.vehOf w = .ok x.1 := by
  have hj : ∀ v, E.vehJson true v = .ok x ↔ ∃ w, jsonRewrite v = .ok (w, x.2) ∧ E.vehOf w = .ok x.1 := by
    intro v
    unfold CliEnv.vehJson
    rw [if_pos rfl]
    cases jsonRewrite v with
    | error e => simp
    | ok r =>
      obtain ⟨w, t⟩ := r
      simp only [Except.ok.injEq, Prod.mk.injEq]
      cases hw : E.vehOf w with
      | error e =>
        constructor
        · intro h; cases h
        · rintro ⟨_, ⟨rfl, -⟩, h⟩; rw [hw] at h; cases h
      | ok y =>
        simp only [Except.ok.injEq]
        constructor
        · rintro rfl; exact ⟨w, ⟨rfl, rfl⟩, hw⟩
        · rintro ⟨_, ⟨rfl, rfl⟩, h⟩
          rw [hw, Except.ok.injEq] at h
          rw [h]
  unfold CliArgs.vehicle
  simp only [hv]
  unfold GivenJson
  cases h1 : g.veh with
  | some s =>
    simp only [Option.some.injEq]
    cases hp : E.parse s with
    | error e =>
      constructor
      · intro h; cases h
      · rintro ⟨v, w, (⟨_, rfl, h⟩ | ⟨_, _, h, -⟩), -⟩
        · rw [hp] at h; cases h
        · cases h
    | ok v =>
      simp only [hj]
      constructor
      · rintro ⟨w, a, b⟩; exact ⟨v, w, .inl ⟨s, rfl, hp⟩, a, b⟩
      · rintro ⟨v', w, (⟨_, rfl, h⟩ | ⟨_, _, h, -⟩), a, b⟩
        · rw [hp, Except.ok.injEq] at h; subst h; exact ⟨w, a, b⟩
        · cases h
  | none =>
    cases h2 : g.vehFile with
    | none => simp
    | some f =>
      simp only [if_true]
      cases ht : E.text f with
      | error e =>
        constructor
        · intro h; cases h
        · rintro ⟨v, w, (⟨_, h, -⟩ | ⟨_, _, -, h', h, -⟩), -⟩
          · cases h
          · rw [Option.some.injEq] at h'; subst h'; rw [ht] at h; cases h
      | ok s =>
        cases hp : E.parse s with
        | error e =>
          constructor
          · intro h; simp only [hp] at h; cases h
          · rintro ⟨v, w, (⟨_, h, -⟩ | ⟨_, _, -, h', h, h''⟩), -⟩
            · cases h
            · rw [Option.some.injEq] at h'; subst h'
              rw [ht, Except.ok.injEq] at h; subst h
              rw [hp] at h''; cases h''
        | ok v =>
          simp only [hp, hj]
          constructor
          · rintro ⟨w, a, b⟩; exact ⟨v, w, .inr ⟨f, s, trivial, rfl, ht, hp⟩, a, b⟩
          · rintro ⟨v', w, (⟨_, h, -⟩ | ⟨_, _, -, h', h, h''⟩), a, b⟩
            · cases h
            · rw [Option.some.injEq] at h'; subst h'
              rw [ht, Except.ok.injEq] at h; subst h
              rw [hp, Except.ok.injEq] at h''; subst h''
              exact ⟨w, a, b⟩

theorem hdHasCycle_iff (s : Txt) : hdHasCycle s = true ↔ ¬ Bundled s := by
  rw [hdHasCycle, Bool.and_eq_true, Bool.and_eq_true, decide_eq_true_iff, decide_eq_true_iff, decide_eq_true_iff, Bundled,
    not_or, not_or, and_assoc]
  exact Iff.rfl

/-! ### Heavy-duty runs -/

/-- The cycle of a heavy-duty run: the bundled one for no text, `true` and `false` in any case (so `--adopt-hd false` also asks
for it), otherwise the file. -/
def HdCycle (E : CliEnv K) (s : Txt) (c : Cyc K) : Prop :=
  (Bundled s ∧ E.hhddt = .ok c) ∨ (¬ Bundled s ∧ E.cycFile s = .ok c)

/-- What a heavy-duty run prints, and when. -/
theorem C107_hd {s : Txt} (h : AsksHd g s) (o : CliOut K) :
    cliMain F H T E g = .ok o ↔ ∃ v w c veh tables r, GivenJson E g v ∧ jsonRewrite v = .ok (w, tables) ∧
      E.vehOf w = .ok veh ∧ HdCycle E s c ∧ adoptHdRun F H T veh tables c = .ok r ∧ o = .adopt r := by
  rw [main_hd h, CliArgs.drive]
  obtain ⟨h1, h2, h3, h4, h5⟩ := h
  have hrw : (g.isAdopt || g.adoptHd.isSome) = true := by rw [h1]; simp
  have hna : g.isAdopt = false := by simp [CliArgs.isAdopt, h4]
  have hrep : ∀ c x, g.report F H T E c x = .ok o ↔
      ∃ c', (if hdHasCycle s then .ok c else E.hhddt) = .ok c' ∧ ∃ r, adoptHdRun F H T x.1 x.2 c' = .ok r ∧ o = .adopt r := by
    intro c x
    unfold CliArgs.report
    rw [hna, h1]
    simp only [Bool.false_eq_true, if_false]
    cases hc : (if hdHasCycle s then Except.ok c else E.hhddt) with
    | error e => simp
    | ok c' =>
      simp only [Except.ok.injEq, exists_eq_left']
      cases hr : adoptHdRun F H T x.1 x.2 c' with
      | error e => simp
      | ok r => simp [eq_comm]
  have hcyc : g.cycle E = if hdHasCycle s then E.cycFile s else .ok emptyCyc := by
    unfold CliArgs.cycle; rw [h3, h1]
  rw [hcyc]
  constructor
  · intro ho
    split at ho
    · cases ho
    rename_i c hc
    split at ho
    · cases ho
    rename_i x hx
    obtain ⟨c', hc', r, hr, rfl⟩ := (hrep c x).1 ho
    obtain ⟨v, w, a, b, d⟩ := (vehicle_rewritten hrw x).1 hx
    refine ⟨v, w, c', x.1, x.2, r, a, b, d, ?_, hr, rfl⟩
    by_cases hh : hdHasCycle s = true
    · rw [if_pos hh] at hc hc'
      rw [Except.ok.injEq] at hc'
      exact .inr ⟨(hdHasCycle_iff s).1 hh, by rw [hc, hc']⟩
    · rw [if_neg hh] at hc'
      refine .inl ⟨?_, hc'⟩
      by_contra hn; exact hh ((hdHasCycle_iff s).2 hn)
  · rintro ⟨v, w, c, veh, tables, r, a, b, d, hcy, hr, rfl⟩
    have hx := (vehicle_rewritten hrw (veh, tables)).2 ⟨v, w, a, b, d⟩
    rcases hcy with ⟨hb, hc⟩ | ⟨hb, hc⟩
    · have hh : hdHasCycle s = false := by
        by_contra hn
        exact (hdHasCycle_iff s).1 (by simpa using hn) hb
      rw [hh]
      simp only [Bool.false_eq_true, if_false, hx]
      refine (hrep _ _).2 ⟨c, ?_, r, hr, rfl⟩
      rw [hh]; simpa using hc
    · have hh := (hdHasCycle_iff s).2 hb
      rw [hh]
      simp only [if_true, hc, hx]
      exact (hrep _ _).2 ⟨c, by rw [hh]; rfl, r, hr, rfl⟩

/-- The figures of a heavy-duty run: those of the simulation of the cycle from the middle or the top of its window, the time to
sixty miles per hour, no utility factor; the range is what a full tank holds at the economy, or without an economy what the
battery holds at its consumption, or nothing. -/
theorem C107_hd_figures {veh : CliVeh K} {tables : Option (List K) × Option (List K)} {c : Cyc K} {r : AdoptResults K}
    (h : adoptHdRun F H T veh tables c = .ok r) :
    ∃ s p speeds times accel, rsSimDrive F H veh.sim rsNewParams T (337 / 10) (Sim.new c) none none = .ok (s, p) ∧
      rsAccelSpeeds F H veh.sim T rsLabelConst = .ok (speeds, times) ∧ rsNetAccel speeds times = .ok accel ∧
      r.accel = accel ∧ r.uf = 0 ∧ r.adjCombKwhPerMile = p.batteryKwhPerMi ∧
      r.traceMissInMph = p.traceMissSpeedMps * mphPerMps ∧
      (0 < r.adjCombMpgge → r.rangeMiles = veh.label.fsKwh / (337 / 10) * r.adjCombMpgge) ∧
      (r.adjCombMpgge ≤ 0 → 0 < p.batteryKwhPerMi → r.rangeMiles = veh.label.essMaxKwh / p.batteryKwhPerMi) ∧
      (r.adjCombMpgge ≤ 0 → p.batteryKwhPerMi ≤ 0 → r.rangeMiles = 0) ∧
      ((tables.1 = none ∨ tables.2 = none) → r.h2AndDiesel = none ∧ r.adjCombMpgge = p.mpgge) ∧
      (∀ perc share, tables = (some perc, some share) → ∃ d, r.h2AndDiesel = some d ∧
        h2Diesel (s.rows.map fun r => r.ach.distMi).sum veh.sim.fcMaxKw (337 / 10) (s.rows.map fun r => r.fc.fcKwOutAch)
          (s.rows.map fun r => r.fc.fsKwhOutAch) perc share = .ok d ∧
        r.adjCombMpgge = (s.rows.map fun r => r.ach.distMi).sum / (d.dieselGge + d.h2Gge)) := by
  have hg : (rsLabelConst : LabelConst K).kwhPerGge = 337 / 10 := by simp [rsLabelConst]
  unfold adoptHdRun cliRun at h
  rw [hg] at h
  dsimp only at h
  split at h
  · cases h
  rename_i s p hs
  split at h
  · cases h
  rename_i a ha
  split at h
  · cases h
  rename_i accel hacc
  split at h
  · cases h
  rename_i split hsplit
  rw [Except.ok.injEq] at h
  refine ⟨s, p, a.1, a.2, accel, hs, ha, hacc, ?_⟩
  subst h
  refine ⟨rfl, rfl, rfl, rfl, fun h0 => ?_, fun h0 h1 => ?_, fun h0 h1 => ?_, ?_, ?_⟩
  · dsimp only at h0 ⊢; rw [if_pos h0]
  · dsimp only at h0 ⊢; rw [if_neg (not_lt.2 h0), if_pos h1]
  · dsimp only at h0 ⊢; rw [if_neg (not_lt.2 h0), if_neg (not_lt.2 h1)]
  · intro ht
    have : split = none := by
      unfold splitOf at hsplit
      rcases ht with ht | ht
      · rw [ht] at hsplit
        cases tables.2 <;> simpa [eq_comm] using hsplit
      · rw [ht] at hsplit
        simpa [eq_comm] using hsplit
    subst this
    exact ⟨rfl, rfl⟩
  · rintro perc share rfl
    unfold splitOf at hsplit
    dsimp only at hsplit
    split at hsplit
    · cases hsplit
    rename_i d hd
    rw [Except.ok.injEq] at hsplit
    subst hsplit
    rw [rsSum_eq] at hd
    exact ⟨d, rfl, hd, by dsimp only; rw [rsSum_eq]⟩

/-- The tables of hydrogen change neither the economy nor the range of a vehicle that burns fuel: they only split the fuel. -/
theorem C107_tables_split {veh : CliVeh K} {tables : Option (List K) × Option (List K)} {c : Cyc K} {r r' : AdoptResults K}
    (h : adoptHdRun F H T veh tables c = .ok r) (h' : adoptHdRun F H T veh (none, none) c = .ok r')
    (hfuel : ∀ s p, rsSimDrive F H veh.sim rsNewParams T (337 / 10) (Sim.new c) none none = .ok (s, p) →
      (s.rows.map fun r => r.fc.fsKwhOutAch).sum ≠ 0) :
    r = { r' with h2AndDiesel := r.h2AndDiesel } := by
  obtain ⟨s, p, sp, ti, ac, a1, a2, a3, a4, a5, a6, a7, a8, a9, a10, a11, a12⟩ := C107_hd_figures h
  obtain ⟨s', p', sp', ti', ac', b1, b2, b3, b4, b5, b6, b7, b8, b9, b10, b11, b12⟩ := C107_hd_figures h'
  rw [a1, Except.ok.injEq, Prod.mk.injEq] at b1
  obtain ⟨rfl, rfl⟩ := b1
  rw [a2, Except.ok.injEq, Prod.mk.injEq] at b2
  obtain ⟨rfl, rfl⟩ := b2
  rw [a3, Except.ok.injEq] at b3
  subst b3
  have hf := hfuel s p a1
  have hm : p.mpgge = (s.rows.map fun r => r.ach.distMi).sum / ((s.rows.map fun r => r.fc.fsKwhOutAch).sum / (337 / 10)) := by
    unfold rsSimDrive at a1
    split at a1
    · cases a1
    rename_i t ht
    split at a1
    · cases a1
    rename_i q hq
    rw [Except.ok.injEq, Prod.mk.injEq] at a1
    obtain ⟨rfl, rfl⟩ := a1
    unfold rsPostScalars at hq
    split at hq
    · cases hq
    dsimp only at hq
    split at hq
    · rw [Except.ok.injEq] at hq
      subst hq
      dsimp only
      rw [rsSum_eq, rsSum_eq, if_neg hf]
    · cases hq
  have hmp : r.adjCombMpgge = r'.adjCombMpgge := by
    rw [(b11 (.inl rfl)).2]
    cases h1 : tables.1 with
    | none => exact (a11 (.inl h1)).2
    | some perc =>
      cases h2 : tables.2 with
      | none => exact (a11 (.inr h2)).2
      | some share =>
        obtain ⟨d, -, hd, he⟩ := a12 perc share (Prod.ext h1 h2)
        have := (C107_split hd).2.1
        rw [he, add_comm, this, hm]
  have hr : r.rangeMiles = r'.rangeMiles := by
    by_cases h0 : 0 < r.adjCombMpgge
    · rw [a8 h0, b8 (hmp ▸ h0), hmp]
    · have h0' := not_lt.1 h0
      by_cases h1 : 0 < p.batteryKwhPerMi
      · rw [a9 h0' h1, b9 (hmp ▸ h0') h1]
      · rw [a10 h0' (not_lt.1 h1), b10 (hmp ▸ h0') (not_lt.1 h1)]
  obtain ⟨r1, r2, r3, r4, r5, r6, r7⟩ := r
  obtain ⟨q1, q2, q3, q4, q5, q6, q7⟩ := r'
  simp only at *
  simp_all

/-! ### Labels and plain runs -/

/-- With `--adopt true` the program prints figures of the label of the vehicle, and never a split of the fuel. -/
theorem C107_label (h : AsksLabel g true) (o : CliOut K) :
    cliMain F H T E g = .ok o ↔ ∃ v w veh tables l, GivenJson E g v ∧ jsonRewrite v = .ok (w, tables) ∧ E.vehOf w = .ok veh ∧
      rsVehicleLabel F H veh.sim T rsLabelConst E.ufTable veh.label E.udds E.hwy = .ok l ∧
      o = .adopt ⟨l.adjCombMpgge, l.netRangeMiles, l.uf, l.adjCombKwhPerMi, l.netAccel, l.traceMissSpeedMph, none⟩ := by
  rw [main_label h, CliArgs.drive]
  obtain ⟨h1, h2, h3, h4, h5⟩ := h
  have ha : g.isAdopt = true := by simp [CliArgs.isAdopt, h1]
  have hrw : (g.isAdopt || g.adoptHd.isSome) = true := by rw [ha]; rfl
  have hcyc : g.cycle E = .ok emptyCyc := by unfold CliArgs.cycle; rw [h3, h4]
  rw [hcyc]
  simp only
  constructor
  · intro ho
    split at ho
    · cases ho
    rename_i x hx
    obtain ⟨v, w, a, b, d⟩ := (vehicle_rewritten hrw x).1 hx
    unfold CliArgs.report at ho
    rw [ha, if_pos rfl] at ho
    unfold adoptLabel at ho
    cases hl : rsVehicleLabel F H x.1.sim T rsLabelConst E.ufTable x.1.label E.udds E.hwy with
    | error e => rw [hl] at ho; cases ho
    | ok l =>
      rw [hl] at ho
      simp only [Except.ok.injEq] at ho
      exact ⟨v, w, x.1, x.2, l, a, b, d, hl, ho.symm⟩
  · rintro ⟨v, w, veh, tables, l, a, b, d, hl, rfl⟩
    rw [(vehicle_rewritten hrw (veh, tables)).2 ⟨v, w, a, b, d⟩]
    simp only [CliArgs.report, ha, if_true, adoptLabel, hl]

theorem walk_single {V : Veh K} {s t : Sim K} (h1 : s.cyc0 = emptyCyc) (h2 : s.cyc = emptyCyc) {soc : K}
    {aux : Option (List K)} (h : rsWalk F H V rsNewParams s soc aux = .ok t) : t.cyc0 = emptyCyc ∧ t.cyc = emptyCyc := by
  unfold rsWalk rsInitForStep at h
  split at h
  · cases h
  rename_i u hu
  split at hu
  · rw [h1, if_neg (by simp [emptyCyc]), Except.ok.injEq] at hu
    have hc : u.cyc = emptyCyc := by rw [← hu]; simp only [rsNewParams, Bool.or_self, Bool.false_eq_true, if_false]; exact h2
    have hc0 : u.cyc0 = emptyCyc := by rw [← hu]; exact h1
    have hi : u.i = 1 := by rw [← hu]
    rw [hc] at h
    simp only [emptyCyc, List.length_cons, List.length_nil, Nat.zero_add] at h
    rw [rsWalkLoop, if_neg (by rw [hc, hi]; simp [emptyCyc]), Except.ok.injEq] at h
    rw [← h]
    exact ⟨hc0, hc⟩
  · cases hu

theorem hevLoop_single {V : Veh K} : ∀ (n : Nat) {s : Sim K} {r : Sim K × K} {count : Nat} {e soc : K},
    (rsNewParams : SimParams K).simCountMax - count ≤ n → s.cyc0 = emptyCyc → s.cyc = emptyCyc →
    rsHevLoop F H V rsNewParams none count e soc s = .ok r → r.1.cyc0 = emptyCyc ∧ r.1.cyc = emptyCyc := by
  intro n
  induction n with
  | zero =>
    intro s r count e soc hn h1 h2 h
    rw [rsHevLoop, dif_neg (by omega), Except.ok.injEq] at h
    rw [← h]; exact ⟨h1, h2⟩
  | succ n ih =>
    intro s r count e soc hn h1 h2 h
    rw [rsHevLoop] at h
    split at h
    · split at h
      · cases h
      rename_i s' hs'
      obtain ⟨a, b⟩ := walk_single (by exact h1) (by exact h2) hs'
      split at h
      · cases h
      exact ih (by omega) a b h
    · rw [Except.ok.injEq] at h
      rw [← h]; exact ⟨h1, h2⟩

theorem drive_single {V : Veh K} {t : Sim K} (h : rsDrive F H V rsNewParams (Sim.new emptyCyc) none none = .ok t) :
    t.cyc0 = emptyCyc := by
  unfold rsDrive at h
  dsimp only at h
  split at h
  · exact (walk_single (by rfl) (by rfl) h).1
  · split at h
    · cases h
    rename_i r hr
    obtain ⟨a, b⟩ := hevLoop_single _ le_rfl (by rfl) (by rfl) hr
    exact (walk_single a b h).1
  · exact (walk_single (by rfl) (by rfl) h).1
  · exact (walk_single (by rfl) (by rfl) h).1

/-- A run of a single sample at rest has no figures. -/
theorem run_single (V : Veh K) (s : Sim K) (p : RsPost K) : cliRun F H T V emptyCyc ≠ .ok (s, p) := by
  intro h
  unfold cliRun rsSimDrive at h
  split at h
  · cases h
  rename_i t ht
  have h0 := drive_single ht
  split at h
  · cases h
  rename_i q hq
  unfold rsPostScalars at hq
  split at hq
  · cases hq
  dsimp only at hq
  have hd : rsSum (rsDist t.cyc0) = 0 := by
    rw [h0, rsSum_eq]
    simp [emptyCyc, rsDist, Cyc.speeds, rsDt]
  rw [hd, if_neg (lt_irrefl _)] at hq
  cases hq

/-- With `--adopt false` there is no cycle to drive: the program always fails. -/
theorem C107_adopt_false (h : AsksLabel g false) (o : CliOut K) : cliMain F H T E g ≠ .ok o := by
  rw [main_label h, CliArgs.drive]
  obtain ⟨h1, h2, h3, h4, h5⟩ := h
  have ha : g.isAdopt = false := by simp [CliArgs.isAdopt, h1]
  have hcyc : g.cycle E = .ok emptyCyc := by unfold CliArgs.cycle; rw [h3, h4]
  rw [hcyc]
  intro ho
  simp only at ho
  split at ho
  · cases ho
  rename_i x hx
  unfold CliArgs.report at ho
  rw [ha, h4] at ho
  simp only [Bool.false_eq_true, if_false] at ho
  split at ho
  · cases ho
  rename_i s p hs
  exact run_single _ _ _ hs

/-- With a cycle file the program prints the economy of the run; the vehicle is read as it is, without rewriting. -/
theorem C107_plain {f : Txt} (h : AsksFile g f) (hf : f ≠ "coastdown".toList) (o : CliOut K) :
    cliMain F H T E g = .ok o ↔ ∃ c veh s p, E.cycFile f = .ok c ∧
      ((∃ t v, g.veh = some t ∧ E.parse t = .ok v ∧ E.vehOf v = .ok veh) ∨ (∃ t, g.vehFile = some t ∧ E.vehFile t = .ok veh)) ∧
      rsSimDrive F H veh.sim rsNewParams T (337 / 10) (Sim.new c) none none = .ok (s, p) ∧ o = .mpgge p.mpgge := by
  rw [main_file h, if_neg hf, CliArgs.drive]
  obtain ⟨h1, h2, h3, h4, h5⟩ := h
  have hg : (rsLabelConst : LabelConst K).kwhPerGge = 337 / 10 := by simp [rsLabelConst]
  have ha : g.isAdopt = false := by simp [CliArgs.isAdopt, h3]
  have hcyc : g.cycle E = E.cycFile f := by unfold CliArgs.cycle; rw [h1]
  have hveh : ∀ x, g.vehicle E = .ok x ↔ x.2 = (none, none) ∧
      ((∃ t v, g.veh = some t ∧ E.parse t = .ok v ∧ E.vehOf v = .ok x.1) ∨
        (∃ t, g.vehFile = some t ∧ E.vehFile t = .ok x.1)) := by
    intro x
    unfold CliArgs.vehicle
    rw [ha, h4]
    simp only [Option.isSome_none, Bool.or_self, Bool.false_eq_true, if_false, CliEnv.vehJson]
    cases hv : g.veh with
    | some t =>
      have hvf : g.vehFile = none := by
        rcases h5 with ⟨-, h⟩ | ⟨h, -⟩
        · exact h
        · rw [hv] at h; cases h
      rw [hvf]
      simp only [Option.some.injEq, reduceCtorEq, false_and, exists_false, or_false]
      cases hp : E.parse t with
      | error e =>
        constructor
        · intro h; cases h
        · rintro ⟨-, _, _, rfl, h, -⟩; rw [hp] at h; cases h
      | ok v =>
        simp only
        cases hw : E.vehOf v with
        | error e =>
          constructor
          · intro h; cases h
          · rintro ⟨-, _, _, rfl, h, h'⟩
            rw [hp, Except.ok.injEq] at h; subst h; rw [hw] at h'; cases h'
        | ok y =>
          simp only [Except.ok.injEq]
          constructor
          · rintro rfl; exact ⟨rfl, t, v, rfl, hp, hw⟩
          · rintro ⟨e, _, _, rfl, h, h'⟩
            rw [hp, Except.ok.injEq] at h; subst h
            rw [hw, Except.ok.injEq] at h'
            rw [h', ← e]
    | none =>
      simp only [reduceCtorEq, false_and, exists_false, false_or]
      cases hvf : g.vehFile with
      | none => simp
      | some t =>
        simp only [Option.some.injEq, exists_eq_left']
        cases hw : E.vehFile t with
        | error e => simp
        | ok y =>
          simp only [Except.ok.injEq]
          constructor
          · rintro rfl; exact ⟨rfl, rfl⟩
          · rintro ⟨e, h'⟩; rw [h', ← e]
  have hrep : ∀ c x, g.report F H T E c x = .ok o ↔
      ∃ s p, rsSimDrive F H x.1.sim rsNewParams T (337 / 10) (Sim.new c) none none = .ok (s, p) ∧ o = .mpgge p.mpgge := by
    intro c x
    unfold CliArgs.report cliRun
    rw [ha, h4, hg]
    simp only [Bool.false_eq_true, if_false]
    cases rsSimDrive F H x.1.sim rsNewParams T (337 / 10) (Sim.new c) none none with
    | error e => simp
    | ok q =>
      obtain ⟨s, p⟩ := q
      simp only [Except.ok.injEq, Prod.mk.injEq]
      constructor
      · rintro rfl; exact ⟨s, p, ⟨rfl, rfl⟩, rfl⟩
      · rintro ⟨_, _, ⟨rfl, rfl⟩, rfl⟩; rfl
  rw [hcyc]
  constructor
  · intro ho
    split at ho
    · cases ho
    rename_i c hc
    split at ho
    · cases ho
    rename_i x hx
    obtain ⟨s, p, a, b⟩ := (hrep c x).1 ho
    exact ⟨c, x.1, s, p, hc, ((hveh x).1 hx).2, a, b⟩
  · rintro ⟨c, veh, s, p, hc, hv, a, b⟩
    rw [hc, (hveh (veh, none, none)).2 ⟨rfl, hv⟩]
    exact (hrep c _).2 ⟨s, p, a, b⟩

/-- A cycle as JSON text is never driven. -/
theorem C107_no_json_cycle (h : g.cyc ≠ none) : cliMain F H T E g = .error .err := by
  obtain ⟨s, hs⟩ := Option.ne_none_iff_exists'.1 h
  unfold cliMain
  rw [hs]
  split
  · rfl
  · rfl

end Floor
end Fastsim.Props
