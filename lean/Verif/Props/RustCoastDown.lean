import Verif.Model.RsCoastDown
import Verif.Props.CoastDown
import Verif.Props.RustRun

/-!
# C113: drag and rolling resistance fitted by the Rust core
-/
set_option linter.unusedSectionVars false

namespace Fastsim.Spec
section
variable {K : Type*} [Zero K] [One K] [NatCast K] [Add K] [Sub K] [Mul K] [Div K] [Neg K] [LinearOrder K]

/-- The choice of air density the options stand for: none, or temperature and elevation, 20 °C at 180 m unless given. -/
def densityChoice (o : RsAbcArgs K) : Option (K × K) :=
  if o.customRho = some true then some (o.tempDegC.getD 20, o.elevationM.getD 180) else none

/-- A run that has a speed below 0.1 m/s. -/
def ComesToStop (s : Sim K) : Prop := ∃ r ∈ s.rows, r.ach.mpsAch < 1 / 10

/-- The recorded road load of a run against the coast-down polynomial, over all of its samples. -/
def wholeRunErr (s : Sim K) (cyc : Cyc K) (a b c : K) : Except PyErr K :=
  getErrorVal (s.rows.map fun r => 1000 * (r.pow.dragKw + r.pow.rrKw) / r.ach.mpsAch)
    (s.rows.map fun r => dynoN a b c r.ach.mphAch) cyc.times

end
end Fastsim.Spec

namespace Fastsim.Props
open Fastsim Fastsim.Spec

section Field
variable {K : Type*} [Field K] [LinearOrder K] [IsStrictOrderedRing K]
variable {F : Fns K} {V : Veh K} {RH : RsHooks K}

/-! ### Density and the closed form -/

/-- **C113 (density).** Where python computes an air density, the Rust core computes the same, for an elevation that is given
and for the default of 180 m. -/
theorem C113_density {t rho : K} {h : Option K} (hr : getRhoAir F t (h.getD 180) = .ok rho) : rsGetRho F t h = rho := by
  unfold getRhoAir at hr
  simp only at hr
  unfold pyDiv at hr
  split at hr
  · cases hr
  · cases hr; rfl

theorem pyDiv_val {x y z : K} (h : pyDiv x y = .ok z) : z = x / y := by
  unfold pyDiv at h
  split at h
  · cases h
  · cases h; rfl

/-- **C113 (closed form).** Where python returns coefficients with `simdrive_optimize=False`, the Rust core returns the same. -/
theorem C113_closed_form (fit : (K → K → Except RsErr K) → K × K) (veh : Veh K) (a b c : K) (o : RsAbcArgs K)
    (ho : o.optimize = some false) {p : K × K}
    (h : abcToDragCoeffs F (densityChoice o) ⟨veh.vehKg, veh.frontalAreaM2, veh.dragCoef, veh.wheelRrCoef⟩ a b c = .ok p) :
    rsAbcToDragCoeffs F RH fit veh a b c o = p := by
  have hrho : ∀ rho, ambientRho F (densityChoice o) = .ok rho →
      (if o.customRho.getD false then rsGetRho F (o.tempDegC.getD 20) o.elevationM else 12 / 10) = rho := by
    intro rho hr
    unfold densityChoice at hr
    split at hr
    · rename_i hc
      rw [hc]
      exact C113_density hr
    · rename_i hc
      have : o.customRho.getD false = false := by
        cases hx : o.customRho with
        | none => rfl
        | some x => cases x with
          | false => rfl
          | true => exact absurd hx hc
      rw [this]
      exact Except.ok.inj hr
  cases hr : ambientRho F (densityChoice o) with
  | error e =>
    unfold abcToDragCoeffs at h
    rw [hr] at h
    cases h
  | ok rho =>
    have h1 := hrho rho hr
    unfold abcToDragCoeffs at h
    simp only [hr, bind, Except.bind] at h
    unfold rsAbcToDragCoeffs
    simp only [ho, h1, Option.getD_some, Bool.false_eq_true, if_false]
    split at h
    · cases h
    rename_i cd hcd
    split at h
    · cases h
    rename_i x hx
    split at h
    · cases h
    rename_i rr hrr
    cases h
    rw [pyDiv_val hcd, pyDiv_val hrr, pyDiv_val hx]
    rfl

/-- **C113 (what the closed form fits).** For a vehicle with mass and area, in air, the coefficients give back the constant and the
quadratic term of the coast-down polynomial at every speed; the linear term is not represented. -/
theorem C113_road_load (fit : (K → K → Except RsErr K) → K × K) (veh : Veh K) (a b c : K) (o : RsAbcArgs K)
    (ho : o.optimize = some false) {rho : K} (hr : ambientRho F (densityChoice o) = .ok rho)
    (hk : veh.vehKg ≠ 0) (hA : veh.frontalAreaM2 ≠ 0) (h0 : rho ≠ 0) (v : K) :
    (rsWithCoeffs veh (rsAbcToDragCoeffs F RH fit veh a b c o)).vehKg * (981 / 100) *
        (rsWithCoeffs veh (rsAbcToDragCoeffs F RH fit veh a b c o)).wheelRrCoef +
      1 / 2 * rho * veh.frontalAreaM2 * (rsWithCoeffs veh (rsAbcToDragCoeffs F RH fit veh a b c o)).dragCoef * v ^ 2 =
      (a + c * (v * mphPerMps) ^ 2) * (4448 / 1000) := by
  have hg : GoodBody (⟨veh.vehKg, veh.frontalAreaM2, veh.dragCoef, veh.wheelRrCoef⟩ : RoadLoadVeh K) rho := ⟨hk, hA, h0⟩
  have hp := abc_eq F (densityChoice o) _ hr hg a b c
  have e := C113_closed_form (RH := RH) fit veh a b c o ho hp
  have q := C13_fit F (densityChoice o) _ hr hg a b c hp v
  rw [e]
  unfold roadLoadN RoadLoadVeh.withCoeffs at q
  simp only at q
  unfold rsWithCoeffs
  simp only
  linear_combination q

/-- **C113 (density and the fit).** Unless the closed form is asked for, the coefficients do not depend on the options for the air
density. -/
theorem C113_density_unused (fit : (K → K → Except RsErr K) → K × K) (veh : Veh K) (a b c : K) (o o' : RsAbcArgs K)
    (h : o.optimize ≠ some false) (h' : o'.optimize ≠ some false) :
    rsAbcToDragCoeffs F RH fit veh a b c o = rsAbcToDragCoeffs F RH fit veh a b c o' := by
  have key : ∀ x : Option Bool, x ≠ some false → x.getD true = true := by
    intro x hx
    cases x with
    | none => rfl
    | some y => cases y with
      | false => exact absurd rfl hx
      | true => rfl
  unfold rsAbcToDragCoeffs
  simp only [key _ h, key _ h', if_true]

/-! ### The error -/

theorem rsErrLoop_eq : ∀ (l : List (K × K)) (e : K), rsErrLoop e l = e + trapz l
  | [], e => by simp [rsErrLoop, trapz]
  | [p], e => by simp [rsErrLoop, trapz]
  | p :: q :: l, e => by
    rw [rsErrLoop, rsErrLoop_eq (q :: l), trapz]
    ring

/-- **C113 (error value).** The error of two signals is that of `get_error_val` in python; where python raises, the Rust core
panics. -/
theorem C113_error_value (m t x : List K) : rsGetErrorVal m t x = match getErrorVal m t x with
    | .ok e => .ok e
    | .error _ => .error .panic := by
  unfold rsGetErrorVal getErrorVal
  split
  · cases x.getLast? <;> cases x.head? <;> simp [rsErrLoop_eq]
  · rfl

theorem rsDynoN_eq (a b c v : K) : rsDynoN a b c v = dynoN a b c v := by
  unfold rsDynoN dynoN
  ring

theorem coast_ok {cd rr : K} (hV : RsOk V) : RsOk { V with dragCoef := cd, wheelRrCoef := rr } := by
  obtain ⟨⟩ := hV
  constructor <;> assumption

/-- Rows that agree up to fuel have the same speeds and loads. -/
theorem rows_loads {l l' : List (Row K)} (h : l'.length = l.length)
    (hr : ∀ (i : Nat) (r r' : Row K), l[i]? = some r → l'[i]? = some r' → withoutFuel r = withoutFuel r') :
    l'.map (fun r => (r.pow, r.ach)) = l.map (fun r => (r.pow, r.ach)) := by
  refine List.ext_getElem (by simp [h]) fun i h1 h2 => ?_
  have h1' : i < l'.length := by simpa using h1
  have h2' : i < l.length := by simpa using h2
  have e := hr i l[i] l'[i] (List.getElem?_eq_getElem h2') (List.getElem?_eq_getElem h1')
  have e1 : l[i].pow = l'[i].pow := (congrArg (fun r : Row K => r.pow) e :)
  have e2 : l[i].ach = l'[i].ach := (congrArg (fun r : Row K => r.ach) e :)
  simp [e1, e2]

theorem loads_map {A : Type*} (f : Pow K → Ach K → A) {l l' : List (Row K)}
    (h : l'.map (fun r => (r.pow, r.ach)) = l.map (fun r => (r.pow, r.ach))) :
    l'.map (fun r => f r.pow r.ach) = l.map (fun r => f r.pow r.ach) := by
  have := congrArg (List.map fun p : Pow K × Ach K => f p.1 p.2) h
  simpa [List.map_map, Function.comp_def] using this

theorem loads_find (q : K → Bool) {l l' : List (Row K)}
    (h : l'.map (fun r => (r.pow, r.ach)) = l.map (fun r => (r.pow, r.ach))) :
    (l'.findIdx? fun r => q r.ach.mpsAch) = l.findIdx? fun r => q r.ach.mpsAch := by
  have e := loads_map (fun _ a => a.mpsAch) h
  have k : ∀ m : List (Row K), (m.findIdx? fun r => q r.ach.mpsAch) = (m.map fun r => r.ach.mpsAch).findIdx? q := by
    intro m
    rw [List.findIdx?_map]; rfl
  rw [k, k, e]

end Field

section Cost
variable {K : Type*} [Field K] [LinearOrder K] [IsStrictOrderedRing K] [FloorRing K]
variable {F : Fns K} {V : Veh K} {RH : RsHooks K}

/-- The run behind a cost: that of the Rust core has the speeds and loads of that of the python code. -/
theorem coast_runs (hV : RsOk V) (hh : V.ptType ≠ .hev) {cyc : Cyc K} (ht : cyc.times.Pairwise (· ≤ ·)) {cd rr : K} {s : Sim K}
    (h : simDrive F (realHooks F { V with dragCoef := cd, wheelRrCoef := rr } newParams)
      { V with dragCoef := cd, wheelRrCoef := rr } newParams
      { Sim.new cyc with impose := List.replicate cyc.length true } none none = .ok s) :
    ∃ s', rsDrive F RH { V with dragCoef := cd, wheelRrCoef := rr } rsNewParams
        { Sim.new cyc with impose := List.replicate cyc.length true } none none = .ok s' ∧
      s'.rows.length = s.rows.length ∧ s.rows.length = cyc.length ∧
      s'.rows.map (fun r => (r.pow, r.ach)) = s.rows.map (fun r => (r.pow, r.ach)) := by
  have hp : PlainDrive (newParams : SimParams K) := rsNew_params (K := K) ▸ rsNew_plain
  obtain ⟨t', h1, hc, -, hl, -, h6, hr⟩ := C98_same_drive (F := F) (RH := RH) (V := { V with dragCoef := cd, wheelRrCoef := rr })
    (s := { Sim.new cyc with impose := List.replicate cyc.length true }) (coast_ok hV) hp rfl ht none none nofun (Or.inl hh) h
  refine ⟨t', by rw [rsNew_params]; exact h1, hl, ?_, rows_loads hl fun i r r' a b => (hr i r r' a b).1⟩
  obtain ⟨-, -, e, -⟩ := drive_kept (V := { V with dragCoef := cd, wheelRrCoef := rr })
    (s := { Sim.new cyc with impose := List.replicate cyc.length true }) (coast_ok hV) hp rfl ht (Or.inl hh) h6
  rw [← hl, e]; rfl

/-- **C113 (cost).** Let the python run behind the fit complete. Where python's own objective has a value, the cost of the Rust
core is that value; where it fails although the run comes to a stop, the Rust core panics; where the run never gets below
0.1 m/s, python raises `IndexError` and the Rust core compares all samples. -/
theorem C113_cost (hV : RsOk V) (hh : V.ptType ≠ .hev) {cyc : Cyc K} (ht : cyc.times.Pairwise (· ≤ ·)) (a b c cd rr : K)
    {s : Sim K}
    (h : simDrive F (realHooks F { V with dragCoef := cd, wheelRrCoef := rr } newParams)
      { V with dragCoef := cd, wheelRrCoef := rr } newParams
      { Sim.new cyc with impose := List.replicate cyc.length true } none none = .ok s) :
    let py := coastDownErr F (realHooks F { V with dragCoef := cd, wheelRrCoef := rr } newParams) V newParams cyc a b c cd rr
    (∀ e, py = .ok e → rsCost F RH V cyc a b c cd rr = .ok e) ∧
    (ComesToStop s → (∀ e, py ≠ .ok e) → rsCost F RH V cyc a b c cd rr = .error .panic) ∧
    (¬ ComesToStop s → py = .error .indexError ∧ ∀ e, wholeRunErr s cyc a b c = .ok e →
      rsCost F RH V cyc a b c cd rr = .ok e) := by
  obtain ⟨s', h1, hl, hn, hm⟩ := coast_runs (F := F) (RH := RH) hV hh ht (cd := cd) (rr := rr) h
  have e1 := loads_map (fun p a => 1000 * (p.dragKw + p.rrKw) / a.mpsAch) hm
  have e2 := loads_map (fun _ x => dynoN a b c x.mphAch) hm
  have e3 := loads_find (fun v => decide (v < 1 / 10)) hm
  have hcost : rsCost F RH V cyc a b c cd rr =
      rsGetErrorVal
        ((s.rows.map fun r => 1000 * (r.pow.dragKw + r.pow.rrKw) / r.ach.mpsAch).take
          (match s.rows.findIdx? fun r => decide (r.ach.mpsAch < 1 / 10) with | some k => k | none => s.rows.length))
        ((s.rows.map fun r => dynoN a b c r.ach.mphAch).take
          (match s.rows.findIdx? fun r => decide (r.ach.mpsAch < 1 / 10) with | some k => k | none => s.rows.length))
        (cyc.times.take
          (match s.rows.findIdx? fun r => decide (r.ach.mpsAch < 1 / 10) with | some k => k | none => s.rows.length)) := by
    unfold rsCost
    rw [h1]
    simp only [rsDynoN_eq, e1, e2, e3, hl]
    cases s.rows.findIdx? fun r => decide (r.ach.mpsAch < 1 / 10) <;> rfl
  intro py
  have hpy : py = match s.rows.findIdx? fun r => decide (r.ach.mpsAch < 1 / 10) with
    | none => .error .indexError
    | some k => getErrorVal
        ((s.rows.map fun r => 1000 * (r.pow.dragKw + r.pow.rrKw) / r.ach.mpsAch).take k)
        ((s.rows.map fun r => dynoN a b c r.ach.mphAch).take k) (cyc.times.take k) := by
    show coastDownErr F _ V newParams cyc a b c cd rr = _
    unfold coastDownErr
    rw [h]
    simp only
    cases s.rows.findIdx? fun r => decide (r.ach.mpsAch < 1 / 10) <;> rfl
  have hstop : ComesToStop s ↔ (s.rows.findIdx? fun r => decide (r.ach.mpsAch < 1 / 10)) ≠ none := by
    unfold ComesToStop
    rw [ne_eq, List.findIdx?_eq_none_iff]
    push Not
    simp
  rw [hcost, C113_error_value, hpy, hstop]
  cases hk : s.rows.findIdx? fun r => decide (r.ach.mpsAch < 1 / 10) with
  | none =>
    refine ⟨nofun, fun hx => absurd rfl hx, fun _ => ⟨rfl, fun e he => ?_⟩⟩
    unfold wholeRunErr at he
    simp only
    rw [List.take_of_length_le (by simp), List.take_of_length_le (by simp), List.take_of_length_le (by simp [hn, Cyc.times]), he]
  | some k =>
    refine ⟨fun e he => ?_, fun _ he => ?_, fun hx => absurd (by simp) hx⟩
    · simp only at he ⊢
      rw [he]
    · simp only at he ⊢
      cases hg : getErrorVal
        ((s.rows.map fun r => 1000 * (r.pow.dragKw + r.pow.rrKw) / r.ach.mpsAch).take k)
        ((s.rows.map fun r => dynoN a b c r.ach.mphAch).take k) (cyc.times.take k) with
      | ok e => exact absurd hg (he e)
      | error e => rfl

/-- **C113 (the default objective).** `abc_to_drag_coeffs` of python minimises the same error with `use_rust=True`, its default, as
without, wherever the Rust core can compute the figures of the run. -/
theorem C113_default (hV : RsOk V) (hh : V.ptType ≠ .hev) {cyc : Cyc K} (ht : cyc.times.Pairwise (· ≤ ·)) (a b c cd rr : K)
    (T : MissTols K) (gge : K) {e : K}
    (h : coastDownErr F (realHooks F { V with dragCoef := cd, wheelRrCoef := rr } newParams) V newParams cyc a b c cd rr = .ok e)
    {x : Sim K × RsPost K} (hx : rsSimDrive F RH { V with dragCoef := cd, wheelRrCoef := rr } rsNewParams T gge
      { Sim.new cyc with impose := List.replicate cyc.length true } none none = .ok x) :
    coastDownErrRust F RH V T gge cyc a b c cd rr = .ok e := by
  unfold coastDownErr at h
  split at h
  · cases h
  rename_i s hs
  obtain ⟨s', h1, hl, hn, hm⟩ := coast_runs (F := F) (RH := RH) hV hh ht (cd := cd) (rr := rr) hs
  have e1 := loads_map (fun p a => 1000 * (p.dragKw + p.rrKw) / a.mpsAch) hm
  have e2 := loads_map (fun _ x => dynoN a b c x.mphAch) hm
  have e3 := loads_find (fun v => decide (v < 1 / 10)) hm
  have hx' := hx
  unfold rsSimDrive at hx'
  rw [h1] at hx'
  simp only at hx'
  split at hx'
  · cases hx'
  cases hx'
  unfold coastDownErrRust
  rw [hx]
  simp only [e1, e2, e3]
  exact h

/-- With `use_rust=True` too, python raises `IndexError` for a run that never falls below 0.1 m/s. -/
theorem C113_default_no_stop (T : MissTols K) (gge : K) {cyc : Cyc K} (a b c cd rr : K) {x : Sim K × RsPost K}
    (hx : rsSimDrive F RH { V with dragCoef := cd, wheelRrCoef := rr } rsNewParams T gge
      { Sim.new cyc with impose := List.replicate cyc.length true } none none = .ok x) (h : ¬ ComesToStop x.1) :
    coastDownErrRust F RH V T gge cyc a b c cd rr = .error .indexError := by
  have : (x.1.rows.findIdx? fun r => decide (r.ach.mpsAch < 1 / 10)) = none := by
    rw [List.findIdx?_eq_none_iff]
    intro r hr
    by_contra hc
    exact h ⟨r, hr, by simpa using hc⟩
  unfold coastDownErrRust
  rw [hx]
  simp only [this]

theorem coastCyc_times : (coastCyc : Cyc K).times.Pairwise (· ≤ ·) := by
  unfold Cyc.times coastCyc
  rw [List.map_map, List.pairwise_map]
  refine List.pairwise_lt_range.imp ?_
  intro i j hij
  simp only [Function.comp]
  exact_mod_cast hij.le

/-- **C113 (the fit).** Unless the closed form is asked for, the coefficients are what the search finds for python's objective: for
every search that asks for the error of some pairs of coefficients only, and every function that is python's objective, for the
fall from 70 mph in 300 s, at those pairs. -/
theorem C113_fit (hV : RsOk V) (hh : V.ptType ≠ .hev) (fit : (K → K → Except RsErr K) → K × K) (S : Set (K × K))
    (hfit : ∀ f g : K → K → Except RsErr K, (∀ x ∈ S, f x.1 x.2 = g x.1 x.2) → fit f = fit g) (a b c : K) (o : RsAbcArgs K)
    (ho : o.optimize ≠ some false) (e : K → K → K)
    (he : ∀ x ∈ S, coastDownErr F (realHooks F { V with dragCoef := x.1, wheelRrCoef := x.2 } newParams) V newParams
      coastCyc a b c x.1 x.2 = .ok (e x.1 x.2)) :
    rsAbcToDragCoeffs F RH fit V a b c o = fit fun cd rr => .ok (e cd rr) := by
  have h1 : o.optimize.getD true = true := by
    cases hx : o.optimize with
    | none => rfl
    | some y => cases y with
      | false => exact absurd hx ho
      | true => rfl
  unfold rsAbcToDragCoeffs
  simp only [h1, if_true]
  refine hfit _ _ fun x hx => ?_
  have hp := he x hx
  have hp' := hp
  unfold coastDownErr at hp'
  split at hp'
  · cases hp'
  rename_i s hs
  exact (C113_cost (F := F) (RH := RH) hV hh coastCyc_times a b c x.1 x.2 hs).1 _ hp

/-- **C113 (no vehicle fits exactly).** The cost of the Rust core is positive for every pair of coefficients if the run keeps to its
level trace and the polynomial is not zero at the first speed: the first load compared is zero (see `C76_never_exact`). -/
theorem C113_never_exact (hV : RsOk V) (hh : V.ptType ≠ .hev) (hcos : F.cosAtan 0 = 1) {cyc : Cyc K}
    (hg : ∀ x ∈ cyc, x.g = 0) (ht : cyc.times.Pairwise (· < ·)) (a b c cd rr : K) {s : Sim K}
    (h : simDrive F (realHooks F { V with dragCoef := cd, wheelRrCoef := rr } newParams)
      { V with dragCoef := cd, wheelRrCoef := rr } newParams (Sim.new cyc) none none = .ok s)
    (hmet : s.rows.map (fun r => r.ach.mpsAch) = cyc.speeds) {k : Nat} (hk : 2 ≤ k)
    (hcut : (cyc.speeds.findIdx? fun v => decide (v < 1 / 10)) = some k)
    (h0 : dynoN a b c (cyc.speeds.getD 0 0 * mphPerMps) ≠ 0) :
    ∃ e, rsCost F RH V cyc a b c cd rr = .ok e ∧ 0 < e := by
  obtain ⟨e, he, hpos⟩ := C76_never_exact (V := V) (P := newParams)
    (H := realHooks F { V with dragCoef := cd, wheelRrCoef := rr } newParams) realHooks_local rfl rfl rfl hcos hg ht a b c cd rr h
    hmet hk hcut h0
  refine ⟨e, (C113_cost (F := F) (RH := RH) hV hh (ht.imp le_of_lt) a b c cd rr (s := s) ?_).1 e he, hpos⟩
  rw [← h]
  apply simDrive_same
  exact ⟨rfl, rfl, fun _ => rfl⟩

/-- **C113 (the flags).** The cost sets `impose_coast` for every sample. Nothing comes of it: a run of the Rust core starts by
clearing the flags, as it does with all result arrays and counters, so whatever was written to them has no effect. -/
theorem C113_flags (U : Veh K) (P : SimParams K) (s : Sim K) (rows : List (Row K)) (aux' : List K) (impose : List Bool)
    (delay : List Int) (tgt : List K) (miss : List Nat) (i n : Nat) (init : Option K) (aux : Option (List K)) :
    rsDrive F RH U P
      { s with
        rows := rows, aux := aux', impose := impose, coastDelay := delay
        idmTarget := tgt, missIters := miss, i := i, hevCount := n } init aux =
    rsDrive F RH U P s init aux := by
  have hw : ∀ (m : Nat) (soc : K), rsWalk F RH U P
      { s with
        rows := rows, aux := aux', impose := impose, coastDelay := delay
        idmTarget := tgt, missIters := miss, i := i, hevCount := m } soc aux =
      rsWalk F RH U P { s with hevCount := m } soc aux := fun _ _ => rfl
  unfold rsDrive
  cases init with
  | some soc => exact hw 0 soc
  | none =>
    simp only
    cases U.ptType with
    | conv => exact hw 0 _
    | phev => exact hw 0 _
    | bev => exact hw 0 _
    | hev =>
      simp only
      rw [rsHevLoop, rsHevLoop]
      by_cases hb : U.essToFuelOkError < 1 ∧ 0 < P.simCountMax
      · rw [dif_pos hb, dif_pos hb]
        rfl
      · rw [dif_neg hb, dif_neg hb]
        exact hw 0 _

end Cost

section Demo
open Demo

/-- The conventional car on a level trace that falls to a stop: the run completes, keeps to the trace, and both programs give the
error the same positive value; a trace that never stops is refused by python and compared whole by the Rust core. -/
theorem C113_setting :
    RsOk quick ∧ quick.ptType ≠ .hev ∧ rollDown.times.Pairwise (· < ·) ∧
    (match simDrive fns noHooks { quick with dragCoef := 3 / 10, wheelRrCoef := 1 / 100 } newParams
        (Sim.new rollDown) none none with
      | .ok s => decide (s.rows.map (fun r => r.ach.mpsAch) = rollDown.speeds)
      | .error _ => false) = true ∧
    (match rsCost fns rsNoHooks quick rollDown 30 (1/2) (1/50) (3/10) (1/100),
        coastDownErr fns noHooks quick newParams rollDown 30 (1/2) (1/50) (3/10) (1/100) with
      | .ok e, .ok e' => decide (e = e' ∧ 0 < e)
      | _, _ => false) = true ∧
    (match rsCost fns rsNoHooks quick (rollDown.take 3) 30 (1/2) (1/50) (3/10) (1/100),
        coastDownErr fns noHooks quick newParams (rollDown.take 3) 30 (1/2) (1/50) (3/10) (1/100) with
      | .ok e, .error .indexError => decide (0 < e)
      | _, _ => false) = true := by
  refine ⟨C98_setting.1, by decide, by decide +kernel, by decide +kernel, by decide +kernel, by decide +kernel⟩

/-- The hypotheses of the fit are met: for the car, at drag 0.3 and rolling resistance 0.01, the objective on the fall from
70 mph has a positive value. -/
theorem C113_fit_setting :
    (match coastDownErr fns (realHooks fns { quick with dragCoef := 3 / 10, wheelRrCoef := 1 / 100 } newParams) quick newParams
        coastCyc 30 (1/2) (1/50) (3/10) (1/100) with
      | .ok e => decide (0 < e)
      | .error _ => false) = true := by
  decide +kernel

end Demo
end Fastsim.Props
