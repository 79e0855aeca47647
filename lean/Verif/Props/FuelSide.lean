import Verif.Props.Ignored
import Verif.Props.Real
import Verif.Props.Engine
import Verif.Props.VehicleEff
import Verif.Props.VehicleMass

/-!
# C84: what the engine's efficiency curve decides, and what it does not

The efficiency curve and the fuel storage data only decide how much fuel is used: the drive is the same. So a better
curve never uses more fuel, and setting the peak efficiency scales the fuel economy by the same factor.
-/

set_option linter.unusedSectionVars false

namespace Fastsim.Spec
open Fastsim
variable {K : Type*}

/-- The vehicle with another efficiency curve and other fuel storage ratings. The powers at which the curve is given
and the engine power of best efficiency stay. -/
def withFuelSide (V : Veh K) (eff : List K) (fsMax fsSecs : K) : Veh K :=
  { V with fcEffArray := eff, fsMaxKw := fsMax, fsSecsToPeakPwr := fsSecs }

/-- A row without its fuel use and its fuel storage limit. -/
def withoutFuel [Zero K] (r : Row K) : Row K :=
  { r with
    lims := { r.lims with curMaxFsKwOut := 0 }
    fc := { r.fc with fcKwInAch := 0, fsKwOutAch := 0, fsKwhOutAch := 0 } }

end Fastsim.Spec

namespace Fastsim.Props
open Fastsim Spec

section Field
variable {K : Type*} [Field K] [LinearOrder K]
variable {F : Fns K} {V : Veh K}

/-- A row with another fuel use. -/
def otherFuel (r : Row K) (a b c d : K) : Row K :=
  { r with
    lims := { r.lims with curMaxFsKwOut := a }
    fc := { r.fc with fcKwInAch := b, fsKwOutAch := c, fsKwhOutAch := d } }

theorem withoutFuel_iff {r r' : Row K} (h : withoutFuel r = withoutFuel r') :
    r' = otherFuel r r'.lims.curMaxFsKwOut r'.fc.fcKwInAch r'.fc.fsKwOutAch r'.fc.fsKwhOutAch := by
  obtain ⟨_, _, l, _, _, _, _, _, f⟩ := r
  obtain ⟨_, _, l', _, _, _, _, _, f'⟩ := r'
  cases l; cases l'; cases f; cases f'
  simp only [withoutFuel, Row.mk.injEq, Lims.mk.injEq, FcPow.mk.injEq, true_and, and_true] at h
  simp only [otherFuel, Row.mk.injEq, Lims.mk.injEq, FcPow.mk.injEq, true_and, and_true]
  tauto

/-- The fuel side as engine data. -/
def fuelData (V : Veh K) (eff : List K) (m t : K) : EngineData K :=
  ⟨m, t, V.fcSecToPeakPwr, V.fcKwOutArray, eff, V.minFcTimeOn, V.idleFcKw, V.mphFcOn, V.kwDemandFcOn,
    V.essToFuelOkError⟩

theorem withFuelSide_eq (V : Veh K) (eff : List K) (m t : K) :
    withFuelSide V eff m t = withEngineData V (fuelData V eff m t) := rfl

theorem withoutFuel_step (eff : List K) (m t : K) (P : StepParams K)
    (E : StepEnv K) {p p' : Row K} (hp : withoutFuel p = withoutFuel p') (st : Stale K) :
    withoutFuel (solveStep F V P E p st) = withoutFuel (solveStep F (withFuelSide V eff m t) P E p' st) := by
  rw [withoutFuel_iff hp]
  generalize p'.lims.curMaxFsKwOut = a
  generalize p'.fc.fcKwInAch = b
  generalize p'.fc.fsKwOutAch = c
  generalize p'.fc.fsKwhOutAch = d
  clear hp p'
  have hM : setMisc V E p = setMisc (withFuelSide V eff m t) E (otherFuel p a b c d) := rfl
  have hL : { setCompLims F V P E p (setMisc V E p) with curMaxFsKwOut := 0 }
      = { setCompLims F (withFuelSide V eff m t) P E (otherFuel p a b c d) (setMisc V E p) with
          curMaxFsKwOut := 0 } := rfl
  unfold solveStep
  simp only
  rw [← hM]
  generalize setMisc V E p = M at hL
  generalize setCompLims F V P E p M = L at hL
  generalize setCompLims F (withFuelSide V eff m t) P E (otherFuel p a b c d) M = L' at hL
  have hp : p.ach = (otherFuel p a b c d).ach := rfl
  have hw : setPowerCalcs F V P E p L st
      = setPowerCalcs F (withFuelSide V eff m t) P E (otherFuel p a b c d) L' st := by
    unfold setPowerCalcs
    rw [withFuelSide_eq]
    exact powerAt_engine _ P E hp hL _
  have hs : setAchSpeed F V P E p L (setPowerCalcs F V P E p L st) st
      = setAchSpeed F (withFuelSide V eff m t) P E (otherFuel p a b c d) L'
        (setPowerCalcs F (withFuelSide V eff m t) P E (otherFuel p a b c d) L' st) st := by
    rw [← hw]
    unfold setAchSpeed
    have h1 : L.curMaxTransKwOut = L'.curMaxTransKwOut := (congrArg Lims.curMaxTransKwOut hL :)
    rw [withFuelSide_eq]
    simp only [gradeLoop_engine, h1, powerAt_engine (fuelData V eff m t) P E hp hL]
    rfl
  rw [← hs]
  generalize setAchSpeed F V P E p L (setPowerCalcs F V P E p L st) st = w
  obtain ⟨x, hx⟩ : ∃ x, L' = { L with curMaxFsKwOut := x } := by
    refine ⟨L'.curMaxFsKwOut, ?_⟩
    cases L; cases L'
    simp only [Lims.mk.injEq, true_and] at hL ⊢
    tauto
  subst hx
  have hy : setHyb (withFuelSide V eff m t) E (otherFuel p a b c d) { L with curMaxFsKwOut := x } w.2
      = setHyb V E p L w.2 := rfl
  rw [hy]
  generalize setHyb V E p L w.2 = y
  have hf : setForced (withFuelSide V eff m t) E w.2 y = setForced V E w.2 y := rfl
  rw [hf]
  generalize setForced V E w.2 y = f
  have hd : setDec F (withFuelSide V eff m t) E (otherFuel p a b c d) M { L with curMaxFsKwOut := x } w.2 y f st
      = setDec F V E p M L w.2 y f st := rfl
  rw [hd]
  generalize setDec F V E p M L w.2 y f st = D
  rfl

theorem withoutFuel_view (eff : List K) (m t : K) (P : StepParams K) :
    RowView F P V (withFuelSide V eff m t) (fun r r' => withoutFuel r = withoutFuel r') where
  zero := rfl
  ach a := (congrArg Row.ach a :)
  out a := (congrArg (fun d => d.fc.fcKwOutAch) a :)
  step E st _ a := withoutFuel_step eff m t P E a st
  reset {r r'} a := (congrArg (fun d => { d with ach := { d.ach with newtonIters := 0 } }) a :)
  noElecAux := rfl
  auxKw := rfl
  altEff := rfl
  rr := rfl
  cd := rfl
  area := rfl
  kg := rfl

end Field

section Floor
variable {K : Type*} [Field K] [LinearOrder K] [FloorRing K]
variable {F : Fns K} {V : Veh K} {P : SimParams K}

/-- **C84 (same drive).** The efficiency curve of the engine and the ratings of the fuel storage decide nothing but the
fuel use: whole runs, in every driving mode and for every powertrain, raise the same exception or end with the same
cycles and the same records of every step, engine output and state of charge included, except for the fuel power, the
fuel energy and the record of the fuel storage limit. (Charge-balanced runs of hybrids, whose repetition the fuel use
decides, are the exception; with an initial state of charge they are included.) -/
theorem C84_same_drive (eff : List K) (fsMax fsSecs : K) (s : Sim K) (init : Option K) (aux : Option (List K))
    (hh : V.ptType ≠ .hev ∨ init ≠ none) :
    SameRun withoutFuel (simDrive F (realHooks F V P) V P s init aux)
      (simDrive F (realHooks F (withFuelSide V eff fsMax fsSecs) P) (withFuelSide V eff fsMax fsSecs) P s init
        aux) := by
  have W := withoutFuel_view (F := F) (V := V) eff fsMax fsSecs P.toStepParams
  have key : ∀ soc : K, SameRun withoutFuel
      (walk F (realHooks F V P) V P { s with hevCount := 0 } soc aux)
      (walk F (realHooks F (withFuelSide V eff fsMax fsSecs) P) (withFuelSide V eff fsMax fsSecs) P
        { s with hevCount := 0 } soc aux) := by
    intro soc
    refine sameRun_of_outRel (W.walk (fun _ => W.idm) (fun _ => W.coast)
      ⟨s.rows, ?_, rfl⟩ (fun _ _ => rfl) Iff.rfl aux)
    exact List.forall₂_same.2 fun _ _ => rfl
  have hpt : (withFuelSide V eff fsMax fsSecs).ptType = V.ptType := rfl
  unfold simDrive
  simp only [hpt]
  cases init with
  | some soc => exact key soc
  | none =>
    cases hv : V.ptType with
    | conv => exact key _
    | hev => exact absurd hv (hh.resolve_right fun h => h rfl)
    | phev => exact key _
    | bev => exact key _

end Floor

/-! ## Fuel -/

section Ordered
variable {K : Type*} [Field K] [LinearOrder K] [IsStrictOrderedRing K]
variable {F : Fns K} {H : Hooks K} {V : Veh K} {P : SimParams K}

/-- The fuel of every row of a run is what the engine takes for its output. -/
theorem row_fuel (hH : H.Local) {s : Sim K} (h : Finished F H V P s) :
    ∀ (i : Nat) (r : Row K), s.rows[i]? = some r →
      r.fc.fsKwOutAch = fcKwInAch V r.fc.fcKwOutAch ∧
      r.fc.fsKwhOutAch = r.fc.fsKwOutAch * (if i = 0 then 0 else dtAt s.cyc i) * (1 / 3600) := by
  intro i r hr
  have hlt : i < s.rows.length := (List.getElem?_eq_some_iff.mp hr).1
  rw [h.lenRows hH] at hlt
  rcases Nat.eq_zero_or_pos i with h0 | h1
  · subst h0
    obtain ⟨-, -, soc, -, h2⟩ := Reachable.inv hH h.reachable
    rw [h2] at hr
    cases hr
    refine ⟨?_, ?_⟩
    · show (0 : K) = fcKwInAch V 0
      unfold fcKwInAch; rw [if_pos rfl]
    · show (0 : K) = 0 * _ * _
      ring
  · obtain ⟨p, r', dt, a, hs⟩ := stepAt_exists hH h.reachable h1 (by rw [h.atEnd]; exact hlt)
    have he : r' = r := by
      have := hs.row; rw [hr] at this; exact (Option.some.inj this).symm
    subst he
    obtain ⟨E, st, e1, -, -, e4⟩ := StepAt.solve hH h.reachable hs
    have hi : i ≠ 0 := by omega
    rw [if_neg hi, ← hs.dt, ← e1, e4]
    exact ⟨rfl, rfl⟩

/-- A curve scaled by a factor, looked up. -/
theorem lookupM1_scale (arr vals : List K) (c x : K) :
    lookupM1 arr (vals.map fun e => e * c) x = lookupM1 arr vals x * c := by
  unfold lookupM1
  simp only
  split
  · rw [List.getLast?_map]
    cases vals.getLast? <;> simp
  · rw [List.getD_eq_getElem?_getD, List.getD_eq_getElem?_getD, List.getElem?_map]
    cases vals[argmaxGt arr x - 1]? <;> simp

theorem fcKwIn_scale {c : K} (hc : c ≠ 0) (m t : K) (out : K) :
    fcKwInAch V out = fcKwInAch (withFuelSide V (V.fcEffArray.map fun e => e * c) m t) out * c := by
  have e : fcEffAt (withFuelSide V (V.fcEffArray.map fun e => e * c) m t) out = fcEffAt V out * c := by
    unfold fcEffAt
    exact lookupM1_scale _ _ _ _
  unfold fcKwInAch
  rw [e]
  by_cases h0 : out = 0
  · simp [h0]
  · rw [if_neg h0, if_neg h0]
    by_cases h1 : fcEffAt V out = 0
    · simp [h1]
    · have h2 : fcEffAt V out * c ≠ 0 := mul_ne_zero h1 hc
      rw [if_pos h1, if_pos h2]
      field_simp

/-- A curve at least as good everywhere, looked up. -/
theorem lookupM1_le (arr : List K) {vals vals' : List K}
    (h : List.Forall₂ (fun a b => 0 < a ∧ a ≤ b) vals vals') (x : K) :
    (lookupM1 arr vals x = 0 ∧ lookupM1 arr vals' x = 0) ∨
      (0 < lookupM1 arr vals x ∧ lookupM1 arr vals x ≤ lookupM1 arr vals' x) := by
  have hget : ∀ k : Nat, (vals.getD k 0 = 0 ∧ vals'.getD k 0 = 0) ∨
      (0 < vals.getD k 0 ∧ vals.getD k 0 ≤ vals'.getD k 0) := by
    intro k
    induction h generalizing k with
    | nil => left; simp
    | cons a _ ih =>
      cases k with
      | zero => right; simpa using a
      | succ k => simpa using ih k
  have hlast : ∀ l : List K, l.getLast?.getD 0 = l.getD (l.length - 1) 0 := by
    intro l
    rw [List.getLast?_eq_getElem?, List.getD_eq_getElem?_getD]
  unfold lookupM1
  simp only
  split
  · rw [hlast, hlast, ← h.length_eq]; exact hget _
  · exact hget _

theorem fcKwIn_better {eff : List K} (h : List.Forall₂ (fun a b => 0 < a ∧ a ≤ b) V.fcEffArray eff) (m t : K)
    {out : K} (ho : 0 ≤ out) : fcKwInAch (withFuelSide V eff m t) out ≤ fcKwInAch V out := by
  have e : fcEffAt (withFuelSide V eff m t) out = lookupM1 V.fcKwOutArray eff (min out V.fcMaxKw) := rfl
  unfold fcKwInAch
  rw [e]
  unfold fcEffAt
  by_cases h0 : out = 0
  · simp [h0]
  · rw [if_neg h0, if_neg h0]
    rcases lookupM1_le V.fcKwOutArray h (min out V.fcMaxKw) with ⟨h1, h2⟩ | ⟨h1, h2⟩
    · rw [h1, h2]
    · rw [if_pos h1.ne', if_pos (h1.trans_le h2).ne']
      exact div_le_div_of_nonneg_left ho h1 h2

theorem map_sum_forall₂ {R : Row K → Row K → Prop} {l l' : List (Row K)} (h : List.Forall₂ R l l')
    {f : Row K → K} {c : K} (hf : ∀ r r', R r r' → f r = f r' * c) : (l.map f).sum = (l'.map f).sum * c := by
  induction h with
  | nil => simp
  | cons a _ ih => rw [List.map_cons, List.map_cons, List.sum_cons, List.sum_cons, hf _ _ a, ih]; ring

theorem zip_sum_forall₂ {R : Row K → Row K → Prop} {l l' : List (Row K)} (h : List.Forall₂ R l l')
    {f : Row K → K} {c : K} (hf : ∀ r r', R r r' → f r = f r' * c) (d : List K) :
    (List.zipWith (fun r dt => f r * dt) l d).sum = (List.zipWith (fun r dt => f r * dt) l' d).sum * c := by
  induction h generalizing d with
  | nil => simp
  | cons a _ ih =>
    cases d with
    | nil => simp
    | cons x d =>
      rw [List.zipWith_cons_cons, List.zipWith_cons_cons, List.sum_cons, List.sum_cons, hf _ _ a, ih]; ring

theorem forall₂_of_getElem? {α : Type*} {R : α → α → Prop} : ∀ {l l' : List α}, l.length = l'.length →
    (∀ (i : Nat) (a b : α), l[i]? = some a → l'[i]? = some b → R a b) → List.Forall₂ R l l'
  | [], [], _, _ => .nil
  | a :: l, b :: l', hl, h =>
    .cons (h 0 a b rfl rfl) (forall₂_of_getElem? (by simpa using hl) fun i x y hx hy =>
      h (i + 1) x y (by simpa using hx) (by simpa using hy))
  | [], _ :: _, hl, _ => by simp at hl
  | _ :: _, [], hl, _ => by simp at hl

end Ordered

section All
variable {K : Type*} [Field K] [LinearOrder K] [IsStrictOrderedRing K] [FloorRing K]
variable {F : Fns K} {V : Veh K} {P : SimParams K}

/-- Two runs of the same drive, step by step. -/
theorem same_drive_rows (eff : List K) (fsMax fsSecs : K) {s t t' : Sim K} {init : Option K} {aux : Option (List K)}
    (hh : V.ptType ≠ .hev ∨ init ≠ none) (hlen : s.cyc.length = s.cyc0.length)
    (ht : simDrive F (realHooks F V P) V P s init aux = .ok t)
    (ht' : simDrive F (realHooks F (withFuelSide V eff fsMax fsSecs) P) (withFuelSide V eff fsMax fsSecs) P s init
      aux = .ok t') :
    t.cyc = t'.cyc ∧ t.rows.length = t'.rows.length ∧
    ∀ (i : Nat) (r r' : Row K), t.rows[i]? = some r → t'.rows[i]? = some r' →
      withoutFuel r = withoutFuel r' ∧
      r.fc.fsKwOutAch = fcKwInAch V r.fc.fcKwOutAch ∧
      r'.fc.fsKwOutAch = fcKwInAch (withFuelSide V eff fsMax fsSecs) r.fc.fcKwOutAch ∧
      ∃ d, r.fc.fsKwhOutAch = r.fc.fsKwOutAch * d ∧ r'.fc.fsKwhOutAch = r'.fc.fsKwOutAch * d ∧
        (DtNonneg t → 0 ≤ d) := by
  have q := C84_same_drive (F := F) (P := P) (V := V) eff fsMax fsSecs s init aux hh
  rw [ht, ht'] at q
  obtain ⟨hr, hs⟩ := q
  have hc : t.cyc = t'.cyc := (congrArg Sim.cyc hs :)
  have f1 := Finished.simDrive realHooks_local hlen ht
  have f2 := Finished.simDrive realHooks_local hlen ht'
  refine ⟨hc, by have := congrArg List.length hr; simpa using this, ?_⟩
  intro i r r' h1 h2
  have hw : withoutFuel r = withoutFuel r' := by
    have := congrArg (fun l => l[i]?) hr
    simp only [List.getElem?_map, h1, h2, Option.map_some, Option.some.injEq] at this
    exact this
  have ho : r'.fc.fcKwOutAch = r.fc.fcKwOutAch := (congrArg (fun d => d.fc.fcKwOutAch) hw :).symm
  obtain ⟨a1, a2⟩ := row_fuel realHooks_local f1 i r h1
  obtain ⟨b1, b2⟩ := row_fuel realHooks_local f2 i r' h2
  refine ⟨hw, a1, by rw [b1, ho], (if i = 0 then 0 else dtAt t.cyc i) * (1 / 3600), ?_, ?_, ?_⟩
  · rw [a2, mul_assoc]
  · rw [b2, hc, mul_assoc]
  · intro hdt
    refine mul_nonneg ?_ (by norm_num)
    split
    · exact le_rfl
    · rename_i hi
      have hlt : i < t.rows.length := (List.getElem?_eq_some_iff.mp h1).1
      rw [f1.lenRows realHooks_local] at hlt
      exact hdt i (by omega) (by rw [f1.atEnd]; exact hlt)

/-- **C84 (proportional).** All efficiencies multiplied by one factor: the fuel power of every step, the fuel energy
and the fuel used are divided by it, and the fuel economy is multiplied by it. -/
theorem C84_proportional {c : K} (hc : c ≠ 0) (fsMax fsSecs : K) {s t t' : Sim K} {init : Option K}
    {aux : Option (List K)} (hh : V.ptType ≠ .hev ∨ init ≠ none) (hlen : s.cyc.length = s.cyc0.length)
    (ht : simDrive F (realHooks F V P) V P s init aux = .ok t)
    (ht' : simDrive F (realHooks F (withFuelSide V (V.fcEffArray.map fun e => e * c) fsMax fsSecs) P)
      (withFuelSide V (V.fcEffArray.map fun e => e * c) fsMax fsSecs) P s init aux = .ok t') (gge : K) :
    List.Forall₂ (fun r r' : Row K => r'.fc.fsKwOutAch = r.fc.fsKwOutAch / c ∧
      r'.fc.fsKwhOutAch = r.fc.fsKwhOutAch / c) t.rows t'.rows ∧
    fuelKj t' = fuelKj t / c ∧ totalFuelKwh t' = totalFuelKwh t / c ∧ totalMiles t' = totalMiles t ∧
    mpgge gge t' = mpgge gge t * c := by
  obtain ⟨hcyc, hl, hrows⟩ := same_drive_rows (F := F) (P := P) (V := V) _ fsMax fsSecs hh hlen ht ht'
  have hF : List.Forall₂ (fun r r' : Row K => r.fc.fsKwOutAch = r'.fc.fsKwOutAch * c ∧
      r.fc.fsKwhOutAch = r'.fc.fsKwhOutAch * c ∧ r.ach = r'.ach) t.rows t'.rows := by
    refine forall₂_of_getElem? hl fun i r r' h1 h2 => ?_
    obtain ⟨hw, a1, b1, d, d1, d2, -⟩ := hrows i r r' h1 h2
    have e : r.fc.fsKwOutAch = r'.fc.fsKwOutAch * c := by rw [a1, b1]; exact fcKwIn_scale hc _ _ _
    exact ⟨e, by rw [d1, d2, e]; ring, (congrArg Row.ach hw :)⟩
  have k1 : fuelKj t = fuelKj t' * c := by
    unfold fuelKj sumDt
    rw [npSum_eq, npSum_eq, hcyc]
    exact zip_sum_forall₂ hF (fun r r' h => h.1) _
  have k2 : totalFuelKwh t = totalFuelKwh t' * c := by
    unfold totalFuelKwh
    rw [npSum_eq, npSum_eq]
    exact map_sum_forall₂ hF (fun r r' h => h.2.1)
  have k3 : totalMiles t' = totalMiles t := by
    unfold totalMiles
    rw [npSum_eq, npSum_eq]
    have := map_sum_forall₂ (f := fun r : Row K => r.ach.distMi) (c := 1) hF (fun r r' h => by rw [h.2.2, mul_one])
    rw [this, mul_one]
  refine ⟨hF.imp fun r r' h => ⟨by rw [h.1]; field_simp, by rw [h.2.1]; field_simp⟩, ?_, ?_, k3, ?_⟩
  · rw [k1]; field_simp
  · rw [k2]; field_simp
  · unfold mpgge
    rw [k2, k3]
    by_cases h0 : totalFuelKwh t' = 0
    · rw [if_pos h0, if_pos (by rw [h0, zero_mul]), zero_mul]
    · rw [if_neg h0, if_neg (mul_ne_zero h0 hc)]
      by_cases hg : gge = 0
      · simp [hg]
      · field_simp

/-- **C84 (better curve).** An efficiency curve that is nowhere worse never uses more fuel, in no step and in no run,
and never has a lower fuel economy. -/
theorem C84_better {eff : List K} (hb : List.Forall₂ (fun a b => 0 < a ∧ a ≤ b) V.fcEffArray eff)
    (hV : EngineOk V) (fsMax fsSecs : K) {s t t' : Sim K} {init : Option K}
    {aux : Option (List K)} (hh : V.ptType ≠ .hev ∨ init ≠ none) (hlen : s.cyc.length = s.cyc0.length)
    (ht : simDrive F (realHooks F V P) V P s init aux = .ok t)
    (ht' : simDrive F (realHooks F (withFuelSide V eff fsMax fsSecs) P)
      (withFuelSide V eff fsMax fsSecs) P s init aux = .ok t') (hdt : DtNonneg t) :
    List.Forall₂ (fun r r' : Row K => r'.fc.fcKwOutAch = r.fc.fcKwOutAch ∧
      r'.fc.fsKwOutAch ≤ r.fc.fsKwOutAch ∧ r'.fc.fsKwhOutAch ≤ r.fc.fsKwhOutAch) t.rows t'.rows ∧
    totalFuelKwh t' ≤ totalFuelKwh t ∧ totalMiles t' = totalMiles t ∧
    ∀ gge : K, 0 < gge → 0 ≤ totalMiles t → 0 < totalFuelKwh t' → mpgge gge t ≤ mpgge gge t' := by
  obtain ⟨hcyc, hl, hrows⟩ := same_drive_rows (F := F) (P := P) (V := V) _ fsMax fsSecs hh hlen ht ht'
  have f1 := Finished.simDrive realHooks_local hlen ht
  have hF : List.Forall₂ (fun r r' : Row K => (r'.fc.fcKwOutAch = r.fc.fcKwOutAch ∧
      r'.fc.fsKwOutAch ≤ r.fc.fsKwOutAch ∧ r'.fc.fsKwhOutAch ≤ r.fc.fsKwhOutAch) ∧ r.ach = r'.ach)
      t.rows t'.rows := by
    refine forall₂_of_getElem? hl fun i r r' h1 h2 => ?_
    obtain ⟨hw, a1, b1, d, d1, d2, d3⟩ := hrows i r r' h1 h2
    have ho : 0 ≤ r.fc.fcKwOutAch := by
      have hlt : i < t.rows.length := (List.getElem?_eq_some_iff.mp h1).1
      rw [f1.lenRows realHooks_local] at hlt
      exact engine_nonneg realHooks_local hV f1.reachable hdt i r (by rw [f1.atEnd]; exact hlt) h1
    have e : r'.fc.fsKwOutAch ≤ r.fc.fsKwOutAch := by rw [a1, b1]; exact fcKwIn_better hb _ _ ho
    exact ⟨⟨(congrArg (fun d => d.fc.fcKwOutAch) hw :).symm, e, by
      rw [d1, d2]; exact mul_le_mul_of_nonneg_right e (d3 hdt)⟩, (congrArg Row.ach hw :)⟩
  have k2 : totalFuelKwh t' ≤ totalFuelKwh t := by
    unfold totalFuelKwh
    rw [npSum_eq, npSum_eq]
    clear ht ht' hrows f1 hdt hl
    generalize t.rows = l at hF
    generalize t'.rows = l' at hF
    induction hF with
    | nil => simp
    | cons a _ ih =>
      rw [List.map_cons, List.map_cons, List.sum_cons, List.sum_cons]
      exact add_le_add a.1.2.2 ih
  have k3 : totalMiles t' = totalMiles t := by
    unfold totalMiles
    rw [npSum_eq, npSum_eq]
    have := map_sum_forall₂ (f := fun r : Row K => r.ach.distMi) (c := 1) hF (fun r r' h => by rw [h.2, mul_one])
    rw [this, mul_one]
  refine ⟨hF.imp fun r r' h => h.1, k2, k3, ?_⟩
  intro gge hg hm hp
  have hp' : 0 < totalFuelKwh t := hp.trans_le k2
  unfold mpgge
  rw [if_neg hp.ne', if_neg hp'.ne', k3]
  exact div_le_div_of_nonneg_left hm (div_pos hp hg) (div_le_div_of_nonneg_right k2 hg.le)

theorem argmaxIdx_scale (l : List K) {c : K} (hc : 0 < c) : argmaxIdx (l.map fun e => e * c) = argmaxIdx l := by
  unfold argmaxIdx
  rw [listMax_scale l hc.le, List.findIdx_map]
  congr 1
  funext x
  exact decide_eq_decide.2 (mul_le_mul_iff_left₀ hc)

/-- Setting the peak efficiency, as the simulation sees it. -/
theorem setFcPeak_view {o : VehObj K} {V V' : Veh K} {x : K} (hx : 0 < x) (hp : 0 < o.fcPeak)
    (hv : o.view = .ok V) (hv' : (o.setFcPeak x).view = .ok V') :
    V' = withFuelSide V (V.fcEffArray.map fun e => e * (x / o.fcPeak)) V.fsMaxKw V.fsSecsToPeakPwr := by
  have hc : 0 < x / o.fcPeak := div_pos hx hp
  rw [(C38_engine_peak o hx hp).2.2] at hv'
  unfold VehObj.view at hv hv'
  rw [show ({ o with fcEffArray := (o.setFcPeak x).fcEffArray } : VehObj K).mcPeak = o.mcPeak from rfl] at hv'
  generalize o.mcPeak = m at hv hv'
  cases m with
  | error e => simp at hv
  | ok y =>
    simp only [Except.ok.injEq] at hv hv'
    subst hv
    rw [← hv']
    have e : argmaxIdx (o.setFcPeak x).fcEffArray = argmaxIdx o.fcEffArray := argmaxIdx_scale _ hc
    simp only [e]
    rfl

/-- **C84 (`fc_peak_eff = x`).** Setting the peak efficiency of the engine leaves the drive as it is, scales the fuel
of every step and of the run by old peak over new peak, and the fuel economy by new peak over old peak. -/
theorem C84_peak {o : VehObj K} {V V' : Veh K} {x : K} (hx : 0 < x) (hp : 0 < o.fcPeak)
    (hv : o.view = .ok V) (hv' : (o.setFcPeak x).view = .ok V') {s t t' : Sim K} {init : Option K}
    {aux : Option (List K)} (hh : V.ptType ≠ .hev ∨ init ≠ none) (hlen : s.cyc.length = s.cyc0.length)
    (ht : simDrive F (realHooks F V P) V P s init aux = .ok t)
    (ht' : simDrive F (realHooks F V' P) V' P s init aux = .ok t') (gge : K) :
    t'.rows.map withoutFuel = t.rows.map withoutFuel ∧
    fuelKj t' = fuelKj t * (o.fcPeak / x) ∧ totalFuelKwh t' = totalFuelKwh t * (o.fcPeak / x) ∧
    mpgge gge t' = mpgge gge t * (x / o.fcPeak) := by
  have e := setFcPeak_view hx hp hv hv'
  rw [e] at ht'
  have q := C84_same_drive (F := F) (P := P) (V := V) (V.fcEffArray.map fun e => e * (x / o.fcPeak)) V.fsMaxKw
    V.fsSecsToPeakPwr s init aux hh
  rw [ht, ht'] at q
  obtain ⟨-, h1, h2, -, h3⟩ := C84_proportional (F := F) (P := P) (V := V) (div_pos hx hp).ne' _ _ hh hlen ht ht' gge
  refine ⟨q.1.symm, ?_, ?_, h3⟩
  · rw [h1, div_div_eq_mul_div, mul_div_assoc]
  · rw [h2, div_div_eq_mul_div, mul_div_assoc]

end All

open Demo

/-- The same car with a better engine and a smaller fuel pump. -/
def thrifty : Veh ℚ := withFuelSide conv [1 / 10, 1 / 4, 2 / 5, 2 / 5] 40 2

/-- A conventional car on the demo cycle, its thrifty version, and the same car object after `fc_peak_eff = 0.4`:
all the runs succeed, fuel is used, and the fuel economy goes up as the theorems say. -/
theorem C84_demo : EngineOk conv ∧
    List.Forall₂ (fun a b => 0 < a ∧ a ≤ b) conv.fcEffArray [1 / 10, 1 / 4, 2 / 5, 2 / 5] ∧
    (match simDrive fns (realHooks fns conv params) conv params (Sim.new cyc) none none,
        simDrive fns (realHooks fns thrifty params) thrifty params (Sim.new cyc) none none with
      | .ok t, .ok t' => decide (∀ i, i < t.i → 1 ≤ i → 0 ≤ dtAt t.cyc i) &&
          decide (0 < totalMiles t) && decide (0 < totalFuelKwh t') && decide (totalFuelKwh t' < totalFuelKwh t) &&
          decide (mpgge 33 t < mpgge 33 t')
      | _, _ => false) = true ∧
    (match convObj.setDerived with
      | .ok o =>
        (match o.view, (o.setFcPeak (2 / 5)).view with
          | .ok V, .ok V' =>
            (match simDrive fns (realHooks fns V params) V params (Sim.new cyc) none none,
                simDrive fns (realHooks fns V' params) V' params (Sim.new cyc) none none with
              | .ok t, .ok t' => decide (V.ptType ≠ .hev) && decide (0 < o.fcPeak) && decide (0 < totalFuelKwh t) &&
                  decide (0 < mpgge 33 t) && decide (mpgge 33 t' = mpgge 33 t * (2 / 5 / o.fcPeak))
              | _, _ => false)
          | _, _ => false)
      | .error _ => false) = true := by
  refine ⟨⟨by decide +kernel, by decide +kernel⟩, ?_, by decide +kernel, by decide +kernel⟩
  show List.Forall₂ _ [(1 / 10 : ℚ), 1 / 5, 7 / 20, 3 / 10] _
  repeat (first | exact .nil | refine .cons (by norm_num) ?_)

end Fastsim.Props
