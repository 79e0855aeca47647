import Verif.Props.FuelStore
import Verif.Model.Coast

/-!
# C50: coasting does not look at the fuel storage limit
-/

set_option linter.unusedSectionVars false

namespace Fastsim.Props
open Fastsim Spec

section Lawless
variable {K : Type*} [Zero K] [One K] [NatCast K] [Add K] [Sub K] [Mul K] [Div K] [Neg K]
  [LinearOrder K]
variable {F : Fns K} {V : Veh K} {P : SimParams K}

theorem blot_mps (s : Sim K) (i : Nat) :
    ((blot s).rows.getD i Row.zero).ach.mpsAch = (s.rows.getD i Row.zero).ach.mpsAch := by
  have e : ((blot s).rows.getD i Row.zero) = blotRow (s.rows.getD i Row.zero) ∨
      ((blot s).rows.getD i Row.zero) = s.rows.getD i Row.zero := by
    simp only [blot, List.getD_eq_getElem?_getD, List.getElem?_map]
    cases s.rows[i]? with
    | none => right; rfl
    | some r => left; rfl
  rcases e with e | e <;> rw [e] <;> rfl

theorem blot_blot (s : Sim K) : blot (blot s) = blot s := by
  have : (blotRow ∘ blotRow : Row K → Row K) = blotRow := rfl
  simp only [blot, List.map_map, this]

end Lawless

section Floor
variable {K : Type*} [Field K] [LinearOrder K] [FloorRing K]
variable {F : Fns K} {V : Veh K} {P : SimParams K}

theorem coastIter_fs (a b : K) (c0 : Cyc K) (u : Option K) (d0 d v dt : K) : ∀ (n : Nat) (x g k w : K),
    coastIter F (withFuelStore V a b) P c0 u d0 d v dt n x g k w = coastIter F V P c0 u d0 d v dt n x g k w
  | 0, _, _, _, _ => rfl
  | n + 1, x, g, k, w => by
    have e : ∀ v g, calcDvdd F (withFuelStore V a b) P v g = calcDvdd F V P v g := fun _ _ => rfl
    simp only [coastIter, e, coastIter_fs a b c0 u d0 d v dt n]

theorem coastStep_fs (a b : K) (c0 : Cyc K) (u : Option K) (d0 d v dt : K) :
    coastStep F (withFuelStore V a b) P c0 u d0 d v dt = coastStep F V P c0 u d0 d v dt := by
  have e : ∀ v g, calcDvdd F (withFuelStore V a b) P v g = calcDvdd F V P v g := fun _ _ => rfl
  simp only [coastStep, e, coastIter_fs]

theorem coastLoop_fs (a b : K) (c0 : Cyc K) (u : Option K) (len : Nat) (d0 dM dt0 : K) :
    ∀ (m : Nat) (v d : K) (idx : Nat) (acc : List K),
    coastLoop F (withFuelStore V a b) P c0 u len d0 dM dt0 m v d idx acc
      = coastLoop F V P c0 u len d0 dM dt0 m v d idx acc
  | 0, _, _, _, _ => rfl
  | m + 1, v, d, idx, acc => by
    simp only [coastLoop, coastStep_fs, coastLoop_fs a b c0 u len d0 dM dt0 m]

theorem coastPlan_blot (a b : K) (s : Sim K) :
    coastPlan F (withFuelStore V a b) P (blot s) = coastPlan F V P s := by
  unfold coastPlan
  simp only [coastLoop_fs, blot_mps]
  simp only [blot, List.length_map]

theorem coastPlan_blot' (s : Sim K) : coastPlan F V P (blot s) = coastPlan F V P s := by
  unfold coastPlan
  simp only [blot_mps]
  simp only [blot, List.length_map]

/-- The outcome with the object blotted. -/
def blotSnd {α : Type*} : Except PyErr (α × Sim K) → Except PyErr (α × Sim K)
  | .ok r => .ok (r.1, blot r.2)
  | .error e => .error e

theorem generateCoast_blot (a b : K) (s : Sim K) (m : Bool) :
    generateCoast F (withFuelStore V a b) P (blot s) m = blotSnd (generateCoast F V P s m) := by
  unfold generateCoast
  simp only [coastPlan_blot, blot_mps]
  have h0 : (blot s).cyc0 = s.cyc0 := rfl
  have h1 : (blot s).cyc = s.cyc := rfl
  have h2 : (blot s).i = s.i := rfl
  have h3 : (blot s).impose = s.impose := rfl
  rw [h0, h1, h2, h3]
  split
  · rfl
  split
  · rfl
  split
  · rfl
  split
  · cases m
    · rfl
    · simp only [if_true]
      cases modifyWithBraking s.cyc P.coastBrakeAccel s.i none <;> rfl
  · cases coastPlan F V P s with
    | none => rfl
    | some r =>
      obtain ⟨e, d⟩ := r
      cases m
      · rfl
      · simp only [if_true]
        cases modifyWithBraking (writeSpeeds s.cyc s.i e.speeds) P.coastBrakeAccel
          (s.i + e.speeds.length) (some d) <;> rfl

theorem distToStopCoast_blot (a b : K) (s : Sim K) :
    distToStopCoast F (withFuelStore V a b) P (blot s) = distToStopCoast F V P s := by
  unfold distToStopCoast
  simp only [generateCoast_blot]
  have h0 : (blot s).cyc0 = s.cyc0 := rfl
  have h1 : (blot s).cyc = s.cyc := rfl
  have h2 : (blot s).i = s.i := rfl
  have h4 : (withFuelStore V a b).wheelRrCoef = V.wheelRrCoef := rfl
  have h5 : (withFuelStore V a b).dragCoef = V.dragCoef := rfl
  have h6 : (withFuelStore V a b).frontalAreaM2 = V.frontalAreaM2 := rfl
  have h7 : (withFuelStore V a b).vehKg = V.vehKg := rfl
  rw [h0, h1, h2, h4, h5, h6, h7]
  split
  · rfl
  split
  · rfl
  split
  · rfl
  · cases generateCoast F V P s false <;> rfl

theorem shouldImposeCoast_blot (a b : K) (s : Sim K) :
    shouldImposeCoast F (withFuelStore V a b) P (blot s) = shouldImposeCoast F V P s := by
  unfold shouldImposeCoast
  simp only [distToStopCoast_blot, blot_mps]
  rfl

theorem fullBrakeLoop_blot (ab : K) (idx : Nat) : ∀ (m fbs : Nat) (s : Sim K),
    fullBrakeLoop ab idx m fbs (blot s) = blot (fullBrakeLoop ab idx m fbs s)
  | 0, _, _ => rfl
  | m + 1, fbs, s => by
    unfold fullBrakeLoop
    simp only
    rw [← fullBrakeLoop_blot ab idx m (fbs + 1)]
    rfl

theorem applyRendezvous_blot (ab : K) (s : Sim K) (r : Rendezvous K) :
    applyRendezvous ab (blot s) r = blot (applyRendezvous ab s r) := by
  unfold applyRendezvous
  simp only
  rw [fullBrakeLoop_blot]
  rfl

theorem collisionSearch_blot (s : Sim K) (col : PassingInfo K) : ∀ (m fbs : Nat),
    collisionSearch P (blot s) col m fbs = collisionSearch P s col m fbs
  | 0, _ => rfl
  | m + 1, fbs => by
    have e : (blot s).rows.length = s.rows.length := by simp [blot]
    have h1 : (blot s).cyc = s.cyc := rfl
    have h2 : (blot s).i = s.i := rfl
    have h3 : (blot s).impose = s.impose := rfl
    simp only [collisionSearch, e, h1, h2, h3, collisionSearch_blot s col m]

theorem preventCollisions_blot (s : Sim K) : ∀ (fuel : Nat) (tol : K),
    preventCollisions P (blot s) fuel tol = blotSnd (preventCollisions P s fuel tol)
  | 0, _ => rfl
  | n + 1, tol => by
    have h0 : (blot s).cyc0 = s.cyc0 := rfl
    have h1 : (blot s).cyc = s.cyc := rfl
    have h2 : (blot s).i = s.i := rfl
    simp only [preventCollisions, h0, h1, h2, collisionSearch_blot, preventCollisions_blot s n,
      applyRendezvous_blot]
    split
    · rfl
    split
    · rfl
    cases collisionSearch P s (detectPassing s.cyc s.cyc0 s.i tol) 4 0 with
    | some r => rfl
    | none =>
      simp only
      split <;> split <;> rfl

theorem startCoast_blot (a b : K) (s : Sim K) :
    startCoast F (withFuelStore V a b) P (blot s) = blotted (startCoast F V P s) := by
  unfold startCoast
  simp only [shouldImposeCoast_blot, generateCoast_blot, blot_mps]
  have h2 : (blot s).i = s.i := rfl
  have h3 : (blot s).impose = s.impose := rfl
  rw [h2, h3]
  split
  · cases shouldImposeCoast F V P s with
    | error e => rfl
    | ok c =>
      cases c with
      | false => rfl
      | true =>
        simp only
        cases generateCoast F V P s true with
        | error e => rfl
        | ok r =>
          obtain ⟨d, t⟩ := r
          have e : (if d < 0 then { (blot t) with impose := setFrom (blot t).impose (blot t).i false } else blot t)
              = blot (if d < 0 then { t with impose := setFrom t.impose t.i false } else t) := by
            split <;> rfl
          simp only [blotSnd, e, preventCollisions_blot]
          split
          · rfl
          · cases preventCollisions P _ 12 1 <;> rfl
  · rfl

theorem replanCoast_blot (s : Sim K) (x : K) :
    replanCoast P (blot s) x = blotSnd (replanCoast P s x) := by
  unfold replanCoast
  have h1 : (blot s).cyc = s.cyc := rfl
  have h2 : (blot s).i = s.i := rfl
  have h3 : (blot s).impose = s.impose := rfl
  have h4 : ∀ y z, nextRendezvous P (blot s) y z = nextRendezvous P s y z := fun _ _ => rfl
  simp only [h1, h2, h3, h4]
  split
  · cases modifyWithBraking s.cyc P.coastBrakeAccel s.i none <;> rfl
  split
  · rfl
  cases nextRendezvous P s P.coastBrakeAccel (min x 0) with
  | none => rfl
  | some r =>
    simp only
    split
    · cases modifyWithBraking _ P.coastBrakeAccel (s.i + r.n) none <;> rfl
    · rfl

theorem coastSolve_blot (a b : K) {s s' : Sim K} (h : blot s = blot s') :
    blot (coastSolve F (withFuelStore V a b) P s) = blot (coastSolve F V P s') := by
  have e := solve_blot (F := F) (V := V) (P := P) a b h
  obtain ⟨h0, h1, h2, h3, h4, h5, h6, h7, h8, h9⟩ := blot_inj e
  unfold coastSolve
  refine blot_mk h0 ?_ ?_ h3 h4 h5 h6 h7 h8 h9
  · simp only
    rw [h1, h8, blotRow_ach (blotRow_getD h2 _)]
  · simp only
    rw [h8]
    have hm : ∀ (l : List (Row K)) (i : Nat),
        (l.modify i fun r => { r with ach := { r.ach with newtonIters := 0 } }).map blotRow
        = (l.map blotRow).modify i fun r => { r with ach := { r.ach with newtonIters := 0 } } := by
      intro l
      induction l with
      | nil => intro i; cases i <;> rfl
      | cons r l ih =>
        intro i
        cases i with
        | zero => rfl
        | succ n => simp only [List.modify_succ_cons, List.map_cons, ih]
    rw [hm, hm, h2]

theorem coastSolve_blot' (a b : K) (s : Sim K) :
    blot (coastSolve F (withFuelStore V a b) P (blot s)) = blot (coastSolve F V P s) :=
  coastSolve_blot a b (blot_blot s)

theorem startCoast_same (a b : K) {s s' : Sim K} (h : blot s = blot s') :
    blotted (startCoast F (withFuelStore V a b) P s) = blotted (startCoast F V P s') := by
  rw [← startCoast_blot a b s', ← h]
  exact (startCoast_blot (V := withFuelStore V a b) a b s).symm

theorem setCoastDelay_blot {s s' : Sim K} (h : blot s = blot s') :
    blot (setCoastDelay P s) = blot (setCoastDelay P s') := by
  have e : ∀ t : Sim K, setCoastDelay P (blot t) = blot (setCoastDelay P t) := by
    intro t
    unfold setCoastDelay
    simp only [apply_ite blot]
    have h0 : (blot t).cyc0 = t.cyc0 := rfl
    have h1 : (blot t).cyc = t.cyc := rfl
    have h2 : (blot t).i = t.i := rfl
    have h3 : (blot t).coastDelay = t.coastDelay := rfl
    rw [h0, h1, h2, h3]
    split
    · rfl
    · split <;> rfl
  rw [← e, ← e, h]

/-- Coasting does not look at the fuel storage or at the record of its limit. -/
theorem coastHook_same (a b : K) : SameMode (coastHook F (withFuelStore V a b) P) (coastHook F V P) := by
  intro s s' h
  have e1 := startCoast_same (F := F) (V := V) (P := P) a b h
  unfold coastHook
  cases x1 : startCoast F V P s' with
  | error e =>
    rw [x1] at e1
    rw [blotted_err (e := e) e1]
  | ok t' =>
    rw [x1] at e1
    obtain ⟨t, y1, z1⟩ := blotted_ok e1
    rw [y1]
    simp only
    clear e1 x1 y1 h
    obtain ⟨h0, h1, h2, h3, h4, h5, h6, h7, h8, h9⟩ := blot_inj z1
    obtain ⟨R, ht⟩ : ∃ R, t = { t' with rows := R } := by
      refine ⟨t.rows, ?_⟩
      cases t; cases t'
      simp_all
    subst ht
    simp only at h2 ⊢
    rw [blotRow_ach (blotRow_getD h2 (t'.i - 1))]
    split
    · split
      · simp only [blotted, z1]
      · simp only [blotted, Except.ok.injEq]
        exact blot_mk rfl rfl h2 rfl rfl rfl rfl rfl rfl rfl
    · generalize hu : (if P.coastBrakeStartSpeed < (t'.rows.getD (t'.i - 1) Row.zero).ach.mpsAch then
          ({ t' with cyc := setSpeed t'.cyc t'.i (if P.coastAllowPassing then P.coastMaxSpeed
            else min (t'.cyc.speeds.getD t'.i 0) P.coastMaxSpeed), rows := R } : Sim K)
          else { t' with rows := R }) = u
      generalize hu' : (if P.coastBrakeStartSpeed < (t'.rows.getD (t'.i - 1) Row.zero).ach.mpsAch then
          { t' with cyc := setSpeed t'.cyc t'.i (if P.coastAllowPassing then P.coastMaxSpeed
            else min (t'.cyc.speeds.getD t'.i 0) P.coastMaxSpeed) } else t') = u'
      have q : blot u = blot u' := by
        rw [← hu, ← hu']
        split
        · exact blot_mk rfl rfl h2 rfl rfl rfl rfl rfl rfl rfl
        · exact z1
      have w := coastSolve_blot (F := F) (V := V) (P := P) a b q
      generalize coastSolve F (withFuelStore V a b) P u = y at w ⊢
      generalize coastSolve F V P u' = y' at w ⊢
      obtain ⟨k0, k1, k2, k3, k4, k5, k6, k7, k8, k9⟩ := blot_inj w
      obtain ⟨R', hy⟩ : ∃ R', y = { y' with rows := R' } := by
        refine ⟨y.rows, ?_⟩
        cases y; cases y'
        simp_all
      subst hy
      simp only at k2 ⊢
      split
      · simp only [blotted, Except.ok.injEq]
        have g := setCoastDelay_blot (P := P) (s := { y' with impose := setFrom y'.impose y'.i false, rows := R' })
          (s' := { y' with impose := setFrom y'.impose y'.i false })
          (blot_mk rfl rfl k2 rfl rfl rfl rfl rfl rfl rfl)
        generalize setCoastDelay P { y' with impose := setFrom y'.impose y'.i false, rows := R' } = c at g ⊢
        generalize setCoastDelay P { y' with impose := setFrom y'.impose y'.i false } = c' at g ⊢
        have : ∀ (r r' : Sim K), blot r = blot r' →
            blot { r with cyc := setSpeed r.cyc r.i 0 } = blot { r' with cyc := setSpeed r'.cyc r'.i 0 } := by
          intro r r' hr
          exact congrArg (fun r : Sim K => { r with cyc := setSpeed r.cyc r.i 0 }) hr
        exact this _ _ g
      split
      · have hr : ∀ x, blotSnd (replanCoast P { y' with rows := R' } x) = blotSnd (replanCoast P y' x) := by
          intro x
          rw [← replanCoast_blot, ← replanCoast_blot, w]
        specialize hr ((y'.cyc.speeds.getD y'.i 0 - y'.cyc.speeds.getD (y'.i - 1) 0) / dtAt y'.cyc y'.i)
        generalize replanCoast P { y' with rows := R' } _ = g at hr ⊢
        generalize replanCoast P y' _ = g' at hr ⊢
        rcases g with e | ⟨c, r⟩ <;> rcases g' with e' | ⟨c', r'⟩
        · simp only [blotSnd, Except.error.injEq] at hr
          rw [hr]
        · simp [blotSnd] at hr
        · simp [blotSnd] at hr
        · simp only [blotSnd, Except.ok.injEq, Prod.mk.injEq] at hr
          obtain ⟨rfl, hr⟩ := hr
          cases c
          · simp only [blotted, hr]
          · simp only
            split
            · simp only [blotted, Except.ok.injEq]
              exact coastSolve_blot a b hr
            · have hp : blotSnd (preventCollisions P r 12 1) = blotSnd (preventCollisions P r' 12 1) := by
                rw [← preventCollisions_blot, ← preventCollisions_blot, hr]
              generalize preventCollisions P r 12 1 = g at hp ⊢
              generalize preventCollisions P r' 12 1 = g' at hp ⊢
              rcases g with e | ⟨c, p⟩ <;> rcases g' with e' | ⟨c', p'⟩
              · simp only [blotSnd, Except.error.injEq] at hp
                rw [hp]
              · simp [blotSnd] at hp
              · simp [blotSnd] at hp
              · simp only [blotSnd, Except.ok.injEq, Prod.mk.injEq] at hp
                simp only [blotted, Except.ok.injEq]
                exact coastSolve_blot a b hp.2
      · simp only [blotted, w]

/-- **C50 (all driving modes of the code).** Rating and ramp time of the fuel storage have no effect on a
run but on the record `cur_max_fs_kw_out`. -/
theorem C50_real (a b : K) (s : Sim K) (init : Option K) (aux : Option (List K)) :
    blotted (simDrive F (realHooks F (withFuelStore V a b) P) (withFuelStore V a b) P s init aux)
      = blotted (simDrive F (realHooks F V P) V P s init aux) :=
  C50_no_effect a b (fun _ => idmHook_same) (fun _ => coastHook_same a b) s init aux

end Floor
end Fastsim.Props
