import Verif.Lemmas.Nonneg
import Verif.Model.Coast

/-!
# What eco-coasting may do to the object

Every effect of `_set_coast_speed` is a sequence of elementary edits (`CoastEdit`): a speed at or after
the current index, the coasting flags, or a solve of the current step.
-/

set_option linter.unusedSectionVars false

namespace Fastsim
open Spec

section Lawless
variable {K : Type*} [Zero K] [One K] [NatCast K] [Add K] [Sub K] [Mul K] [Div K] [Neg K]
  [LinearOrder K]
variable {F : Fns K} {H : Hooks K} {V : Veh K} {P : SimParams K}

/-- The coasting speeds asked for by the user are not negative. -/
structure CoastOk (P : SimParams K) : Prop where
  brakeStart : 0 ≤ P.coastBrakeStartSpeed
  maxSpeed : 0 ≤ P.coastMaxSpeed

/-- `newton_iters[i] = 0` -/
def resetIters (s : Sim K) : Sim K :=
  { s with rows := s.rows.modify s.i fun r => { r with ach := { r.ach with newtonIters := 0 } } }

/-- Same length, and same entries before `k`. -/
structure SameBefore {α : Type*} (k : Nat) (l l' : List α) : Prop where
  length : l'.length = l.length
  get : ∀ j, j < k → l'[j]? = l[j]?

theorem SameBefore.refl {α : Type*} (k : Nat) (l : List α) : SameBefore k l l := ⟨rfl, fun _ _ => rfl⟩

theorem SameBefore.trans {α : Type*} {k : Nat} {l l' l'' : List α} (h : SameBefore k l l')
    (h' : SameBefore k l' l'') : SameBefore k l l'' :=
  ⟨h'.length.trans h.length, fun j hj => (h'.get j hj).trans (h.get j hj)⟩

theorem setRange_same {α : Type*} (k : Nat) (l : List α) (i n : Nat) (x : α) (h : k ≤ i) :
    SameBefore k l (setRange l i n x) := by
  refine ⟨by simp [setRange], fun j hj => ?_⟩
  unfold setRange
  rw [List.getElem?_mapIdx]
  cases l[j]? with
  | none => rfl
  | some a => simp only [Option.map_some]; rw [if_neg (by omega)]

theorem setFrom_same {α : Type*} (k : Nat) (l : List α) (i : Nat) (x : α) (h : k ≤ i) :
    SameBefore k l (setFrom l i x) := by
  refine ⟨by simp [setFrom], fun j hj => ?_⟩
  unfold setFrom
  rw [List.getElem?_mapIdx]
  cases l[j]? with
  | none => rfl
  | some a => simp only [Option.map_some]; rw [if_neg (by omega)]

theorem set_same {α : Type*} (k : Nat) (l : List α) (i : Nat) (x : α) (h : k ≤ i) :
    SameBefore k l (l.set i x) :=
  ⟨by simp, fun j hj => by rw [List.getElem?_set_ne (by omega)]⟩

/-- `s'` arises from `s` by elementary coasting edits. -/
inductive CoastEdit (F : Fns K) (V : Veh K) (P : SimParams K) (s : Sim K) : Sim K → Prop
  | refl : CoastEdit F V P s s
  | speed {s' : Sim K} (h : CoastEdit F V P s s') (j : Nat) (v : K) (hj : s'.i ≤ j)
      (hv : Forward s' → CoastOk P → 0 ≤ v) : CoastEdit F V P s { s' with cyc := setSpeed s'.cyc j v }
  | flags {s' : Sim K} (h : CoastEdit F V P s s') (imp : List Bool) (dly : List Int)
      (hi : SameBefore s'.i s'.impose imp) (hd : SameBefore s'.i s'.coastDelay dly) :
      CoastEdit F V P s { s' with impose := imp, coastDelay := dly }
  | solve {s' : Sim K} (h : CoastEdit F V P s s') :
      CoastEdit F V P s (resetIters (Sim.solve F V P s'))

theorem CoastEdit.trans {s s' s'' : Sim K} (h : CoastEdit F V P s s') (h' : CoastEdit F V P s' s'') :
    CoastEdit F V P s s'' := by
  induction h' with
  | refl => exact h
  | speed _ j v hj hv ih => exact ih.speed j v hj hv
  | flags _ imp dly hi hd ih => exact ih.flags imp dly hi hd
  | solve _ ih => exact ih.solve

theorem resetIters_agree (s : Sim K) : AgreeBefore s.i s (resetIters s) := by
  refine ⟨rfl, rfl, by simp [resetIters], rfl, fun j hj => ?_, fun _ _ => rfl, fun _ _ => rfl⟩
  simp only [resetIters, List.getElem?_modify]
  have : s.i ≠ j := by omega
  simp [this]

theorem CoastEdit.i {s s' : Sim K} (h : CoastEdit F V P s s') : s'.i = s.i := by
  induction h with
  | refl => rfl
  | speed _ _ _ _ _ ih => exact ih
  | flags _ _ _ _ _ ih => exact ih
  | solve _ ih => exact ih

/-- Everything before the current step, the lead cycle, all lengths and all times are kept. -/
theorem CoastEdit.local {s s' : Sim K} (h : CoastEdit F V P s s') :
    AgreeBefore s.i s s' ∧ s'.i = s.i ∧ Cyc.times s'.cyc = Cyc.times s.cyc := by
  refine ⟨?_, h.i, ?_⟩
  · induction h with
    | refl => exact AgreeBefore.refl _ _
    | speed _ j v _ _ ih =>
      exact ih.trans ⟨rfl, by simp [setSpeed], rfl, rfl, fun _ _ => rfl, fun _ _ => rfl,
        fun _ _ => by rw [times_setSpeed]⟩
    | flags _ _ _ _ _ ih =>
      exact ih.trans ⟨rfl, rfl, rfl, rfl, fun _ _ => rfl, fun _ _ => rfl, fun _ _ => rfl⟩
    | @solve s' h ih =>
      have a := solve_agree F V P s'
      have b := resetIters_agree (Sim.solve F V P s')
      have e : (Sim.solve F V P s').i = s.i := h.i
      rw [e] at b
      rw [h.i] at a
      exact ih.trans (a.trans b)
  · induction h with
    | refl => rfl
    | speed _ j v _ _ ih => rw [times_setSpeed]; exact ih
    | flags _ _ _ _ _ ih => exact ih
    | solve _ ih => exact ih

/-- Speeds, grades, road types and samples before the current one are kept. -/
theorem CoastEdit.before {s s' : Sim K} (h : CoastEdit F V P s s') (j : Nat) (hj : j < s.i) :
    s'.cyc[j]? = s.cyc[j]? := by
  induction h with
  | refl => rfl
  | @speed s' h k v hk _ ih =>
    have : k ≠ j := by have := h.i; omega
    simp only [setSpeed, List.getElem?_modify]
    simp [this, ih]
  | flags _ _ _ _ _ ih => exact ih
  | solve _ ih => exact ih

/-- Times, grades and road types are kept everywhere. -/
theorem CoastEdit.frame {s s' : Sim K} (h : CoastEdit F V P s s') :
    s'.cyc.map (fun x => (x.t, x.g, x.r)) = s.cyc.map (fun x => (x.t, x.g, x.r)) := by
  induction h with
  | refl => rfl
  | @speed s' h k v hk _ ih =>
    rw [← ih]
    apply List.ext_getElem?
    intro j
    simp only [setSpeed, List.getElem?_map, List.getElem?_modify]
    cases s'.cyc[j]? with
    | none => rfl
    | some a => by_cases e : k = j <;> simp [e]
  | flags _ _ _ _ _ ih => exact ih
  | solve _ ih => exact ih

/-- Only the current row is written. -/
theorem CoastEdit.rows {s s' : Sim K} (h : CoastEdit F V P s s') (j : Nat) (hj : j ≠ s.i) :
    s'.rows[j]? = s.rows[j]? := by
  induction h with
  | refl => rfl
  | speed _ _ _ _ _ ih => exact ih
  | flags _ _ _ _ _ ih => exact ih
  | @solve s' h ih =>
    have hi := h.i
    have e : (Sim.solve F V P s').i ≠ j := by show s'.i ≠ j; omega
    have e' : s'.i ≠ j := by omega
    simp only [resetIters, List.getElem?_modify]
    rw [← ih]
    simp only [Sim.solve, List.getElem?_set_ne e']
    simp [e']

theorem CoastEdit.miss {s s' : Sim K} (h : CoastEdit F V P s s') : s'.missIters = s.missIters := by
  induction h with
  | refl => rfl
  | speed _ _ _ _ _ ih => exact ih
  | flags _ _ _ _ _ ih => exact ih
  | solve _ ih => exact ih

theorem CoastEdit.target {s s' : Sim K} (h : CoastEdit F V P s s') :
    s'.idmTarget = s.idmTarget ∧ s'.hevCount = s.hevCount := by
  induction h with
  | refl => exact ⟨rfl, rfl⟩
  | speed _ _ _ _ _ ih => exact ih
  | flags _ _ _ _ _ ih => exact ih
  | solve _ ih => exact ih

theorem CoastEdit.bookkeeping {s s' : Sim K} (h : CoastEdit F V P s s') :
    SameBefore s.i s.impose s'.impose ∧ SameBefore s.i s.coastDelay s'.coastDelay := by
  induction h with
  | refl => exact ⟨.refl _ _, .refl _ _⟩
  | speed _ _ _ _ _ ih => exact ih
  | flags h _ _ hi hd ih => rw [h.i] at hi hd; exact ⟨ih.1.trans hi, ih.2.trans hd⟩
  | solve _ ih => exact ih

theorem resetIters_forward {s : Sim K} (h : Forward s) : Forward (resetIters s) := by
  refine ⟨h.cyc0, h.cyc, fun r hr => ?_⟩
  obtain ⟨j, hj⟩ := List.mem_iff_getElem?.1 hr
  simp only [resetIters, List.getElem?_modify] at hj
  cases hc : s.rows[j]? with
  | none => rw [hc] at hj; simp at hj
  | some b =>
    rw [hc] at hj
    simp only [Option.map_eq_map, Option.map_some, Option.some.injEq] at hj
    rw [← hj]
    split
    · exact h.rows b (List.mem_of_getElem? hc)
    · exact h.rows b (List.mem_of_getElem? hc)

/-- No edit commands driving backwards. -/
theorem CoastEdit.forward {s s' : Sim K} (h : CoastEdit F V P s s') (hf : Forward s) (ho : CoastOk P) :
    Forward s' := by
  induction h with
  | refl => exact hf
  | speed _ j v _ hv ih =>
    refine ⟨ih.cyc0, fun w hw => ?_, ih.rows⟩
    rcases mem_speeds_setSpeed hw with hw | rfl
    · exact ih.cyc w hw
    · exact hv ih ho
  | flags _ _ _ _ _ ih => exact ⟨ih.cyc0, ih.cyc, ih.rows⟩
  | solve _ ih => exact resetIters_forward ih.solve

theorem CoastEdit.impose {s s' : Sim K} (h : CoastEdit F V P s s') (imp : List Bool)
    (hi : SameBefore s'.i s'.impose imp) : CoastEdit F V P s { s' with impose := imp } :=
  h.flags imp s'.coastDelay hi (.refl _ _)

theorem reflag_same (l : List Bool) (i n : Nat) :
    SameBefore i l (setRange (setFrom l i false) i n true) :=
  (setFrom_same i l i false le_rfl).trans (setRange_same i _ i n true le_rfl)

theorem CoastEdit.jerkLoop {s : Sim K} (idx : Nat) (v0 a0 k dt : K) : ∀ (m ni : Nat) (v : K) (s' : Sim K),
    CoastEdit F V P s s' → s'.i ≤ idx + ni - 1 →
    CoastEdit F V P s { s' with cyc := (jerkLoop idx v0 a0 k dt m ni v s'.cyc).2 }
  | 0, ni, v, s', h, _ => h
  | m + 1, ni, v, s', h, hi => by
    have key := CoastEdit.jerkLoop (s := s) idx v0 a0 k dt m (ni + 1) (speedForConstantJerk ni v0 a0 k dt)
      { s' with cyc := setSpeed s'.cyc (idx + ni - 1) (max (speedForConstantJerk ni v0 a0 k dt) 0) }
      (h.speed _ _ hi fun _ _ => le_max_right _ _) (by simp only; omega)
    unfold Fastsim.jerkLoop
    simp only
    split
    · exact h
    · exact key

theorem CoastEdit.constJerk {s s' : Sim K} (h : CoastEdit F V P s s') (idx n : Nat) (k a0 : K)
    (hi : s'.i ≤ idx) :
    CoastEdit F V P s { s' with cyc := (modifyByConstJerk s'.cyc idx n k a0).2 } := by
  unfold modifyByConstJerk
  exact h.jerkLoop idx _ _ _ _ n 1 _ s' (by omega)

theorem CoastEdit.write {s : Sim K} : ∀ (l : List K) (i : Nat) (s' : Sim K), CoastEdit F V P s s' →
    s'.i ≤ i → (∀ v ∈ l, CoastOk P → 0 ≤ v) →
    CoastEdit F V P s { s' with cyc := writeSpeeds s'.cyc i l }
  | [], _, s', h, _, _ => h
  | v :: l, i, s', h, hi, hv => by
    have key := CoastEdit.write (s := s) l (i + 1) { s' with cyc := setSpeed s'.cyc i v }
      (h.speed i v hi fun _ ho => hv v (by simp) ho) (by simp only; omega)
      fun w hw => hv w (List.mem_cons_of_mem _ hw)
    exact key

end Lawless

section Lawless2
variable {K : Type*} [Zero K] [One K] [NatCast K] [Add K] [Sub K] [Mul K] [Div K] [Neg K]
  [LinearOrder K]
variable {F : Fns K} {H : Hooks K} {V : Veh K} {P : SimParams K}

/-- What a coast-down that was found looks like. -/
structure CoastFound (P : SimParams K) (len m idx : Nat) (acc : List K) (e : CoastEnd K) : Prop where
  /-- at most `m` more speeds, none beyond the end of the cycle -/
  bound : ∃ l, e.speeds = acc ++ l ∧ l.length ≤ m ∧ (0 < l.length → idx + l.length ≤ len) ∧
    ∀ v ∈ l, P.coastBrakeStartSpeed < v

theorem coastLoop_found (c0 : Cyc K) (unique : Option K) (len : Nat) (d0 dMax dts0 : K) :
    ∀ (m : Nat) (v d : K) (idx : Nat) (acc : List K) (e : CoastEnd K),
      coastLoop F V P c0 unique len d0 dMax dts0 m v d idx acc = some e → CoastFound P len m idx acc e
  | 0, v, d, idx, acc, e, h => by
    simp only [coastLoop, Option.some.injEq] at h
    subst h
    exact ⟨[], by simp⟩
  | m + 1, v, d, idx, acc, e, h => by
    unfold coastLoop at h
    split at h
    · rename_i hc
      simp only at h
      split at h
      · simp at h
      · split at h
        · simp only [Option.some.injEq] at h
          subst h
          exact ⟨[], by simp⟩
        · rename_i hv
          split at h
          · simp only [Option.some.injEq] at h
            subst h
            exact ⟨[_], rfl, by simp, by simp; omega, by simpa using hv⟩
          · obtain ⟨l, h1, h2, h3, h4⟩ := coastLoop_found c0 unique len d0 dMax dts0 m _ _ _ _ e h
            refine ⟨_ :: l, by rw [h1, List.append_assoc]; rfl, by simp; omega, fun _ => ?_, ?_⟩
            · rcases Nat.eq_zero_or_pos l.length with e0 | e0
              · simp [e0]; omega
              · have := h3 e0; simp; omega
            · intro w hw
              rcases List.mem_cons.1 hw with rfl | hw
              · exact not_le.1 hv
              · exact h4 w hw
    · simp only [Option.some.injEq] at h
      subst h
      exact ⟨[], by simp⟩

/-- A coast plan has at most 180 speeds, all above the brake start speed and inside the cycle. -/
theorem coastPlan_found {s : Sim K} {r : CoastEnd K × K} (h : coastPlan F V P s = some r) :
    r.1.speeds.length ≤ 180 ∧ (0 < r.1.speeds.length → s.i + r.1.speeds.length ≤ s.rows.length) ∧
      ∀ v ∈ r.1.speeds, P.coastBrakeStartSpeed < v := by
  unfold coastPlan at h
  simp only at h
  split at h
  · simp at h
  · rename_i e he
    split at h
    · simp only [Option.some.injEq] at h
      subst h
      obtain ⟨l, h1, h2, h3, h4⟩ := coastLoop_found _ _ _ _ _ _ _ _ _ _ _ _ he
      simp only [List.nil_append] at h1
      simp only [h1]
      exact ⟨h2, h3, h4⟩
    · simp at h

end Lawless2

section Floor
variable {K : Type*} [Field K] [LinearOrder K] [FloorRing K]
variable {F : Fns K} {H : Hooks K} {V : Veh K} {P : SimParams K}

theorem CoastEdit.braking {s s' : Sim K} (h : CoastEdit F V P s s') {a : K} {idx : Nat} {dts : Option K}
    {r : K × Nat × Cyc K} (hr : modifyWithBraking s'.cyc a idx dts = .ok r) (hi : s'.i ≤ idx) :
    CoastEdit F V P s { s' with cyc := r.2.2 } := by
  unfold modifyWithBraking at hr
  split at hr
  · simp at hr
  split at hr
  · split at hr
    · simp at hr
    · simp only [Except.ok.injEq] at hr; subst hr; exact h
  · simp only at hr
    split at hr
    · simp only [Except.ok.injEq] at hr; subst hr; exact h
    · split at hr
      · simp at hr
      · split at hr
        · simp at hr
        · simp only [Except.ok.injEq] at hr; subst hr
          exact h.constJerk idx _ _ _ hi

theorem CoastEdit.generate {s : Sim K} {md : Bool} {r : K × Sim K}
    (h : generateCoast F V P s md = .ok r) : CoastEdit F V P s r.2 := by
  unfold generateCoast at h
  simp only at h
  split at h
  · simp at h
  split at h
  · simp only [Except.ok.injEq] at h; subst h; exact .refl
  split at h
  · simp at h
  split at h
  · split at h
    · split at h
      · simp at h
      · rename_i b hb
        simp only [Except.ok.injEq] at h; subst h
        exact (CoastEdit.refl.braking hb le_rfl).impose _ (reflag_same _ _ _)
    · simp only [Except.ok.injEq] at h; subst h; exact .refl
  · split at h
    · simp only [Except.ok.injEq] at h; subst h; exact .refl
    · rename_i e dtb hp
      split at h
      · split at h
        · simp at h
        · rename_i b hb
          simp only [Except.ok.injEq] at h; subst h
          obtain ⟨-, -, h3⟩ := coastPlan_found hp
          have hw : CoastEdit F V P s { s with cyc := writeSpeeds s.cyc s.i e.speeds } :=
            CoastEdit.write e.speeds s.i s .refl le_rfl fun v hv ho =>
              ho.brakeStart.trans (h3 v hv).le
          exact (hw.braking (s' := { s with cyc := writeSpeeds s.cyc s.i e.speeds }) hb
            (by simp)).impose _ (reflag_same _ _ _)
      · simp only [Except.ok.injEq] at h; subst h; exact .refl

theorem CoastEdit.fullBrake {s : Sim K} (ab : K) (idx : Nat) : ∀ (m fbs : Nat) (s' : Sim K),
    CoastEdit F V P s s' → s'.i ≤ idx → CoastEdit F V P s (fullBrakeLoop ab idx m fbs s')
  | 0, _, s', h, _ => h
  | m + 1, fbs, s', h, hi => by
    unfold fullBrakeLoop
    simp only
    refine CoastEdit.fullBrake ab idx m (fbs + 1) _ ?_ hi
    exact (h.speed (idx + fbs) _ (by omega) fun _ _ => le_max_right _ _).flags
      (s'.impose.set (idx + fbs) true) (s'.coastDelay.set (idx + fbs) 0)
      (set_same _ _ _ _ (by simp only; omega)) (set_same _ _ _ _ (by simp only; omega))

theorem fullBrakeLoop_i (ab : K) (idx : Nat) : ∀ (m fbs : Nat) (s : Sim K),
    (fullBrakeLoop ab idx m fbs s).i = s.i
  | 0, _, _ => rfl
  | m + 1, fbs, s => by unfold fullBrakeLoop; simp only; rw [fullBrakeLoop_i]

theorem CoastEdit.apply {s s' : Sim K} (h : CoastEdit F V P s s') (ab : K) (b : Rendezvous K)
    (hi : s'.i ≤ b.idx) : CoastEdit F V P s (applyRendezvous ab s' b) := by
  unfold applyRendezvous
  simp only
  have h1 := h.fullBrake ab b.idx b.fullBrake 0 s' hi
  exact (h1.constJerk (b.idx + b.fullBrake) b.n b.jerk b.accel
    (by rw [fullBrakeLoop_i]; omega)).flags _ _
    (setFrom_same _ _ _ _ (by simp only [fullBrakeLoop_i]; omega))
    (setFrom_same _ _ _ _ (by simp only [fullBrakeLoop_i]; omega))

/-- What a rendezvous found by the collision search is made of. -/
structure CollisionChoice (P : SimParams K) (c : Cyc K) (impose : List Bool) (col : PassingInfo K)
    (i : Nat) (b : Rendezvous K) : Prop where
  from_ : i ≤ b.idx
  flagged : impose.getD b.idx false = true
  steps : b.n = col.idx + 1 - b.idx - b.fullBrake
  two : 2 ≤ b.n
  fits : b.idx + b.fullBrake + b.n = col.idx + 1
  traj : ∃ dt vJerk dStart, dt = c.times.getD (b.idx - 1 + b.fullBrake) 0 - c.times.getD (b.idx - 1) 0 ∧
    vJerk = max (c.speeds.getD (b.idx - 1) 0 + dt * P.coastBrakeAccel) 0 ∧
    dStart = trapzStepStartDistance c b.idx + 1 / 2 * (c.speeds.getD (b.idx - 1) 0 + vJerk) * dt ∧
    calcConstantJerk b.n dStart vJerk col.distance col.speed col.stepDuration = .ok (b.jerk, b.accel)
  below : allSubCoast c (b.idx + b.fullBrake) b.n b.accel b.jerk col.stepDuration = true

theorem collisionTry_choice {c : Cyc K} {impose : List Bool} {col : PassingInfo K} {fbs idx i : Nat}
    {best : Option (Rendezvous K)} (hi : i ≤ idx) (hf : impose.getD idx false = true)
    (hn : idx + fbs + 2 ≤ col.idx + 1)
    (hb : ∀ b, best = some b → CollisionChoice P c impose col i b ∧ b.fullBrake = fbs) {b : Rendezvous K}
    (h : collisionTry P c col fbs idx (col.idx + 1 - idx - fbs) best = some b) :
    CollisionChoice P c impose col i b ∧ b.fullBrake = fbs := by
  unfold collisionTry at h
  simp only at h
  split at h
  · exact hb b h
  · split at h
    · exact hb b h
    · rename_i k a0 hk
      split at h
      · rename_i hc
        simp only [Option.some.injEq] at h
        subst h
        exact ⟨⟨hi, hf, rfl, by simp only; omega, by simp only; omega,
          ⟨_, _, _, rfl, rfl, rfl, hk⟩, hc.1⟩, rfl⟩
      · exact hb b h

theorem collisionLoop_choice {c : Cyc K} {impose : List Bool} {col : PassingInfo K} {fbs i : Nat} :
    ∀ (m idx : Nat) (best : Option (Rendezvous K)) (b : Rendezvous K), i ≤ idx →
      (∀ b, best = some b → CollisionChoice P c impose col i b ∧ b.fullBrake = fbs) →
      collisionLoop P c impose col fbs i m idx best = some b →
      CollisionChoice P c impose col i b ∧ b.fullBrake = fbs
  | 0, idx, best, b, hi, hb, h => hb b h
  | m + 1, idx, best, b, hi, hb, h => by
    unfold collisionLoop at h
    split at h
    · split at h
      · exact hb b h
      · exact collisionLoop_choice m (idx + 1) best b (by omega) hb h
    · rename_i hf
      split at h
      · exact hb b h
      · split at h
        · exact hb b h
        · rename_i hn _
          exact collisionLoop_choice m (idx + 1) _ b (by omega)
            (fun b' hb' => collisionTry_choice hi (by simpa using hf) (by omega) hb hb') h

theorem collisionSearch_choice {s : Sim K} {col : PassingInfo K} : ∀ (m fbs : Nat) (b : Rendezvous K),
    collisionSearch P s col m fbs = some b →
    CollisionChoice P s.cyc s.impose col s.i b ∧ fbs ≤ b.fullBrake ∧ b.fullBrake < fbs + m
  | 0, fbs, b, h => by simp [collisionSearch] at h
  | m + 1, fbs, b, h => by
    unfold collisionSearch at h
    split at h
    · rename_i b' hb'
      simp only [Option.some.injEq] at h
      subst h
      obtain ⟨h1, h2⟩ := collisionLoop_choice _ _ _ _ le_rfl (by simp) hb'
      exact ⟨h1, h2.ge, by omega⟩
    · obtain ⟨h1, h2, h3⟩ := collisionSearch_choice m (fbs + 1) b h
      exact ⟨h1, by omega, by omega⟩

/-- Outcome of collision prevention: nothing, or one rendezvous found for some tolerance. -/
theorem preventCollisions_cases {s : Sim K} : ∀ (fuel : Nat) (tol : K) (r : Bool × Sim K),
    preventCollisions P s fuel tol = .ok r →
    r = (false, s) ∨ ∃ tol' b, (detectPassing s.cyc s.cyc0 s.i tol').hasCollision = true ∧
      P.coastBrakeAccel < 0 ∧
      collisionSearch P s (detectPassing s.cyc s.cyc0 s.i tol') 4 0 = some b ∧
      r = (true, applyRendezvous P.coastBrakeAccel s b)
  | 0, tol, r, h => by simp [preventCollisions] at h
  | fuel + 1, tol, r, h => by
    unfold preventCollisions at h
    simp only at h
    split at h
    · simp only [Except.ok.injEq] at h; exact Or.inl h.symm
    · rename_i hc
      split at h
      · simp at h
      · rename_i ha
        split at h
        · rename_i b hb
          simp only [Except.ok.injEq] at h
          exact Or.inr ⟨tol, b, by simpa using hc, not_not.1 ha, hb, h.symm⟩
        · revert h
          generalize (if tol < 10 then (10 : K) else tol + 5) = t
          intro h
          split at h
          · simp only [Except.ok.injEq] at h; exact Or.inl h.symm
          · exact preventCollisions_cases fuel t r h

theorem CoastEdit.prevent {s s' : Sim K} (h : CoastEdit F V P s s') {fuel : Nat} {tol : K}
    {r : Bool × Sim K} (hr : preventCollisions P s' fuel tol = .ok r) : CoastEdit F V P s r.2 := by
  rcases preventCollisions_cases _ _ _ hr with rfl | ⟨tol', b, -, -, hb, rfl⟩
  · exact h
  · exact h.apply _ b (collisionSearch_choice _ _ _ hb).1.from_

theorem setCoastDelay_edit {s s' : Sim K} (h : CoastEdit F V P s s') :
    CoastEdit F V P s (setCoastDelay P s') := by
  have h0 := setFrom_same s'.i s'.coastDelay s'.i 0 le_rfl
  unfold setCoastDelay
  simp only
  split
  · exact h.flags s'.impose _ (.refl _ _) h0
  · split
    · refine h.flags s'.impose _ (.refl _ _) (h0.trans ⟨by simp, fun j hj => ?_⟩)
      rw [List.getElem?_mapIdx]
      cases (setFrom s'.coastDelay s'.i 0)[j]? with
      | none => rfl
      | some a => simp only [Option.map_some]; rw [if_neg (by omega)]
    · exact h.flags s'.impose _ (.refl _ _) (h0.trans (setFrom_same _ _ _ _ le_rfl))

theorem CoastEdit.resolve {s s' : Sim K} (h : CoastEdit F V P s s') :
    CoastEdit F V P s (coastSolve F V P s') := by
  unfold coastSolve
  simp only
  exact h.solve.speed s'.i _ (le_refl _) fun hf _ => by
    have := row_getD_nonneg hf.rows s'.i
    rw [List.getD_eq_getElem?_getD] at this ⊢
    simp only [resetIters, List.getElem?_modify] at this
    show 0 ≤ ((Sim.solve F V P s').rows[s'.i]?.getD Row.zero).ach.mpsAch
    have e : (Sim.solve F V P s').i = s'.i := rfl
    cases hc : (Sim.solve F V P s').rows[s'.i]? with
    | none => exact le_refl (0 : K)
    | some b =>
      rw [e, hc] at this
      simpa using this

theorem CoastEdit.replan {s s' : Sim K} (h : CoastEdit F V P s s') {a : K} {r : Bool × Sim K}
    (hr : replanCoast P s' a = .ok r) : CoastEdit F V P s r.2 := by
  unfold replanCoast at hr
  simp only at hr
  split at hr
  · split at hr
    · simp at hr
    · rename_i b hb
      simp only [Except.ok.injEq] at hr; subst hr
      exact (h.braking hb le_rfl).impose _ (reflag_same _ _ _)
  · split at hr
    · simp at hr
    split at hr
    · simp only [Except.ok.injEq] at hr; subst hr; exact h
    · rename_i b hb
      have hj := (h.constJerk s'.i b.n b.jerk b.accel le_rfl).impose
        (setRange (setFrom s'.impose s'.i false) s'.i b.n true) (reflag_same _ _ _)
      split at hr
      · split at hr
        · simp at hr
        · rename_i q hq
          simp only [Except.ok.injEq] at hr; subst hr
          exact (hj.braking hq (by simp)).impose _ (setRange_same _ _ _ _ _ (by simp))
      · simp only [Except.ok.injEq] at hr; subst hr; exact hj

theorem CoastEdit.start {s s' : Sim K} (h : startCoast F V P s = .ok s') : CoastEdit F V P s s' := by
  unfold startCoast at h
  split at h
  · split at h
    · simp at h
    · simp only [Except.ok.injEq] at h; subst h; exact .refl
    · split at h
      · simp at h
      · rename_i d s1 hg
        have hg := CoastEdit.generate hg
        simp only at h hg
        have h2 : CoastEdit F V P s (if d < 0 then { s1 with impose := setFrom s1.impose s1.i false } else s1) := by
          split
          · exact hg.impose _ (setFrom_same _ _ _ _ le_rfl)
          · exact hg
        split at h
        · simp only [Except.ok.injEq] at h; subst h; exact h2
        · split at h
          · simp at h
          · rename_i r hr
            simp only [Except.ok.injEq] at h; subst h
            exact h2.prevent hr
  · simp only [Except.ok.injEq] at h; subst h; exact .refl

/-- Everything eco-coasting does in a step is a sequence of elementary edits. -/
theorem coastHook_edit {s s' : Sim K} (h : coastHook F V P s = .ok s') : CoastEdit F V P s s' := by
  unfold coastHook at h
  split at h
  · simp at h
  rename_i s1 h1
  have e1 := CoastEdit.start h1
  split at h
  · split at h
    · simp only [Except.ok.injEq] at h; subst h; exact e1
    · simp only [Except.ok.injEq] at h; subst h
      exact e1.speed s1.i _ le_rfl fun hf _ => getD_nonneg hf.cyc0 _
  · simp only at h
    have e2 : CoastEdit F V P s (if P.coastBrakeStartSpeed < (s1.rows.getD (s1.i - 1) Row.zero).ach.mpsAch then
        { s1 with cyc := setSpeed s1.cyc s1.i (if P.coastAllowPassing = true then P.coastMaxSpeed
          else min (s1.cyc.speeds.getD s1.i 0) P.coastMaxSpeed) }
        else s1) := by
      split
      · refine e1.speed s1.i _ le_rfl fun hf ho => ?_
        split
        · exact ho.maxSpeed
        · exact le_min (getD_nonneg hf.cyc _) ho.maxSpeed
      · exact e1
    revert h e2
    generalize (if P.coastBrakeStartSpeed < (s1.rows.getD (s1.i - 1) Row.zero).ach.mpsAch then
        { s1 with cyc := setSpeed s1.cyc s1.i (if P.coastAllowPassing = true then P.coastMaxSpeed
          else min (s1.cyc.speeds.getD s1.i 0) P.coastMaxSpeed) }
        else s1) = s2
    intro h e2
    have e3 := e2.resolve
    revert h e3
    generalize coastSolve F V P s2 = s3
    intro h e3
    split at h
    · simp only [Except.ok.injEq] at h; subst h
      exact (setCoastDelay_edit (e3.impose (setFrom s3.impose s3.i false)
        (setFrom_same _ _ _ _ le_rfl))).speed _ 0 le_rfl fun _ _ => le_rfl
    · split at h
      · split at h
        · simp at h
        · rename_i s4 h4
          simp only [Except.ok.injEq] at h; subst h
          exact e3.replan h4
        · rename_i s4 h4
          have e4 := e3.replan h4
          split at h
          · simp only [Except.ok.injEq] at h; subst h; exact e4.resolve
          · split at h
            · simp at h
            · rename_i r hr
              simp only [Except.ok.injEq] at h; subst h
              exact (e4.prevent hr).resolve
      · simp only [Except.ok.injEq] at h; subst h; exact e3

theorem coastHook_local : HookLocal (coastHook (K := K) F V P) := fun _ _ h => (coastHook_edit h).local

theorem coastHook_forward (ho : CoastOk P) : HookForward (coastHook (K := K) F V P) :=
  fun _ _ hf h => (coastHook_edit h).forward hf ho

end Floor
end Fastsim
