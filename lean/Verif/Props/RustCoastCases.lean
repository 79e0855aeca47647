import Verif.Props.RustCoast

/-!
# Eco-coasting in the Rust core: cases

A check of the conditions of C101, runs that meet them, and what happens where they are not met.
-/

set_option linter.unusedSectionVars false

namespace Fastsim.Props
open Fastsim Spec

section Check
variable {K : Type*} [Field K] [LinearOrder K] [IsStrictOrderedRing K] [FloorRing K]
variable {F : Fns K} {V : Veh K} {P : SimParams K}

instance (c : Cyc K) (x : K) (k : Nat) : Decidable (StopBeyond c x k) := by unfold StopBeyond; infer_instance

theorem clearStop_iff (c : Cyc K) (x : K) : ClearStop c x ↔ (∃ k, k < c.length ∧ StopBeyond c x k) ∧
    (∀ k, k < c.length → StopBeyond c x k → x + 1 / 1000000 < odometer c k) ∧ ∀ s ∈ c, s.v ≠ 1 / 1000000 := by
  have hl : ∀ k, StopBeyond c x k → k < c.length := by
    rintro k ⟨⟨s, hs, -⟩, -⟩
    exact (List.getElem?_eq_some_iff.1 hs).1
  constructor
  · rintro ⟨⟨k, hk⟩, h2, h3⟩
    exact ⟨⟨k, hl k hk, hk⟩, fun k _ => h2 k, h3⟩
  · rintro ⟨⟨k, -, hk⟩, h2, h3⟩
    exact ⟨⟨k, hk⟩, fun k hk => h2 k (hl k hk) hk, h3⟩

instance (c : Cyc K) (x : K) : Decidable (ClearStop c x) := decidable_of_iff _ (clearStop_iff c x).symm

instance (c : Cyc K) (a : K) (i : Nat) : Decidable (NoHalf c a i) := by unfold NoHalf; infer_instance

theorem clearCollision_iff (s : Sim K) : ClearCollision s ↔ 2 ≤ s.i ∧
    (∀ j, j < s.cyc.length → 2 ≤ j → dtAt s.cyc j = dtAt s.cyc (j - 1)) ∧ dtAt s.cyc 1 ≠ 0 ∧
    ∀ tol ∈ (tolerances : List K), (rsDetectPassing s.cyc s.cyc0 s.i (some tol)).hasCollision = true →
      s.i + 2 ≤ (rsDetectPassing s.cyc s.cyc0 s.i (some tol)).idx ∧
      trapzStepStartDistance s.cyc s.i < (rsDetectPassing s.cyc s.cyc0 s.i (some tol)).distance :=
  ⟨fun h => ⟨h.second, fun j h1 h2 => h.steps j h2 h1, h.step, h.ahead⟩,
    fun h => ⟨h.1, fun j h1 h2 => h.2.1 j h2 h1, h.2.2.1, h.2.2.2⟩⟩

instance (s : Sim K) : Decidable (ClearCollision s) := decidable_of_iff _ (clearCollision_iff s).symm

instance (s : Sim K) : Decidable (MayStart s) := by unfold MayStart; infer_instance

instance decForallMem {α : Type*} (p : α → Prop) [DecidablePred p] (o : Option α) : Decidable (∀ a ∈ o, p a) :=
  match o with
  | none => isTrue fun _ h => by cases h
  | some x => decidable_of_iff (p x) ⟨fun h a ha => by cases ha; exact h, fun h => h x rfl⟩

instance (s : Sim K) : Decidable (StartRegular F V P s) :=
  decidable_of_iff ((∀ r ∈ coastPlan F V P s, r.1.d + -(1 / 2) * r.1.v * r.1.v / P.coastBrakeAccel ≠
      distanceToNextStop s.cyc0 (trapzStepStartDistance s.cyc s.i)) ∧
    ((shouldImposeCoast F V P s).toOption = some true →
      (s.rows.getD (s.i - 1) Row.zero).ach.mpsAch ≤ P.coastBrakeStartSpeed → NoHalf s.cyc P.coastBrakeAccel s.i) ∧
    ((shouldImposeCoast F V P s).toOption = some true → ∀ r ∈ coastPlan F V P s,
      NoHalf (writeSpeeds s.cyc s.i r.1.speeds) P.coastBrakeAccel (s.i + r.1.speeds.length)) ∧
    ((shouldImposeCoast F V P s).toOption = some true → P.coastAllowPassing = false →
      ∀ r ∈ (generateCoast F V P s true).toOption, 0 ≤ r.1 → ClearCollision r.2))
    ⟨fun h => ⟨h.1, h.2.1, h.2.2.1, h.2.2.2⟩, fun h => ⟨h.tie, h.low, h.plan, h.collide⟩⟩

instance (s : Sim K) : Decidable (ReplanRegular P s) :=
  decidable_of_iff ((s.cyc.speeds.getD s.i 0 < P.coastBrakeStartSpeed - 1 / 10 → NoHalf s.cyc P.coastBrakeAccel s.i) ∧
    (¬ s.cyc.speeds.getD s.i 0 < P.coastBrakeStartSpeed - 1 / 10 →
      ∀ b ∈ nextRendezvous P s P.coastBrakeAccel (min (triedAccel s) 0),
        NoHalf (modifyByConstJerk s.cyc s.i b.n b.jerk b.accel).2 P.coastBrakeAccel (s.i + b.n)) ∧
    (P.coastAllowPassing = false → ∀ r ∈ (replanCoast P s (triedAccel s)).toOption, r.1 = true → ClearCollision r.2))
    ⟨fun h => ⟨h.1, h.2.1, h.2.2⟩, fun h => ⟨h.brake, h.meet, h.collide⟩⟩

instance (s : Sim K) : Decidable (CoastRegular F V P s) :=
  decidable_of_iff ((MayStart s ∨ P.coastBrakeStartSpeed + 1 / 1000000 ≤ s.cyc.speeds.getD (s.i - 1) 0 →
      ClearStop s.cyc0 (trapzStepStartDistance s.cyc s.i)) ∧ (MayStart s → StartRegular F V P s) ∧
    ∀ s1 ∈ (startCoast F V P s).toOption, s1.impose.getD s1.i false = true →
      1 / 1000000 ≤ (triedStep F V P s1).cyc.speeds.getD s1.i 0 →
      1 / 1000000 < pabs ((triedStep F V P s1).cyc.speeds.getD s1.i 0 - s1.cyc.speeds.getD s1.i 0) →
      ReplanRegular P (triedStep F V P s1))
    ⟨fun h => ⟨h.1, h.2.1, h.2.2⟩, fun h => ⟨h.stop, h.start, h.replan⟩⟩

/-- Whether the next `n` steps end the run and are regular. -/
def regularCheck (F : Fns K) (V : Veh K) (P : SimParams K) : Nat → Sim K → Bool
  | 0, s => decide (¬ s.i < s.cyc.length)
  | n + 1, s => decide (¬ s.i < s.cyc.length) || (decide (∀ s1 ∈ (afterFollowing F P s).toOption, CoastRegular F V P s1) &&
      match simDriveStep F (realHooks F V P) V P s with
      | .error _ => true
      | .ok s' => regularCheck F V P n s')

theorem visited_first {s0 s : Sim K} (h : Visited F V P s0 s) : s = s0 ∨
    ∃ s1, s0.i < s0.cyc.length ∧ simDriveStep F (realHooks F V P) V P s0 = .ok s1 ∧ Visited F V P s1 s := by
  induction h with
  | start => exact Or.inl rfl
  | step h hlt hs ih =>
    rcases ih with rfl | ⟨s1, h0, h1, h2⟩
    · exact Or.inr ⟨_, hlt, hs, .start⟩
    · exact Or.inr ⟨s1, h0, h1, .step h2 hlt hs⟩

theorem regularCheck_run : ∀ (n : Nat) {s0 : Sim K}, regularCheck F V P n s0 = true → RegularRun F V P s0 := by
  intro n
  induction n with
  | zero =>
    intro s0 h s hv hi
    have h : ¬ s0.i < s0.cyc.length := by simpa [regularCheck] using h
    rcases visited_first hv with rfl | ⟨s1, h0, -, -⟩
    · exact absurd hi h
    · exact absurd h0 h
  | succ n ih =>
    intro s0 h s hv hi
    unfold regularCheck at h
    rcases Bool.or_eq_true _ _ |>.mp h with h | h
    · have h : ¬ s0.i < s0.cyc.length := by simpa using h
      rcases visited_first hv with rfl | ⟨s1, h0, -, -⟩
      · exact absurd hi h
      · exact absurd h0 h
    · obtain ⟨ha, hb⟩ := Bool.and_eq_true _ _ |>.mp h
      rcases visited_first hv with rfl | ⟨s1, -, h1, h2⟩
      · exact of_decide_eq_true ha
      · rw [h1] at hb
        exact ih hb s h2 hi

/-! ### Where the programs differ -/

theorem ahead_empty {c : Cyc K} {x : K} (h : ∀ k, k < c.length → odometer c k < x) : gradesAhead c x = [] := by
  unfold gradesAhead
  rw [List.map_eq_nil_iff, List.filter_eq_nil_iff]
  rintro ⟨d, g⟩ hm
  obtain ⟨k, hk⟩ := List.mem_iff_getElem?.1 (List.of_mem_zip hm).1
  have hl : k < c.length := by
    have := (List.getElem?_eq_some_iff.1 hk).1
    rwa [trapzDistances_length] at this
  rw [trapzDistances_get c k hl] at hk
  have := h k hl
  simp only [Option.some.injEq] at hk
  simp only [decide_eq_true_eq, not_le, ← hk]
  exact this

/-- **C101 (beyond the end).** A vehicle that has gone farther than the cycle it follows, and is faster than the speed at which
braking starts: the Rust core panics in the decision to coast, the python code decides not to. -/
theorem C101_beyond {s : Sim K} (hc0 : s.cyc0 ≠ []) (hi : 1 ≤ s.i) (hs : P.coastStartSpeed ≤ 0) (ha : P.coastBrakeAccel < 0)
    (hb : 0 ≤ P.coastBrakeStartSpeed) (hv : P.coastBrakeStartSpeed < s.cyc.speeds.getD (s.i - 1) 0)
    (hr : P.coastBrakeStartSpeed < (s.rows.getD (s.i - 1) Row.zero).ach.mpsAch) (hi' : s.i ≤ s.cyc.length)
    (hx : ∀ k, k < s.cyc0.length → odometer s.cyc0 k < trapzStepStartDistance s.cyc s.i) :
    rsShouldCoast F V P s = .error .panic ∧ shouldImposeCoast F V P s = .ok false := by
  have hg := ahead_empty hx
  have hc : s.cyc ≠ [] := by rintro e; rw [e] at hi'; simp at hi'; omega
  have hd : rsStepStartDistance s.cyc s.i = trapzStepStartDistance s.cyc s.i := (C99_distances hc).2.2.2.1 s.i hi'
  constructor
  · unfold rsShouldCoast rsDistToStopCoast
    simp only [hd, (rsAhead_eq F hc0 _).1, hg, (C101_unique []).1 rfl]
    simp only [if_neg (not_lt.2 hs), if_neg (not_lt.2 hr.le), if_neg (not_le.2 hv)]
  · unfold shouldImposeCoast distToStopCoast generateCoast
    rw [hg]
    have hu : uniqueGrade ([] : List K) = none := rfl
    simp only [if_neg (not_lt.2 hs), if_neg (not_lt.2 hr.le), if_neg (not_le.2 hv), if_neg ha.ne, hu, if_neg (not_lt.2 ha.le),
      if_true, lt_irrefl, if_false]
    have : ¬ (4 * (-(1 / 2) * (s.rows.getD (s.i - 1) Row.zero).ach.mpsAch * (s.rows.getD (s.i - 1) Row.zero).ach.mpsAch /
        P.coastBrakeAccel) ≤ distanceToNextStop s.cyc0 (trapzStepStartDistance s.cyc s.i)) := by
      have h1 : 0 < -(1 / 2) * (s.rows.getD (s.i - 1) Row.zero).ach.mpsAch * (s.rows.getD (s.i - 1) Row.zero).ach.mpsAch /
          P.coastBrakeAccel := by
        apply div_pos_of_neg_of_neg _ ha
        nlinarith
      have h2 : distanceToNextStop s.cyc0 (trapzStepStartDistance s.cyc s.i) ≤ 0 := by
        unfold distanceToNextStop
        simp only
        generalize argmaxBool (List.zipWith (fun d (b : Bool) => decide (trapzStepStartDistance s.cyc s.i < d) && b)
          (trapzDistances s.cyc0) (stops s.cyc0)) = k
        have hpos : 0 < s.cyc0.length := List.length_pos_iff.2 hc0
        by_cases hk : k < s.cyc0.length
        · rw [List.getD_eq_getElem?_getD, trapzDistances_get _ k hk]
          exact (sub_neg.2 (hx k hk)).le
        · rw [List.getD_eq_getElem?_getD, List.getElem?_eq_none (by rw [trapzDistances_length]; omega)]
          have h0 := hx 0 hpos
          have e : odometer s.cyc0 0 = 0 := by
            unfold odometer
            cases s.cyc0 with
            | nil => rfl
            | cons x l => simp [distance]
          rw [e] at h0
          simp only [Option.getD_none, zero_sub, Left.neg_nonpos_iff]
          exact h0.le
      linarith
    rw [decide_eq_false this, Bool.and_false]

theorem rsCollisionLoop_unflagged (c : Cyc K) (l : List Bool) (col : PassingInfo K) (f i : Nat) : ∀ (m idx : Nat), i < idx →
    (∀ j, idx ≤ j → l.getD j false = false) → rsCollisionLoop P c l col f i m idx none = .ok none
  | 0, _, _, _ => rfl
  | m + 1, idx, hi, h => by
    unfold rsCollisionLoop
    rw [if_pos (h idx le_rfl), if_neg (by omega)]
    exact rsCollisionLoop_unflagged c l col f i m (idx + 1) (by omega) fun j hj => h j (by omega)

/-- **C101 (collision behind).** If the vehicle, in the middle of a plan, is found to pass the one ahead in the step after next,
and is already beyond the point where they meet, the Rust core computes a negative number of steps as an unsigned integer and
panics; the python code answers. -/
theorem C101_collision_panics {s : Sim K} (ha : P.coastBrakeAccel < 0) (hi : s.i < s.rows.length) (hi' : s.i < s.cyc.length)
    (hpos : 1 ≤ s.i) (hf : s.impose.getD s.i false = true) (hrun : RunOfTrue s.impose s.i) {tol : K}
    (hcol : (rsDetectPassing s.cyc s.cyc0 s.i (some tol)).hasCollision = true)
    (hidx : (rsDetectPassing s.cyc s.cyc0 s.i (some tol)).idx = s.i + 1)
    (hd : (rsDetectPassing s.cyc s.cyc0 s.i (some tol)).distance ≤ trapzStepStartDistance s.cyc s.i) (fuel : Nat) :
    rsPreventCollisions P s (fuel + 1) tol = .error .panic ∧ ∃ r, preventCollisions P s 12 tol = .ok r := by
  refine ⟨?_, (C31_retries s tol).1 ha⟩
  obtain ⟨m, hm⟩ : ∃ m, s.rows.length - s.i = m + 1 := ⟨s.rows.length - s.i - 1, by omega⟩
  have hc : s.cyc ≠ [] := by rintro e; rw [e] at hi'; simp at hi'
  have hdist : rsStepStartDistance s.cyc s.i = trapzStepStartDistance s.cyc s.i := (C99_distances hc).2.2.2.1 s.i hi'.le
  have hsearch : rsCollisionSearch P s (rsDetectPassing s.cyc s.cyc0 s.i (some tol)) 4 0 = .error .panic := by
    generalize rsDetectPassing s.cyc s.cyc0 s.i (some tol) = col at hidx hd
    have e2 : s.i + 1 - s.i + 1 = 2 := by omega
    have hl : ∀ f, 1 ≤ f → f < 3 → rsCollisionLoop P s.cyc s.impose col f s.i (m + 1) s.i none = .ok none := by
      intro f h1 hf2
      unfold rsCollisionLoop
      simp only [hf, hidx, Bool.true_eq_false, if_false, e2]
      rw [if_neg (by omega), if_neg (by omega), if_pos (by omega)]
    have h3 : rsCollisionLoop P s.cyc s.impose col 3 s.i (m + 1) s.i none = .error .panic := by
      unfold rsCollisionLoop
      simp only [hf, hidx, Bool.true_eq_false, if_false, e2]
      rw [if_neg (by omega), if_pos (by omega)]
    have h0 : rsCollisionLoop P s.cyc s.impose col 0 s.i (m + 1) s.i none = .ok none := by
      have htry : rsCollisionTry P s.cyc col 0 s.i 2 none = none := by
        unfold rsCollisionTry
        simp only [Nat.add_zero, sub_self, mul_zero, add_zero, hdist, if_pos hd]
      have hnext : ∀ k, rsCollisionLoop P s.cyc s.impose col 0 s.i k (s.i + 1) none = .ok none := by
        intro k
        cases k with
        | zero => rfl
        | succ k =>
          by_cases hf1 : s.impose.getD (s.i + 1) false = false
          · refine rsCollisionLoop_unflagged _ _ _ _ _ _ _ (by omega) fun j hj => ?_
            cases hj' : s.impose.getD j false with
            | false => rfl
            | true => rw [hrun (s.i + 1) j (by omega) hj hj'] at hf1; cases hf1
          · unfold rsCollisionLoop
            rw [if_neg hf1, hidx, if_neg (by omega), if_neg (by omega)]
            simp only
            rw [if_pos (by omega)]
      unfold rsCollisionLoop
      simp only [hf, hidx, Bool.true_eq_false, if_false, e2, Nat.sub_zero]
      rw [if_neg (by omega), if_neg (by omega), if_neg (by omega), if_neg (by omega), htry, hnext]
    simp only [rsCollisionSearch, hm, h0, hl 1 (by omega) (by omega), hl 2 (by omega) (by omega), h3]
  unfold rsPreventCollisions
  simp only [hcol, Bool.true_eq_false, if_false, ha, not_true_eq_false, hsearch]

end Check

section Demo
open Demo CoastDemo

/-- Coasting from 10 m/s on. -/
def rsCoastParams : SimParams ℚ := { params with coastAllow := true, coastStartSpeed := 10 }

/-- The car of C98 with a large rolling resistance. -/
def quickCar : Veh ℚ := { quick with wheelRrCoef := 1 / 20 }

/-- A cycle with a stop after 33 m. -/
def toStop : Cyc ℚ := ([10, 9, 10, 9, 6, 3, 0, 0, 0] : List ℚ).mapIdx fun j v => ⟨j, v, 0, 0⟩

/-- The hypotheses of the theorems about runs are met: with a car that coasts, a stop to coast to, and regular steps. -/
theorem C101_setting : RsOk quickCar ∧ CoastDrive rsCoastParams ∧ LevelRoad (Sim.new toStop).cyc0 ∧
    (Sim.new toStop).cyc0.times.getD 0 0 = 0 ∧ (Sim.new toStop).cyc0.times.Pairwise (· ≤ ·) ∧
    RegularRun fns (lastEffRepeated quickCar) rsCoastParams
      (initState (lastEffRepeated quickCar) rsCoastParams { Sim.new toStop with hevCount := 0 } (1 / 2) none) := by
  refine ⟨?_, ⟨rfl, rfl, by decide +kernel, by decide +kernel⟩, by unfold LevelRoad; decide +kernel, by decide +kernel,
    by decide +kernel, regularCheck_run 10 (by decide +kernel)⟩
  exact ⟨⟨by decide, by decide +kernel, by decide +kernel, by decide +kernel, by decide +kernel⟩,
      ⟨by decide, by decide +kernel, by decide +kernel, by decide +kernel, by decide +kernel⟩, by decide +kernel,
      by decide +kernel, by decide +kernel, by decide +kernel, by decide +kernel, by decide +kernel, by decide +kernel,
      by decide +kernel, by decide +kernel, by decide +kernel, by decide +kernel, by decide +kernel, by decide +kernel,
      by decide +kernel, by decide +kernel⟩

/-- A run in which both programs coast for three steps: the same speeds, slower than the cycle's. -/
theorem C101_drives :
    (match rsDrive fns (rsRealHooks fns quickCar rsCoastParams) quickCar rsCoastParams (Sim.new toStop) (some (1 / 2)) none,
        simDrive fns (realHooks fns quickCar rsCoastParams) quickCar rsCoastParams (Sim.new toStop) (some (1 / 2)) none with
      | .ok t', .ok t => decide (t'.cyc.speeds = t.cyc.speeds ∧ t'.cyc.speeds.getD 2 0 < 17 / 2 ∧
          t'.impose = [false, false, true, true, true, false, false, false, false] ∧ t.impose = t'.impose)
      | _, _ => false) = true := by
  decide +kernel

/-- A vehicle that has gone 18 m although the cycle it follows is 7.5 m long. -/
def farBeyond : Sim ℚ := sim 1 3 9 [9, 9, 9, 9, 9] [9, 1, 1, 1, 0] fun _ => false

/-- A vehicle in a plan, at 9 m, behind which the vehicle ahead stays at 5.5 m. -/
def metBehind : Sim ℚ := sim 1 2 9 [9, 9, 9, 9, 9] [9, 1, 0, 0, 0] fun _ => true

/-- The hypotheses of `C101_beyond` and `C101_collision_panics` are met. -/
theorem C101_failures_setting : params.coastStartSpeed ≤ 0 ∧ params.coastBrakeAccel < 0 ∧
    params.coastBrakeStartSpeed < farBeyond.cyc.speeds.getD 2 0 ∧
    params.coastBrakeStartSpeed < (farBeyond.rows.getD 2 Row.zero).ach.mpsAch ∧
    (∀ k, k < farBeyond.cyc0.length → odometer farBeyond.cyc0 k < trapzStepStartDistance farBeyond.cyc 3) ∧
    metBehind.impose = List.replicate 5 true ∧
    (rsDetectPassing metBehind.cyc metBehind.cyc0 2 (some 1)).hasCollision = true ∧
    (rsDetectPassing metBehind.cyc metBehind.cyc0 2 (some 1)).idx = 3 ∧
    (rsDetectPassing metBehind.cyc metBehind.cyc0 2 (some 1)).distance ≤ trapzStepStartDistance metBehind.cyc 2 := by
  decide +kernel

/-- A cycle that does not end in a stop. -/
def neverStops : Cyc ℚ := ([10, 10, 10, 10, 9, 9] : List ℚ).mapIdx fun j v => ⟨j, v, 0, 0⟩

/-- **C101 (no stop ahead).** On a cycle that never stops the python code takes its start for the next stop and brakes; the Rust
core takes its end, and coasts on. -/
theorem C101_differs :
    (match rsDrive fns (rsRealHooks fns car rsCoastParams) car rsCoastParams (Sim.new neverStops) (some (1 / 2)) none,
        simDrive fns (realHooks fns car rsCoastParams) car rsCoastParams (Sim.new neverStops) (some (1 / 2)) none with
      | .ok t', .ok t => decide (t.cyc.speeds.getD 4 1 = 0 ∧ 79 / 10 < t'.cyc.speeds.getD 4 0)
      | _, _ => false) = true := by
  decide +kernel

end Demo

end Fastsim.Props
