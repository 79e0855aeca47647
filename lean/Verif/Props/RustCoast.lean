import Verif.Model.RsCoast
import Verif.Props.RustIdm
import Verif.Props.CoastReplan

/-!
# C101: eco-coasting of the Rust core is that of the python code

The plans, decisions and edits of eco-coasting, function by function, and whole runs on level roads, with the exceptions stated:
stops within a micrometre or none at all, plans that meet their stop exactly, numbers of braking steps rounded from a half, and
the search for a way not to run into the vehicle ahead.
-/

set_option linter.unusedSectionVars false

namespace Fastsim.Spec
open Fastsim
variable {K : Type*}

/-- From `x` on there is a stop, none is nearer than a micrometre, and no sample drives at exactly the speed that counts as a
stop. -/
structure ClearStop [Field K] [LinearOrder K] (c : Cyc K) (x : K) : Prop where
  stop : ∃ k, StopBeyond c x k
  near : ∀ k, StopBeyond c x k → x + 1 / 1000000 < odometer c k
  speed : ∀ s ∈ c, s.v ≠ 1 / 1000000

/-- The number of steps that braking from sample `i` would take, at `a` m/s², is not a half more than an integer. -/
def NoHalf [Field K] [LinearOrder K] [FloorRing K] (c : Cyc K) (a : K) (i : Nat) : Prop :=
  i < c.length → Int.fract (-(c.speeds.getD (i - 1) 0) / a / dtAt c i) ≠ 1 / 2

/-- From `i` on, the flags are a run of `true` and then `false` to the end. -/
def RunOfTrue (l : List Bool) (i : Nat) : Prop := ∀ j k, i ≤ j → j ≤ k → l.getD k false = true → l.getD j false = true

/-- The distances by which the vehicle may run into the one ahead before it reacts, one after the other (m). -/
def tolerances [Field K] : List K := 1 :: (List.range 11).map fun k : Nat => 10 + 5 * (k : K)

/-- Collisions that both programs treat alike: all steps take the same time, the second step is reached, and a collision with
any of the tolerances lies at least two steps ahead and beyond the present position. -/
structure ClearCollision [Field K] [LinearOrder K] (s : Sim K) : Prop where
  second : 2 ≤ s.i
  steps : ∀ j, 2 ≤ j → j < s.cyc.length → dtAt s.cyc j = dtAt s.cyc (j - 1)
  step : dtAt s.cyc 1 ≠ 0
  ahead : ∀ tol ∈ (tolerances : List K), (rsDetectPassing s.cyc s.cyc0 s.i (some tol)).hasCollision = true →
    s.i + 2 ≤ (rsDetectPassing s.cyc s.cyc0 s.i (some tol)).idx ∧
    trapzStepStartDistance s.cyc s.i < (rsDetectPassing s.cyc s.cyc0 s.i (some tol)).distance

section Regular
variable [Field K] [LinearOrder K] [FloorRing K]

/-- The vehicle moves and does not coast yet: the decision to coast is due. -/
def MayStart (s : Sim K) : Prop :=
  1 / 1000000 < (s.rows.getD (s.i - 1) Row.zero).ach.mpsAch ∧ s.impose.getD s.i false = false

/-- The step as it is tried while coasting, before any change of plan. -/
def triedStep (F : Fns K) (V : Veh K) (P : SimParams K) (s : Sim K) : Sim K :=
  coastSolve F V P
    (if P.coastBrakeStartSpeed < (s.rows.getD (s.i - 1) Row.zero).ach.mpsAch then
      { s with
        cyc := setSpeed s.cyc s.i (if P.coastAllowPassing then P.coastMaxSpeed else min (s.cyc.speeds.getD s.i 0) P.coastMaxSpeed) }
    else s)

/-- The acceleration of the step as tried. -/
def triedAccel (s : Sim K) : K := (s.cyc.speeds.getD s.i 0 - s.cyc.speeds.getD (s.i - 1) 0) / dtAt s.cyc s.i

/-- A decision to coast that both programs take alike. -/
structure StartRegular (F : Fns K) (V : Veh K) (P : SimParams K) (s : Sim K) : Prop where
  /-- the plan does not end at the very distance that braking needs -/
  tie : ∀ r ∈ coastPlan F V P s, r.1.d + -(1 / 2) * r.1.v * r.1.v / P.coastBrakeAccel ≠
    distanceToNextStop s.cyc0 (trapzStepStartDistance s.cyc s.i)
  /-- braking at once does not take a half number of steps -/
  low : (shouldImposeCoast F V P s).toOption = some true →
    (s.rows.getD (s.i - 1) Row.zero).ach.mpsAch ≤ P.coastBrakeStartSpeed → NoHalf s.cyc P.coastBrakeAccel s.i
  /-- nor does braking at the end of the plan -/
  plan : (shouldImposeCoast F V P s).toOption = some true → ∀ r ∈ coastPlan F V P s,
    NoHalf (writeSpeeds s.cyc s.i r.1.speeds) P.coastBrakeAccel (s.i + r.1.speeds.length)
  /-- collisions on the plan are clear -/
  collide : (shouldImposeCoast F V P s).toOption = some true → P.coastAllowPassing = false →
    ∀ r ∈ (generateCoast F V P s true).toOption, 0 ≤ r.1 → ClearCollision r.2

/-- A change of plan that both programs make alike. -/
structure ReplanRegular (P : SimParams K) (s : Sim K) : Prop where
  brake : s.cyc.speeds.getD s.i 0 < P.coastBrakeStartSpeed - 1 / 10 → NoHalf s.cyc P.coastBrakeAccel s.i
  meet : ¬ s.cyc.speeds.getD s.i 0 < P.coastBrakeStartSpeed - 1 / 10 →
    ∀ b ∈ nextRendezvous P s P.coastBrakeAccel (min (triedAccel s) 0),
      NoHalf (modifyByConstJerk s.cyc s.i b.n b.jerk b.accel).2 P.coastBrakeAccel (s.i + b.n)
  collide : P.coastAllowPassing = false → ∀ r ∈ (replanCoast P s (triedAccel s)).toOption, r.1 = true → ClearCollision r.2

/-- A step of eco-coasting that both programs take alike. -/
structure CoastRegular (F : Fns K) (V : Veh K) (P : SimParams K) (s : Sim K) : Prop where
  stop : MayStart s ∨ P.coastBrakeStartSpeed + 1 / 1000000 ≤ s.cyc.speeds.getD (s.i - 1) 0 →
    ClearStop s.cyc0 (trapzStepStartDistance s.cyc s.i)
  start : MayStart s → StartRegular F V P s
  replan : ∀ s1 ∈ (startCoast F V P s).toOption, s1.impose.getD s1.i false = true →
    1 / 1000000 ≤ (triedStep F V P s1).cyc.speeds.getD s1.i 0 →
    1 / 1000000 < pabs ((triedStep F V P s1).cyc.speeds.getD s1.i 0 - s1.cyc.speeds.getD s1.i 0) →
    ReplanRegular P (triedStep F V P s1)

/-- Eco-coasting, with or without car following. -/
structure CoastDrive (P : SimParams K) : Prop where
  coast : P.coastAllow = true
  trace : P.missedTrace = false
  brake : P.coastBrakeAccel < 0
  speed : 0 ≤ P.coastBrakeStartSpeed

/-- The states between the steps of a run from `s0`. -/
inductive Visited (F : Fns K) (V : Veh K) (P : SimParams K) (s0 : Sim K) : Sim K → Prop
  | start : Visited F V P s0 s0
  | step {s s' : Sim K} (h : Visited F V P s0 s) (hlt : s.i < s.cyc.length)
      (hs : simDriveStep F (realHooks F V P) V P s = .ok s') : Visited F V P s0 s'

/-- The state in which eco-coasting takes over: after car following, if that is on. -/
def afterFollowing (F : Fns K) (P : SimParams K) (s : Sim K) : Except PyErr (Sim K) :=
  if P.idmAllow then idmHook F P s else .ok s

/-- All steps of a run from `s0` are regular. -/
def RegularRun (F : Fns K) (V : Veh K) (P : SimParams K) (s0 : Sim K) : Prop :=
  ∀ s, Visited F V P s0 s → s.i < s.cyc.length → ∀ s1 ∈ (afterFollowing F P s).toOption, CoastRegular F V P s1

end Regular

end Fastsim.Spec

namespace Fastsim.Props
open Fastsim Spec

section Floor
variable {K : Type*} [Field K] [LinearOrder K] [IsStrictOrderedRing K] [FloorRing K]
variable {F : Fns K} {V : Veh K} {P : SimParams K}

/-! ### Small things -/

theorem noHalf_ne {x : K} (h : Int.fract x ≠ 1 / 2) (m : ℤ) : x ≠ m + 1 / 2 := by
  rintro rfl
  apply h
  rw [Int.fract_intCast_add, Int.fract_eq_self]
  constructor <;> norm_num

theorem clearStop_next {c : Cyc K} (hc : c ≠ []) {x : K} (h : ClearStop c x) :
    rsNextStop (rsBuildCache F c).distances c.speeds x = .ok (distanceToNextStop c x) := by
  rw [C99_next_stop_cached F hc]
  exact (C99_next_stop hc x).1 h.speed h.near h.stop

theorem rsMinOf_eq {l : List K} (h : l ≠ []) : rsMinOf l = .ok (minOf l) := by
  cases l with
  | nil => exact absurd rfl h
  | cons x l =>
    have : (fun m y : K => if y < m then y else m) = min := by
      funext m y
      rcases lt_or_ge y m with h | h
      · rw [if_pos h, min_eq_right h.le]
      · rw [if_neg (not_lt.2 h), min_eq_left h]
    unfold rsMinOf minOf
    rw [this]

/-! ### Unique grades -/

theorem rsUniqueLoop_keys (lo dx : K) : ∀ (l : List K) (seen : List Int) (acc : List K),
    (∀ k ∈ seen, ∃ y ∈ acc, rsKey lo dx y = k) →
    (∀ y ∈ acc, y ∈ rsUniqueLoop lo dx l seen acc) ∧
      ∀ x ∈ l, ∃ y ∈ rsUniqueLoop lo dx l seen acc, rsKey lo dx y = rsKey lo dx x
  | [], _, acc, _ => ⟨fun _ h => h, by simp⟩
  | x :: l, seen, acc, h => by
    unfold rsUniqueLoop
    by_cases hx : rsKey lo dx x ∈ seen
    · rw [if_pos hx]
      obtain ⟨h1, h2⟩ := rsUniqueLoop_keys lo dx l seen acc h
      refine ⟨h1, fun z hz => ?_⟩
      rcases List.mem_cons.1 hz with rfl | hz
      · obtain ⟨y, hy, e⟩ := h _ hx
        exact ⟨y, h1 y hy, e⟩
      · exact h2 z hz
    · rw [if_neg hx]
      obtain ⟨h1, h2⟩ := rsUniqueLoop_keys lo dx l (rsKey lo dx x :: seen) (acc ++ [x]) (by
        intro k hk
        rcases List.mem_cons.1 hk with rfl | hk
        · exact ⟨x, by simp, rfl⟩
        · obtain ⟨y, hy, e⟩ := h k hk
          exact ⟨y, by simp [hy], e⟩)
      refine ⟨fun y hy => h1 y (by simp [hy]), fun z hz => ?_⟩
      rcases List.mem_cons.1 hz with rfl | hz
      · exact ⟨z, h1 z (by simp), rfl⟩
      · exact h2 z hz

theorem rsUniqueLoop_same (lo dx g : K) : ∀ (l : List K) (seen : List Int) (acc : List K),
    rsKey lo dx g ∈ seen → (∀ x ∈ l, x = g) → rsUniqueLoop lo dx l seen acc = acc
  | [], _, _, _, _ => rfl
  | x :: l, seen, acc, h, hl => by
    unfold rsUniqueLoop
    have e : x = g := hl x (by simp)
    rw [if_pos (by rw [e]; exact h)]
    exact rsUniqueLoop_same lo dx g l seen acc h fun y hy => hl y (List.mem_cons_of_mem _ hy)

/-- **C101 (unique grade).** The core recognises a road of one grade as python does, whatever the grades are; of no grades at
all the core panics. -/
theorem C101_unique (l : List K) :
    (l = [] → rsUnique l = .error .panic) ∧
    (l ≠ [] → ∃ us, rsUnique l = .ok us ∧ (if us.length = 1 then us.head? else none) = uniqueGrade l) := by
  constructor
  · rintro rfl; rfl
  · intro hl
    unfold rsUnique
    rw [rsMinOf_eq hl, rsMaxOf_eq hl]
    refine ⟨_, rfl, ?_⟩
    cases l with
    | nil => exact absurd rfl hl
    | cons g l =>
      by_cases hs : ∀ x ∈ l, x = g
      · have e : uniqueGrade (g :: l) = some g := by
          unfold uniqueGrade
          simp only
          rw [if_pos (by rw [List.all_eq_true]; intro x hx; exact decide_eq_true (hs x hx))]
        rw [e]
        generalize minOf (g :: l) = lo
        generalize (if maxOf (g :: l) = lo then (1 : K) else maxOf (g :: l) - lo) = dx
        have e2 : rsUniqueLoop lo dx (g :: l) [] [] = [g] := by
          rw [rsUniqueLoop, if_neg (List.not_mem_nil), rsUniqueLoop_same lo dx g l _ _ (by simp) hs]
          rfl
        rw [e2]
        rfl
      · have e : uniqueGrade (g :: l) = none := by
          unfold uniqueGrade
          simp only
          rw [if_neg (by rw [List.all_eq_true]; exact fun q => hs fun x hx => of_decide_eq_true (q x hx))]
        rw [e, if_neg]
        intro h1
        have hlo := minOf_mem (g :: l) hl
        have hhi := maxOf_mem (g :: l) hl
        have hne : maxOf (g :: l) ≠ minOf (g :: l) := by
          intro h
          apply hs
          intro x hx
          have a1 := minOf_le (g :: l) x (List.mem_cons_of_mem _ hx)
          have a2 := maxOf_ge (g :: l) x (List.mem_cons_of_mem _ hx)
          have a3 := minOf_le (g :: l) g (by simp)
          have a4 := maxOf_ge (g :: l) g (by simp)
          exact le_antisymm (by linarith) (by linarith)
        rw [if_neg hne] at h1
        obtain ⟨-, hk⟩ := rsUniqueLoop_keys (minOf (g :: l)) (maxOf (g :: l) - minOf (g :: l)) (g :: l) [] [] (by simp)
        obtain ⟨a, ha⟩ := List.length_eq_one_iff.1 h1
        rw [ha] at hk
        obtain ⟨y, hy, e1⟩ := hk _ hlo
        obtain ⟨z, hz, e2⟩ := hk _ hhi
        rw [List.mem_singleton] at hy hz
        rw [hy] at e1
        rw [hz, e1] at e2
        have d : maxOf (g :: l) - minOf (g :: l) ≠ 0 := sub_ne_zero.2 hne
        unfold rsKey at e2
        rw [sub_self, zero_div, zero_mul, div_self d, one_mul, Int.floor_zero] at e2
        have : ⌊(2 ^ 64 : K)⌋ = 2 ^ 64 := by
          have := Int.floor_intCast (R := K) (2 ^ 64)
          rwa [Int.cast_pow, Int.cast_ofNat] at this
        rw [this] at e2
        norm_num at e2

/-! ### What is ahead -/

theorem zip_filter_fst {α β : Type*} (p : α → Bool) : ∀ (l : List α) (l' : List β), l.length = l'.length →
    ((l.zip l').filter fun x => p x.1).map Prod.fst = l.filter p
  | [], [], _ => rfl
  | a :: l, b :: l', h => by
    have := zip_filter_fst p l l' (by simpa using h)
    by_cases hp : p a = true
    · simp [hp, this]
    · simp [hp, this]

theorem rsAhead_eq (F : Fns K) {c : Cyc K} (hc : c ≠ []) (d0 : K) :
    (rsAhead (rsBuildCache F c) c d0).map Prod.snd = gradesAhead c d0 ∧
    ((rsAhead (rsBuildCache F c) c d0).getLast?.map Prod.fst).getD 0 = lastFrom (trapzDistances c) d0 := by
  have e : (rsBuildCache F c).distances = trapzDistances c := (C99_distances hc).2.1
  unfold rsAhead
  rw [e]
  refine ⟨rfl, ?_⟩
  unfold lastFrom
  rw [← List.getLast?_map, zip_filter_fst (fun x => decide (d0 ≤ x)) _ _ (by rw [trapzDistances_length]; simp [Cyc.grades])]

theorem ahead_of_stop {c : Cyc K} {x : K} (h : ClearStop c x) : gradesAhead c x ≠ [] := by
  obtain ⟨k, ⟨s, hs, -⟩, hk⟩ := h.stop
  have hl : k < c.length := (List.getElem?_eq_some_iff.1 hs).1
  intro e
  unfold gradesAhead at e
  rw [List.map_eq_nil_iff, List.filter_eq_nil_iff] at e
  have hd := trapzDistances_get c k hl
  have : (odometer c k, s.g) ∈ (trapzDistances c).zip c.grades := by
    rw [List.mem_iff_getElem?]
    refine ⟨k, ?_⟩
    rw [List.zip, List.getElem?_zipWith, hd]
    simp [Cyc.grades, hs, odometer]
  have := e _ this
  simp only [decide_eq_true_eq, not_le] at this
  exact absurd hk (not_lt.2 this.le)

/-! ### The coast-down -/

/-- **C101 (deceleration).** -/
theorem C101_dvdd (v g : K) : rsDvdd F V P v g = calcDvdd F V P v g := by
  unfold rsDvdd calcDvdd
  split
  · rfl
  · by_cases h : g = 0
    · simp only [if_pos h]
    · simp only [if_neg h]

/-- Both programs look up the same grades along the cycle. -/
structure GradesAgree (F : Fns K) (c : Cyc K) : Prop where
  point : ∀ x, (rsBuildCache F c).interpGrade F x = .ok (interpGrade F c x)
  range : ∀ x d, rsAverageGradeCached F (rsBuildCache F c) x d = .ok (averageGradeCached F c x d)

theorem gradesAgree_level {c : Cyc K} (h : gradeAllZero c = true) : GradesAgree F c := by
  have e : (rsBuildCache F c).allZero = true := h
  constructor
  · intro x
    unfold RsCache.interpGrade interpGrade
    rw [e, h]; rfl
  · intro x d
    unfold rsAverageGradeCached averageGradeCached
    rw [e, h]; rfl

/-- They do on every cycle that moves (C99). -/
theorem gradesAgree_moving (hceil : ∀ (v : K) (n : ℕ), (n : K) < v → v ≤ ((n + 1 : ℕ) : K) → F.ceilNat v = n + 1)
    {c : Cyc K} (hv : SpeedsNonneg c) (ht : NonDecreasing c) (hd : 0 < distance c) : GradesAgree F c := by
  have hc : c ≠ [] := by rintro rfl; simp [distance] at hd
  exact ⟨C99_interp_grade F hceil hv ht hc, fun x d => ((C99_average_grade F hceil hv ht hc x d).1 (Or.inr (Or.inr hd))).1⟩

theorem rsCoastIter_eq {c : Cyc K} (hg : GradesAgree F c) (u : Option K) (d0 d v dt : K) : ∀ (n : Nat) (vavg gr k w : K),
    rsCoastIter F V P (rsBuildCache F c) u d0 d v dt n vavg gr k w = .ok (coastIter F V P c u d0 d v dt n vavg gr k w)
  | 0, _, _, _, _ => rfl
  | n + 1, vavg, gr, k, w => by
    unfold rsCoastIter coastIter
    simp only [C101_dvdd, hg.range]
    have e : ∀ a b : K, rsCoastNext a b dt = coastNext a b dt := fun _ _ => rfl
    simp only [e]
    cases P.favorGradeAccuracy <;> cases u <;> simp only [if_true, Bool.false_eq_true, if_false, rsGradeOr, Option.getD_some,
      Option.getD_none] <;> exact rsCoastIter_eq hg _ d0 d v dt n _ _ _ _

theorem rsCoastStep_eq {c : Cyc K} (hg : GradesAgree F c) (u : Option K) (d0 d v dt : K) :
    rsCoastStep F V P (rsBuildCache F c) u d0 d v dt = .ok (coastStep F V P c u d0 d v dt) := by
  unfold rsCoastStep coastStep
  simp only [hg.point]
  have e : ∀ a b : K, rsCoastNext a b dt = coastNext a b dt := fun _ _ => rfl
  cases u <;> simp only [rsGradeOr, Option.getD_some, Option.getD_none, C101_dvdd, e] <;> exact rsCoastIter_eq hg _ d0 d v dt _ _ _ _ _

/-- The coast-downs are the same unless one meets the stop exactly. -/
theorem rsCoastLoop_eq {c : Cyc K} (hg : GradesAgree F c) (u : Option K) (len : Nat) (d0 dMax dts0 : K) :
    ∀ (m : Nat) (v d : K) (idx : Nat) (acc : List K), 1 ≤ idx →
    (∀ e, coastLoop F V P c u len d0 dMax dts0 m v d idx acc = some e → e.within = true →
      e.d + -(1 / 2) * e.v * e.v / P.coastBrakeAccel ≠ dts0) →
    rsCoastLoop F V P c (rsBuildCache F c) u len d0 dMax dts0 m v d idx acc =
      .ok (coastLoop F V P c u len d0 dMax dts0 m v d idx acc)
  | 0, _, _, _, _, _, _ => rfl
  | m + 1, v, d, idx, acc, hi, h => by
    unfold rsCoastLoop
    unfold coastLoop at h ⊢
    by_cases hc : P.coastBrakeStartSpeed < v ∧ 0 ≤ v ∧ d ≤ dMax ∧ idx < len
    · simp only [if_pos hc] at h ⊢
      rw [rsDtAt_eq c hi, rsCoastStep_eq hg]
      generalize coastStep F V P c u d0 d v (dtAt c idx) = r at h ⊢
      simp only
      by_cases h1 : 0 ≤ r.1 ∧ u.isSome = true
      · rw [if_pos h1, if_pos h1]
      · rw [if_neg h1] at h
        rw [if_neg h1, if_neg h1]
        by_cases h2 : r.2 ≤ P.coastBrakeStartSpeed
        · rw [if_pos h2, if_pos h2]
        · rw [if_neg h2] at h
          rw [if_neg h2, if_neg h2]
          by_cases h3 : dts0 ≤ d + 1 / 2 * (v + r.2) * dtAt c idx + -(1 / 2) * r.2 * r.2 / P.coastBrakeAccel
          · rw [if_pos h3] at h
            have := h _ rfl rfl
            rw [if_pos h3, if_pos (lt_of_le_of_ne h3 this.symm)]
          · rw [if_neg h3] at h
            rw [if_neg h3, if_neg (fun q => h3 (le_of_lt q))]
            exact rsCoastLoop_eq hg u len d0 dMax dts0 m _ _ _ _ (by omega) h
    · rw [if_neg hc, if_neg hc]

/-- The trajectory that a plan of the python code is in the core. -/
def trajOf (i : Nat) : Option (CoastEnd K × K) → RsTraj K
  | none => rsNotFound
  | some (e, t) => { found := true, dist := e.d + t, start := i, speeds := some e.speeds, brake := some t }

/-- **C101 (plan).** From a speed above the brake start speed, the core plans the coast-down of python: the same speeds, the
same distance left for braking, or none. The stop ahead must be clear, and the plan must not end at the very distance that
braking needs. -/
theorem C101_plan {s : Sim K} (h0 : s.cyc0 ≠ []) (hg : GradesAgree F s.cyc0) (ha : P.coastBrakeAccel < 0) (hi : 1 ≤ s.i)
    (hi' : s.i ≤ s.cyc.length) (hv : P.coastBrakeStartSpeed < (s.rows.getD (s.i - 1) Row.zero).ach.mpsAch)
    (hs : ClearStop s.cyc0 (trapzStepStartDistance s.cyc s.i))
    (ht : ∀ e t, coastPlan F V P s = some (e, t) →
      e.d + -(1 / 2) * e.v * e.v / P.coastBrakeAccel ≠ distanceToNextStop s.cyc0 (trapzStepStartDistance s.cyc s.i)) :
    rsGenerateCoast F V P s = .ok (trajOf s.i (coastPlan F V P s)) := by
  have hc : s.cyc ≠ [] := by rintro e; rw [e] at hi'; simp at hi'; omega
  have hd := (C99_distances hc).2.2.2.1 s.i hi'
  obtain ⟨a1, a2⟩ := rsAhead_eq F h0 (trapzStepStartDistance s.cyc s.i)
  have hne := ahead_of_stop hs
  obtain ⟨us, u1, u2⟩ := (C101_unique (gradesAhead s.cyc0 (trapzStepStartDistance s.cyc s.i))).2 hne
  have hne' : rsAhead (rsBuildCache F s.cyc0) s.cyc0 (trapzStepStartDistance s.cyc s.i) ≠ [] := by
    intro e; rw [e] at a1; exact hne a1.symm
  unfold rsGenerateCoast
  simp only [hd]
  rw [if_neg (not_not.2 ha.le), if_neg hne', if_neg (not_le.2 hv), a1, a2, u1]
  simp only [clearStop_next h0 hs, u2]
  unfold coastPlan at ht ⊢
  simp only at ht ⊢
  rw [rsCoastLoop_eq hg _ _ _ _ _ _ _ _ _ _ hi]
  · cases coastLoop F V P s.cyc0 (uniqueGrade (gradesAhead s.cyc0 (trapzStepStartDistance s.cyc s.i))) s.rows.length
      (trapzStepStartDistance s.cyc s.i) _ _ 180 (s.rows.getD (s.i - 1) Row.zero).ach.mpsAch 0 s.i [] with
    | none => rfl
    | some e =>
      simp only
      cases e.within with
      | false => rfl
      | true => rfl
  · intro e he hw
    rw [he] at ht
    simp only [hw, if_true] at ht
    exact ht e _ rfl


/-- The trajectory that the core finds, in terms of python's plan. -/
def foundTraj (F : Fns K) (V : Veh K) (P : SimParams K) (s : Sim K) : RsTraj K :=
  if (s.rows.getD (s.i - 1) Row.zero).ach.mpsAch ≤ P.coastBrakeStartSpeed then
    { found := true
      dist := -(1 / 2) * (s.rows.getD (s.i - 1) Row.zero).ach.mpsAch * (s.rows.getD (s.i - 1) Row.zero).ach.mpsAch /
        P.coastBrakeAccel
      start := s.i, speeds := none, brake := none }
  else trajOf s.i (coastPlan F V P s)

/-- Where and how both programs are asked to plan. -/
structure PlanAt (F : Fns K) (V : Veh K) (P : SimParams K) (s : Sim K) : Prop where
  lead : s.cyc0 ≠ []
  grades : GradesAgree F s.cyc0
  brake : P.coastBrakeAccel < 0
  pos : 1 ≤ s.i
  inside : s.i < s.cyc.length
  stop : ClearStop s.cyc0 (trapzStepStartDistance s.cyc s.i)
  tie : ∀ r ∈ coastPlan F V P s, r.1.d + -(1 / 2) * r.1.v * r.1.v / P.coastBrakeAccel ≠
    distanceToNextStop s.cyc0 (trapzStepStartDistance s.cyc s.i)

theorem PlanAt.ahead {s : Sim K} (h : PlanAt F V P s) : gradesAhead s.cyc0 (trapzStepStartDistance s.cyc s.i) ≠ [] :=
  ahead_of_stop h.stop

theorem PlanAt.startDist {s : Sim K} (h : PlanAt F V P s) :
    rsStepStartDistance s.cyc s.i = trapzStepStartDistance s.cyc s.i := by
  have hc : s.cyc ≠ [] := by intro e; have := h.inside; rw [e] at this; simp at this
  exact (C99_distances hc).2.2.2.1 s.i h.inside.le

theorem rsGenerate_eq {s : Sim K} (h : PlanAt F V P s) : rsGenerateCoast F V P s = .ok (foundTraj F V P s) := by
  unfold foundTraj
  by_cases hv : (s.rows.getD (s.i - 1) Row.zero).ach.mpsAch ≤ P.coastBrakeStartSpeed
  · have hne' : rsAhead (rsBuildCache F s.cyc0) s.cyc0 (trapzStepStartDistance s.cyc s.i) ≠ [] := by
      intro e
      have a1 := (rsAhead_eq F h.lead (trapzStepStartDistance s.cyc s.i)).1
      rw [e] at a1
      exact h.ahead a1.symm
    rw [if_pos hv]
    unfold rsGenerateCoast
    simp only [h.startDist]
    rw [if_neg (not_not.2 h.brake.le), if_neg hne', if_pos hv]
  · rw [if_neg hv]
    exact C101_plan h.lead h.grades h.brake h.pos h.inside.le (not_le.1 hv) h.stop fun e t he => h.tie (e, t) he

theorem rsDistOfTraj_eq {s : Sim K} (h : PlanAt F V P s) :
    rsDistOfTraj F V P s = sameOutcome (match generateCoast F V P s false with | .error e => .error e | .ok r => .ok r.1) := by
  unfold rsDistOfTraj generateCoast
  rw [rsGenerate_eq h]
  simp only [if_neg (not_lt.2 h.brake.le), if_neg h.ahead, if_neg h.brake.ne, foundTraj]
  by_cases hv : (s.rows.getD (s.i - 1) Row.zero).ach.mpsAch ≤ P.coastBrakeStartSpeed
  · simp only [if_pos hv, if_true, Bool.false_eq_true, if_false]
    rfl
  · simp only [if_neg hv, Bool.false_eq_true, if_false]
    cases coastPlan F V P s with
    | none => rfl
    | some r => rfl

/-- **C101 (distance).** The distance in which the vehicle would stop by coasting and braking is the same. -/
theorem C101_distance {s : Sim K} (h : PlanAt F V P s) :
    rsDistToStopCoast F V P s = sameOutcome (distToStopCoast F V P s) := by
  obtain ⟨us, u1, u2⟩ := (C101_unique (gradesAhead s.cyc0 (trapzStepStartDistance s.cyc s.i))).2 h.ahead
  unfold rsDistToStopCoast distToStopCoast
  simp only [h.startDist, (rsAhead_eq F h.lead _).1]
  rw [if_neg h.brake.ne]
  by_cases hv : s.cyc.speeds.getD (s.i - 1) 0 ≤ P.coastBrakeStartSpeed
  · rw [if_pos hv, if_pos hv]; rfl
  · rw [if_neg hv, if_neg hv, u1]
    simp only [u2]
    rw [rsDistOfTraj_eq h]
    cases uniqueGrade (gradesAhead s.cyc0 (trapzStepStartDistance s.cyc s.i)) with
    | none => rfl
    | some g =>
      have hd : rsClosedForm F V P (s.cyc.speeds.getD (s.i - 1) 0) g =
        (if P.airDensity * (V.dragCoef * V.frontalAreaM2) / (2 * V.vehKg) = 0 then
            (if 0 < P.aGrav * (F.sinAtan g + V.wheelRrCoef * F.cosAtan g) then
              1 / (2 * (P.aGrav * (F.sinAtan g + V.wheelRrCoef * F.cosAtan g))) *
                (s.cyc.speeds.getD (s.i - 1) 0 * s.cyc.speeds.getD (s.i - 1) 0 -
                  P.coastBrakeStartSpeed * P.coastBrakeStartSpeed) else -1)
          else if 0 < P.aGrav * (F.sinAtan g + V.wheelRrCoef * F.cosAtan g) +
                P.airDensity * (V.dragCoef * V.frontalAreaM2) / (2 * V.vehKg) *
                  (s.cyc.speeds.getD (s.i - 1) 0 * s.cyc.speeds.getD (s.i - 1) 0) ∧
              0 < P.aGrav * (F.sinAtan g + V.wheelRrCoef * F.cosAtan g) +
                P.airDensity * (V.dragCoef * V.frontalAreaM2) / (2 * V.vehKg) *
                  (P.coastBrakeStartSpeed * P.coastBrakeStartSpeed) then
            1 / (2 * (P.airDensity * (V.dragCoef * V.frontalAreaM2) / (2 * V.vehKg))) *
              (F.log (P.aGrav * (F.sinAtan g + V.wheelRrCoef * F.cosAtan g) +
                P.airDensity * (V.dragCoef * V.frontalAreaM2) / (2 * V.vehKg) *
                  (s.cyc.speeds.getD (s.i - 1) 0 * s.cyc.speeds.getD (s.i - 1) 0)) -
               F.log (P.aGrav * (F.sinAtan g + V.wheelRrCoef * F.cosAtan g) +
                P.airDensity * (V.dragCoef * V.frontalAreaM2) / (2 * V.vehKg) *
                  (P.coastBrakeStartSpeed * P.coastBrakeStartSpeed)))
          else -1) := rfl
      simp only [← hd]
      by_cases hc : rsClosedForm F V P (s.cyc.speeds.getD (s.i - 1) 0) g = -1
      · simp only [if_pos hc]
        rfl
      · simp only [if_neg hc]
        rfl

/-- **C101 (decision).** Both programs decide alike whether to coast. -/
theorem C101_should {s : Sim K} (h : PlanAt F V P s) :
    rsShouldCoast F V P s = sameOutcome (shouldImposeCoast F V P s) := by
  unfold rsShouldCoast shouldImposeCoast
  by_cases h1 : 0 < P.coastStartSpeed
  · rw [if_pos h1, if_pos h1]; rfl
  · rw [if_neg h1, if_neg h1]
    simp only [C101_distance h, h.startDist, clearStop_next h.lead h.stop]
    by_cases h2 : (s.rows.getD (s.i - 1) Row.zero).ach.mpsAch < P.coastBrakeStartSpeed
    · rw [if_pos h2, if_pos h2]; rfl
    · rw [if_neg h2, if_neg h2]
      cases distToStopCoast F V P s with
      | error e => rfl
      | ok d =>
        simp only [sameOutcome]
        by_cases h3 : d < 0
        · rw [if_pos h3, if_pos h3]
        · rw [if_neg h3, if_neg h3]

/-! ### Flags and speeds -/

theorem rsImpose_eq {l : List Bool} {n : Nat} (h : l.length = n) (a m : Nat) :
    rsImpose l a n (a + m) = setRange (setFrom l a false) a m true := by
  apply List.ext_getElem?
  intro j
  simp only [rsImpose, setRange, setFrom, List.getElem?_mapIdx, Option.map_map]
  by_cases hj : j < l.length
  · rw [List.getElem?_eq_getElem hj]
    simp only [Option.map_some, Function.comp_apply, Option.some.injEq]
    by_cases h1 : a ≤ j
    · rw [if_pos ⟨h1, by omega⟩]
      by_cases h2 : j < a + m
      · rw [if_pos ⟨h1, h2⟩]; simpa using h2
      · rw [if_neg (fun q => h2 q.2), if_pos h1]; simpa using h2
    · rw [if_neg (fun q => h1 q.1), if_neg (fun q => h1 q.1), if_neg h1]
  · rw [List.getElem?_eq_none (by omega)]; rfl

theorem rsFill_eq {α : Type*} {l : List α} {n : Nat} (h : l.length = n) (a : Nat) (x : α) :
    rsFill l a n x = setFrom l a x := by
  apply List.ext_getElem?
  intro j
  simp only [rsFill, setFrom, List.getElem?_mapIdx]
  by_cases hj : j < l.length
  · rw [List.getElem?_eq_getElem hj]
    simp only [Option.map_some, Option.some.injEq]
    by_cases h1 : a ≤ j
    · rw [if_pos ⟨h1, by omega⟩, if_pos h1]
    · rw [if_neg (fun q => h1 q.1), if_neg h1]
  · rw [List.getElem?_eq_none (by omega)]; rfl

theorem rsWriteSpeeds_eq (len : Nat) : ∀ (l : List K) (c : Cyc K) (i : Nat), (0 < l.length → i + l.length ≤ len) →
    rsWriteSpeeds len c i l = writeSpeeds c i l
  | [], _, _, _ => rfl
  | v :: l, c, i, h => by
    have := h (by simp)
    simp only [List.length_cons] at this
    unfold rsWriteSpeeds writeSpeeds
    rw [if_neg (by omega)]
    exact rsWriteSpeeds_eq len l _ _ fun _ => by omega

theorem sameOutcome_braking {c : Cyc K} (hc : c ≠ []) (a : K) {i : Nat} (hi : 1 ≤ i) (dts : Option K) (h : NoHalf c a i) :
    rsModifyBraking c a i dts = sameOutcome (modifyWithBraking c a i dts) := by
  rw [C99_braking c a hi hc dts fun q m => noHalf_ne (h q) m]
  have : modifyWithBraking c a i dts ≠ .error .indexError := by
    unfold modifyWithBraking
    split
    · simp
    split
    · split
      · rename_i e; rw [List.getLast?_eq_none_iff] at e; exact absurd e hc
      · simp
    · simp only
      split
      · simp
      split
      · simp
      · split
        · rename_i e he
          unfold calcConstantJerk at he
          split at he
          · cases he; simp
          split at he
          · cases he; simp
          simp only at he
          split at he
          · cases he; simp
          · cases he
        · simp
  cases h' : modifyWithBraking c a i dts with
  | ok r => rfl
  | error e =>
    cases e with
    | indexError => exact absurd h' this
    | _ => rfl

/-! ### Plans go forward -/

theorem coastLoop_dist_nonneg (hb : 0 ≤ P.coastBrakeStartSpeed) {c0 : Cyc K} (hdt : ∀ j, j < c0.length → 0 ≤ dtAt c0 j)
    (u : Option K) {len : Nat} (hl : len ≤ c0.length) (d0 dMax dts0 : K) :
    ∀ (m : Nat) (v d : K) (idx : Nat) (acc : List K) (e : CoastEnd K), 0 ≤ d →
      coastLoop F V P c0 u len d0 dMax dts0 m v d idx acc = some e → 0 ≤ e.d
  | 0, v, d, idx, acc, e, hd, h => by
    simp only [coastLoop, Option.some.injEq] at h
    subst h; exact hd
  | m + 1, v, d, idx, acc, e, hd, h => by
    unfold coastLoop at h
    split at h
    · rename_i hc
      simp only at h
      split at h
      · simp at h
      · split at h
        · simp only [Option.some.injEq] at h
          subst h; exact hd
        · rename_i hv
          have h2 := hdt idx (by omega)
          have h3 := not_le.1 hv
          have hp : 0 ≤ d + 1 / 2 * (v + (coastStep F V P c0 u d0 d v (dtAt c0 idx)).2) * dtAt c0 idx := by
            have : 0 ≤ 1 / 2 * (v + (coastStep F V P c0 u d0 d v (dtAt c0 idx)).2) := by linarith [hc.1]
            have := mul_nonneg this h2
            linarith
          split at h
          · simp only [Option.some.injEq] at h
            subst h
            exact hp
          · exact coastLoop_dist_nonneg hb hdt u hl d0 dMax dts0 m _ _ _ _ e hp h
    · simp only [Option.some.injEq] at h
      subst h; exact hd

theorem coastPlan_dist_nonneg (ha : P.coastBrakeAccel < 0) (hb : 0 ≤ P.coastBrakeStartSpeed) {s : Sim K}
    (hdt : ∀ j, j < s.cyc0.length → 0 ≤ dtAt s.cyc0 j) (hl : s.rows.length ≤ s.cyc0.length) {r : CoastEnd K × K}
    (h : coastPlan F V P s = some r) : 0 ≤ r.1.d + r.2 := by
  unfold coastPlan at h
  simp only at h
  split at h
  · simp at h
  · rename_i e he
    split at h
    · simp only [Option.some.injEq] at h
      subst h
      have h1 := coastLoop_dist_nonneg hb hdt _ hl _ _ _ _ _ _ _ _ e (le_refl 0) he
      have h2 : 0 ≤ -(1 / 2) * e.v * e.v / P.coastBrakeAccel :=
        div_nonneg_of_nonpos (by nlinarith [mul_self_nonneg e.v]) ha.le
      have h3 : 0 ≤ min (max (distanceToNextStop s.cyc0 (trapzStepStartDistance s.cyc s.i) - e.d)
          (1 / 2 * (-(1 / 2) * e.v * e.v / P.coastBrakeAccel))) (2 * (-(1 / 2) * e.v * e.v / P.coastBrakeAccel)) :=
        le_min (le_max_of_le_right (by linarith)) (by linarith)
      exact add_nonneg h1 h3
    · simp at h

/-! ### Meeting the stop after a change of plan -/

theorem rsReduce_eq (l : List K) : rsReduceMax l = maxOf l ∧ rsReduceMin l = minOf l := by
  cases l <;> exact ⟨rfl, rfl⟩

theorem improves_eq (x : K) (best : Option (Rendezvous K)) :
    (match best with | none => true | some b => decide (x < b.spread)) = improves x best := by
  cases best <;> rfl

theorem rsRendezvousTry_eq (v0 d vb dt lo hi : K) (n : Nat) (best : Option (Rendezvous K)) :
    rsRendezvousTry v0 d vb dt lo hi n best = rendezvousTry v0 d vb dt lo hi n best := by
  unfold rsRendezvousTry rendezvousTry
  rw [(C99_jerk n 0 v0 d vb dt 0 0).1]
  by_cases h : 0 < d
  · rw [if_pos h, if_pos h]
    cases calcConstantJerk n 0 v0 d vb dt with
    | error e => rfl
    | ok r =>
      simp only [(rsReduce_eq _).1, (rsReduce_eq _).2]
      cases best <;> rfl
  · rw [if_neg h, if_neg h]

theorem rsRendezvousLoop_eq (c0 : Cyc K) {i : Nat} (H v0 d vb dt lo hi : K) : ∀ (m j : Nat) (T : K)
    (best : Option (Rendezvous K)), 1 ≤ j →
    rsRendezvousLoop c0 i H v0 d vb dt lo hi m j T best = rendezvousLoop c0 i H v0 d vb dt lo hi m j T best
  | 0, _, _, _, _ => rfl
  | m + 1, j, T, best, hj => by
    unfold rsRendezvousLoop rendezvousLoop
    simp only [rsDtAt_eq c0 hj, rsRendezvousTry_eq, rsRendezvousLoop_eq c0 H v0 d vb dt lo hi m (j + 1) _ _ (by omega)]
    rfl

/-- **C101 (rendezvous).** The trajectory that still reaches the stop at the brake start speed is the same in both programs, if
the stop ahead is clear. -/
theorem C101_rendezvous {s : Sim K} (h0 : s.cyc0 ≠ []) (hi : 1 ≤ s.i) (hi' : s.i < s.cyc.length)
    (hs : P.coastBrakeStartSpeed + 1 / 1000000 ≤ s.cyc.speeds.getD (s.i - 1) 0 →
      ClearStop s.cyc0 (trapzStepStartDistance s.cyc s.i)) (aMin aMax : K) :
    rsNextRendezvous F P s aMin aMax = .ok (nextRendezvous P s aMin aMax) := by
  have hc : s.cyc ≠ [] := by intro e; rw [e] at hi'; simp at hi'
  have hd := (C99_distances hc).2.2.2.1 s.i hi'.le
  unfold rsNextRendezvous nextRendezvous
  by_cases hv : s.cyc.speeds.getD (s.i - 1) 0 < P.coastBrakeStartSpeed + 1 / 1000000
  · simp only [if_pos hv]
  · simp only [if_neg hv, hd, clearStop_next h0 (hs (not_lt.1 hv)), rsDtAt_eq s.cyc hi, rsRendezvousLoop_eq s.cyc0 _ _ _ _ _ _ _ _ _ _ _ hi]
    have e1 : (if aMax < aMin then (aMax, aMin) else (aMin, aMax) : K × K).1 = min aMin aMax := by
      split
      · rename_i q; exact (min_eq_right q.le).symm
      · rename_i q; exact (min_eq_left (not_lt.1 q)).symm
    have e2 : (if aMax < aMin then (aMax, aMin) else (aMin, aMax) : K × K).2 = max aMin aMax := by
      split
      · rename_i q; exact (max_eq_left q.le).symm
      · rename_i q; exact (max_eq_right (not_lt.1 q)).symm
    rw [e1, e2]
    by_cases h1 : distanceToNextStop s.cyc0 (trapzStepStartDistance s.cyc s.i) < 0
    · rw [if_pos h1, if_pos (Or.inl h1)]
    · rw [if_neg h1]
      by_cases h2 : distanceToNextStop s.cyc0 (trapzStepStartDistance s.cyc s.i) -
          -(1 / 2) * P.coastBrakeStartSpeed * P.coastBrakeStartSpeed / P.coastBrakeAccel < 0
      · rw [if_pos h2, if_pos (Or.inr h2)]
      · rw [if_neg h2, if_neg (fun q => q.elim h1 h2)]

/-! ### The delay -/

theorem rsDelayLoop_eq (i : Nat) (d0 d0Lv : K) : ∀ (l : List (K × K)) (idx : Nat) (dLv : K) (best : Option K) (delay : Option Int),
    rsDelayLoop i d0 d0Lv idx dLv best delay l = delayLoop i d0 d0Lv idx dLv best delay l
  | [], _, _, _, _ => rfl
  | p :: l, idx, dLv, best, delay => by
    unfold rsDelayLoop delayLoop
    simp only [rsDelayLoop_eq i d0 d0Lv l]
    rfl

theorem rsDelayFill_get : ∀ (m idx : Nat) (cd : Int) (l : List Int), cd < 0 → idx + m = l.length →
    rsDelayFill m idx cd l = l.mapIdx fun j y => if idx ≤ j ∧ (j : Int) < idx - cd then cd + ((j : Int) - idx) else y
  | 0, idx, cd, l, _, h => by
    apply List.ext_getElem?
    intro j
    rw [List.getElem?_mapIdx]
    unfold rsDelayFill
    by_cases hj : j < l.length
    · rw [List.getElem?_eq_getElem hj, Option.map_some, if_neg (by omega)]
    · rw [List.getElem?_eq_none (by omega)]; rfl
  | m + 1, idx, cd, l, hcd, h => by
    unfold rsDelayFill
    by_cases h1 : cd + 1 = 0
    · rw [if_pos h1]
      apply List.ext_getElem?
      intro j
      rw [List.getElem?_mapIdx, List.getElem?_set]
      by_cases hj : j < l.length
      · rw [List.getElem?_eq_getElem hj, Option.map_some]
        by_cases h2 : idx = j
        · rw [if_pos h2, if_pos (by omega), if_pos (by omega)]
          congr 1; omega
        · rw [if_neg h2, if_neg (by omega)]
      · rw [List.getElem?_eq_none (by omega), if_neg (by omega)]; rfl
    · rw [if_neg h1, rsDelayFill_get m (idx + 1) (cd + 1) _ (by omega) (by rw [List.length_set]; omega)]
      apply List.ext_getElem?
      intro j
      rw [List.getElem?_mapIdx, List.getElem?_mapIdx, List.getElem?_set]
      by_cases hj : j < l.length
      · rw [List.getElem?_eq_getElem hj]
        by_cases h2 : idx = j
        · subst h2
          rw [if_pos rfl, if_pos hj, Option.map_some, Option.map_some, if_neg (by omega), if_pos (by omega)]
          congr 1; omega
        · rw [if_neg h2, Option.map_some, Option.map_some]
          by_cases h3 : idx ≤ j ∧ (j : Int) < idx - cd
          · rw [if_pos (by push_cast; omega), if_pos h3]
            congr 1; push_cast; omega
          · rw [if_neg (by push_cast; omega), if_neg h3]
      · rw [List.getElem?_eq_none (by omega), if_neg (by omega)]; rfl

/-- **C101 (delay).** After a stop, both programs put the vehicle behind or ahead of its trace by the same number of steps. -/
theorem C101_delay {s : Sim K} (hi : s.i ≤ s.cyc.length) (h0 : s.cyc0 ≠ []) (hl : s.cyc0.length = s.cyc.length)
    (hd : s.coastDelay.length = s.cyc.length) : rsSetCoastDelay P s = setCoastDelay P s := by
  have hc : s.cyc ≠ [] := by intro e; rw [e] at hl; simp at hl; exact h0 hl
  unfold rsSetCoastDelay setCoastDelay
  simp only [(C99_distances hc).2.2.2.1 s.i hi, (C99_distances h0).2.1, (C99_distances h0).1, rsFill_eq hd, rsDelayLoop_eq]
  have e : (if (!P.idmAllow && decide (s.cyc.speeds.getD s.i 0 < 1 / 100) &&
      decide (1 / 10 < rsAbs ((trapzDistances s.cyc0).getD (s.i - 1) 0 - trapzStepStartDistance s.cyc s.i))) = true then
        delayLoop s.i (trapzStepStartDistance s.cyc s.i) ((trapzDistances s.cyc0).getD (s.i - 1) 0) 0 0 none none
          ((trapzStepDistances s.cyc0).zip s.cyc0.speeds)
      else none) =
    (if P.idmAllow = false ∧ s.cyc.speeds.getD s.i 0 < 1 / 100 ∧
      1 / 10 < pabs ((trapzDistances s.cyc0).getD (s.i - 1) 0 - trapzStepStartDistance s.cyc s.i) then
        delayLoop s.i (trapzStepStartDistance s.cyc s.i) ((trapzDistances s.cyc0).getD (s.i - 1) 0) 0 0 none none
          ((trapzStepDistances s.cyc0).zip s.cyc0.speeds)
      else none) := by
    simp only [Bool.and_eq_true, Bool.not_eq_true', decide_eq_true_eq, and_assoc]
    rfl
  rw [e]
  generalize (if P.idmAllow = false ∧ s.cyc.speeds.getD s.i 0 < 1 / 100 ∧
      1 / 10 < pabs ((trapzDistances s.cyc0).getD (s.i - 1) 0 - trapzStepStartDistance s.cyc s.i) then
        delayLoop s.i (trapzStepStartDistance s.cyc s.i) ((trapzDistances s.cyc0).getD (s.i - 1) 0) 0 0 none none
          ((trapzStepDistances s.cyc0).zip s.cyc0.speeds)
      else none) = q
  cases q with
  | none => rfl
  | some cd =>
    have hL : (setFrom s.coastDelay s.i 0).length = s.cyc0.length := by simp [setFrom, hd, hl]
    simp only
    by_cases h1 : cd < 0
    · rw [if_pos h1, if_pos h1, rsDelayFill_get _ _ _ _ h1 (by rw [hL]; omega)]
      congr 1
      apply List.ext_getElem?
      intro j
      rw [List.getElem?_mapIdx, List.getElem?_mapIdx]
      by_cases hj : j < s.cyc0.length
      · simp only [hj, and_true]
      · rw [List.getElem?_eq_none (by omega)]; rfl
    · rw [if_neg h1, if_neg h1, rsFill_eq hL]

/-! ### Avoiding collisions -/

theorem steps_ne {c : Cyc K} (hs : ∀ j, 2 ≤ j → j < c.length → dtAt c j = dtAt c (j - 1)) (h1 : dtAt c 1 ≠ 0) :
    ∀ j, 1 ≤ j → j < c.length → dtAt c j ≠ 0
  | 0, h, _ => by omega
  | 1, _, _ => h1
  | j + 2, _, h => by
    rw [hs (j + 2) (by omega) h]
    exact steps_ne hs h1 (j + 1) (by omega) (by omega)

theorem rsAllSubCoast_eq {c : Cyc K} (hs : ∀ j, 2 ≤ j → j < c.length → dtAt c j = dtAt c (j - 1)) (h1 : dtAt c 1 ≠ 0)
    {start : Nat} (h2 : 2 ≤ start) (n : Nat) (a0 k dt : K) : rsAllSubCoast c start n a0 k dt = allSubCoast c start n a0 k dt := by
  unfold rsAllSubCoast allSubCoast
  congr 1
  funext ni
  by_cases hl : ni + start < c.length
  · rw [if_pos hl, if_pos hl, rsDtAt_eq c (by omega), hs _ (by omega) hl]
    unfold traceGe
    rw [if_neg (steps_ne hs h1 _ (by omega) (by omega))]
    rfl
  · rw [if_neg hl, if_neg hl]

theorem rsCollisionTry_eq {c : Cyc K} (hs : ∀ j, 2 ≤ j → j < c.length → dtAt c j = dtAt c (j - 1)) (h1 : dtAt c 1 ≠ 0)
    (col : PassingInfo K) {idx : Nat} (h2 : 2 ≤ idx) (hl : idx < c.length) (fbs n : Nat) (best : Option (Rendezvous K)) :
    rsCollisionTry P c col fbs idx n best = collisionTry P c col fbs idx n best := by
  have hc : c ≠ [] := by rintro rfl; simp at hl
  have hj := fun d0 v0 dr vr dt : K => (C99_jerk n d0 v0 dr vr dt 0 0).1
  have ha := rsAllSubCoast_eq hs h1 (by omega : 2 ≤ idx + fbs) n
  unfold rsCollisionTry collisionTry
  simp only [(C99_distances hc).2.2.2.1 idx hl.le, hj, ha, (rsReduce_eq _).1, (rsReduce_eq _).2]
  split
  · rfl
  · generalize calcConstantJerk (K := K) n _ _ _ _ _ = q
    cases q with
    | error e => rfl
    | ok r => cases best <;> rfl

theorem rsCollisionLoop_eq {c : Cyc K} (hs : ∀ j, 2 ≤ j → j < c.length → dtAt c j = dtAt c (j - 1)) (h1 : dtAt c 1 ≠ 0)
    (col : PassingInfo K) {impose : List Bool} {i : Nat} (hi : 2 ≤ i) (hr : RunOfTrue impose i) (fbs : Nat) :
    ∀ (m idx : Nat) (best : Option (Rendezvous K)), i ≤ idx → idx + m ≤ c.length →
    (impose.getD idx false = true → idx ≤ col.idx ∧ fbs ≤ col.idx - idx + 1) →
    rsCollisionLoop P c impose col fbs i m idx best = .ok (collisionLoop P c impose col fbs i m idx best)
  | 0, _, _, _, _, _ => rfl
  | m + 1, idx, best, hx, hl, hf => by
    unfold rsCollisionLoop collisionLoop
    by_cases h : impose.getD idx false = false
    · rw [if_pos h, if_pos h]
      by_cases e : idx = i
      · rw [if_pos e, if_pos e]
      · rw [if_neg e, if_neg e]
        refine rsCollisionLoop_eq hs h1 col hi hr fbs m (idx + 1) best (by omega) (by omega) fun q => ?_
        have := hr idx (idx + 1) hx (by omega) q
        rw [h] at this
        cases this
    · obtain ⟨f1, f2⟩ := hf (by simpa using h)
      rw [if_neg h, if_neg h, if_neg (by omega), if_neg (by omega)]
      simp only
      have e : col.idx - idx + 1 - fbs = col.idx + 1 - idx - fbs := by omega
      by_cases hn : col.idx + 1 < idx + fbs + 2
      · rw [if_pos (by omega), if_pos hn]
      · rw [if_neg (by omega), if_neg hn]
        by_cases hb : c.length ≤ idx - 1 + fbs
        · rw [if_pos hb, if_pos hb]
        · rw [if_neg hb, if_neg hb, e, rsCollisionTry_eq hs h1 col (by omega) (by omega)]
          exact rsCollisionLoop_eq hs h1 col hi hr fbs m (idx + 1) _ (by omega) (by omega) fun _ => ⟨by omega, by omega⟩

theorem rsCollisionSearch_eq {s : Sim K} (hs : ∀ j, 2 ≤ j → j < s.cyc.length → dtAt s.cyc j = dtAt s.cyc (j - 1))
    (h1 : dtAt s.cyc 1 ≠ 0) {col : PassingInfo K} (hi : 2 ≤ s.i) (hr : RunOfTrue s.impose s.i) (hl : s.i < s.cyc.length)
    (hrows : s.rows.length = s.cyc.length) (hc : s.i + 2 ≤ col.idx) : ∀ (m fbs : Nat), fbs + m ≤ 4 →
    rsCollisionSearch P s col m fbs = .ok (collisionSearch P s col m fbs)
  | 0, _, _ => rfl
  | m + 1, fbs, hm => by
    unfold rsCollisionSearch collisionSearch
    rw [rsCollisionLoop_eq hs h1 col hi hr fbs _ _ _ (le_refl _) (by omega) fun _ => ⟨by omega, by omega⟩]
    cases collisionLoop P s.cyc s.impose col fbs s.i (s.rows.length - s.i) s.i none with
    | some b => rfl
    | none => exact rsCollisionSearch_eq hs h1 hi hr hl hrows hc m (fbs + 1) (by omega)

theorem rsFullBrake_eq (ab : K) (idx : Nat) : ∀ (m fbs : Nat) (s : Sim K), idx + fbs + m ≤ s.cyc.length →
    rsFullBrake ab idx m fbs s = fullBrakeLoop ab idx m fbs s
  | 0, _, _, _ => rfl
  | m + 1, fbs, s, h => by
    unfold rsFullBrake fullBrakeLoop
    rw [if_neg (by omega)]
    exact rsFullBrake_eq ab idx m (fbs + 1) _ (by simp only [List.length_modify]; omega)

theorem fullBrakeLoop_frame (ab : K) (idx : Nat) : ∀ (m fbs : Nat) (s : Sim K),
    (fullBrakeLoop ab idx m fbs s).cyc.length = s.cyc.length ∧ (fullBrakeLoop ab idx m fbs s).cyc0 = s.cyc0 ∧
    (fullBrakeLoop ab idx m fbs s).impose.length = s.impose.length ∧
    (fullBrakeLoop ab idx m fbs s).coastDelay.length = s.coastDelay.length
  | 0, _, _ => ⟨rfl, rfl, rfl, rfl⟩
  | m + 1, fbs, s => by
    unfold fullBrakeLoop
    obtain ⟨a, b, c, d⟩ := fullBrakeLoop_frame ab idx m (fbs + 1) { s with
        cyc := setSpeed s.cyc (idx + fbs) (max (s.cyc.speeds.getD (idx - 1) 0 + ab * (s.cyc.times.getD (idx + fbs) 0 -
          s.cyc.times.getD (idx - 1) 0)) 0)
        impose := s.impose.set (idx + fbs) true
        coastDelay := s.coastDelay.set (idx + fbs) 0 }
    simp only [setSpeed, List.length_modify, List.length_set] at a b c d
    exact ⟨a, b, c, d⟩

theorem passLoop_idx (c c0 : Cyc K) (tol : K) (i : Nat) : ∀ (m di : Nat) (d e v w : K) (r : Nat × Nat × K × K),
    passLoop c c0 tol i m di d e v w = some r → r.1 < i + di + m
  | 0, _, _, _, _, _, _, h => by simp [passLoop] at h
  | m + 1, di, d, e, v, w, r, h => by
    unfold passLoop at h
    simp only at h
    split at h
    · simp only [Option.some.injEq] at h; subst h; simp only; omega
    · split at h
      · simp at h
      · have := passLoop_idx c c0 tol i m (di + 1) _ _ _ _ r h; omega

theorem detectPassing_idx {c c0 : Cyc K} {i : Nat} {tol : K} (h : (detectPassing c c0 i tol).hasCollision = true) :
    (detectPassing c c0 i tol).idx < c.length := by
  unfold detectPassing at h ⊢
  by_cases hl : c.length ≤ i
  · simp only [if_pos hl] at h; cases h
  · simp only [if_neg hl] at h ⊢
    split
    · rename_i e; rw [e] at h; cases h
    · rename_i r e
      have := passLoop_idx _ _ _ _ _ _ _ _ _ _ _ e
      simp only
      omega

/-- The arrays of an object fit its cycle. -/
structure CoastArrays (s : Sim K) : Prop where
  lead : s.cyc0.length = s.cyc.length
  rows : s.rows.length = s.cyc.length
  impose : s.impose.length = s.cyc.length
  delay : s.coastDelay.length = s.cyc.length
  run : RunOfTrue s.impose s.i

theorem mem_tolerances {tol : K} : tol ∈ (tolerances : List K) ↔ tol = 1 ∨ ∃ k : Nat, k < 11 ∧ 10 + 5 * (k : K) = tol := by
  simp [tolerances]

theorem tolerances_next {tol : K} (h : tol ∈ (tolerances : List K)) (h' : ¬ 60 < (if tol < 10 then 10 else tol + 5 : K)) :
    (if tol < 10 then 10 else tol + 5 : K) ∈ (tolerances : List K) := by
  rw [mem_tolerances] at h ⊢
  right
  rcases h with rfl | ⟨k, hk, rfl⟩
  · exact ⟨0, by omega, by norm_num⟩
  · have hk0 : (0 : K) ≤ k := Nat.cast_nonneg k
    have : ¬ (10 + 5 * (k : K) < 10) := by linarith
    rw [if_neg this] at h' ⊢
    refine ⟨k + 1, ?_, by push_cast; ring⟩
    by_contra hx
    have : k = 10 := by omega
    subst this
    apply h'
    norm_num

/-- **C101 (collisions).** Both programs change the plan alike so as not to run into the vehicle ahead. -/
theorem C101_collisions (ha : P.coastBrakeAccel < 0) {s : Sim K} (hA : CoastArrays s) (hi : s.i < s.cyc.length)
    (hc : ClearCollision s) : ∀ (fuel : Nat) {tol : K}, tol ∈ (tolerances : List K) →
    rsPreventCollisions P s fuel tol = sameOutcome (preventCollisions P s fuel tol)
  | 0, _, _ => rfl
  | fuel + 1, tol, ht => by
    have h2 := hc.second
    obtain ⟨p1, p2, -⟩ := C99_passing (c := s.cyc) (c0 := s.cyc0) (by omega : 1 ≤ s.i) hi.le hA.lead tol
    have hah := hc.ahead tol ht
    unfold rsPreventCollisions preventCollisions
    simp only
    by_cases hr : (rsDetectPassing s.cyc s.cyc0 s.i (some tol)).hasCollision = true
    · obtain ⟨a1, a2⟩ := hah hr
      have hd : (rsDetectPassing s.cyc s.cyc0 s.i (some tol)).distance = (detectPassing s.cyc s.cyc0 s.i tol).distance := by
        rw [p1]
      have hp : (detectPassing s.cyc s.cyc0 s.i tol).hasCollision = true := p2.2 ⟨hr, by rw [← hd]; exact a2⟩
      have e : rsDetectPassing s.cyc s.cyc0 s.i (some tol) = detectPassing s.cyc s.cyc0 s.i tol := by
        rw [p1, hr, ← hp]
      have hx := detectPassing_idx hp
      rw [e] at a1 ⊢
      rw [hp]
      simp only [Bool.true_eq_false, if_false, if_neg (not_not.2 ha)]
      rw [rsCollisionSearch_eq hc.steps hc.step h2 hA.run hi hA.rows a1 4 0 (by omega)]
      cases hb : collisionSearch P s (detectPassing s.cyc s.cyc0 s.i tol) 4 0 with
      | some b =>
        obtain ⟨q, -, -⟩ := collisionSearch_choice 4 0 b hb
        have q1 := q.fits
        have q2 := q.two
        have q3 := q.from_
        obtain ⟨f1, f2, f3, f4⟩ := fullBrakeLoop_frame P.coastBrakeAccel b.idx b.fullBrake 0 s
        simp only
        rw [rsFullBrake_eq _ _ _ _ _ (by omega)]
        rw [(C99_modify _ (by omega) (by rw [f1]; omega) _ _ _).1]
        simp only [applyRendezvous, sameOutcome]
        rw [f2, rsFill_eq (by rw [f3, hA.impose, hA.lead]), rsFill_eq (by rw [f4, hA.delay, hA.lead])]
      | none =>
        simp only
        by_cases h6 : 60 < (if tol < 10 then 10 else tol + 5 : K)
        · rw [if_pos h6, if_pos h6]; rfl
        · rw [if_neg h6, if_neg h6]
          exact C101_collisions ha hA hi hc fuel (tolerances_next ht h6)
    · have hp : (detectPassing s.cyc s.cyc0 s.i tol).hasCollision = false := by
        by_contra q
        exact hr (p2.1 (by simpa using q)).1
      have hr := eq_false_of_ne_true hr
      rw [if_pos hr, if_pos hp]
      rfl

/-- Without a flag at the current step nothing is done about a collision. -/
theorem prevent_unflagged (ha : P.coastBrakeAccel < 0) {s : Sim K} (h : s.impose.getD s.i false = false) :
    preventCollisions P s 12 1 = .ok (false, s) := by
  obtain ⟨r, hr⟩ := (C31_retries (P := P) s 1).1 ha
  rw [hr]
  rcases preventCollisions_cases _ _ _ hr with e | ⟨t, b, -, -, hb, -⟩
  · rw [e]
  · exfalso
    have hl : ∀ col : PassingInfo K, ∀ m fbs, collisionSearch P s col m fbs = none := by
      intro col m
      induction m with
      | zero => intro fbs; rfl
      | succ m ih =>
        intro fbs
        unfold collisionSearch
        have : collisionLoop P s.cyc s.impose col fbs s.i (s.rows.length - s.i) s.i none = none := by
          cases s.rows.length - s.i with
          | zero => rfl
          | succ q => unfold collisionLoop; rw [if_pos h, if_pos rfl]
        rw [this]
        exact ih (fbs + 1)
    rw [hl] at hb
    cases hb

/-! ### Runs of flags -/

theorem runOfTrue_later {l : List Bool} {i j : Nat} (h : RunOfTrue l i) (hj : i ≤ j) : RunOfTrue l j :=
  fun a b ha hab hb => h a b (by omega) hab hb

theorem setFrom_getD (l : List Bool) (i j : Nat) :
    (setFrom l i false).getD j false = (if i ≤ j then false else l.getD j false) := by
  rw [List.getD_eq_getElem?_getD, List.getD_eq_getElem?_getD]
  unfold setFrom
  rw [List.getElem?_mapIdx]
  cases l[j]? with
  | none => simp
  | some y => simp

theorem setRange_getD {l : List Bool} (i n j : Nat) (hj : j < l.length) :
    (setRange l i n true).getD j false = (if i ≤ j ∧ j < i + n then true else l.getD j false) := by
  rw [List.getD_eq_getElem?_getD, List.getD_eq_getElem?_getD]
  unfold setRange
  rw [List.getElem?_mapIdx, List.getElem?_eq_getElem hj]
  simp

theorem getD_lt {l : List Bool} {j : Nat} (h : l.getD j false = true) : j < l.length := by
  by_contra q
  rw [List.getD_eq_getElem?_getD, List.getElem?_eq_none (by omega)] at h
  cases h

theorem runOfTrue_clear {l : List Bool} {i : Nat} (h : RunOfTrue l i) (k : Nat) : RunOfTrue (setFrom l k false) i := by
  intro a b ha hab hb
  rw [setFrom_getD] at hb ⊢
  split at hb
  · cases hb
  · rename_i q
    rw [if_neg (by omega)]
    exact h a b ha hab hb

theorem runOfTrue_reflag (l : List Bool) (i n : Nat) : RunOfTrue (setRange (setFrom l i false) i n true) i := by
  intro a b ha hab hb
  have hl := getD_lt hb
  have hl' : b < (setFrom l i false).length := by simpa [setRange] using hl
  rw [setRange_getD _ _ _ hl', setFrom_getD] at hb
  rw [setRange_getD _ _ _ (by omega)]
  by_cases q : i ≤ b ∧ b < i + n
  · rw [if_pos (by omega)]
  · rw [if_neg q, if_pos (by omega)] at hb
    cases hb

theorem runOfTrue_extend (l : List Bool) (i n m : Nat) :
    RunOfTrue (setRange (setRange (setFrom l i false) i n true) (i + n) m true) i := by
  intro a b ha hab hb
  have hl := getD_lt hb
  have hl' : b < (setFrom l i false).length := by simpa [setRange] using hl
  have hl2 : ∀ q, q ≤ b → q < (setRange (setFrom l i false) i n true).length := by
    intro q hq; simp only [setRange, List.length_mapIdx]; omega
  rw [setRange_getD _ _ _ (hl2 b (le_refl _)), setRange_getD _ _ _ hl', setFrom_getD] at hb
  rw [setRange_getD _ _ _ (hl2 a hab), setRange_getD _ _ _ (by omega)]
  by_cases q : a < i + n
  · rw [if_neg (by omega), if_pos (by omega)]
  · rw [if_neg (c := i ≤ b ∧ b < i + n) (by omega), if_pos (by omega : i ≤ b)] at hb
    split at hb
    · rw [if_pos (by omega)]
    · cases hb

theorem runOfTrue_set {l : List Bool} {i : Nat} (h : RunOfTrue l i) {k : Nat} (hk : ∀ j, i ≤ j → j < k → l.getD j false = true) :
    RunOfTrue (l.set k true) i := by
  intro a b ha hab hb
  have hl : b < l.length := by simpa using getD_lt hb
  rw [List.getD_eq_getElem?_getD, List.getElem?_set] at hb ⊢
  by_cases q : k = a
  · rw [if_pos q, if_pos (by omega)]; rfl
  · rw [if_neg q, ← List.getD_eq_getElem?_getD]
    by_cases q2 : k = b
    · exact hk a ha (by omega)
    · rw [if_neg q2, ← List.getD_eq_getElem?_getD] at hb
      exact h a b ha hab hb

theorem runOfTrue_fullBrake (ab : K) {idx i : Nat} : ∀ (m fbs : Nat) (s : Sim K), RunOfTrue s.impose i → i ≤ idx →
    idx + fbs + m ≤ s.impose.length → (∀ j, i ≤ j → j < idx + fbs → s.impose.getD j false = true) →
    RunOfTrue (fullBrakeLoop ab idx m fbs s).impose i
  | 0, _, _, h, _, _, _ => h
  | m + 1, fbs, s, h, hi, hl, hf => by
    unfold fullBrakeLoop
    refine runOfTrue_fullBrake ab m (fbs + 1) _ (runOfTrue_set h hf) hi (by simp only [List.length_set]; omega) ?_
    intro j h1 h2
    simp only
    rw [List.getD_eq_getElem?_getD, List.getElem?_set]
    by_cases q : idx + fbs = j
    · rw [if_pos q, if_pos (by omega)]; rfl
    · rw [if_neg q, ← List.getD_eq_getElem?_getD]
      exact hf j h1 (by omega)

theorem runOfTrue_prevent {s : Sim K} (hA : CoastArrays s) {fuel : Nat} {tol : K} {r : Bool × Sim K}
    (h : preventCollisions P s fuel tol = .ok r) : RunOfTrue r.2.impose s.i := by
  rcases preventCollisions_cases _ _ _ h with rfl | ⟨t, b, hc, -, hb, rfl⟩
  · exact hA.run
  · obtain ⟨q, -, -⟩ := collisionSearch_choice 4 0 b hb
    have q1 := q.fits
    have q2 := q.two
    have q3 := detectPassing_idx hc
    unfold applyRendezvous
    simp only
    apply runOfTrue_clear
    refine runOfTrue_fullBrake _ _ _ _ hA.run q.from_ (by rw [hA.impose]; omega) fun j h1 h2 => ?_
    exact hA.run j b.idx h1 (by omega) q.flagged

theorem runOfTrue_unflagged {l : List Bool} {i : Nat} (h : RunOfTrue l i) (h' : l.getD i false = false) :
    setFrom l i false = l := by
  apply List.ext_getElem?
  intro j
  unfold setFrom
  rw [List.getElem?_mapIdx]
  cases e : l[j]? with
  | none => rfl
  | some y =>
    simp only [Option.map_some, Option.some.injEq]
    split
    · rename_i hj
      cases y with
      | false => rfl
      | true =>
        have := h i j (le_refl _) hj (by rw [List.getD_eq_getElem?_getD, e]; rfl)
        rw [h'] at this; cases this
    · rfl

/-! ### Starting to coast -/

/-- Writing the plan. -/
theorem rsApply_eq {s : Sim K} (hp : PlanAt F V P s) (hA : CoastArrays s)
    (hlow : (s.rows.getD (s.i - 1) Row.zero).ach.mpsAch ≤ P.coastBrakeStartSpeed → NoHalf s.cyc P.coastBrakeAccel s.i)
    (hplan : ∀ r ∈ coastPlan F V P s,
      NoHalf (writeSpeeds s.cyc s.i r.1.speeds) P.coastBrakeAccel (s.i + r.1.speeds.length))
    (hf : (foundTraj F V P s).found = true) :
    ∃ q, generateCoast F V P s true = (match q with | .error e => .error e | .ok s' => .ok ((foundTraj F V P s).dist, s')) ∧
      rsApplyCoast P s (foundTraj F V P s) = sameOutcome q := by
  have hc : s.cyc ≠ [] := by intro e; have := hp.inside; rw [e] at this; simp at this
  have hil : s.impose.length = s.cyc0.length := by rw [hA.impose, hA.lead]
  have hpos := hp.pos
  unfold generateCoast rsApplyCoast
  rw [hf]
  simp only [if_neg (not_lt.2 hp.brake.le), if_neg hp.ahead, if_neg hp.brake.ne, Bool.true_eq_false, if_false, if_true]
  unfold foundTraj at hf ⊢
  by_cases hv : (s.rows.getD (s.i - 1) Row.zero).ach.mpsAch ≤ P.coastBrakeStartSpeed
  · simp only [if_pos hv, Option.getD_none, List.length_nil, Nat.add_zero, Nat.zero_add, rsWriteSpeeds]
    rw [sameOutcome_braking hc _ hpos none (hlow hv)]
    cases modifyWithBraking s.cyc P.coastBrakeAccel s.i none with
    | error e => exact ⟨.error e, rfl, rfl⟩
    | ok r =>
      refine ⟨.ok _, rfl, ?_⟩
      simp only [sameOutcome]
      rw [rsImpose_eq hil]
  · simp only [if_neg hv] at hf ⊢
    cases he : coastPlan F V P s with
    | none => rw [he] at hf; cases hf
    | some q =>
      obtain ⟨e, t⟩ := q
      obtain ⟨-, p2, -⟩ := coastPlan_found he
      simp only [trajOf, Option.getD_some]
      rw [rsWriteSpeeds_eq _ _ _ _ p2]
      have hc' : writeSpeeds s.cyc s.i e.speeds ≠ [] := by
        intro h
        have := writeSpeeds_length (K := K) e.speeds s.cyc s.i
        rw [h] at this
        exact hc (List.length_eq_zero_iff.1 this.symm)
      rw [sameOutcome_braking hc' _ (by omega) (some t) (hplan (e, t) he)]
      cases modifyWithBraking (writeSpeeds s.cyc s.i e.speeds) P.coastBrakeAccel (s.i + e.speeds.length) (some t) with
      | error e => exact ⟨.error e, rfl, rfl⟩
      | ok r =>
        refine ⟨.ok _, rfl, ?_⟩
        simp only [sameOutcome]
        rw [rsImpose_eq hil]

theorem CoastArrays.edit {s s' : Sim K} (hA : CoastArrays s) (h : CoastEdit F V P s s') (hr : RunOfTrue s'.impose s.i) :
    CoastArrays s' := by
  have a := h.local.1
  have b := h.bookkeeping
  refine ⟨by rw [a.cyc0, a.lenCyc, hA.lead], by rw [a.lenRows, a.lenCyc, hA.rows], ?_, ?_, by rw [h.i]; exact hr⟩
  · rw [b.1.1, a.lenCyc, hA.impose]
  · rw [b.2.1, a.lenCyc, hA.delay]

theorem generate_run {s : Sim K} (hr : RunOfTrue s.impose s.i) {md : Bool} {r : K × Sim K}
    (h : generateCoast F V P s md = .ok r) : RunOfTrue r.2.impose s.i := by
  unfold generateCoast at h
  simp only at h
  split at h
  · cases h
  split at h
  · cases h; exact hr
  split at h
  · cases h
  split at h
  · split at h
    · split at h
      · cases h
      · cases h; exact runOfTrue_reflag _ _ _
    · cases h; exact hr
  · split at h
    · cases h; exact hr
    · split at h
      · split at h
        · cases h
        · cases h; exact runOfTrue_reflag _ _ _
      · cases h; exact hr

theorem foundTraj_dist (ha : P.coastBrakeAccel < 0) (hb : 0 ≤ P.coastBrakeStartSpeed) {s : Sim K}
    (hdt : ∀ j, j < s.cyc0.length → 0 ≤ dtAt s.cyc0 j) (hl : s.rows.length ≤ s.cyc0.length) :
    0 ≤ (foundTraj F V P s).dist := by
  unfold foundTraj
  split
  · exact div_nonneg_of_nonpos (by nlinarith [mul_self_nonneg (s.rows.getD (s.i - 1) Row.zero).ach.mpsAch]) ha.le
  · cases h : coastPlan F V P s with
    | none => exact le_refl _
    | some r => exact coastPlan_dist_nonneg ha hb hdt hl h

theorem rsAvoid_eq (ha : P.coastBrakeAccel < 0) {s : Sim K} (hA : CoastArrays s) (hi : s.i < s.cyc.length)
    (hc : P.coastAllowPassing = false → ClearCollision s) :
    rsAvoid P s = sameOutcome (if P.coastAllowPassing then .ok s else
      match preventCollisions P s 12 1 with
      | .error e => .error e
      | .ok r => .ok r.2) := by
  unfold rsAvoid
  cases hp : P.coastAllowPassing with
  | true => rfl
  | false =>
    simp only [Bool.false_eq_true, if_false]
    rw [C101_collisions ha hA hi (hc hp) 12 (mem_tolerances.2 (Or.inl rfl))]
    cases preventCollisions P s 12 1 <;> rfl

/-- What a state must be for both programs to coast. -/
structure CoastState (F : Fns K) (P : SimParams K) (s : Sim K) : Prop where
  arrays : CoastArrays s
  grades : GradesAgree F s.cyc0
  brake : P.coastBrakeAccel < 0
  speed : 0 ≤ P.coastBrakeStartSpeed
  pos : 1 ≤ s.i
  inside : s.i < s.cyc.length
  times : ∀ j, j < s.cyc0.length → 0 ≤ dtAt s.cyc0 j

theorem CoastState.lead {s : Sim K} (h : CoastState F P s) : s.cyc0 ≠ [] := by
  intro e
  have h1 := h.inside
  have h2 := h.arrays.lead
  rw [e] at h2
  simp at h2
  omega

/-- **C101 (start).** Both programs start to coast at the same steps, with the same speeds in the cycle and the same flags. -/
theorem C101_start {s : Sim K} (hS : CoastState F P s)
    (hstop : MayStart s → ClearStop s.cyc0 (trapzStepStartDistance s.cyc s.i)) (hR : MayStart s → StartRegular F V P s) :
    rsStartCoast F V P s = sameOutcome (startCoast F V P s) := by
  unfold rsStartCoast startCoast
  by_cases hm : 1 / 1000000 < (s.rows.getD (s.i - 1) Row.zero).ach.mpsAch ∧ s.impose.getD s.i false = false
  · rw [if_pos hm, if_pos hm]
    have hr := hR hm
    have hp : PlanAt F V P s := ⟨hS.lead, hS.grades, hS.brake, hS.pos, hS.inside, hstop hm, hr.tie⟩
    rw [C101_should hp]
    cases hsh : shouldImposeCoast F V P s with
    | error e => rfl
    | ok y =>
      cases y with
      | false => rfl
      | true =>
        have ht : (shouldImposeCoast F V P s).toOption = some true := by rw [hsh]; rfl
        have hd := foundTraj_dist (F := F) (V := V) hS.brake hS.speed hS.times
          (by rw [hS.arrays.rows, hS.arrays.lead])
        simp only [sameOutcome, rsGenerate_eq hp]
        by_cases hf : (foundTraj F V P s).found = true
        · obtain ⟨q, q1, q2⟩ := rsApply_eq hp hS.arrays (hr.low ht) (hr.plan ht) hf
          rw [if_pos hf]
          simp only [if_neg (not_lt.2 hd)]
          rw [q2, q1]
          cases q with
          | error e => rfl
          | ok s' =>
            simp only [sameOutcome, if_neg (not_lt.2 hd)]
            have he := CoastEdit.generate q1
            have hrun := generate_run hS.arrays.run q1
            rw [rsAvoid_eq hS.brake (hS.arrays.edit he hrun) (by rw [he.i, he.local.1.lenCyc]; exact hS.inside) fun hpass =>
              hr.collide ht hpass _ (by rw [q1]; rfl) hd]
            rfl
        · have hg : generateCoast F V P s true = .ok (-1, s) := by
            unfold foundTraj at hf
            unfold generateCoast
            simp only [if_neg (not_lt.2 hp.brake.le), if_neg hp.ahead, if_neg hp.brake.ne]
            by_cases hv : (s.rows.getD (s.i - 1) Row.zero).ach.mpsAch ≤ P.coastBrakeStartSpeed
            · rw [if_pos hv] at hf; exact absurd rfl hf
            · rw [if_neg hv] at hf ⊢
              cases he : coastPlan F V P s with
              | none => rfl
              | some r => rw [he] at hf; exact absurd rfl hf
          rw [if_neg hf, hg]
          have hlt : (-1 : K) < 0 := by norm_num
          simp only [if_pos hlt, runOfTrue_unflagged hS.arrays.run hm.2, prevent_unflagged hS.brake hm.2]
          cases P.coastAllowPassing <;> rfl
  · rw [if_neg hm, if_neg hm]
    rfl

/-! ### Changing the plan -/

theorem rendezvousLoop_pos (c0 : Cyc K) {i : Nat} (H v0 d vb dt lo hi : K) : ∀ (m j : Nat) (T : K)
    (best : Option (Rendezvous K)) (b : Rendezvous K), i ≤ j → 1 ≤ i → (∀ b, best = some b → 1 ≤ b.n) →
    rendezvousLoop c0 i H v0 d vb dt lo hi m j T best = some b → 1 ≤ b.n
  | 0, _, _, _, b, _, _, hb, h => hb b h
  | m + 1, j, T, best, b, hj, h1, hb, h => by
    unfold rendezvousLoop at h
    split at h
    · simp only at h
      split at h
      · split at h
        · rename_i r hr
          cases h
          unfold rendezvousFirst at hr
          simp only at hr
          split at hr
          · cases hr; exact le_refl _
          · cases hr
        · exact rendezvousLoop_pos c0 H v0 d vb dt lo hi m (j + 1) _ best b (by omega) h1 hb h
      · refine rendezvousLoop_pos c0 H v0 d vb dt lo hi m (j + 1) _ _ b (by omega) h1 ?_ h
        intro b' hb'
        unfold rendezvousTry at hb'
        split at hb'
        · split at hb'
          · exact hb b' hb'
          · split at hb'
            · simp only at hb'
              split at hb'
              · cases hb'; simp only; omega
              · exact hb b' hb'
            · exact hb b' hb'
        · exact hb b' hb'
    · exact hb b h

theorem nextRendezvous_pos {s : Sim K} (hi : 1 ≤ s.i) {lo hi' : K} {b : Rendezvous K}
    (h : nextRendezvous P s lo hi' = some b) : 1 ≤ b.n := by
  unfold nextRendezvous at h
  simp only at h
  split at h
  · cases h
  split at h
  · cases h
  · exact rendezvousLoop_pos _ _ _ _ _ _ _ _ _ _ _ _ b (le_refl _) hi (by simp) h

theorem modifyByConstJerk_length' (c : Cyc K) (i n : Nat) (k a0 : K) :
    (modifyByConstJerk c i n k a0).2.length = c.length := by
  have h : ∀ (m ni : Nat) (v0 dt v : K) (c : Cyc K), (jerkLoop i v0 a0 k dt m ni v c).2.length = c.length := by
    intro m
    induction m with
    | zero => intro ni v0 dt v c; rfl
    | succ m ih =>
      intro ni v0 dt v c
      unfold jerkLoop
      simp only
      split <;> simp [ih, setSpeed]
  unfold modifyByConstJerk
  simp [h]

/-- **C101 (change of plan).** -/
theorem C101_replan {s : Sim K} (hS : CoastState F P s)
    (hstop : P.coastBrakeStartSpeed + 1 / 1000000 ≤ s.cyc.speeds.getD (s.i - 1) 0 →
      ClearStop s.cyc0 (trapzStepStartDistance s.cyc s.i)) (hR : ReplanRegular P s) :
    rsReplan F P s (triedAccel s) = sameOutcome (replanCoast P s (triedAccel s)) := by
  have hc : s.cyc ≠ [] := by intro e; have := hS.inside; rw [e] at this; simp at this
  have hpos := hS.pos
  have hil : s.impose.length = s.cyc0.length := by rw [hS.arrays.impose, hS.arrays.lead]
  unfold rsReplan replanCoast
  simp only
  by_cases hv : s.cyc.speeds.getD s.i 0 < P.coastBrakeStartSpeed - 1 / 10
  · rw [if_pos hv, if_pos hv, sameOutcome_braking hc _ hpos none (hR.brake hv)]
    cases modifyWithBraking s.cyc P.coastBrakeAccel s.i none with
    | error e => rfl
    | ok r =>
      simp only [sameOutcome]
      rw [rsImpose_eq hS.arrays.impose]
  · rw [if_neg hv, if_neg hv, if_neg hS.brake.ne, C101_rendezvous hS.lead hpos hS.inside hstop]
    cases hb : nextRendezvous P s P.coastBrakeAccel (min (triedAccel s) 0) with
    | none => rfl
    | some b =>
      have hn := nextRendezvous_pos hpos hb
      simp only
      rw [(C99_modify s.cyc hpos hS.inside b.n b.jerk b.accel).1]
      simp only [if_neg (by omega : ¬ b.n = 0), rsImpose_eq hil, rsAbs_eq]
      have hne : (modifyByConstJerk s.cyc s.i b.n b.jerk b.accel).2 ≠ [] := by
        intro e
        have := modifyByConstJerk_length' s.cyc s.i b.n b.jerk b.accel
        rw [e] at this
        exact hc (List.length_eq_zero_iff.1 this.symm)
      by_cases hx : pabs ((modifyByConstJerk s.cyc s.i b.n b.jerk b.accel).1 - P.coastBrakeStartSpeed) < 1 / 10
      · rw [if_pos hx, if_pos hx, sameOutcome_braking hne _ (by omega) none (hR.meet hv b hb)]
        cases modifyWithBraking (modifyByConstJerk s.cyc s.i b.n b.jerk b.accel).2 P.coastBrakeAccel (s.i + b.n) none with
        | error e => rfl
        | ok r =>
          simp only [sameOutcome]
          rw [rsImpose_eq (by simp [setRange, setFrom, hil])]
          have : setFrom (setRange (setFrom s.impose s.i false) s.i b.n true) (s.i + b.n) false =
              setRange (setFrom s.impose s.i false) s.i b.n true := by
            apply List.ext_getElem?
            intro j
            simp only [setFrom, setRange, List.getElem?_mapIdx, Option.map_map]
            cases s.impose[j]? with
            | none => rfl
            | some y =>
              simp only [Option.map_some, Function.comp_apply, Option.some.injEq]
              by_cases q : s.i + b.n ≤ j
              · rw [if_pos q, if_neg (by omega), if_pos (by omega)]
              · rw [if_neg q]
          rw [this]
      · rw [if_neg hx, if_neg hx]
        rfl

theorem replan_run {s : Sim K} (hr : RunOfTrue s.impose s.i) {a : K} {r : Bool × Sim K} (h : replanCoast P s a = .ok r) :
    RunOfTrue r.2.impose s.i := by
  unfold replanCoast at h
  simp only at h
  split at h
  · split at h
    · cases h
    · cases h; exact runOfTrue_reflag _ _ _
  · split at h
    · cases h
    split at h
    · cases h; exact hr
    · split at h
      · split at h
        · cases h
        · cases h; exact runOfTrue_extend _ _ _ _
      · cases h; exact runOfTrue_reflag _ _ _

theorem start_run {s s' : Sim K} (hA : CoastArrays s) (h : startCoast F V P s = .ok s') : RunOfTrue s'.impose s.i := by
  unfold startCoast at h
  split at h
  · split at h
    · cases h
    · cases h; exact hA.run
    · split at h
      · cases h
      · rename_i d s1 hg
        have he := CoastEdit.generate hg
        have hr := generate_run hA.run hg
        simp only at h he hr
        have h2 : CoastEdit F V P s (if d < 0 then { s1 with impose := setFrom s1.impose s1.i false } else s1) ∧
            RunOfTrue (if d < 0 then { s1 with impose := setFrom s1.impose s1.i false } else s1).impose s.i := by
          split
          · exact ⟨he.impose _ (setFrom_same _ _ _ _ le_rfl), runOfTrue_clear hr _⟩
          · exact ⟨he, hr⟩
        revert h h2
        generalize (if d < 0 then { s1 with impose := setFrom s1.impose s1.i false } else s1) = s2
        intro h h2
        split at h
        · cases h; exact h2.2
        · split at h
          · cases h
          · rename_i r hp
            cases h
            have := runOfTrue_prevent (hA.edit h2.1 h2.2) hp
            rw [h2.1.i] at this
            exact this
  · cases h; exact hA.run

/-- Eco-coasting keeps the flags a run. -/
theorem hook_run {s s' : Sim K} (hA : CoastArrays s) (h : coastHook F V P s = .ok s') : RunOfTrue s'.impose s.i := by
  unfold coastHook at h
  split at h
  · cases h
  rename_i s1 h1
  have e1 := CoastEdit.start h1
  have r1 := start_run hA h1
  split at h
  · split at h
    · cases h; exact r1
    · cases h; exact r1
  · simp only at h
    have e2 : CoastEdit F V P s (coastSolve F V P (if P.coastBrakeStartSpeed < (s1.rows.getD (s1.i - 1) Row.zero).ach.mpsAch then
        { s1 with cyc := setSpeed s1.cyc s1.i (if P.coastAllowPassing = true then P.coastMaxSpeed
          else min (s1.cyc.speeds.getD s1.i 0) P.coastMaxSpeed) }
        else s1)) ∧ RunOfTrue (coastSolve F V P (if P.coastBrakeStartSpeed < (s1.rows.getD (s1.i - 1) Row.zero).ach.mpsAch then
        { s1 with cyc := setSpeed s1.cyc s1.i (if P.coastAllowPassing = true then P.coastMaxSpeed
          else min (s1.cyc.speeds.getD s1.i 0) P.coastMaxSpeed) }
        else s1)).impose s.i := by
      split
      · refine ⟨CoastEdit.resolve (e1.speed s1.i _ le_rfl fun hf ho => ?_), r1⟩
        split
        · exact ho.maxSpeed
        · exact le_min (getD_nonneg hf.cyc _) ho.maxSpeed
      · exact ⟨e1.resolve, r1⟩
    revert h e2
    generalize coastSolve F V P (if P.coastBrakeStartSpeed < (s1.rows.getD (s1.i - 1) Row.zero).ach.mpsAch then
        { s1 with cyc := setSpeed s1.cyc s1.i (if P.coastAllowPassing = true then P.coastMaxSpeed
          else min (s1.cyc.speeds.getD s1.i 0) P.coastMaxSpeed) }
        else s1) = s3
    intro h e2
    split at h
    · cases h
      have : ∀ q : Sim K, (setCoastDelay P q).impose = q.impose := by
        intro q
        unfold setCoastDelay
        simp only
        split
        · rfl
        · split <;> rfl
      simp only [this]
      exact runOfTrue_clear e2.2 _
    · split at h
      · split at h
        · cases h
        · rename_i s4 h4
          cases h
          have := replan_run (by rw [e2.1.i]; exact e2.2) h4
          rw [e2.1.i] at this
          exact this
        · rename_i s4 h4
          have e4 := e2.1.replan h4
          have r4 := replan_run (by rw [e2.1.i]; exact e2.2) h4
          simp only at e4 r4
          rw [e2.1.i] at r4
          split at h
          · cases h; exact r4
          · split at h
            · cases h
            · rename_i r hr
              cases h
              have := runOfTrue_prevent (hA.edit e4 r4) hr
              rw [e4.i] at this
              exact this
      · cases h; exact e2.2

/-! ### A step -/

/-- Coasting keeps what both loops keep. -/
theorem FollowInv.edit (hV : RsOk V) {c0 : Cyc K} {s s' : Sim K} (hz : gradeAllZero c0 = true) (hI : FollowInv c0 s)
    (hi : s.i < c0.length) (h : CoastEdit F (lastEffRepeated V) P s s') : FollowInv c0 s' := by
  induction h with
  | refl => exact hI
  | @speed s' h j v _ _ ih =>
    refine ⟨⟨ih.inv.pos, by simp [setSpeed, ih.inv.cyc], ih.inv.rows, ih.inv.aux, ?_, ih.inv.engine⟩, ih.cyc0, ?_⟩
    · show (Cyc.times (setSpeed s'.cyc _ _)).Pairwise _
      rw [setSpeed, times_modify _ _ _ fun _ => by rfl]
      exact ih.inv.times
    · show Cyc.times (setSpeed s'.cyc _ _) = _
      rw [setSpeed, times_modify _ _ _ fun _ => by rfl]
      exact ih.same
  | flags _ _ _ _ _ ih => exact ⟨⟨ih.inv.pos, ih.inv.cyc, ih.inv.rows, ih.inv.aux, ih.inv.times, ih.inv.engine⟩, ih.cyc0, ih.same⟩
  | @solve s' h ih =>
    have hi' : s'.i < c0.length := by rw [h.i]; exact hi
    have hok := stepOk_level (F := F) (P := P) (by rw [ih.cyc0]; exact hz) ih.inv hi' (lastEffRepeated V)
    have hrows : ∀ r ∈ (Sim.solve F (lastEffRepeated V) P s').rows, 0 ≤ r.fc.fcKwOutAch := by
      intro r hr
      have hr : r ∈ s'.rows.set s'.i (solveStep F (lastEffRepeated V) P.toStepParams (stepEnv F (lastEffRepeated V) P s')
        (s'.rows.getD (s'.i - 1) Row.zero) (s'.rows.getD s'.i Row.zero).stale) := hr
      rcases List.mem_or_eq_of_mem_set hr with h | rfl
      · exact ih.inv.engine r h
      · rw [solveStep_lastEffRepeated]
        exact solveStep_fc_nonneg hV hok _
    have haux : (Sim.solve F (lastEffRepeated V) P s').aux.length = c0.length := by
      show (auxStep (lastEffRepeated V) s'.aux s'.i).length = _
      unfold auxStep
      split <;> simp [ih.inv.aux]
    refine ⟨⟨ih.inv.pos, ih.inv.cyc, by simp [resetIters, Sim.solve, ih.inv.rows], haux, ih.inv.times, ?_⟩, ih.cyc0, ih.same⟩
    intro r hr
    obtain ⟨j, hj⟩ := List.mem_iff_getElem?.1 hr
    simp only [resetIters, List.getElem?_modify] at hj
    cases hc : (Sim.solve F (lastEffRepeated V) P s').rows[j]? with
    | none => rw [hc] at hj; simp at hj
    | some q =>
      rw [hc] at hj
      simp only [Option.map_eq_map, Option.map_some, Option.some.injEq] at hj
      rw [← hj]
      split
      · exact hrows q (List.mem_of_getElem? hc)
      · exact hrows q (List.mem_of_getElem? hc)

/-- What a run with coasting keeps. -/
structure CoastInv (c0 : Cyc K) (s : Sim K) : Prop where
  follow : FollowInv c0 s
  impose : s.impose.length = c0.length
  delay : s.coastDelay.length = c0.length
  run : RunOfTrue s.impose s.i

theorem CoastInv.arrays {c0 : Cyc K} {s : Sim K} (h : CoastInv c0 s) : CoastArrays s :=
  ⟨by rw [h.follow.cyc0, h.follow.inv.cyc], by rw [h.follow.inv.rows, h.follow.inv.cyc],
    by rw [h.impose, h.follow.inv.cyc], by rw [h.delay, h.follow.inv.cyc], h.run⟩

theorem CoastInv.state {c0 : Cyc K} {s : Sim K} (h : CoastInv c0 s) (hz : gradeAllZero c0 = true) (hi : s.i < c0.length)
    (ha : P.coastBrakeAccel < 0) (hb : 0 ≤ P.coastBrakeStartSpeed) : CoastState F P s where
  arrays := h.arrays
  grades := gradesAgree_level (by rw [h.follow.cyc0]; exact hz)
  brake := ha
  speed := hb
  pos := h.follow.inv.pos
  inside := by rw [h.follow.inv.cyc]; exact hi
  times := fun j hj => by
    refine dtAt_nonneg' ?_ hj
    rw [h.follow.cyc0, ← h.follow.same]
    exact h.follow.inv.times

theorem CoastInv.edit (hV : RsOk V) {c0 : Cyc K} {s s' : Sim K} (hz : gradeAllZero c0 = true) (hI : CoastInv c0 s)
    (hi : s.i < c0.length) (h : CoastEdit F (lastEffRepeated V) P s s') (hr : RunOfTrue s'.impose s.i) : CoastInv c0 s' :=
  ⟨hI.follow.edit hV hz hi h, by rw [h.bookkeeping.1.1]; exact hI.impose, by rw [h.bookkeeping.2.1]; exact hI.delay,
    by rw [h.i]; exact hr⟩

theorem rsCoastSolve_eq (hV : RsOk V) {c0 : Cyc K} {s : Sim K} (hz : gradeAllZero c0 = true) (hI : FollowInv c0 s)
    (hi : s.i < c0.length) (a b : K) :
    rsCoastSolve F (withRead V a b) P s = .ok (coastSolve F (lastEffRepeated V) P s) := by
  unfold rsCoastSolve
  rw [rsSolve_level hV (by rw [hI.cyc0]; exact hz) hI.inv hi]
  rfl

/-! The core reads nothing of the vehicle in planning that the two vehicles differ in. -/

theorem rsCoastIter_read (a b : K) (q : RsCache K) (u : Option K) (d0 d v dt : K) : ∀ (n : Nat) (vavg gr k w : K),
    rsCoastIter F (withRead V a b) P q u d0 d v dt n vavg gr k w = rsCoastIter F (lastEffRepeated V) P q u d0 d v dt n vavg gr k w
  | 0, _, _, _, _ => rfl
  | n + 1, vavg, gr, k, w => by
    have e : ∀ v g : K, rsDvdd F (withRead V a b) P v g = rsDvdd F (lastEffRepeated V) P v g := fun _ _ => rfl
    unfold rsCoastIter
    simp only [e, rsCoastIter_read a b q u d0 d v dt n]

theorem rsCoastLoop_read (a b : K) (c0 : Cyc K) (q : RsCache K) (u : Option K) (len : Nat) (d0 dMax dts0 : K) :
    ∀ (m : Nat) (v d : K) (idx : Nat) (acc : List K),
    rsCoastLoop F (withRead V a b) P c0 q u len d0 dMax dts0 m v d idx acc =
      rsCoastLoop F (lastEffRepeated V) P c0 q u len d0 dMax dts0 m v d idx acc
  | 0, _, _, _, _ => rfl
  | m + 1, v, d, idx, acc => by
    have e : ∀ d v dt : K, rsCoastStep F (withRead V a b) P q u d0 d v dt = rsCoastStep F (lastEffRepeated V) P q u d0 d v dt := by
      intro d v dt
      have e : ∀ v g : K, rsDvdd F (withRead V a b) P v g = rsDvdd F (lastEffRepeated V) P v g := fun _ _ => rfl
      unfold rsCoastStep
      simp only [e, rsCoastIter_read]
    unfold rsCoastLoop
    simp only [e, rsCoastLoop_read a b c0 q u len d0 dMax dts0 m]

theorem rsStartCoast_read (a b : K) (s : Sim K) :
    rsStartCoast F (withRead V a b) P s = rsStartCoast F (lastEffRepeated V) P s := by
  have h1 : rsGenerateCoast F (withRead V a b) P s = rsGenerateCoast F (lastEffRepeated V) P s := by
    unfold rsGenerateCoast
    simp only [rsCoastLoop_read]
  have h2 : rsDistToStopCoast F (withRead V a b) P s = rsDistToStopCoast F (lastEffRepeated V) P s := by
    have e : ∀ v g : K, rsClosedForm F (withRead V a b) P v g = rsClosedForm F (lastEffRepeated V) P v g := fun _ _ => rfl
    unfold rsDistToStopCoast rsDistOfTraj
    simp only [e, h1]
  unfold rsStartCoast rsShouldCoast
  simp only [h1, h2]

theorem rsTargetIdx_eq {i len : Nat} (h : 0 < len) (d : Int) :
    rsTargetIdx i d len = (min (max ((i : Int) - d) 0) ((len : Int) - 1)).toNat := by
  unfold rsTargetIdx
  simp only
  split <;> omega

theorem startDistance_before {c c' : Cyc K} {i : Nat} (h : ∀ j, j < i → c'[j]? = c[j]?) :
    trapzStepStartDistance c' i = trapzStepStartDistance c i := by
  rw [trapzStepStartDistance_eq, trapzStepStartDistance_eq]
  congr 1
  apply List.ext_getElem?
  intro j
  by_cases hj : j < i
  · rw [List.getElem?_take_of_lt hj, List.getElem?_take_of_lt hj, h j hj]
  · rw [List.getElem?_eq_none (by rw [List.length_take]; omega), List.getElem?_eq_none (by rw [List.length_take]; omega)]

/-- **C101 (hook).** The coasting part of a step on a level road is the same in both programs, or the same failure, if the step
is regular. -/
theorem C101_hook (hV : RsOk V) {c0 : Cyc K} {s : Sim K} (hz : gradeAllZero c0 = true) (hI : CoastInv c0 s)
    (hi : s.i < c0.length) (ha : P.coastBrakeAccel < 0) (hb : 0 ≤ P.coastBrakeStartSpeed)
    (hR : CoastRegular F (lastEffRepeated V) P s) (a b : K) :
    rsCoastHook F (withRead V a b) P s = sameOutcome (coastHook F (lastEffRepeated V) P s) := by
  have hS : CoastState F P s := hI.state hz hi ha hb
  unfold rsCoastHook coastHook
  rw [rsStartCoast_read, C101_start hS (fun h => hR.stop (Or.inl h)) hR.start]
  cases h1 : startCoast F (lastEffRepeated V) P s with
  | error e => rfl
  | ok s1 =>
    have e1 := CoastEdit.start h1
    have r1 := start_run hI.arrays h1
    have hI1 := hI.edit hV hz hi e1 r1
    have i1 := e1.i
    simp only [sameOutcome]
    by_cases hf : s1.impose.getD s1.i false = false
    · rw [if_pos hf, if_pos hf]
      cases P.idmAllow with
      | true => rfl
      | false =>
        simp only [Bool.false_eq_true, if_false]
        rw [rsTargetIdx_eq (by rw [hI1.follow.cyc0]; omega)]
        rfl
    · rw [if_neg hf, if_neg hf]
      have hf' : s1.impose.getD s1.i false = true := by simpa using hf
      have hrep := hR.replan s1 (by rw [h1]; rfl) hf'
      unfold triedStep at hrep
      have e2 : CoastEdit F (lastEffRepeated V) P s
          (if P.coastBrakeStartSpeed < (s1.rows.getD (s1.i - 1) Row.zero).ach.mpsAch then
            { s1 with
              cyc := setSpeed s1.cyc s1.i (if P.coastAllowPassing then P.coastMaxSpeed
                else min (s1.cyc.speeds.getD s1.i 0) P.coastMaxSpeed) }
          else s1) ∧ RunOfTrue (if P.coastBrakeStartSpeed < (s1.rows.getD (s1.i - 1) Row.zero).ach.mpsAch then
            { s1 with
              cyc := setSpeed s1.cyc s1.i (if P.coastAllowPassing then P.coastMaxSpeed
                else min (s1.cyc.speeds.getD s1.i 0) P.coastMaxSpeed) }
          else s1).impose s.i := by
        split
        · refine ⟨e1.speed s1.i _ le_rfl fun hf ho => ?_, r1⟩
          split
          · exact ho.maxSpeed
          · exact le_min (getD_nonneg hf.cyc _) ho.maxSpeed
        · exact ⟨e1, r1⟩
      have ex : (if P.coastBrakeStartSpeed < (s1.rows.getD (s1.i - 1) Row.zero).ach.mpsAch then
          { s1 with cyc := s1.cyc.modify s1.i fun x =>
              { x with v := if P.coastAllowPassing then P.coastMaxSpeed
                  else min (s1.cyc.speeds.getD s1.i 0) P.coastMaxSpeed } }
        else s1) = (if P.coastBrakeStartSpeed < (s1.rows.getD (s1.i - 1) Row.zero).ach.mpsAch then
            { s1 with
              cyc := setSpeed s1.cyc s1.i (if P.coastAllowPassing then P.coastMaxSpeed
                else min (s1.cyc.speeds.getD s1.i 0) P.coastMaxSpeed) }
          else s1) := rfl
      simp only [ex]
      revert hrep e2
      generalize (if P.coastBrakeStartSpeed < (s1.rows.getD (s1.i - 1) Row.zero).ach.mpsAch then
            { s1 with
              cyc := setSpeed s1.cyc s1.i (if P.coastAllowPassing then P.coastMaxSpeed
                else min (s1.cyc.speeds.getD s1.i 0) P.coastMaxSpeed) }
          else s1) = s2
      intro hrep e2
      have hI2 := hI.edit hV hz hi e2.1 e2.2
      rw [rsCoastSolve_eq hV hz hI2.follow (by rw [e2.1.i]; exact hi)]
      have e3 := e2.1.resolve
      have r3 : RunOfTrue (coastSolve F (lastEffRepeated V) P s2).impose s.i := e2.2
      revert hrep e3 r3
      generalize coastSolve F (lastEffRepeated V) P s2 = s3
      intro hrep e3 r3
      have hI3 := hI.edit hV hz hi e3 r3
      have i3 := e3.i
      have i13 : s1.i = s3.i := by rw [i1, i3]
      have hS3 : CoastState F P s3 := hI3.state hz (by rw [i3]; exact hi) ha hb
      rw [i13] at hrep
      simp only [rsDtAt_eq s3.cyc hS3.pos, rsAbs_eq]
      by_cases hv : s3.cyc.speeds.getD s3.i 0 < 1 / 1000000
      · rw [if_pos hv, if_pos hv]
        rw [rsFill_eq (by rw [hI3.impose, hI3.follow.cyc0])]
        rw [C101_delay (s := { s3 with impose := setFrom s3.impose s3.i false }) hS3.inside.le hS3.lead hS3.arrays.lead
          hS3.arrays.delay]
        rfl
      · rw [if_neg hv, if_neg hv]
        have e13 : s1.cyc.speeds.getD s1.i 0 = s1.cyc.speeds.getD s3.i 0 := by rw [i13]
        rw [e13]
        by_cases hd : 1 / 1000000 < pabs (s3.cyc.speeds.getD s3.i 0 - s1.cyc.speeds.getD s3.i 0)
        · rw [if_pos hd, if_pos hd]
          have hr := hrep (not_lt.1 hv) hd
          have hb3 : ∀ j, j < s3.i → s3.cyc[j]? = s.cyc[j]? := fun j hj => e3.before j (by omega)
          have hstop : P.coastBrakeStartSpeed + 1 / 1000000 ≤ s3.cyc.speeds.getD (s3.i - 1) 0 →
              ClearStop s3.cyc0 (trapzStepStartDistance s3.cyc s3.i) := by
            intro hq
            rw [startDistance_before hb3, e3.local.1.cyc0, i3]
            refine hR.stop (Or.inr ?_)
            have := hb3 (s3.i - 1) (by have := hS3.pos; omega)
            have e : s3.cyc.speeds.getD (s3.i - 1) 0 = s.cyc.speeds.getD (s.i - 1) 0 := by
              rw [List.getD_eq_getElem?_getD, List.getD_eq_getElem?_getD, Cyc.speeds, Cyc.speeds, List.getElem?_map,
                List.getElem?_map, this, i3]
            rw [← e]; exact hq
          have hq := C101_replan hS3 hstop hr
          unfold triedAccel at hq
          rw [hq]
          have hcol := hr.collide
          unfold triedAccel at hcol
          cases h4 : replanCoast P s3 ((s3.cyc.speeds.getD s3.i 0 - s3.cyc.speeds.getD (s3.i - 1) 0) / dtAt s3.cyc s3.i) with
          | error e => rfl
          | ok r =>
            obtain ⟨y, s4⟩ := r
            cases y with
            | false => rfl
            | true =>
              have e4 := e3.replan h4
              have r4 := replan_run (by rw [i3]; exact r3) h4
              simp only at e4 r4
              rw [i3] at r4
              have hI4 := hI.edit hV hz hi e4 r4
              have hA4 := hI4.arrays
              simp only [sameOutcome]
              rw [rsAvoid_eq ha hA4 (by rw [hI4.follow.inv.cyc, e4.i]; exact hi) fun hp =>
                hcol hp (true, s4) (by rw [h4]; rfl) rfl]
              cases hp : P.coastAllowPassing with
              | true =>
                simp only [if_true, sameOutcome]
                exact rsCoastSolve_eq hV hz hI4.follow (by rw [e4.i]; exact hi) a b
              | false =>
                simp only [Bool.false_eq_true, if_false]
                cases h5 : preventCollisions P s4 12 1 with
                | error e => rfl
                | ok r =>
                  have e5 := e4.prevent h5
                  simp only [sameOutcome]
                  exact rsCoastSolve_eq hV hz (hI.follow.edit hV hz hi e5) (by rw [e5.i]; exact hi) a b
        · rw [if_neg hd, if_neg hd]

/-! ### Runs -/

/-- Car following keeps what a run with coasting keeps. -/
theorem coastInv_follow {c0 : Cyc K} {s s1 : Sim K} (hI : CoastInv c0 s) (h : afterFollowing F P s = .ok s1) :
    CoastInv c0 s1 ∧ s1.i = s.i := by
  unfold afterFollowing at h
  split at h
  · obtain ⟨g1, g2⟩ := followInv_hook hI.follow h
    unfold idmHook at h
    split at h
    · cases h
    · cases h
      exact ⟨⟨g1, hI.impose, hI.delay, hI.run⟩, rfl⟩
  · cases h
    exact ⟨hI, rfl⟩

theorem coastInv_hook (hV : RsOk V) {c0 : Cyc K} {s s1 : Sim K} (hz : gradeAllZero c0 = true) (hI : CoastInv c0 s)
    (hi : s.i < c0.length) (h : coastHook F (lastEffRepeated V) P s = .ok s1) : CoastInv c0 s1 ∧ s1.i = s.i :=
  ⟨hI.edit hV hz hi (coastHook_edit h) (hook_run hI.arrays h), (coastHook_edit h).i⟩

theorem coastInv_finish (hV : RsOk V) {c0 : Cyc K} {s : Sim K} (hz : gradeAllZero c0 = true) (hI : CoastInv c0 s)
    (hi : s.i < c0.length) : CoastInv c0 (finishStep F P (Sim.solve F (lastEffRepeated V) P s)) := by
  refine ⟨followInv_finish hV hz hI.follow hi, ?_, ?_, ?_⟩
  · unfold finishStep; split <;> exact hI.impose
  · unfold finishStep; split <;> exact hI.delay
  · have : RunOfTrue s.impose (s.i + 1) := runOfTrue_later hI.run (by omega)
    unfold finishStep; split <;> exact this

/-- One step. -/
theorem rsStep_coast (hV : RsOk V) (hP : CoastDrive P) {c0 : Cyc K} (hz : gradeAllZero c0 = true)
    (ht0 : c0.times.getD 0 0 = 0) {s : Sim K} (hI : CoastInv c0 s) (hi : s.i < c0.length)
    (hR : ∀ s1 ∈ (afterFollowing F P s).toOption, CoastRegular F (lastEffRepeated V) P s1) (a b : K) :
    rsStep F (rsRealHooks F (withRead V a b) P) (withRead V a b) P s =
      sameOutcome (simDriveStep F (realHooks F (lastEffRepeated V) P) (lastEffRepeated V) P s) := by
  have hc0 : s.cyc0 ≠ [] := by
    rw [hI.follow.cyc0]; rintro e; rw [e] at hi; simp at hi
  have hF : (if P.idmAllow then (rsRealHooks F (withRead V a b) P).idm s else .ok s) = sameOutcome (afterFollowing F P s) := by
    unfold afterFollowing
    cases P.idmAllow with
    | false => rfl
    | true =>
      simp only [if_true]
      exact C100_hook hc0 hI.follow.inv.pos (by rw [hI.follow.inv.cyc]; exact hi) (by rw [hI.follow.same]; exact ht0)
  have hF' : (if P.idmAllow then (realHooks F (lastEffRepeated V) P).idm s else .ok s) = afterFollowing F P s := rfl
  unfold rsStep simDriveStep
  rw [hF, hF']
  cases h : afterFollowing F P s with
  | error e => rfl
  | ok s1 =>
    obtain ⟨g1, g2⟩ := coastInv_follow hI h
    have hi1 : s1.i < c0.length := by rw [g2]; exact hi
    simp only [sameOutcome, hP.coast, hP.trace, if_true, Bool.false_eq_true, if_false, false_and]
    have hk : (rsRealHooks F (withRead V a b) P).coast s1 = sameOutcome ((realHooks F (lastEffRepeated V) P).coast s1) :=
      C101_hook hV hz g1 hi1 hP.brake hP.speed (hR s1 (by rw [h]; rfl)) a b
    rw [hk]
    have ek : (realHooks F (lastEffRepeated V) P).coast s1 = coastHook F (lastEffRepeated V) P s1 := rfl
    rw [ek]
    cases h2 : coastHook F (lastEffRepeated V) P s1 with
    | error e => rfl
    | ok s2 =>
      obtain ⟨k1, k2⟩ := coastInv_hook hV hz g1 hi1 h2
      simp only [sameOutcome]
      rw [rsSolve_level hV (by rw [k1.follow.cyc0]; exact hz) k1.follow.inv (by rw [k2]; exact hi1)]
      have e1 : solveAndCorrect F (lastEffRepeated V) P s2 = Sim.solve F (lastEffRepeated V) P s2 := by
        unfold solveAndCorrect; simp [hP.trace]
      rw [e1]
      have hz' : gradeAllZero (Sim.solve F (lastEffRepeated V) P s2).cyc0 = true := by
        show gradeAllZero s2.cyc0 = true
        rw [k1.follow.cyc0]; exact hz
      unfold finishStep rsLookupGrade lookupGrade
      simp only [hP.coast, Bool.true_or, if_true, hz', setSpeed]

theorem coastInv_step (hV : RsOk V) (hP : CoastDrive P) {c0 : Cyc K} (hz : gradeAllZero c0 = true) {s s' : Sim K}
    (hI : CoastInv c0 s) (hi : s.i < c0.length)
    (h : simDriveStep F (realHooks F (lastEffRepeated V) P) (lastEffRepeated V) P s = .ok s') :
    CoastInv c0 s' ∧ s'.i = s.i + 1 := by
  unfold simDriveStep at h
  have hF' : (if P.idmAllow then (realHooks F (lastEffRepeated V) P).idm s else .ok s) = afterFollowing F P s := rfl
  rw [hF'] at h
  split at h
  · cases h
  · rename_i s1 h1
    obtain ⟨g1, g2⟩ := coastInv_follow hI h1
    simp only [hP.coast, if_true] at h
    split at h
    · cases h
    · rename_i s2 h2
      obtain ⟨k1, k2⟩ := coastInv_hook hV hz g1 (by rw [g2]; exact hi) h2
      have e1 : solveAndCorrect F (lastEffRepeated V) P s2 = Sim.solve F (lastEffRepeated V) P s2 := by
        unfold solveAndCorrect; simp [hP.trace]
      rw [e1] at h
      cases h
      refine ⟨coastInv_finish hV hz k1 (by rw [k2, g2]; exact hi), ?_⟩
      rw [← g2, ← k2]
      unfold finishStep
      split <;> rfl

theorem rsWalkLoop_coast (hV : RsOk V) (hP : CoastDrive P) {c0 : Cyc K} (hz : gradeAllZero c0 = true)
    (ht0 : c0.times.getD 0 0 = 0) {s0 : Sim K} (hR : RegularRun F (lastEffRepeated V) P s0) (a b : K) : ∀ (m : Nat) {s : Sim K},
    CoastInv c0 s → Visited F (lastEffRepeated V) P s0 s → c0.length ≤ s.i + m →
    rsWalkLoop F (rsRealHooks F (withRead V a b) P) (withRead V a b) P m s =
      sameOutcome (walkLoop F (realHooks F (lastEffRepeated V) P) (lastEffRepeated V) P m s) := by
  intro m
  induction m with
  | zero =>
    intro s hI _ hm
    unfold rsWalkLoop walkLoop
    have : ¬ s.i < s.cyc.length := by rw [hI.follow.inv.cyc]; omega
    rw [if_neg this, if_neg this]
    rfl
  | succ m ih =>
    intro s hI hv hm
    unfold rsWalkLoop walkLoop
    by_cases hi : s.i < s.cyc.length
    · rw [if_pos hi, if_pos hi]
      have hi' := hi
      rw [hI.follow.inv.cyc] at hi'
      rw [rsStep_coast hV hP hz ht0 hI hi' (hR s hv hi) a b]
      cases h : simDriveStep F (realHooks F (lastEffRepeated V) P) (lastEffRepeated V) P s with
      | error e => rfl
      | ok s' =>
        simp only [sameOutcome]
        obtain ⟨j1, j2⟩ := coastInv_step hV hP hz hI hi' h
        exact ih j1 (hv.step hi h) (by rw [j2]; omega)
    · rw [if_neg hi, if_neg hi]
      rfl

/-- **C101 (walk).** Coasting on a level road, `sim_drive_walk` of the Rust core is that of the python code on the vehicle whose
last engine efficiency is repeated, if all steps are regular: the same figure in every array at every sample, or the same
failure. -/
theorem C101_walk (hV : RsOk V) (hP : CoastDrive P) {s : Sim K}
    (hz : LevelRoad s.cyc0) (ht0 : s.cyc0.times.getD 0 0 = 0) (hlen : s.cyc.length = s.cyc0.length)
    (ht : s.cyc0.times.Pairwise (· ≤ ·)) (soc : K) (aux : Option (List K))
    (ha : ∀ x, aux = some x → x.length = s.cyc0.length)
    (hR : RegularRun F (lastEffRepeated V) P (initState (lastEffRepeated V) P s soc aux)) (a b : K) :
    rsWalk F (rsRealHooks F (withRead V a b) P) (withRead V a b) P s soc aux =
      sameOutcome (walk F (realHooks F (lastEffRepeated V) P) (lastEffRepeated V) P s soc aux) := by
  unfold rsWalk walk rsInitForStep initForStep
  have e1 : (withRead V a b).ptType = V.ptType := rfl
  have e2 : (lastEffRepeated V).ptType = V.ptType := rfl
  have e3 : (withRead V a b).minSoc = V.minSoc := rfl
  have e4 : (withRead V a b).maxSoc = V.maxSoc := rfl
  have e5 : (lastEffRepeated V).minSoc = V.minSoc := rfl
  have e6 : (lastEffRepeated V).maxSoc = V.maxSoc := rfl
  rw [e1, e2, e3, e4, e5, e6]
  by_cases hs : V.ptType = .conv ∨ (V.minSoc ≤ soc ∧ soc ≤ V.maxSoc)
  · have hs' : ¬ (V.ptType ≠ .conv ∧ (V.maxSoc < soc ∨ soc < V.minSoc)) := by
      rintro ⟨h1, h2⟩
      rcases hs with h | ⟨h3, h4⟩
      · exact h1 h
      · rcases h2 with h2 | h2
        · exact absurd h4 (not_le.2 h2)
        · exact absurd h3 (not_le.2 h2)
    rw [if_pos hs, if_neg hs']
    by_cases h0 : s.cyc0.length = 0
    · rw [if_pos h0, if_pos (Or.inr h0)]
      rfl
    · rw [if_neg h0, if_neg (c := s.cyc.length = 0 ∨ s.cyc0.length = 0) (by rw [hlen]; simp [h0])]
      have hinit : ({ rsInitArrays s with
          aux := aux.getD (List.replicate s.cyc0.length 0)
          rows := (rsInitArrays s).rows.set 0 (Row.init (withRead V a b) soc (s.cyc0.speeds.getD 0 0)
            ((aux.getD (List.replicate s.cyc0.length 0)).getD 0 0))
          cyc := if P.missedTrace || P.idmAllow || P.coastAllow then s.cyc0 else s.cyc
          i := 1 } : Sim K) = initState (lastEffRepeated V) P s soc aux := by
        unfold initState initArrays rsInitArrays
        have hx := initAux_eq aux ha
        simp only [hlen, hx]
        rfl
      simp only
      rw [hinit]
      have hc : (initState (lastEffRepeated V) P s soc aux).cyc = s.cyc0 := by
        unfold initState
        simp [hP.coast]
      have hI : CoastInv s.cyc0 (initState (lastEffRepeated V) P s soc aux) := by
        refine ⟨⟨⟨le_refl 1, by rw [hc], ?_, ?_, by rw [hc]; exact ht, ?_⟩, rfl, by rw [hc]⟩, ?_, ?_, ?_⟩
        · simp [initState, initArrays, hlen]
        · show (initAux s.cyc.length aux).length = _
          cases aux with
          | none => simp [initAux, hlen]
          | some x => rw [hlen, initAux_eq _ ha]; exact ha x rfl
        · intro r hr
          have hr : r ∈ (List.replicate s.cyc.length (Row.zero : Row K)).set 0 (Row.init (lastEffRepeated V) soc
            (s.cyc0.speeds.getD 0 0) ((initAux s.cyc.length aux).getD 0 0)) := hr
          rcases List.mem_or_eq_of_mem_set hr with h | rfl
          · rw [List.eq_of_mem_replicate h]; exact le_refl _
          · exact le_refl _
        · simp [initState, initArrays, hlen]
        · simp [initState, initArrays, hlen]
        · intro j k _ _ h
          have h : (List.replicate s.cyc.length false).getD k false = true := h
          rw [List.getD_eq_getElem?_getD, List.getElem?_replicate] at h
          split at h <;> simp at h
      have hc' : (if P.missedTrace || P.idmAllow || P.coastAllow then s.cyc0 else s.cyc) = s.cyc0 := hc
      rw [hc, hc']
      exact rsWalkLoop_coast hV hP (level_all hz) ht0 hR a b _ hI .start (Nat.le_add_left _ _)
  · have hs' : V.ptType ≠ .conv ∧ (V.maxSoc < soc ∨ soc < V.minSoc) := by
      refine ⟨fun h => hs (Or.inl h), ?_⟩
      by_contra h
      have h := not_or.1 h
      exact hs (Or.inr ⟨not_lt.1 h.2, not_lt.1 h.1⟩)
    rw [if_neg hs, if_pos hs']
    rfl

/-- **C101 (run).** The same for `sim_drive`, for every powertrain; for hybrids with an initial state of charge that is given. -/
theorem C101_run (hV : RsOk V) (hP : CoastDrive P) {s : Sim K}
    (hz : LevelRoad s.cyc0) (ht0 : s.cyc0.times.getD 0 0 = 0) (hlen : s.cyc.length = s.cyc0.length)
    (ht : s.cyc0.times.Pairwise (· ≤ ·)) (init : Option K) (aux : Option (List K))
    (ha : ∀ x, aux = some x → x.length = s.cyc0.length) (hh : V.ptType ≠ .hev ∨ init ≠ none)
    (hR : ∀ soc, (∀ x, init = some x → soc = x) → RegularRun F (lastEffRepeated V) P
      (initState (lastEffRepeated V) P { s with hevCount := 0 } soc aux)) (a b : K) :
    rsDrive F (rsRealHooks F (withRead V a b) P) (withRead V a b) P s init aux =
      sameOutcome (simDrive F (realHooks F (lastEffRepeated V) P) (lastEffRepeated V) P s init aux) := by
  have key : ∀ soc : K, (∀ x, init = some x → soc = x) →
      rsWalk F (rsRealHooks F (withRead V a b) P) (withRead V a b) P { s with hevCount := 0 } soc aux =
      sameOutcome (walk F (realHooks F (lastEffRepeated V) P) (lastEffRepeated V) P { s with hevCount := 0 } soc aux) :=
    fun soc hsoc => C101_walk (s := { s with hevCount := 0 }) hV hP hz ht0 hlen ht soc aux ha (hR soc hsoc) a b
  have e1 : (withRead V a b).ptType = V.ptType := rfl
  have e2 : (lastEffRepeated V).ptType = V.ptType := rfl
  unfold rsDrive simDrive
  cases init with
  | some soc => exact key soc fun x hx => Option.some.inj hx
  | none =>
    simp only [e1, e2]
    cases hv : V.ptType with
    | conv => exact key _ (by simp)
    | hev => exact absurd hv (hh.resolve_right (by simp))
    | phev => exact key _ (by simp)
    | bev => exact key _ (by simp)

/-- **C101 (same drive).** Coasting on a level road with regular steps, the two programs drive the same: the same speeds in the
cycle and in every sample the same of everything but fuel. -/
theorem C101_same_drive (hV : RsOk V) (hP : CoastDrive P) {s t : Sim K}
    (hz : LevelRoad s.cyc0) (ht0 : s.cyc0.times.getD 0 0 = 0) (hlen : s.cyc.length = s.cyc0.length)
    (ht : s.cyc0.times.Pairwise (· ≤ ·)) (init : Option K) (aux : Option (List K))
    (ha : ∀ x, aux = some x → x.length = s.cyc0.length) (hh : V.ptType ≠ .hev ∨ init ≠ none)
    (hR : ∀ soc, (∀ x, init = some x → soc = x) → RegularRun F (lastEffRepeated V) P
      (initState (lastEffRepeated V) P { s with hevCount := 0 } soc aux))
    (h : simDrive F (realHooks F V P) V P s init aux = .ok t) :
    ∃ t', rsDrive F (rsRealHooks F V P) V P s init aux = .ok t' ∧ t'.cyc = t.cyc ∧ t'.rows.length = t.rows.length ∧
      ∀ (i : Nat) (r r' : Row K), t.rows[i]? = some r → t'.rows[i]? = some r' → withoutFuel r = withoutFuel r' := by
  have q := C84_same_drive (F := F) (P := P) (V := V)
    (V.fcEffArray.set (V.fcEffArray.length - 1) (V.fcEffArray.getD (V.fcEffArray.length - 2) 0)) V.fsMaxKw V.fsSecsToPeakPwr
    s init aux hh
  rw [← lastEff_fuelSide, h] at q
  cases h' : simDrive F (realHooks F (lastEffRepeated V) P) (lastEffRepeated V) P s init aux with
  | error e => rw [h'] at q; exact q.elim
  | ok t' =>
    have e := C101_run (F := F) hV hP hz ht0 hlen ht init aux ha hh hR V.mcPeakEff V.maxFcEffKw
    rw [h'] at e
    obtain ⟨hc, hl, hrows⟩ := same_drive_rows (F := F) (P := P) (V := V) _ V.fsMaxKw V.fsSecsToPeakPwr hh hlen h h'
    exact ⟨t', e, hc.symm, hl.symm, fun i r r' h1 h2 => (hrows i r r' h1 h2).1⟩

/-- **C101 (fails).** The Rust core fails in such a run exactly if the python code does. -/
theorem C101_fails (hV : RsOk V) (hP : CoastDrive P) {s : Sim K}
    (hz : LevelRoad s.cyc0) (ht0 : s.cyc0.times.getD 0 0 = 0) (hlen : s.cyc.length = s.cyc0.length)
    (ht : s.cyc0.times.Pairwise (· ≤ ·)) (init : Option K) (aux : Option (List K))
    (ha : ∀ x, aux = some x → x.length = s.cyc0.length) (hh : V.ptType ≠ .hev ∨ init ≠ none)
    (hR : ∀ soc, (∀ x, init = some x → soc = x) → RegularRun F (lastEffRepeated V) P
      (initState (lastEffRepeated V) P { s with hevCount := 0 } soc aux)) :
    (∃ e, rsDrive F (rsRealHooks F V P) V P s init aux = .error e) ↔
      ∃ e, simDrive F (realHooks F V P) V P s init aux = .error e := by
  have q := C84_same_drive (F := F) (P := P) (V := V)
    (V.fcEffArray.set (V.fcEffArray.length - 1) (V.fcEffArray.getD (V.fcEffArray.length - 2) 0)) V.fsMaxKw V.fsSecsToPeakPwr
    s init aux hh
  rw [← lastEff_fuelSide] at q
  have e := C101_run (F := F) hV hP hz ht0 hlen ht init aux ha hh hR V.mcPeakEff V.maxFcEffKw
  change rsDrive F (rsRealHooks F V P) V P s init aux = _ at e
  rw [e]
  cases h : simDrive F (realHooks F V P) V P s init aux with
  | error x =>
    rw [h] at q
    cases h' : simDrive F (realHooks F (lastEffRepeated V) P) (lastEffRepeated V) P s init aux with
    | error y => exact ⟨fun _ => ⟨_, rfl⟩, fun _ => ⟨_, rfl⟩⟩
    | ok t' => rw [h'] at q; exact q.elim
  | ok t =>
    rw [h] at q
    cases h' : simDrive F (realHooks F (lastEffRepeated V) P) (lastEffRepeated V) P s init aux with
    | error y => rw [h'] at q; exact q.elim
    | ok t' =>
      constructor
      · rintro ⟨_, x⟩; cases x
      · rintro ⟨_, x⟩; cases x

end Floor
end Fastsim.Props
