import Verif.Model.Jerk
import Verif.Lemmas.Dist
import Mathlib.Algebra.Order.Field.Rat
import Mathlib.Tactic.FieldSimp
import Mathlib.Tactic.LinearCombination
import Mathlib.Tactic.Positivity
import Mathlib.Data.Rat.Floor

/-!
# C07, C08, C09: constant-jerk trajectories
-/

set_option linter.unusedSectionVars false
set_option linter.unusedVariables false

namespace Fastsim.Props
open Fastsim Spec

variable {K : Type*} [Field K] [LinearOrder K] [IsStrictOrderedRing K]

/-! ## Specification: what a piecewise-constant acceleration does -/

/-- Speed after `n` steps of duration `dt` under accelerations `acc 0, acc 1, ...`. -/
def simSpeed (acc : Nat → K) (dt v0 : K) : Nat → K
  | 0 => v0
  | n + 1 => simSpeed acc dt v0 n + acc n * dt

/-- Distance after `n` steps by the trapezoidal rule over a speed sequence. -/
def simDist (spd : Nat → K) (dt d0 : K) : Nat → K
  | 0 => d0
  | n + 1 => simDist spd dt d0 n + (spd n + spd (n + 1)) / 2 * dt

/-! ## C07 -/

theorem jerkDenom_eq (n : Nat) (dt : K) :
    jerkDenom n dt = ((n : K) - 1) * dt * ((n : K) + 4 - 3 * dt) / 6 := by
  unfold jerkDenom; ring

/-- **C07 (rendezvous).** Whenever `calc_constant_jerk_trajectory` returns, the returned jerk and
acceleration lead exactly to the rendezvous distance and speed after `n` steps. -/
theorem C07_rendezvous (n : Nat) (D0 v0 Dr vr dt k a0 : K)
    (h : calcConstantJerk n D0 v0 Dr vr dt = .ok (k, a0)) :
    distForConstantJerk n D0 v0 a0 k dt = Dr ∧ speedForConstantJerk n v0 a0 k dt = vr := by
  unfold calcConstantJerk at h
  split at h; · simp at h
  split at h; · simp at h
  split at h; · simp at h
  rename_i hn hD hdt
  simp only [not_not, not_or] at hn hD hdt
  obtain ⟨hdt, hden⟩ := hdt
  simp only [Except.ok.injEq, Prod.mk.injEq] at h
  obtain ⟨hk, ha⟩ := h
  rw [hk] at ha
  have hn0 : (n : K) ≠ 0 := by
    have : n ≠ 0 := by omega
    exact_mod_cast this
  have e1 : k * jerkDenom n dt = (vr - v0) - 2 * (Dr - D0) / ((n : K) * dt) + 2 * v0 := by
    rw [← hk]; field_simp
  have e2 : a0 * (1 / 2 * (n : K) * (n : K) * dt) = (Dr - D0) / dt - (n : K) * v0
      - (1 / 6 * (n : K) * ((n : K) - 1) * ((n : K) - 2) * dt
          + 1 / 4 * (n : K) * ((n : K) - 1) * dt * dt) * k := by
    rw [← ha]; field_simp
  have e2' : a0 * (1 / 2 * (n : K) * (n : K) * dt * dt) = (Dr - D0) - (n : K) * v0 * dt
      - (1 / 6 * (n : K) * ((n : K) - 1) * ((n : K) - 2) * dt
          + 1 / 4 * (n : K) * ((n : K) - 1) * dt * dt) * k * dt := by
    have : (Dr - D0) / dt * dt = Dr - D0 := by field_simp
    linear_combination dt * e2 + this
  have e1' : k * jerkDenom n dt * ((n : K) * dt) =
      (vr - v0) * ((n : K) * dt) - 2 * (Dr - D0) + 2 * v0 * ((n : K) * dt) := by
    rw [e1]; field_simp
  constructor
  · unfold distForConstantJerk
    linear_combination e2'
  · unfold speedForConstantJerk
    have hnd : (n : K) * dt ≠ 0 := mul_ne_zero hn0 hdt
    apply mul_right_cancel₀ hnd
    rw [jerkDenom_eq] at e1'
    linear_combination 2 * e2' + e1'

/-- **C07 (success).** The call succeeds exactly for `n ≥ 2`, a rendezvous ahead, a non-zero step
and a step different from `(n+4)/3`; otherwise it raises. -/
theorem C07_success (n : Nat) (D0 v0 Dr vr dt : K) :
    (∃ r, calcConstantJerk n D0 v0 Dr vr dt = .ok r) ↔
      2 ≤ n ∧ D0 < Dr ∧ dt ≠ 0 ∧ dt ≠ ((n : K) + 4) / 3 := by
  have key : 2 ≤ n → (jerkDenom n dt = 0 ↔ dt = 0 ∨ dt = ((n : K) + 4) / 3) := by
    intro hn
    have hn1 : (n : K) - 1 ≠ 0 := by
      have : (1 : K) < n := by exact_mod_cast hn
      intro h; linarith
    rw [jerkDenom_eq]
    constructor
    · intro h
      have h' : ((n : K) - 1) * dt * ((n : K) + 4 - 3 * dt) = 0 := by linarith
      rcases mul_eq_zero.1 h' with h'' | h''
      · rcases mul_eq_zero.1 h'' with h3 | h3
        · exact absurd h3 hn1
        · exact Or.inl h3
      · right; linarith
    · rintro (h | h)
      · rw [h]; ring
      · rw [h]; ring
  unfold calcConstantJerk
  by_cases hn : 1 < n
  · rw [if_neg (not_not.2 hn)]
    by_cases hD : D0 < Dr
    · rw [if_neg (not_not.2 hD)]
      by_cases h0 : dt = 0 ∨ jerkDenom n dt = 0
      · rw [if_pos h0]
        simp only [reduceCtorEq, exists_false, false_iff, not_and]
        intro hn' _ hdt hdt'
        rcases h0 with h0 | h0
        · exact hdt h0
        · rcases (key hn').1 h0 with h | h
          · exact hdt h
          · exact hdt' h
      · rw [if_neg h0]
        push Not at h0
        refine ⟨fun _ => ⟨hn, hD, h0.1, fun h => h0.2 ((key hn).2 (Or.inr h))⟩, fun _ => ⟨_, rfl⟩⟩
    · rw [if_pos hD]
      simp [hD]
  · rw [if_pos hn]
    simp only [reduceCtorEq, exists_false, false_iff, not_and]
    intro h; omega

/-- Non-vacuity of C07: a real rendezvous, and the degenerate step `n = 2, dt = 2`. -/
example : calcConstantJerk 3 0 10 20 (2 : ℚ) 1 = .ok (-1, -5/3) := by decide +kernel
example : calcConstantJerk 2 0 10 20 (2 : ℚ) 2 = .error .zeroDivision := by decide +kernel

/-! ## C08 -/

/-- **C08 at one-second steps.** With `dt = 1` the closed forms are exactly what the accelerations
produce. -/
theorem C08_consistent_dt_one_partial (n : Nat) (d0 v0 a0 k : K) :
    speedForConstantJerk n v0 a0 k 1 = simSpeed (fun j => accelForConstantJerk j a0 k 1) 1 v0 n ∧
    distForConstantJerk n d0 v0 a0 k 1 =
      simDist (fun j => speedForConstantJerk j v0 a0 k 1) 1 d0 n := by
  constructor
  · induction n with
    | zero => simp [speedForConstantJerk, simSpeed]
    | succ n ih =>
      rw [simSpeed, ← ih]
      simp only [speedForConstantJerk, accelForConstantJerk]
      push_cast; ring
  · induction n with
    | zero => simp [distForConstantJerk, simDist]
    | succ n ih =>
      rw [simDist, ← ih]
      simp only [speedForConstantJerk, distForConstantJerk]
      push_cast; ring

/-- **C08, exact defect for other step durations.** The closed-form speed differs from the speed the
accelerations produce by `k·dt·(1-dt)·n(n-1)/2`, and the closed-form distance differs from the
trapezoidal distance over the closed-form speeds by `k·dt²·(1-dt)·n(n-1)/4`. -/
theorem C08_defect (n : Nat) (d0 v0 a0 k dt : K) :
    speedForConstantJerk n v0 a0 k dt - simSpeed (fun j => accelForConstantJerk j a0 k dt) dt v0 n
      = k * dt * (1 - dt) * ((n : K) * ((n : K) - 1)) / 2 ∧
    simDist (fun j => speedForConstantJerk j v0 a0 k dt) dt d0 n - distForConstantJerk n d0 v0 a0 k dt
      = k * dt * dt * (1 - dt) * ((n : K) * ((n : K) - 1)) / 4 := by
  constructor
  · induction n with
    | zero => simp [speedForConstantJerk, simSpeed]
    | succ n ih =>
      rw [simSpeed]
      have e : speedForConstantJerk (n + 1) v0 a0 k dt =
          speedForConstantJerk n v0 a0 k dt + a0 * dt + (n : K) * k * dt := by
        simp only [speedForConstantJerk]; push_cast; ring
      rw [e]
      simp only [accelForConstantJerk] at ih ⊢
      push_cast
      linear_combination ih
  · induction n with
    | zero => simp [distForConstantJerk, simDist]
    | succ n ih =>
      rw [simDist]
      have e : distForConstantJerk (n + 1) d0 v0 a0 k dt = distForConstantJerk n d0 v0 a0 k dt
          + dt * (v0 + (n : K) * a0 * dt + 1 / 2 * k * dt * ((n : K) - 1) * (n : K))
          + 1 / 2 * dt * dt * (a0 + (n : K) * k * dt) := by
        simp only [distForConstantJerk]; push_cast; ring
      rw [e]
      simp only [speedForConstantJerk] at ih ⊢
      push_cast
      linear_combination ih

/-- **C08 refuted** for every step duration other than one second: as soon as two steps are taken
with a non-zero jerk, the closed-form speed and distance are not what the trajectory does. -/
theorem C08_refuted (n : Nat) (d0 v0 a0 k dt : K) (hn : 2 ≤ n) (hk : k ≠ 0) (hdt : dt ≠ 0)
    (hdt1 : dt ≠ 1) :
    speedForConstantJerk n v0 a0 k dt ≠ simSpeed (fun j => accelForConstantJerk j a0 k dt) dt v0 n ∧
    simDist (fun j => speedForConstantJerk j v0 a0 k dt) dt d0 n ≠ distForConstantJerk n d0 v0 a0 k dt := by
  obtain ⟨h1, h2⟩ := C08_defect n d0 v0 a0 k dt
  have hn0 : (n : K) * ((n : K) - 1) ≠ 0 := by
    have h : (2 : K) ≤ n := by exact_mod_cast hn
    apply mul_ne_zero <;> intro h0 <;> linarith
  have hd1 : 1 - dt ≠ 0 := fun h => hdt1 (by linarith)
  constructor
  · intro h
    rw [h, sub_self] at h1
    have : k * dt * (1 - dt) * ((n : K) * ((n : K) - 1)) = 0 := by linarith
    simp only [mul_eq_zero, hk, hdt, hd1, false_or] at this
    exact hn0 (mul_eq_zero.2 this)
  · intro h
    rw [h, sub_self] at h2
    have : k * dt * dt * (1 - dt) * ((n : K) * ((n : K) - 1)) = 0 := by linarith
    simp only [mul_eq_zero, hk, hdt, hd1, false_or] at this
    exact hn0 (mul_eq_zero.2 this)

/-- Consequence for users: a rendezvous computed for half-second steps misses its distance. -/
theorem C08_rendezvous_missed : ∃ k a0 : ℚ, calcConstantJerk 4 0 10 20 0 (1/2) = .ok (k, a0) ∧
    simDist (fun j => speedForConstantJerk j 10 a0 k (1/2)) (1/2) 0 4 ≠ 20 :=
  ⟨-80/13, 55/13, by decide +kernel, by decide +kernel⟩

/-! ## C09 -/

theorem setSpeed_length (c : Cyc K) (j : Nat) (v : K) : (setSpeed c j v).length = c.length := by
  simp [setSpeed]

theorem setSpeed_get (c : Cyc K) (j i : Nat) (v : K) :
    (setSpeed c j v)[i]? = if i = j then c[i]?.map (fun s => { s with v := v }) else c[i]? := by
  simp only [setSpeed, List.getElem?_modify]
  by_cases h : i = j
  · simp [h]
  · have h' : ¬ j = i := fun h' => h h'.symm
    simp [h, h']

theorem jerkLoop_spec (idx : Nat) (v0 a0 k dt : K) (m : Nat) :
    ∀ (ni : Nat) (v : K) (c : Cyc K), 1 ≤ ni →
      (jerkLoop idx v0 a0 k dt m ni v c).2.length = c.length ∧
      ∀ j, (jerkLoop idx v0 a0 k dt m ni v c).2[j]? =
        if idx + ni ≤ j + 1 ∧ j + 1 < idx + ni + m then
          c[j]?.map (fun s => { s with v := max (speedForConstantJerk (j + 1 - idx) v0 a0 k dt) 0 })
        else c[j]? := by
  induction m with
  | zero =>
    intro ni v c hni
    refine ⟨rfl, fun j => ?_⟩
    rw [if_neg (by omega)]; rfl
  | succ m ih =>
    intro ni v c hni
    simp only [jerkLoop]
    split
    case isTrue hlen =>
      refine ⟨rfl, fun j => ?_⟩
      split
      case isTrue hj =>
        have : c[j]? = none := by simp; omega
        simp [this]
      case isFalse => rfl
    case isFalse hlen =>
      obtain ⟨h1, h2⟩ := ih (ni + 1) (speedForConstantJerk ni v0 a0 k dt)
        (setSpeed c (idx + ni - 1) (max (speedForConstantJerk ni v0 a0 k dt) 0)) (by omega)
      refine ⟨by rw [h1, setSpeed_length], fun j => ?_⟩
      rw [h2 j]
      simp only [setSpeed_get]
      by_cases hj : j = idx + ni - 1
      · rw [if_neg (by omega), if_pos hj, if_pos (by omega)]
        have : j + 1 - idx = ni := by omega
        rw [this]
      · rw [if_neg hj]
        by_cases hr : idx + (ni + 1) ≤ j + 1 ∧ j + 1 < idx + (ni + 1) + m
        · rw [if_pos hr, if_pos (by omega)]
        · rw [if_neg hr, if_neg (by omega)]

theorem jerkLoop_final (idx : Nat) (v0 a0 k dt : K) (m : Nat) :
    ∀ (ni : Nat) (v : K) (c : Cyc K), 1 ≤ ni → 0 < m → idx + ni + m - 1 ≤ c.length →
      (jerkLoop idx v0 a0 k dt m ni v c).1 = speedForConstantJerk (ni + m - 1) v0 a0 k dt := by
  induction m with
  | zero => intro ni v c _ h; omega
  | succ m ih =>
    intro ni v c hni _ hlen
    simp only [jerkLoop]
    rw [if_neg (by omega)]
    cases m with
    | zero => simp [jerkLoop]
    | succ m =>
      rw [ih (ni + 1) _ _ (by omega) (by omega) (by rw [setSpeed_length]; omega)]
      congr 1; omega

/-- **C09 (frame and content).** `modify_by_const_jerk_trajectory(idx, n, k, a)` leaves the number of
samples, all times, grades and road types, and all samples outside `[idx, idx+n)` unchanged; inside,
each speed is the constant-jerk speed cut off at zero. In particular no speed set is negative. -/
theorem C09_const_jerk (c : Cyc K) (idx n : Nat) (k a0 : K) :
    let c' := (modifyByConstJerk c idx n k a0).2
    c'.length = c.length ∧
    c'.map (fun s => (s.t, s.g, s.r)) = c.map (fun s => (s.t, s.g, s.r)) ∧
    (∀ j, j < idx ∨ idx + n ≤ j → c'[j]? = c[j]?) ∧
    (∀ j s, idx ≤ j → j < idx + n → c'[j]? = some s →
      s.v = max (speedForConstantJerk (j + 1 - idx) (prevSpeed c idx) a0 k (dtAt c idx)) 0 ∧ 0 ≤ s.v) := by
  have h := jerkLoop_spec idx (prevSpeed c idx) a0 k (dtAt c idx) n 1 (prevSpeed c idx) c le_rfl
  obtain ⟨h1, h2⟩ := h
  refine ⟨h1, ?_, ?_, ?_⟩
  · apply List.ext_getElem?
    intro j
    simp only [List.getElem?_map]
    show Option.map _ (jerkLoop idx (prevSpeed c idx) a0 k (dtAt c idx) n 1 (prevSpeed c idx) c).2[j]? = _
    rw [h2 j]
    split
    · cases c[j]? <;> simp
    · rfl
  · intro j hj
    show (jerkLoop idx (prevSpeed c idx) a0 k (dtAt c idx) n 1 (prevSpeed c idx) c).2[j]? = _
    rw [h2 j, if_neg (by omega)]
  · intro j s hj1 hj2 hs
    change (jerkLoop idx (prevSpeed c idx) a0 k (dtAt c idx) n 1 (prevSpeed c idx) c).2[j]? = _ at hs
    rw [h2 j, if_pos (by omega)] at hs
    simp only [Option.map_eq_some_iff] at hs
    obtain ⟨s0, _, rfl⟩ := hs
    exact ⟨rfl, le_max_right _ _⟩

variable [FloorRing K]

/-- **C09 (braking, frame).** A successful `modify_with_braking_trajectory` leaves everything but the
speeds in `[idx, idx+n)` unchanged, where `n` is the returned number of steps, and sets only
non-negative speeds. -/
theorem C09_braking_frame (c : Cyc K) (a : K) (idx : Nat) (dts : Option K) (v : K) (n : Nat)
    (c' : Cyc K) (h : modifyWithBraking c a idx dts = .ok (v, n, c')) :
    c'.length = c.length ∧
    c'.map (fun s => (s.t, s.g, s.r)) = c.map (fun s => (s.t, s.g, s.r)) ∧
    (∀ j, j < idx ∨ idx + n ≤ j → c'[j]? = c[j]?) ∧
    (∀ j s, idx ≤ j → j < idx + n → c'[j]? = some s → 0 ≤ s.v) := by
  unfold modifyWithBraking at h
  split at h; · simp at h
  split at h
  · split at h
    · simp at h
    · simp only [Except.ok.injEq, Prod.mk.injEq] at h
      obtain ⟨-, rfl, rfl⟩ := h
      exact ⟨rfl, rfl, fun _ _ => rfl, fun j s h1 h2 => by omega⟩
  · simp only at h
    split at h
    · simp only [Except.ok.injEq, Prod.mk.injEq] at h
      obtain ⟨-, rfl, rfl⟩ := h
      exact ⟨rfl, rfl, fun _ _ => rfl, fun j s h1 h2 => by omega⟩
    · split at h; · simp at h
      split at h
      · simp at h
      · rename_i k a0 _
        simp only [Except.ok.injEq, Prod.mk.injEq] at h
        obtain ⟨-, rfl, rfl⟩ := h
        obtain ⟨h1, h2, h3, h4⟩ := C09_const_jerk c idx (brakeSteps (prevSpeed c idx) a (dtAt c idx)) k a0
        exact ⟨h1, h2, h3, fun j s hj1 hj2 hs => (h4 j s hj1 hj2 hs).2⟩

/-- **C09 (braking, end).** If braking was necessary (`n > 0`) and its end lies inside the cycle, at
least two steps are used, the returned final speed is zero and the last modified sample is at
standstill. -/
theorem C09_braking_stops (c : Cyc K) (a : K) (idx : Nat) (dts : Option K) (v : K) (n : Nat)
    (c' : Cyc K) (h : modifyWithBraking c a idx dts = .ok (v, n, c')) (hn : 0 < n)
    (hin : idx + n ≤ c.length) :
    2 ≤ n ∧ v = 0 ∧ ∃ s, c'[idx + n - 1]? = some s ∧ s.v = 0 := by
  unfold modifyWithBraking at h
  split at h; · simp at h
  split at h
  · split at h
    · simp at h
    · simp only [Except.ok.injEq, Prod.mk.injEq] at h
      obtain ⟨-, rfl, rfl⟩ := h; omega
  · simp only at h
    split at h
    · simp only [Except.ok.injEq, Prod.mk.injEq] at h
      obtain ⟨-, rfl, rfl⟩ := h; omega
    · split at h; · simp at h
      split at h
      · simp at h
      · rename_i k a0 hcalc
        simp only [Except.ok.injEq, Prod.mk.injEq] at h
        obtain ⟨hv, hn', hc'⟩ := h
        rw [hn'] at hcalc
        have hnn := ((C07_success n _ _ _ _ _).1 ⟨_, hcalc⟩).1
        obtain ⟨-, hsp⟩ := C07_rendezvous _ _ _ _ _ _ _ _ hcalc
        refine ⟨hnn, ?_, ?_⟩
        · rw [← hv, hn']
          have := jerkLoop_final idx (prevSpeed c idx) a0 k (dtAt c idx) n 1 (prevSpeed c idx) c
            le_rfl hn (by omega)
          rw [Nat.add_sub_cancel_left] at this
          rw [← hsp]; exact this
        · obtain ⟨h1, -, -, h4⟩ := C09_const_jerk c idx n k a0
          have hlt : idx + n - 1 < (modifyByConstJerk c idx n k a0).2.length := by omega
          rw [← hc', hn']
          have hs := List.getElem?_eq_getElem hlt
          refine ⟨_, hs, ?_⟩
          have := (h4 (idx + n - 1) _ (by omega) (by omega) hs).1
          have he : idx + n - 1 + 1 - idx = n := by omega
          rw [he, hsp, max_self] at this
          exact this

omit [FloorRing K] in
/-- Distance covered over `n` one-second steps whose speeds follow `spd` (starting at `spd 0`). -/
theorem distance_over_steps (c : Cyc K) (i : Nat) (spd : Nat → K) (d0 : K) :
    ∀ m, (∀ j, j ≤ m → ∃ s, c[i + j]? = some s ∧ s.v = spd j) →
      (∀ j a b, j < m → c[i + j]? = some a → c[i + j + 1]? = some b → b.t - a.t = 1) →
      distance (c.take (i + m + 1)) - distance (c.take (i + 1)) = simDist spd 1 d0 m - d0 := by
  intro m
  induction m with
  | zero => intro _ _; simp [simDist]
  | succ m ih =>
    intro hs ht
    obtain ⟨a, ha, hav⟩ := hs m (by omega)
    obtain ⟨b, hb, hbv⟩ := hs (m + 1) le_rfl
    have hstep := distance_take_succ (c := c) (i := i + m) ha hb
    have hdt := ht m a b (by omega) ha hb
    have := ih (fun j hj => hs j (by omega)) (fun j a b hj => ht j a b (by omega))
    rw [simDist]
    rw [hdt, hav, hbv] at hstep
    have e : i + (m + 1) + 1 = i + m + 2 := by omega
    rw [e, hstep]
    linear_combination this

omit [FloorRing K] in
theorem simDist_mono {f g : Nat → K} {d0 : K} : ∀ m, (∀ j, j ≤ m → f j ≤ g j) →
    simDist f 1 d0 m ≤ simDist g 1 d0 m := by
  intro m
  induction m with
  | zero => intro _; exact le_rfl
  | succ m ih =>
    intro h
    have h1 := ih (fun j hj => h j (by omega))
    have h2 := h m (by omega)
    have h3 := h (m + 1) le_rfl
    simp only [simDist]
    linarith

omit [FloorRing K] in
theorem simDist_congr {f g : Nat → K} {d0 : K} (m : Nat) (h : ∀ j, j ≤ m → f j = g j) :
    simDist f 1 d0 m = simDist g 1 d0 m :=
  le_antisymm (simDist_mono m fun j hj => (h j hj).le) (simDist_mono m fun j hj => (h j hj).ge)

/-- The distance to stop a caller asks for: `dts` if positive, else `v²/(2·|a|)`. -/
def stoppingDistance (a v : K) : Option K → K
  | some d => if d ≤ 0 then v * v / (2 * (-a)) else d
  | none => v * v / (2 * (-a))

/-- **C09 (braking, distance).** On one-second steps the braking trajectory that fits into the cycle
covers at least the requested distance to stop `d` (the given `dts_m` if positive, otherwise
`v0²/(2·|a|)`), and exactly `d` when no speed had to be cut off at zero before the end
(i.e. all new speeds but the last are positive). -/
theorem C09_braking_distance (c : Cyc K) (a : K) (idx : Nat) (dts : Option K) (v : K) (n : Nat)
    (c' : Cyc K) (h : modifyWithBraking c a idx dts = .ok (v, n, c')) (hn : 0 < n)
    (hidx : 1 ≤ idx) (hin : idx + n ≤ c.length) (hv0 : ∀ s ∈ c, 0 ≤ s.v)
    (ht : ∀ j x y, idx ≤ j + 1 → j + 1 < idx + n → c[j]? = some x → c[j+1]? = some y → y.t - x.t = 1)
    (s0 : Sample K) (hs0 : c[idx - 1]? = some s0) :
    let d := stoppingDistance a s0.v dts
    d ≤ distance (c'.take (idx + n)) - distance (c'.take idx) ∧
    ((∀ j s, idx ≤ j → j + 1 < idx + n → c'[j]? = some s → 0 < s.v) →
      distance (c'.take (idx + n)) - distance (c'.take idx) = d) := by
  have hframe := C09_braking_frame c a idx dts v n c' h
  unfold modifyWithBraking at h
  split at h; · simp at h
  rename_i ha
  simp only [not_not] at ha
  split at h
  · split at h
    · simp at h
    · simp only [Except.ok.injEq, Prod.mk.injEq] at h
      obtain ⟨-, rfl, rfl⟩ := h; omega
  simp only at h
  split at h
  · simp only [Except.ok.injEq, Prod.mk.injEq] at h
    obtain ⟨-, rfl, rfl⟩ := h; omega
  split at h; · simp at h
  split at h; · simp at h
  rename_i k a0 hcalc
  simp only [Except.ok.injEq, Prod.mk.injEq] at h
  obtain ⟨hv, hn', hc'⟩ := h
  rw [hn'] at hcalc hc'
  have hv0' : prevSpeed c idx = s0.v := by
    rw [prevSpeed, if_neg (by omega)]
    simp [Cyc.speeds, List.getD_eq_getElem?_getD, hs0]
  have hdist : brakeDist (prevSpeed c idx) a dts = stoppingDistance a s0.v dts := by
    have e : -(1 / 2 : K) * s0.v * s0.v / a = s0.v * s0.v / (2 * (-a)) := by
      have : a ≠ 0 := ha.ne
      field_simp
    rw [hv0']
    unfold brakeDist stoppingDistance
    cases dts with
    | none => exact e
    | some d => simp only [e]
  obtain ⟨hl, hother, hout, hin'⟩ := C09_const_jerk c idx n k a0
  rw [hc'] at hl hother hout hin'
  have hdt1 : dtAt c idx = 1 := by
    have hlt : idx < c.length := by omega
    have h1 : c[idx]? = some c[idx] := by simp [hlt]
    have := ht (idx - 1) s0 c[idx] (by omega) (by omega) hs0 (by rw [← h1]; congr 1; omega)
    simp only [dtAt]
    rw [if_neg (by omega)]
    simp [Cyc.times, List.getD_eq_getElem?_getD, hs0, h1, this]
  rw [hdt1, hv0'] at hin'
  rw [hdt1, hv0'] at hcalc
  rw [hv0'] at hdist
  rw [hdist] at hcalc
  obtain ⟨hD, hV⟩ := C07_rendezvous _ _ _ _ _ _ _ _ hcalc
  -- the speeds after the edit
  set spd : Nat → K := fun j => speedForConstantJerk j s0.v a0 k 1 with hspd
  have hnew : ∀ j, j ≤ n → ∃ s, c'[idx - 1 + j]? = some s ∧ s.v = max (spd j) 0 := by
    intro j hj
    rcases Nat.eq_zero_or_pos j with rfl | hjp
    · refine ⟨s0, ?_, ?_⟩
      · rw [Nat.add_zero, hout _ (Or.inl (by omega)), hs0]
      · have : 0 ≤ s0.v := hv0 s0 (List.mem_of_getElem? hs0)
        simp [hspd, speedForConstantJerk, this]
    · have hlt : idx - 1 + j < c'.length := by omega
      have hs := List.getElem?_eq_getElem hlt
      refine ⟨_, hs, ?_⟩
      have := (hin' (idx - 1 + j) _ (by omega) (by omega) hs).1
      rw [this, hspd]
      simp only
      congr 2
      omega
  have htime : ∀ j x y, j < n → c'[idx - 1 + j]? = some x → c'[idx - 1 + j + 1]? = some y →
      y.t - x.t = 1 := by
    intro j x y hj hx hy
    have key : ∀ i : Nat, (c'[i]?).map (fun s : Sample K => s.t) = (c[i]?).map (fun s : Sample K => s.t) := by
      intro i
      have := congrArg (fun l => (l[i]?).map (fun p : K × K × K => p.1)) hother
      simpa [List.getElem?_map, Function.comp_def] using this
    have k1 := key (idx - 1 + j)
    have k2 := key (idx - 1 + j + 1)
    rw [hx] at k1
    rw [hy] at k2
    simp only [Option.map_some] at k1 k2
    obtain ⟨x', hx', hxt⟩ := Option.map_eq_some_iff.1 k1.symm
    obtain ⟨y', hy', hyt⟩ := Option.map_eq_some_iff.1 k2.symm
    rw [← hxt, ← hyt]
    exact ht (idx - 1 + j) x' y' (by omega) (by omega) hx' hy'
  have hcover := distance_over_steps c' (idx - 1) (fun j => max (spd j) 0) 0 n hnew htime
  have e1 : idx - 1 + n + 1 = idx + n := by omega
  have e2 : idx - 1 + 1 = idx := by omega
  rw [e1, e2, sub_zero] at hcover
  have hexact : simDist spd 1 0 n = stoppingDistance a s0.v dts := by
    rw [← hD, (C08_consistent_dt_one_partial n 0 s0.v a0 k).2]
  simp only
  rw [hcover, ← hexact]
  refine ⟨simDist_mono n fun j _ => le_max_left _ _, fun hpos => ?_⟩
  apply simDist_congr
  intro j hj
  apply max_eq_left
  rcases Nat.lt_or_ge j n with hjn | hjn
  · rcases Nat.eq_zero_or_pos j with rfl | hjp
    · have : 0 ≤ s0.v := hv0 s0 (List.mem_of_getElem? hs0)
      simpa [hspd, speedForConstantJerk] using this
    · obtain ⟨s, hs, hsv⟩ := hnew j hj
      have := hpos (idx - 1 + j) s (by omega) (by omega) hs
      rw [hsv] at this
      by_contra hneg
      rw [max_eq_right (not_le.1 hneg).le] at this
      exact absurd this (lt_irrefl _)
  · obtain rfl : j = n := by omega
    exact hV.ge

/-- All steps are positive and shorter than two seconds. -/
def ShortSteps (c : Cyc K) : Prop :=
  ∀ (j : Nat) x y, c[j]? = some x → c[j + 1]? = some y → 0 < y.t - x.t ∧ y.t - x.t < 2

omit [IsStrictOrderedRing K] [FloorRing K] in
theorem ShortSteps.dtAt {c : Cyc K} (h : ShortSteps c) {i : Nat} (h1 : 1 ≤ i) (hi : i < c.length) :
    0 < Fastsim.dtAt c i ∧ Fastsim.dtAt c i < 2 := by
  have ha : c[i - 1]? = some (c[i - 1]'(by omega)) := List.getElem?_eq_getElem (by omega)
  have hb : c[i]? = some (c[i]'(by omega)) := List.getElem?_eq_getElem (by omega)
  have := h (i - 1) _ _ ha (by rw [← hb]; congr 1; omega)
  unfold Fastsim.dtAt
  rw [if_neg (by omega)]
  simpa [Cyc.times, List.getD_eq_getElem?_getD, ha, hb] using this

omit [IsStrictOrderedRing K] [FloorRing K] in
theorem ShortSteps.congr {c c' : Cyc K} (h : ShortSteps c) (ht : Cyc.times c' = Cyc.times c) : ShortSteps c' := by
  intro j x y hx hy
  have e1 := congrArg (fun l => l[j]?) ht
  have e2 := congrArg (fun l => l[j + 1]?) ht
  simp only [Cyc.times, List.getElem?_map, hx, hy, Option.map_some] at e1 e2
  obtain ⟨a', ha', hat⟩ := Option.map_eq_some_iff.1 e1.symm
  obtain ⟨b', hb', hbt⟩ := Option.map_eq_some_iff.1 e2.symm
  rw [← hat, ← hbt]
  exact h j a' b' ha' hb'

/-- **C09 (braking, success).** With a negative brake acceleration and all steps positive and shorter than
two seconds, `modify_with_braking_trajectory` never raises, from any index `≥ 1` (also beyond the end) and
for any requested distance. (For two steps of two seconds it divides by zero, see `C07_success`.) -/
theorem C09_braking_succeeds {c : Cyc K} {a : K} (ha : a < 0) (hs : ShortSteps c) (hc : c ≠ []) (idx : Nat)
    (h1 : 1 ≤ idx) (dts : Option K) : ∃ r, modifyWithBraking c a idx dts = .ok r := by
  unfold modifyWithBraking
  rw [if_neg (not_not.2 ha)]
  split
  · rw [List.getLast?_eq_getLast_of_ne_nil hc]
    exact ⟨_, rfl⟩
  · rename_i hi
    obtain ⟨d1, d2⟩ := hs.dtAt h1 (not_le.1 hi)
    simp only
    split
    · exact ⟨_, rfl⟩
    · rename_i hd
      rw [if_neg d1.ne']
      have hn : 2 ≤ brakeSteps (prevSpeed c idx) a (Fastsim.dtAt c idx) := by
        unfold brakeSteps
        simp only
        split <;> omega
      have hn' : (2 : K) ≤ (brakeSteps (prevSpeed c idx) a (Fastsim.dtAt c idx) : Nat) := by exact_mod_cast hn
      obtain ⟨r, hr⟩ := (C07_success (brakeSteps (prevSpeed c idx) a (Fastsim.dtAt c idx)) 0
        (prevSpeed c idx) (brakeDist (prevSpeed c idx) a dts) 0 (Fastsim.dtAt c idx)).2
        ⟨hn, not_le.1 hd, d1.ne', by intro h; linarith⟩
      rw [hr]
      exact ⟨_, rfl⟩

/-- Non-vacuity: a braking manoeuvre from 10 m/s inside a cycle. -/
def exBrake : Cyc ℚ := (List.range 12).map fun (i : Nat) => ⟨i, 10, 0, 0⟩
example : ∃ v c', modifyWithBraking exBrake (-5/2) 3 none = .ok (v, 4, c') ∧ 3 + 4 ≤ exBrake.length :=
  ⟨0, [⟨0,10,0,0⟩,⟨1,10,0,0⟩,⟨2,10,0,0⟩,⟨3,15/2,0,0⟩,⟨4,5,0,0⟩,⟨5,5/2,0,0⟩,⟨6,0,0,0⟩,⟨7,10,0,0⟩,
    ⟨8,10,0,0⟩,⟨9,10,0,0⟩,⟨10,10,0,0⟩,⟨11,10,0,0⟩], by decide +kernel, by decide +kernel⟩

/-- The demo cycle has short steps; with steps of two seconds the call divides by zero. -/
example : ShortSteps exBrake := by
  intro j x y hx hy
  have h : ∀ (n : Nat) (z : Sample ℚ), exBrake[n]? = some z → z.t = n := by
    intro n z hz
    simp only [exBrake, List.getElem?_map] at hz
    obtain ⟨m, hm, rfl⟩ := Option.map_eq_some_iff.1 hz
    obtain ⟨h1, h2⟩ := List.getElem?_eq_some_iff.1 hm
    simp [← h2]
  rw [h _ _ hx, h _ _ hy]
  push_cast
  constructor <;> linarith

/-- Whether a braking call divides by zero. -/
def dividesByZero (r : Except PyErr (ℚ × Nat × Cyc ℚ)) : Bool :=
  match r with
  | .error e => decide (e = .zeroDivision)
  | .ok _ => false

/-- At 8 m/s, with the default brake acceleration and two-second steps. -/
theorem C09_two_second_steps : dividesByZero (modifyWithBraking
    ((List.range 12).map fun (i : Nat) => (⟨2 * i, 8, 0, 0⟩ : Sample ℚ)) (-5 / 2) 3 none) = true := by
  decide +kernel

end Fastsim.Props
