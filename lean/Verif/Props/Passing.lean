import Verif.Model.Coast
import Verif.Lemmas.Dist
import Mathlib.Algebra.Order.Field.Rat
import Mathlib.Tactic.LinearCombination
import Mathlib.Tactic.Linarith

/-!
# C11: passing detection
-/

set_option linter.unusedSectionVars false
set_option linter.unusedVariables false

namespace Fastsim.Spec

variable {K : Type*} [Field K] [LinearOrder K]

/-- Distance covered from the first sample up to sample `k`. -/
def odometer (c : Cyc K) (k : Nat) : K := distance (c.take (k + 1))

/-- The vehicle on `c` is more than `tol` ahead of the one on `c0` at sample `k`. -/
def Ahead (c c0 : Cyc K) (tol : K) (k : Nat) : Prop := k < c.length ∧ odometer c0 k + tol < odometer c k

/-- The vehicle does not stand still at sample `k`. -/
def Moving (c : Cyc K) (k : Nat) : Prop := ∃ s, c[k]? = some s ∧ 1 / 1000000 < s.v

/-- The first sample after `i` at which the vehicle is ahead by more than `tol`, provided it keeps
moving from `i` until then. -/
structure FirstPass (c c0 : Cyc K) (tol : K) (i k : Nat) : Prop where
  later : i < k
  ahead : Ahead c c0 tol k
  first : ∀ j, i < j → j < k → ¬ Ahead c c0 tol j
  moving : ∀ j, i ≤ j → j < k → Moving c j

theorem FirstPass.unique {c c0 : Cyc K} {tol : K} {i k k' : Nat} (h : FirstPass c c0 tol i k)
    (h' : FirstPass c c0 tol i k') : k = k' := by
  rcases Nat.lt_trichotomy k k' with e | e | e
  · exact absurd h.ahead (h'.first k h.later e)
  · exact e
  · exact absurd h'.ahead (h.first k' h'.later e)

end Fastsim.Spec

namespace Fastsim.Props
open Fastsim Spec

variable {K : Type*} [Field K] [LinearOrder K] [IsStrictOrderedRing K]

theorem odometer_step {c : Cyc K} {k : Nat} (h1 : 1 ≤ k) (hk : k < c.length) :
    odometer c k = odometer c (k - 1) +
      (c.speeds.getD k 0 + c.speeds.getD (k - 1) 0) * (1 / 2) * dtAt c k := by
  obtain ⟨m, rfl⟩ : ∃ m, k = m + 1 := ⟨k - 1, by omega⟩
  have ha : c[m]? = some c[m] := List.getElem?_eq_getElem (by omega)
  have hb : c[m + 1]? = some c[m + 1] := List.getElem?_eq_getElem (by omega)
  have := distance_take_succ ha hb
  unfold odometer
  rw [Nat.add_sub_cancel, this]
  unfold dtAt
  rw [if_neg (by omega), Nat.add_sub_cancel]
  simp only [Cyc.speeds, Cyc.times, List.getD_eq_getElem?_getD, List.getElem?_map, ha, hb,
    Option.map_some, Option.getD_some]
  ring

/-- What the scan reports about the lead vehicle at sample `k`. -/
def leadAt (c0 : Cyc K) (i k : Nat) : Nat × Nat × K × K :=
  (k, k - i + 1, odometer c0 k, c0.speeds.getD k 0)

theorem passLoop_spec {c c0 : Cyc K} (hl : c0.length = c.length) {tol : K} {i : Nat} (h1 : 1 ≤ i) :
    ∀ (m di : Nat), i + di + m = c.length →
      (∀ j, i < j → j < i + di → ¬ Ahead c c0 tol j) → (∀ j, i ≤ j → j < i + di → Moving c j) →
      (∃ k, FirstPass c c0 tol i k ∧
        passLoop c c0 tol i m di (odometer c (i + di - 1)) (odometer c0 (i + di - 1))
          (c.speeds.getD (i + di - 1) 0) (c0.speeds.getD (i + di - 1) 0) = some (leadAt c0 i k)) ∨
      ((∀ k, ¬ FirstPass c c0 tol i k) ∧
        passLoop c c0 tol i m di (odometer c (i + di - 1)) (odometer c0 (i + di - 1))
          (c.speeds.getD (i + di - 1) 0) (c0.speeds.getD (i + di - 1) 0) = none)
  | 0, di, hm, hn, hmv => by
    refine Or.inr ⟨fun k hk => ?_, rfl⟩
    exact hn k hk.later (by have := hk.ahead.1; omega) hk.ahead
  | m + 1, di, hm, hn, hmv => by
    have e1 := odometer_step (c := c) (k := i + di) (by omega) (by omega)
    have e2 := odometer_step (c := c0) (k := i + di) (by omega) (by omega)
    unfold passLoop
    simp only
    rw [← e1, ← e2]
    have hiff : (odometer c0 (i + di) - odometer c (i + di) < -tol) ↔ Ahead c c0 tol (i + di) := by
      unfold Ahead
      constructor
      · intro h; exact ⟨by omega, by linarith⟩
      · intro h; have := h.2; linarith
    split
    · rename_i hp
      refine Or.inl ⟨i + di, ⟨by omega, hiff.1 hp.2, hn, hmv⟩, ?_⟩
      simp [leadAt]
    · rename_i hp
      have hn' : ∀ j, i < j → j < i + (di + 1) → ¬ Ahead c c0 tol j := by
        intro j hj hj'
        rcases Nat.lt_or_ge j (i + di) with h | h
        · exact hn j hj h
        · obtain rfl : j = i + di := by omega
          intro ha
          exact hp ⟨by omega, hiff.2 ha⟩
      have hget : c[i + di]? = some (c[i + di]'(by omega)) := List.getElem?_eq_getElem (by omega)
      split
      · rename_i hv
        refine Or.inr ⟨fun k hk => ?_, rfl⟩
        rcases Nat.lt_or_ge (i + di) k with h | h
        · obtain ⟨s, hs, hsv⟩ := hk.moving (i + di) (by omega) h
          simp only [Cyc.speeds, List.getD_eq_getElem?_getD, List.getElem?_map, hs, Option.map_some,
            Option.getD_some] at hv
          exact absurd hsv (not_lt.2 hv)
        · exact hn' k hk.later (by omega) hk.ahead
      · rename_i hv
        have hmv' : ∀ j, i ≤ j → j < i + (di + 1) → Moving c j := by
          intro j hj hj'
          rcases Nat.lt_or_ge j (i + di) with h | h
          · exact hmv j hj h
          · obtain rfl : j = i + di := by omega
            refine ⟨_, hget, ?_⟩
            simpa [Cyc.speeds, List.getD_eq_getElem?_getD, List.getElem?_map, hget] using hv
        have := passLoop_spec hl h1 m (di + 1) (by omega) hn' hmv'
        have e : i + (di + 1) - 1 = i + di := by omega
        rw [e] at this
        exact this

/-- What `detect_passing` returns at a start index inside the cycle, in terms of the first pass. -/
theorem detectPassing_cases {c c0 : Cyc K} (hl : c0.length = c.length) {tol : K} {i : Nat}
    (h1 : 1 ≤ i) (hi : i < c.length) :
    (∃ k, FirstPass c c0 tol i k ∧ detectPassing c c0 i tol =
      { hasCollision := decide (odometer c (i - 1) < odometer c0 k), idx := k, numSteps := k - i + 1
        startDistance := odometer c (i - 1), distance := odometer c0 k
        startSpeed := c.speeds.getD (i - 1) 0, speed := c0.speeds.getD k 0
        stepDuration := dtAt c i }) ∨
    ((∀ k, ¬ FirstPass c c0 tol i k) ∧ detectPassing c c0 i tol =
      { hasCollision := false, idx := 0, numSteps := 0, startDistance := odometer c (i - 1), distance := 0
        startSpeed := c.speeds.getD (i - 1) 0, speed := 0, stepDuration := dtAt c i }) := by
  have hs := passLoop_spec hl h1 (tol := tol) (c.length - i) 0 (by omega)
    (fun j h h' => by omega) (fun j h h' => by omega)
  simp only [Nat.add_zero] at hs
  have e : i - 1 + 1 = i := by omega
  have hp : ∀ x : Cyc K, prevSpeed x i = x.speeds.getD (i - 1) 0 := by
    intro x; rw [prevSpeed, if_neg (by omega)]
  have hd : ∀ x : Cyc K, trapzStepStartDistance x i = odometer x (i - 1) := by
    intro x; rw [trapzStepStartDistance_eq, odometer, e]
  unfold detectPassing
  rw [if_neg (by omega)]
  simp only [hp, hd]
  rcases hs with ⟨k, hk, hr⟩ | ⟨hk, hr⟩
  · exact Or.inl ⟨k, hk, by rw [hr]; rfl⟩
  · exact Or.inr ⟨hk, by rw [hr]⟩

/-- **C11 (sound and complete).** A collision is reported exactly when there is a first sample after
`i` at which the vehicle, moving all the time since `i`, is more than the tolerance ahead of the lead
vehicle, and the lead vehicle is then beyond the place where the vehicle is at the start of step `i`. -/
theorem C11_iff (c c0 : Cyc K) (hl : c0.length = c.length) (i : Nat) (h1 : 1 ≤ i) (tol : K) :
    (detectPassing c c0 i tol).hasCollision = true ↔
      ∃ k, FirstPass c c0 tol i k ∧ odometer c (i - 1) < odometer c0 k := by
  rcases Nat.lt_or_ge i c.length with hi | hi
  · rcases detectPassing_cases hl h1 hi (tol := tol) with ⟨k, hk, e⟩ | ⟨hk, e⟩
    · rw [e]
      simp only [decide_eq_true_eq]
      constructor
      · exact fun h => ⟨k, hk, h⟩
      · rintro ⟨k', hk', h⟩
        rwa [hk.unique hk']
    · rw [e]
      simp only [Bool.false_eq_true, false_iff]
      rintro ⟨k, h, -⟩
      exact hk k h
  · unfold detectPassing
    rw [if_pos hi]
    simp only [Bool.false_eq_true, false_iff]
    rintro ⟨k, h, -⟩
    have := h.ahead.1
    have := h.later
    omega

/-- **C11 (report).** Whatever is the first pass, its index, number of steps, and distance and speed of
the lead vehicle there are reported, next to place and speed of the vehicle before step `i`. -/
theorem C11_report (c c0 : Cyc K) (hl : c0.length = c.length) (i : Nat) (h1 : 1 ≤ i) (tol : K) (k : Nat)
    (hk : FirstPass c c0 tol i k) (s s0 lead : Sample K) (hs : c[i - 1]? = some s) (hs0 : c[i]? = some s0)
    (hlead : c0[k]? = some lead) :
    let r := detectPassing c c0 i tol
    r.idx = k ∧ r.numSteps = k - i + 1 ∧ r.distance = odometer c0 k ∧ r.speed = lead.v ∧
      r.startDistance = odometer c (i - 1) ∧ r.startSpeed = s.v ∧ r.stepDuration = s0.t - s.t := by
  have hi : i < c.length := hk.later.trans hk.ahead.1
  have hdt : dtAt c i = s0.t - s.t := by
    unfold dtAt
    rw [if_neg (by omega)]
    simp [Cyc.times, List.getD_eq_getElem?_getD, hs, hs0]
  have hv : c.speeds.getD (i - 1) 0 = s.v := by simp [Cyc.speeds, List.getD_eq_getElem?_getD, hs]
  have hw : c0.speeds.getD k 0 = lead.v := by simp [Cyc.speeds, List.getD_eq_getElem?_getD, hlead]
  rcases detectPassing_cases hl h1 hi (tol := tol) with ⟨k', hk', e⟩ | ⟨hno, -⟩
  · obtain rfl := hk.unique hk'
    simp only [e, hdt, hv, hw, and_self]
  · exact absurd hk (hno k)

/-- **C11 (no report).** Without a first pass, nothing is reported. -/
theorem C11_none (c c0 : Cyc K) (hl : c0.length = c.length) (i : Nat) (h1 : 1 ≤ i) (tol : K)
    (hk : ∀ k, ¬ FirstPass c c0 tol i k) :
    let r := detectPassing c c0 i tol
    r.hasCollision = false ∧ r.idx = 0 ∧ r.numSteps = 0 ∧ r.distance = 0 ∧ r.speed = 0 := by
  rcases Nat.lt_or_ge i c.length with hi | hi
  · rcases detectPassing_cases hl h1 hi (tol := tol) with ⟨k', hk', e⟩ | ⟨-, e⟩
    · exact absurd hk' (hk k')
    · rw [e]; exact ⟨rfl, rfl, rfl, rfl, rfl⟩
  · unfold detectPassing
    rw [if_pos hi]
    exact ⟨rfl, rfl, rfl, rfl, rfl⟩

/-- Whoever stays behind the lead vehicle (up to the tolerance) is never reported. -/
theorem C11_behind (c c0 : Cyc K) (hl : c0.length = c.length) (i : Nat) (h1 : 1 ≤ i) (tol : K)
    (hb : ∀ k, i < k → k < c.length → odometer c k ≤ odometer c0 k + tol) :
    (detectPassing c c0 i tol).hasCollision = false :=
  (C11_none c c0 hl i h1 tol fun k hk => by
    have := hb k hk.later hk.ahead.1
    exact absurd hk.ahead.2 (not_lt.2 this)).1

/-- A larger tolerance reports no more: a pass reported for the larger one has a (no later) pass for the
smaller one. -/
theorem C11_tolerance (c c0 : Cyc K) (i k : Nat) (tol tol' : K) (ht : tol ≤ tol')
    (h : FirstPass c c0 tol' i k) : ∃ k', k' ≤ k ∧ FirstPass c c0 tol i k' := by
  have hex : ∃ j, i < j ∧ Ahead c c0 tol j := ⟨k, h.later, h.ahead.1, by have := h.ahead.2; linarith⟩
  classical
  refine ⟨Nat.find hex, Nat.find_min' hex ⟨h.later, h.ahead.1, by have := h.ahead.2; linarith⟩,
    (Nat.find_spec hex).1, (Nat.find_spec hex).2, fun j hj hj' ha => ?_, fun j hj hj' => ?_⟩
  · exact Nat.find_min hex hj' ⟨hj, ha⟩
  · refine h.moving j hj (lt_of_lt_of_le hj' (Nat.find_min' hex ⟨h.later, h.ahead.1, ?_⟩))
    have := h.ahead.2
    linarith

/-! ## Non-vacuity -/

/-- A vehicle at a constant 10 m/s behind a lead vehicle braking from 10 m/s. -/
def exOwn : Cyc ℚ := (List.range 8).map fun i => ⟨i, 10, 0, 0⟩
def exLead : Cyc ℚ := [⟨0,10,0,0⟩,⟨1,10,0,0⟩,⟨2,10,0,0⟩,⟨3,8,0,0⟩,⟨4,6,0,0⟩,⟨5,4,0,0⟩,⟨6,2,0,0⟩,⟨7,0,0,0⟩]

/-- The pass is found at sample 5 (with tolerance 5 m), 9 m too far. -/
example : FirstPass exOwn exLead 5 2 5 where
  later := by decide
  ahead := by unfold Ahead; decide +kernel
  first := by
    intro j h h'
    obtain rfl | rfl : j = 3 ∨ j = 4 := by omega
    all_goals unfold Ahead; decide +kernel
  moving := by
    intro j h h'
    obtain rfl | rfl | rfl : j = 2 ∨ j = 3 ∨ j = 4 := by omega
    all_goals exact ⟨⟨_, 10, 0, 0⟩, rfl, by norm_num⟩

example : (detectPassing exOwn exLead 2 5).hasCollision = true ∧ (detectPassing exOwn exLead 2 5).idx = 5 ∧
    (detectPassing exOwn exLead 2 5).distance = 41 ∧ (detectPassing exOwn exLead 2 5).speed = 4 := by
  decide +kernel

/-- **The start step itself is never checked**: a vehicle that is already ahead of the lead vehicle at
`i` but no longer at `i + 1` is not reported, and one that stands still at `i` is not either. -/
theorem C11_blind_spots :
    (∃ c c0 : Cyc ℚ, c0.length = c.length ∧ Ahead c c0 1 2 ∧ Moving c 2 ∧
      (detectPassing c c0 2 1).hasCollision = false) ∧
    (∃ c c0 : Cyc ℚ, c0.length = c.length ∧ Ahead c c0 1 3 ∧ ¬ Moving c 2 ∧
      (detectPassing c c0 2 1).hasCollision = false) := by
  refine ⟨⟨[⟨0,0,0,0⟩,⟨1,10,0,0⟩,⟨2,10,0,0⟩,⟨3,0,0,0⟩], [⟨0,0,0,0⟩,⟨1,8,0,0⟩,⟨2,8,0,0⟩,⟨3,30,0,0⟩],
    rfl, ?_, ⟨_, rfl, by norm_num⟩, by decide +kernel⟩,
    ⟨[⟨0,0,0,0⟩,⟨1,0,0,0⟩,⟨2,0,0,0⟩,⟨3,40,0,0⟩], [⟨0,0,0,0⟩,⟨1,0,0,0⟩,⟨2,0,0,0⟩,⟨3,10,0,0⟩],
    rfl, ?_, ?_, by decide +kernel⟩⟩
  · unfold Ahead; decide +kernel
  · unfold Ahead; decide +kernel
  · rintro ⟨s, hs, h⟩
    simp only [List.getElem?_cons_succ, List.getElem?_cons_zero, Option.some.injEq] at hs
    subst hs
    norm_num at h

end Fastsim.Props
