import Verif.Props.CoastPlan
import Verif.Props.Follow
import Verif.Props.GradeLookup

/-!
# C53: replanning the approach to the next stop while coasting
-/

set_option linter.unusedSectionVars false
set_option linter.unusedVariables false
set_option linter.unusedSimpArgs false

namespace Fastsim.Props
open Spec

variable {K : Type*} [Field K] [LinearOrder K] [IsStrictOrderedRing K] [FloorRing K]
variable {F : Fns K} {V : Veh K} {P : SimParams K}

/-- An approach of `n ≥ 2` one-second steps with the accelerations `a0, a0 + k, a0 + 2k, ...`: started at speed `v0`
it covers the distance `d > 0` and arrives with speed `vb`; the acceleration does not fall, starts strictly inside
`(lo, hi)` and stays inside that range up to 1e-6. -/
structure _root_.Fastsim.Spec.Approach (v0 d vb lo hi : K) (n : Nat) (a0 k : K) : Prop where
  steps : 2 ≤ n
  ahead : 0 < d
  jerk : 0 ≤ k
  first : lo < a0 ∧ a0 < hi
  range : ∀ j, j < n → lo - 1 / 1000000 < a0 + j * k ∧ a0 + j * k < hi + 1 / 1000000
  speed : simSpeed (fun j => a0 + j * k) 1 v0 n = vb
  dist : simDist (simSpeed (fun j => a0 + j * k) 1 v0) 1 0 n = d

theorem minOf_le (l : List K) (v : K) (h : v ∈ l) : minOf l ≤ v := by
  cases l with
  | nil => simp at h
  | cons x l =>
    have key : ∀ (l : List K) (x : K), l.foldl min x ≤ x ∧ ∀ v ∈ l, l.foldl min x ≤ v := by
      intro l
      induction l with
      | nil => simp
      | cons y l ih =>
        intro x
        obtain ⟨a, b⟩ := ih (min x y)
        refine ⟨a.trans (min_le_left _ _), fun v hv => ?_⟩
        rcases List.mem_cons.1 hv with rfl | hv
        · exact a.trans (min_le_right _ _)
        · exact b v hv
    rcases List.mem_cons.1 h with rfl | h
    · exact (key l _).1
    · exact (key l x).2 v h

theorem minOf_mem (l : List K) (h : l ≠ []) : minOf l ∈ l := by
  cases l with
  | nil => exact absurd rfl h
  | cons x l =>
    have key : ∀ (l : List K) (x : K), l.foldl min x = x ∨ l.foldl min x ∈ l := by
      intro l
      induction l with
      | nil => simp
      | cons y l ih =>
        intro x
        rcases ih (min x y) with e | e
        · rcases min_choice x y with m | m
          · left; simp only [List.foldl_cons]; rw [e, m]
          · right; simp only [List.foldl_cons]; rw [e, m]; simp
        · right; simp only [List.foldl_cons]; exact List.mem_cons_of_mem _ e
    rcases key l x with e | e
    · show l.foldl min x ∈ _
      rw [e]; simp
    · exact List.mem_cons_of_mem _ e

theorem jerkAccels_mem {n : Nat} {a0 k x : K} : x ∈ jerkAccels n a0 k 1 ↔ ∃ j, j < n ∧ a0 + j * k = x := by
  unfold jerkAccels accelForConstantJerk
  simp

/-- Extremes of rising accelerations. -/
theorem jerkAccels_ends {n : Nat} {a0 k : K} (hn : 1 ≤ n) (hk : 0 ≤ k) :
    minOf (jerkAccels n a0 k 1) = a0 ∧ maxOf (jerkAccels n a0 k 1) = a0 + ((n : K) - 1) * k := by
  have hne : jerkAccels n a0 k 1 ≠ [] := by
    intro h
    have := congrArg List.length h
    simp [jerkAccels] at this
    omega
  have h0 : a0 ∈ jerkAccels n a0 k 1 := jerkAccels_mem.2 ⟨0, hn, by simp⟩
  have h1 : a0 + ((n : K) - 1) * k ∈ jerkAccels n a0 k 1 := by
    refine jerkAccels_mem.2 ⟨n - 1, by omega, ?_⟩
    rw [Nat.cast_sub hn]
    simp
  constructor
  · apply le_antisymm (minOf_le _ _ h0)
    obtain ⟨j, -, hj⟩ := jerkAccels_mem.1 (minOf_mem _ hne)
    rw [← hj]
    have : 0 ≤ (j : K) * k := mul_nonneg (Nat.cast_nonneg j) hk
    linarith
  · apply le_antisymm _ (maxOf_ge _ _ h1)
    obtain ⟨j, hjn, hj⟩ := jerkAccels_mem.1 (maxOf_mem _ hne)
    rw [← hj]
    have h2 : (j : K) ≤ (n : K) - 1 := by
      have : (j : K) + 1 ≤ n := by exact_mod_cast hjn
      linarith
    have := mul_le_mul_of_nonneg_right h2 hk
    linarith

theorem simSpeed_const_jerk (v0 a0 k : K) (n : Nat) :
    simSpeed (fun j => a0 + (j : K) * k) 1 v0 n = speedForConstantJerk n v0 a0 k 1 := by
  rw [(C08_consistent_dt_one_partial n 0 v0 a0 k).1]
  congr 1
  funext j
  simp [accelForConstantJerk]

theorem simDist_const_jerk (v0 a0 k : K) (n : Nat) :
    simDist (simSpeed (fun j => a0 + (j : K) * k) 1 v0) 1 0 n = distForConstantJerk n 0 v0 a0 k 1 := by
  rw [(C08_consistent_dt_one_partial n 0 v0 a0 k).2]
  exact simDist_congr n fun j _ => simSpeed_const_jerk v0 a0 k j

/-- The two rendezvous conditions determine acceleration and jerk. -/
theorem jerk_unique {n : Nat} (hn : 2 ≤ n) {v0 a k a' k' : K}
    (h1 : speedForConstantJerk n v0 a k 1 = speedForConstantJerk n v0 a' k' 1)
    (h2 : distForConstantJerk n 0 v0 a k 1 = distForConstantJerk n 0 v0 a' k' 1) : a = a' ∧ k = k' := by
  have hn2 : (2 : K) ≤ n := by exact_mod_cast hn
  unfold speedForConstantJerk at h1
  unfold distForConstantJerk at h2
  have e : ((n : K) * ((n : K) - 1) * ((n : K) + 1)) * (k - k') = 0 := by
    linear_combination 6 * (n : K) * h1 - 12 * h2
  have hpos : 0 < (n : K) * ((n : K) - 1) * ((n : K) + 1) :=
    mul_pos (mul_pos (by linarith) (by linarith)) (by linarith)
  have hk : k = k' := by
    rcases mul_eq_zero.1 e with h | h
    · exact absurd h hpos.ne'
    · linarith
  subst hk
  refine ⟨?_, rfl⟩
  have : (n : K) * (a - a') = 0 := by linear_combination h1
  rcases mul_eq_zero.1 this with h | h
  · linarith
  · linarith

/-- One candidate: it is taken exactly if it is an approach of smaller spread than the best so far. -/
theorem rendezvousTry_spec {v0 d vb lo hi : K} {n : Nat} {best : Option (Rendezvous K)} (hn : 2 ≤ n) :
    (∃ a k, Approach v0 d vb lo hi n a k ∧
      rendezvousTry v0 d vb 1 lo hi n best =
        if improves (((n : K) - 1) * k) best = true then some ⟨0, n, 0, k, a, ((n : K) - 1) * k⟩ else best) ∨
    ((∀ a k, ¬ Approach v0 d vb lo hi n a k) ∧ rendezvousTry v0 d vb 1 lo hi n best = best) := by
  unfold rendezvousTry
  by_cases hd : 0 < d
  · rw [if_pos hd]
    obtain ⟨⟨k, a⟩, hr⟩ := (C07_success n 0 v0 d vb 1).2 ⟨hn, hd, one_ne_zero, by
      intro h
      have : (2 : K) ≤ n := by exact_mod_cast hn
      rw [eq_div_iff (by norm_num)] at h
      linarith⟩
    obtain ⟨hD, hV⟩ := C07_rendezvous _ _ _ _ _ _ _ _ hr
    rw [hr]
    simp only
    have huniq : ∀ a' k', Approach v0 d vb lo hi n a' k' → a = a' ∧ k = k' := by
      intro a' k' h'
      apply jerk_unique (v0 := v0) hn
      · rw [hV, ← simSpeed_const_jerk, h'.speed]
      · rw [hD, ← simDist_const_jerk, h'.dist]
    by_cases hc : a < hi ∧ lo < a ∧ 0 ≤ k
    · rw [if_pos hc]
      obtain ⟨c1, c2, c3⟩ := hc
      obtain ⟨e1, e2⟩ := jerkAccels_ends (a0 := a) (by omega : 1 ≤ n) c3
      have hspread : pabs (a + ((n : K) - 1) * k - a) = ((n : K) - 1) * k := by
        have h1 : (0 : K) ≤ (n : K) - 1 := by
          have : (2 : K) ≤ n := by exact_mod_cast hn
          linarith
        have h2 := mul_nonneg h1 c3
        rw [add_sub_cancel_left]
        unfold pabs
        rw [if_neg (not_lt.2 h2)]
      rw [e1, e2, hspread]
      by_cases hb : a + ((n : K) - 1) * k < hi + 1 / 1000000 ∧ lo - 1 / 1000000 < a
      · left
        refine ⟨a, k, ⟨hn, hd, c3, ⟨c2, c1⟩, ?_, ?_, ?_⟩, ?_⟩
        · intro j hj
          have h2 : (j : K) ≤ (n : K) - 1 := by
            have : (j : K) + 1 ≤ n := by exact_mod_cast hj
            linarith
          have h3 := mul_le_mul_of_nonneg_right h2 c3
          have h4 : 0 ≤ (j : K) * k := mul_nonneg (Nat.cast_nonneg j) c3
          constructor <;> linarith [hb.1, hb.2]
        · rw [simSpeed_const_jerk]; exact hV
        · rw [simDist_const_jerk]; exact hD
        · simp only [hb.1, hb.2, and_self, true_and]
      · right
        refine ⟨fun a' k' h' => ?_, ?_⟩
        · obtain ⟨rfl, rfl⟩ := huniq a' k' h'
          apply hb
          have h1 := h'.range (n - 1) (by omega)
          rw [Nat.cast_sub (by omega : 1 ≤ n), Nat.cast_one] at h1
          have h0 := h'.range 0 (by omega)
          simp only [Nat.cast_zero, zero_mul, add_zero] at h0
          exact ⟨h1.2, h0.1⟩
        · rw [if_neg (fun h => hb h.1)]
    · rw [if_neg hc]
      right
      refine ⟨fun a' k' h' => ?_, rfl⟩
      obtain ⟨rfl, rfl⟩ := huniq a' k' h'
      exact hc ⟨h'.first.2, h'.first.1, h'.jerk⟩
  · rw [if_neg hd]
    right
    exact ⟨fun a' k' h' => hd h'.ahead, rfl⟩

/-- What the best candidate so far is: an approach with the given spread. -/
structure IsPlan (v0 d vb lo hi : K) (r : Rendezvous K) : Prop where
  approach : Approach v0 d vb lo hi r.n r.accel r.jerk
  spread : r.spread = ((r.n : K) - 1) * r.jerk

/-- The search from the second step on, for one-second steps of the lead trace. -/
theorem rendezvousLoop_spec {c0 : Cyc K} {i : Nat} {H v0 d vb lo hi : K} (h1 : 1 ≤ i) (ht : OneSecond c0) :
    ∀ (m n : Nat) (best : Option (Rendezvous K)), 2 ≤ n → i - 1 + n + m ≤ c0.length →
      (∀ b, best = some b → IsPlan v0 d vb lo hi b ∧ i - 1 + b.n < i - 1 + n) →
      (∀ r, rendezvousLoop c0 i H v0 d vb 1 lo hi m (i - 1 + n) ((n : K) - 1) best = some r →
        IsPlan v0 d vb lo hi r ∧ i - 1 + r.n < i - 1 + n + m ∧
        (∀ b, best = some b → r.spread ≤ b.spread) ∧
        ∀ n' a k, n ≤ n' → n' < n + m → (n' : K) - 1 ≤ H → Approach v0 d vb lo hi n' a k →
          r.spread ≤ ((n' : K) - 1) * k) ∧
      (rendezvousLoop c0 i H v0 d vb 1 lo hi m (i - 1 + n) ((n : K) - 1) best = none →
        best = none ∧ ∀ n' a k, n ≤ n' → n' < n + m → (n' : K) - 1 ≤ H → ¬ Approach v0 d vb lo hi n' a k) := by
  intro m
  induction m with
  | zero =>
    intro n best hn hlen hbest
    simp only [rendezvousLoop]
    refine ⟨fun r hr => ?_, fun h => ⟨h, fun n' a k h1 h2 => by omega⟩⟩
    obtain ⟨p1, p2⟩ := hbest r hr
    refine ⟨p1, by omega, fun b hb => ?_, fun n' a k h1 h2 => by omega⟩
    rw [hr] at hb
    obtain rfl := Option.some.inj hb
    exact le_rfl
  | succ m ih =>
    intro n best hn hlen hbest
    have hstep : dtAt c0 (i - 1 + n) = 1 := ht.dtAt (by omega) (by omega)
    have hidx : i - 1 + n - (i - 1) = n := by omega
    have hplan : (n : K) - 1 + 1 = ((n + 1 : Nat) : K) - 1 := by push_cast; ring
    simp only [rendezvousLoop]
    by_cases hH : (n : K) - 1 ≤ H
    · rw [if_pos hH, hidx, if_neg (by omega), hstep, hplan, Nat.add_assoc]
      -- the candidate
      have key : (∀ b, rendezvousTry v0 d vb 1 lo hi n best = some b →
            IsPlan v0 d vb lo hi b ∧ i - 1 + b.n < i - 1 + (n + 1) ∧
            (∀ b', best = some b' → b.spread ≤ b'.spread) ∧
            ∀ a k, Approach v0 d vb lo hi n a k → b.spread ≤ ((n : K) - 1) * k) ∧
          (rendezvousTry v0 d vb 1 lo hi n best = none →
            best = none ∧ ∀ a k, ¬ Approach v0 d vb lo hi n a k) := by
        rcases rendezvousTry_spec (v0 := v0) (d := d) (vb := vb) (lo := lo) (hi := hi) (best := best) hn with
          ⟨a, k, hap, hr⟩ | ⟨hno, hr⟩
        · have huniq : ∀ a' k', Approach v0 d vb lo hi n a' k' → k' = k := by
            intro a' k' h'
            refine (jerk_unique (v0 := v0) hn (a := a') (a' := a) ?_ ?_).2
            · rw [← simSpeed_const_jerk, ← simSpeed_const_jerk, h'.speed, hap.speed]
            · rw [← simDist_const_jerk, ← simDist_const_jerk, h'.dist, hap.dist]
          rw [hr]
          constructor
          · intro b hb
            split at hb
            · rename_i himp
              obtain rfl := Option.some.inj hb
              refine ⟨⟨hap, rfl⟩, by simp, fun b' hb' => ?_, fun a' k' h' => ?_⟩
              · rw [hb'] at himp
                simp only [improves, decide_eq_true_eq] at himp
                exact himp.le
              · rw [huniq a' k' h']
            · rename_i himp
              obtain ⟨q1, q2⟩ := hbest b hb
              refine ⟨q1, by omega, fun b' hb' => ?_, fun a' k' h' => ?_⟩
              · rw [hb] at hb'
                obtain rfl := Option.some.inj hb'
                exact le_rfl
              · rw [hb] at himp
                simp only [improves, decide_eq_true_eq, not_lt] at himp
                rw [huniq a' k' h']
                exact himp
          · intro hb
            split at hb
            · simp at hb
            · rename_i himp
              rw [hb] at himp
              simp [improves] at himp
        · rw [hr]
          constructor
          · intro b hb
            obtain ⟨q1, q2⟩ := hbest b hb
            refine ⟨q1, by omega, fun b' hb' => ?_, fun a' k' h' => absurd h' (hno a' k')⟩
            rw [hb] at hb'
            obtain rfl := Option.some.inj hb'
            exact le_rfl
          · intro hb
            exact ⟨hb, hno⟩
      obtain ⟨s1, s2⟩ := ih (n + 1) (rendezvousTry v0 d vb 1 lo hi n best) (by omega) (by omega)
        (fun b hb => ⟨(key.1 b hb).1, (key.1 b hb).2.1⟩)
      refine ⟨fun r hr => ?_, fun hnone => ?_⟩
      · obtain ⟨r1, r2, r3, r4⟩ := s1 r hr
        refine ⟨r1, by omega, fun b hb => ?_, fun n' a k hn1 hn2 hH' hap => ?_⟩
        · cases ht' : rendezvousTry v0 d vb 1 lo hi n best with
          | none =>
            have := (key.2 ht').1
            rw [hb] at this
            simp at this
          | some b' => exact (r3 b' ht').trans ((key.1 b' ht').2.2.1 b hb)
        · rcases Nat.eq_or_lt_of_le hn1 with e | e
          · subst e
            cases ht' : rendezvousTry v0 d vb 1 lo hi n best with
            | none => exact absurd hap ((key.2 ht').2 a k)
            | some b' => exact (r3 b' ht').trans ((key.1 b' ht').2.2.2 a k hap)
          · exact r4 n' a k e (by omega) hH' hap
      · obtain ⟨n1, n2⟩ := s2 hnone
        obtain ⟨k1, k2⟩ := key.2 n1
        refine ⟨k1, fun n' a k hn1 hn2 hH' => ?_⟩
        rcases Nat.eq_or_lt_of_le hn1 with e | e
        · subst e
          exact k2 a k
        · exact n2 n' a k e (by omega) hH'
    · rw [if_neg hH]
      have hout : ∀ n' : Nat, n ≤ n' → ¬ ((n' : K) - 1 ≤ H) := by
        intro n' hn' h'
        apply hH
        have : (n : K) ≤ n' := by exact_mod_cast hn'
        linarith
      refine ⟨fun r hr => ?_, fun h => ⟨h, fun n' a k hn1 _ hH' => absurd hH' (hout n' hn1)⟩⟩
      obtain ⟨p1, p2⟩ := hbest r hr
      refine ⟨p1, by omega, fun b hb => ?_, fun n' a k hn1 _ hH' => absurd hH' (hout n' hn1)⟩
      rw [hr] at hb
      obtain rfl := Option.some.inj hb
      exact le_rfl

/-- `D` is the distance from position `x` to the nearest stop of the trace beyond `x`. -/
def _root_.Fastsim.Spec.NearestStop (c0 : Cyc K) (x D : K) : Prop :=
  (∃ k, StopBeyond c0 x k ∧ D = odometer c0 k - x) ∧ ∀ k, StopBeyond c0 x k → D ≤ odometer c0 k - x

/-- A step in which replanning is possible: a braking deceleration and a positive brake start speed are set, both
cycles have one-second steps and the same length and never go backwards. -/
structure Replanning (P : SimParams K) (s : Sim K) : Prop where
  brake : P.coastBrakeAccel < 0
  speed : 0 < P.coastBrakeStartSpeed
  start : 1 ≤ s.i
  inside : s.i < s.cyc.length
  same : s.cyc0.length = s.cyc.length
  one : OneSecond s.cyc
  one0 : OneSecond s.cyc0
  forward : SpeedsNonneg s.cyc
  forward0 : SpeedsNonneg s.cyc0

theorem OneSecond.nonDecreasing {c : Cyc K} (h : OneSecond c) : NonDecreasing c := by
  unfold NonDecreasing
  rw [List.pairwise_iff_getElem]
  intro i j hi hj hij
  have := h.getD i (j - i) (by omega)
  rw [show i + (j - i) = j by omega] at this
  have e : ∀ k (hk : k < c.length), c.times.getD k 0 = c[k].t := by
    intro k hk
    simp [Cyc.times, List.getD_eq_getElem?_getD, List.getElem?_eq_getElem hk]
  rw [e i hi, e j hj] at this
  have h0 : (0 : K) ≤ ((j - i : Nat) : K) := Nat.cast_nonneg _
  linarith

theorem nearestStop_eq {c0 : Cyc K} (hv : SpeedsNonneg c0) (ht : NonDecreasing c0) {x D : K}
    (h : NearestStop c0 x D) : distanceToNextStop c0 x = D ∧ 0 < D := by
  obtain ⟨⟨k, hk, he⟩, hmin⟩ := h
  obtain ⟨h0, ⟨k', hk', he'⟩, hmin'⟩ := C10_closest c0 hv ht x ⟨k, hk⟩
  have : distanceToNextStop c0 x = D := by
    apply le_antisymm
    · rw [he]; exact hmin' k hk
    · rw [he']; exact hmin k' hk'
  exact ⟨this, this ▸ h0⟩

theorem start_nonneg {s : Sim K} (h : Replanning P s) : 0 ≤ odometer s.cyc (s.i - 1) := by
  rw [← odometer_zero s.cyc]
  exact odometer_mono h.forward h.one.nonDecreasing (Nat.zero_le _)

/-- The first candidate (one step). -/
theorem rendezvousFirst_spec {v0 d vb : K} (hb : 0 ≤ vb) :
    (∃ r, rendezvousFirst v0 d vb 1 = some r ∧ r.n = 1 ∧ r.jerk = 0 ∧ v0 + r.accel = vb ∧
      |d - (v0 + vb) / 2| < 1 / 1000000) ∨
    (rendezvousFirst v0 d vb 1 = none ∧ ¬ |d - (v0 + vb) / 2| < 1 / 1000000) := by
  have habs : ∀ x : K, pabs x = |x| := by
    intro x
    unfold pabs
    split
    · rename_i h; rw [abs_of_neg h]
    · rename_i h; rw [abs_of_nonneg (not_lt.1 h)]
  have e1 : max 0 (v0 + (vb - v0) / 1 * 1) = vb := by
    rw [div_one, mul_one, add_sub_cancel]
    exact max_eq_right hb
  unfold rendezvousFirst
  simp only
  rw [e1]
  simp only [habs, sub_self, abs_zero, mul_one, div_one]
  by_cases h : |d - (v0 + vb) / 2| < 1 / 1000000
  · left
    rw [if_pos ⟨by norm_num, h⟩]
    exact ⟨_, rfl, rfl, rfl, by ring, h⟩
  · right
    rw [if_neg (fun h' => h h'.2)]
    exact ⟨rfl, h⟩

/-- What the replanning search does. -/
theorem nextRendezvous_eq {s : Sim K} (h : Replanning P s) (aMin aMax : K) :
    let v0 := s.cyc.speeds.getD (s.i - 1) 0
    let vb := P.coastBrakeStartSpeed
    let d := distanceToNextStop s.cyc0 (odometer s.cyc (s.i - 1)) - brakingDistance vb P.coastBrakeAccel
    nextRendezvous P s aMin aMax =
      if v0 < vb + 1 / 1000000 then none
      else if distanceToNextStop s.cyc0 (odometer s.cyc (s.i - 1)) < 0 ∨ d < 0 then none
      else match rendezvousFirst v0 d vb 1 with
        | some r => some r
        | none => rendezvousLoop s.cyc0 s.i (max P.coastTimeHorizon 1) v0 d vb 1 (min aMin aMax) (max aMin aMax)
            (s.cyc.length - s.i - 1) (s.i - 1 + 2) (((2 : Nat) : K) - 1) none := by
  intro v0 vb d
  have hstart : trapzStepStartDistance s.cyc s.i = odometer s.cyc (s.i - 1) := by
    rw [trapzStepStartDistance_eq, odometer, show s.i - 1 + 1 = s.i from Nat.sub_add_cancel h.start]
  have hm : s.cyc.length - s.i = (s.cyc.length - s.i - 1) + 1 := by have := h.inside; omega
  unfold nextRendezvous
  simp only [hstart, braking_eq h.brake, h.one.dtAt h.start h.inside]
  rw [hm]
  simp only [rendezvousLoop]
  have hH : (0 : K) ≤ max P.coastTimeHorizon 1 := (zero_le_one).trans (le_max_right _ _)
  have hone : dtAt s.cyc0 s.i = 1 := h.one0.dtAt h.start (by rw [h.same]; exact h.inside)
  have h1 := h.start
  rw [if_pos hH, if_pos (show s.i - (s.i - 1) = 1 by omega), hone]
  rw [show s.i - 1 + 2 = s.i + 1 by omega, show s.cyc.length - s.i - 1 + 1 - 1 = s.cyc.length - s.i - 1 by omega]
  rw [show (0 : K) + 1 = ((2 : Nat) : K) - 1 by push_cast; norm_num]
  rfl

/-- **C53 (the new plan).** A new plan leads in `n` steps, all inside the cycle, to the point where braking from the
brake start speed just reaches the nearest stop of the lead trace, at that speed: by one step (within 1e-6 m), or by
a smooth approach between the two given accelerations. -/
theorem C53_plan {s : Sim K} (h : Replanning P s) {aMin aMax : K} {b : Rendezvous K}
    (hr : nextRendezvous P s aMin aMax = some b) :
    ∃ D, NearestStop s.cyc0 (odometer s.cyc (s.i - 1)) D ∧ s.i - 1 + b.n < s.cyc.length ∧
      P.coastBrakeStartSpeed < s.cyc.speeds.getD (s.i - 1) 0 ∧
      ((b.n = 1 ∧ b.jerk = 0 ∧ s.cyc.speeds.getD (s.i - 1) 0 + b.accel = P.coastBrakeStartSpeed ∧
        |D - brakingDistance P.coastBrakeStartSpeed P.coastBrakeAccel -
          (s.cyc.speeds.getD (s.i - 1) 0 + P.coastBrakeStartSpeed) / 2| < 1 / 1000000) ∨
      Approach (s.cyc.speeds.getD (s.i - 1) 0) (D - brakingDistance P.coastBrakeStartSpeed P.coastBrakeAccel)
        P.coastBrakeStartSpeed (min aMin aMax) (max aMin aMax) b.n b.accel b.jerk) := by
  rw [nextRendezvous_eq h] at hr
  split at hr
  · simp at hr
  rename_i hv
  split at hr
  · simp at hr
  rename_i hd
  push Not at hd hv
  obtain ⟨hd1, hd2⟩ := hd
  have hne : s.cyc0 ≠ [] := by
    intro h0
    have h1 := h.same
    have h2 := h.inside
    rw [h0] at h1
    simp at h1
    omega
  have hbd : 0 < brakingDistance P.coastBrakeStartSpeed P.coastBrakeAccel :=
    div_pos (pow_pos h.speed 2) (by linarith [h.brake])
  have hstop : ∃ k, StopBeyond s.cyc0 (odometer s.cyc (s.i - 1)) k := by
    rw [← C10_sign s.cyc0 hne h.forward0 h.one0.nonDecreasing _ (start_nonneg h)]
    linarith
  obtain ⟨-, n1, n2⟩ := C10_closest s.cyc0 h.forward0 h.one0.nonDecreasing _ hstop
  refine ⟨_, ⟨n1, n2⟩, ?_⟩
  have hins := h.inside
  have hst := h.start
  have hvb : P.coastBrakeStartSpeed < s.cyc.speeds.getD (s.i - 1) 0 := lt_of_lt_of_le (by linarith) hv
  rcases rendezvousFirst_spec (v0 := s.cyc.speeds.getD (s.i - 1) 0)
      (d := distanceToNextStop s.cyc0 (odometer s.cyc (s.i - 1)) -
        brakingDistance P.coastBrakeStartSpeed P.coastBrakeAccel) h.speed.le with
    ⟨r, e1, e2, e3, e4, e5⟩ | ⟨e1, -⟩
  · rw [e1] at hr
    obtain rfl := Option.some.inj hr
    exact ⟨by omega, hvb, Or.inl ⟨e2, e3, e4, e5⟩⟩
  · rw [e1] at hr
    obtain ⟨q1, -⟩ := rendezvousLoop_spec (c0 := s.cyc0) (i := s.i) (H := max P.coastTimeHorizon 1)
      (v0 := s.cyc.speeds.getD (s.i - 1) 0)
      (d := distanceToNextStop s.cyc0 (odometer s.cyc (s.i - 1)) -
        brakingDistance P.coastBrakeStartSpeed P.coastBrakeAccel) (vb := P.coastBrakeStartSpeed)
      (lo := min aMin aMax) (hi := max aMin aMax) h.start h.one0 (s.cyc.length - s.i - 1) 2 none le_rfl
      (by rw [h.same]; omega) (by simp)
    obtain ⟨r1, r2, -, -⟩ := q1 b hr
    exact ⟨by omega, hvb, Or.inr r1.approach⟩

/-- **C53 (the smoothest plan).** Among all approaches that fit into the cycle and start their last step within the
time horizon, the new plan has the smallest spread of accelerations. -/
theorem C53_smoothest {s : Sim K} (h : Replanning P s) {aMin aMax : K} {b : Rendezvous K}
    (hr : nextRendezvous P s aMin aMax = some b) {D : K} (hD : NearestStop s.cyc0 (odometer s.cyc (s.i - 1)) D)
    {n : Nat} {a k : K} (hn : s.i - 1 + n < s.cyc.length) (hH : (n : K) - 1 ≤ max P.coastTimeHorizon 1)
    (hap : Approach (s.cyc.speeds.getD (s.i - 1) 0) (D - brakingDistance P.coastBrakeStartSpeed P.coastBrakeAccel)
        P.coastBrakeStartSpeed (min aMin aMax) (max aMin aMax) n a k) :
    ((b.n : K) - 1) * b.jerk ≤ ((n : K) - 1) * k := by
  obtain ⟨hd, -⟩ := nearestStop_eq h.forward0 h.one0.nonDecreasing hD
  rw [nextRendezvous_eq h] at hr
  split at hr
  · simp at hr
  split at hr
  · simp at hr
  rw [hd] at hr
  have hins := h.inside
  have hst := h.start
  rcases rendezvousFirst_spec (v0 := s.cyc.speeds.getD (s.i - 1) 0)
      (d := D - brakingDistance P.coastBrakeStartSpeed P.coastBrakeAccel) h.speed.le with
    ⟨r, e1, e2, e3, e4, e5⟩ | ⟨e1, -⟩
  · rw [e1] at hr
    obtain rfl := Option.some.inj hr
    rw [e3, mul_zero]
    apply mul_nonneg _ hap.jerk
    have : (2 : K) ≤ n := by exact_mod_cast hap.steps
    linarith
  · rw [e1] at hr
    obtain ⟨q1, -⟩ := rendezvousLoop_spec (c0 := s.cyc0) (i := s.i) (H := max P.coastTimeHorizon 1)
      (v0 := s.cyc.speeds.getD (s.i - 1) 0)
      (d := D - brakingDistance P.coastBrakeStartSpeed P.coastBrakeAccel) (vb := P.coastBrakeStartSpeed)
      (lo := min aMin aMax) (hi := max aMin aMax) h.start h.one0 (s.cyc.length - s.i - 1) 2 none le_rfl
      (by rw [h.same]; omega) (by simp)
    obtain ⟨r1, -, -, r4⟩ := q1 b hr
    rw [← r1.spread]
    exact r4 n a k hap.steps (by omega) hH hap

/-- **C53 (a plan is found).** If the vehicle is faster than the brake start speed by at least 1e-6 and an approach
exists that fits into the cycle and starts its last step within the time horizon, a new plan is found. -/
theorem C53_found {s : Sim K} (h : Replanning P s) {aMin aMax : K} {D : K}
    (hD : NearestStop s.cyc0 (odometer s.cyc (s.i - 1)) D)
    (hv : P.coastBrakeStartSpeed + 1 / 1000000 ≤ s.cyc.speeds.getD (s.i - 1) 0)
    {n : Nat} {a k : K} (hn : s.i - 1 + n < s.cyc.length) (hH : (n : K) - 1 ≤ max P.coastTimeHorizon 1)
    (hap : Approach (s.cyc.speeds.getD (s.i - 1) 0) (D - brakingDistance P.coastBrakeStartSpeed P.coastBrakeAccel)
        P.coastBrakeStartSpeed (min aMin aMax) (max aMin aMax) n a k) :
    ∃ b, nextRendezvous P s aMin aMax = some b := by
  obtain ⟨hd, hd0⟩ := nearestStop_eq h.forward0 h.one0.nonDecreasing hD
  have hins := h.inside
  have hst := h.start
  have hah := hap.ahead
  rw [nextRendezvous_eq h, if_neg (not_lt.2 hv), hd, if_neg (by push Not; exact ⟨hd0.le, hah.le⟩)]
  rcases rendezvousFirst_spec (v0 := s.cyc.speeds.getD (s.i - 1) 0)
      (d := D - brakingDistance P.coastBrakeStartSpeed P.coastBrakeAccel) h.speed.le with
    ⟨r, e1, e2, e3, e4, e5⟩ | ⟨e1, -⟩
  · rw [e1]
    exact ⟨r, rfl⟩
  · rw [e1]
    obtain ⟨-, q2⟩ := rendezvousLoop_spec (c0 := s.cyc0) (i := s.i) (H := max P.coastTimeHorizon 1)
      (v0 := s.cyc.speeds.getD (s.i - 1) 0)
      (d := D - brakingDistance P.coastBrakeStartSpeed P.coastBrakeAccel) (vb := P.coastBrakeStartSpeed)
      (lo := min aMin aMax) (hi := max aMin aMax) h.start h.one0 (s.cyc.length - s.i - 1) 2 none le_rfl
      (by rw [h.same]; omega) (by simp)
    cases hl : rendezvousLoop s.cyc0 s.i (max P.coastTimeHorizon 1) (s.cyc.speeds.getD (s.i - 1) 0)
      (D - brakingDistance P.coastBrakeStartSpeed P.coastBrakeAccel) P.coastBrakeStartSpeed 1 (min aMin aMax)
      (max aMin aMax) (s.cyc.length - s.i - 1) (s.i - 1 + 2) (((2 : Nat) : K) - 1) none with
    | some r => exact ⟨r, rfl⟩
    | none => exact absurd hap ((q2 hl).2 n a k hap.steps (by omega) hH)

/-- **C53 (where the new plan stops).** A replan that finds a new approach changes the cycle only from the current
step on, over `n` approach and `m` braking samples, and flags exactly these. The approach ends at the brake start
speed. If braking fits into the cycle it ends in standstill, and unless a speed had to be cut off at zero before the
end, it ends exactly at the nearest stop of the lead trace (within 1e-6 m if the approach is a single step). -/
theorem C53_stop {s s' : Sim K} (h : Replanning P s) {acc : K}
    (hv : P.coastBrakeStartSpeed - 1 / 10 ≤ s.cyc.speeds.getD s.i 0)
    (hr : replanCoast P s acc = .ok (true, s')) :
    ∃ n m D, 1 ≤ n ∧ s.i - 1 + n < s.cyc.length ∧ NearestStop s.cyc0 (odometer s.cyc (s.i - 1)) D ∧
      (∀ j, j < s.i ∨ s.i + n + m ≤ j → s'.cyc[j]? = s.cyc[j]?) ∧
      (∀ j, s.i ≤ j → j < s.impose.length → s'.impose[j]? = some (decide (j < s.i + n + m))) ∧
      (∃ x, s'.cyc[s.i + n - 1]? = some x ∧ x.v = P.coastBrakeStartSpeed) ∧
      (s.i + n < s.cyc.length → 0 < m) ∧
      (0 < m → s.i + n + m ≤ s.cyc.length →
        (∃ x, s'.cyc[s.i + n + m - 1]? = some x ∧ x.v = 0) ∧
        ((∀ j x, s.i ≤ j → j + 1 < s.i + n + m → s'.cyc[j]? = some x → 0 < x.v) →
          (2 ≤ n → odometer s'.cyc (s.i + n + m - 1) - odometer s.cyc (s.i - 1) = D) ∧
          |odometer s'.cyc (s.i + n + m - 1) - odometer s.cyc (s.i - 1) - D| < 1 / 1000000)) := by
  unfold replanCoast at hr
  simp only at hr
  rw [if_neg (not_lt.2 hv), if_neg h.brake.ne] at hr
  split at hr
  · simp at hr
  rename_i b hb
  obtain ⟨D, hD, hfit, hfast, hplan⟩ := C53_plan h hb
  have hn1 : 1 ≤ b.n := by
    rcases hplan with ⟨e, -⟩ | e
    · omega
    · have := e.steps; omega
  have hst := h.start
  have hins := h.inside
  set vb := P.coastBrakeStartSpeed with hvb
  set v0 := s.cyc.speeds.getD (s.i - 1) 0 with hv0
  have hprev : prevSpeed s.cyc s.i = v0 := by
    unfold prevSpeed
    rw [if_neg (by omega)]
  have hdt : dtAt s.cyc s.i = 1 := h.one.dtAt hst hins
  -- end of the approach
  have hend : speedForConstantJerk b.n v0 b.accel b.jerk 1 = vb := by
    rcases hplan with ⟨e1, e2, e3, -⟩ | e
    · rw [e1, e2, ← e3]
      simp [speedForConstantJerk]
    · rw [← simSpeed_const_jerk]; exact e.speed
  have hdist : (2 ≤ b.n → distForConstantJerk b.n 0 v0 b.accel b.jerk 1 =
        D - brakingDistance vb P.coastBrakeAccel) ∧
      |D - brakingDistance vb P.coastBrakeAccel - distForConstantJerk b.n 0 v0 b.accel b.jerk 1| < 1 / 1000000 := by
    rcases hplan with ⟨e1, e2, e3, e4⟩ | e
    · refine ⟨fun h2 => by omega, ?_⟩
      have : distForConstantJerk b.n 0 v0 b.accel b.jerk 1 = (v0 + vb) / 2 := by
        rw [e1, e2, ← e3]
        simp [distForConstantJerk]
        ring
      rw [this]
      exact e4
    · have : distForConstantJerk b.n 0 v0 b.accel b.jerk 1 = D - brakingDistance vb P.coastBrakeAccel := by
        rw [← simDist_const_jerk]; exact e.dist
      rw [this]
      simp
  have hfinal : (modifyByConstJerk s.cyc s.i b.n b.jerk b.accel).1 = vb := by
    unfold modifyByConstJerk
    simp only
    rw [jerkLoop_final _ _ _ _ _ _ 1 _ _ le_rfl hn1 (by omega), hprev, hdt, show 1 + b.n - 1 = b.n by omega, hend]
  rw [hfinal, if_pos (by unfold pabs; simp)] at hr
  obtain ⟨j1, j2, j3, j4⟩ := C09_const_jerk s.cyc s.i b.n b.jerk b.accel
  rw [hprev, hdt] at j4
  set c1 := (modifyByConstJerk s.cyc s.i b.n b.jerk b.accel).2 with hc1
  split at hr
  · simp at hr
  rename_i r hbr
  obtain ⟨vf, m, c2⟩ := r
  simp only [Except.ok.injEq, Prod.mk.injEq, true_and] at hr
  obtain ⟨f1, f2, f3, f4⟩ := C09_braking_frame _ _ _ _ _ _ _ hbr
  have hcyc : s'.cyc = c2 := by rw [← hr]
  have himp : s'.impose = setRange (setRange (setFrom s.impose s.i false) s.i b.n true) (s.i + b.n) m true := by
    rw [← hr]
  have htimes1 : Cyc.times c1 = Cyc.times s.cyc := by
    have := congrArg (List.map fun p : K × K × K => p.1) j2
    simpa [Cyc.times, List.map_map, Function.comp_def] using this
  have htimes2 : Cyc.times c2 = Cyc.times s.cyc := by
    rw [← htimes1]
    have := congrArg (List.map fun p : K × K × K => p.1) f2
    simpa [Cyc.times, List.map_map, Function.comp_def] using this
  -- the last sample of the approach
  have hlt : s.i + b.n - 1 < c1.length := by rw [j1]; omega
  have hx1 : c1[s.i + b.n - 1]? = some c1[s.i + b.n - 1] := List.getElem?_eq_getElem hlt
  have hx1v : (c1[s.i + b.n - 1]).v = vb := by
    have := (j4 _ _ (by omega) (by omega) hx1).1
    rw [this, show s.i + b.n - 1 + 1 - s.i = b.n by omega, hend]
    exact max_eq_left h.speed.le
  have hx2 : c2[s.i + b.n - 1]? = some c1[s.i + b.n - 1] := by
    rw [f3 _ (Or.inl (by omega))]; exact hx1
  refine ⟨b.n, m, D, hn1, hfit, hD, ?_, ?_, ?_, ?_, ?_⟩
  · intro j hj
    rw [hcyc]
    rcases hj with hj | hj
    · rw [f3 j (Or.inl (by omega)), j3 j (Or.inl hj)]
    · rw [f3 j (Or.inr hj), j3 j (Or.inr (by omega))]
  · intro j hj hj'
    rw [himp]
    unfold setRange setFrom
    rw [List.getElem?_mapIdx, List.getElem?_mapIdx, List.getElem?_mapIdx, List.getElem?_eq_getElem hj']
    simp only [Option.map_some, hj, if_true, true_and]
    by_cases q1 : j < s.i + b.n
    · simp [q1, show ¬ (s.i + b.n ≤ j) by omega, show j < s.i + b.n + m by omega]
    · by_cases q2 : j < s.i + b.n + m
      · simp [q1, q2, show s.i + b.n ≤ j by omega]
      · simp [q1, q2]
  · rw [hcyc]
    exact ⟨_, hx2, hx1v⟩
  · intro hin
    by_contra hm
    have hm0 : m = 0 := by omega
    unfold modifyWithBraking at hbr
    rw [if_neg (not_not.2 h.brake), if_neg (by rw [j1]; omega)] at hbr
    simp only at hbr
    have hps : prevSpeed c1 (s.i + b.n) = vb := by
      unfold prevSpeed
      rw [if_neg (by omega), List.getD_eq_getElem?_getD]
      simp only [Cyc.speeds, List.getElem?_map, hx1, Option.map_some, Option.getD_some]
      exact hx1v
    rw [hps] at hbr
    have hbp : ¬ brakeDist vb P.coastBrakeAccel none ≤ 0 := by
      unfold brakeDist
      simp only
      rw [braking_eq h.brake, not_le]
      exact div_pos (pow_pos h.speed 2) (by linarith [h.brake])
    rw [if_neg hbp] at hbr
    split at hbr
    · simp at hbr
    split at hbr
    · simp at hbr
    · simp only [Except.ok.injEq, Prod.mk.injEq] at hbr
      obtain ⟨-, hbm, -⟩ := hbr
      rw [hm0] at hbm
      unfold brakeSteps at hbm
      simp only at hbm
      split at hbm <;> omega
  · intro hm hin
    obtain ⟨-, -, hstop⟩ := C09_braking_stops _ _ _ _ _ _ _ hbr hm (by rw [j1]; exact hin)
    rw [hcyc]
    refine ⟨hstop, fun hpos => ?_⟩
    have hforward1 : ∀ y ∈ c1, 0 ≤ y.v := by
      intro y hy
      obtain ⟨j, hj⟩ := List.mem_iff_getElem?.1 hy
      by_cases q : s.i ≤ j ∧ j < s.i + b.n
      · exact (j4 j y q.1 q.2 hj).2
      · rw [j3 j (by omega)] at hj
        exact h.forward y (List.mem_of_getElem? hj)
    have hone1 : OneSecond c1 := h.one.congr htimes1
    have hone2 : OneSecond c2 := h.one.congr htimes2
    have hbd := (C09_braking_distance _ _ _ _ _ _ _ hbr hm (by omega) (by rw [j1]; exact hin) hforward1
      (fun j x y _ _ hx hy => hone1 j x y hx hy) _ hx1).2
      (fun j x hj hj' hx => hpos j x (by omega) hj' hx)
    -- the approach
    have hs : ∀ j, j ≤ b.n → ∃ x, c2[s.i - 1 + j]? = some x ∧
        x.v = speedForConstantJerk j v0 b.accel b.jerk 1 := by
      intro j hj
      rw [f3 _ (Or.inl (by omega))]
      rcases Nat.eq_zero_or_pos j with h0 | h0
      · subst h0
        have hlt0 : s.i - 1 < s.cyc.length := by omega
        refine ⟨s.cyc[s.i - 1], ?_, ?_⟩
        · rw [Nat.add_zero, j3 _ (Or.inl (by omega))]
          exact List.getElem?_eq_getElem hlt0
        · simp [speedForConstantJerk, hv0, Cyc.speeds, List.getD_eq_getElem?_getD,
            List.getElem?_eq_getElem hlt0]
      · have hlt' : s.i - 1 + j < c1.length := by rw [j1]; omega
        have hg := List.getElem?_eq_getElem hlt'
        refine ⟨_, hg, ?_⟩
        have hval := (j4 _ _ (by omega) (by omega) hg).1
        rw [show s.i - 1 + j + 1 - s.i = j by omega] at hval
        rcases Nat.lt_or_ge j b.n with hlt'' | hge
        · have := hpos (s.i - 1 + j) _ (by omega) (by omega) (by rw [f3 _ (Or.inl (by omega))]; exact hg)
          rw [hval] at this ⊢
          rcases max_choice (speedForConstantJerk j v0 b.accel b.jerk 1) 0 with e | e
          · exact e
          · rw [e] at this; exact absurd this (lt_irrefl _)
        · obtain rfl : j = b.n := by omega
          rw [hval, hend]
          exact max_eq_left h.speed.le
    have hjd := distance_over_steps c2 (s.i - 1) (fun j => speedForConstantJerk j v0 b.accel b.jerk 1) 0 b.n hs
      (fun j x y hj hx hy => hone2 _ x y hx hy)
    rw [← (C08_consistent_dt_one_partial b.n 0 v0 b.accel b.jerk).2] at hjd
    have hd0 : odometer c2 (s.i - 1) = odometer s.cyc (s.i - 1) := by
      unfold odometer
      congr 1
      apply List.ext_getElem?
      intro j
      simp only [List.getElem?_take]
      split
      · rw [f3 j (Or.inl (by omega)), j3 j (Or.inl (by omega))]
      · rfl
    simp only [stoppingDistance, hx1v] at hbd
    have hbe : vb * vb / (2 * -P.coastBrakeAccel) = brakingDistance vb P.coastBrakeAccel := by
      unfold brakingDistance; rw [pow_two]
    rw [hbe] at hbd
    have htotal : odometer c2 (s.i + b.n + m - 1) - odometer s.cyc (s.i - 1) =
        distForConstantJerk b.n 0 v0 b.accel b.jerk 1 + brakingDistance vb P.coastBrakeAccel := by
      rw [← hd0]
      unfold odometer
      rw [show s.i + b.n + m - 1 + 1 = s.i + b.n + m by omega]
      rw [show s.i - 1 + b.n + 1 = s.i + b.n by omega] at hjd
      linear_combination hbd + hjd
    rw [htotal]
    refine ⟨fun h2 => by rw [hdist.1 h2]; ring, ?_⟩
    rw [abs_sub_comm]
    convert hdist.2 using 2
    ring

/-! ### Concrete cases -/
namespace CoastDemo
open Demo

theorem sim_one (i : Nat) (v0 : ℚ) (own lead : List ℚ) (imp : Nat → Bool) :
    OneSecond (sim 1 i v0 own lead imp).cyc ∧ OneSecond (sim 1 i v0 own lead imp).cyc0 := by
  have h : ∀ (l : List ℚ), OneSecond (l.mapIdx fun j v => (⟨1 * (j : ℚ), v, 0, 0⟩ : Sample ℚ)) := by
    intro l j x y hx hy
    rw [List.getElem?_mapIdx] at hx hy
    obtain ⟨_, -, rfl⟩ := Option.map_eq_some_iff.1 hx
    obtain ⟨_, -, rfl⟩ := Option.map_eq_some_iff.1 hy
    push_cast
    ring
  exact ⟨h own, h lead⟩

/-- A coasting car at 14 m/s, 77 m before a stop of the lead vehicle. -/
def late : Sim ℚ := sim 1 1 14 [14, 27 / 2, 13, 12, 11, 11, 11, 11, 11, 11, 11, 11, 11, 11]
  [14, 14, 14, 12, 10, 8, 6, 4, 2, 0, 0, 0, 0, 0] fun _ => true

theorem late_replanning : Replanning params late where
  brake := by decide +kernel
  speed := by decide +kernel
  start := by decide +kernel
  inside := by decide +kernel
  same := by decide +kernel
  one := (sim_one _ _ _ _ _).1
  one0 := (sim_one _ _ _ _ _).2
  forward := by unfold SpeedsNonneg; decide +kernel
  forward0 := by unfold SpeedsNonneg; decide +kernel

/-- The car takes six approach steps and three braking steps, all forwards, and stops after 77 m. -/
theorem demo_replan : (match replanCoast params late (-1 / 2) with
    | .ok r => decide (r.1 = true ∧
        r.2.cyc.speeds = [14, 446 / 35, 2028 / 175, 1844 / 175, 1678 / 175, 306 / 35, 8, 86 / 15, 46 / 15, 0,
          11, 11, 11, 11] ∧ odometer r.2.cyc 9 = 77 ∧ odometer late.cyc0 9 = 77 ∧
        r.2.impose.getD 9 false = true ∧ r.2.impose.getD 10 true = false)
    | .error _ => false) = true ∧
    (match nextRendezvous params late params.coastBrakeAccel (-1 / 2) with
    | some b => decide (b.n = 6 ∧ b.accel = -44 / 35 ∧ b.jerk = 18 / 175)
    | none => false) = true ∧
    params.coastBrakeStartSpeed - 1 / 10 ≤ late.cyc.speeds.getD late.i 0 := by
  decide +kernel

/-- The plan chosen is an approach in the sense of the specification. -/
example : Approach (14 : ℚ) (77 - brakingDistance params.coastBrakeStartSpeed params.coastBrakeAccel)
    params.coastBrakeStartSpeed (min params.coastBrakeAccel (-1 / 2)) (max params.coastBrakeAccel (-1 / 2)) 6
    (-44 / 35) (18 / 175) where
  steps := by omega
  ahead := by decide +kernel
  jerk := by norm_num
  first := by decide +kernel
  range := by decide +kernel
  speed := by decide +kernel
  dist := by decide +kernel

/-- A slippery car of 9 m/s, 76.5 m before a stop. -/
def glide : Sim ℚ := sim 1 1 9 [9, 9, 9, 9, 9, 9, 9, 9, 9, 0, 0] [9, 9, 9, 9, 9, 9, 9, 9, 9, 0, 0] fun _ => false

def slick : Veh ℚ := { conv with dragCoef := 0 }

/-- It would coast for 99.4 m and starts coasting; 31.5 m before a stop it is too late (less than four braking
distances). -/
theorem demo_decision : (match shouldImposeCoast fns slick params glide with
    | .ok b => b | .error _ => false) = true ∧
    (match distToStopCoast fns slick params glide with
      | .ok d => decide (994 / 10 < d ∧ d < 995 / 10) | .error _ => false) = true ∧
    (match shouldImposeCoast fns slick params (sim 1 1 9 [9, 9, 9, 9, 0, 0] [9, 9, 9, 9, 0, 0] fun _ => false) with
      | .ok b => b | .error _ => true) = false ∧
    params.coastStartSpeed ≤ 0 ∧ params.coastBrakeAccel < 0 := by
  decide +kernel

/-- Hypotheses of `C52_distance` on a level road at 20 m/s. -/
example (F0 : Fns ℝ) (V0 : Veh ℝ) (P0 : SimParams ℝ) (s0 : Sim ℝ) :
    let F : Fns ℝ := { F0 with log := Real.log, sinAtan := fun g => g, cosAtan := fun _ => 1 }
    let V : Veh ℝ := { V0 with vehKg := 1500, dragCoef := 3 / 10, frontalAreaM2 := 2, wheelRrCoef := 1 / 100 }
    let P : SimParams ℝ := { P0 with aGrav := 981 / 100, airDensity := 6 / 5, coastBrakeAccel := -(5 / 2)
                                     coastBrakeStartSpeed := 8 }
    let c : Cyc ℝ := [⟨0, 20, 0, 0⟩, ⟨1, 20, 0, 0⟩]
    let s : Sim ℝ := { s0 with i := 1, cyc := c, cyc0 := c }
    F.log = Real.log ∧ P.coastBrakeAccel < 0 ∧ 0 ≤ P.coastBrakeStartSpeed ∧
      P.coastBrakeStartSpeed < s.cyc.speeds.getD (s.i - 1) 0 ∧
      UniformAhead s.cyc0 (trapzStepStartDistance s.cyc s.i) 0 ∧ 0 < V.vehKg ∧
      0 ≤ P.airDensity * V.dragCoef * V.frontalAreaM2 ∧ 0 < rollingDecel F V P 0 P.coastBrakeStartSpeed := by
  refine ⟨rfl, by norm_num, by norm_num, by norm_num [Cyc.speeds], ?_, by norm_num, by norm_num,
    by norm_num [rollingDecel]⟩
  rw [trapzStepStartDistance_eq]
  refine ⟨⟨0, by simp, le_rfl⟩, ?_⟩
  intro k x hx _
  match k with
  | 0 => simp at hx; rw [← hx]
  | 1 => simp at hx; rw [← hx]
  | k + 2 => simp at hx

end CoastDemo
end Fastsim.Props
