import Verif.Props.CoastReplan

/-!
# C54: rejoining the lead trace after a coast to standstill
-/

set_option linter.unusedSectionVars false
set_option linter.unusedVariables false
set_option linter.unusedSimpArgs false

namespace Fastsim.Props
open Spec

variable {K : Type*} [Field K] [LinearOrder K] [IsStrictOrderedRing K] [FloorRing K]
variable {F : Fns K} {V : Veh K} {P : SimParams K}

/-- Sample `q` of the lead trace is (nearly) standing. -/
def _root_.Fastsim.Spec.Standing (c0 : Cyc K) (q : Nat) : Prop := ∃ x, c0[q]? = some x ∧ x.v < 1 / 100

/-- How far the lead trace is from position `x` at sample `q`. -/
def _root_.Fastsim.Spec.gapAt (c0 : Cyc K) (x : K) (q : Nat) : K := |odometer c0 q - x|

/-- Sample `q` of the lead trace is a stop closest to position `x`. -/
def _root_.Fastsim.Spec.ClosestStop (c0 : Cyc K) (x : K) (q : Nat) : Prop :=
  Standing c0 q ∧ ∀ q', Standing c0 q' → gapAt c0 x q ≤ gapAt c0 x q'

/-- The stop where the vehicle rejoins: the closest one; of several equally close samples the last one if the
vehicle is behind the lead vehicle, else the first one. -/
def _root_.Fastsim.Spec.Rejoin (c0 : Cyc K) (x : K) (behind : Prop) (q : Nat) : Prop :=
  ClosestStop c0 x q ∧ (behind → ∀ q', ClosestStop c0 x q' → q' ≤ q) ∧
    (¬ behind → ∀ q', ClosestStop c0 x q' → q ≤ q')

/-- What is known after the samples before `n`. -/
def Found (c0 : Cyc K) (x : K) (behind : Prop) (n q : Nat) : Prop :=
  q < n ∧ Standing c0 q ∧ (∀ q', q' < n → Standing c0 q' → gapAt c0 x q ≤ gapAt c0 x q') ∧
  (behind → ∀ q', q' < n → Standing c0 q' → gapAt c0 x q' = gapAt c0 x q → q' ≤ q) ∧
  (¬ behind → ∀ q', q' < n → Standing c0 q' → gapAt c0 x q' = gapAt c0 x q → q ≤ q')

theorem Found.rejoin {c0 : Cyc K} {x : K} {behind : Prop} {n q : Nat} (h : Found c0 x behind n q)
    (hrest : ∀ q', n ≤ q' → Standing c0 q' → gapAt c0 x q < gapAt c0 x q') : Rejoin c0 x behind q := by
  obtain ⟨h1, h2, h3, h4, h5⟩ := h
  have hmin : ∀ q', Standing c0 q' → gapAt c0 x q ≤ gapAt c0 x q' := by
    intro q' hq'
    rcases Nat.lt_or_ge q' n with hl | hl
    · exact h3 q' hl hq'
    · exact (hrest q' hl hq').le
  have hcl : ∀ q', ClosestStop c0 x q' → q' < n ∧ gapAt c0 x q' = gapAt c0 x q := by
    intro q' hq'
    have he := le_antisymm (hq'.2 q h2) (hmin q' hq'.1)
    refine ⟨?_, he⟩
    by_contra hl
    have := hrest q' (by omega) hq'.1
    rw [he] at this
    exact lt_irrefl _ this
  refine ⟨⟨h2, hmin⟩, fun hb q' hq' => ?_, fun hb q' hq' => ?_⟩
  · obtain ⟨a, b⟩ := hcl q' hq'
    exact h4 hb q' a hq'.1 b
  · obtain ⟨a, b⟩ := hcl q' hq'
    exact h5 hb q' a hq'.1 b

theorem standing_length {c0 : Cyc K} {q : Nat} (h : Standing c0 q) : q < c0.length := by
  obtain ⟨x, hx, -⟩ := h
  exact (List.getElem?_eq_some_iff.1 hx).1

/-- Once the lead trace is farther away than at an earlier sample, it stays so. -/
theorem gap_grows {c0 : Cyc K} (hm : Monotone (odometer c0)) {x : K} {q n q' : Nat} (hq : q ≤ n) (hn : n ≤ q')
    (h : gapAt c0 x q < gapAt c0 x n) : gapAt c0 x q < gapAt c0 x q' := by
  unfold gapAt at *
  have h1 := hm hq
  have h2 := hm hn
  have hx : x < odometer c0 n := by
    by_contra hle
    push Not at hle
    rw [abs_of_nonpos (by linarith), abs_of_nonpos (by linarith)] at h
    linarith
  rw [abs_of_pos (show 0 < odometer c0 n - x by linarith)] at h
  rw [abs_of_pos (show 0 < odometer c0 q' - x by linarith)]
  linarith

theorem delayLoop_spec {c0 : Cyc K} (hm : Monotone (odometer c0)) (i : Nat) (d0 d0Lv : K) :
    ∀ (l : List (K × K)) (idx : Nat) (best : Option K) (delay : Option Int),
      l = ((trapzStepDistances c0).zip c0.speeds).drop idx →
      ((best = none ∧ delay = none ∧ ∀ q, q < idx → ¬ Standing c0 q) ∨
        ∃ q : Nat, best = some (gapAt c0 d0 q) ∧ delay = some ((i : Int) - q) ∧ Found c0 d0 (d0 < d0Lv) idx q) →
      (delayLoop i d0 d0Lv idx (distance (c0.take idx)) best delay l = none ∧ ∀ q, ¬ Standing c0 q) ∨
      ∃ q : Nat, delayLoop i d0 d0Lv idx (distance (c0.take idx)) best delay l = some ((i : Int) - q) ∧
        Rejoin c0 d0 (d0 < d0Lv) q := by
  have hlen : ((trapzStepDistances c0).zip c0.speeds).length = c0.length := by
    simp [trapzStepDistances_length, Cyc.speeds]
  intro l
  induction l with
  | nil =>
    intro idx best delay hl hinv
    have hidx : c0.length ≤ idx := by
      have := congrArg List.length hl
      simp only [List.length_nil, List.length_drop, hlen] at this
      omega
    simp only [delayLoop]
    rcases hinv with ⟨-, h2, h3⟩ | ⟨q, -, h2, h3⟩
    · left
      refine ⟨h2, fun q hq => ?_⟩
      have := standing_length hq
      exact h3 q (by omega) hq
    · right
      refine ⟨q, h2, h3.rejoin fun q' hq' hs => ?_⟩
      have := standing_length hs
      omega
  | cons p l ih =>
    intro idx best delay hl hinv
    have hidx : idx < c0.length := by
      have := congrArg List.length hl
      simp only [List.length_cons, List.length_drop, hlen] at this
      omega
    have hp : ((trapzStepDistances c0).zip c0.speeds)[idx]? = some p := by
      have := congrArg (fun l => l[0]?) hl
      simp only [List.getElem?_cons_zero, List.getElem?_drop, Nat.add_zero] at this
      exact this.symm
    have hl' : l = ((trapzStepDistances c0).zip c0.speeds).drop (idx + 1) := by
      have := congrArg List.tail hl
      simpa using this
    obtain ⟨hp1, hp2⟩ := List.getElem?_zip_eq_some.1 hp
    have hd : distance (c0.take idx) + p.1 = odometer c0 idx := by
      unfold odometer
      rw [← trapzStepDistances_sum, ← trapzStepDistances_sum, ← trapzStepDistances_take,
        ← trapzStepDistances_take, List.take_succ, hp1]
      simp
    have hst : Standing c0 idx ↔ p.2 < 1 / 100 := by
      have hx : c0[idx]? = some c0[idx] := List.getElem?_eq_getElem hidx
      have hv : c0[idx].v = p.2 := by
        simp only [Cyc.speeds, List.getElem?_map, hx, Option.map_some, Option.some.injEq] at hp2
        exact hp2
      constructor
      · rintro ⟨x, hx', hlt⟩
        rw [hx] at hx'
        obtain rfl := Option.some.inj hx'
        rw [← hv]; exact hlt
      · intro hlt
        exact ⟨_, hx, by rw [hv]; exact hlt⟩
    have hgap : pabs (odometer c0 idx - d0) = gapAt c0 d0 idx := by rw [pabs_eq_abs]; rfl
    have hodo : odometer c0 idx = distance (c0.take (idx + 1)) := rfl
    simp only [delayLoop]
    rw [hd, hgap]
    rcases hinv with ⟨h1, h2, h3⟩ | ⟨q, h1, h2, h3⟩
    · subst h1 h2
      by_cases hs : p.2 < 1 / 100
      · -- first stop
        simp only [hs, decide_true, Bool.true_and, Bool.and_self, if_true, lt_irrefl, decide_false,
          Bool.false_eq_true, if_false]
        rw [hodo]
        apply ih (idx + 1) _ _ hl'
        right
        refine ⟨idx, rfl, rfl, by omega, hst.2 hs, ?_, ?_, ?_⟩
        · intro q' hq' hs'
          rcases Nat.lt_or_ge q' idx with h | h
          · exact absurd hs' (h3 q' h)
          · obtain rfl : q' = idx := by omega
            exact le_rfl
        · intro _ q' hq' _ _; omega
        · intro _ q' hq' hs' _
          rcases Nat.lt_or_ge q' idx with h | h
          · exact absurd hs' (h3 q' h)
          · exact h
      · simp only [hs, decide_false, Bool.false_and, Bool.false_eq_true, if_false]
        rw [hodo]
        apply ih (idx + 1) _ _ hl'
        left
        refine ⟨rfl, rfl, fun q hq hs' => ?_⟩
        rcases Nat.lt_or_ge q idx with h | h
        · exact h3 q h hs'
        · obtain rfl : q = idx := by omega
          exact hs (hst.1 hs')
    · subst h1 h2
      obtain ⟨f1, f2, f3, f4, f5⟩ := h3
      -- the invariant for one more sample, when `q` is kept
      have keep : (p.2 < 1 / 100 → gapAt c0 d0 q ≤ gapAt c0 d0 idx) →
          (p.2 < 1 / 100 → d0 < d0Lv → gapAt c0 d0 q ≠ gapAt c0 d0 idx) →
          Found c0 d0 (d0 < d0Lv) (idx + 1) q := by
        intro k1 k2
        refine ⟨by omega, f2, ?_, ?_, ?_⟩
        · intro q' hq' hs'
          rcases Nat.lt_or_ge q' idx with h | h
          · exact f3 q' h hs'
          · obtain rfl : q' = idx := by omega
            exact k1 (hst.1 hs')
        · intro hb q' hq' hs' he
          rcases Nat.lt_or_ge q' idx with h | h
          · exact f4 hb q' h hs' he
          · obtain rfl : q' = idx := by omega
            exact absurd he.symm (k2 (hst.1 hs') hb)
        · intro hb q' hq' hs' he
          rcases Nat.lt_or_ge q' idx with h | h
          · exact f5 hb q' h hs' he
          · omega
      by_cases hgt : gapAt c0 d0 q < gapAt c0 d0 idx
      · -- beyond: the search ends
        have hnle : ¬ gapAt c0 d0 idx ≤ gapAt c0 d0 q := not_le.2 hgt
        simp only [hnle, decide_false, Bool.and_false, Bool.false_and, Bool.false_eq_true, if_false, hgt,
          decide_true, if_true]
        right
        refine ⟨q, rfl, (keep (fun _ => hgt.le) (fun _ _ => hgt.ne)).rejoin fun q' hq' hs => ?_⟩
        exact gap_grows hm (by omega) (by omega) hgt
      · have hle : gapAt c0 d0 idx ≤ gapAt c0 d0 q := not_lt.1 hgt
        by_cases hs : p.2 < 1 / 100
        · simp only [hs, hle, decide_true, Bool.true_and, if_true, lt_irrefl, decide_false,
            Bool.false_eq_true, if_false]
          rw [hodo]
          apply ih (idx + 1) _ _ hl'
          right
          by_cases hbet : gapAt c0 d0 idx < gapAt c0 d0 q ∨ (d0 < d0Lv ∧ gapAt c0 d0 q = gapAt c0 d0 idx)
          · have : (decide (gapAt c0 d0 idx < gapAt c0 d0 q) ||
                decide (d0 < d0Lv) && decide (gapAt c0 d0 q = gapAt c0 d0 idx)) = true := by
              simpa using hbet
            rw [this, if_pos rfl]
            refine ⟨idx, rfl, rfl, by omega, hst.2 hs, ?_, ?_, ?_⟩
            · intro q' hq' hs'
              rcases Nat.lt_or_ge q' idx with h | h
              · exact hle.trans (f3 q' h hs')
              · obtain rfl : q' = idx := by omega
                exact le_rfl
            · intro _ q' hq' _ _; omega
            · intro hb q' hq' hs' he
              rcases Nat.lt_or_ge q' idx with h | h
              · rcases hbet with h' | h'
                · have := f3 q' h hs'
                  rw [he] at this
                  exact absurd h' (not_lt.2 this)
                · exact absurd h'.1 hb
              · exact h
          · have : (decide (gapAt c0 d0 idx < gapAt c0 d0 q) ||
                decide (d0 < d0Lv) && decide (gapAt c0 d0 q = gapAt c0 d0 idx)) = false := by
              rw [Bool.eq_false_iff]
              intro h
              apply hbet
              simpa using h
            rw [this]
            simp only [Bool.false_eq_true, if_false]
            push Not at hbet
            have he : gapAt c0 d0 idx = gapAt c0 d0 q := le_antisymm hle hbet.1
            refine ⟨q, by rw [he], rfl, keep (fun _ => hbet.1) (fun _ hb => hbet.2 hb)⟩
        · simp only [hs, decide_false, Bool.false_and, Bool.false_eq_true, if_false, hgt]
          rw [hodo]
          apply ih (idx + 1) _ _ hl'
          right
          exact ⟨q, rfl, rfl, keep (fun h => absurd h hs) (fun h => absurd h hs)⟩

/-- Sample of the lead trace driven at step `j` by a vehicle that came to standstill at step `i` at the place where
the lead vehicle stands at sample `q`: it waits for a lead vehicle that is not there yet, and follows one that has
left already with the delay `i - q`. -/
def _root_.Fastsim.Spec.rejoinIndex (i q j : Nat) : Nat := if i < q then max q j else q + (j - i)

/-- Conditions for a new delay: no car following, standing, and more than 0.1 m away from the lead vehicle. -/
def _root_.Fastsim.Spec.Detached (P : SimParams K) (s : Sim K) : Prop :=
  P.idmAllow = false ∧ s.cyc.speeds.getD s.i 0 < 1 / 100 ∧
    1 / 10 < |odometer s.cyc0 (s.i - 1) - odometer s.cyc (s.i - 1)|

theorem setCoastDelay_eq {s : Sim K} (h1 : 1 ≤ s.i) (hi : s.i ≤ s.cyc0.length) :
    setCoastDelay P s = match
      (if P.idmAllow = false ∧ s.cyc.speeds.getD s.i 0 < 1 / 100 ∧
          1 / 10 < |odometer s.cyc0 (s.i - 1) - odometer s.cyc (s.i - 1)| then
        delayLoop s.i (odometer s.cyc (s.i - 1)) (odometer s.cyc0 (s.i - 1)) 0 0 none none
          ((trapzStepDistances s.cyc0).zip s.cyc0.speeds) else none) with
    | none => { s with coastDelay := setFrom s.coastDelay s.i 0 }
    | some cd =>
      if cd < 0 then
        { s with coastDelay := (setFrom s.coastDelay s.i 0).mapIdx fun j y =>
            if s.i ≤ j ∧ (j : Int) < s.i - cd ∧ j < s.cyc0.length then cd + ((j : Int) - s.i) else y }
      else { s with coastDelay := setFrom (setFrom s.coastDelay s.i 0) s.i cd } := by
  have hstart : trapzStepStartDistance s.cyc s.i = odometer s.cyc (s.i - 1) := by
    rw [trapzStepStartDistance_eq, odometer, show s.i - 1 + 1 = s.i by omega]
  have hlead : (trapzDistances s.cyc0).getD (s.i - 1) 0 = odometer s.cyc0 (s.i - 1) := by
    rw [List.getD_eq_getElem?_getD, trapzDistances_get _ _ (by omega)]
    rfl
  unfold setCoastDelay
  simp only [hstart, hlead, pabs_eq_abs]
  rfl

/-- **C54 (where the vehicle rejoins).** After a coast to standstill away from the lead vehicle, every later step `j`
drives the lead trace from the stop `q` closest to where the vehicle stands: it waits there until the lead vehicle
arrives, or follows it with a fixed delay. -/
theorem C54_rejoin {s : Sim K} (h1 : 1 ≤ s.i) (hi : s.i ≤ s.cyc0.length) (hv : SpeedsNonneg s.cyc0)
    (ht : NonDecreasing s.cyc0) (hl : s.coastDelay.length = s.cyc0.length) (hd : Detached P s)
    (hex : ∃ q, Standing s.cyc0 q) :
    ∃ q, Rejoin s.cyc0 (odometer s.cyc (s.i - 1)) (odometer s.cyc (s.i - 1) < odometer s.cyc0 (s.i - 1)) q ∧
      ∀ j, s.i ≤ j → j < s.cyc0.length →
        (j : Int) - (setCoastDelay P s).coastDelay.getD j 0 = rejoinIndex s.i q j := by
  obtain ⟨d1, d2, d3⟩ := hd
  rw [setCoastDelay_eq h1 hi, if_pos ⟨d1, d2, d3⟩]
  rcases delayLoop_spec (odometer_mono hv ht) s.i (odometer s.cyc (s.i - 1)) (odometer s.cyc0 (s.i - 1))
      ((trapzStepDistances s.cyc0).zip s.cyc0.speeds) 0 none none (by simp)
      (Or.inl ⟨rfl, rfl, fun q hq => by omega⟩) with ⟨-, hno⟩ | ⟨q, he, hr⟩
  · obtain ⟨q, hq⟩ := hex
    exact absurd hq (hno q)
  · refine ⟨q, hr, fun j hj hj' => ?_⟩
    have hq := standing_length hr.1.1
    rw [show distance (s.cyc0.take 0) = 0 by simp [distance]] at he
    rw [he]
    have hjl : j < s.coastDelay.length := by omega
    unfold rejoinIndex
    by_cases hneg : (s.i : Int) - q < 0
    · simp only [hneg, if_true]
      rw [if_pos (by omega), List.getD_eq_getElem?_getD, List.getElem?_mapIdx]
      unfold setFrom
      rw [List.getElem?_mapIdx, List.getElem?_eq_getElem hjl]
      simp only [Option.map_some, Option.getD_some, hj, if_true, true_and]
      by_cases hjq : j < q
      · rw [if_pos (by omega), max_eq_left (by omega)]
        omega
      · rw [if_neg (by omega), max_eq_right (by omega)]
        omega
    · simp only [hneg, if_false]
      rw [if_neg (by omega), List.getD_eq_getElem?_getD]
      unfold setFrom
      rw [List.getElem?_mapIdx, List.getElem?_mapIdx, List.getElem?_eq_getElem hjl]
      simp only [Option.map_some, Option.getD_some, hj, if_true]
      push_cast
      omega

/-- **C54 (no delay).** Otherwise, or if the lead trace never stands, no delay is set: every later step drives its
own sample of the lead trace. -/
theorem C54_no_delay {s : Sim K} (h1 : 1 ≤ s.i) (hi : s.i ≤ s.cyc0.length) (hv : SpeedsNonneg s.cyc0)
    (ht : NonDecreasing s.cyc0) (hd : ¬ Detached P s ∨ ∀ q, ¬ Standing s.cyc0 q) (j : Nat) (hj : s.i ≤ j) :
    (setCoastDelay P s).coastDelay.getD j 0 = 0 := by
  have hnone : (if P.idmAllow = false ∧ s.cyc.speeds.getD s.i 0 < 1 / 100 ∧
          1 / 10 < |odometer s.cyc0 (s.i - 1) - odometer s.cyc (s.i - 1)| then
        delayLoop s.i (odometer s.cyc (s.i - 1)) (odometer s.cyc0 (s.i - 1)) 0 0 none none
          ((trapzStepDistances s.cyc0).zip s.cyc0.speeds) else none) = none := by
    rcases hd with hd | hd
    · exact if_neg hd
    · split
      · rcases delayLoop_spec (odometer_mono hv ht) s.i (odometer s.cyc (s.i - 1)) (odometer s.cyc0 (s.i - 1))
          ((trapzStepDistances s.cyc0).zip s.cyc0.speeds) 0 none none (by simp)
          (Or.inl ⟨rfl, rfl, fun q hq => by omega⟩) with ⟨he, -⟩ | ⟨q, -, hr⟩
        · rw [show distance (s.cyc0.take 0) = 0 by simp [distance]] at he
          exact he
        · exact absurd hr.1.1 (hd q)
      · rfl
  rw [setCoastDelay_eq h1 hi, hnone]
  simp only
  unfold setFrom
  rw [List.getD_eq_getElem?_getD, List.getElem?_mapIdx]
  cases s.coastDelay[j]? with
  | none => rfl
  | some y => simp [hj]

/-- **C54 (driving after the stop).** In a later step in which the vehicle is not coasting, the speed asked for is
that of the lead trace at the rejoining index. -/
theorem C54_follow {s0 s : Sim K} (h1 : 1 ≤ s0.i) (hi : s0.i ≤ s0.cyc0.length) (hv : SpeedsNonneg s0.cyc0)
    (ht : NonDecreasing s0.cyc0) (hl : s0.coastDelay.length = s0.cyc0.length) (hd : Detached P s0)
    (hex : ∃ q, Standing s0.cyc0 q) (hc : s.cyc0 = s0.cyc0) (hdel : s.coastDelay = (setCoastDelay P s0).coastDelay)
    (hj : s0.i ≤ s.i) (hj' : s.i < s0.cyc0.length) (hstart : startCoast F V P s = .ok s)
    (hflag : s.impose.getD s.i false = false) :
    ∃ q, Rejoin s0.cyc0 (odometer s0.cyc (s0.i - 1))
        (odometer s0.cyc (s0.i - 1) < odometer s0.cyc0 (s0.i - 1)) q ∧
      rejoinIndex s0.i q s.i < s0.cyc0.length ∧
      coastHook F V P s = .ok { s with
        cyc := setSpeed s.cyc s.i (s0.cyc0.speeds.getD (rejoinIndex s0.i q s.i) 0) } := by
  obtain ⟨q, hr, hall⟩ := C54_rejoin (P := P) h1 hi hv ht hl hd hex
  have hq := standing_length hr.1.1
  have hlt : rejoinIndex s0.i q s.i < s0.cyc0.length := by
    unfold rejoinIndex
    split
    · exact max_lt hq hj'
    · omega
  refine ⟨q, hr, hlt, ?_⟩
  have := hall s.i hj hj'
  unfold coastHook
  rw [hstart]
  simp only [hflag, if_true, hd.1, Bool.false_eq_true, if_false]
  rw [hdel, this, hc, max_eq_left (by omega), min_eq_left (by omega), Int.toNat_natCast]

/-- **C54 (driving without a delay).** In a step in which the vehicle is not coasting and has no delay, the speed
asked for is that of the lead trace at the same step. -/
theorem C54_follow_now {s : Sim K} (hoff : P.idmAllow = false) (hi : s.i < s.cyc0.length)
    (hdel : s.coastDelay.getD s.i 0 = 0) (hstart : startCoast F V P s = .ok s)
    (hflag : s.impose.getD s.i false = false) :
    coastHook F V P s = .ok { s with cyc := setSpeed s.cyc s.i (s.cyc0.speeds.getD s.i 0) } := by
  unfold coastHook
  rw [hstart]
  simp only [hflag, if_true, hoff, Bool.false_eq_true, if_false]
  rw [hdel, sub_zero, max_eq_left (by omega), min_eq_left (by omega), Int.toNat_natCast]

/-! ### Concrete cases -/
namespace CoastDemo
open Demo

/-- A vehicle standing at step 4 about 20 m down the road; the lead vehicle stood there at samples 2 and 3 and has
left. -/
def left : Sim ℚ := sim 1 4 0 [10, 8, 2, 0, 0, 0, 0, 0] [20, 20, 0, 0, 10, 10, 0, 0] fun _ => false

/-- The lead vehicle will stand at samples 6 and 7 only; the vehicle has stopped at step 3 near that place. -/
def waits : Sim ℚ := sim 1 3 0 [30, 30, 0, 0, 0, 0, 0, 0] [10, 10, 10, 10, 10, 10, 0, 0] fun _ => false

/-- The vehicle that the lead has left follows from sample 3 on, one step late; the one ahead of the lead waits
for sample 6. -/
theorem demo_delay : (setCoastDelay params left).coastDelay = [0, 0, 0, 0, 1, 1, 1, 1] ∧
    (setCoastDelay params waits).coastDelay = [0, 0, 0, -3, -2, -1, 0, 0] := by
  decide +kernel

theorem demo_detached : Detached params left ∧ Detached params waits := by
  unfold Detached
  decide +kernel

theorem demo_delay_hypotheses : 1 ≤ left.i ∧ left.i ≤ left.cyc0.length ∧ SpeedsNonneg left.cyc0 ∧
    left.coastDelay.length = left.cyc0.length ∧
    ({ left with i := 5 } : Sim ℚ).impose.getD 5 false = false := by
  unfold SpeedsNonneg
  decide +kernel

example : startCoast fns conv params { left with i := 5 } = .ok { left with i := 5 } :=
  C52_untouched _ (Or.inl (by decide +kernel))

example : NonDecreasing left.cyc0 := (sim_one _ _ _ _ _).2.nonDecreasing

example : Standing left.cyc0 3 := ⟨_, rfl, by norm_num⟩

end CoastDemo
end Fastsim.Props
