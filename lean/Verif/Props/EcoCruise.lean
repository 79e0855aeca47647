import Verif.Model.EcoCruise
import Verif.Props.Microtrips
import Verif.Props.Resample
import Verif.Props.Follow
import Verif.Spec.Demo

/-!
# C15, C48: eco-cruise target speeds and their activation
-/

set_option linter.unusedSectionVars false
set_option linter.unusedVariables false
set_option linter.unusedSimpArgs false

namespace Fastsim.Props
open Spec

section spec
variable {K : Type*} [Field K] [LinearOrder K]

/-- Distance of a trace when every step counts with its end speed. -/
def _root_.Fastsim.Spec.endDistance : Cyc K → K
  | a :: b :: l => b.v * (b.t - a.t) + endDistance (b :: l)
  | _ => 0

/-- Time of the steps during which the average speed is positive. -/
def _root_.Fastsim.Spec.movingTime : Cyc K → K
  | a :: b :: l => (if 0 < a.v + b.v then b.t - a.t else 0) + movingTime (b :: l)
  | _ => 0

/-- Average speed over the whole time of a trace. -/
def _root_.Fastsim.Spec.meanSpeed (m : Cyc K) : K := endDistance m / (endTime m - startTime m)

/-- Average speed over the time spent moving. -/
def _root_.Fastsim.Spec.meanMovingSpeed (m : Cyc K) : K := endDistance m / movingTime m

/-- The pieces in which some distance is covered. -/
def _root_.Fastsim.Spec.drivenPieces (ts : List (Cyc K)) : List (Cyc K) :=
  ts.filter fun m => decide (0 < endDistance m)

end spec

section
variable {K : Type*} [Field K] [LinearOrder K] [IsStrictOrderedRing K]

theorem endDistance_shift (d : K) : ∀ c : Cyc K, endDistance (shift d c) = endDistance c
  | [] => rfl
  | [a] => rfl
  | a :: b :: l => by
    have ih := endDistance_shift d (b :: l)
    simp only [shift, List.map_cons] at ih ⊢
    rw [endDistance, ih, endDistance]
    ring

theorem distM_sum_aux : ∀ (l : Cyc K) (a : Sample K),
    (List.zipWith (· * ·) (l.map Sample.v) (diff (a.t :: l.map Sample.t))).sum = endDistance (a :: l)
  | [], a => by simp [endDistance]
  | b :: l, a => by
    have ih := distM_sum_aux l b
    simp only [List.map_cons, diff, List.zipWith_cons_cons, List.sum_cons]
    rw [ih, endDistance]

theorem distM_sum (a : Sample K) (l : Cyc K) : npSum (distM (a :: l)) = a.v * a.t + endDistance (a :: l) := by
  rw [npSum_eq]
  simp only [distM, dtS, Cyc.times, Cyc.speeds, List.map_cons, diff, List.zipWith_cons_cons, List.sum_cons, sub_zero]
  rw [distM_sum_aux]

theorem distM_sum_zero {m : Cyc K} (h : startTime m = 0) : npSum (distM m) = endDistance m := by
  cases m with
  | nil => simp [npSum_eq, distM, dtS, Cyc.times, Cyc.speeds, endDistance]
  | cons a l =>
    rw [distM_sum]
    simp only [startTime] at h
    simp [h]

theorem timeSpentMoving_eq : ∀ (m : Cyc K) (t : K), timeSpentMoving t m = t + movingTime m
  | [], t => by simp [timeSpentMoving, movingTime]
  | [a], t => by simp [timeSpentMoving, movingTime]
  | a :: b :: l, t => by
    rw [timeSpentMoving, timeSpentMoving_eq (b :: l), movingTime]
    have : 0 < (b.v + a.v) / (1 + 1) ↔ 0 < a.v + b.v := by
      rw [add_comm b.v, div_pos_iff_of_pos_right (by norm_num)]
    simp only [this]
    split <;> ring

theorem tripTime_eq {m : Cyc K} (h : m ≠ []) : tripTime m = endTime m - startTime m := by
  have hl := List.getLast?_eq_some_getLast h
  unfold tripTime Cyc.times
  rw [List.getLast?_map, hl, getLast?_endTime hl]
  cases m with
  | nil => exact absurd rfl h
  | cons a l => rfl

theorem nonDecreasing_tail {a : Sample K} {l : Cyc K} (h : NonDecreasing (a :: l)) : NonDecreasing l :=
  (List.pairwise_cons.1 h).2

theorem endDistance_nonneg : ∀ {c : Cyc K}, SpeedsNonneg c → NonDecreasing c → 0 ≤ endDistance c
  | [], _, _ => le_rfl
  | [a], _, _ => le_rfl
  | a :: b :: l, hv, ht => by
    rw [endDistance]
    have h1 := endDistance_nonneg (c := b :: l) (fun s hs => hv s (List.mem_cons_of_mem _ hs)) (nonDecreasing_tail ht)
    have h2 := (List.pairwise_cons.1 ht).1 b (by simp)
    have h3 := mul_nonneg (hv b (by simp)) (sub_nonneg.2 h2)
    linarith

theorem movingTime_bounds : ∀ {c : Cyc K}, NonDecreasing c →
    0 ≤ movingTime c ∧ movingTime c ≤ endTime c - startTime c
  | [], _ => by simp [movingTime, endTime, startTime]
  | [a], _ => by simp [movingTime, endTime, startTime]
  | a :: b :: l, ht => by
    obtain ⟨h0, h1⟩ := movingTime_bounds (nonDecreasing_tail ht)
    have h2 := (List.pairwise_cons.1 ht).1 b (by simp)
    simp only [startTime] at h1 ⊢
    rw [movingTime, endTime]
    · split <;> constructor <;> linarith
    · simp

/-- No more than the largest speed held for the moving time. -/
theorem endDistance_le : ∀ {c : Cyc K} {V : K}, SpeedsNonneg c → NonDecreasing c → (∀ s ∈ c, s.v ≤ V) →
    endDistance c ≤ V * movingTime c
  | [], V, _, _, _ => by simp [endDistance, movingTime]
  | [a], V, _, _, _ => by simp [endDistance, movingTime]
  | a :: b :: l, V, hv, ht, hV => by
    have ih := endDistance_le (c := b :: l) (V := V) (fun s hs => hv s (List.mem_cons_of_mem _ hs))
      (nonDecreasing_tail ht) (fun s hs => hV s (List.mem_cons_of_mem _ hs))
    have h2 := (List.pairwise_cons.1 ht).1 b (by simp)
    rw [endDistance, movingTime]
    have ha := hv a (by simp)
    have hb := hv b (by simp)
    have hbV := hV b (by simp)
    split
    · have := mul_le_mul_of_nonneg_right hbV (sub_nonneg.2 h2)
      rw [mul_add]
      linarith
    · have : b.v = 0 := by linarith
      rw [this]
      simpa using ih

theorem exists_bound : ∀ (c : Cyc K), ∃ V, ∀ s ∈ c, s.v ≤ V
  | [] => ⟨0, by simp⟩
  | a :: c => by
    obtain ⟨V, hV⟩ := exists_bound c
    refine ⟨max a.v V, ?_⟩
    intro s hs
    rcases List.mem_cons.1 hs with rfl | hs
    · exact le_max_left _ _
    · exact (hV s hs).trans (le_max_right _ _)

theorem movingTime_pos {c : Cyc K} (hv : SpeedsNonneg c) (ht : NonDecreasing c) (hd : 0 < endDistance c) :
    0 < movingTime c := by
  obtain ⟨V, hV⟩ := exists_bound c
  have h1 := endDistance_le hv ht hV
  rcases (movingTime_bounds ht).1.lt_or_eq with h | h
  · exact h
  · rw [← h] at h1
    linarith [h1, mul_zero V]

theorem mean_le_moving {c : Cyc K} (hv : SpeedsNonneg c) (ht : NonDecreasing c) (hd : 0 < endDistance c) :
    0 < meanSpeed c ∧ meanSpeed c ≤ meanMovingSpeed c := by
  have h1 := movingTime_pos hv ht hd
  have h2 := (movingTime_bounds ht).2
  exact ⟨div_pos hd (by linarith), div_le_div_of_nonneg_left hd.le h1 h2⟩

theorem meanMoving_le {c : Cyc K} {V : K} (hv : SpeedsNonneg c) (ht : NonDecreasing c) (hd : 0 < endDistance c)
    (hV : ∀ s ∈ c, s.v ≤ V) : meanMovingSpeed c ≤ V := by
  unfold meanMovingSpeed
  rw [div_le_iff₀ (movingTime_pos hv ht hd)]
  exact endDistance_le hv ht hV

/-! ### pieces -/

/-- Invariant: the open piece and all finished ones are stretches of the processed trace. -/
def MtPieces (p : Cyc K) (s : MtState K) : Prop :=
  s.mt <:+ p ∧ ∀ m ∈ s.done, ∃ q, q <:+: p ∧ m = fromZero q

theorem mtPieces_step (stop : K) {p : Cyc K} {s : MtState K} (h : MtPieces p s) (x : Sample K) :
    MtPieces (p ++ [x]) (mtStep stop s x) := by
  obtain ⟨h1, h2⟩ := h
  have hinf : ∀ {q : Cyc K}, q <:+: p → q <:+: p ++ [x] := fun hq => hq.trans (List.prefix_append p [x]).isInfix
  have hsuf : ∀ {q : Cyc K}, q <:+ p → q ++ [x] <:+ p ++ [x] := by
    rintro q ⟨r, rfl⟩
    exact ⟨r, by simp⟩
  unfold mtStep
  split
  · rename_i hc
    have hne : s.mt ≠ [] := by intro h0; simp [h0] at hc
    refine ⟨?_, ?_⟩
    · simp only
      apply hsuf
      rw [List.getLast?_eq_some_getLast hne]
      refine List.IsSuffix.trans ?_ h1
      exact ⟨s.mt.dropLast, List.dropLast_append_getLast hne⟩
    · intro m hm
      simp only at hm
      rcases List.mem_append.1 hm with hm | hm
      · obtain ⟨q, hq, rfl⟩ := h2 m hm
        exact ⟨q, hinf hq, rfl⟩
      · obtain rfl := List.mem_singleton.1 hm
        exact ⟨s.mt, hinf h1.isInfix, rebase_eq _⟩
  · refine ⟨hsuf h1, ?_⟩
    intro m hm
    obtain ⟨q, hq, rfl⟩ := h2 m hm
    exact ⟨q, hinf hq, rfl⟩

/-- Every microtrip is a stretch of the trace, its clock set to zero. -/
theorem C02_pieces (stop : K) (c : Cyc K) {m : Cyc K} (hm : m ∈ toMicrotrips stop c) :
    ∃ q, q <:+: c ∧ m = fromZero q := by
  have h := foldl_inv (I := MtPieces) (f := mtStep stop) (fun p s x hs => mtPieces_step stop hs x) c []
    { done := [], mt := [], moving := false } ⟨List.suffix_refl _, by simp⟩
  rw [List.nil_append] at h
  set s := c.foldl (mtStep stop) { done := [], mt := [], moving := false } with hsdef
  have hdef : toMicrotrips stop c = if 0 < s.mt.length then s.done ++ [rebase s.mt] else s.done := rfl
  rw [hdef] at hm
  split at hm
  · rcases List.mem_append.1 hm with hm | hm
    · exact h.2 m hm
    · obtain rfl := List.mem_singleton.1 hm
      exact ⟨s.mt, h.1.isInfix, rebase_eq _⟩
  · exact h.2 m hm

theorem microtrip_props {stop : K} {c m : Cyc K} (hv : SpeedsNonneg c) (ht : NonDecreasing c)
    (hm : m ∈ toMicrotrips stop c) : SpeedsNonneg m ∧ NonDecreasing m := by
  obtain ⟨q, hq, rfl⟩ := C02_pieces stop c hm
  have h2 : NonDecreasing q := List.Pairwise.sublist hq.sublist ht
  refine ⟨?_, ?_⟩
  · intro s hs
    obtain ⟨x, hx, rfl⟩ := List.mem_map.1 hs
    exact hv x (hq.subset hx)
  · unfold fromZero shift
    refine List.Pairwise.map _ ?_ h2
    intro a b hab
    simpa using hab

theorem endDistance_join : ∀ (q : Cyc K) (l a : Sample K) (m : Cyc K), a.t = 0 →
    endDistance (q ++ l :: m.map (fun x => { x with t := x.t + l.t })) =
      endDistance (q ++ [l]) + endDistance (a :: m)
  | [], l, a, [], _ => by simp [endDistance]
  | [], l, a, b :: m, h => by
    simp only [List.nil_append, List.map_cons]
    have := endDistance_shift l.t (b :: m)
    simp only [shift, List.map_cons] at this
    simp only [endDistance] at this ⊢
    rw [this, h]
    ring
  | [x], l, a, m, h => by
    have ih := endDistance_join [] l a m h
    simp only [List.nil_append, List.cons_append] at ih ⊢
    rw [endDistance, ih, endDistance]
    ring
  | x :: y :: q, l, a, m, h => by
    have ih := endDistance_join (y :: q) l a m h
    simp only [List.cons_append] at ih ⊢
    rw [endDistance, ih, endDistance]
    ring

theorem endDistance_concatFrom : ∀ (cs : List (Cyc K)) (acc r : Cyc K), acc ≠ [] →
    (∀ m ∈ cs, m ≠ [] ∧ startTime m = 0) → concatFrom acc cs = .ok r →
    endDistance r = endDistance acc + (cs.map endDistance).sum
  | [], acc, r, _, _, h => by
    simp only [concatFrom, Except.ok.injEq] at h
    simp [h]
  | m :: cs, acc, r, hne, hm, h => by
    obtain ⟨q, l, rfl⟩ : ∃ q l, acc = q ++ [l] :=
      ⟨acc.dropLast, acc.getLast hne, (List.dropLast_append_getLast hne).symm⟩
    obtain ⟨h1, h2⟩ := hm m (by simp)
    obtain ⟨a, m', rfl⟩ : ∃ a m', m = a :: m' := by
      cases m with
      | nil => exact absurd rfl h1
      | cons a m' => exact ⟨a, m', rfl⟩
    simp only [concatFrom, concatStep, List.getLast?_append, List.getLast?_singleton, Option.some_or,
      List.tail_cons] at h
    rw [endDistance_concatFrom cs _ r (by simp) (fun m hm' => hm m (List.mem_cons_of_mem _ hm')) h,
      List.append_assoc, List.singleton_append, endDistance_join q l a m' h2]
    simp only [List.map_cons, List.sum_cons]
    ring

/-- The microtrips together cover the distance of the trace. -/
theorem endDistance_microtrips (stop : K) (c : Cyc K) :
    ((toMicrotrips stop c).map endDistance).sum = endDistance c := by
  have h1 := C01_concat_toMicrotrips stop c
  have h2 := (C02_microtrip_shape stop c).1
  have h3 : endDistance (fromZero c) = endDistance c := endDistance_shift _ _
  have h4 : c.map (fun s => ⟨s.t - startTime c, s.v, s.g, s.r⟩) = fromZero c := by
    simp [fromZero, shift, sub_eq_add_neg]
  rw [h4] at h1
  cases hc : toMicrotrips stop c with
  | nil =>
    rw [hc] at h1
    simp only [concat, Except.ok.injEq] at h1
    rw [← h3]
    rw [← h1]
    rfl
  | cons m ms =>
    rw [hc] at h1 h2
    have h1' : concatFrom m ms = .ok (fromZero c) := h1
    rw [← h3, endDistance_concatFrom ms m _ (h2 m (by simp)).1 (fun x hx => h2 x (List.mem_cons_of_mem _ hx)) h1']
    simp

theorem drivenPieces_sum : ∀ (ts : List (Cyc K)), (∀ m ∈ ts, 0 ≤ endDistance m) →
    ((drivenPieces ts).map endDistance).sum = (ts.map endDistance).sum
  | [], _ => rfl
  | m :: ts, h => by
    have ih := drivenPieces_sum ts fun x hx => h x (List.mem_cons_of_mem _ hx)
    unfold drivenPieces at ih ⊢
    rw [List.filter_cons]
    split
    · simp [ih]
    · rename_i hm
      have : endDistance m = 0 := le_antisymm (by simpa using hm) (h m (by simp))
      simp [ih, this]

theorem tripTarget_eq {m : Cyc K} {b : K} (hv : SpeedsNonneg m) (ht : NonDecreasing m) (h0 : startTime m = 0)
    (hd : 0 < endDistance m) (hb0 : 0 ≤ b) (hb1 : b ≤ 1) :
    tripTarget b m = meanSpeed m + b * (meanMovingSpeed m - meanSpeed m) := by
  have hne : m ≠ [] := by
    rintro rfl
    simp [endDistance] at hd
  obtain ⟨h1, h2⟩ := mean_le_moving hv ht hd
  have h3 := movingTime_pos hv ht hd
  have h4 := (movingTime_bounds ht).2
  have h5 : tripTime m = endTime m - startTime m := tripTime_eq hne
  unfold tripTarget
  simp only [distM_sum_zero h0, timeSpentMoving_eq, zero_add, h5]
  rw [if_pos (by linarith : 0 < endTime m - startTime m), if_pos h3]
  change max (min (b * (meanMovingSpeed m - meanSpeed m) + meanSpeed m) (meanMovingSpeed m)) (meanSpeed m) = _
  have h6 : b * (meanMovingSpeed m - meanSpeed m) ≤ meanMovingSpeed m - meanSpeed m :=
    mul_le_of_le_one_left (by linarith) hb1
  have h7 : 0 ≤ b * (meanMovingSpeed m - meanSpeed m) := mul_nonneg hb0 (by linarith)
  rw [min_eq_left (by linarith), max_eq_left (by linarith)]
  ring

theorem targetLoop_get (b mn : K) : ∀ (ts : List (Cyc K)) (d : K) (k : ℕ), (∀ m ∈ ts, startTime m = 0) →
    (targetLoop b mn d ts)[k]? = (drivenPieces ts)[k]?.map fun m =>
      (d + (((drivenPieces ts).take k).map endDistance).sum, max (tripTarget b m) mn)
  | [], d, k, _ => by simp [targetLoop, drivenPieces]
  | m :: ts, d, k, h => by
    have hm := distM_sum_zero (h m (by simp))
    have h' : ∀ x ∈ ts, startTime x = 0 := fun x hx => h x (List.mem_cons_of_mem _ hx)
    rw [targetLoop, hm]
    by_cases hp : 0 < endDistance m
    · have e : drivenPieces (m :: ts) = m :: drivenPieces ts := by simp [drivenPieces, hp]
      rw [if_pos hp, e]
      cases k with
      | zero => simp
      | succ k =>
        rw [List.getElem?_cons_succ, List.getElem?_cons_succ, targetLoop_get b mn ts _ k h']
        simp [add_assoc]
    · have e : drivenPieces (m :: ts) = drivenPieces ts := by simp [drivenPieces, hp]
      rw [if_neg hp, e]
      exact targetLoop_get b mn ts d k h'

/-- **C15.** On a trace with non-decreasing times and no negative speeds the table has exactly one entry for each
microtrip in which distance is covered. Its distance is that of all earlier microtrips together, and its speed lies
between the mean speed of the microtrip and its mean speed while moving, the blend factor (brought into `[0, 1]`)
telling where, but not below the requested minimum. -/
theorem C15_table {c : Cyc K} (hv : SpeedsNonneg c) (ht : NonDecreasing c) (blend mn : K) (k : ℕ) :
    (targetTable c blend mn)[k]? = (drivenPieces (toMicrotrips (1 / 1000000) c))[k]?.map fun m =>
      ((((drivenPieces (toMicrotrips (1 / 1000000) c)).take k).map endDistance).sum,
        max (meanSpeed m + max 0 (min 1 blend) * (meanMovingSpeed m - meanSpeed m)) mn) := by
  have h0 := fun m hm => ((C02_microtrip_shape (1 / 1000000) c).1 m hm).2
  unfold targetTable
  rw [targetLoop_get _ _ _ _ _ h0, zero_add]
  cases hk : (drivenPieces (toMicrotrips (1 / 1000000) c))[k]? with
  | none => rfl
  | some m =>
    have hm := List.mem_of_getElem? hk
    unfold drivenPieces at hm
    obtain ⟨hm1, hm2⟩ := List.mem_filter.1 hm
    obtain ⟨p1, p2⟩ := microtrip_props hv ht hm1
    simp only [Option.map_some, Option.some.injEq, Prod.mk.injEq, true_and]
    rw [tripTarget_eq p1 p2 (h0 m hm1) (by simpa using hm2) (le_max_left _ _)
      (max_le zero_le_one (min_le_left _ _))]

/-- **C15, extremes of the blend factor.** At or below `0` the mean speed counts, at or above `1` the mean speed
while moving. -/
theorem C15_blend {c : Cyc K} (hv : SpeedsNonneg c) (ht : NonDecreasing c) (blend mn : K) {k : ℕ} {m : Cyc K}
    (hm : (drivenPieces (toMicrotrips (1 / 1000000) c))[k]? = some m) {e : K × K}
    (he : (targetTable c blend mn)[k]? = some e) :
    (blend ≤ 0 → e.2 = max (meanSpeed m) mn) ∧ (1 ≤ blend → e.2 = max (meanMovingSpeed m) mn) := by
  rw [C15_table hv ht, hm, Option.map_some, Option.some.injEq] at he
  subst he
  refine ⟨fun h => ?_, fun h => ?_⟩
  · rw [min_eq_right (h.trans zero_le_one), max_eq_left h]
    simp
  · rw [min_eq_left h, max_eq_right zero_le_one]
    simp

/-- **C15, distances.** The distances of the table start at zero and strictly increase, and all lie before the end
of the trace. -/
theorem C15_distances {c : Cyc K} (hv : SpeedsNonneg c) (ht : NonDecreasing c) (blend mn : K) :
    (∀ e, (targetTable c blend mn)[0]? = some e → e.1 = 0) ∧
    (∀ (j k : ℕ) (e f : K × K), j < k → (targetTable c blend mn)[j]? = some e → (targetTable c blend mn)[k]? = some f → e.1 < f.1) ∧
    (∀ e ∈ targetTable c blend mn, 0 ≤ e.1 ∧ e.1 < endDistance c) := by
  set T := drivenPieces (toMicrotrips (1 / 1000000) c) with hT
  have hpos : ∀ m ∈ T, 0 < endDistance m := by
    intro m hm
    have := (List.mem_filter.1 hm).2
    simpa using this
  have hstep : ∀ {k m}, T[k]? = some m →
      ((T.take (k + 1)).map endDistance).sum = ((T.take k).map endDistance).sum + endDistance m := by
    intro k m hk
    rw [List.take_succ, hk]
    simp
  have hmono : ∀ {j k m}, T[j]? = some m → j < k → ((T.take j).map endDistance).sum < ((T.take k).map endDistance).sum := by
    intro j k m hj hjk
    obtain ⟨n, rfl⟩ : ∃ n, k = j + 1 + n := ⟨k - (j + 1), by omega⟩
    have h1 := hstep hj
    have h2 := hpos m (List.mem_of_getElem? hj)
    have h3 : ((T.take (j + 1 + n)).map endDistance).sum =
        ((T.take (j + 1)).map endDistance).sum + (((T.drop (j + 1)).take n).map endDistance).sum := by
      rw [List.take_add, List.map_append, List.sum_append]
    have h4 : 0 ≤ (((T.drop (j + 1)).take n).map endDistance).sum := by
      apply List.sum_nonneg
      intro x hx
      obtain ⟨y, hy, rfl⟩ := List.mem_map.1 hx
      exact (hpos y (List.mem_of_mem_drop (List.mem_of_mem_take hy))).le
    linarith
  have htot : (T.map endDistance).sum = endDistance c := by
    rw [hT, drivenPieces_sum, endDistance_microtrips]
    intro m hm
    obtain ⟨p1, p2⟩ := microtrip_props hv ht hm
    exact endDistance_nonneg p1 p2
  have hget : ∀ {k e}, (targetTable c blend mn)[k]? = some e →
      ∃ m, T[k]? = some m ∧ e.1 = ((T.take k).map endDistance).sum := by
    intro k e he
    rw [C15_table hv ht] at he
    obtain ⟨m, h1, h2⟩ := Option.map_eq_some_iff.1 he
    exact ⟨m, h1, by rw [← h2]⟩
  refine ⟨?_, ?_, ?_⟩
  · intro e he
    obtain ⟨m, -, h⟩ := hget he
    simpa using h
  · intro j k e f hjk he hf
    obtain ⟨m, h1, h2⟩ := hget he
    obtain ⟨-, -, h3⟩ := hget hf
    rw [h2, h3]
    exact hmono h1 hjk
  · intro e he
    obtain ⟨k, hk⟩ := List.getElem?_of_mem he
    obtain ⟨m, h1, h2⟩ := hget hk
    have hlt := (List.getElem?_eq_some_iff.1 h1).1
    rw [h2]
    constructor
    · apply List.sum_nonneg
      intro x hx
      obtain ⟨y, hy, rfl⟩ := List.mem_map.1 hx
      exact (hpos y (List.mem_of_mem_take hy)).le
    · have := hmono h1 hlt
      rw [List.take_length, htot] at this
      exact this

/-- **C15, speeds.** Every target is at least the requested minimum and at least the mean speed of its microtrip,
and exceeds neither the minimum nor the mean speed while moving unless it is one of them; in particular it never
exceeds both the minimum and the top speed of the trace. -/
theorem C15_speeds {c : Cyc K} (hv : SpeedsNonneg c) (ht : NonDecreasing c) (blend mn : K) {k : ℕ} {m : Cyc K}
    (hm : (drivenPieces (toMicrotrips (1 / 1000000) c))[k]? = some m) {e : K × K}
    (he : (targetTable c blend mn)[k]? = some e) :
    mn ≤ e.2 ∧ meanSpeed m ≤ e.2 ∧ e.2 ≤ max (meanMovingSpeed m) mn ∧ 0 < e.2 ∧
      ∀ V, (∀ s ∈ c, s.v ≤ V) → e.2 ≤ max V mn := by
  rw [C15_table hv ht, hm, Option.map_some, Option.some.injEq] at he
  subst he
  obtain ⟨hm1, hm2⟩ := List.mem_filter.1 (List.mem_of_getElem? hm)
  obtain ⟨p1, p2⟩ := microtrip_props hv ht hm1
  have hd : 0 < endDistance m := by simpa using hm2
  obtain ⟨h1, h2⟩ := mean_le_moving p1 p2 hd
  have hb1 : max 0 (min 1 blend) ≤ 1 := max_le zero_le_one (min_le_left _ _)
  have hb0 : 0 ≤ max 0 (min 1 blend) := le_max_left _ _
  have h3 : max 0 (min 1 blend) * (meanMovingSpeed m - meanSpeed m) ≤ meanMovingSpeed m - meanSpeed m :=
    mul_le_of_le_one_left (by linarith) hb1
  have h4 : 0 ≤ max 0 (min 1 blend) * (meanMovingSpeed m - meanSpeed m) := mul_nonneg hb0 (by linarith)
  have h5 : meanSpeed m + max 0 (min 1 blend) * (meanMovingSpeed m - meanSpeed m) ≤ meanMovingSpeed m := by linarith
  refine ⟨le_max_right _ _, ?_, max_le_max h5 le_rfl, ?_, ?_⟩
  · exact le_trans (by linarith) (le_max_left _ _)
  · exact lt_of_lt_of_le (by linarith) (le_max_left _ _)
  · intro V hV
    refine max_le_max (h5.trans (meanMoving_le p1 p2 hd ?_)) le_rfl
    intro s hs
    obtain ⟨q, hq, rfl⟩ := C02_pieces _ c hm1
    obtain ⟨x, hx, rfl⟩ := List.mem_map.1 hs
    exact hV x (hq.subset hx)

/-- **C15, standing traces.** The table is empty exactly when no distance is covered. -/
theorem C15_empty {c : Cyc K} (hv : SpeedsNonneg c) (ht : NonDecreasing c) (blend mn : K) :
    targetTable c blend mn = [] ↔ endDistance c = 0 := by
  have hnn : ∀ m ∈ toMicrotrips (1 / 1000000) c, 0 ≤ endDistance m := by
    intro m hm
    obtain ⟨p1, p2⟩ := microtrip_props hv ht hm
    exact endDistance_nonneg p1 p2
  have htot := drivenPieces_sum _ hnn
  rw [endDistance_microtrips] at htot
  constructor
  · intro h
    have h0 := C15_table hv ht blend mn 0
    rw [h] at h0
    have : drivenPieces (toMicrotrips (1 / 1000000) c) = [] := by
      cases hd : drivenPieces (toMicrotrips (1 / 1000000) c) with
      | nil => rfl
      | cons m l => rw [hd] at h0; simp at h0
    rw [this] at htot
    simpa using htot.symm
  · intro h
    by_contra hcon
    obtain ⟨e, l, he⟩ := List.exists_cons_of_ne_nil hcon
    have := (C15_distances hv ht blend mn).2.2 e (by rw [he]; simp)
    linarith [this.1, this.2]

/-- **C15, in force.** While the driver following the table has covered a distance that falls into the `k`-th
driven microtrip of the original trace, the desired speed is that of this microtrip. Distances are counted as in the
table, every step with its end speed. -/
theorem C15_in_force {c : Cyc K} (hv : SpeedsNonneg c) (ht : NonDecreasing c) (blend mn : K) {P : SimParams K}
    (hP : P.idmByDistance = some (targetTable c blend mn)) (s : Sim K) {k : ℕ} {m : Cyc K}
    (hm : (drivenPieces (toMicrotrips (1 / 1000000) c))[k]? = some m)
    (hlo : (((drivenPieces (toMicrotrips (1 / 1000000) c)).take k).map endDistance).sum ≤
      npSum ((distM s.cyc).take s.i))
    (hhi : npSum ((distM s.cyc).take s.i) <
      (((drivenPieces (toMicrotrips (1 / 1000000) c)).take (k + 1)).map endDistance).sum) :
    idmTargetFor P s =
      .ok (max (meanSpeed m + max 0 (min 1 blend) * (meanMovingSpeed m - meanSpeed m)) mn) := by
  have he : (targetTable c blend mn)[k]? = some
      ((((drivenPieces (toMicrotrips (1 / 1000000) c)).take k).map endDistance).sum,
        max (meanSpeed m + max 0 (min 1 blend) * (meanMovingSpeed m - meanSpeed m)) mn) := by
    rw [C15_table hv ht, hm]
    rfl
  refine (C30_lookup (P := P) s).2.2.1 _ k _ hP ?_ he hlo ?_
  · rw [List.pairwise_iff_getElem]
    intro i j hi hj hij
    exact ((C15_distances hv ht blend mn).2.1 i j _ _ hij (List.getElem?_eq_getElem hi)
      (List.getElem?_eq_getElem hj)).le
  · intro x hx
    rw [C15_table hv ht] at hx
    obtain ⟨m', -, rfl⟩ := Option.map_eq_some_iff.1 hx
    exact hhi

end
section floor
variable {K : Type*} [Field K] [LinearOrder K] [IsStrictOrderedRing K] [FloorRing K]

theorem ecoExtend_cases (e : Eco K) (x : K) :
    (x < 0 ∧ ecoExtend e x = (some .typeError, e)) ∨
    (x = 0 ∧ ecoExtend e x = (none, e)) ∨
    (0 < x ∧ e.cyc0 = [] ∧ ecoExtend e x = (some .indexError, e)) ∨
    (0 < x ∧ e.cyc0 ≠ [] ∧ ∃ c, extendCycle e.cyc0 0 x = .ok c ∧
      ecoExtend e x = (none, { e with cyc0 := c, cyc := c })) := by
  unfold ecoExtend
  rcases lt_trichotomy x 0 with h | h | h
  · exact Or.inl ⟨h, by rw [if_pos h]⟩
  · exact Or.inr (Or.inl ⟨h, by rw [if_neg (by rw [h]; simp), if_neg (by rw [h]; simp)]⟩)
  · rw [if_neg h.not_gt, if_pos h]
    by_cases hc : e.cyc0 = []
    · exact Or.inr (Or.inr (Or.inl ⟨h, hc, by rw [hc, C14_empty]⟩))
    · obtain ⟨n, hn, -⟩ := C14_extend e.cyc0 hc 0 x
      exact Or.inr (Or.inr (Or.inr ⟨h, hc, _, hn, by rw [hn]⟩))

theorem activate_whole (e : Eco K) (ext blend mn : K) : activateEcoCruise e false ext blend mn =
    ecoExtend { e with params := { e.params with
      idmAllow := true
      idmVDesired := if 0 < e.cyc0.length ∧ 0 < e.cyc0.times.getLast?.getD 0
        then npSum (distM e.cyc0) / e.cyc0.times.getLast?.getD 0 else 0 } } ext := rfl

theorem activate_table (e : Eco K) (ext : K) {blend mn : K} (h : 0 ≤ blend ∧ blend ≤ 1 ∧ 0 ≤ mn) :
    activateEcoCruise e true ext blend mn =
      ecoExtend { e with params := { e.params with
        idmAllow := true, idmByDistance := some (targetTable e.cyc0 blend mn) } } ext := by
  unfold activateEcoCruise
  rw [if_neg (by simp), if_neg (by push Not; exact ⟨h.2.1, h.1⟩), if_neg (not_lt.2 h.2.2)]

theorem activate_bad (e : Eco K) (ext : K) {blend mn : K} (h : ¬ (0 ≤ blend ∧ blend ≤ 1 ∧ 0 ≤ mn)) :
    activateEcoCruise e true ext blend mn =
      (some .typeError, { e with params := { e.params with idmAllow := true } }) := by
  unfold activateEcoCruise
  rw [if_neg (by simp)]
  by_cases h1 : 1 < blend ∨ blend < 0
  · rw [if_pos h1]
  · have h1' := h1
    push Not at h1'
    rw [if_neg h1, if_pos]
    by_contra h2
    exact h ⟨h1'.2, h1'.1, not_lt.1 h2⟩

theorem ecoExtend_params (e : Eco K) (ext : K) : (ecoExtend e ext).2.params = e.params := by
  rcases ecoExtend_cases e ext with ⟨h1, h⟩ | ⟨h1, h⟩ | ⟨h1, h2, h⟩ | ⟨h1, h2, c, h3, h⟩ <;> rw [h]

theorem ecoExtend_outcome (e : Eco K) (ext : K) :
    ((ecoExtend e ext).1 = none ↔ 0 ≤ ext ∧ (0 < ext → e.cyc0 ≠ [])) ∧
    ((ecoExtend e ext).1 = some .typeError ↔ ext < 0) ∧
    ((ecoExtend e ext).1 = none ∨ (ecoExtend e ext).1 = some .typeError ∨
      (ecoExtend e ext).1 = some .indexError) := by
  rcases ecoExtend_cases e ext with ⟨h1, h⟩ | ⟨h1, h⟩ | ⟨h1, h2, h⟩ | ⟨h1, h2, c, h3, h⟩ <;> rw [h]
  · simp [h1]
  · simp [h1]
  · simp [h1, h2, h1.le]
  · simp [h1, h2, h1.le]

/-- **C48.** Which calls are accepted, and what the others raise: the extension fraction must not be negative; by
microtrip the blend factor must lie in `[0, 1]` and the minimum speed must not be negative (`TypeError` otherwise).
A positive extension of an empty trace raises `IndexError`. Without the microtrip option the last two arguments are
not looked at. -/
theorem C48_outcome (e : Eco K) (by_ : Bool) (ext blend mn : K) :
    ((activateEcoCruise e by_ ext blend mn).1 = none ↔
      0 ≤ ext ∧ (by_ = true → 0 ≤ blend ∧ blend ≤ 1 ∧ 0 ≤ mn) ∧ (0 < ext → e.cyc0 ≠ [])) ∧
    ((activateEcoCruise e by_ ext blend mn).1 = some .typeError ↔
      ext < 0 ∨ by_ = true ∧ (blend < 0 ∨ 1 < blend ∨ mn < 0)) ∧
    ((activateEcoCruise e by_ ext blend mn).1 = none ∨ (activateEcoCruise e by_ ext blend mn).1 = some .typeError ∨
      (activateEcoCruise e by_ ext blend mn).1 = some .indexError) := by
  cases by_ with
  | false =>
    rw [activate_whole]
    obtain ⟨k1, k2, k3⟩ := ecoExtend_outcome { e with params := { e.params with
      idmAllow := true
      idmVDesired := if 0 < e.cyc0.length ∧ 0 < e.cyc0.times.getLast?.getD 0
        then npSum (distM e.cyc0) / e.cyc0.times.getLast?.getD 0 else 0 } } ext
    rw [k1, k2] at k3 ⊢
    exact ⟨by simp, by simp, k3⟩
  | true =>
    by_cases h : 0 ≤ blend ∧ blend ≤ 1 ∧ 0 ≤ mn
    · rw [activate_table e ext h]
      obtain ⟨k1, k2, k3⟩ := ecoExtend_outcome { e with params := { e.params with
        idmAllow := true, idmByDistance := some (targetTable e.cyc0 blend mn) } } ext
      rw [k1, k2] at k3 ⊢
      refine ⟨by simp [h], ?_, k3⟩
      simp [h.1.not_gt, h.2.1.not_gt, h.2.2.not_gt]
    · rw [activate_bad e ext h]
      refine ⟨by simp [h], ?_, by simp⟩
      simp only [true_and, true_iff]
      right
      by_contra hcon
      push Not at hcon
      exact h hcon

/-- **C48, settings.** What an accepted call leaves in the settings: car following is on; without the microtrip
option the desired speed is the distance of the trace over its last time (zero if that is not positive) and the
table is left as it was; by microtrip the table is the one of the trace as it was before the extension, and the
desired speed is left as it was. -/
theorem C48_settings (e : Eco K) (by_ : Bool) (ext blend mn : K)
    (h : (activateEcoCruise e by_ ext blend mn).1 = none) :
    (by_ = false → (activateEcoCruise e by_ ext blend mn).2.params =
      { e.params with
        idmAllow := true
        idmVDesired := if 0 < endTime e.cyc0 then npSum (distM e.cyc0) / endTime e.cyc0 else 0 }) ∧
    (by_ = true → (activateEcoCruise e by_ ext blend mn).2.params =
      { e.params with idmAllow := true, idmByDistance := some (targetTable e.cyc0 blend mn) }) := by
  have hlast : (if 0 < e.cyc0.length ∧ 0 < e.cyc0.times.getLast?.getD 0
      then npSum (distM e.cyc0) / e.cyc0.times.getLast?.getD 0 else 0) =
      if 0 < endTime e.cyc0 then npSum (distM e.cyc0) / endTime e.cyc0 else 0 := by
    by_cases hc : e.cyc0 = []
    · rw [hc]; simp [endTime]
    · have hl := List.getLast?_eq_some_getLast hc
      have : e.cyc0.times.getLast?.getD 0 = endTime e.cyc0 := by
        unfold Cyc.times
        rw [List.getLast?_map, hl, getLast?_endTime hl]
        rfl
      rw [this]
      simp [List.length_pos_iff.2 hc]
  cases by_ with
  | false =>
    refine ⟨fun _ => ?_, by simp⟩
    rw [activate_whole, ecoExtend_params, hlast]
  | true =>
    refine ⟨by simp, fun _ => ?_⟩
    by_cases hb : 0 ≤ blend ∧ blend ≤ 1 ∧ 0 ≤ mn
    · rw [activate_table e ext hb, ecoExtend_params]
    · rw [activate_bad e ext hb] at h
      simp at h

/-- **C48, trace.** An accepted call without extension leaves both traces alone; with an extension both become the
lead trace followed by standing samples, one per second, for that fraction of its last time to within half a second
(last time not negative). A rejected call leaves both traces alone. -/
theorem C48_trace (e : Eco K) (by_ : Bool) (ext blend mn : K) :
    ((activateEcoCruise e by_ ext blend mn).1 ≠ none ∨ ext = 0 →
      (activateEcoCruise e by_ ext blend mn).2.cyc0 = e.cyc0 ∧ (activateEcoCruise e by_ ext blend mn).2.cyc = e.cyc) ∧
    ((activateEcoCruise e by_ ext blend mn).1 = none → 0 < ext → 0 ≤ endTime e.cyc0 →
      ∃ n : ℕ, (activateEcoCruise e by_ ext blend mn).2.cyc0 = e.cyc0 ++ standing (endTime e.cyc0) n ∧
        (activateEcoCruise e by_ ext blend mn).2.cyc = e.cyc0 ++ standing (endTime e.cyc0) n ∧
        ext * endTime e.cyc0 - 1 / 2 ≤ n ∧ (n : K) ≤ ext * endTime e.cyc0 + 1 / 2) := by
  have key : ∀ e' : Eco K, e'.cyc0 = e.cyc0 → e'.cyc = e.cyc →
      ((ecoExtend e' ext).1 ≠ none ∨ ext = 0 → (ecoExtend e' ext).2.cyc0 = e.cyc0 ∧
        (ecoExtend e' ext).2.cyc = e.cyc) ∧
      ((ecoExtend e' ext).1 = none → 0 < ext → 0 ≤ endTime e.cyc0 →
        ∃ n : ℕ, (ecoExtend e' ext).2.cyc0 = e.cyc0 ++ standing (endTime e.cyc0) n ∧
        (ecoExtend e' ext).2.cyc = e.cyc0 ++ standing (endTime e.cyc0) n ∧
        ext * endTime e.cyc0 - 1 / 2 ≤ n ∧ (n : K) ≤ ext * endTime e.cyc0 + 1 / 2) := by
    intro e' h0 h1
    rcases ecoExtend_cases e' ext with ⟨g1, h⟩ | ⟨g1, h⟩ | ⟨g1, g2, h⟩ | ⟨g1, g2, c, g3, h⟩
    · rw [h]; exact ⟨fun _ => ⟨h0, h1⟩, by simp⟩
    · rw [h]; exact ⟨fun _ => ⟨h0, h1⟩, fun _ hp => absurd hp (by rw [g1]; simp)⟩
    · rw [h]; exact ⟨fun _ => ⟨h0, h1⟩, by simp⟩
    · rw [h]
      refine ⟨?_, ?_⟩
      · rintro (hc | hc)
        · exact absurd rfl hc
        · exact absurd hc g1.ne'
      · intro _ _ hend
        rw [h0] at g2 g3
        obtain ⟨n, b1, b2, b3⟩ := C14_fraction e.cyc0 g2 ext (mul_nonneg g1.le hend)
        rw [b1, Except.ok.injEq] at g3
        exact ⟨n, g3.symm, g3.symm, b2, b3⟩
  cases by_ with
  | false =>
    rw [activate_whole]
    exact key _ rfl rfl
  | true =>
    by_cases hb : 0 ≤ blend ∧ blend ≤ 1 ∧ 0 ≤ mn
    · rw [activate_table e ext hb]
      exact key _ rfl rfl
    · rw [activate_bad e ext hb]
      exact ⟨fun _ => ⟨rfl, rfl⟩, by simp⟩

/-- **C48, speed for the whole trace.** On a trace that starts at time zero, with non-decreasing times and no
negative speeds, the desired speed set without the microtrip option is the mean speed of the trace, which is no
greater than its top speed. -/
theorem C48_mean (e : Eco K) (ext blend mn : K) (hv : SpeedsNonneg e.cyc0) (ht : NonDecreasing e.cyc0)
    (h0 : startTime e.cyc0 = 0) (hend : 0 < endTime e.cyc0)
    (h : (activateEcoCruise e false ext blend mn).1 = none) :
    (activateEcoCruise e false ext blend mn).2.params.idmVDesired = meanSpeed e.cyc0 ∧ 0 ≤ meanSpeed e.cyc0 ∧
      ∀ V, (∀ s ∈ e.cyc0, s.v ≤ V) → meanSpeed e.cyc0 ≤ V := by
  rw [(C48_settings e false ext blend mn h).1 rfl]
  simp only [if_pos hend]
  have hm : meanSpeed e.cyc0 = endDistance e.cyc0 / endTime e.cyc0 := by unfold meanSpeed; rw [h0, sub_zero]
  refine ⟨by rw [distM_sum_zero h0, hm], ?_, ?_⟩
  · rw [hm]
    exact div_nonneg (endDistance_nonneg hv ht) hend.le
  · intro V hV
    rcases (endDistance_nonneg hv ht).lt_or_eq with hd | hd
    · exact (mean_le_moving hv ht hd).2.trans (meanMoving_le hv ht hd hV)
    · rw [hm, ← hd, zero_div]
      cases hc : e.cyc0 with
      | nil => rw [hc] at hend; simp [endTime] at hend
      | cons a l => exact (hv a (by rw [hc]; simp)).trans (hV a (by rw [hc]; simp))

/-- **C48, a rejected call is not without effect**: car following has been switched on, whatever the reason. -/
theorem C48_rejected_still_on (e : Eco K) (by_ : Bool) (ext blend mn : K) :
    (activateEcoCruise e by_ ext blend mn).2.params.idmAllow = true := by
  cases by_ with
  | false => rw [activate_whole, ecoExtend_params]
  | true =>
    by_cases hb : 0 ≤ blend ∧ blend ≤ 1 ∧ 0 ≤ mn
    · rw [activate_table e ext hb, ecoExtend_params]
    · rw [activate_bad e ext hb]

/-- **C48, an old table stays in force**: once a table is set, activating eco-cruise for the whole trace does not
change the desired speed of any step. -/
theorem C48_old_table (e : Eco K) (ext blend mn : K) (tbl : List (K × K)) (hT : e.params.idmByDistance = some tbl)
    (s : Sim K) :
    idmTargetFor (activateEcoCruise e false ext blend mn).2.params s = idmTargetFor e.params s := by
  rw [activate_whole, ecoExtend_params]
  unfold idmTargetFor
  simp only [hT]
  cases tbl <;> rfl

/-- **C48, standing traces**: by microtrip, a trace without distance is accepted and then every driving step
raises `IndexError`. -/
theorem C48_standing (e : Eco K) (ext blend mn : K) (hv : SpeedsNonneg e.cyc0) (ht : NonDecreasing e.cyc0)
    (hd : endDistance e.cyc0 = 0) (h : (activateEcoCruise e true ext blend mn).1 = none) (s : Sim K) :
    idmTargetFor (activateEcoCruise e true ext blend mn).2.params s = .error .indexError := by
  rw [(C48_settings e true ext blend mn h).2 rfl]
  unfold idmTargetFor
  simp only
  rw [(C15_empty hv ht blend mn).2 hd]

end floor

section witness

/-- Two trips with a stop of one second between them and idle time at the end. -/
def exEco : Cyc ℚ :=
  [⟨0, 0, 0, 0⟩, ⟨1, 4, 0, 0⟩, ⟨2, 6, 0, 0⟩, ⟨3, 0, 0, 0⟩, ⟨4, 0, 0, 0⟩, ⟨5, 9, 0, 0⟩, ⟨6, 0, 0, 0⟩, ⟨8, 0, 0, 0⟩]

example : SpeedsNonneg exEco ∧ NonDecreasing exEco ∧ startTime exEco = 0 ∧ 0 < endTime exEco := by
  unfold SpeedsNonneg NonDecreasing exEco
  decide +kernel

/-- Half-way between the two means, with a minimum that binds for neither, one and both. -/
theorem C15_demo : targetTable exEco (1/2) 0 = [(0, 35/12), (10, 27/8)] ∧
    targetTable exEco (1/2) 3 = [(0, 3), (10, 27/8)] ∧ targetTable exEco 0 8 = [(0, 8), (10, 8)] ∧
    targetTable exEco 7 0 = [(0, 10/3), (10, 9/2)] := by decide +kernel

/-- The parameters of the demonstration runs, on that trace. -/
def exEcoState : Eco ℚ := ⟨Demo.params, exEco, exEco⟩

/-- Accepted and rejected calls; the extension by a quarter adds two standing seconds. -/
theorem C48_demo : (activateEcoCruise exEcoState false (1/4) 0 8).1 = none ∧
    (activateEcoCruise exEcoState false (1/4) 0 8).2.params.idmVDesired = 19 / 8 ∧
    (activateEcoCruise exEcoState false (1/4) 0 8).2.cyc = exEco ++ [⟨9, 0, 0, 0⟩, ⟨10, 0, 0, 0⟩] ∧
    (activateEcoCruise exEcoState true 0 1 8).1 = none ∧
    (activateEcoCruise exEcoState true 0 2 8).1 = some .typeError ∧
    (activateEcoCruise exEcoState true (-1) 1 8).1 = some .typeError ∧
    (activateEcoCruise exEcoState true (-1) 1 8).2.params.idmByDistance = some [(0, 8), (10, 8)] := by
  decide +kernel

example : SpeedsNonneg ([⟨0, 0, 0, 0⟩, ⟨1, 0, 0, 0⟩] : Cyc ℚ) ∧ NonDecreasing ([⟨0, 0, 0, 0⟩, ⟨1, 0, 0, 0⟩] : Cyc ℚ) ∧
    endDistance ([⟨0, 0, 0, 0⟩, ⟨1, 0, 0, 0⟩] : Cyc ℚ) = 0 := by
  unfold SpeedsNonneg NonDecreasing
  decide +kernel

end witness

end Fastsim.Props
