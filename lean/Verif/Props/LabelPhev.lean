import Verif.Props.Label
import Verif.Props.Follow
import Mathlib.Data.List.Range
import Mathlib.Algebra.BigOperators.Group.List.Basic
import Mathlib.Algebra.Order.Archimedean.Basic

/-!
# C56: the label of a plug-in hybrid weighs electric and other driving by the utility factor
-/
set_option linter.unusedSectionVars false

namespace Fastsim.Props
open Fastsim Spec

variable {K : Type*} [Field K] [LinearOrder K] [IsStrictOrderedRing K] [FloorRing K]

/-- Share of driving done electrically when the battery is charged every `x` miles: the value of the last entry of the table that is
not beyond `x`. -/
def _root_.Fastsim.Spec.shareAt (tbl : List (K × K)) (x : K) : K :=
  ((tbl.filter fun p => decide (p.1 ≤ x)).getLast?.map Prod.snd).getD 0

/-- A table of shares: distances increase from zero, shares rise from zero and do not exceed one. -/
structure _root_.Fastsim.Spec.ShareTable (tbl : List (K × K)) (L : K) : Prop where
  strict : StrictX tbl
  rising : tbl.Pairwise (fun a b => a.2 ≤ b.2)
  first : tbl.head? = some (0, 0)
  last : (tbl.getLast?.map Prod.fst) = some L
  le_one : ∀ p ∈ tbl, p.2 ≤ 1

theorem holdFrom_eq (x : K) : ∀ (tbl : List (K × K)) (d : K), SortedX tbl →
    holdFrom x d tbl = ((tbl.filter fun p => decide (p.1 ≤ x)).getLast?.map Prod.snd).getD d
  | [], d, _ => rfl
  | p :: r, d, h => by
    have hr := (List.pairwise_cons.1 h).2
    rw [holdFrom]
    by_cases hp : p.1 ≤ x
    · rw [if_pos hp, List.filter_cons_of_pos (by simpa using hp), holdFrom_eq x r p.2 hr]
      cases hf : r.filter fun p => decide (p.1 ≤ x) with
      | nil => rfl
      | cons a l => rw [List.getLast?_cons_cons, List.getLast?_eq_some_getLast (by simp)]; rfl
    · rw [if_neg hp]
      have : (p :: r).filter (fun p => decide (p.1 ≤ x)) = [] := by
        rw [List.filter_eq_nil_iff]
        intro q hq
        have : p.1 ≤ q.1 := by
          rcases List.mem_cons.1 hq with rfl | hq
          · exact le_refl _
          · exact (List.pairwise_cons.1 h).1 q hq
        simp only [decide_eq_true_eq, not_le]
        exact lt_of_lt_of_le (not_le.1 hp) this
      rw [this]; rfl

theorem holdFrom_mono {x y : K} (hxy : x ≤ y) : ∀ (tbl : List (K × K)) (d : K), tbl.Pairwise (fun a b => a.2 ≤ b.2) →
    (∀ p ∈ tbl, d ≤ p.2) → d ≤ holdFrom x d tbl ∧ holdFrom x d tbl ≤ holdFrom y d tbl
  | [], d, _, _ => ⟨le_refl _, le_refl _⟩
  | p :: r, d, h, hd => by
    obtain ⟨h1, h2⟩ := List.pairwise_cons.1 h
    have ih := holdFrom_mono hxy r p.2 h2 h1
    have hp := hd p (by simp)
    rw [holdFrom, holdFrom]
    by_cases hx : p.1 ≤ x
    · rw [if_pos hx, if_pos (hx.trans hxy)]
      exact ⟨hp.trans ih.1, ih.2⟩
    · rw [if_neg hx]
      refine ⟨le_refl _, ?_⟩
      split
      · exact hp.trans (holdFrom_mono (le_refl y) r p.2 h2 h1).1
      · exact le_refl _

theorem share_mono {tbl : List (K × K)} {L : K} (ht : ShareTable tbl L) {x y : K} (hxy : x ≤ y) :
    shareAt tbl x ≤ shareAt tbl y := by
  unfold shareAt
  rw [← holdFrom_eq x tbl 0 ht.strict.sorted, ← holdFrom_eq y tbl 0 ht.strict.sorted]
  refine (holdFrom_mono hxy tbl 0 ht.rising ?_).2
  intro p hp
  have hf := ht.first
  cases tbl with
  | nil => simp at hp
  | cons q r =>
    simp only [List.head?_cons, Option.some.injEq] at hf
    rcases List.mem_cons.1 hp with rfl | hp
    · rw [hf]
    · have := (List.pairwise_cons.1 ht.rising).1 p hp
      rw [hf] at this; exact this

theorem share_le_one {tbl : List (K × K)} {L : K} (ht : ShareTable tbl L) (x : K) : shareAt tbl x ≤ 1 := by
  unfold shareAt
  cases hf : (tbl.filter fun p => decide (p.1 ≤ x)).getLast? with
  | none => simp
  | some p =>
    have := List.mem_of_getLast? hf
    simpa using ht.le_one p (List.mem_filter.1 this).1

theorem share_zero {tbl : List (K × K)} {L : K} (ht : ShareTable tbl L) : shareAt tbl (0 : K) = 0 := by
  unfold shareAt
  have hf := ht.first
  cases tbl with
  | nil => simp at hf
  | cons q r =>
    simp only [List.head?_cons, Option.some.injEq] at hf
    have hs := (List.pairwise_cons.1 ht.strict).1
    have : (q :: r).filter (fun p => decide (p.1 ≤ 0)) = [q] := by
      rw [List.filter_cons_of_pos (by simp [hf])]
      congr 1
      rw [List.filter_eq_nil_iff]
      intro p hp
      have := hs p hp
      rw [hf] at this
      simpa using this
    rw [this, hf]; rfl

theorem share_nonneg {tbl : List (K × K)} {L : K} (ht : ShareTable tbl L) {x : K} (hx : 0 ≤ x) : 0 ≤ shareAt tbl x := by
  rw [← share_zero ht]; exact share_mono ht hx

theorem inTable_share {tbl : List (K × K)} {L : K} (ht : ShareTable tbl L) {x : K} : inTable x tbl = true ↔ 0 ≤ x ∧ x ≤ L := by
  have h1 := ht.first
  have h2 := ht.last
  unfold inTable
  rw [h1]
  cases hl : tbl.getLast? with
  | none => rw [hl] at h2; simp at h2
  | some b =>
    rw [hl] at h2
    simp only [Option.map_some, Option.some.injEq] at h2
    simp [h2]

theorem ufAt_share {tbl : List (K × K)} {L : K} (ht : ShareTable tbl L) {x : K} (h0 : 0 ≤ x) (h1 : x ≤ L) :
    ufAt tbl x = .ok (shareAt tbl x) := by
  unfold ufAt
  rw [if_pos ((inTable_share ht).2 ⟨h0, h1⟩), holdFrom_eq x tbl 0 ht.strict.sorted]; rfl

theorem holdAll_share {tbl : List (K × K)} {L : K} (ht : ShareTable tbl L) {xs : List K} (h : ∀ x ∈ xs, 0 ≤ x ∧ x ≤ L) :
    holdAll xs tbl = .ok (xs.map (shareAt tbl)) := by
  unfold holdAll
  rw [if_pos]
  · congr 1
    apply List.map_congr_left
    intro x _
    rw [holdFrom_eq x tbl 0 ht.strict.sorted]; rfl
  · rw [List.all_eq_true]
    intro x hx
    exact (inTable_share ht).2 (h x hx)

/-- The table in the code is one, up to 1201 miles. -/
theorem ufTable_ok : ShareTable (ufTable : List (K × K)) 1201 := by
  have hchain : List.IsChain (fun a b : ℕ × ℕ => a.1 < b.1 ∧ a.2 ≤ b.2) ufRaw := by decide +kernel
  have hpw : ufRaw.Pairwise (fun a b : ℕ × ℕ => a.1 < b.1 ∧ a.2 ≤ b.2) := by
    have : IsTrans (ℕ × ℕ) (fun a b : ℕ × ℕ => a.1 < b.1 ∧ a.2 ≤ b.2) := ⟨fun a b c h1 h2 => ⟨h1.1.trans h2.1, h1.2.trans h2.2⟩⟩
    exact List.isChain_iff_pairwise.1 hchain
  have hD : (0 : K) < ((10 ^ 18 : ℕ) : K) := by positivity
  refine ⟨?_, ?_, ?_, ?_, ?_⟩
  · show (ufRaw.map _).Pairwise _
    rw [List.pairwise_map]
    exact hpw.imp fun h => Nat.cast_lt.2 h.1
  · show (ufRaw.map _).Pairwise _
    rw [List.pairwise_map]
    exact hpw.imp fun h => div_le_div_of_nonneg_right (Nat.cast_le.2 h.2) hD.le
  · have : ufRaw.head? = some (0, 0) := by decide +kernel
    rw [ufTable, List.head?_map, this]; simp
  · have : ufRaw.getLast?.map Prod.fst = some 1201 := by decide +kernel
    rw [ufTable, List.getLast?_map, Option.map_map]
    cases hl : ufRaw.getLast? with
    | none => rw [hl] at this; simp at this
    | some b =>
      rw [hl] at this
      simp only [Option.map_some, Option.some.injEq] at this ⊢
      show ((b.1 : ℕ) : K) = 1201
      rw [this]; norm_num
  · intro p hp
    obtain ⟨q, hq, rfl⟩ := List.mem_map.1 hp
    have hall : ∀ q ∈ ufRaw, q.2 ≤ 10 ^ 18 := by decide +kernel
    rw [div_le_one hD]
    exact_mod_cast hall q hq

/-! ### Arrays -/

theorem diff_range_map (f : ℕ → K) : ∀ N a, diff ((List.range' a (N + 1)).map f) = (List.range' a N).map fun k => f (k + 1) - f k
  | 0, a => rfl
  | N + 1, a => by
    have ih := diff_range_map f N (a + 1)
    rw [List.range'_succ, List.range'_succ, List.map_cons, List.map_cons, diff]
    rw [List.range'_succ, List.map_cons] at ih
    rw [ih, List.range'_succ, List.map_cons]

theorem fromEnd_range (f : ℕ → K) (N j : ℕ) (hj : 1 ≤ j) (hjN : j ≤ N) :
    fromEnd ((List.range' 0 N).map f) j = .ok (f (N - j)) := by
  unfold fromEnd pyGet?
  rw [if_neg (by omega), if_pos (by simp; omega)]
  have : (((List.range' 0 N).map f).length + -(j : Int)).toNat = N - j := by simp; omega
  rw [this]
  simp [show N - j < N by omega]

theorem maxOf_range {f : ℕ → K} {N j : ℕ} (hj : j < N) (h : ∀ k < N, f k ≤ f j) : maxOf ((List.range' 0 N).map f) = f j := by
  apply le_antisymm
  · have hm := maxOf_mem ((List.range' 0 N).map f) (by simp; omega)
    obtain ⟨k, hk, he⟩ := List.mem_map.1 hm
    rw [← he]
    exact h k (by simpa using (List.mem_range'_1.1 hk).2)
  · apply maxOf_ge
    exact List.mem_map.2 ⟨j, List.mem_range'_1.2 ⟨by omega, by omega⟩, rfl⟩

theorem npSum_sum (l : List K) : npSum l = l.sum := by
  unfold npSum
  rw [List.sum_eq_foldl]

/-- Sum over the entries `a ≤ k < a + N` of `x (f (k + 1) - f k)`. -/
theorem sum_telescope (f : ℕ → K) (x : K) : ∀ N a, ((List.range' a N).map fun k => x * (f (k + 1) - f k)).sum = x * (f (a + N) - f a)
  | 0, a => by simp
  | N + 1, a => by
    rw [List.range'_succ, List.map_cons, List.sum_cons, sum_telescope f x N (a + 1)]
    have : a + 1 + N = a + (N + 1) := by omega
    rw [this]; ring

/-! ### One cycle -/

/-- The situation on one of the two cycles: `n` whole charge depleting cycles of `d` miles with `e` kWh per mile each, then one during which
the usable energy of the battery runs out. -/
structure _root_.Fastsim.Spec.PhevCase (c : LabelConst K) (tbl : List (K × K)) (veh : LabelVeh K) (cd cs : LabelRun K) (L d e : K) (n : ℕ) :
    Prop where
  tbl : ShareTable tbl L
  gge : 0 < c.kwhPerGge
  adj0 : 0 ≤ c.maxEpaAdj
  adj1 : c.maxEpaAdj < 1
  cdDist : cd.distMi = d
  csDist : cs.distMi = d
  dist : 0 < d
  cdKwh : cd.kwhPerMi = e
  kwh : 0 < e
  whole : 1 ≤ n
  more : n * (e * d) < (veh.maxSoc - veh.minSoc) * veh.essMaxKwh
  less : (veh.maxSoc - veh.minSoc) * veh.essMaxKwh < (n + 1) * (e * d)
  fuel : 0 < cs.fsKwh
  reach : (n + 1) * d ≤ L

/-- Energy per mile adjusted by coefficients `i`, `s`, by no more than the greatest allowed factor. -/
def _root_.Fastsim.Spec.adjusted (c : LabelConst K) (i s x : K) : K := min (i * c.kwhPerGge + s * x) (x / (1 - c.maxEpaAdj))

theorem adjIterKwh_eq {c : LabelConst K} (hg : 0 < c.kwhPerGge) (ha0 : 0 ≤ c.maxEpaAdj) (ha1 : c.maxEpaAdj < 1) {i s x : K} (hi : 0 < i)
    (hs : 1 < s) (hx : 0 < x) : adjIterKwh c i s x = adjusted c i s x ∧ x ≤ adjusted c i s x ∧ adjusted c i s x ≤ x / (1 - c.maxEpaAdj) := by
  have := adjKwh_bounds hg ha0 ha1 hi hs hx
  simp only at this
  unfold adjIterKwh adjusted
  rw [if_neg hx.ne', mul_comm (1 - c.maxEpaAdj), this.2.2]
  rw [this.2.2] at this
  exact ⟨rfl, this.1, this.2.1⟩

/-- Entries of `adjIterCdMiles`. -/
def milesAt (q q' : K) (n : ℕ) (k : ℕ) : K := if k ≤ n then k * q else if k = n + 1 then n * q + q' else 0

theorem cdMilesLoop_eq {adjKwh : List K} {e t d : K} {n : ℕ} {q q' : K} (hq : ∀ k, 1 ≤ k → k ≤ n → e * d / adjKwh.getD k 0 = q)
    (hq' : t * d / adjKwh.getD (n + 1) 0 = q') : ∀ (k a : ℕ) (prev : K), (a = 0 ∨ 0 < a ∧ prev = milesAt q q' n (a - 1)) →
    cdMilesLoop adjKwh e t d n k a prev = (List.range' a k).map (milesAt q q' n)
  | 0, a, prev, _ => rfl
  | k + 1, a, prev, h => by
    rw [List.range'_succ, List.map_cons, cdMilesLoop]
    have hx : (if a = 0 then 0 else if a ≤ n then prev + e * d / adjKwh.getD a 0
        else if a = n + 1 then prev + t * d / adjKwh.getD a 0 else 0) = milesAt q q' n a := by
      rcases h with rfl | ⟨h0, rfl⟩
      · simp [milesAt]
      · rw [if_neg (by omega)]
        by_cases h1 : a ≤ n
        · rw [if_pos h1, hq a h0 h1, milesAt, if_pos (by omega), milesAt, if_pos h1]
          obtain ⟨b, rfl⟩ : ∃ b, a = b + 1 := ⟨a - 1, by omega⟩
          push_cast
          ring
        · rw [if_neg h1]
          by_cases h2 : a = n + 1
          · rw [if_pos h2, h2, hq', milesAt, if_pos (by omega), milesAt, if_neg (by omega), if_pos rfl]
            simp
          · rw [if_neg h2, milesAt, if_neg h1, if_neg h2]
    simp only [hx]
    rw [cdMilesLoop_eq hq hq' k (a + 1) _ (Or.inr ⟨by omega, by simp⟩)]

/-- Fuel per mile adjusted by coefficients `i`, `s`, by no more than the greatest allowed factor. -/
def _root_.Fastsim.Spec.adjustedGpm (c : LabelConst K) (i s g : K) : K := min (i + s * g) (g / (1 - c.maxEpaAdj))

theorem adjIterMpg_inv {c : LabelConst K} (hg : 0 < c.kwhPerGge) (ha1 : c.maxEpaAdj < 1) {i s d f : K} (hi : 0 < i) (hs : 1 < s) (hd : 0 < d)
    (hf : 0 < f) : 1 / adjIterMpg c i s d f = adjustedGpm c i s (f / c.kwhPerGge / d) ∧ 0 < adjIterMpg c i s d f := by
  have h1 : 0 < 1 - c.maxEpaAdj := by linarith
  have hm : 0 < d / (f / c.kwhPerGge) := div_pos hd (div_pos hf hg)
  have hA := (adjMpg_lt hi hs hm).1
  have hB : 0 < d / (f / c.kwhPerGge) * (1 - c.maxEpaAdj) := mul_pos hm h1
  have eA : 1 / adjMpg i s (d / (f / c.kwhPerGge)) = i + s * (f / c.kwhPerGge / d) := by
    rw [adjMpg_inv]; field_simp
  have eB : 1 / (d / (f / c.kwhPerGge) * (1 - c.maxEpaAdj)) = f / c.kwhPerGge / d / (1 - c.maxEpaAdj) := by
    field_simp
  unfold adjIterMpg adjustedGpm
  refine ⟨?_, lt_of_lt_of_le hA (le_max_left _ _)⟩
  rcases le_total (adjMpg i s (d / (f / c.kwhPerGge))) (d / (f / c.kwhPerGge) * (1 - c.maxEpaAdj)) with h | h
  · rw [max_eq_right h, eB, min_eq_right]
    rw [← eA, ← eB]
    exact one_div_le_one_div_of_le hA h
  · rw [max_eq_left h, eA, min_eq_left]
    rw [← eA, ← eB]
    exact one_div_le_one_div_of_le hB h

theorem quot_bounds {e d E a : K} (he : 0 < e) (hd : 0 < d) (ha : 0 < a) (h1 : e ≤ E) (h2 : E ≤ e / a) :
    0 < E ∧ 0 < e * d / E ∧ e * d / E ≤ d ∧ a * d ≤ e * d / E := by
  have hE : 0 < E := lt_of_lt_of_le he h1
  have h3 : E * a ≤ e := (le_div_iff₀ ha).1 h2
  refine ⟨hE, div_pos (mul_pos he hd) hE, ?_, ?_⟩
  · rw [div_le_iff₀ hE, mul_comm]; exact mul_le_mul_of_nonneg_left h1 hd.le
  · rw [le_div_iff₀ hE]
    calc a * d * E = E * a * d := by ring
      _ ≤ e * d := mul_le_mul_of_nonneg_right h3 hd.le

set_option maxHeartbeats 4000000 in
/-- Everything the loop body computes in the ordinary situation. -/
theorem phevCalc_eq {c : LabelConst K} {tbl : List (K × K)} {veh : LabelVeh K} {cd cs tr : LabelRun K} {L d e i s buffer : K} {n : ℕ}
    {run : K → Except PyErr (LabelRun K)} (h : PhevCase c tbl veh cd cs L d e n) (hi : 0 < i) (hs : 1 < s)
    (htr : run (veh.maxSoc - n * (cd.firstSoc - cd.lastSoc)) = .ok tr) (hcs : run (veh.minSoc + 1 / 100) = .ok cs)
    (hbuf : 1 / 100 ≤ veh.maxSoc - buffer - cs.minSoc) {x M M' U V A B : K}
    (hx : x = (veh.maxSoc - veh.minSoc) * veh.essMaxKwh / (e * d) - n)
    (hM : M = n * (e * d / adjusted c i s e)) (hM' : M' = M + e * x * d / adjusted c i s (e * x))
    (hU : U = shareAt tbl ((n + 1) * d)) (hV : V = shareAt tbl (n * d))
    (hA : A = shareAt tbl M') (hB : B = shareAt tbl M) :
    0 < x ∧ x < 1 ∧ (1 - c.maxEpaAdj) * ((n + 1) * d) ≤ M' ∧ M' ≤ (n + 1) * d ∧ 0 ≤ V ∧ V ≤ U ∧ U ≤ 1 ∧ 0 ≤ B ∧ B ≤ A ∧ A ≤ 1 ∧
    phevCalc c tbl veh i s buffer cd run = .ok {
      labMpgge := 1 / (U / (U / (cs.fsKwh / c.kwhPerGge * (1 - x) * (U - V) / d)) + (1 - U) / (d / (cs.fsKwh / c.kwhPerGge)))
      labKwhPerMile := (e * V + e * x * (U - V)) / U
      adjCdMiles := M'
      adjCdMpgge := 1 / (1 / adjIterMpg c i s d (cs.fsKwh * (1 - x)) * (A - B)) * A
      adjCsMpgge := 1 / (1 / adjIterMpg c i s d cs.fsKwh * (1 - A)) * (1 - A)
      adjMpgge := 1 / (A / (1 / (1 / adjIterMpg c i s d (cs.fsKwh * (1 - x)) * (A - B)) * A) +
        (1 - A) / (1 / (1 / adjIterMpg c i s d cs.fsKwh * (1 - A)) * (1 - A)))
      adjKwhPerMile := (adjusted c i s e * B + adjusted c i s (e * x) * (A - B)) / A / veh.chgEff
      adjEssKwhPerMile := (adjusted c i s e * B + adjusted c i s (e * x) * (A - B)) / A } := by
  have hed : 0 < e * d := mul_pos h.kwh h.dist
  have h1a : 0 < 1 - c.maxEpaAdj := by linarith [h.adj1]
  have hn0 : (0 : K) < n := by exact_mod_cast h.whole
  set W := (veh.maxSoc - veh.minSoc) * veh.essMaxKwh with hW
  have hcyc : W / e / d = n + x := by rw [hx, div_div]; ring
  have hx0 : 0 < x := by
    rw [hx]
    have : (n : K) < W / (e * d) := (lt_div_iff₀ hed).2 h.more
    linarith
  have hx1 : x < 1 := by
    rw [hx]
    have : W / (e * d) < n + 1 := (div_lt_iff₀ hed).2 h.less
    linarith
  have hfl : ⌊W / e / d⌋ = (n : ℤ) := by
    rw [hcyc, Int.floor_eq_iff]; push_cast; exact ⟨by linarith, by linarith⟩
  have hce : ⌈W / e / d⌉ = (n : ℤ) + 1 := by
    rw [hcyc, Int.ceil_eq_iff]; push_cast; exact ⟨by linarith, by linarith⟩
  have hfl2 : ⌊W / e / d / (n : K)⌋ = 1 := by
    rw [hcyc, Int.floor_eq_iff]
    have hn1 : (1 : K) ≤ n := by exact_mod_cast h.whole
    constructor
    · rw [le_div_iff₀ hn0]; push_cast; linarith
    · rw [div_lt_iff₀ hn0]; push_cast; linarith
  have hex : 0 < e * x := mul_pos h.kwh hx0
  obtain ⟨ae, be1, be2⟩ := adjIterKwh_eq h.gge h.adj0 h.adj1 hi hs h.kwh
  obtain ⟨at', bt1, bt2⟩ := adjIterKwh_eq h.gge h.adj0 h.adj1 hi hs hex
  set E := adjusted c i s e with hE
  set T := adjusted c i s (e * x) with hT
  obtain ⟨hE0, hq0, hqd, hqa⟩ := quot_bounds h.kwh h.dist h1a be1 be2
  obtain ⟨hT0, hq0', hqd', hqa'⟩ := quot_bounds hex h.dist h1a bt1 bt2
  have hM0 : 0 ≤ M := by rw [hM]; positivity
  have hMM : M ≤ M' := by rw [hM']; linarith
  have hMd : M ≤ n * d := by rw [hM]; exact mul_le_mul_of_nonneg_left hqd hn0.le
  have hM'd : M' ≤ (n + 1) * d := by rw [hM']; linarith
  have hM'a : (1 - c.maxEpaAdj) * ((n + 1) * d) ≤ M' := by
    rw [hM', hM]
    have := mul_le_mul_of_nonneg_left hqa hn0.le
    linarith
  have hnd : 0 ≤ (n : K) * d := by have := h.dist; positivity
  have hV0 : 0 ≤ V := by rw [hV]; exact share_nonneg h.tbl hnd
  have hVU : V ≤ U := by rw [hV, hU]; exact share_mono h.tbl (by linarith [h.dist])
  have hU1 : U ≤ 1 := by rw [hU]; exact share_le_one h.tbl _
  have hB0 : 0 ≤ B := by rw [hB]; exact share_nonneg h.tbl hM0
  have hBA : B ≤ A := by rw [hB, hA]; exact share_mono h.tbl hMM
  have hA1 : A ≤ 1 := by rw [hA]; exact share_le_one h.tbl _
  refine ⟨hx0, hx1, hM'a, hM'd, hV0, hVU, hU1, hB0, hBA, hA1, ?_⟩
  -- the shares of the laboratory cycles
  set f : ℕ → K := fun k => shareAt tbl ((k : K) * d) with hf
  have hlab : holdAll ((List.range (((n : ℤ) + 1) + 1).toNat).map fun k : ℕ => (k : K) * d) tbl =
      .ok ((List.range' 0 (n + 2)).map f) := by
    have : (((n : ℤ) + 1) + 1).toNat = n + 2 := by omega
    rw [this, holdAll_share h.tbl, List.map_map, List.range_eq_range']
    · rfl
    · intro y hy
      obtain ⟨k, hk, rfl⟩ := List.mem_map.1 hy
      have hk' : (k : K) ≤ n + 1 := by
        have := List.mem_range.1 hk
        exact_mod_cast (by omega : k ≤ n + 1)
      refine ⟨mul_nonneg (Nat.cast_nonneg _) h.dist.le, ?_⟩
      exact (mul_le_mul_of_nonneg_right hk' h.dist.le).trans h.reach
  have hfU : f (n + 1) = U := by rw [hf, hU]; simp
  have hfV : f n = V := by rw [hf, hV]
  have hf0 : f 0 = 0 := by rw [hf]; simp only [Nat.cast_zero, zero_mul]; exact share_zero h.tbl
  have hfmono : ∀ k < n + 2, f k ≤ f (n + 1) := by
    intro k hk
    apply share_mono h.tbl
    apply mul_le_mul_of_nonneg_right _ h.dist.le
    exact_mod_cast (by omega : k ≤ n + 1)
  have hdl : fromEnd (diff ((List.range' 0 (n + 2)).map f)) 1 = .ok (U - V) := by
    rw [diff_range_map f (n + 1) 0, fromEnd_range _ _ _ (le_refl _) (by omega)]
    simp only [Nat.add_sub_cancel]
    rw [hfU, hfV]
  have hmaxU : maxOf ((List.range' 0 (n + 2)).map f) = U := by
    rw [maxOf_range (j := n + 1) (by omega) hfmono, hfU]
  have hmidlen : (List.replicate n e ++ [e * x]).length = (diff ((List.range' 0 (n + 2)).map f)).length := by
    rw [diff_range_map f (n + 1) 0]; simp
  have hmul : npMul (List.replicate n e ++ [e * x]) (diff ((List.range' 0 (n + 2)).map f)) =
      .ok (((List.range' 0 n).map fun k => e * (f (k + 1) - f k)) ++ [e * x * (U - V)]) := by
    unfold npMul
    rw [if_pos hmidlen, diff_range_map f (n + 1) 0]
    congr 1
    have : (List.range' 0 (n + 1)) = List.range' 0 n ++ [n] := by
      rw [List.range'_concat]; simp
    rw [this, List.map_append, List.zipWith_append (by simp)]
    congr 1
    · apply List.ext_getElem (by simp)
      intro j h1 h2
      simp
    · simp [hfU, hfV]
  have hsum : npSum (0 :: (((List.range' 0 n).map fun k => e * (f (k + 1) - f k)) ++ [e * x * (U - V)]) ++ [0]) =
      e * V + e * x * (U - V) := by
    rw [npSum_sum]
    simp only [List.cons_append, List.sum_cons, List.sum_append, List.sum_nil, sum_telescope f e n 0]
    rw [Nat.zero_add, hfV, hf0]; ring
  -- the adjusted miles
  set adjKwh := (0 :: (List.replicate n e ++ [e * x]) ++ [0]).map (adjIterKwh c i s) with hadj
  have hadjE : adjKwh = 0 :: (List.replicate n E ++ [T] ++ [0]) := by
    rw [hadj]
    simp only [List.cons_append, List.map_cons, List.map_append, List.map_replicate, List.map_nil, ae, at']
    have : adjIterKwh c i s 0 = 0 := by unfold adjIterKwh; rw [if_pos rfl]
    rw [this]
  have hg1 : ∀ k, 1 ≤ k → k ≤ n → e * d / adjKwh.getD k 0 = e * d / E := by
    intro k h1 h2
    rw [hadjE]
    obtain ⟨j, rfl⟩ : ∃ j, k = j + 1 := ⟨k - 1, by omega⟩
    congr 1
    rw [List.getD_cons_succ, List.append_assoc, List.getD_eq_getElem?_getD, List.getElem?_append_left (by simp; omega)]
    simp [show j < n by omega]
  have hg2 : e * x * d / adjKwh.getD (n + 1) 0 = e * x * d / T := by
    rw [hadjE]
    congr 1
    rw [List.getD_cons_succ, List.append_assoc, List.getD_eq_getElem?_getD, List.getElem?_append_right (by simp)]
    simp
  set g := milesAt (e * d / E) (e * x * d / T) n with hgdef
  have hmiles : cdMilesLoop adjKwh e (e * x) d n (((n : ℤ) + 1).toNat + 2) 0 0 = (List.range' 0 (n + 3)).map g := by
    have : ((n : ℤ) + 1).toNat + 2 = n + 3 := by omega
    rw [this, cdMilesLoop_eq hg1 hg2 _ _ _ (Or.inl rfl)]
  have hgn : g n = M := by rw [hgdef, milesAt, if_pos (le_refl _), hM]
  have hgn1 : g (n + 1) = M' := by
    rw [hgdef, milesAt, if_neg (by omega), if_pos rfl, hM', hM]
  have hgn2 : g (n + 2) = 0 := by rw [hgdef, milesAt, if_neg (by omega), if_neg (by omega)]
  have hg0 : g 0 = 0 := by rw [hgdef, milesAt, if_pos (by omega)]; simp
  have hgle : ∀ k < n + 3, 0 ≤ g k ∧ g k ≤ g (n + 1) := by
    intro k hk
    rw [hgn1]
    by_cases h1 : k ≤ n
    · have : g k = k * (e * d / E) := by rw [hgdef, milesAt, if_pos h1]
      rw [this]
      refine ⟨by positivity, le_trans ?_ hMM⟩
      rw [hM]
      exact mul_le_mul_of_nonneg_right (by exact_mod_cast h1) hq0.le
    · rcases (by omega : k = n + 1 ∨ k = n + 2) with rfl | rfl
      · rw [hgn1]; exact ⟨hM0.trans hMM, le_refl _⟩
      · rw [hgn2]; exact ⟨le_refl _, hM0.trans hMM⟩
  have hmaxM : maxOf ((List.range' 0 (n + 3)).map g) = M' := by
    rw [maxOf_range (j := n + 1) (by omega) (fun k hk => (hgle k hk).2), hgn1]
  set F : ℕ → K := fun k => shareAt tbl (g k) with hF
  have hufs : holdAll ((List.range' 0 (n + 3)).map g) tbl = .ok ((List.range' 0 (n + 3)).map F) := by
    rw [holdAll_share h.tbl, List.map_map]
    · rfl
    · intro y hy
      obtain ⟨k, hk, rfl⟩ := List.mem_map.1 hy
      have := hgle k (by have := (List.mem_range'_1.1 hk).2; omega)
      refine ⟨this.1, this.2.trans ?_⟩
      rw [hgn1]
      exact hM'd.trans h.reach
  have hFA : F (n + 1) = A := by show shareAt tbl (g (n + 1)) = A; rw [hgn1, hA]
  have hFB : F n = B := by show shareAt tbl (g n) = B; rw [hgn, hB]
  have hF0 : F 0 = 0 := by show shareAt tbl (g 0) = 0; rw [hg0]; exact share_zero h.tbl
  have hdA : fromEnd (diff ((List.range' 0 (n + 3)).map F)) 2 = .ok (A - B) := by
    rw [diff_range_map F (n + 2) 0, fromEnd_range _ _ _ (by omega) (by omega)]
    simp only [Nat.add_sub_cancel]
    rw [hFA, hFB]
  have huA : fromEnd ((List.range' 0 (n + 3)).map F) 2 = .ok A := by
    rw [fromEnd_range _ _ _ (by omega) (by omega)]
    have : n + 3 - 2 = n + 1 := by omega
    rw [this, hFA]
  have hmaxA : maxOf ((List.range' 0 (n + 3)).map F) = A := by
    rw [maxOf_range (j := n + 1) (by omega), hFA]
    intro k hk
    exact share_mono h.tbl (hgle k hk).2
  obtain ⟨z, hmulA⟩ : ∃ z, npMul adjKwh (0 :: diff ((List.range' 0 (n + 3)).map F)) =
      .ok (0 :: (((List.range' 0 n).map fun k => E * (F (k + 1) - F k)) ++ [T * (A - B)] ++ [0 * z])) := by
    refine ⟨F (n + 2) - F (n + 1), ?_⟩
    unfold npMul
    rw [hadjE, diff_range_map F (n + 2) 0, if_pos (by simp)]
    congr 1
    have h2 : (List.range' 0 (n + 2)) = List.range' 0 n ++ [n] ++ [n + 1] := by
      rw [List.range'_concat, List.range'_concat]; simp
    rw [h2, List.map_append, List.map_append, List.zipWith_cons_cons, List.zipWith_append (by simp), List.zipWith_append (by simp)]
    congr 1
    · ring
    · congr 1
      congr 1
      · apply List.ext_getElem (by simp)
        intro j h1 h2
        simp
      · simp [hFA, hFB]
  have hsumA : npSum (0 :: (((List.range' 0 n).map fun k => E * (F (k + 1) - F k)) ++ [T * (A - B)] ++ [0 * z])) =
      E * B + T * (A - B) := by
    rw [npSum_sum]
    simp only [List.sum_cons, List.sum_append, List.sum_nil, sum_telescope F E n 0]
    rw [Nat.zero_add, hFB, hF0]; ring
  have hufU : ufAt tbl ((((n : ℤ) + 1 : ℤ) : K) * d) = .ok U := by
    have : (((n : ℤ) + 1 : ℤ) : K) = n + 1 := by push_cast; rfl
    rw [this, ufAt_share h.tbl (by have := h.dist; positivity) h.reach, hU]
  have hufA : ufAt tbl M' = .ok A := by
    rw [ufAt_share h.tbl (hM0.trans hMM) (hM'd.trans h.reach), hA]
  have hnever : ¬ (veh.maxSoc - buffer - cs.minSoc < 1 / 100) := not_lt.2 hbuf
  have hfrac : W / e / d - ((n : ℤ) : K) * ((1 : ℤ) : K) = x := by rw [hcyc]; push_cast; ring
  unfold phevCalc
  simp only [h.cdKwh, h.cdDist, ← hW, hfl, hce, Int.cast_natCast, hfl2]
  rw [if_neg (by have := h.whole; omega)]
  simp only [Int.cast_natCast] at hfrac
  simp only [hfrac]
  rw [hlab]
  show (run (veh.maxSoc - (n : K) * (cd.firstSoc - cd.lastSoc)) >>= _) = _
  rw [htr]
  show (run (veh.minSoc + 1 / 100) >>= _) = _
  rw [hcs]
  show (fromEnd (diff ((List.range' 0 (n + 2)).map f)) 1 >>= _) = _
  rw [hdl]
  simp only [if_neg hnever, h.csDist]
  show (ufAt tbl ((((n : ℤ) + 1 : ℤ) : K) * d) >>= _) = _
  rw [hufU]
  show (npMul (List.replicate (n : ℤ).toNat e ++ [e * x]) (diff ((List.range' 0 (n + 2)).map f)) >>= _) = _
  rw [Int.toNat_natCast, hmul]
  show (holdAll (cdMilesLoop adjKwh e (e * x) d (n : ℤ).toNat (((n : ℤ) + 1).toNat + 2) 0 0) tbl >>= _) = _
  rw [Int.toNat_natCast, hmiles, hufs]
  show (fromEnd (diff ((List.range' 0 (n + 3)).map F)) 2 >>= _) = _
  rw [hdA]
  show (fromEnd ((List.range' 0 (n + 3)).map F) 2 >>= _) = _
  rw [huA]
  show (npMul adjKwh (0 :: diff ((List.range' 0 (n + 3)).map F)) >>= _) = _
  rw [hmulA]
  show (ufAt tbl (maxOf ((List.range' 0 (n + 3)).map g)) >>= _) = _
  rw [hmaxM, hufA]
  show Except.ok _ = Except.ok _
  rw [hmaxU, hmaxA, hsumA, hsum]

/-- The battery range on one cycle: `n` whole cycles of `d` miles at `e` kWh per mile and one at `t` kWh per mile, each shortened by the
factor by which its energy use is adjusted. -/
def _root_.Fastsim.Spec.wholeMiles (c : LabelConst K) (i s d e : K) (n : ℕ) : K := n * (e * d / adjusted c i s e)
def _root_.Fastsim.Spec.rangeMiles (c : LabelConst K) (i s d e t : K) (n : ℕ) : K :=
  wholeMiles c i s d e n + t * d / adjusted c i s t

/-- Shares at the ends of the last cycles differ, so that none of the weights is zero. -/
structure _root_.Fastsim.Spec.SharesRise (c : LabelConst K) (tbl : List (K × K)) (i s d e t : K) (n : ℕ) : Prop where
  lab : shareAt tbl (n * d) < shareAt tbl ((n + 1) * d)
  adj : shareAt tbl (wholeMiles c i s d e n) < shareAt tbl (rangeMiles c i s d e t n)
  adj1 : shareAt tbl (rangeMiles c i s d e t n) < 1

/-- What the label has to report for one cycle on which the engine takes `g` gallons per mile when the charge is sustained, the battery
`e` kWh per mile when it is depleted, and during the cycle in which depleting ends the share `x` of both ways of driving is
electric. -/
structure _root_.Fastsim.Spec.PhevFigures (c : LabelConst K) (tbl : List (K × K)) (chgEff i s d e x g : K) (n : ℕ) (r : PhevCalc K) : Prop where
  /-- Fuel: the transition cycle and all driving beyond the range, weighted by their shares. -/
  labMpg : 1 / r.labMpgge = (shareAt tbl ((n + 1) * d) - shareAt tbl (n * d)) * ((1 - x) * g) + (1 - shareAt tbl ((n + 1) * d)) * g
  labMpg_pos : 0 < r.labMpgge
  /-- Electricity, per mile driven within the range. -/
  labKwh : r.labKwhPerMile * shareAt tbl ((n + 1) * d) =
    shareAt tbl (n * d) * e + (shareAt tbl ((n + 1) * d) - shareAt tbl (n * d)) * (x * e)
  labKwh_range : x * e ≤ r.labKwhPerMile ∧ r.labKwhPerMile ≤ e
  /-- Adjusted range: shorter than the simulated one, by no more than the greatest allowed factor. -/
  miles : r.adjCdMiles = rangeMiles c i s d e (x * e) n
  miles_range : (1 - c.maxEpaAdj) * ((n + 1) * d) ≤ r.adjCdMiles ∧ r.adjCdMiles ≤ (n + 1) * d
  adjMpg : 1 / r.adjMpgge =
    (shareAt tbl r.adjCdMiles - shareAt tbl (wholeMiles c i s d e n)) * adjustedGpm c i s ((1 - x) * g) +
      (1 - shareAt tbl r.adjCdMiles) * adjustedGpm c i s g
  adjMpg_pos : 0 < r.adjMpgge
  adjCs : 1 / r.adjCsMpgge = adjustedGpm c i s g
  adjCd : 1 / r.adjCdMpgge * shareAt tbl r.adjCdMiles =
    (shareAt tbl r.adjCdMiles - shareAt tbl (wholeMiles c i s d e n)) * adjustedGpm c i s ((1 - x) * g)
  adjEss : r.adjEssKwhPerMile * shareAt tbl r.adjCdMiles =
    shareAt tbl (wholeMiles c i s d e n) * adjusted c i s e +
      (shareAt tbl r.adjCdMiles - shareAt tbl (wholeMiles c i s d e n)) * adjusted c i s (x * e)
  adjWall : r.adjKwhPerMile = r.adjEssKwhPerMile / chgEff

theorem adjustedGpm_pos {c : LabelConst K} (ha : c.maxEpaAdj < 1) {i s g : K} (hi : 0 < i) (hs : 1 < s) (hg : 0 < g) :
    0 < adjustedGpm c i s g := by
  unfold adjustedGpm
  have := mul_pos (one_pos.trans hs) hg
  exact lt_min (by linarith) (div_pos hg (by linarith))

theorem kwh_le_aux {e x U V : K} (he : 0 < e) (hx : 0 < 1 - x) (hV : 0 ≤ V) : x * e * U ≤ e * V + e * x * (U - V) := by
  have : 0 ≤ e * V * (1 - x) := mul_nonneg (mul_nonneg he.le hV) hx.le
  linarith

theorem kwh_ge_aux {e x U V : K} (he : 0 < e) (hx : 0 < 1 - x) (hV : V ≤ U) : e * V + e * x * (U - V) ≤ e * U := by
  have : 0 ≤ e * (U - V) * (1 - x) := mul_nonneg (mul_nonneg he.le (by linarith)) hx.le
  linarith

set_option maxHeartbeats 4000000 in
/-- **C56, one cycle.** -/
theorem C56_cycle {c : LabelConst K} {tbl : List (K × K)} {veh : LabelVeh K} {cd cs tr : LabelRun K} {L d e i s buffer : K} {n : ℕ}
    {run : K → Except PyErr (LabelRun K)} (h : PhevCase c tbl veh cd cs L d e n) (hi : 0 < i) (hs : 1 < s)
    (htr : run (veh.maxSoc - n * (cd.firstSoc - cd.lastSoc)) = .ok tr) (hcs : run (veh.minSoc + 1 / 100) = .ok cs)
    (hbuf : 1 / 100 ≤ veh.maxSoc - buffer - cs.minSoc) {x : K}
    (hx : (n + x) * (e * d) = (veh.maxSoc - veh.minSoc) * veh.essMaxKwh) (hsh : SharesRise c tbl i s d e (x * e) n) :
    ∃ r, phevCalc c tbl veh i s buffer cd run = .ok r ∧
      PhevFigures c tbl veh.chgEff i s d e x (cs.fsKwh / c.kwhPerGge / d) n r := by
  have hed : 0 < e * d := mul_pos h.kwh h.dist
  have hx' : x = (veh.maxSoc - veh.minSoc) * veh.essMaxKwh / (e * d) - n := by
    rw [← hx, mul_div_assoc, div_self hed.ne']; ring
  obtain ⟨hsl, hsa, hsb⟩ := hsh
  unfold rangeMiles at hsa hsb
  rw [mul_comm x e] at hsa hsb
  obtain ⟨hx0, hx1, m1, m2, v0, vu, u1, b0, ba, a1, heq⟩ :=
    phevCalc_eq (M := wholeMiles c i s d e n) h hi hs htr hcs hbuf hx' rfl rfl rfl rfl rfl rfl
  set U := shareAt tbl ((n + 1) * d) with hU
  set V := shareAt tbl (n * d) with hV
  set M := wholeMiles c i s d e n with hM
  set M' := M + e * x * d / adjusted c i s (e * x) with hM'
  set A := shareAt tbl M' with hA
  set B := shareAt tbl M with hB
  set g := cs.fsKwh / c.kwhPerGge / d with hg
  have hg0 : 0 < g := div_pos (div_pos h.fuel h.gge) h.dist
  have hU0 : 0 < U := lt_of_le_of_lt v0 hsl
  have hA0 : 0 < A := lt_of_le_of_lt b0 hsa
  have h1x : 0 < 1 - x := by linarith
  have hgal : cs.fsKwh / c.kwhPerGge = g * d := by rw [hg]; field_simp [h.dist.ne']
  obtain ⟨eT, pT⟩ := adjIterMpg_inv h.gge h.adj1 hi hs h.dist (mul_pos h.fuel h1x)
  obtain ⟨eC, pC⟩ := adjIterMpg_inv h.gge h.adj1 hi hs h.dist h.fuel
  have hgx : cs.fsKwh * (1 - x) / c.kwhPerGge / d = (1 - x) * g := by rw [hg]; ring
  rw [hgx] at eT
  have gT := adjustedGpm_pos (c := c) (g := (1 - x) * g) h.adj1 hi hs (mul_pos h1x hg0)
  have gC := adjustedGpm_pos (c := c) (g := g) h.adj1 hi hs hg0
  rw [eT, eC] at heq
  rw [← hg] at heq
  have hlab : U / (U / (cs.fsKwh / c.kwhPerGge * (1 - x) * (U - V) / d)) + (1 - U) / (d / (cs.fsKwh / c.kwhPerGge)) =
      (U - V) * ((1 - x) * g) + (1 - U) * g := by
    have hd := h.dist.ne'
    have hUV : U - V ≠ 0 := by have : 0 < U - V := by linarith
                               exact this.ne'
    rw [hgal]
    have := hg0.ne'; have := hU0.ne'; have := h1x.ne'
    field_simp
  have hlabpos : 0 < (U - V) * ((1 - x) * g) + (1 - U) * g := by
    have h1 : 0 < (U - V) * ((1 - x) * g) := mul_pos (by linarith) (mul_pos h1x hg0)
    have h2 : 0 ≤ (1 - U) * g := mul_nonneg (by linarith) hg0.le
    linarith
  have hAB : A - B ≠ 0 := by have : 0 < A - B := by linarith
                             exact this.ne'
  have h1A : 1 - A ≠ 0 := by have : 0 < 1 - A := by linarith
                             exact this.ne'
  have hadj : A / (1 / (adjustedGpm c i s ((1 - x) * g) * (A - B)) * A) + (1 - A) / (1 / (adjustedGpm c i s g * (1 - A)) * (1 - A)) =
      (A - B) * adjustedGpm c i s ((1 - x) * g) + (1 - A) * adjustedGpm c i s g := by
    have := gT.ne'; have := gC.ne'; have := hA0.ne'
    field_simp
  have hadjpos : 0 < (A - B) * adjustedGpm c i s ((1 - x) * g) + (1 - A) * adjustedGpm c i s g := by
    have h1 := mul_pos (show 0 < A - B by linarith) gT
    have h2 := mul_pos (show 0 < 1 - A by linarith) gC
    linarith
  have hkw : (e * V + e * x * (U - V)) / U * U = V * e + (U - V) * (x * e) := by
    rw [div_mul_cancel₀ _ hU0.ne']; ring
  refine ⟨_, heq, ⟨?_, ?_, ?_, ⟨?_, ?_⟩, ?_, ⟨m1, m2⟩, ?_, ?_, ?_, ?_, ?_, rfl⟩⟩
  · show 1 / (1 / _) = _
    rw [one_div_one_div, hlab]
  · show 0 < 1 / _
    rw [hlab]; exact one_div_pos.2 hlabpos
  · exact hkw
  · show x * e ≤ (e * V + e * x * (U - V)) / U
    rw [le_div_iff₀ hU0]
    exact kwh_le_aux h.kwh h1x v0
  · show (e * V + e * x * (U - V)) / U ≤ e
    rw [div_le_iff₀ hU0]
    exact kwh_ge_aux h.kwh h1x vu
  · show M' = _
    rw [hM', rangeMiles, mul_comm x e]
  · show 1 / (1 / _) = _
    rw [one_div_one_div, hadj]
  · show 0 < 1 / _
    rw [hadj]; exact one_div_pos.2 hadjpos
  · show 1 / (1 / (adjustedGpm c i s g * (1 - A)) * (1 - A)) = _
    have := gC.ne'
    field_simp
  · show 1 / (1 / (adjustedGpm c i s ((1 - x) * g) * (A - B)) * A) * A = (A - B) * adjustedGpm c i s ((1 - x) * g)
    have := gT.ne'; have := hA0.ne'
    field_simp
  · show (adjusted c i s e * B + adjusted c i s (e * x) * (A - B)) / A * A = B * adjusted c i s e + (A - B) * adjusted c i s (x * e)
    rw [div_mul_cancel₀ _ hA0.ne', mul_comm x e]; ring

/-- The result of `get_label_fe` for a plug-in hybrid in terms of the figures of the two cycles. -/
def phevDict (u h : PhevCalc K) (uf miles rng t : K) : PyDict (LabelVal K) :=
  [("veh", .obj), ("adjParams", .obj), ("phev_calcs", .obj),
    ("labUddsMpgge", .num u.labMpgge), ("labHwyMpgge", .num h.labMpgge), ("labCombMpgge", .num (combMpg u.labMpgge h.labMpgge)),
    ("labUddsKwhPerMile", .num u.labKwhPerMile), ("labHwyKwhPerMile", .num h.labKwhPerMile),
    ("labCombKwhPerMile", .num (combKwh u.labKwhPerMile h.labKwhPerMile)),
    ("adjUddsMpgge", .num u.adjMpgge), ("adjHwyMpgge", .num h.adjMpgge), ("adjCombMpgge", .num (combMpg u.adjMpgge h.adjMpgge)),
    ("adjCsCombMpgge", .num (combMpg u.adjCsMpgge h.adjCsMpgge)), ("adjCdCombMpgge", .num (combMpg u.adjCdMpgge h.adjCdMpgge)),
    ("adjUddsKwhPerMile", .num u.adjKwhPerMile), ("adjHwyKwhPerMile", .num h.adjKwhPerMile),
    ("adjCombKwhPerMile", .num (combKwh u.adjKwhPerMile h.adjKwhPerMile)),
    ("adjUddsEssKwhPerMile", .num u.adjEssKwhPerMile), ("adjHwyEssKwhPerMile", .num h.adjEssKwhPerMile),
    ("adjCombEssKwhPerMile", .num (combKwh u.adjEssKwhPerMile h.adjEssKwhPerMile)),
    ("UF", .num uf), ("netPhevCDMiles", .num miles), ("netRangeMiles", .num rng), ("netAccel", .num t), ("resFound", .obj)]

theorem phev_out {c : LabelConst K} {tbl : List (K × K)} {veh : LabelVeh K}
    {sim : LabelCyc → Option K → Except PyErr (LabelRun K)} {u0 h0 cdU cdH : LabelRun K} {u h : PhevCalc K} {acc : List (K × K)} {uf : K}
    (hpt : veh.ptType = .phev) (hu0 : sim .udds none = .ok u0) (hh0 : sim .hwy none = .ok h0)
    (hu : sim .udds (some veh.maxSoc) = .ok cdU) (hh : sim .hwy (some veh.maxSoc) = .ok cdH)
    (hcu : phevCalc c tbl veh (adjParams veh.vehYear).cityInt (adjParams veh.vehYear).citySlope (regenSocBuffer veh) cdU
      (fun s => sim .udds (some s)) = .ok u)
    (hch : phevCalc c tbl veh (adjParams veh.vehYear).hwyInt (adjParams veh.vehYear).hwySlope (regenSocBuffer veh) cdH
      (fun s => sim .hwy (some s)) = .ok h)
    (huf : ufAt tbl (combKwh u.adjCdMiles h.adjCdMiles) = .ok uf) :
    getLabelFe c tbl veh sim (.ok acc) = .ok (phevDict u h uf (combKwh u.adjCdMiles h.adjCdMiles)
      ((veh.fsKwh / c.kwhPerGge - combKwh u.adjCdMiles h.adjCdMiles / combMpg u.adjCdMpgge h.adjCdMpgge) *
        combMpg u.adjCsMpgge h.adjCsMpgge + combKwh u.adjCdMiles h.adjCdMiles) (netAccel acc)) := by
  have hb : labelBody c tbl veh (adjParams veh.vehYear) sim u0 h0
      (PyDict.set (PyDict.set [] "veh" .obj) "adjParams" .obj) = labelPhev c tbl veh (adjParams veh.vehYear) sim
      (PyDict.set (PyDict.set [] "veh" .obj) "adjParams" .obj) := by
    unfold labelBody; rw [if_pos hpt]
  unfold getLabelFe
  rw [hu0]
  show (sim .hwy none >>= _) = _
  rw [hh0]
  show (labelBody _ _ _ _ _ _ _ _ >>= _) = _
  rw [hb]
  unfold labelPhev
  rw [hu]
  show ((sim .hwy (some veh.maxSoc) >>= _) >>= _) = _
  rw [hh]
  show ((phevCalc _ _ _ _ _ _ _ _ >>= _) >>= _) = _
  rw [hcu]
  show ((phevCalc _ _ _ _ _ _ _ _ >>= _) >>= _) = _
  rw [hch]
  show (phevOut _ _ _ _ _ _ >>= _) = _
  unfold phevOut
  simp only [huf]
  simp [bind, Except.bind, setNums, PyDict.set, phevDict]

/-- **C56.** The label of a plug-in hybrid: the figures of each cycle weigh electric and other driving by the utility factor, the combined
ones weigh city and highway, the reported share is that of the combined adjusted range, and the total range is the battery range and
what the fuel left over allows. -/
theorem C56_label {c : LabelConst K} {tbl : List (K × K)} {veh : LabelVeh K}
    {sim : LabelCyc → Option K → Except PyErr (LabelRun K)} {u0 h0 cdU cdH csU csH trU trH : LabelRun K} {acc : List (K × K)}
    {L dU eU dH eH xU xH : K} {nU nH : ℕ}
    (hpt : veh.ptType = .phev) (hu0 : sim .udds none = .ok u0) (hh0 : sim .hwy none = .ok h0)
    (hu : sim .udds (some veh.maxSoc) = .ok cdU) (hh : sim .hwy (some veh.maxSoc) = .ok cdH)
    (htU : sim .udds (some (veh.maxSoc - nU * (cdU.firstSoc - cdU.lastSoc))) = .ok trU)
    (htH : sim .hwy (some (veh.maxSoc - nH * (cdH.firstSoc - cdH.lastSoc))) = .ok trH)
    (hsU : sim .udds (some (veh.minSoc + 1 / 100)) = .ok csU) (hsH : sim .hwy (some (veh.minSoc + 1 / 100)) = .ok csH)
    (pU : PhevCase c tbl veh cdU csU L dU eU nU) (pH : PhevCase c tbl veh cdH csH L dH eH nH)
    (bU : 1 / 100 ≤ veh.maxSoc - regenSocBuffer veh - csU.minSoc) (bH : 1 / 100 ≤ veh.maxSoc - regenSocBuffer veh - csH.minSoc)
    (hxU : (nU + xU) * (eU * dU) = (veh.maxSoc - veh.minSoc) * veh.essMaxKwh)
    (hxH : (nH + xH) * (eH * dH) = (veh.maxSoc - veh.minSoc) * veh.essMaxKwh) {iU sU iH sH : K}
    (hadj : (iU, sU, iH, sH) = if veh.vehYear < 2017 then (3259 / 1000000, 11805 / 10000, 1376 / 1000000, 13466 / 10000)
      else (4091 / 1000000, 11601 / 10000, 3191 / 1000000, 12945 / 10000))
    (rU : SharesRise c tbl iU sU dU eU (xU * eU) nU) (rH : SharesRise c tbl iH sH dH eH (xH * eH) nH) :
    ∃ out u h lab adj cs cd rng, getLabelFe c tbl veh sim (.ok acc) = .ok out ∧
      PhevFigures c tbl veh.chgEff iU sU dU eU xU (csU.fsKwh / c.kwhPerGge / dU) nU u ∧
      PhevFigures c tbl veh.chgEff iH sH dH eH xH (csH.fsKwh / c.kwhPerGge / dH) nH h ∧
      Reads out "labUddsMpgge" u.labMpgge ∧ Reads out "labHwyMpgge" h.labMpgge ∧ Reads out "labCombMpgge" lab ∧
      1 / lab = 55 / 100 / u.labMpgge + 45 / 100 / h.labMpgge ∧
      Reads out "labUddsKwhPerMile" u.labKwhPerMile ∧ Reads out "labHwyKwhPerMile" h.labKwhPerMile ∧
      Reads out "labCombKwhPerMile" (55 / 100 * u.labKwhPerMile + 45 / 100 * h.labKwhPerMile) ∧
      Reads out "adjUddsMpgge" u.adjMpgge ∧ Reads out "adjHwyMpgge" h.adjMpgge ∧ Reads out "adjCombMpgge" adj ∧
      1 / adj = 55 / 100 / u.adjMpgge + 45 / 100 / h.adjMpgge ∧
      Reads out "adjUddsKwhPerMile" u.adjKwhPerMile ∧ Reads out "adjHwyKwhPerMile" h.adjKwhPerMile ∧
      Reads out "adjCombKwhPerMile" (55 / 100 * u.adjKwhPerMile + 45 / 100 * h.adjKwhPerMile) ∧
      Reads out "adjUddsEssKwhPerMile" u.adjEssKwhPerMile ∧ Reads out "adjHwyEssKwhPerMile" h.adjEssKwhPerMile ∧
      Reads out "adjCombEssKwhPerMile" (55 / 100 * u.adjEssKwhPerMile + 45 / 100 * h.adjEssKwhPerMile) ∧
      Reads out "netPhevCDMiles" (55 / 100 * u.adjCdMiles + 45 / 100 * h.adjCdMiles) ∧
      Reads out "UF" (shareAt tbl (55 / 100 * u.adjCdMiles + 45 / 100 * h.adjCdMiles)) ∧
      Reads out "adjCsCombMpgge" cs ∧ 1 / cs = 55 / 100 / u.adjCsMpgge + 45 / 100 / h.adjCsMpgge ∧
      Reads out "adjCdCombMpgge" cd ∧ 1 / cd = 55 / 100 / u.adjCdMpgge + 45 / 100 / h.adjCdMpgge ∧
      Reads out "netRangeMiles" rng ∧
      (rng - (55 / 100 * u.adjCdMiles + 45 / 100 * h.adjCdMiles)) * (1 / cs) =
        veh.fsKwh / c.kwhPerGge - (55 / 100 * u.adjCdMiles + 45 / 100 * h.adjCdMiles) * (1 / cd) := by
  obtain ⟨p1, p2, p3, p4⟩ := adjParams_pos (K := K) veh.vehYear
  have ha : iU = (adjParams veh.vehYear : AdjCoef K).cityInt ∧ sU = (adjParams veh.vehYear : AdjCoef K).citySlope ∧
      iH = (adjParams veh.vehYear : AdjCoef K).hwyInt ∧ sH = (adjParams veh.vehYear : AdjCoef K).hwySlope := by
    unfold adjParams
    by_cases hy : veh.vehYear < 2017
    · rw [if_pos hy] at hadj ⊢
      simp only [Prod.mk.injEq] at hadj
      simp only [adjCoef2008]; push_cast; exact hadj
    · rw [if_neg hy] at hadj ⊢
      simp only [Prod.mk.injEq] at hadj
      simp only [adjCoef2017]; push_cast; exact hadj
  obtain ⟨rfl, rfl, rfl, rfl⟩ := ha
  obtain ⟨u, cu, fu⟩ := C56_cycle (run := fun s => sim .udds (some s)) (buffer := regenSocBuffer veh) pU p1 p2 htU hsU bU hxU rU
  obtain ⟨h, ch, fh⟩ := C56_cycle (run := fun s => sim .hwy (some s)) (buffer := regenSocBuffer veh) pH p3 p4 htH hsH bH hxH rH
  have hcomb : ∀ a b : K, combKwh a b = 55 / 100 * a + 45 / 100 * b := by
    intro a b; unfold combKwh wCity wHwy; push_cast; rfl
  have h0U : 0 ≤ u.adjCdMiles := by
    refine le_trans ?_ fu.miles_range.1
    have := pU.dist
    exact mul_nonneg (by linarith [pU.adj1]) (by positivity)
  have h0H : 0 ≤ h.adjCdMiles := by
    refine le_trans ?_ fh.miles_range.1
    have := pH.dist
    exact mul_nonneg (by linarith [pH.adj1]) (by positivity)
  have huf : ufAt tbl (combKwh u.adjCdMiles h.adjCdMiles) = .ok (shareAt tbl (combKwh u.adjCdMiles h.adjCdMiles)) := by
    apply ufAt_share pU.tbl
    · rw [hcomb]; linarith
    · have e1 := fu.miles_range.2.trans pU.reach
      have e2 := fh.miles_range.2.trans pH.reach
      rw [hcomb]; linarith
  have ho := phev_out (acc := acc) hpt hu0 hh0 hu hh cu ch huf
  have hcs0 : 0 < combMpg u.adjCsMpgge h.adjCsMpgge := by
    have e1 := fu.adjCs
    have e2 := fh.adjCs
    have q1 : 0 < u.adjCsMpgge := by
      rw [← one_div_pos, e1]
      exact adjustedGpm_pos pU.adj1 p1 p2 (div_pos (div_pos pU.fuel pU.gge) pU.dist)
    have q2 : 0 < h.adjCsMpgge := by
      rw [← one_div_pos, e2]
      exact adjustedGpm_pos pH.adj1 p3 p4 (div_pos (div_pos pH.fuel pH.gge) pH.dist)
    exact (harmonic_between (w := 55 / 100) (v := 45 / 100) q1 q2 (by norm_num) (by norm_num) (by norm_num) (combMpg_inv _ _)).1
  simp only [hcomb] at ho
  refine ⟨_, u, h, combMpg u.labMpgge h.labMpgge, combMpg u.adjMpgge h.adjMpgge, combMpg u.adjCsMpgge h.adjCsMpgge,
    combMpg u.adjCdMpgge h.adjCdMpgge, _, ho, fu, fh, rfl, rfl, rfl, combMpg_inv _ _, rfl, rfl, ?_, rfl, rfl, rfl, combMpg_inv _ _,
    rfl, rfl, ?_, rfl, rfl, ?_, rfl, rfl, rfl, combMpg_inv _ _, rfl, combMpg_inv _ _, rfl, ?_⟩
  · rw [← hcomb]; rfl
  · rw [← hcomb]; rfl
  · rw [← hcomb]; rfl
  · rw [add_sub_cancel_right, mul_assoc, mul_one_div_cancel hcs0.ne', mul_one, mul_one_div]

/-! ### Where the procedure disagrees with its description -/

/-- Disagreement: fuel that the engine takes while the battery is being depleted does not count: whatever the charge depleting cycle
reports, the result is the same. -/
theorem C56_depleting_fuel_ignored (c : LabelConst K) (tbl : List (K × K)) (veh : LabelVeh K) (i s buffer : K) (cd : LabelRun K)
    (run : K → Except PyErr (LabelRun K)) (fuel mpg : K) :
    phevCalc c tbl veh i s buffer { cd with fsKwh := fuel, mpgge := mpg } run = phevCalc c tbl veh i s buffer cd run := rfl

/-- Disagreement: when the battery lasts for a whole number of cycles, two or more, there is no transition cycle, two arrays differ in
length, and the result is a `ValueError`. -/
theorem C56_whole_cycles {c : LabelConst K} {tbl : List (K × K)} {veh : LabelVeh K} {cd cs tr : LabelRun K} {L i s buffer : K} {n : ℕ}
    {run : K → Except PyErr (LabelRun K)} (ht : ShareTable tbl L) (hd : 0 < cd.distMi) (he : 0 < cd.kwhPerMi) (hn : 2 ≤ n)
    (hw : n * (cd.kwhPerMi * cd.distMi) = (veh.maxSoc - veh.minSoc) * veh.essMaxKwh) (hL : n * cd.distMi ≤ L)
    (htr : run (veh.maxSoc - n * (cd.firstSoc - cd.lastSoc)) = .ok tr) (hcs : run (veh.minSoc + 1 / 100) = .ok cs)
    (hsame : cs.distMi = cd.distMi) (hbuf : 1 / 100 ≤ veh.maxSoc - buffer - cs.minSoc) :
    phevCalc c tbl veh i s buffer cd run = .error .valueError := by
  have hn0 : (0 : K) < n := by exact_mod_cast (by omega : 0 < n)
  have hcyc : (veh.maxSoc - veh.minSoc) * veh.essMaxKwh / cd.kwhPerMi / cd.distMi = n := by
    rw [← hw, div_div, mul_div_assoc, div_self (mul_pos he hd).ne', mul_one]
  have hfl : ⌊(n : K)⌋ = (n : ℤ) := Int.floor_natCast n
  have hce : ⌈(n : K)⌉ = (n : ℤ) := Int.ceil_natCast n
  set f : ℕ → K := fun k => shareAt tbl ((k : K) * cd.distMi) with hf
  have hlab : holdAll ((List.range ((n : ℤ) + 1).toNat).map fun k : ℕ => (k : K) * cd.distMi) tbl =
      .ok ((List.range' 0 (n + 1)).map f) := by
    have : ((n : ℤ) + 1).toNat = n + 1 := by omega
    rw [this, holdAll_share ht, List.map_map, List.range_eq_range']
    · rfl
    · intro y hy
      obtain ⟨k, hk, rfl⟩ := List.mem_map.1 hy
      have hk' : (k : K) ≤ n := by
        have := List.mem_range.1 hk
        exact_mod_cast (by omega : k ≤ n)
      exact ⟨mul_nonneg (Nat.cast_nonneg _) hd.le, (mul_le_mul_of_nonneg_right hk' hd.le).trans hL⟩
  have hdl : fromEnd (diff ((List.range' 0 (n + 1)).map f)) 1 = .ok (f (n - 1 + 1) - f (n - 1)) := by
    rw [diff_range_map f n 0, fromEnd_range _ _ _ (le_refl _) (by omega)]
  have hufU : ufAt tbl (((n : ℤ) : K) * cd.distMi) = .ok (shareAt tbl (((n : ℤ) : K) * cd.distMi)) := by
    rw [Int.cast_natCast]
    exact ufAt_share ht (by positivity) hL
  have hmul : ∀ t, npMul (List.replicate n cd.kwhPerMi ++ [t]) (diff ((List.range' 0 (n + 1)).map f)) = .error .valueError := by
    intro t
    rw [diff_range_map f n 0]
    unfold npMul
    rw [if_neg (by simp)]
    obtain ⟨k, rfl⟩ : ∃ k, n = k + 2 := ⟨n - 2, by omega⟩
    rw [List.replicate_succ, List.replicate_succ, List.range'_succ, List.range'_succ]
    rfl
  have hnever : ¬ (veh.maxSoc - buffer - cs.minSoc < 1 / 100) := not_lt.2 hbuf
  unfold phevCalc
  simp only [hcyc, hfl, hce]
  rw [if_neg (by omega)]
  rw [hlab]
  show (run (veh.maxSoc - (((n : ℤ) : K)) * (cd.firstSoc - cd.lastSoc)) >>= _) = _
  rw [Int.cast_natCast, htr]
  show (run (veh.minSoc + 1 / 100) >>= _) = _
  rw [hcs]
  show (fromEnd (diff ((List.range' 0 (n + 1)).map f)) 1 >>= _) = _
  rw [hdl]
  simp only [if_neg hnever, hsame]
  rw [Int.cast_natCast] at hufU
  show (ufAt tbl ((n : K) * cd.distMi) >>= _) = _
  rw [hufU]
  show (npMul (List.replicate (n : ℤ).toNat cd.kwhPerMi ++ [_]) (diff ((List.range' 0 (n + 1)).map f)) >>= _) = _
  rw [Int.toNat_natCast, hmul]
  rfl

/-- Disagreement: when the battery does not last for one cycle there are no figures (all are `nan`; the model reports an error). -/
theorem C56_less_than_one {c : LabelConst K} {tbl : List (K × K)} {veh : LabelVeh K} {cd : LabelRun K} {i s buffer : K}
    {run : K → Except PyErr (LabelRun K)} (hd : 0 < cd.distMi) (he : 0 < cd.kwhPerMi)
    (h0 : 0 ≤ (veh.maxSoc - veh.minSoc) * veh.essMaxKwh)
    (h1 : (veh.maxSoc - veh.minSoc) * veh.essMaxKwh < cd.kwhPerMi * cd.distMi) :
    phevCalc c tbl veh i s buffer cd run = .error .other := by
  have hfl : ⌊(veh.maxSoc - veh.minSoc) * veh.essMaxKwh / cd.kwhPerMi / cd.distMi⌋ = 0 := by
    rw [Int.floor_eq_iff, div_div]
    refine ⟨by push_cast; exact div_nonneg h0 (mul_pos he hd).le, ?_⟩
    rw [div_lt_iff₀ (mul_pos he hd)]
    push_cast; linarith
  unfold phevCalc
  simp only [hfl, if_true]

/-- Disagreement: cycles that reach beyond the table of shares (1201 miles) give a `ValueError`, not the share at its end. -/
theorem C56_beyond_table {c : LabelConst K} {tbl : List (K × K)} {veh : LabelVeh K} {cd : LabelRun K} {L i s buffer : K}
    {run : K → Except PyErr (LabelRun K)} (ht : ShareTable tbl L) (hd : 0 < cd.distMi) (he : 0 < cd.kwhPerMi)
    (h1 : cd.kwhPerMi * cd.distMi ≤ (veh.maxSoc - veh.minSoc) * veh.essMaxKwh)
    (h2 : L * cd.kwhPerMi < (veh.maxSoc - veh.minSoc) * veh.essMaxKwh) :
    phevCalc c tbl veh i s buffer cd run = .error .valueError := by
  set W := (veh.maxSoc - veh.minSoc) * veh.essMaxKwh with hW
  set q := W / cd.kwhPerMi / cd.distMi with hq
  have hq1 : 1 ≤ q := by rw [hq, div_div, le_div_iff₀ (mul_pos he hd)]; linarith
  have hfl : ⌊q⌋ ≠ 0 := by
    have : (1 : ℤ) ≤ ⌊q⌋ := Int.le_floor.2 (by push_cast; exact hq1)
    omega
  have hce : 0 ≤ ⌈q⌉ := Int.ceil_nonneg (by linarith)
  have hbad : holdAll ((List.range (⌈q⌉ + 1).toNat).map fun k : ℕ => (k : K) * cd.distMi) tbl = .error .valueError := by
    unfold holdAll
    rw [if_neg]
    intro hall
    rw [List.all_eq_true] at hall
    have hm : ((⌈q⌉.toNat : ℕ) : K) * cd.distMi ∈ (List.range (⌈q⌉ + 1).toNat).map fun k : ℕ => (k : K) * cd.distMi :=
      List.mem_map.2 ⟨⌈q⌉.toNat, List.mem_range.2 (by omega), rfl⟩
    have := ((inTable_share ht).1 (hall _ hm)).2
    have h3 : q ≤ (⌈q⌉.toNat : ℕ) := by
      have h4 : ((⌈q⌉.toNat : ℕ) : K) = ((⌈q⌉ : ℤ) : K) := by
        rw [← Int.cast_natCast, Int.toNat_of_nonneg hce]
      rw [h4]; exact Int.le_ceil q
    have h5 : L < q * cd.distMi := by
      rw [hq, div_mul_cancel₀ _ hd.ne', lt_div_iff₀ he]; exact h2
    have := mul_le_mul_of_nonneg_right h3 hd.le
    linarith
  unfold phevCalc
  simp only [← hW, ← hq, if_neg hfl]
  rw [hbad]
  rfl

/-! ### Concrete cases, with the table of the code -/

/-- 9 kWh usable, 0.3 kWh per mile on 7.5 mile cycles (4 whole cycles); 0.25 on 10.5 mile cycles (3.43). -/
def phevVeh : LabelVeh ℚ := ⟨.phev, 2020, 1500, 98 / 100, 95 / 100, 10, 95 / 100, 5 / 100, 86 / 100, 300⟩

def phevSim (eU : ℚ) : LabelCyc → Option ℚ → Except PyErr (LabelRun ℚ)
  | .udds, some s => if s = 95 / 100 then .ok ⟨0, eU, 15 / 2, 0, 7 / 10, 95 / 100, 7 / 10⟩ else .ok ⟨40, 0, 15 / 2, 6, 5 / 100, s, s⟩
  | .hwy, some s => if s = 95 / 100 then .ok ⟨0, 1 / 4, 21 / 2, 0, 7 / 10, 95 / 100, 7 / 10⟩ else .ok ⟨50, 0, 21 / 2, 7, 5 / 100, s, s⟩
  | _, none => .ok ⟨40, 0, 10, 8, 1 / 2, 1 / 2, 1 / 2⟩

/-- The city cycle meets the conditions: 3.2 cycles at 0.375 kWh per mile. -/
theorem phev_case : PhevCase labelConst (ufTable : List (ℚ × ℚ)) phevVeh ⟨0, 3 / 8, 15 / 2, 0, 7 / 10, 95 / 100, 7 / 10⟩
    ⟨40, 0, 15 / 2, 6, 5 / 100, 6 / 100, 6 / 100⟩ 1201 (15 / 2) (3 / 8) 3 := by
  refine ⟨ufTable_ok, ?_, ?_, ?_, rfl, rfl, ?_, rfl, ?_, ?_, ?_, ?_, ?_, ?_⟩ <;> norm_num [labelConst, phevVeh]

theorem phev_rise : SharesRise labelConst (ufTable : List (ℚ × ℚ)) (4091 / 1000000) (11601 / 10000) (15 / 2) (3 / 8) (1 / 5 * (3 / 8)) 3 := by
  refine ⟨?_, ?_, ?_⟩ <;> decide +kernel

theorem phev_case_hwy : PhevCase labelConst (ufTable : List (ℚ × ℚ)) phevVeh ⟨0, 1 / 4, 21 / 2, 0, 7 / 10, 95 / 100, 7 / 10⟩
    ⟨50, 0, 21 / 2, 7, 5 / 100, 6 / 100, 6 / 100⟩ 1201 (21 / 2) (1 / 4) 3 := by
  refine ⟨ufTable_ok, ?_, ?_, ?_, rfl, rfl, ?_, rfl, ?_, ?_, ?_, ?_, ?_, ?_⟩ <;> norm_num [labelConst, phevVeh]

theorem phev_rise_hwy :
    SharesRise labelConst (ufTable : List (ℚ × ℚ)) (3191 / 1000000) (12945 / 10000) (21 / 2) (1 / 4) (3 / 7 * (1 / 4)) 3 := by
  refine ⟨?_, ?_, ?_⟩ <;> decide +kernel

theorem phev_buffer : 1 / 100 ≤ phevVeh.maxSoc - regenSocBuffer phevVeh - 5 / 100 := by
  have : regenSocBuffer phevVeh ≤ (phevVeh.maxSoc - phevVeh.minSoc) / 2 := min_le_right _ _
  have h1 : (phevVeh.maxSoc - phevVeh.minSoc) / 2 = 45 / 100 := by norm_num [phevVeh]
  have h2 : phevVeh.maxSoc = 95 / 100 := rfl
  rw [h1] at this
  rw [h2]
  norm_num at this ⊢
  linarith

/-- The label of this vehicle comes out. -/
theorem demo_phev : ∃ out u, getLabelFe labelConst ufTable phevVeh (phevSim (3 / 8)) (.ok [(0, 0), (55, 8), (65, 9)]) = .ok out ∧
    Reads out "labUddsKwhPerMile" u ∧ 3 / 40 ≤ u ∧ u ≤ 3 / 8 := by
  obtain ⟨out, u, h, _, _, _, _, _, ho, fu, _, _, _, _, _, r, _⟩ := C56_label (tbl := (ufTable : List (ℚ × ℚ))) (veh := phevVeh)
    (c := labelConst) (sim := phevSim (3 / 8)) (acc := [(0, 0), (55, 8), (65, 9)]) (xU := 1 / 5) (xH := 3 / 7)
    (iU := 4091 / 1000000) (sU := 11601 / 10000) (iH := 3191 / 1000000) (sH := 12945 / 10000)
    rfl rfl rfl (by simp [phevSim, phevVeh]) (by simp [phevSim, phevVeh])
    (trU := ⟨40, 0, 15 / 2, 6, 5 / 100, 95 / 100 - 3 * (95 / 100 - 7 / 10), 95 / 100 - 3 * (95 / 100 - 7 / 10)⟩)
    (trH := ⟨50, 0, 21 / 2, 7, 5 / 100, 95 / 100 - 3 * (95 / 100 - 7 / 10), 95 / 100 - 3 * (95 / 100 - 7 / 10)⟩)
    (by norm_num [phevSim, phevVeh]) (by norm_num [phevSim, phevVeh]) (by norm_num [phevSim, phevVeh]) (by norm_num [phevSim, phevVeh])
    phev_case phev_case_hwy phev_buffer phev_buffer (by norm_num [phevVeh]) (by norm_num [phevVeh])
    (by rw [if_neg (by decide)]) phev_rise phev_rise_hwy
  refine ⟨out, _, ho, r, ?_, fu.labKwh_range.2⟩
  have := fu.labKwh_range.1
  norm_num at this ⊢
  exact this

/-- With 0.3 kWh per mile the battery lasts for exactly four city cycles, and there is no label. -/
theorem demo_phev_whole : (match getLabelFe labelConst ufTable phevVeh (phevSim (3 / 10)) (.ok [(0, 0), (55, 8), (65, 9)]) with
    | .ok _ => false
    | .error e => decide (e = .valueError)) = true := by decide +kernel

end Fastsim.Props
