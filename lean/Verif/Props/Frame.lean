import Verif.Model.Frame
import Verif.Lemmas.Dict
import Verif.Lemmas.Dist
import Verif.Lemmas.Interp
import Mathlib.Algebra.Order.Floor.Ring
import Mathlib.Algebra.Order.Archimedean.Basic
import Mathlib.Tactic.FieldSimp
import Mathlib.Tactic.Positivity
import Mathlib.Algebra.Order.Field.Rat
import Mathlib.Data.Rat.Floor

/-!
# C44: resampling a data frame
-/
set_option linter.unusedSectionVars false

namespace Fastsim.Spec
end Fastsim.Spec

namespace Fastsim.Props
open Fastsim Spec

variable {K : Type*} [Field K] [LinearOrder K] [IsStrictOrderedRing K]

/-! ### What a rate signal amounts to -/

/-- A rate signal given by samples `(t, y)` has the rate `y` during the time since the previous sample. The
amount gathered up to time `x` over samples that follow one at time `t0`. -/
def _root_.Fastsim.Spec.amountFrom (t0 x : K) : List (K × K) → K
  | [] => 0
  | p :: r => p.2 * max 0 (min x p.1 - t0) + Fastsim.Spec.amountFrom p.1 x r

/-- The amount gathered up to time `x`; before the first sample nothing is gathered. -/
def _root_.Fastsim.Spec.amount (x : K) : List (K × K) → K
  | [] => 0
  | p :: r => amountFrom p.1 x r

/-- Before its first sample a signal has gathered nothing. -/
theorem amountFrom_zero {t0 x : K} : ∀ {l : List (K × K)}, x ≤ t0 → (∀ p ∈ l, t0 ≤ p.1) → SortedX l →
    amountFrom t0 x l = 0
  | [], _, _, _ => rfl
  | p :: r, hx, hl, hs => by
    have hp := hl p (by simp)
    rw [amountFrom, amountFrom_zero (hx.trans hp) (fun q hq => (List.pairwise_cons.1 hs).1 q hq)
      (List.pairwise_cons.1 hs).2]
    have : max 0 (min x p.1 - t0) = 0 := by
      apply max_eq_left
      have := min_le_left x p.1
      linarith
    rw [this]; ring

/-- The running total after each sample. -/
def runTotal (s t0 : K) : List (K × K) → List (K × K)
  | [] => []
  | p :: r => (p.1, s + (p.1 - t0) * p.2) :: runTotal (s + (p.1 - t0) * p.2) p.1 r

theorem runTotal_fst (s t0 : K) (l : List (K × K)) : (runTotal s t0 l).map Prod.fst = l.map Prod.fst := by
  induction l generalizing s t0 with
  | nil => rfl
  | cons p r ih => simp [runTotal, ih]

theorem interp_runTotal (x : K) : ∀ (l : List (K × K)) (s t0 : K), StrictX ((t0, s) :: l) →
    interp x ((t0, s) :: runTotal s t0 l) = s + amountFrom t0 x l
  | [], s, t0, _ => by simp [runTotal, interp, amountFrom]
  | p :: r, s, t0, h => by
    have h1 : t0 < p.1 := (List.pairwise_cons.1 h).1 p (by simp)
    have h2 : StrictX (p :: r) := (List.pairwise_cons.1 h).2
    have h3 : StrictX ((p.1, s + (p.1 - t0) * p.2) :: r) := by
      rw [StrictX, List.pairwise_cons] at h2 ⊢
      exact h2
    have ih := interp_runTotal x r (s + (p.1 - t0) * p.2) p.1 h3
    have hle : ∀ q ∈ r, p.1 ≤ q.1 := fun q hq => ((List.pairwise_cons.1 h2).1 q hq).le
    have hsr : SortedX r := StrictX.sorted (List.pairwise_cons.1 h2).2
    rw [runTotal, amountFrom]
    by_cases hx : x < p.1
    · rw [amountFrom_zero hx.le hle hsr]
      by_cases hx0 : x ≤ t0
      · rw [interp, if_pos hx, if_pos hx0]
        have : max 0 (min x p.1 - t0) = 0 := by
          apply max_eq_left
          have := min_le_left x p.1
          linarith
        rw [this]; ring
      · push Not at hx0
        rw [interp, if_pos hx, if_neg (not_le.2 hx0)]
        have : max 0 (min x p.1 - t0) = x - t0 := by
          rw [min_eq_left hx.le, max_eq_right (by linarith)]
        rw [this]
        have hd : p.1 - t0 ≠ 0 := (sub_pos.2 h1).ne'
        field_simp
        ring
    · push Not at hx
      rw [interp, if_neg (not_lt.2 hx), ih]
      have : max 0 (min x p.1 - t0) = p.1 - t0 := by
        rw [min_eq_right hx, max_eq_right (by linarith)]
      rw [this]; ring

theorem diff_cons (a b : K) (l : List K) : diff (a :: b :: l) = (b - a) :: diff (b :: l) := rfl

theorem zip_cumu (s t0 : K) : ∀ (t y : List K), t.length = y.length →
    t.zip (cumsumFrom s (List.zipWith (· * ·) (diff (t0 :: t)) y)) = runTotal s t0 (t.zip y)
  | [], y, _ => by simp [runTotal]
  | a :: t, [], h => by simp at h
  | a :: t, b :: y, h => by
    rw [diff_cons, List.zipWith_cons_cons, cumsumFrom, List.zip_cons_cons, List.zip_cons_cons, runTotal,
      zip_cumu (s + (a - t0) * b) a t y (by simpa using h)]

/-- The cumulated signal read at any time is the amount gathered up to then. -/
theorem cumu_amount (x : K) (t y : List K) (hl : t.length = y.length) (ht : StrictX (t.zip y)) :
    interp x (t.zip (cumuVals t y)) = amount x (t.zip y) := by
  cases t with
  | nil => simp [interp, amount]
  | cons t0 t =>
    cases y with
    | nil => simp at hl
    | cons y0 y =>
      have e : (t0 :: t).zip (cumuVals (t0 :: t) (y0 :: y)) = (t0, 0) :: runTotal 0 t0 (t.zip y) := by
        have hl' : t.length = y.length := by simpa using hl
        simp only [cumuVals, List.zipWith_cons_cons, cumsum, cumsumFrom, List.zip_cons_cons, zero_mul, add_zero]
        rw [zip_cumu 0 t0 t y hl']
      rw [e, interp_runTotal, zero_add]
      · rfl
      · rw [List.zip_cons_cons] at ht
        rw [StrictX, List.pairwise_cons] at ht ⊢
        exact ht

/-- Over the whole signal the amount is the sum of rate times step. -/
theorem C44_amount_total : ∀ (p : K × K) (l : List (K × K)) (x : K), StrictX (p :: l) →
    (∀ q ∈ p :: l, q.1 ≤ x) →
    amount x (p :: l) = (List.zipWith (fun a b : K × K => b.2 * (b.1 - a.1)) (p :: l) l).sum
  | p, [], x, _, _ => rfl
  | p, q :: l, x, h, hx => by
    have ih := C44_amount_total q l x (List.pairwise_cons.1 h).2 (fun z hz => hx z (by simp [hz]))
    have hpq : p.1 < q.1 := (List.pairwise_cons.1 h).1 q (by simp)
    simp only [amount] at ih ⊢
    rw [amountFrom, ih, List.zipWith_cons_cons, List.sum_cons, min_eq_right (hx q (by simp)),
      max_eq_right (by linarith)]

theorem clampAux (x t0 : K) : max 0 (x - t0) = max t0 x - t0 := by
  rcases le_total x t0 with h | h
  · rw [max_eq_left (by linarith), max_eq_left h]; ring
  · rw [max_eq_right (by linarith), max_eq_right h]

/-- The gathered amount grows at a rate between the bounds of the data, within the time the data covers. -/
theorem amountFrom_rate {lo hi : K} : ∀ (l : List (K × K)) (t0 a b : K), (∀ p ∈ l, t0 < p.1) → StrictX l →
    (∀ p ∈ l, lo ≤ p.2 ∧ p.2 ≤ hi) → a ≤ b →
    ∃ w, amountFrom t0 b l - amountFrom t0 a l = w ∧
      lo * (max t0 (min b (l.getLastD (t0, 0)).1) - max t0 (min a (l.getLastD (t0, 0)).1)) ≤ w ∧
      w ≤ hi * (max t0 (min b (l.getLastD (t0, 0)).1) - max t0 (min a (l.getLastD (t0, 0)).1))
  | [], t0, a, b, _, _, _, _ => by
    refine ⟨_, rfl, ?_, ?_⟩ <;> simp [amountFrom]
  | p :: r, t0, a, b, h0, hs, hy, hab => by
    have h1 := h0 p (by simp)
    have hs2 := List.pairwise_cons.1 hs
    obtain ⟨w, hw, hw1, hw2⟩ := amountFrom_rate (lo := lo) (hi := hi) r p.1 a b hs2.1 hs2.2
      (fun q hq => hy q (by simp [hq])) hab
    refine ⟨_, rfl, ?_⟩
    have hp := hy p (by simp)
    have hlast : (p :: r).getLastD (t0, 0) = r.getLastD p := by
      cases h : r.getLast? with
      | none => simp [List.getLast?_eq_none_iff.1 h]
      | some z => simp [List.getLast?_cons, h]
    have hfst : (r.getLastD p).1 = (r.getLastD (p.1, 0)).1 := by
      cases h : r.getLast? with
      | none => simp [List.getLast?_eq_none_iff.1 h]
      | some z => simp [h]
    have hge : p.1 ≤ (r.getLastD (p.1, 0)).1 := by
      cases h : r.getLast? with
      | none => simp [List.getLast?_eq_none_iff.1 h]
      | some z =>
        have : z ∈ r := List.mem_of_getLast? h
        simpa [h] using (hs2.1 z this).le
    rw [hlast, hfst]
    generalize (r.getLastD (p.1, 0)).1 = L at *
    have clamp : ∀ x : K, max t0 (min x L) = max 0 (min x p.1 - t0) + t0 + (max p.1 (min x L) - p.1) := by
      intro x
      rcases le_total x p.1 with hx | hx
      · rw [min_eq_left (hx.trans hge), min_eq_left hx, max_eq_left hx, clampAux]
        ring
      · rw [min_eq_right hx, max_eq_right (le_min (h1.le.trans hx) (h1.le.trans hge)),
          max_eq_right (le_min hx hge), max_eq_right (sub_nonneg.2 h1.le)]
        ring
    have hmono : max 0 (min a p.1 - t0) ≤ max 0 (min b p.1 - t0) :=
      max_le_max le_rfl (sub_le_sub_right (min_le_min_right _ hab) _)
    have e : amountFrom t0 b (p :: r) - amountFrom t0 a (p :: r) =
        p.2 * (max 0 (min b p.1 - t0) - max 0 (min a p.1 - t0)) + w := by
      rw [amountFrom, amountFrom, ← hw]; ring
    rw [e, clamp a, clamp b]
    have hd := sub_nonneg.2 hmono
    constructor
    · nlinarith [mul_le_mul_of_nonneg_right hp.1 hd]
    · nlinarith [mul_le_mul_of_nonneg_right hp.2 hd]

/-! ### The new signals -/

theorem diff_length (a : K) (l : List K) : (diff (a :: l)).length = l.length := by
  induction l generalizing a with
  | nil => rfl
  | cons b l ih => rw [diff_cons, List.length_cons, ih, List.length_cons]

theorem diff_get (a : K) (l : List K) (i : Nat) (h : i < l.length) :
    (diff (a :: l))[i]? = some (l[i] - (a :: l)[i]'(by simp; omega)) := by
  induction l generalizing a i with
  | nil => simp at h
  | cons b l ih =>
    rw [diff_cons]
    cases i with
    | zero => rfl
    | succ i => simpa using ih b i (by simpa using h)

theorem diff_sum (a : K) (l : List K) (i : Nat) (h : i < l.length) :
    ((diff (a :: l)).take (i + 1)).sum = l[i] - a := by
  induction l generalizing a i with
  | nil => simp at h
  | cons b l ih =>
    rw [diff_cons, List.take_succ_cons, List.sum_cons]
    cases i with
    | zero => simp
    | succ i => rw [ih b i (by simpa using h)]; simp

theorem sum_map_div (l : List K) (d : K) : (l.map (· / d)).sum = l.sum / d := by
  induction l with
  | nil => simp
  | cons a l ih => rw [List.map_cons, List.sum_cons, List.sum_cons, ih, add_div]

section Floor
variable [FloorRing K]

/-- The new times are the multiples of `dt` from zero up to the last old time. -/
theorem newTimes_eq {tLast dt : K} (hdt : 0 < dt) (ht : 0 ≤ tLast) :
    newTimes tLast dt = (List.range (⌊tLast / dt⌋₊ + 1)).map fun k : ℕ => (k : K) * dt := by
  have hf : (0 : ℤ) ≤ ⌊tLast / dt⌋ := Int.floor_nonneg.2 (div_nonneg ht hdt.le)
  have hc : ⌈((⌊tLast / dt⌋ : K) * dt + dt - 0) / dt⌉ = ⌊tLast / dt⌋ + 1 := by
    have : ((⌊tLast / dt⌋ : K) * dt + dt - 0) / dt = ((⌊tLast / dt⌋ + 1 : ℤ) : K) := by
      push_cast; field_simp; ring
    rw [this, Int.ceil_intCast]
  rw [newTimes, arange, hc]
  have hn : (⌊tLast / dt⌋ + 1).toNat = ⌊tLast / dt⌋₊ + 1 := by
    have : ⌊tLast / dt⌋₊ = ⌊tLast / dt⌋.toNat := rfl
    rw [this]; omega
  rw [hn]
  congr 1; funext k; ring

/-- The columns of the result. -/
theorem resample_get {df out : PyDict (List K)} {dt : K} {tc : String} {rv hv : List String}
    (hnd : (PyDict.keys df).Nodup) (h : resampleFrame df dt tc rv hv = .ok out) {t : List K} {tLast : K}
    (ht : PyDict.get? df tc = some t) (hlast : t.getLast? = some tLast) (col : String) (y : List K)
    (hy : PyDict.get? df col = some y) :
    PyDict.get? out col =
      if col ∈ rv then some (rateColumn dt (newTimes tLast dt) t y)
      else if col ∈ hv then none else some (interpColumn (newTimes tLast dt) t y) := by
  simp only [resampleFrame, ht, hlast, Except.ok.injEq] at h
  rw [← h]
  have hmem := PyDict.get?_mem hy
  clear h hy ht
  have key : ∀ (df : PyDict (List K)) (acc : PyDict (List K)), (PyDict.keys df).Nodup →
      (∀ y, (col, y) ∈ df → PyDict.get? acc col = none →
        PyDict.get? (df.foldl (fun out kv =>
          if kv.1 ∈ rv then PyDict.set out kv.1 (rateColumn dt (newTimes tLast dt) t kv.2)
          else if kv.1 ∈ hv then out
          else PyDict.set out kv.1 (interpColumn (newTimes tLast dt) t kv.2)) acc) col =
        if col ∈ rv then some (rateColumn dt (newTimes tLast dt) t y)
        else if col ∈ hv then none else some (interpColumn (newTimes tLast dt) t y)) ∧
      ((∀ y, (col, y) ∉ df) →
        PyDict.get? (df.foldl (fun out kv =>
          if kv.1 ∈ rv then PyDict.set out kv.1 (rateColumn dt (newTimes tLast dt) t kv.2)
          else if kv.1 ∈ hv then out
          else PyDict.set out kv.1 (interpColumn (newTimes tLast dt) t kv.2)) acc) col = PyDict.get? acc col) := by
    intro df
    induction df with
    | nil => intro acc _; exact ⟨fun y hy => by simp at hy, fun _ => rfl⟩
    | cons p df ih =>
      obtain ⟨k, z⟩ := p
      intro acc hnd
      unfold PyDict.keys at hnd ih
      rw [List.map_cons, List.nodup_cons] at hnd
      rw [List.foldl_cons]
      constructor
      · intro y hy hacc
        rcases List.mem_cons.1 hy with e | hm
        · cases e
          have hno : ∀ y, (col, y) ∉ df := fun y' hy' => hnd.1 (List.mem_map.2 ⟨_, hy', rfl⟩)
          rw [(ih _ hnd.2).2 hno]
          simp only
          split
          · rw [PyDict.get?_set, if_pos rfl]
          · split
            · exact hacc
            · rw [PyDict.get?_set, if_pos rfl]
        · have hne : col ≠ k := by
            rintro rfl
            exact hnd.1 (List.mem_map.2 ⟨_, hm, rfl⟩)
          apply (ih _ hnd.2).1 y hm
          simp only
          split
          · rw [PyDict.get?_set, if_neg hne]; exact hacc
          · split
            · exact hacc
            · rw [PyDict.get?_set, if_neg hne]; exact hacc
      · intro hno
        have hne : col ≠ k := by
          rintro rfl
          exact hno z (by simp)
        rw [(ih _ hnd.2).2 (fun y hy => hno y (by simp [hy]))]
        simp only
        split
        · rw [PyDict.get?_set, if_neg hne]
        · split
          · rfl
          · rw [PyDict.get?_set, if_neg hne]
  exact (key df [] hnd).1 y hmem rfl

/-- A data frame with increasing times that end at `tLast`, and columns of equal length. -/
structure _root_.Fastsim.Spec.GoodFrame (df : PyDict (List K)) (tc : String) (t : List K) (tLast : K) : Prop where
  keys : (PyDict.keys df).Nodup
  time : PyDict.get? df tc = some t
  last : t.getLast? = some tLast
  lengths : ∀ c y, PyDict.get? df c = some y → y.length = t.length
  increasing : t.Pairwise (· < ·)
  later : 0 ≤ tLast

theorem strict_zip {t y : List K} (ht : t.Pairwise (· < ·)) : StrictX (t.zip y) := by
  induction t generalizing y with
  | nil => simp [StrictX]
  | cons a t ih =>
    cases y with
    | nil => simp [StrictX]
    | cons b y =>
      rw [List.pairwise_cons] at ht
      rw [List.zip_cons_cons, StrictX, List.pairwise_cons]
      exact ⟨fun p hp => ht.1 p.1 (List.of_mem_zip hp).1, ih ht.2⟩

/-- Resampling a rate signal with step `dt` up to the last multiple `N dt` of `dt` in the data: the new signal has
`N + 1` entries, at every new time the sum of the new rates so far times `dt` is the amount the old signal had gathered
by then, and each new rate but the first times `dt` is the amount gathered in the step that ends there. -/
theorem C44_rate {df out : PyDict (List K)} {dt : K} {tc : String} {rv hv : List String} {t : List K} {tLast : K}
    (hf : GoodFrame df tc t tLast) (hdt : 0 < dt) (h : resampleFrame df dt tc rv hv = .ok out) {col : String}
    {y : List K} (hy : PyDict.get? df col = some y) (hr : col ∈ rv) :
    ∃ new, PyDict.get? out col = some new ∧ new.length = ⌊tLast / dt⌋₊ + 1 ∧
      (∀ k, k ≤ ⌊tLast / dt⌋₊ → (new.take (k + 1)).sum * dt = amount (k * dt) (t.zip y)) ∧
      ∀ k, k + 1 ≤ ⌊tLast / dt⌋₊ → ∃ v, new[k + 1]? = some v ∧
        v * dt = amount ((k + 1 : ℕ) * dt) (t.zip y) - amount (k * dt) (t.zip y) := by
  have hget := resample_get hf.keys h hf.time hf.last col y hy
  rw [if_pos hr] at hget
  have hl : t.length = y.length := (hf.lengths col y hy).symm
  have hst : StrictX (t.zip y) := strict_zip hf.increasing
  have hnew : rateColumn dt (newTimes tLast dt) t y =
      (diff (0 :: (List.range (⌊tLast / dt⌋₊ + 1)).map fun k : ℕ => amount ((k : K) * dt) (t.zip y))).map (· / dt) := by
    rw [rateColumn, newTimes_eq hdt hf.later, List.map_map]
    congr 3
    apply List.map_congr_left
    intro k _
    exact cumu_amount _ t y hl hst
  rw [hnew] at hget
  refine ⟨_, hget, ?_, ?_, ?_⟩
  · rw [List.length_map, diff_length]; simp
  · intro k hk
    rw [← List.map_take, sum_map_div, diff_sum _ _ _ (by simp; omega), div_mul_cancel₀ _ hdt.ne']
    simp
  · intro k hk
    refine ⟨_, by rw [List.getElem?_map, diff_get _ _ _ (by simp; omega)]; rfl, ?_⟩
    rw [div_mul_cancel₀ _ hdt.ne']
    simp

/-- Each new rate over a step covered by the data lies within the bounds of the old rates. -/
theorem C44_rate_bounds {df out : PyDict (List K)} {dt : K} {tc : String} {rv hv : List String} {t : List K} {tLast : K}
    (hf : GoodFrame df tc t tLast) (hdt : 0 < dt) (h : resampleFrame df dt tc rv hv = .ok out) {col : String}
    {y new : List K} (hy : PyDict.get? df col = some y) (hr : col ∈ rv) (hnew : PyDict.get? out col = some new)
    {lo hi : K} (hb : ∀ v ∈ y, lo ≤ v ∧ v ≤ hi) (k : ℕ) (hk : k + 1 ≤ ⌊tLast / dt⌋₊) (hstart : ∀ x ∈ t.head?, x ≤ k * dt) :
    ∃ v, new[k + 1]? = some v ∧ lo ≤ v ∧ v ≤ hi := by
  obtain ⟨new', h1, _, _, h4⟩ := C44_rate hf hdt h hy hr
  rw [hnew] at h1; cases h1
  obtain ⟨v, hv, he⟩ := h4 k hk
  refine ⟨v, hv, ?_⟩
  have hl : t.length = y.length := (hf.lengths col y hy).symm
  have hlast := hf.last
  have hinc := hf.increasing
  have hle : ((k + 1 : ℕ) : K) * dt ≤ tLast := by
    have : ((k + 1 : ℕ) : K) ≤ tLast / dt := le_trans (by exact_mod_cast hk) (Nat.floor_le (div_nonneg hf.later hdt.le))
    rwa [le_div_iff₀ hdt] at this
  cases t with
  | nil => cases hlast
  | cons t0 t =>
    cases y with
    | nil => simp at hl
    | cons y0 y =>
      have hl' : t.length = y.length := by simpa using hl
      have hst := strict_zip (y := y0 :: y) hinc
      rw [List.zip_cons_cons] at hst he
      have hst2 := List.pairwise_cons.1 hst
      have h0 : t0 ≤ k * dt := hstart t0 (by simp)
      have hab : (k : K) * dt ≤ ((k + 1 : ℕ) : K) * dt := by push_cast; nlinarith
      obtain ⟨w, hw, hw1, hw2⟩ := amountFrom_rate (lo := lo) (hi := hi) (t.zip y) t0 (k * dt) ((k + 1 : ℕ) * dt)
        hst2.1 hst2.2 (fun q hq => hb q.2 (by simp [(List.of_mem_zip hq).2])) hab
      have hL : ((t.zip y).getLastD (t0, 0)).1 = tLast := by
        have e : ((t.zip y).getLastD (t0, 0)).1 = t.getLastD t0 := by
          clear * - hl'
          induction t generalizing y t0 with
          | nil => simp
          | cons a t ih =>
            cases y with
            | nil => simp at hl'
            | cons b y =>
              have h2 : t.length = y.length := by simpa using hl'
              rw [List.zip_cons_cons]
              have e1 : ((a, b) :: t.zip y).getLastD (t0, 0) = (t.zip y).getLastD (a, b) := by
                cases h : (t.zip y).getLast? with
                | none => simp [List.getLast?_cons, h]
                | some z => simp [List.getLast?_cons, h]
              have e2 : (a :: t).getLastD t0 = t.getLastD a := by
                cases h : t.getLast? with
                | none => simp [List.getLast?_cons, h]
                | some z => simp [List.getLast?_cons, h]
              have e3 : ((t.zip y).getLastD (a, b)).1 = ((t.zip y).getLastD (a, 0)).1 := by
                cases h : (t.zip y).getLast? with
                | none => simp [h]
                | some z => simp [h]
              rw [e1, e2, e3, ih a y h2]
        rw [e]
        cases h : t.getLast? with
        | none => simp [List.getLast?_cons, h] at hlast ⊢; exact hlast
        | some z => simp [List.getLast?_cons, h] at hlast ⊢; exact hlast
      rw [hL, min_eq_left hle, min_eq_left (hab.trans hle), max_eq_right h0, max_eq_right (h0.trans hab)] at hw1 hw2
      have hvw : v * dt = w := by rw [he, ← hw]; rfl
      have hstep : ((k + 1 : ℕ) : K) * dt - k * dt = dt := by push_cast; ring
      rw [hstep, ← hvw] at hw1 hw2
      exact ⟨le_of_mul_le_mul_right hw1 hdt, le_of_mul_le_mul_right hw2 hdt⟩

/-- When the step divides the data, the resampled rate adds up to the whole of the old signal. -/
theorem C44_total {df out : PyDict (List K)} {dt : K} {tc : String} {rv hv : List String} {t : List K} {tLast : K}
    (hf : GoodFrame df tc t tLast) (hdt : 0 < dt) (h : resampleFrame df dt tc rv hv = .ok out) {col : String}
    {y : List K} (hy : PyDict.get? df col = some y) (hr : col ∈ rv) (N : ℕ) (hN : tLast = N * dt) :
    ∃ new, PyDict.get? out col = some new ∧
      new.sum * dt = (List.zipWith (fun a b : K × K => b.2 * (b.1 - a.1)) (t.zip y) (t.zip y).tail).sum := by
  obtain ⟨new, h1, h2, h3, _⟩ := C44_rate hf hdt h hy hr
  refine ⟨new, h1, ?_⟩
  have hfl : ⌊tLast / dt⌋₊ = N := by
    rw [hN, mul_div_cancel_right₀ _ hdt.ne', Nat.floor_natCast]
  have h4 := h3 N (by rw [hfl])
  rw [List.take_of_length_le (by rw [h2, hfl])] at h4
  rw [h4, ← hN]
  have hl : t.length = y.length := (hf.lengths col y hy).symm
  have hlast := hf.last
  have hinc := hf.increasing
  cases t with
  | nil => cases hlast
  | cons t0 t =>
    cases y with
    | nil => simp at hl
    | cons y0 y =>
      rw [List.zip_cons_cons, List.tail_cons]
      apply C44_amount_total
      · have := strict_zip (y := y0 :: y) hinc
        rwa [List.zip_cons_cons] at this
      · intro q hq
        have hq' : q.1 ∈ t0 :: t := by
          have : q ∈ (t0 :: t).zip (y0 :: y) := by rw [List.zip_cons_cons]; exact hq
          exact (List.of_mem_zip this).1
        have hL : (t0 :: t).getLast (by simp) = tLast := by
          rw [List.getLast?_eq_some_getLast (by simp)] at hlast
          simpa using hlast
        rcases List.mem_iff_append.1 hq' with ⟨l1, l2, e⟩
        by_cases hl2 : l2 = []
        · subst hl2
          have : q.1 = tLast := by
            rw [← hL]; simp only [e]; simp
          exact this.le
        · have hp : (l1 ++ q.1 :: l2).Pairwise (· < ·) := e ▸ hinc
          have hp2 := (List.pairwise_append.1 hp).2.1
          have : tLast ∈ l2 := by
            have e2 : tLast = l2.getLast hl2 := by
              rw [← hL]; simp only [e]
              rw [List.getLast_append_of_ne_nil _ (by simp), List.getLast_cons hl2]
            rw [e2]; exact List.getLast_mem hl2
          exact ((List.pairwise_cons.1 hp2).1 _ this).le

/-- A column that is neither rate nor hold is interpolated: it stays within the bounds of the data and agrees with it at
common times. -/
theorem C44_state {df out : PyDict (List K)} {dt : K} {tc : String} {rv hv : List String} {t : List K} {tLast : K}
    (hf : GoodFrame df tc t tLast) (hdt : 0 < dt) (h : resampleFrame df dt tc rv hv = .ok out) {col : String}
    {y : List K} (hy : PyDict.get? df col = some y) (hr : col ∉ rv) (hh : col ∉ hv) :
    ∃ new, PyDict.get? out col = some new ∧ new.length = ⌊tLast / dt⌋₊ + 1 ∧
      (∀ lo hi, (∀ v ∈ y, lo ≤ v ∧ v ≤ hi) → ∀ v ∈ new, lo ≤ v ∧ v ≤ hi) ∧
      (∀ (k i : ℕ) (v : K), k ≤ ⌊tLast / dt⌋₊ → t[i]? = some ((k : K) * dt) → y[i]? = some v → new[k]? = some v) ∧
      ∀ (k i : ℕ) (a b va vb : K), k ≤ ⌊tLast / dt⌋₊ → t[i]? = some a → t[i + 1]? = some b → y[i]? = some va →
        y[i + 1]? = some vb → a < k * dt → k * dt < b →
        new[k]? = some (va + (vb - va) * ((k * dt - a) / (b - a))) := by
  have hget := resample_get hf.keys h hf.time hf.last col y hy
  rw [if_neg hr, if_neg hh] at hget
  have hl : t.length = y.length := (hf.lengths col y hy).symm
  have hst : StrictX (t.zip y) := strict_zip hf.increasing
  have hne : t.zip y ≠ [] := by
    have hlast := hf.last
    cases t with
    | nil => cases hlast
    | cons t0 t =>
      cases y with
      | nil => simp at hl
      | cons y0 y => simp
  have hnew : interpColumn (newTimes tLast dt) t y =
      (List.range (⌊tLast / dt⌋₊ + 1)).map fun k : ℕ => interp ((k : K) * dt) (t.zip y) := by
    rw [interpColumn, newTimes_eq hdt hf.later, List.map_map]; rfl
  rw [hnew] at hget
  refine ⟨_, hget, by simp, ?_, ?_, ?_⟩
  · intro lo hi hb v hv
    obtain ⟨k, _, rfl⟩ := List.mem_map.1 hv
    exact interp_bounds _ lo hi _ hne fun p hp => hb p.2 (List.of_mem_zip hp).2
  · intro k i v hk ht hy
    rw [List.getElem?_map, List.getElem?_range (by omega)]
    have hm : ((k : K) * dt, v) ∈ t.zip y := by
      apply List.mem_of_getElem? (i := i)
      rw [List.getElem?_zip_eq_some]
      exact ⟨ht, hy⟩
    show some (interp _ _) = _
    have := interp_knot hst hm
    rw [this]
  · intro k i a b va vb hk ha hb hva hvb h1 h2
    rw [List.getElem?_map, List.getElem?_range (by omega)]
    show some (interp _ _) = _
    have hi : i + 1 < (t.zip y).length := by
      have : i + 1 < t.length := by
        by_contra hc; rw [List.getElem?_eq_none (by omega)] at hb; cases hb
      simp [← hl]; omega
    have e1 : (t.zip y)[i]? = some (a, va) := by rw [List.getElem?_zip_eq_some]; exact ⟨ha, hva⟩
    have e2 : (t.zip y)[i + 1]? = some (b, vb) := by rw [List.getElem?_zip_eq_some]; exact ⟨hb, hvb⟩
    have split : t.zip y = (t.zip y).take i ++ (a, va) :: (b, vb) :: (t.zip y).drop (i + 2) := by
      conv_lhs => rw [← List.take_append_drop i (t.zip y)]
      congr 1
      rw [List.drop_eq_getElem_cons (by omega), List.drop_eq_getElem_cons (by omega)]
      rw [List.getElem?_eq_getElem (by omega)] at e1 e2
      rw [Option.some.inj e1, Option.some.inj e2]
    rw [split, interp_mid (split ▸ hst.sorted) h1 h2]
    have hd : b - a ≠ 0 := by
      have : a < b := h1.trans h2
      exact (sub_pos.2 this).ne'
    congr 1
    field_simp
    ring

/-- Disagreement: columns named in `hold_vars` are missing from the result instead of being held. -/
theorem C44_hold_dropped {df out : PyDict (List K)} {dt : K} {tc : String} {rv hv : List String} {t : List K} {tLast : K}
    (hf : GoodFrame df tc t tLast) (h : resampleFrame df dt tc rv hv = .ok out) {col : String} {y : List K}
    (hy : PyDict.get? df col = some y) (hr : col ∉ rv) (hh : col ∈ hv) : PyDict.get? out col = none := by
  have hget := resample_get hf.keys h hf.time hf.last col y hy
  rwa [if_neg hr, if_pos hh] at hget

end Floor

/-- Three columns at uneven times. -/
def _root_.Fastsim.Spec.demoFrame : PyDict (List ℚ) :=
  [("Time[s]", [0, 1, 3, 4]), ("flow", [5, 2, 4, 1]), ("temp", [20, 22, 26, 30]), ("gear", [1, 1, 2, 2])]

theorem demo_frame : GoodFrame demoFrame "Time[s]" [0, 1, 3, 4] 4 := by
  refine ⟨by decide, by decide +kernel, rfl, ?_, by decide +kernel, by norm_num⟩
  intro c y hy
  have hm := PyDict.get?_mem hy
  simp only [demoFrame, List.mem_cons, Prod.mk.injEq, List.not_mem_nil, or_false] at hm
  rcases hm with ⟨_, rfl⟩ | ⟨_, rfl⟩ | ⟨_, rfl⟩ | ⟨_, rfl⟩ <;> rfl

/-- Halved and doubled steps in one: the flow adds up to 2 + 8 + 1 = 11, the temperature is interpolated, the gear is
gone. -/
theorem demo_resample : resampleFrame demoFrame 2 "Time[s]" ["flow"] ["gear"] =
    .ok [("Time[s]", [0, 2, 4]), ("flow", [0, 3, 5 / 2]), ("temp", [20, 24, 30])] := by decide +kernel

/-- Disagreement: if the step does not divide the data, the rest of the signal is lost: here everything after 3 s. -/
theorem C44_rest_lost : resampleFrame demoFrame 3 "Time[s]" ["flow"] [] =
    .ok [("Time[s]", [0, 3]), ("flow", [0, 10 / 3]), ("temp", [20, 26]), ("gear", [1, 2])] := by decide +kernel

end Fastsim.Props
