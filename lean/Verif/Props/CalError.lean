import Verif.Model.Frame
import Mathlib.Tactic.FieldSimp
import Mathlib.Tactic.Linarith
import Mathlib.Tactic.Positivity
import Mathlib.Tactic.Ring
import Mathlib.Algebra.Order.Field.Rat
import Mathlib.Algebra.Order.Field.Basic
import Mathlib.Algebra.Order.AbsoluteValue.Basic

/-!
# C45: the calibration error is a distance between signals
-/
set_option linter.unusedSectionVars false

namespace Fastsim.Spec
end Fastsim.Spec

namespace Fastsim.Props
open Fastsim Spec

variable {K : Type*} [Field K] [LinearOrder K] [IsStrictOrderedRing K]

theorem pabs_abs' (x : K) : pabs x = |x| := by
  unfold pabs
  split
  · rename_i h; rw [abs_of_neg h]
  · rename_i h; rw [abs_of_nonneg (not_lt.1 h)]

/-- Times that increase from first to last, at least two of them. -/
def _root_.Fastsim.Spec.TimeBase (x : List K) : Prop := x.Pairwise (· < ·) ∧ 2 ≤ x.length

/-- Time-averaged size of a signal `e` on the times `x`: areas of trapezoids over the duration. -/
def _root_.Fastsim.Spec.meanSize : List (K × K) → K
  | [] => 0
  | p :: r => (List.zipWith (fun a b : K × K => (b.1 - a.1) * ((|a.2| + |b.2|) / 2)) (p :: r) r).sum /
      (((p :: r).getLast (by simp)).1 - p.1)

theorem trapz_abs : ∀ (p : K × K) (l : List (K × K)),
    trapz ((p :: l).map fun q => (q.1, |q.2|)) =
      (List.zipWith (fun a b : K × K => (b.1 - a.1) * ((|a.2| + |b.2|) / 2)) (p :: l) l).sum
  | p, [] => rfl
  | p, q :: l => by
    have ih := trapz_abs q l
    rw [List.map_cons] at ih
    rw [List.map_cons, List.map_cons, trapz, ih, List.zipWith_cons_cons, List.sum_cons]
    ring

/-- The error is the time-averaged size of the difference; signals of other lengths raise `AssertionError`, empty ones
`IndexError`. -/
theorem C45_value (m t x : List K) :
    (¬ (m.length = x.length ∧ t.length = x.length) ∧ getErrorVal m t x = .error .assertionError) ∨
    (m.length = x.length ∧ t.length = x.length ∧ x = [] ∧ getErrorVal m t x = .error .indexError) ∨
    (m.length = x.length ∧ t.length = x.length ∧ x ≠ [] ∧
      getErrorVal m t x = .ok (meanSize (x.zip (List.zipWith (· - ·) m t)))) := by
  by_cases h : m.length = x.length ∧ t.length = x.length
  · have h' : m.length = t.length ∧ t.length = x.length := ⟨h.1.trans h.2.symm, h.2⟩
    right
    cases x with
    | nil =>
      left
      refine ⟨h.1, h.2, rfl, ?_⟩
      simp only [getErrorVal, if_pos h']
      rfl
    | cons x0 x =>
      right
      refine ⟨h.1, h.2, by simp, ?_⟩
      have hz : (x0 :: x).zip (List.zipWith (fun m t => pabs (m - t)) m t) =
          ((x0 :: x).zip (List.zipWith (· - ·) m t)).map fun q => (q.1, |q.2|) := by
        have : List.zipWith (fun m t => pabs (m - t)) m t = (List.zipWith (· - ·) m t).map fun e => |e| := by
          rw [List.map_zipWith]; simp only [pabs_abs']
        rw [this, List.zip_map_right]; rfl
      cases m with
      | nil => simp at h
      | cons m0 m =>
        cases t with
        | nil => simp at h
        | cons t0 t =>
          simp only [getErrorVal, if_pos h', hz]
          have hl : (x0 :: x).getLast? = some ((x0 :: x).getLast (by simp)) := List.getLast?_eq_some_getLast (by simp)
          simp only [hl, List.head?_cons, Except.ok.injEq]
          simp only [List.zipWith_cons_cons, List.zip_cons_cons]
          rw [trapz_abs, meanSize]
          congr 1
          have hlen : x.length = (List.zipWith (· - ·) m t).length := by
            simp only [List.length_cons] at h
            rw [List.length_zipWith]; omega
          have : ∀ (x e : List K) (x0 e0 : K), x.length = e.length →
              (((x0, e0) :: x.zip e).getLast (by simp)).1 = (x0 :: x).getLast (by simp) := by
            intro x
            induction x with
            | nil => intro e x0 e0 _; rfl
            | cons a x ih =>
              intro e x0 e0 he
              cases e with
              | nil => simp at he
              | cons b e =>
                rw [List.zip_cons_cons]
                rw [List.getLast_cons (List.cons_ne_nil _ _), ih e a b (by simpa using he)]
                exact (List.getLast_cons (List.cons_ne_nil _ _)).symm
          rw [this x _ x0 _ hlen]
  · left
    refine ⟨h, ?_⟩
    have h' : ¬ (m.length = t.length ∧ t.length = x.length) := fun h' => h ⟨h'.1.trans h'.2, h'.2⟩
    simp only [getErrorVal, if_neg h']

/-- Signals on a common time base have an error. -/
theorem err_ok {m t x : List K} (hx : TimeBase x) (hm : m.length = x.length) (ht : t.length = x.length) :
    getErrorVal m t x = .ok (meanSize (x.zip (List.zipWith (· - ·) m t))) := by
  rcases C45_value m t x with ⟨h, _⟩ | ⟨_, _, h, _⟩ | ⟨_, _, _, h⟩
  · exact absurd ⟨hm, ht⟩ h
  · have := hx.2; rw [h] at this; simp at this
  · exact h

/-! ### Sums over the intervals -/

/-- Area under the absolute value. -/
def area : List (K × K) → K
  | p :: q :: r => (q.1 - p.1) * ((|p.2| + |q.2|) / 2) + area (q :: r)
  | _ => 0

theorem area_eq : ∀ (p : K × K) (l : List (K × K)),
    (List.zipWith (fun a b : K × K => (b.1 - a.1) * ((|a.2| + |b.2|) / 2)) (p :: l) l).sum = area (p :: l)
  | p, [] => rfl
  | p, q :: l => by rw [List.zipWith_cons_cons, List.sum_cons, area_eq q l, area]

/-- Duration of the samples. -/
def dur : List (K × K) → K
  | p :: q :: r => (q.1 - p.1) + dur (q :: r)
  | _ => 0

theorem dur_eq : ∀ (p : K × K) (l : List (K × K)), ((p :: l).getLast (by simp)).1 - p.1 = dur (p :: l)
  | p, [] => by simp [dur]
  | p, q :: l => by
    rw [List.getLast_cons (by simp), dur, ← dur_eq q l]; ring

theorem meanSize_eq (l : List (K × K)) : meanSize l = area l / dur l := by
  cases l with
  | nil => simp [meanSize, area]
  | cons p l => rw [meanSize, area_eq, dur_eq]

theorem zip_base {x e : List K} (hx : TimeBase x) (he : e.length = x.length) :
    (x.zip e).Pairwise (fun a b => a.1 < b.1) ∧ 2 ≤ (x.zip e).length := by
  refine ⟨?_, by rw [List.length_zip, he, min_self]; exact hx.2⟩
  have hx1 := hx.1
  clear hx he
  induction x generalizing e with
  | nil => simp
  | cons a x ih =>
    cases e with
    | nil => simp
    | cons b e =>
      rw [List.pairwise_cons] at hx1
      rw [List.zip_cons_cons, List.pairwise_cons]
      exact ⟨fun q hq => hx1.1 q.1 (List.of_mem_zip hq).1, ih hx1.2⟩

theorem dur_nonneg : ∀ {l : List (K × K)}, l.Pairwise (fun a b => a.1 < b.1) → 0 ≤ dur l
  | [], _ => le_refl _
  | [_], _ => le_refl _
  | p :: q :: r, h => by
    have h1 := (List.pairwise_cons.1 h).1 q (by simp)
    have := dur_nonneg (List.pairwise_cons.1 h).2
    rw [dur]; linarith

theorem dur_pos {l : List (K × K)} (h : l.Pairwise (fun a b => a.1 < b.1)) (h2 : 2 ≤ l.length) : 0 < dur l := by
  match l, h, h2 with
  | p :: q :: r, h, _ =>
    have h1 := (List.pairwise_cons.1 h).1 q (by simp)
    have := dur_nonneg (List.pairwise_cons.1 h).2
    rw [dur]; linarith

theorem area_nonneg : ∀ {l : List (K × K)}, l.Pairwise (fun a b => a.1 < b.1) → 0 ≤ area l
  | [], _ => le_refl _
  | [_], _ => le_refl _
  | p :: q :: r, h => by
    have h1 := (List.pairwise_cons.1 h).1 q (by simp)
    have h2 := area_nonneg (List.pairwise_cons.1 h).2
    rw [area]
    have : 0 ≤ (q.1 - p.1) * ((|p.2| + |q.2|) / 2) :=
      mul_nonneg (by linarith) (by positivity)
    linarith

theorem area_zero : ∀ {l : List (K × K)}, l.Pairwise (fun a b => a.1 < b.1) → 2 ≤ l.length → area l = 0 →
    ∀ p ∈ l, p.2 = 0
  | p :: q :: r, h, _, h0 => by
    have h1 := (List.pairwise_cons.1 h).1 q (by simp)
    have h2 := area_nonneg (List.pairwise_cons.1 h).2
    rw [area] at h0
    have hpos : 0 < q.1 - p.1 := by linarith
    have hn : 0 ≤ (q.1 - p.1) * ((|p.2| + |q.2|) / 2) := mul_nonneg hpos.le (by positivity)
    have e1 : (q.1 - p.1) * ((|p.2| + |q.2|) / 2) = 0 := by linarith
    have e2 : area (q :: r) = 0 := by linarith
    have e3 : |p.2| + |q.2| = 0 := by
      rcases mul_eq_zero.1 e1 with h | h
      · exact absurd h hpos.ne'
      · linarith
    have hp : p.2 = 0 := abs_eq_zero.1 (by linarith [abs_nonneg p.2, abs_nonneg q.2])
    have hq : q.2 = 0 := abs_eq_zero.1 (by linarith [abs_nonneg p.2, abs_nonneg q.2])
    intro z hz
    rcases List.mem_cons.1 hz with rfl | hz
    · exact hp
    · cases r with
      | nil =>
        have : z = q := by simpa using hz
        rw [this]; exact hq
      | cons w r => exact area_zero (List.pairwise_cons.1 h).2 (by simp) e2 z hz

theorem area_of_zero : ∀ {l : List (K × K)}, (∀ p ∈ l, p.2 = 0) → area l = 0
  | [], _ => rfl
  | [_], _ => rfl
  | p :: q :: r, h => by
    rw [area, h p (by simp), h q (by simp), area_of_zero (fun z hz => h z (by simp [List.mem_cons.1 hz]))]
    simp

/-! ### The distance laws -/

/-- The error is never negative, is zero exactly when the signals agree at every sample, and does not depend on which
signal is called the model. -/
theorem C45_distance {m t x : List K} (hx : TimeBase x) (hm : m.length = x.length) (ht : t.length = x.length) :
    ∃ e, getErrorVal m t x = .ok e ∧ getErrorVal t m x = .ok e ∧ 0 ≤ e ∧ (e = 0 ↔ m = t) := by
  refine ⟨_, err_ok hx hm ht, ?_, ?_, ?_⟩
  · rw [err_ok hx ht hm, meanSize_eq, meanSize_eq]
    congr 1
    have key : ∀ (x m t : List K), area (x.zip (List.zipWith (· - ·) t m)) = area (x.zip (List.zipWith (· - ·) m t)) ∧
        dur (x.zip (List.zipWith (· - ·) t m)) = dur (x.zip (List.zipWith (· - ·) m t)) := by
      intro x
      induction x with
      | nil => intro m t; simp [area, dur]
      | cons a x ih =>
        intro m t
        cases m with
        | nil => simp [area, dur]
        | cons m0 m =>
          cases t with
          | nil => simp [area, dur]
          | cons t0 t =>
            have ih := ih m t
            cases x with
            | nil => simp [area, dur]
            | cons b x =>
              cases m with
              | nil => simp [area, dur]
              | cons m1 m =>
                cases t with
                | nil => simp [area, dur]
                | cons t1 t =>
                  simp only [List.zipWith_cons_cons, List.zip_cons_cons, area, dur] at ih ⊢
                  rw [ih.1, ih.2, abs_sub_comm m0 t0, abs_sub_comm m1 t1]
                  exact ⟨rfl, rfl⟩
    rw [(key x m t).1, (key x m t).2]
  · rw [meanSize_eq]
    have hb := zip_base hx (e := List.zipWith (· - ·) m t) (by rw [List.length_zipWith, hm, ht, min_self])
    exact div_nonneg (area_nonneg hb.1) (dur_pos hb.1 hb.2).le
  · have hb := zip_base hx (e := List.zipWith (· - ·) m t) (by rw [List.length_zipWith, hm, ht, min_self])
    rw [meanSize_eq, div_eq_zero_iff, or_iff_left (dur_pos hb.1 hb.2).ne']
    constructor
    · intro h0
      have hz := area_zero hb.1 hb.2 h0
      have hall : ∀ e ∈ List.zipWith (· - ·) m t, e = 0 := by
        intro e he
        obtain ⟨i, hi, rfl⟩ := List.getElem_of_mem he
        have hix : i < x.length := by rw [List.length_zipWith, hm, ht, min_self] at hi; exact hi
        exact hz (x[i], _) (by
          rw [← List.getElem_zip (h := by simp [hm, ht]; omega)]
          exact List.getElem_mem _)
      apply List.ext_getElem (hm.trans ht.symm)
      intro i h1 h2
      have : (List.zipWith (· - ·) m t)[i]'(by simp; omega) = 0 := hall _ (List.getElem_mem _)
      rw [List.getElem_zipWith] at this
      exact sub_eq_zero.1 this
    · rintro rfl
      apply area_of_zero
      intro p hp
      have := (List.of_mem_zip hp).2
      obtain ⟨i, hi, he⟩ := List.getElem_of_mem this
      rw [List.getElem_zipWith, sub_self] at he
      exact he.symm

/-- Going through a third signal is never shorter. -/
theorem C45_triangle {m t u x : List K} (hx : TimeBase x) (hm : m.length = x.length) (ht : t.length = x.length)
    (hu : u.length = x.length) :
    ∃ a b c, getErrorVal m t x = .ok a ∧ getErrorVal m u x = .ok b ∧ getErrorVal u t x = .ok c ∧ a ≤ b + c := by
  refine ⟨_, _, _, err_ok hx hm ht, err_ok hx hm hu, err_ok hx hu ht, ?_⟩
  simp only [meanSize_eq]
  have key : ∀ (x m t u : List K), x.Pairwise (· < ·) → m.length = x.length → t.length = x.length → u.length = x.length →
      area (x.zip (List.zipWith (· - ·) m t)) ≤ area (x.zip (List.zipWith (· - ·) m u)) + area (x.zip (List.zipWith (· - ·) u t)) ∧
      dur (x.zip (List.zipWith (· - ·) m u)) = dur (x.zip (List.zipWith (· - ·) m t)) ∧
      dur (x.zip (List.zipWith (· - ·) u t)) = dur (x.zip (List.zipWith (· - ·) m t)) := by
    intro x
    induction x with
    | nil => intro m t u _ _ _ _; simp [area, dur]
    | cons a x ih =>
      intro m t u hp hm ht hu
      cases m with
      | nil => simp at hm
      | cons m0 m =>
      cases t with
      | nil => simp at ht
      | cons t0 t =>
      cases u with
      | nil => simp at hu
      | cons u0 u =>
        have ih := ih m t u (List.pairwise_cons.1 hp).2 (by simpa using hm) (by simpa using ht) (by simpa using hu)
        cases x with
        | nil => simp [area, dur]
        | cons b x =>
        cases m with
        | nil => simp at hm
        | cons m1 m =>
        cases t with
        | nil => simp at ht
        | cons t1 t =>
        cases u with
        | nil => simp at hu
        | cons u1 u =>
          simp only [List.zipWith_cons_cons, List.zip_cons_cons, area, dur] at ih ⊢
          have hab : 0 ≤ b - a := by
            have := (List.pairwise_cons.1 hp).1 b (by simp); linarith
          have h1 := abs_sub_le m0 u0 t0
          have h2 := abs_sub_le m1 u1 t1
          refine ⟨?_, by rw [ih.2.1], by rw [ih.2.2]⟩
          have := mul_le_mul_of_nonneg_left (add_le_add h1 h2) hab
          linarith [ih.1]
  obtain ⟨h1, h2, h3⟩ := key x m t u hx.1 hm ht hu
  have hb := zip_base hx (e := List.zipWith (· - ·) m t) (by rw [List.length_zipWith, hm, ht, min_self])
  rw [h2, h3, ← add_div]
  exact div_le_div_of_nonneg_right h1 (dur_pos hb.1 hb.2).le

/-- A signal that is everywhere off by at least `lo` and at most `hi` has an error between `lo` and `hi`; so a constant
offset is the error. -/
theorem C45_bounds {m t x : List K} (hx : TimeBase x) (hm : m.length = x.length) (ht : t.length = x.length) {lo hi : K}
    (hb : ∀ d ∈ List.zipWith (· - ·) m t, lo ≤ |d| ∧ |d| ≤ hi) :
    ∃ e, getErrorVal m t x = .ok e ∧ lo ≤ e ∧ e ≤ hi := by
  refine ⟨_, err_ok hx hm ht, ?_⟩
  have hz := zip_base hx (e := List.zipWith (· - ·) m t) (by rw [List.length_zipWith, hm, ht, min_self])
  have hd := dur_pos hz.1 hz.2
  have key : ∀ {l : List (K × K)}, l.Pairwise (fun a b => a.1 < b.1) → (∀ p ∈ l, lo ≤ |p.2| ∧ |p.2| ≤ hi) →
      lo * dur l ≤ area l ∧ area l ≤ hi * dur l := by
    intro l
    induction l with
    | nil => intro _ _; simp [area, dur]
    | cons p l ih =>
      intro hp hb
      cases l with
      | nil => simp [area, dur]
      | cons q r =>
        have ih := ih (List.pairwise_cons.1 hp).2 (fun z hz => hb z (by simp [List.mem_cons.1 hz]))
        have h1 := hb p (by simp)
        have h2 := hb q (by simp)
        have hpq : 0 ≤ q.1 - p.1 := by
          have := (List.pairwise_cons.1 hp).1 q (by simp); linarith
        rw [area, dur]
        constructor
        · have := mul_le_mul_of_nonneg_left (show lo ≤ (|p.2| + |q.2|) / 2 by linarith [h1.1, h2.1]) hpq
          nlinarith [ih.1]
        · have := mul_le_mul_of_nonneg_left (show (|p.2| + |q.2|) / 2 ≤ hi by linarith [h1.2, h2.2]) hpq
          nlinarith [ih.2]
  have := key hz.1 (fun p hp => hb p.2 (List.of_mem_zip hp).2)
  rw [meanSize_eq]
  exact ⟨(le_div_iff₀ hd).2 this.1, (div_le_iff₀ hd).2 this.2⟩

/-- Scaling both signals scales the error by the absolute value of the factor. -/
theorem C45_scale {m t x : List K} (hx : TimeBase x) (hm : m.length = x.length) (ht : t.length = x.length) (c : K) :
    ∃ e, getErrorVal m t x = .ok e ∧ getErrorVal (m.map (c * ·)) (t.map (c * ·)) x = .ok (|c| * e) := by
  refine ⟨_, err_ok hx hm ht, ?_⟩
  rw [err_ok hx (by simpa using hm) (by simpa using ht), meanSize_eq, meanSize_eq]
  have key : ∀ (x m t : List K), area (x.zip (List.zipWith (· - ·) (m.map (c * ·)) (t.map (c * ·)))) =
      |c| * area (x.zip (List.zipWith (· - ·) m t)) ∧
      dur (x.zip (List.zipWith (· - ·) (m.map (c * ·)) (t.map (c * ·)))) = dur (x.zip (List.zipWith (· - ·) m t)) := by
    intro x
    induction x with
    | nil => intro m t; simp [area, dur]
    | cons a x ih =>
      intro m t
      cases m with
      | nil => simp [area, dur]
      | cons m0 m =>
      cases t with
      | nil => simp [area, dur]
      | cons t0 t =>
        have ih := ih m t
        cases x with
        | nil => simp [area, dur]
        | cons b x =>
        cases m with
        | nil => simp [area, dur]
        | cons m1 m =>
        cases t with
        | nil => simp [area, dur]
        | cons t1 t =>
          simp only [List.map_cons, List.zipWith_cons_cons, List.zip_cons_cons, area, dur] at ih ⊢
          rw [ih.1, ih.2, ← mul_sub, ← mul_sub, abs_mul, abs_mul]
          exact ⟨by ring, rfl⟩
  rw [(key x m t).1, (key x m t).2, mul_div_assoc]

/-- The origin and unit of time do not matter. -/
theorem C45_time {m t x : List K} (hx : TimeBase x) (hm : m.length = x.length) (ht : t.length = x.length) {k : K}
    (hk : 0 < k) (s : K) :
    getErrorVal m t (x.map fun y => k * y + s) = getErrorVal m t x := by
  have hx' : TimeBase (x.map fun y => k * y + s) := by
    refine ⟨?_, by simpa using hx.2⟩
    rw [List.pairwise_map]
    apply hx.1.imp
    intro a b hab
    have := mul_lt_mul_of_pos_left hab hk
    linarith
  rw [err_ok hx hm ht, err_ok hx' (by simpa using hm) (by simpa using ht), meanSize_eq, meanSize_eq]
  have key : ∀ (x e : List K), area ((x.map fun y => k * y + s).zip e) = k * area (x.zip e) ∧
      dur ((x.map fun y => k * y + s).zip e) = k * dur (x.zip e) := by
    intro x
    induction x with
    | nil => intro e; simp [area, dur]
    | cons a x ih =>
      intro e
      cases e with
      | nil => simp [area, dur]
      | cons e0 e =>
        have ih := ih e
        cases x with
        | nil => simp [area, dur]
        | cons b x =>
        cases e with
        | nil => simp [area, dur]
        | cons e1 e =>
          simp only [List.map_cons, List.zip_cons_cons, area, dur] at ih ⊢
          rw [ih.1, ih.2]
          exact ⟨by ring, by ring⟩
  rw [(key x _).1, (key x _).2, mul_div_mul_left _ _ hk.ne']

/-- A concrete case: off by 2, 0 and 1 at the times 0, 1 and 3, so 1 second of average 1 and 2 seconds of average 1/2. -/
theorem demo_error : TimeBase ([0, 1, 3] : List ℚ) ∧ getErrorVal ([3, 5, 4] : List ℚ) [1, 5, 5] [0, 1, 3] = .ok (2 / 3) := by
  refine ⟨⟨by decide +kernel, by decide⟩, by decide +kernel⟩

end Fastsim.Props
