import Mathlib.Algebra.Order.Field.Basic
import Mathlib.Tactic.Linarith
import Mathlib.Tactic.FieldSimp
import Mathlib.Tactic.Ring
import Verif.Model.Np

/-!
# Facts about `np.interp`
-/

set_option linter.unusedSectionVars false

namespace Fastsim

section
variable {K : Type*} [Field K] [LinearOrder K] [IsStrictOrderedRing K]

/-- Abscissae never decrease. -/
def SortedX (l : List (K × K)) : Prop := l.Pairwise fun a b => a.1 ≤ b.1
/-- Abscissae strictly increase. -/
def StrictX (l : List (K × K)) : Prop := l.Pairwise fun a b => a.1 < b.1

theorem StrictX.sorted {l : List (K × K)} (h : StrictX l) : SortedX l := List.Pairwise.imp le_of_lt h

theorem interp_of_ge {p q : K × K} {r : List (K × K)} {x : K} (h : q.1 ≤ x) :
    interp x (p :: q :: r) = interp x (q :: r) := by rw [interp, if_neg (not_lt.2 h)]

theorem interp_of_lt {p q : K × K} {r : List (K × K)} {x : K} (h : x < q.1) (h' : p.1 < x) :
    interp x (p :: q :: r) = (q.2 - p.2) / (q.1 - p.1) * (x - p.1) + p.2 := by
  rw [interp, if_pos h, if_neg (not_le.2 h')]

theorem interp_left {p : K × K} {l : List (K × K)} (h : StrictX (p :: l)) {x : K} (hx : x ≤ p.1) :
    interp x (p :: l) = p.2 := by
  cases l with
  | nil => rfl
  | cons q r =>
    have hq : p.1 < q.1 := (List.pairwise_cons.1 h).1 q (by simp)
    rw [interp, if_pos (lt_of_le_of_lt hx hq), if_pos hx]

/-- Left of the first abscissa, even with repeated abscissae. -/
theorem interp_lt_left {p : K × K} {l : List (K × K)} (h : SortedX (p :: l)) {x : K} (hx : x < p.1) :
    interp x (p :: l) = p.2 := by
  cases l with
  | nil => rfl
  | cons q r =>
    have hq : p.1 ≤ q.1 := (List.pairwise_cons.1 h).1 q (by simp)
    rw [interp, if_pos (lt_of_lt_of_le hx hq), if_pos hx.le]

theorem interp_right : ∀ {l : List (K × K)} (h : SortedX l) (hne : l ≠ []) {x : K},
    (l.getLast hne).1 ≤ x → interp x l = (l.getLast hne).2
  | [], _, hne, _, _ => absurd rfl hne
  | [p], _, _, _, _ => rfl
  | p :: q :: r, h, hne, x, hx => by
    have h' := (List.pairwise_cons.1 h).2
    have hq : q.1 ≤ ((q :: r).getLast (by simp)).1 := by
      rcases List.mem_cons.1 (List.getLast_mem (l := q :: r) (by simp)) with e | e
      · rw [e]
      · exact (List.pairwise_cons.1 h').1 _ e
    rw [List.getLast_cons (by simp : q :: r ≠ [])] at hx ⊢
    rw [interp, if_neg (not_lt.2 (hq.trans hx))]
    exact interp_right h' (by simp) hx

theorem interp_knot : ∀ {l : List (K × K)}, StrictX l → ∀ {p : K × K}, p ∈ l → interp p.1 l = p.2
  | [], _, p, hp => by simp at hp
  | [q], _, p, hp => by
    simp only [List.mem_cons, List.not_mem_nil, or_false] at hp
    rw [hp]; rfl
  | a :: q :: r, h, p, hp => by
    rcases List.mem_cons.1 hp with rfl | hp
    · exact interp_left h le_rfl
    · have h' := (List.pairwise_cons.1 h).2
      have hq : q.1 ≤ p.1 := by
        rcases List.mem_cons.1 hp with e | e
        · rw [e]
        · exact ((List.pairwise_cons.1 h').1 _ e).le
      rw [interp, if_neg (not_lt.2 hq)]
      exact interp_knot h' hp

/-- A convex combination stays within bounds. -/
theorem segment_bounds {a b fa fb x lo hi : K} (hab : a < b) (h1 : a ≤ x) (h2 : x ≤ b)
    (ha : lo ≤ fa ∧ fa ≤ hi) (hb : lo ≤ fb ∧ fb ≤ hi) :
    lo ≤ (fb - fa) / (b - a) * (x - a) + fa ∧ (fb - fa) / (b - a) * (x - a) + fa ≤ hi := by
  have hd : 0 < b - a := sub_pos.2 hab
  have e : (fb - fa) / (b - a) * (x - a) + fa = fa * ((b - x) / (b - a)) + fb * ((x - a) / (b - a)) := by
    field_simp; ring
  have w1 : 0 ≤ (b - x) / (b - a) := div_nonneg (sub_nonneg.2 h2) hd.le
  have w2 : 0 ≤ (x - a) / (b - a) := div_nonneg (sub_nonneg.2 h1) hd.le
  have ws : (b - x) / (b - a) + (x - a) / (b - a) = 1 := by field_simp; ring
  have el : lo = lo * ((b - x) / (b - a)) + lo * ((x - a) / (b - a)) := by rw [← mul_add, ws, mul_one]
  have eh : hi = hi * ((b - x) / (b - a)) + hi * ((x - a) / (b - a)) := by rw [← mul_add, ws, mul_one]
  rw [e]
  constructor
  · linarith [mul_le_mul_of_nonneg_right ha.1 w1, mul_le_mul_of_nonneg_right hb.1 w2]
  · linarith [mul_le_mul_of_nonneg_right ha.2 w1, mul_le_mul_of_nonneg_right hb.2 w2]

theorem interp_bounds (x lo hi : K) : ∀ (l : List (K × K)), l ≠ [] → (∀ p ∈ l, lo ≤ p.2 ∧ p.2 ≤ hi) →
    lo ≤ interp x l ∧ interp x l ≤ hi
  | [], hne, _ => absurd rfl hne
  | [p], _, hb => hb p (by simp)
  | p :: q :: r, _, hb => by
    rw [interp]
    split
    · rename_i hq
      split
      · exact hb p (by simp)
      · rename_i hp
        have hp' := not_le.1 hp
        exact segment_bounds (hp'.trans hq) hp'.le hq.le (hb p (by simp)) (hb q (by simp))
    · exact interp_bounds x lo hi (q :: r) (by simp) fun z hz => hb z (List.mem_cons_of_mem _ hz)

/-- Consecutive points of the table have slope between `m` and `M`. -/
def SlopesIn (m M : K) : List (K × K) → Prop
  | p :: q :: r => m * (q.1 - p.1) ≤ q.2 - p.2 ∧ q.2 - p.2 ≤ M * (q.1 - p.1) ∧ SlopesIn m M (q :: r)
  | _ => True

theorem segment_slope {a b fa fb x y m M : K} (hab : a < b) (hxy : x ≤ y)
    (h1 : m * (b - a) ≤ fb - fa) (h2 : fb - fa ≤ M * (b - a)) :
    m * (y - x) ≤ ((fb - fa) / (b - a) * (y - a) + fa) - ((fb - fa) / (b - a) * (x - a) + fa) ∧
    ((fb - fa) / (b - a) * (y - a) + fa) - ((fb - fa) / (b - a) * (x - a) + fa) ≤ M * (y - x) := by
  have hd : 0 < b - a := sub_pos.2 hab
  have e : ((fb - fa) / (b - a) * (y - a) + fa) - ((fb - fa) / (b - a) * (x - a) + fa)
      = (fb - fa) / (b - a) * (y - x) := by ring
  have s1 : m ≤ (fb - fa) / (b - a) := by rw [le_div_iff₀ hd]; exact h1
  have s2 : (fb - fa) / (b - a) ≤ M := by rw [div_le_iff₀ hd]; exact h2
  have hz := sub_nonneg.2 hxy
  rw [e]
  exact ⟨mul_le_mul_of_nonneg_right s1 hz, mul_le_mul_of_nonneg_right s2 hz⟩

/-- Inside the table, the interpolant from the first knot on has slopes between `m` and `M`. -/
theorem interp_from_first : ∀ {p : K × K} {l : List (K × K)}, StrictX (p :: l) → ∀ {m M : K},
    SlopesIn m M (p :: l) → ∀ {x : K}, p.1 ≤ x → x ≤ ((p :: l).getLast (by simp)).1 →
    m * (x - p.1) ≤ interp x (p :: l) - p.2 ∧ interp x (p :: l) - p.2 ≤ M * (x - p.1)
  | p, [], _, m, M, _, x, h1, h2 => by
    have : x = p.1 := le_antisymm h2 h1
    subst this
    simp [interp]
  | p, q :: r, h, m, M, hs, x, h1, h2 => by
    have hpq : p.1 < q.1 := (List.pairwise_cons.1 h).1 q (by simp)
    obtain ⟨s1, s2, s3⟩ := hs
    rw [interp]
    split
    · rename_i hq
      split
      · rename_i hp
        have : x = p.1 := le_antisymm hp h1
        subst this
        simp
      · have := segment_slope (x := p.1) (y := x) hpq h1 s1 s2
        simp only [sub_self, mul_zero, zero_add] at this
        exact this
    · rename_i hq
      have hq' := not_lt.1 hq
      rw [List.getLast_cons (by simp : q :: r ≠ [])] at h2
      obtain ⟨i1, i2⟩ := interp_from_first (List.pairwise_cons.1 h).2 s3 hq' h2
      constructor
      · linarith [mul_sub m x p.1, mul_sub m x q.1, mul_sub m q.1 p.1]
      · linarith [mul_sub M x p.1, mul_sub M x q.1, mul_sub M q.1 p.1]

/-- Inside the table, the interpolant has slopes between `m` and `M`. -/
theorem interp_slope : ∀ {p : K × K} {l : List (K × K)}, StrictX (p :: l) → ∀ {m M : K},
    SlopesIn m M (p :: l) → ∀ {x y : K}, p.1 ≤ x → x ≤ y → y ≤ ((p :: l).getLast (by simp)).1 →
    m * (y - x) ≤ interp y (p :: l) - interp x (p :: l) ∧
      interp y (p :: l) - interp x (p :: l) ≤ M * (y - x)
  | p, [], _, m, M, _, x, y, h1, h2, h3 => by
    have : x = y := le_antisymm h2 (h3.trans h1)
    subst this
    simp
  | p, q :: r, h, m, M, hs, x, y, h1, h2, h3 => by
    have hpq : p.1 < q.1 := (List.pairwise_cons.1 h).1 q (by simp)
    have hs' := hs
    obtain ⟨s1, s2, s3⟩ := hs
    have hr := (List.pairwise_cons.1 h).2
    rcases lt_or_ge x q.1 with hxq | hxq
    · have ex : interp x (p :: q :: r) = (q.2 - p.2) / (q.1 - p.1) * (x - p.1) + p.2 := by
        rw [interp, if_pos hxq]
        split
        · rename_i hp
          have : x = p.1 := le_antisymm hp h1
          subst this
          simp
        · rfl
      rcases lt_or_ge y q.1 with hyq | hyq
      · have ey : interp y (p :: q :: r) = (q.2 - p.2) / (q.1 - p.1) * (y - p.1) + p.2 := by
          rw [interp, if_pos hyq]
          split
          · rename_i hp
            have : y = p.1 := le_antisymm hp (h1.trans h2)
            subst this
            simp
          · rfl
        rw [ex, ey]
        exact segment_slope hpq h2 s1 s2
      · have ey : interp y (p :: q :: r) = interp y (q :: r) := by rw [interp, if_neg (not_lt.2 hyq)]
        rw [List.getLast_cons (by simp : q :: r ≠ [])] at h3
        obtain ⟨i1, i2⟩ := interp_from_first hr s3 hyq h3
        obtain ⟨j1, j2⟩ := segment_slope (x := x) (y := q.1) hpq hxq.le s1 s2
        have eq : (q.2 - p.2) / (q.1 - p.1) * (q.1 - p.1) + p.2 = q.2 := by
          rw [div_mul_cancel₀ _ (ne_of_gt (sub_pos.2 hpq))]; ring
        rw [eq] at j1 j2
        rw [ex, ey]
        constructor
        · linarith [mul_sub m y x, mul_sub m y q.1, mul_sub m q.1 x]
        · linarith [mul_sub M y x, mul_sub M y q.1, mul_sub M q.1 x]
    · have ex : interp x (p :: q :: r) = interp x (q :: r) := by rw [interp, if_neg (not_lt.2 hxq)]
      have ey : interp y (p :: q :: r) = interp y (q :: r) := by
        rw [interp, if_neg (not_lt.2 (hxq.trans h2))]
      rw [List.getLast_cons (by simp : q :: r ≠ [])] at h3
      rw [ex, ey]
      exact interp_slope hr s3 hxq h2 h3

/-- Strictly between two neighbouring knots the interpolant is the line through them. -/
theorem interp_mid : ∀ {f : List (K × K)} {p q : K × K} {l : List (K × K)}, SortedX (f ++ p :: q :: l) →
    ∀ {x : K}, p.1 < x → x < q.1 →
    interp x (f ++ p :: q :: l) = (q.2 - p.2) / (q.1 - p.1) * (x - p.1) + p.2
  | [], p, q, l, _, x, h1, h2 => by
    rw [List.nil_append, interp, if_pos h2, if_neg (not_le.2 h1)]
  | [a], p, q, l, h, x, h1, h2 => by
    rw [List.cons_append, List.nil_append, interp, if_neg (not_lt.2 h1.le)]
    exact interp_mid (f := []) (List.pairwise_cons.1 h).2 h1 h2
  | a :: b :: f, p, q, l, h, x, h1, h2 => by
    have h' := (List.pairwise_cons.1 h).2
    have hb : b.1 ≤ p.1 := (List.pairwise_cons.1 h').1 p (by simp)
    rw [List.cons_append, List.cons_append, interp, if_neg (not_lt.2 (hb.trans h1.le))]
    exact interp_mid (f := b :: f) h' h1 h2

end
end Fastsim
