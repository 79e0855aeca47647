import Verif.Model.RsGrid
import Mathlib.Data.List.Nodup
import Mathlib.Tactic.Ring
import Mathlib.Tactic.FieldSimp
import Mathlib.Tactic.Linarith
import Mathlib.Algebra.Order.Field.Basic

/-!
# C108: interpolation on a grid of any number of dimensions
-/

set_option linter.unusedSectionVars false

namespace Fastsim.Spec

section
variable {K : Type*} [Field K] [LinearOrder K] [IsStrictOrderedRing K]

/-- A function of points that is affine in each coordinate. -/
def EachAffine (F : List K → K) : Prop :=
  ∀ (pre post : List K) (a b t : K),
    F (pre ++ ((1 - t) * a + t * b) :: post) = (1 - t) * F (pre ++ a :: post) + t * F (pre ++ b :: post)

/-- Two neighbouring points of an axis, or one point taken twice, with `x` between them. -/
def Side (g : List K) (x : K) (s : ℕ × ℕ) : Prop :=
  (s.2 = s.1 ∨ s.2 = s.1 + 1) ∧ ∃ a b, g[s.1]? = some a ∧ g[s.2]? = some b ∧ a ≤ x ∧ x ≤ b

/-- A cell of the grid, or a face or corner of one, that has the point in it. -/
def Box : List (List K) → List K → List (ℕ × ℕ) → Prop
  | [], [], [] => True
  | g :: gs, x :: xs, s :: ss => Side g x s ∧ Box gs xs ss
  | _, _, _ => False

/-- A corner of a cell: its index and its coordinates. -/
inductive Corner : List (List K) → List (ℕ × ℕ) → List ℕ → List K → Prop
  | nil : Corner [] [] [] []
  | cons {g : List K} {gs : List (List K)} {s : ℕ × ℕ} {ss : List (ℕ × ℕ)} {i : ℕ} {idx : List ℕ} {c : K} {cs : List K} :
      (i = s.1 ∨ i = s.2) → g[i]? = some c → Corner gs ss idx cs → Corner (g :: gs) (s :: ss) (i :: idx) (c :: cs)

/-- What grid, point and shape of the values have to be: as many axes as coordinates, each as long as its dimension, strictly
rising, with the coordinate between two of its points. -/
def Fits : List (List K) → List K → List ℕ → Prop
  | [], [], [] => True
  | g :: gs, x :: xs, n :: ns =>
    (g.length = n ∧ g.Pairwise (· < ·) ∧ (∃ a ∈ g, a ≤ x) ∧ ∃ b ∈ g, x ≤ b) ∧ Fits gs xs ns
  | _, _, _ => False

end
end Fastsim.Spec

namespace Fastsim.Props
open Fastsim Fastsim.Spec

section Perms

/-- The indices of an array are those below its lengths, each once, in the order of reading. -/
theorem C108_indices (shape : List ℕ) :
    (∀ idx, idx ∈ indexPermutations shape ↔ List.Forall₂ (· < ·) idx shape) ∧
    (indexPermutations shape).Pairwise (List.Lex (· < ·)) ∧ (indexPermutations shape).length = shape.prod := by
  induction shape with
  | nil => simp [indexPermutations]
  | cons n ns ih =>
    obtain ⟨h1, h2, h3⟩ := ih
    refine ⟨?_, ?_, ?_⟩
    · intro idx
      rw [indexPermutations, List.mem_flatMap]
      constructor
      · rintro ⟨i, hi, hm⟩
        obtain ⟨t, ht, rfl⟩ := List.mem_map.1 hm
        exact .cons (List.mem_range.1 hi) ((h1 t).1 ht)
      · rintro (_ | ⟨hi, ht⟩)
        exact ⟨_, List.mem_range.2 hi, List.mem_map.2 ⟨_, (h1 _).2 ht, rfl⟩⟩
    · rw [indexPermutations, List.pairwise_flatMap]
      refine ⟨fun i _ => ?_, ?_⟩
      · rw [List.pairwise_map]
        exact h2.imp fun h => .cons h
      · refine List.pairwise_lt_range.imp fun {i j} hij => ?_
        intro a ha b hb
        obtain ⟨t, -, rfl⟩ := List.mem_map.1 ha
        obtain ⟨u, -, rfl⟩ := List.mem_map.1 hb
        exact .rel hij
    · rw [indexPermutations, List.length_flatMap]
      simp [h3]

theorem perms_two (n : ℕ) : indexPermutations (List.replicate (n + 1) 2) =
    (indexPermutations (List.replicate n 2)).map (0 :: ·) ++ (indexPermutations (List.replicate n 2)).map (1 :: ·) := by
  rw [List.replicate_succ, indexPermutations]
  simp [List.range_succ]

end Perms

section Field
variable {K : Type*} [Field K] [LinearOrder K] [IsStrictOrderedRing K]

/-! ### The loop over the dimensions -/

/-- The loop as nested straight lines. -/
def linLoop : List K → (List ℕ → K) → K
  | [], v => v []
  | d :: ds, v => linLoop ds fun idx => v (0 :: idx) * (1 - d) + v (1 :: idx) * d

theorem linLoop_congr {ds : List K} {v w : List ℕ → K}
    (h : ∀ idx ∈ indexPermutations (List.replicate ds.length 2), v idx = w idx) : linLoop ds v = linLoop ds w := by
  induction ds generalizing v w with
  | nil => exact h [] (by simp [indexPermutations])
  | cons d ds ih =>
    refine ih fun idx hi => ?_
    have e := perms_two ds.length
    rw [h (0 :: idx) (by rw [List.length_cons, e]; simp [hi]), h (1 :: idx) (by rw [List.length_cons, e]; simp [hi])]

theorem linLoop_split (d : K) (ds : List K) (v : List ℕ → K) :
    linLoop (d :: ds) v = (1 - d) * linLoop ds (fun idx => v (0 :: idx)) + d * linLoop ds (fun idx => v (1 :: idx)) := by
  induction ds generalizing v d with
  | nil => simp only [linLoop]; ring
  | cons e ds ih =>
    have h1 := ih e fun idx => v (0 :: idx) * (1 - d) + v (1 :: idx) * d
    have h2 := ih d fun idx => v (0 :: idx)
    rw [linLoop, h1, ih e, ih e]
    have h3 := ih d fun idx => v (idx.head! :: 0 :: idx.tail)
    have h4 := ih d fun idx => v (idx.head! :: 1 :: idx.tail)
    simp only [linLoop] at h3 h4 ⊢
    simp only [List.head!_cons, List.tail_cons] at h3 h4
    rw [h3, h4]
    ring

theorem gridPass_fold (vals : NdArr K) (next : List (List ℕ)) (hn : next.Nodup) (d : K) (k : ℕ) (hk : k ≤ next.length)
    (shape : List ℕ) (idx : List ℕ) (j : ℕ) (hj : next[j]? = some idx) :
    ((List.range k).foldl (fun out i => gridPass vals (next.map (0 :: ·) ++ next.map (1 :: ·)) next d i out)
      ⟨shape, fun _ => 0⟩).get idx =
      if j < k then vals.get (0 :: idx) * (1 - d) + vals.get (1 :: idx) * d else 0 := by
  induction k with
  | zero => simp
  | succ k ih =>
    rw [List.range_succ, List.foldl_append, List.foldl_cons, List.foldl_nil]
    have hlt : k < next.length := hk
    have h0 : (next.map (0 :: ·) ++ next.map (1 :: ·))[k]? = some (0 :: next[k]) := by
      rw [List.getElem?_append_left (by simpa using hlt)]; simp [hlt]
    have h1 : (next.map (0 :: ·) ++ next.map (1 :: ·))[next.length + k]? = some (1 :: next[k]) := by
      rw [List.getElem?_append_right (by simp)]; simp [hlt]
    have h2 : next[k]? = some next[k] := List.getElem?_eq_getElem hlt
    rw [gridPass, h0, h1, h2]
    simp only [NdArr.set]
    have hjl : j < next.length := (List.getElem?_eq_some_iff.1 hj).1
    have hje : next[j] = idx := (List.getElem?_eq_some_iff.1 hj).2
    by_cases e : j = k
    · subst e
      rw [if_pos hje.symm, if_pos (Nat.lt_succ_self _), hje]
    · rw [if_neg, ih (by omega)]
      · by_cases h : j < k
        · rw [if_pos h, if_pos (by omega)]
        · rw [if_neg h, if_neg (by omega)]
      · intro h
        exact e ((List.Nodup.getElem_inj_iff hn).1 (hje.trans h))

theorem lex_irrefl (a : List ℕ) : ¬ List.Lex (· < ·) a a := by
  induction a with
  | nil => intro h; cases h
  | cons x a ih =>
    intro h
    cases h with
    | rel h => exact lt_irrefl _ h
    | cons h => exact ih h

theorem perms_nodup (shape : List ℕ) : (indexPermutations shape).Nodup :=
  (C108_indices shape).2.1.imp fun {a b} h e => by subst e; exact lex_irrefl a h

theorem gridLoop_eq (ds : List K) (vals : NdArr K) :
    (gridLoop ds vals (indexPermutations (List.replicate ds.length 2))).get [] = linLoop ds vals.get := by
  induction ds generalizing vals with
  | nil => rfl
  | cons d ds ih =>
    simp only [gridLoop, linLoop]
    rw [ih]
    refine linLoop_congr fun idx hi => ?_
    obtain ⟨j, hj⟩ := List.getElem?_of_mem hi
    rw [List.length_cons, perms_two, gridPass_fold vals _ (perms_nodup _) d _ le_rfl _ idx j hj,
      if_pos (List.getElem?_eq_some_iff.1 hj).1]

/-! ### The cell of the point -/

/-- Two points of an axis and how far `x` is from the first to the second. -/
structure Leg (g : List K) (x : K) (i j : ℕ) (t : K) : Prop where
  at_ : ∃ a b, g[i]? = some a ∧ g[j]? = some b ∧ x = (1 - t) * a + t * b
  lo : 0 ≤ t
  hi : t ≤ 1
  inside : ∀ s, Side g x s → (i = s.1 ∨ i = s.2) ∧ (j = s.1 ∨ j = s.2)

theorem sorted_get_lt {g : List K} (hs : g.Pairwise (· < ·)) {i j : ℕ} {a b : K} (hi : g[i]? = some a) (hj : g[j]? = some b) :
    i < j ↔ a < b := by
  obtain ⟨hi', rfl⟩ := List.getElem?_eq_some_iff.1 hi
  obtain ⟨hj', rfl⟩ := List.getElem?_eq_some_iff.1 hj
  have mono : ∀ {p q : ℕ} (hp : p < g.length) (hq : q < g.length), p < q → g[p] < g[q] :=
    fun hp hq h => List.pairwise_iff_getElem.1 hs _ _ hp hq h
  constructor
  · exact mono hi' hj'
  · intro h
    by_contra c
    rcases (not_lt.1 c).lt_or_eq with c | c
    · exact absurd (mono hj' hi' c) (not_lt.2 h.le)
    · subst c; exact lt_irrefl _ h

theorem leg_hit {g : List K} (hs : g.Pairwise (· < ·)) {x : K} {p : ℕ} (hp : g[p]? = some x) : Leg g x p p 0 := by
  refine ⟨⟨x, x, hp, hp, by ring⟩, le_rfl, zero_le_one, ?_⟩
  rintro ⟨i, j⟩ ⟨hij, a, b, ha, hb, hax, hxb⟩
  have h1 := sorted_get_lt hs ha hp
  have h2 := sorted_get_lt hs hp hb
  have h3 := sorted_get_lt hs hp ha
  have h4 := sorted_get_lt hs hb hp
  have e1 : ¬ p < i := fun h => absurd (h3.1 h) (not_lt.2 hax)
  have e2 : ¬ j < p := fun h => absurd (h4.1 h) (not_lt.2 hxb)
  dsimp only at hij ⊢ e1 e2
  omega

theorem leg_cell {g : List K} (hs : g.Pairwise (· < ·)) {x : K} {i : ℕ} {a b : K} (ha : g[i]? = some a) (hb : g[i + 1]? = some b)
    (hax : a < x) (hxb : x < b) : Leg g x i (i + 1) ((x - a) / (b - a)) := by
  have hab : 0 < b - a := by linarith
  refine ⟨⟨a, b, ha, hb, by field_simp; ring⟩, div_nonneg (by linarith) hab.le, ?_, ?_⟩
  · rw [div_le_one hab]; linarith
  · rintro ⟨p, q⟩ ⟨hpq, c, d, hc, hd, hcx, hxd⟩
    have e1 : p < i + 1 := (sorted_get_lt hs hc hb).2 (lt_of_le_of_lt hcx hxb)
    have e2 : i < q := (sorted_get_lt hs ha hd).2 (lt_of_lt_of_le hax hxd)
    dsimp only at hpq ⊢ e1 e2
    omega

theorem getLast_max {g : List K} (hs : g.Pairwise (· < ·)) {b : K} (hb : b ∈ g) {z : K} (hz : g.getLast? = some z) : b ≤ z := by
  obtain ⟨i, hi⟩ := List.getElem?_of_mem hb
  have hz' : g[g.length - 1]? = some z := by rw [← hz, List.getLast?_eq_getElem?]
  have hl := (List.getElem?_eq_some_iff.1 hi).1
  by_contra c
  have := (sorted_get_lt hs hz' hi).2 (not_le.1 c)
  omega

theorem head_min {g : List K} (hs : g.Pairwise (· < ·)) {a : K} (ha : a ∈ g) {z : K} (hz : g.head? = some z) : z ≤ a := by
  cases g with
  | nil => simp at hz
  | cons y g =>
    simp only [List.head?_cons, Option.some.injEq] at hz
    subst hz
    rcases List.mem_cons.1 ha with rfl | h
    · exact le_rfl
    · exact (List.rel_of_pairwise_cons hs h).le

theorem sorted_zip (g : List K) : (g.zip g.tail).all (fun w => decide (w.1 < w.2)) = true ↔ g.Pairwise (· < ·) := by
  induction g with
  | nil => simp
  | cons a g ih =>
    cases g with
    | nil => simp
    | cons b g =>
      simp only [List.tail_cons, List.zip_cons_cons, List.all_cons, Bool.and_eq_true, decide_eq_true_eq] at ih ⊢
      rw [ih]
      constructor
      · rintro ⟨h, hp⟩
        refine List.pairwise_cons.2 ⟨fun c hc => ?_, hp⟩
        rcases List.mem_cons.1 hc with rfl | hc
        · exact h
        · exact h.trans (List.rel_of_pairwise_cons hp hc)
      · intro h
        exact ⟨List.rel_of_pairwise_cons h (by simp), (List.pairwise_cons.1 h).2⟩

theorem gridCheck_ok (g : List K) (n : ℕ) (x : K) : gridCheck g n x = .ok () ↔
    (g.length = n ∧ g.Pairwise (· < ·) ∧ (∃ a ∈ g, a ≤ x) ∧ ∃ b ∈ g, x ≤ b) := by
  unfold gridCheck
  simp only [sorted_zip]
  by_cases h1 : g.length = n
  · rw [if_neg (not_not.2 h1)]
    by_cases h2 : g.Pairwise (· < ·)
    · rw [if_neg (not_not.2 h2)]
      cases hh : g.head? with
      | none =>
        have : g = [] := by simpa using hh
        subst this
        simp
      | some a =>
        cases hl : g.getLast? with
        | none =>
          have : g = [] := by simpa using hl
          subst this
          simp at hh
        | some b =>
          simp only
          constructor
          · intro h
            split at h
            · rename_i c
              exact ⟨h1, h2, ⟨a, List.mem_of_mem_head? hh, c.1⟩, b, List.mem_of_getLast? hl, c.2⟩
            · cases h
          · rintro ⟨-, -, ⟨c, hc, hcx⟩, d, hd, hxd⟩
            rw [if_pos ⟨(head_min h2 hc hh).trans hcx, hxd.trans (getLast_max h2 hd hl)⟩]
    · rw [if_pos h2]
      exact ⟨nofun, fun h => absurd h.2.1 h2⟩
  · rw [if_pos h1]
    exact ⟨nofun, fun h => absurd h.1 h1⟩

theorem gridChecks_ok (gs : List (List K)) (ns : List ℕ) (xs : List K) (h1 : gs.length = ns.length) (h2 : xs.length = ns.length) :
    gridChecks gs ns xs = .ok () ↔ Fits gs xs ns := by
  induction gs generalizing ns xs with
  | nil =>
    obtain rfl : ns = [] := by simpa using h1.symm
    obtain rfl : xs = [] := by simpa using h2
    simp [gridChecks, Fits]
  | cons g gs ih =>
    cases ns with
    | nil => simp at h1
    | cons n ns =>
      cases xs with
      | nil => simp at h2
      | cons x xs =>
        rw [gridChecks, Fits, ← gridCheck_ok, ← ih ns xs (by simpa using h1) (by simpa using h2)]
        cases gridCheck g n x with
        | ok u => cases u; simp
        | error e => simp

theorem fits_length {gs : List (List K)} {ns : List ℕ} {xs : List K} (h : Fits gs xs ns) :
    gs.length = ns.length ∧ xs.length = ns.length := by
  induction gs generalizing ns xs with
  | nil =>
    cases xs <;> cases ns <;> simp_all [Fits]
  | cons g gs ih =>
    cases xs with
    | nil => simp [Fits] at h
    | cons x xs =>
      cases ns with
      | nil => simp [Fits] at h
      | cons n ns =>
        obtain ⟨a, b⟩ := ih h.2
        simp [a, b]

/-! ### The reduction -/

/-- The place of a coordinate among the points of its axis. -/
def hit (g : List K) (x : K) : Option ℕ := g.findIdx? fun p => decide (p = x)

theorem hit_some {g : List K} {x : K} {p : ℕ} (h : hit g x = some p) : g[p]? = some x := by
  rw [hit, List.findIdx?_eq_some_iff_getElem] at h
  obtain ⟨hl, he, -⟩ := h
  rw [List.getElem?_eq_getElem hl, of_decide_eq_true he]

theorem hit_none {g : List K} {x : K} (h : hit g x = none) : x ∉ g := by
  rw [hit, List.findIdx?_eq_none_iff] at h
  intro hx
  simpa using h x hx

/-- The axes that stay. -/
def restGrid : List (List K) → List K → List (List K)
  | g :: gs, x :: xs => match hit g x with
    | some _ => restGrid gs xs
    | none => g :: restGrid gs xs
  | _, _ => []

def restPoint : List (List K) → List K → List K
  | g :: gs, x :: xs => match hit g x with
    | some _ => restPoint gs xs
    | none => x :: restPoint gs xs
  | _, _ => []

def restShape : List (List K) → List K → List ℕ → List ℕ
  | g :: gs, x :: xs, n :: ns => match hit g x with
    | some _ => restShape gs xs ns
    | none => n :: restShape gs xs ns
  | _, _, _ => []

/-- The index in the whole array of an index in the slice. -/
def whole : List (List K) → List K → List ℕ → List ℕ
  | g :: gs, x :: xs, idx => match hit g x with
    | some p => p :: whole gs xs idx
    | none => idx.head! :: whole gs xs idx.tail
  | _, _, _ => []

theorem reduce_range (n k : ℕ) : (List.range (n + 1)).reverse.map (· + k) =
    (List.range n).reverse.map (· + (k + 1)) ++ [k] := by
  rw [List.range_succ_eq_map, List.reverse_cons, List.map_append, ← List.map_reverse, List.map_map]
  simp only [List.map_cons, List.map_nil, Nat.zero_add]
  congr 1
  apply List.map_congr_left
  intro a _
  simp only [Function.comp]
  omega

theorem insertIdx_append {A : Type*} (a b : List A) (p : A) : (a ++ b).insertIdx a.length p = a ++ p :: b := by
  induction a with
  | nil => simp
  | cons x a ih => simp [ih]

theorem reduce_spec {gs : List (List K)} {xs : List K} {ns : List ℕ} (h1 : gs.length = ns.length) (h2 : xs.length = ns.length)
    (pre : List K) (preg : List (List K)) (pren : List ℕ) (hp : pre.length = pren.length) (hg : preg.length = pren.length)
    (v : List ℕ → K) : ∃ w, ((List.range ns.length).reverse.map (· + pren.length)).foldl gridReduceAt
        ⟨pre ++ xs, preg ++ gs, ⟨pren ++ ns, v⟩⟩ =
      ⟨pre ++ restPoint gs xs, preg ++ restGrid gs xs, ⟨pren ++ restShape gs xs ns, w⟩⟩ ∧
      ∀ pidx idx, pidx.length = pren.length → idx.length = (restShape gs xs ns).length →
        w (pidx ++ idx) = v (pidx ++ whole gs xs idx) := by
  induction gs generalizing xs ns pre preg pren with
  | nil =>
    obtain rfl : ns = [] := by simpa using h1.symm
    obtain rfl : xs = [] := by simpa using h2
    refine ⟨v, by simp [restPoint, restGrid, restShape], ?_⟩
    intro pidx idx _ hi
    have : idx = [] := by simpa [restShape] using hi
    subst this
    rfl
  | cons g gs ih =>
    cases ns with
    | nil => simp at h1
    | cons n ns =>
      cases xs with
      | nil => simp at h2
      | cons x xs =>
        obtain ⟨w, hw, hv⟩ := ih (xs := xs) (ns := ns) (by simpa using h1) (by simpa using h2) (pre ++ [x]) (preg ++ [g])
          (pren ++ [n]) (by simp [hp]) (by simp [hg])
        rw [List.length_cons, reduce_range, List.foldl_append, List.foldl_cons, List.foldl_nil]
        simp only [List.length_append, List.length_cons, List.length_nil, Nat.zero_add, List.append_assoc, List.cons_append,
          List.nil_append] at hw
        rw [hw]
        have eg : (preg ++ g :: restGrid gs xs)[pren.length]? = some g := by
          rw [← hg]; simp
        have ep : (pre ++ x :: restPoint gs xs)[pren.length]? = some x := by
          rw [← hp]; simp
        simp only [gridReduceAt, eg, ep]
        cases hh : hit g x with
        | none =>
          have hh' := hh
          rw [hit] at hh'
          rw [hh']
          refine ⟨w, by simp only [restPoint, restGrid, restShape, hh], ?_⟩
          intro pidx idx hpi hi
          cases idx with
          | nil => simp [restShape, hh] at hi
          | cons i idx =>
            have := hv (pidx ++ [i]) idx (by simp [hpi]) (by simpa [restShape, hh] using hi)
            simpa [whole, hh] using this
        | some p =>
          have hh' := hh
          rw [hit] at hh'
          rw [hh']
          refine ⟨fun idx => w (idx.insertIdx pren.length p), ?_, ?_⟩
          · simp only [restPoint, restGrid, restShape, hh, NdArr.indexAxis]
            congr 1
            · rw [List.eraseIdx_append_of_length_le (by omega), hp]; simp
            · rw [List.eraseIdx_append_of_length_le (by omega), hg]; simp
            · congr 1
              rw [List.eraseIdx_append_of_length_le le_rfl]; simp
          · intro pidx idx hpi hi
            have := hv (pidx ++ [p]) idx (by simp [hpi]) (by simpa [restShape, hh] using hi)
            simp only
            rw [← hpi, insertIdx_append]
            simpa [whole, hh] using this

/-! ### The value -/

/-- The straight lines along the legs. -/
def lin : List (ℕ × ℕ × K) → (List ℕ → K) → K
  | [], v => v []
  | (i, j, t) :: ls, v => (1 - t) * lin ls (fun idx => v (i :: idx)) + t * lin ls (fun idx => v (j :: idx))

def Legs : List (List K) → List K → List (ℕ × ℕ × K) → Prop
  | [], [], [] => True
  | g :: gs, x :: xs, l :: ls => Leg g x l.1 l.2.1 l.2.2 ∧ Legs gs xs ls
  | _, _, _ => False

theorem cell_found {g : List K} (hs : g.Pairwise (· < ·)) {x : K} (ha : ∃ a ∈ g, a ≤ x) (hb : ∃ b ∈ g, x ≤ b) (hx : x ∉ g) :
    ∃ i a b, g[i]? = some a ∧ g[i + 1]? = some b ∧ a < x ∧ x < b ∧ gridCell g x = .ok (i, (x - a) / (b - a)) := by
  have hz : ∃ i, (g.zip g.tail).findIdx? (fun w => decide (w.1 < x ∧ x < w.2)) = some i := by
    by_contra c
    have hn : (g.zip g.tail).findIdx? (fun w => decide (w.1 < x ∧ x < w.2)) = none := by
      cases h : (g.zip g.tail).findIdx? (fun w => decide (w.1 < x ∧ x < w.2)) with
      | none => rfl
      | some i => exact absurd ⟨i, h⟩ c
    rw [List.findIdx?_eq_none_iff] at hn
    clear c
    obtain ⟨a, ha, hax⟩ := ha
    obtain ⟨b, hb, hxb⟩ := hb
    have key : ∀ (g : List K), g.Pairwise (· < ·) → x ∉ g → (∀ w ∈ g.zip g.tail, decide (w.1 < x ∧ x < w.2) = false) →
        ∀ y, g.head? = some y → y < x → ∀ b ∈ g, b < x := by
      intro g
      induction g with
      | nil => intro _ _ _ y h; simp at h
      | cons c g ih =>
        intro hs hx hn y hy hyx b hb
        simp only [List.head?_cons, Option.some.injEq] at hy
        subst hy
        rcases List.mem_cons.1 hb with rfl | hb
        · exact hyx
        cases g with
        | nil => simp at hb
        | cons d g =>
          have hd := hn (c, d) (by simp)
          rw [decide_eq_false_iff_not] at hd
          have hdx : d < x := by
            rcases lt_trichotomy d x with h | h | h
            · exact h
            · subst h; exact absurd (by simp) hx
            · exact absurd ⟨hyx, h⟩ hd
          refine ih (List.pairwise_cons.1 hs).2 (fun h => hx (List.mem_cons_of_mem _ h)) ?_ d rfl hdx b hb
          intro w hw
          exact hn w (by rw [List.tail_cons, List.zip_cons_cons]; exact List.mem_cons_of_mem _ hw)
    cases hh : g.head? with
    | none =>
      have : g = [] := by simpa using hh
      subst this; simp at ha
    | some y =>
      have hyx : y < x := lt_of_le_of_ne ((head_min hs ha hh).trans hax) fun e => hx (e ▸ List.mem_of_mem_head? hh)
      exact absurd (key g hs hx hn y hh hyx b hb) (not_lt.2 hxb)
  obtain ⟨i, hi⟩ := hz
  have hi' := hi
  rw [List.findIdx?_eq_some_iff_getElem] at hi'
  obtain ⟨hl, he, -⟩ := hi'
  have hl' : i + 1 < g.length := by
    rw [List.length_zip, List.length_tail] at hl; omega
  rw [List.getElem_zip, decide_eq_true_iff] at he
  simp only [List.getElem_tail] at he
  refine ⟨i, g[i], g[i + 1], List.getElem?_eq_getElem _, List.getElem?_eq_getElem _, he.1, he.2, ?_⟩
  rw [gridCell, hi]
  simp only [List.getElem?_eq_getElem (show i < g.length by omega), List.getElem?_eq_getElem hl']

theorem legs_found {gs : List (List K)} {xs : List K} {ns : List ℕ} (h : Fits gs xs ns) :
    ∃ ls cells, Legs gs xs ls ∧ gridCells (restGrid gs xs) (restPoint gs xs) = .ok cells ∧
      cells.length = (restShape gs xs ns).length ∧ (∀ n ∈ restShape gs xs ns, 2 ≤ n) ∧
      ∀ v : List ℕ → K, linLoop (cells.map Prod.snd) (fun idx => v (whole gs xs (List.zipWith (· + ·) (cells.map Prod.fst) idx))) =
        lin ls v := by
  induction gs generalizing xs ns with
  | nil =>
    cases xs <;> cases ns <;> simp only [Fits] at h
    exact ⟨[], [], trivial, rfl, rfl, by simp [restShape], fun v => rfl⟩
  | cons g gs ih =>
    cases xs with
    | nil => simp [Fits] at h
    | cons x xs =>
      cases ns with
      | nil => simp [Fits] at h
      | cons n ns =>
        obtain ⟨⟨hn, hs, ha, hb⟩, hf⟩ := h
        obtain ⟨ls, cells, hl, hc, hlen, h2, hv⟩ := ih hf
        cases hh : hit g x with
        | some p =>
          refine ⟨(p, p, 0) :: ls, cells, ⟨leg_hit hs (hit_some hh), hl⟩, ?_, ?_, ?_, ?_⟩
          · simpa only [restGrid, restPoint, hh] using hc
          · simpa only [restShape, hh] using hlen
          · simpa only [restShape, hh] using h2
          · intro v
            simp only [whole, hh, lin]
            rw [← hv fun idx => v (p :: idx)]
            ring
        | none =>
          obtain ⟨i, a, b, hia, hib, hax, hxb, hcell⟩ := cell_found hs ha hb (hit_none hh)
          refine ⟨(i, i + 1, (x - a) / (b - a)) :: ls, (i, (x - a) / (b - a)) :: cells, ⟨leg_cell hs hia hib hax hxb, hl⟩, ?_, ?_, ?_, ?_⟩
          · simp only [restGrid, restPoint, hh, gridCells, hcell, hc]
          · simp only [restShape, hh, List.length_cons, hlen]
          · simp only [restShape, hh, List.mem_cons, forall_eq_or_imp]
            refine ⟨?_, h2⟩
            have := (List.getElem?_eq_some_iff.1 hib).1
            omega
          · intro v
            simp only [List.map_cons]
            rw [linLoop_split]
            simp only [whole, hh, lin, List.zipWith_cons_cons, List.head!_cons, List.tail_cons, Nat.add_zero]
            rw [← hv fun idx => v (i :: idx), ← hv fun idx => v ((i + 1) :: idx)]

theorem prod_one {l : List ℕ} (h : ∀ n ∈ l, 2 ≤ n) : l.prod = 1 ↔ l = [] := by
  cases l with
  | nil => simp
  | cons a l =>
    simp only [List.prod_cons, reduceCtorEq, iff_false]
    intro e
    have e' : a = 1 := Nat.dvd_one.1 ⟨_, e.symm⟩
    have := h a (by simp)
    omega

theorem multilinear_eq {point : List K} {grid : List (List K)} {values : NdArr K} (h : Fits grid point values.shape) :
    ∃ ls, Legs grid point ls ∧ multilinear point grid values = .ok (lin ls values.get) := by
  obtain ⟨shape, v⟩ := values
  dsimp only at h ⊢
  obtain ⟨h1, h2⟩ := fits_length h
  obtain ⟨ls, cells, hl, hc, hlen, htwo, hv⟩ := legs_found h
  refine ⟨ls, hl, ?_⟩
  unfold multilinear
  simp only
  rw [if_neg (not_not.2 h2), if_neg (not_not.2 h1), (gridChecks_ok grid shape point h1 h2).2 h]
  obtain ⟨w, hw, hwv'⟩ := reduce_spec h1 h2 [] [] [] rfl rfl v
  have hwv : ∀ idx : List ℕ, idx.length = (restShape grid point shape).length → w idx = v (whole grid point idx) :=
    fun idx hi => hwv' [] idx rfl hi
  simp only [List.nil_append, List.length_nil, Nat.add_zero, List.map_id'] at hw
  simp only [gridReduce, hw, NdArr.len, prod_one htwo]
  by_cases e : restShape grid point shape = []
  · rw [if_pos e]
    rw [e, List.length_nil, List.length_eq_zero_iff] at hlen
    subst hlen
    rw [e, List.map_nil, hwv [] (by rw [e]), ← hv v]
    simp only [List.map_nil, linLoop, List.zipWith_nil_left]
  · rw [if_neg e, hc]
    simp only [NdArr.corners, List.map_const', ← hlen]
    have hl' : (cells.map Prod.snd).length = cells.length := by simp
    rw [← hl', gridLoop_eq, ← hv v]
    congr 1
    refine linLoop_congr fun idx hi => ?_
    have := ((C108_indices _).1 idx).1 hi
    have hil := this.length_eq
    simp only [List.length_replicate, List.length_map] at hil
    exact hwv _ (by rw [List.length_zipWith, List.length_map, hil, ← hlen, min_self])

/-! ### What a user can rely on -/

/-- A value is given exactly where grid, point and values fit together. -/
theorem C108_ok (point : List K) (grid : List (List K)) (values : NdArr K) :
    (∃ y, multilinear point grid values = .ok y) ↔ Fits grid point values.shape := by
  constructor
  · rintro ⟨y, h⟩
    unfold multilinear at h
    split at h
    · cases h
    split at h
    · cases h
    rename_i h2 h1
    split at h
    · cases h
    · rename_i hc
      exact (gridChecks_ok _ _ _ (not_not.1 h1) (not_not.1 h2)).1 hc
  · intro h
    obtain ⟨ls, -, e⟩ := multilinear_eq h
    exact ⟨_, e⟩

theorem lin_affine {F : List K → K} (hF : EachAffine F) {grid : List (List K)} {xs : List K} {ls : List (ℕ × ℕ × K)}
    (hl : Legs grid xs ls) {ss : List (ℕ × ℕ)} (hb : Box grid xs ss) (pre : List K) (v : List ℕ → K)
    (hc : ∀ idx cs, Corner grid ss idx cs → v idx = F (pre ++ cs)) : lin ls v = F (pre ++ xs) := by
  induction grid generalizing xs ls ss pre v with
  | nil =>
    cases xs <;> cases ls <;> cases ss <;> simp only [Legs, Box] at hl hb
    exact hc _ _ .nil
  | cons g gs ih =>
    cases xs with
    | nil => simp [Legs] at hl
    | cons x xs =>
      cases ls with
      | nil => simp [Legs] at hl
      | cons l ls =>
        cases ss with
        | nil => simp [Box] at hb
        | cons s ss =>
          obtain ⟨⟨⟨a, b, ha, hb', hx⟩, -, -, hin⟩, hl⟩ := hl
          obtain ⟨i, j, t⟩ := l
          dsimp only at ha hb' hx hin
          obtain ⟨hi, hj⟩ := hin s hb.1
          rw [lin, ih hl hb.2 (pre ++ [a]) (fun idx => v (i :: idx)) fun idx cs h => by
              simpa using hc _ _ (.cons hi ha h),
            ih hl hb.2 (pre ++ [b]) (fun idx => v (j :: idx)) fun idx cs h => by
              simpa using hc _ _ (.cons hj hb' h), hx, hF pre xs a b t]
          simp

/-- The value is the one, at the point, of any function that is affine in each coordinate and has the values at the corners of a
cell around the point, whichever cell that is. -/
theorem C108_exact {point : List K} {grid : List (List K)} {values : NdArr K} (h : Fits grid point values.shape)
    {F : List K → K} (hF : EachAffine F) {cell : List (ℕ × ℕ)} (hb : Box grid point cell)
    (hc : ∀ idx cs, Corner grid cell idx cs → values.get idx = F cs) :
    multilinear point grid values = .ok (F point) := by
  obtain ⟨ls, hl, e⟩ := multilinear_eq h
  rw [e, lin_affine hF hl hb [] values.get hc]
  rfl

/-- At a point of the grid the value is the one listed there. -/
theorem C108_grid_point {point : List K} {grid : List (List K)} {values : NdArr K} (h : Fits grid point values.shape)
    {idx : List ℕ} (hp : List.Forall₂ (fun i gx => gx.1[i]? = some gx.2) idx (grid.zip point)) :
    multilinear point grid values = .ok (values.get idx) := by
  have key : ∀ (gs : List (List K)) (xs : List K) (ns idx : List ℕ), Fits gs xs ns →
      List.Forall₂ (fun i gx => gx.1[i]? = some gx.2) idx (gs.zip xs) →
      Box gs xs (idx.map fun i => (i, i)) ∧ ∀ j cs, Corner gs (idx.map fun i => (i, i)) j cs → j = idx := by
    intro gs
    induction gs with
    | nil =>
      intro xs ns idx h hp
      cases xs <;> cases ns <;> simp only [Fits] at h
      cases hp
      exact ⟨trivial, fun j cs hj => by cases hj; rfl⟩
    | cons g gs ih =>
      intro xs ns idx h hp
      cases xs with
      | nil => simp [Fits] at h
      | cons x xs =>
        cases ns with
        | nil => simp [Fits] at h
        | cons n ns =>
          rw [List.zip_cons_cons] at hp
          cases hp with
          | cons hi hp =>
            obtain ⟨hb, hc⟩ := ih xs ns _ h.2 hp
            refine ⟨⟨⟨.inl rfl, x, x, hi, hi, le_rfl, le_rfl⟩, hb⟩, fun j cs hj => ?_⟩
            rw [List.map_cons] at hj
            cases hj with
            | cons hj' _ hj => rw [hc _ _ hj, or_self] at *; rw [hj']
  obtain ⟨hb, hc⟩ := key grid point values.shape idx h hp
  exact C108_exact (F := fun _ => values.get idx) h (fun _ _ a b t => by ring) hb fun j cs hj => by rw [hc j cs hj]

theorem lin_between {grid : List (List K)} {xs : List K} {ls : List (ℕ × ℕ × K)} (hl : Legs grid xs ls)
    {ss : List (ℕ × ℕ)} (hb : Box grid xs ss) {lo hi : K} (v : List ℕ → K)
    (hc : ∀ idx cs, Corner grid ss idx cs → lo ≤ v idx ∧ v idx ≤ hi) : lo ≤ lin ls v ∧ lin ls v ≤ hi := by
  induction grid generalizing xs ls ss v with
  | nil =>
    cases xs <;> cases ls <;> cases ss <;> simp only [Legs, Box] at hl hb
    exact hc _ _ .nil
  | cons g gs ih =>
    cases xs with
    | nil => simp [Legs] at hl
    | cons x xs =>
      cases ls with
      | nil => simp [Legs] at hl
      | cons l ls =>
        cases ss with
        | nil => simp [Box] at hb
        | cons s ss =>
          obtain ⟨⟨⟨a, b, ha, hb', -⟩, t0, t1, hin⟩, hl⟩ := hl
          obtain ⟨i, j, t⟩ := l
          dsimp only at ha hb' hin t0 t1
          obtain ⟨hi', hj⟩ := hin s hb.1
          obtain ⟨p1, p2⟩ := ih hl hb.2 (fun idx => v (i :: idx)) fun idx cs h => hc _ _ (.cons hi' ha h)
          obtain ⟨q1, q2⟩ := ih hl hb.2 (fun idx => v (j :: idx)) fun idx cs h => hc _ _ (.cons hj hb' h)
          rw [lin]
          have u0 : 0 ≤ 1 - t := by linarith
          constructor
          · nlinarith [mul_le_mul_of_nonneg_left p1 u0, mul_le_mul_of_nonneg_left q1 t0]
          · nlinarith [mul_le_mul_of_nonneg_left p2 u0, mul_le_mul_of_nonneg_left q2 t0]

/-- The value is between the least and the greatest value at the corners of a cell around the point. -/
theorem C108_between {point : List K} {grid : List (List K)} {values : NdArr K} {y : K}
    (hy : multilinear point grid values = .ok y) {cell : List (ℕ × ℕ)} (hb : Box grid point cell) {lo hi : K}
    (hc : ∀ idx cs, Corner grid cell idx cs → lo ≤ values.get idx ∧ values.get idx ≤ hi) : lo ≤ y ∧ y ≤ hi := by
  obtain ⟨ls, hl, e⟩ := multilinear_eq ((C108_ok _ _ _).1 ⟨y, hy⟩)
  rw [e, Except.ok.injEq] at hy
  rw [← hy]
  exact lin_between hl hb values.get hc

/-- There is a cell around every point that fits. -/
theorem C108_cell {gs : List (List K)} {xs : List K} {ns : List ℕ} (h : Fits gs xs ns) : ∃ cell, Box gs xs cell := by
  induction gs generalizing xs ns with
  | nil =>
    cases xs <;> cases ns <;> simp only [Fits] at h
    exact ⟨[], trivial⟩
  | cons g gs ih =>
    cases xs with
    | nil => simp [Fits] at h
    | cons x xs =>
      cases ns with
      | nil => simp [Fits] at h
      | cons n ns =>
        obtain ⟨c, hc⟩ := ih h.2
        obtain ⟨-, hs, ha, hb⟩ := h.1
        by_cases hx : x ∈ g
        · obtain ⟨i, hi⟩ := List.getElem?_of_mem hx
          exact ⟨(i, i) :: c, ⟨.inl rfl, x, x, hi, hi, le_rfl, le_rfl⟩, hc⟩
        · obtain ⟨i, a, b, h1, h2, h3, h4, -⟩ := cell_found hs ha hb hx
          exact ⟨(i, i + 1) :: c, ⟨.inr rfl, a, b, h1, h2, h3.le, h4.le⟩, hc⟩

/-- Around every point there is a function, affine in each coordinate, with the values at the corners of the cell. -/
theorem C108_through {gs : List (List K)} {xs : List K} {ns : List ℕ} (h : Fits gs xs ns) {cell : List (ℕ × ℕ)}
    (hb : Box gs xs cell) (v : List ℕ → K) : ∃ F, EachAffine F ∧ ∀ idx cs, Corner gs cell idx cs → v idx = F cs := by
  induction gs generalizing xs ns cell v with
  | nil =>
    cases xs <;> cases cell <;> simp only [Box] at hb
    exact ⟨fun _ => v [], fun _ _ a b t => by ring, fun idx cs hc => by cases hc; rfl⟩
  | cons g gs ih =>
    cases xs with
    | nil => simp [Fits] at h
    | cons x xs =>
      cases ns with
      | nil => simp [Fits] at h
      | cons n ns =>
        cases cell with
        | nil => simp [Box] at hb
        | cons s cell =>
          obtain ⟨-, hs, -, -⟩ := h.1
          obtain ⟨⟨hij, a, b, ha, hb', -⟩, hb⟩ := hb
          obtain ⟨F, hF, hFc⟩ := ih h.2 hb fun idx => v (s.1 :: idx)
          obtain ⟨G, hG, hGc⟩ := ih h.2 hb fun idx => v (s.2 :: idx)
          rcases hij with e | e
          · refine ⟨fun l => F l.tail, ?_, ?_⟩
            · intro pre post c d t
              cases pre with
              | nil => simp only [List.nil_append, List.tail_cons]; ring
              | cons p pre => exact hF pre post c d t
            · intro idx cs hc
              cases hc with
              | cons hi hg hc =>
                rw [e, or_self] at hi
                rw [hi]
                exact hFc _ _ hc
          · have hab : a < b := (sorted_get_lt hs ha hb').1 (by omega)
            have hne : b - a ≠ 0 := (sub_pos.2 hab).ne'
            refine ⟨fun l => match l with
              | [] => 0
              | c :: l => (b - c) / (b - a) * F l + (c - a) / (b - a) * G l, ?_, ?_⟩
            · intro pre post c d t
              cases pre with
              | nil => simp only [List.nil_append]; field_simp; ring
              | cons p pre =>
                simp only [List.cons_append]
                rw [hF, hG]
                ring
            · intro idx cs hc
              cases hc with
              | cons hi hg hc =>
                rcases hi with rfl | rfl
                · rw [hg, Option.some.injEq] at ha
                  subst ha
                  rw [hFc _ _ hc]
                  field_simp
                  ring
                · rw [hg, Option.some.injEq] at hb'
                  subst hb'
                  rw [hGc _ _ hc]
                  field_simp
                  ring

theorem lin_linear (ls : List (ℕ × ℕ × K)) (a b : K) (v w : List ℕ → K) :
    lin ls (fun idx => a * v idx + b * w idx) = a * lin ls v + b * lin ls w := by
  induction ls generalizing v w with
  | nil => rfl
  | cons l ls ih =>
    obtain ⟨i, j, t⟩ := l
    simp only [lin]
    rw [ih, ih]
    ring

theorem legs_unique {gs : List (List K)} {xs : List K} {ns : List ℕ} (h : Fits gs xs ns) {ls ms : List (ℕ × ℕ × K)}
    (hl : Legs gs xs ls) (hm : Legs gs xs ms) (v : List ℕ → K) : lin ls v = lin ms v := by
  obtain ⟨c, hc⟩ := C108_cell h
  obtain ⟨F, hF, hFc⟩ := C108_through h hc v
  rw [lin_affine hF hl hc [] v hFc, lin_affine hF hm hc [] v hFc]

/-- The value is linear in the values of the grid. -/
theorem C108_linear {point : List K} {grid : List (List K)} {shape : List ℕ} {v w : List ℕ → K} {x y : K} (a b : K)
    (hx : multilinear point grid ⟨shape, v⟩ = .ok x) (hy : multilinear point grid ⟨shape, w⟩ = .ok y) :
    multilinear point grid ⟨shape, fun idx => a * v idx + b * w idx⟩ = .ok (a * x + b * y) := by
  have h : Fits grid point shape := (C108_ok _ _ ⟨shape, v⟩).1 ⟨x, hx⟩
  obtain ⟨l1, h1, e1⟩ := multilinear_eq (values := ⟨shape, v⟩) h
  obtain ⟨l2, h2, e2⟩ := multilinear_eq (values := ⟨shape, w⟩) h
  obtain ⟨l3, h3, e3⟩ := multilinear_eq (values := ⟨shape, fun idx => a * v idx + b * w idx⟩) h
  rw [e1, Except.ok.injEq] at hx
  rw [e2, Except.ok.injEq] at hy
  rw [e3, ← hx, ← hy]
  simp only
  rw [lin_linear, legs_unique h h3 h1, legs_unique h h3 h2]

/-- An axis without points is a panic, if everything before it fits; nothing else is. -/
theorem C108_panic (point : List K) (grid : List (List K)) (values : NdArr K) :
    multilinear point grid values = .error .panic ↔ point.length = values.shape.length ∧ grid.length = values.shape.length ∧
      ∃ k, grid[k]? = some [] ∧ values.shape[k]? = some 0 ∧ Fits (grid.take k) (point.take k) (values.shape.take k) := by
  have one : ∀ (g : List K) n x, gridCheck g n x = .error .panic ↔ g = [] ∧ n = 0 := by
    intro g n x
    unfold gridCheck
    cases g with
    | nil =>
      by_cases hn : n = 0
      · subst hn; simp
      · rw [if_pos (by simpa using Ne.symm hn)]; simp [hn]
    | cons c g =>
      simp only [List.head?_cons, List.getLast?_cons, reduceCtorEq, false_and, iff_false]
      repeat' split
      all_goals simp_all
  have many : ∀ (gs : List (List K)) (ns : List ℕ) (xs : List K), gs.length = ns.length → xs.length = ns.length →
      (gridChecks gs ns xs = .error .panic ↔
        ∃ k, gs[k]? = some [] ∧ ns[k]? = some 0 ∧ Fits (gs.take k) (xs.take k) (ns.take k)) := by
    intro gs
    induction gs with
    | nil => intro ns xs _ _; simp [gridChecks]
    | cons g gs ih =>
      intro ns xs h1 h2
      cases ns with
      | nil => simp at h1
      | cons n ns =>
        cases xs with
        | nil => simp at h2
        | cons x xs =>
          have hi := ih ns xs (by simpa using h1) (by simpa using h2)
          rw [gridChecks]
          cases hg : gridCheck g n x with
          | ok u =>
            simp only
            rw [hi]
            have hg' := (gridCheck_ok g n x).1 hg
            constructor
            · rintro ⟨k, a, b, c⟩
              exact ⟨k + 1, by simpa using a, by simpa using b, hg', by simpa using c⟩
            · rintro ⟨k, a, b, c⟩
              cases k with
              | zero =>
                simp only [List.getElem?_cons_zero, Option.some.injEq] at a b
                obtain ⟨-, -, ⟨z, hz, -⟩, -⟩ := hg'
                rw [a] at hz
                simp at hz
              | succ k => exact ⟨k, by simpa using a, by simpa using b, c.2⟩
          | error e =>
            simp only
            constructor
            · intro h
              rw [Except.error.injEq] at h
              subst h
              obtain ⟨rfl, rfl⟩ := (one g n x).1 hg
              exact ⟨0, rfl, rfl, trivial⟩
            · rintro ⟨k, a, b, c⟩
              cases k with
              | zero =>
                simp only [List.getElem?_cons_zero, Option.some.injEq] at a b
                rw [← hg]
                exact (one g n x).2 ⟨a, b⟩
              | succ k =>
                have := (gridCheck_ok g n x).2 c.1
                rw [hg] at this
                cases this
  by_cases h2 : point.length = values.shape.length
  · by_cases h1 : grid.length = values.shape.length
    · rw [← many grid values.shape point h1 h2]
      constructor
      · intro h
        refine ⟨h2, h1, ?_⟩
        by_cases hf : Fits grid point values.shape
        · obtain ⟨y, hy⟩ := (C108_ok point grid values).2 hf
          rw [hy] at h; cases h
        · unfold multilinear at h
          rw [if_neg (not_not.2 h2), if_neg (not_not.2 h1)] at h
          cases hc : gridChecks grid values.shape point with
          | ok u => cases u; exact absurd ((gridChecks_ok _ _ _ h1 h2).1 hc) hf
          | error e =>
            rw [hc] at h
            simp only [Except.error.injEq] at h
            rw [h]
      · rintro ⟨-, -, h⟩
        unfold multilinear
        rw [if_neg (not_not.2 h2), if_neg (not_not.2 h1), h]
    · unfold multilinear
      rw [if_neg (not_not.2 h2), if_pos h1]
      simp [h1]
  · unfold multilinear
    rw [if_pos h2]
    simp [h2]

end Field

/-! ### A case -/

/-- The second example of the documentation (utils:292-317). -/
def gridDemo : NdArr ℚ := ⟨[3, 3], fun idx => match idx with
  | [0, 0] => 0 | [0, 1] => 2 | [0, 2] => 19 / 10
  | [1, 0] => 2 | [1, 1] => 4 | [1, 2] => 31 / 10
  | [2, 0] => 5 | [2, 1] => 0 | [2, 2] => 14 / 10
  | _ => 0⟩

theorem C108_demo : multilinear [152 / 100, 36 / 100] [[0, 1, 2], [0, 1, 2]] gridDemo = .ok (29696 / 10000) ∧
    multilinear [2, 1] [[0, 1, 2], [0, 1, 2]] gridDemo = .ok 0 ∧
    multilinear [2, 1 / 2] [[0, 1, 2], [0, 1, 2]] gridDemo = .ok (5 / 2) ∧
    multilinear [3, 1 / 2] [[0, 1, 2], [0, 1, 2]] gridDemo = .error .err := by decide +kernel

/-- The hypotheses of the theorems are met there; the cell is not unique at a point on a face. -/
theorem C108_demo_fits : Fits [[0, 1, 2], [0, 1, 2]] [(1 : ℚ), 1 / 2] gridDemo.shape ∧
    Box [[0, 1, 2], [0, 1, 2]] [(1 : ℚ), 1 / 2] [(0, 1), (0, 1)] ∧ Box [[0, 1, 2], [0, 1, 2]] [(1 : ℚ), 1 / 2] [(1, 2), (0, 1)] := by
  refine ⟨⟨by decide +kernel, by decide +kernel, trivial⟩, ⟨⟨.inr rfl, 0, 1, rfl, rfl, by decide +kernel⟩, ⟨.inr rfl, 0, 1, rfl, rfl, by decide +kernel⟩, trivial⟩,
    ⟨⟨.inr rfl, 1, 2, rfl, rfl, by decide +kernel⟩, ⟨.inr rfl, 0, 1, rfl, rfl, by decide +kernel⟩, trivial⟩⟩

end Fastsim.Props
