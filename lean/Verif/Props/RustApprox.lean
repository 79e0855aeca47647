import Verif.Model.RsApprox
import Verif.Model.RsTable
import Verif.Lemmas.Basic
import Mathlib.Tactic.Linarith
import Mathlib.Tactic.NormNum

/-!
# C115: comparing with a tolerance in the Rust core
-/

set_option linter.unusedSectionVars false

namespace Fastsim

namespace Spec

/-- A comparison that does not care which side is which. -/
def Sym {A K : Type*} (f : A → A → K → Bool) : Prop := ∀ a b tol, f a b tol = f b a tol

/-- A comparison in which everything is like itself, for every positive tolerance. -/
def Refl {A K : Type*} [Zero K] [LT K] (f : A → A → K → Bool) : Prop := ∀ a tol, 0 < tol → f a a tol = true

/-- A comparison that a larger tolerance makes no stricter. -/
def Widens {A K : Type*} [LE K] (f : A → A → K → Bool) : Prop := ∀ a b s t, s ≤ t → f a b s = true → f a b t = true

end Spec

namespace Props
open Fastsim Spec

section Num
variable {K : Type*} [Field K] [LinearOrder K] [IsStrictOrderedRing K]

theorem pabs_abs' (x : K) : pabs x = |x| := by
  unfold pabs
  split
  · rename_i h; exact (abs_of_neg h).symm
  · rename_i h; exact (abs_of_nonneg (not_lt.1 h)).symm

/-- **C115 (numbers).** Two numbers are alike exactly if they differ by less than the tolerance, or by less than the tolerance times
the size of their sum: twice the mean, so that the relative tolerance is half of what it looks like. -/
theorem C115_numbers (a b tol : K) : apNum a b tol = true ↔ |b - a| < tol * max 1 |a + b| := by
  unfold apNum
  simp only [pabs_abs', Bool.or_eq_true, decide_eq_true_eq]
  have key : a + b ≠ 0 → (|(b - a) / (a + b)| < tol ↔ |b - a| < tol * |a + b|) := by
    intro h
    rw [abs_div, div_lt_iff₀ (abs_pos.2 h)]
  rcases le_or_gt tol 0 with ht | ht
  · have no : ¬ |b - a| < tol * max 1 |a + b| := not_lt.2
      ((mul_nonpos_of_nonpos_of_nonneg ht (le_max_of_le_left zero_le_one)).trans (abs_nonneg _))
    refine ⟨fun h => ?_, fun h => absurd h no⟩
    rcases h with h | h
    · split at h
      · simp at h
      · rw [decide_eq_true_eq] at h
        exact absurd h (not_lt.2 (ht.trans (abs_nonneg _)))
    · exact absurd h (not_lt.2 (ht.trans (abs_nonneg _)))
  · rw [mul_max_of_nonneg _ _ ht.le, mul_one, lt_max_iff, or_comm]
    refine or_congr Iff.rfl ?_
    split
    · rename_i h
      rw [h]
      simp only [abs_zero, mul_zero, Bool.false_eq_true, false_iff, not_lt]
      exact abs_nonneg _
    · rename_i h
      rw [decide_eq_true_eq, key h]

/-- **C115 (numbers, laws).** -/
theorem C115_number_laws : Sym (apNum : K → K → K → Bool) ∧ Refl (apNum : K → K → K → Bool) ∧ Widens (apNum : K → K → K → Bool) := by
  refine ⟨fun a b tol => ?_, fun a tol h => ?_, fun a b s t h k => ?_⟩
  · rw [Bool.eq_iff_iff, C115_numbers, C115_numbers, abs_sub_comm, add_comm]
  · rw [C115_numbers, sub_self, abs_zero]
    exact mul_pos h (lt_max_of_lt_left one_pos)
  · rw [C115_numbers] at k ⊢
    exact k.trans_le (mul_le_mul_of_nonneg_right h (le_max_of_le_left zero_le_one))

/-- **C115 (no tolerance).** With tolerance zero no number is like itself. -/
theorem C115_zero_tolerance (a b : K) : apNum a b 0 = false := by
  rw [Bool.eq_false_iff, Ne, C115_numbers, zero_mul]
  exact not_lt.2 (abs_nonneg _)

/-- **C115 (small numbers).** Numbers smaller than half the tolerance are alike, whatever their ratio or sign. -/
theorem C115_small {a b tol : K} (ha : |a| < tol / 2) (hb : |b| < tol / 2) : apNum a b tol = true := by
  rw [C115_numbers]
  have h0 : 0 < tol := by linarith [abs_nonneg a]
  have : |b - a| ≤ |b| + |a| := abs_sub _ _
  have : tol * 1 ≤ tol * max 1 |a + b| := mul_le_mul_of_nonneg_left (le_max_left _ _) h0.le
  linarith

/-- **C115 (large tolerance).** From tolerance one on, all positive numbers are alike. -/
theorem C115_large_tolerance {a b tol : K} (ha : 0 < a) (hb : 0 < b) (ht : 1 ≤ tol) : apNum a b tol = true := by
  rw [C115_numbers]
  have h1 : |b - a| < a + b := by rw [abs_lt]; constructor <;> linarith
  have h2 : a + b ≤ tol * (a + b) := le_mul_of_one_le_left (by linarith) ht
  have h3 : a + b ≤ max 1 |a + b| := (le_abs_self _).trans (le_max_right _ _)
  exact h1.trans_le (h2.trans (mul_le_mul_of_nonneg_left h3 (by linarith)))

end Num

section Parts
variable {A B K : Type*}

/-- **C115 (whole numbers, switches, text).** They are alike exactly if they are equal. -/
theorem C115_strict [DecidableEq A] [Zero K] [Preorder K] : Sym (apStrict : A → A → K → Bool) ∧ Refl (apStrict : A → A → K → Bool) ∧
    Widens (apStrict : A → A → K → Bool) ∧ ∀ (a b : A) (tol : K), apStrict a b tol = true ↔ a = b := by
  refine ⟨fun a b tol => ?_, fun a tol h => ?_, fun a b s t h k => ?_, fun a b tol => ?_⟩
  · unfold apStrict; rw [decide_eq_decide]; exact eq_comm
  · simp [apStrict]
  · simpa [apStrict] using k
  · simp [apStrict]

/-- **C115 (arrays).** Two arrays are alike exactly if they are so in every place that both of them have. -/
theorem C115_arrays (f : A → A → K → Bool) (a b : List A) (tol : K) :
    apVec f a b tol = true ↔ ∀ (i : ℕ) x y, a[i]? = some x → b[i]? = some y → f x y tol = true := by
  unfold apVec
  rw [List.all_eq_true]
  constructor
  · intro h i x y hx hy
    exact h (x, y) (List.mem_iff_getElem?.2 ⟨i, by rw [List.getElem?_zip_eq_some]; exact ⟨hx, hy⟩⟩)
  · intro h p hp
    obtain ⟨i, hi⟩ := List.mem_iff_getElem?.1 hp
    rw [List.getElem?_zip_eq_some] at hi
    exact h i _ _ hi.1 hi.2

/-- **C115 (array laws).** The laws pass from the parts to the whole. -/
theorem C115_array_laws [Zero K] [Preorder K] {f : A → A → K → Bool} (h1 : Sym f) (h2 : Refl f) (h3 : Widens f) :
    Sym (apVec f) ∧ Refl (apVec f) ∧ Widens (apVec f) := by
  refine ⟨fun a b tol => ?_, fun a tol h => ?_, fun a b s t h k => ?_⟩
  · rw [Bool.eq_iff_iff, C115_arrays, C115_arrays]
    constructor
    · intro h i x y hx hy; rw [h1]; exact h i y x hy hx
    · intro h i x y hx hy; rw [h1]; exact h i y x hy hx
  · rw [C115_arrays]
    intro i x y hx hy
    rw [hx] at hy
    cases hy
    exact h2 x tol h
  · rw [C115_arrays] at k ⊢
    exact fun i x y hx hy => h3 _ _ _ _ h (k i x y hx hy)

/-- **C115 (arrays of different length).** What one array has more than the other is not looked at: an array is like every
beginning of itself, and the empty array like every array. -/
theorem C115_longer [Zero K] [Preorder K] {f : A → A → K → Bool} (h : Refl f) (a b : List A) {tol : K} (ht : 0 < tol) :
    apVec f a (a ++ b) tol = true ∧ apVec f (a ++ b) a tol = true ∧ apVec f [] b tol = true := by
  refine ⟨?_, ?_, rfl⟩ <;> rw [C115_arrays] <;> intro i x y hx hy
  · rw [List.getElem?_append_left (List.getElem?_eq_some_iff.1 hx).1, hx] at hy
    cases hy
    exact h x tol ht
  · rw [List.getElem?_append_left (List.getElem?_eq_some_iff.1 hy).1, hy] at hx
    cases hx
    exact h x tol ht

/-- **C115 (optional values).** -/
theorem C115_optional (f : A → A → K → Bool) (a b : Option A) (tol : K) : apOpt f a b tol = true ↔
    (a = none ∧ b = none) ∨ ∃ x y, a = some x ∧ b = some y ∧ f x y tol = true := by
  cases a <;> cases b <;> simp [apOpt]

/-- **C115 (optional laws).** The laws pass from the parts to the whole. -/
theorem C115_optional_laws [Zero K] [Preorder K] {f : A → A → K → Bool} (h1 : Sym f) (h2 : Refl f) (h3 : Widens f) :
    Sym (apOpt f) ∧ Refl (apOpt f) ∧ Widens (apOpt f) := by
  refine ⟨fun a b tol => ?_, fun a tol h => ?_, fun a b s t h k => ?_⟩
  · cases a <;> cases b <;> simp [apOpt, h1 _ _ tol]
  · cases a <;> simp [apOpt]
    exact h2 _ _ h
  · cases a <;> cases b <;> simp [apOpt] at k ⊢
    exact h3 _ _ _ _ h k

/-- The entries of a map: every key once. -/
def _root_.Fastsim.Spec.OneEach (m : List (A × B)) : Prop := (m.map Prod.fst).Nodup

theorem lookup_mem [DecidableEq A] {m : List (A × B)} (h : OneEach m) {k : A} {v : B} : m.lookup k = some v ↔ (k, v) ∈ m := by
  induction m with
  | nil => simp
  | cons p m ih =>
    obtain ⟨a, b⟩ := p
    have hn : a ∉ m.map Prod.fst ∧ (m.map Prod.fst).Nodup := List.nodup_cons.1 h
    rw [List.lookup_cons]
    by_cases e : k = a
    · subst e
      simp only [beq_self_eq_true]
      constructor
      · intro q; cases q; simp
      · intro q
        rcases List.mem_cons.1 q with q | q
        · cases q; rfl
        · exact absurd (List.mem_map.2 ⟨_, q, rfl⟩) hn.1
    · have : (k == a) = false := by simpa using e
      rw [this]
      simp only
      rw [ih hn.2, List.mem_cons]
      constructor
      · exact Or.inr
      · rintro (q | q)
        · cases q; exact absurd rfl e
        · exact q

/-- **C115 (maps).** Two maps are alike exactly if they have the same keys, with values that are alike. -/
theorem C115_maps [DecidableEq A] (f : B → B → K → Bool) {a b : List (A × B)} (ha : OneEach a) (hb : OneEach b) (tol : K) :
    apMap f a b tol = true ↔ (∀ k, k ∈ a.map Prod.fst ↔ k ∈ b.map Prod.fst) ∧
      ∀ k v w, (k, v) ∈ a → (k, w) ∈ b → f v w tol = true := by
  unfold apMap
  constructor
  · intro h
    split at h
    · simp at h
    rename_i hl
    have hl := not_not.1 hl
    rw [List.all_eq_true] at h
    have sub : a.map Prod.fst ⊆ b.map Prod.fst := by
      intro k hk
      obtain ⟨p, hp, rfl⟩ := List.mem_map.1 hk
      have := h p hp
      split at this
      · simp at this
      · rename_i v e
        exact List.mem_map.2 ⟨_, (lookup_mem hb).1 e, rfl⟩
    have perm : (a.map Prod.fst).Perm (b.map Prod.fst) :=
      (List.subperm_of_subset ha sub).perm_of_length_le (by simp [hl])
    refine ⟨fun k => perm.mem_iff, fun k v w hv hw => ?_⟩
    have := h _ hv
    rw [(lookup_mem hb).2 hw] at this
    exact this
  · rintro ⟨h1, h2⟩
    have perm : (a.map Prod.fst).Perm (b.map Prod.fst) := (List.perm_ext_iff_of_nodup ha hb).2 h1
    have hl : a.length = b.length := by simpa using perm.length_eq
    rw [if_neg (not_not.2 hl), List.all_eq_true]
    intro p hp
    obtain ⟨q, hq, e⟩ := List.mem_map.1 ((h1 p.1).1 (List.mem_map.2 ⟨p, hp, rfl⟩))
    have : (p.1, q.2) ∈ b := by rw [← e]; exact hq
    rw [(lookup_mem hb).2 this]
    exact h2 p.1 p.2 q.2 hp this

/-- **C115 (map laws).** The laws pass from the parts to the whole. -/
theorem C115_map_laws [DecidableEq A] [Zero K] [Preorder K] {f : B → B → K → Bool} (h1 : Sym f) (h2 : Refl f) {a b : List (A × B)}
    (ha : OneEach a) (hb : OneEach b) {tol : K} (ht : 0 < tol) :
    apMap f a b tol = apMap f b a tol ∧ apMap f a a tol = true := by
  constructor
  · rw [Bool.eq_iff_iff, C115_maps f ha hb, C115_maps f hb ha]
    constructor
    · rintro ⟨q1, q2⟩; exact ⟨fun k => (q1 k).symm, fun k v w hv hw => by rw [h1]; exact q2 k w v hw hv⟩
    · rintro ⟨q1, q2⟩; exact ⟨fun k => (q1 k).symm, fun k v w hv hw => by rw [h1]; exact q2 k w v hw hv⟩
  · rw [C115_maps f ha ha]
    refine ⟨fun _ => Iff.rfl, fun k v w hv hw => ?_⟩
    have e1 := (lookup_mem ha).2 hv
    rw [(lookup_mem ha).2 hw] at e1
    cases e1
    exact h2 _ _ ht

/-- **C115 (records).** Two records are alike exactly if all their fields are. -/
theorem C115_records (fs : List (A → A → K → Bool)) (a b : A) (tol : K) :
    apFields fs a b tol = true ↔ ∀ f ∈ fs, f a b tol = true := by
  unfold apFields
  rw [List.all_eq_true]
  simp

/-- **C115 (record laws).** The laws pass from the parts to the whole. -/
theorem C115_record_laws [Zero K] [Preorder K] {fs : List (A → A → K → Bool)} (h : ∀ f ∈ fs, Sym f ∧ Refl f ∧ Widens f) :
    Sym (apFields fs) ∧ Refl (apFields fs) ∧ Widens (apFields fs) := by
  refine ⟨fun a b tol => ?_, fun a tol ht => ?_, fun a b s t hs k => ?_⟩
  · rw [Bool.eq_iff_iff, C115_records, C115_records]
    constructor
    · intro q f hf; rw [(h f hf).1]; exact q f hf
    · intro q f hf; rw [(h f hf).1]; exact q f hf
  · rw [C115_records]; exact fun f hf => (h f hf).2.1 a tol ht
  · rw [C115_records] at k ⊢; exact fun f hf => (h f hf).2.2 a b s t hs (k f hf)

end Parts

/-! ### Cycles -/

section Cycles
variable {K : Type*} [Field K] [LinearOrder K] [IsStrictOrderedRing K]

/-- The comparison derived for `RustCycle` (rust/fastsim-core/src/cycle.rs:616-640; its switch `orphaned` is left out). -/
def _root_.Fastsim.apCycle : RsTable K → RsTable K → K → Bool :=
  apFields [fun a b => apVec apNum a.timeS b.timeS, fun a b => apVec apNum a.mps b.mps, fun a b => apVec apNum a.grade b.grade,
    fun a b => apVec apNum a.roadType b.roadType, fun a b => apStrict a.name b.name]

/-- **C115 (cycles).** Cycles are compared alike from both sides, and every cycle is like itself. -/
theorem C115_cycles : Sym (apCycle : RsTable K → RsTable K → K → Bool) ∧ Refl (apCycle : RsTable K → RsTable K → K → Bool) ∧
    Widens (apCycle : RsTable K → RsTable K → K → Bool) := by
  obtain ⟨n1, n2, n3⟩ := C115_number_laws (K := K)
  obtain ⟨v1, v2, v3⟩ := C115_array_laws n1 n2 n3
  obtain ⟨s1, s2, s3, -⟩ := C115_strict (A := Txt) (K := K)
  apply C115_record_laws
  simp only [List.forall_mem_cons]
  refine ⟨⟨?_, ?_, ?_⟩, ⟨?_, ?_, ?_⟩, ⟨?_, ?_, ?_⟩, ⟨?_, ?_, ?_⟩, ⟨?_, ?_, ?_⟩, by simp⟩
  all_goals first
    | exact fun a b tol => v1 _ _ _
    | exact fun a tol h => v2 _ _ h
    | exact fun a b s t h k => v3 _ _ _ _ h k
    | exact fun a b tol => s1 _ _ _
    | exact fun a tol h => s2 _ _ h
    | exact fun a b s t h k => s3 _ _ _ _ h k

/-- **C115 (cut cycles).** A cycle is like every beginning of it: that a run or an import lost the end of its samples does not show in
this comparison. The cycle without samples is like all cycles of its name, so being alike is not passed on. -/
theorem C115_cut (t : RsTable K) (n : ℕ) {tol : K} (ht : 0 < tol) :
    apCycle t { t with timeS := t.timeS.take n, mps := t.mps.take n, grade := t.grade.take n, roadType := t.roadType.take n } tol = true := by
  have r := (C115_number_laws (K := K)).2.1
  have cut : ∀ l : List K, apVec apNum l (l.take n) tol = true := by
    intro l
    have := (C115_longer r (l.take n) (l.drop n) ht).2.1
    rwa [List.take_append_drop] at this
  unfold apCycle
  rw [C115_records]
  simp only [List.forall_mem_cons]
  refine ⟨cut _, cut _, cut _, cut _, ?_, by simp⟩
  simp [apStrict]

/-- **C115 (not passed on).** Two cycles of one name that differ as much as one likes are both like a third. -/
theorem C115_not_passed_on : ∃ a b c : RsTable ℚ, apCycle a b (1 / 10 ^ 9) = true ∧ apCycle b c (1 / 10 ^ 9) = true ∧
    apCycle a c (99 / 100) = false :=
  ⟨⟨[0], [0], [0], [0], []⟩, ⟨[], [], [], [], []⟩, ⟨[0], [10000000], [0], [0], []⟩, by decide +kernel, by decide +kernel, by decide +kernel⟩

/-- **C115 (case).** 100 and 100.1 are alike within 0.001, as 0 and 0.0005 are; 100 and 100.3 and -100 and 100 are not. -/
theorem C115_setting : apNum (100 : ℚ) (1001 / 10) (1 / 1000) = true ∧ apNum (0 : ℚ) (1 / 2000) (1 / 1000) = true ∧
    apNum (100 : ℚ) (1003 / 10) (1 / 1000) = false ∧ apNum (-100 : ℚ) 100 (1 / 1000) = false ∧
    OneEach [("2008", (1 : ℚ)), ("2017", 2)] := by
  refine ⟨by decide +kernel, by decide +kernel, by decide +kernel, by decide +kernel, ?_⟩
  unfold OneEach
  decide

end Cycles
end Props
end Fastsim
