import Verif.Props.RustImportText
import Verif.Props.RustVeh

/-!
# The test that an imported vehicle is built from (C106)
-/

set_option linter.unusedSectionVars false

namespace Fastsim.Spec

/-- White space between words. -/
def Blank (c : Char) : Prop := c = ' ' ∨ c = '\t' ∨ c = '\n' ∨ c = '\r' ∨ c = Char.ofNat 12

/-- The words of a text, in order. -/
inductive Words : Txt → List Txt → Prop
  | nil : Words [] []
  | blank {c : Char} {s : Txt} {l : List Txt} : Blank c → Words s l → Words (c :: s) l
  | word {w s : Txt} {l : List Txt} : w ≠ [] → (∀ c ∈ w, ¬ Blank c) → (∀ c t, s = c :: t → Blank c) → Words s l →
      Words (w ++ s) (w :: l)

variable {K : Type*} [Field K] [LinearOrder K] [IsStrictOrderedRing K]

/-- A test that is looked at for a vehicle: same year, same make up to case, not done in the cold. -/
structure Considered (fe : FeData K) (e : EpaRow K) : Prop where
  year : e.year = fe.year
  make : e.make.map Char.toLower = fe.make.map Char.toLower
  warm : ¬ "Cold CO".toList <:+: e.testFuelType

/-- The test is of this model: the names are the same up to case, or the test group ends like the engine family. -/
def Identified (fe : FeData K) (e : EpaRow K) : Prop :=
  e.model.map Char.toLower = fe.model.map Char.toLower ∨
    ∃ c family rest, fe.efids = (c :: family) :: rest ∧ e.testId ≠ [] ∧ family <:+ e.testId

/-- How well the names match: 1 for an identified test; otherwise the number of words of the test that are words of the
vehicle, squared, over the product of the numbers of words (case does not matter, and neither does 4WD or AWD). -/
def NameRating (fe : FeData K) (e : EpaRow K) (n : K) : Prop :=
  (Identified fe e ∧ n = 1) ∨ (¬ Identified fe e ∧ ∃ F W, Words (awd (fe.model.map Char.toUpper)) F ∧
    Words (awd (e.model.map Char.toUpper)) W ∧ F ≠ [] ∧ W ≠ [] ∧
    n * ((W.length : K) * (F.length : K)) = ((W.filter fun w => decide (w ∈ F)).length : K) ^ 2)

/-- Same engine: for electric vehicles none, otherwise the same number of cylinders and the same displacement to a tenth. -/
def SameEngine (R : ImportFns K) (fe : FeData K) (e : EpaRow K) : Prop :=
  (fe.altVehType = "EV".toList ∧ e.cylinders = [] ∧ R.round e.displ = 0) ∨
  (fe.altVehType ≠ "EV".toList ∧ e.cylinders = fe.cylinders ∧ R.round (e.displ * 10) = 10 * (R.parse fe.displ).getD 0)

/-- The test vehicle drives all four wheels, going by its name or by the description of its drive. -/
def FourWheels (e : EpaRow K) : Prop :=
  "4WD".toList <:+: e.model ∨ "AWD".toList <:+: e.model ∨ "4-Wheel Drive".toList <:+: e.drive

/-- What counts as the same drive: the first letter of the drive of the vehicle is an A and the test drives four wheels, or it
is the whole description of the drive of the test. -/
def SameDrive (fe : FeData K) (e : EpaRow K) : Prop :=
  (FourWheels e ∧ fe.drive.take 1 = ['A']) ∨ (¬ FourWheels e ∧ fe.drive.take 1 = e.drive)

/-- The points of a test for a vehicle with `gears` gears and this kind of transmission. -/
def Rating (R : ImportFns K) (fe : FeData K) (gears : Nat) (kind : Txt) (e : EpaRow K) (p : K) : Prop :=
  ∃ a b c d : K, p = a + b + c + d ∧
    ((SameEngine R fe e ∧ a = 1) ∨ (¬ SameEngine R fe e ∧ a = 0)) ∧
    ((SameDrive fe e ∧ b = 1) ∨ (¬ SameDrive fe e ∧ b = 0)) ∧
    ((e.transmissionCode = kind ∧ c = 1 / 2) ∨ (e.transmissionCode ≠ kind ∧ e.transmissionType <+: kind ∧ c = 1 / 4) ∨
      (e.transmissionCode ≠ kind ∧ ¬ e.transmissionType <+: kind ∧ c = 0)) ∧
    ((e.gears = gears ∧ d = 1 / 2) ∨ (e.gears ≠ gears ∧ d = 0))

/-- `e` is the first of the tests with the best match of names and, among those, the most points. -/
def BestTest (R : ImportFns K) (fe : FeData K) (gears : Nat) (kind : Txt) (tests : List (EpaRow K)) (e : EpaRow K) : Prop :=
  ∃ pre post n p, tests = pre ++ e :: post ∧ Considered fe e ∧ NameRating fe e n ∧ 0 < n ∧ Rating R fe gears kind e p ∧
    (∀ e' ∈ pre, Considered fe e' → ∀ n' p', NameRating fe e' n' → Rating R fe gears kind e' p' → n' < n ∨ n' = n ∧ p' < p) ∧
    (∀ e' ∈ post, Considered fe e' → ∀ n' p', NameRating fe e' n' → Rating R fe gears kind e' p' → n' < n ∨ n' = n ∧ p' ≤ p)

end Fastsim.Spec

namespace Fastsim.Props

open Fastsim.Spec

/-! ### Words -/

theorem isWs_iff {c : Char} : isWs c = true ↔ Blank c := by
  unfold isWs Blank; simp [or_assoc]

theorem splitOnP_word {w : Txt} (hw : ∀ c ∈ w, isWs c = false) (s : Txt) :
    (w ++ s).splitOnP isWs = ((s.splitOnP isWs).modifyHead (w ++ ·)) := by
  induction w with
  | nil => simp [List.modifyHead]; cases s.splitOnP isWs <;> rfl
  | cons c w ih =>
    have hc : isWs c = false := hw c (by simp)
    rw [List.cons_append, List.splitOnP_cons, hc, ih (fun d hd => hw d (by simp [hd]))]
    cases s.splitOnP isWs <;> simp [List.modifyHead]

theorem wordsOf_blank {c : Char} {s : Txt} (h : Blank c) : wordsOf (c :: s) = wordsOf s := by
  unfold wordsOf
  rw [List.splitOnP_cons, if_pos (isWs_iff.2 h)]
  simp

theorem wordsOf_word {w s : Txt} (h0 : w ≠ []) (hw : ∀ c ∈ w, ¬ Blank c) (hs : ∀ c t, s = c :: t → Blank c) :
    wordsOf (w ++ s) = w :: wordsOf s := by
  have hw' : ∀ c ∈ w, isWs c = false := fun c hc => by
    cases e : isWs c with
    | false => rfl
    | true => exact absurd (isWs_iff.1 e) (hw c hc)
  unfold wordsOf
  rw [splitOnP_word hw']
  cases s with
  | nil => simp [List.modifyHead, h0]
  | cons c t =>
    rw [List.splitOnP_cons, if_pos (isWs_iff.2 (hs c t rfl))]
    simp [List.modifyHead, h0]

theorem wordsOf_of {s : Txt} {l : List Txt} (h : Words s l) : wordsOf s = l := by
  induction h with
  | nil => simp [wordsOf]
  | blank hb _ ih => rw [wordsOf_blank hb, ih]
  | word h0 hw hs _ ih => rw [wordsOf_word h0 hw hs, ih]

theorem words_exists : ∀ (k : Nat) (s : Txt), s.length ≤ k → ∃ l, Words s l
  | _, [], _ => ⟨[], .nil⟩
  | 0, _ :: _, h => by simp at h
  | k + 1, c :: s, h => by
    by_cases hb : Blank c
    · obtain ⟨l, hl⟩ := words_exists k s (by simpa using h)
      exact ⟨l, .blank hb hl⟩
    · have hb' : isWs c = false := Bool.eq_false_iff.2 fun h => hb (isWs_iff.1 h)
      let w := (c :: s).takeWhile fun d => !isWs d
      let r := (c :: s).dropWhile fun d => !isWs d
      have hw0 : w = c :: s.takeWhile fun d => !isWs d := by simp [w, List.takeWhile_cons, hb']
      have hr0 : r = s.dropWhile fun d => !isWs d := by simp [r, List.dropWhile_cons, hb']
      have hlen : r.length ≤ k := by
        rw [hr0]
        exact le_trans (List.dropWhile_suffix _).length_le (by simpa using h)
      obtain ⟨l, hl⟩ := words_exists k r hlen
      have e : c :: s = w ++ r := List.takeWhile_append_dropWhile.symm
      have hall : w.all (fun d => !isWs d) = true := List.all_takeWhile
      rw [e]
      refine ⟨w :: l, .word (by rw [hw0]; simp) (fun d hd => ?_) (fun d t hd => ?_) hl⟩
      · have := List.all_eq_true.1 hall d hd
        intro h; rw [isWs_iff.2 h] at this; cases this
      · have h1 : (c :: s).dropWhile (fun d => !isWs d) = d :: t := hd
        have := List.head_dropWhile_not (p := fun d => !isWs d) (l := c :: s) (by rw [h1]; simp)
        simp only [h1, List.head_cons, Bool.not_eq_false'] at this
        exact isWs_iff.1 this

theorem words_iff {s : Txt} {l : List Txt} : Words s l ↔ wordsOf s = l := by
  refine ⟨wordsOf_of, fun h => ?_⟩
  obtain ⟨l', hl'⟩ := words_exists s.length s le_rfl
  rw [wordsOf_of hl'] at h
  exact h ▸ hl'

/-- `replace("4WD", "AWD")`, character by character. -/
theorem awd_get (s : Txt) (i : Nat) : (awd s)[i]? = if "4WD".toList <+: s.drop i then some 'A' else s[i]? := by
  induction s using awd.induct generalizing i with
  | case1 s ih =>
    match i with
    | 0 => simp [awd]
    | 1 => simp [awd]
    | 2 => simp [awd]
    | i + 3 => simpa [awd] using ih i
  | case2 c s hc ih =>
    have hn : ¬ ("4WD".toList <+: c :: s) := by
      rintro ⟨t, ht⟩
      have : c :: s = '4' :: 'W' :: 'D' :: t := by simpa using ht.symm
      obtain ⟨rfl, rfl⟩ := List.cons.inj this
      exact hc t rfl rfl
    have e : awd (c :: s) = c :: awd s := by
      rw [awd]
      exact hc
    match i with
    | 0 =>
      rw [e, List.drop_zero, if_neg hn]; rfl
    | i + 1 => rw [e]; simpa using ih i
  | case3 => simp [awd]

variable {K : Type*} [Field K] [LinearOrder K] [IsStrictOrderedRing K]

/-! ### Ratings -/

theorem sameFolded_iff {a b : Txt} : sameFolded a b = true ↔ a.map Char.toLower = b.map Char.toLower := by
  unfold sameFolded lowerTxt; exact decide_eq_true_iff

theorem identified_iff {fe : FeData K} {e : EpaRow K} :
    (sameTestId fe e || sameFolded e.model fe.model) = true ↔ Identified fe e := by
  rw [Bool.or_eq_true, sameFolded_iff, or_comm]
  unfold Identified
  refine or_congr Iff.rfl ?_
  unfold sameTestId
  cases hf : fe.efids with
  | nil => simp
  | cons f rest =>
    cases f with
    | nil => simp
    | cons c family =>
      simp only [List.headD_cons, List.isEmpty_cons, Bool.not_false, Bool.and_true, List.tail_cons, Bool.and_eq_true,
        decide_eq_true_iff, Bool.not_eq_true', List.isEmpty_eq_false_iff]
      constructor
      · rintro ⟨h1, h2⟩; exact ⟨c, family, rest, rfl, h1, of_decide_eq_true h2⟩
      · rintro ⟨c', f', r', h, h1, h2⟩
        cases h; exact ⟨h1, decide_eq_true h2⟩

theorem nameRating_iff {fe : FeData K} {e : EpaRow K} {n : K} : NameRating fe e n ↔ nameMatch fe e = some n := by
  unfold NameRating nameMatch
  by_cases hi : Identified fe e
  · rw [if_pos (identified_iff.2 hi)]
    constructor
    · rintro (⟨-, rfl⟩ | ⟨h, -⟩)
      · rfl
      · exact absurd hi h
    · intro h; exact Or.inl ⟨hi, (Option.some.inj h).symm⟩
  · rw [if_neg (fun h => hi (identified_iff.1 h))]
    simp only [hi, false_and, not_false_eq_true, true_and, false_or]
    set F := wordsOf (awd (upperTxt fe.model)) with hF
    set W := wordsOf (awd (upperTxt e.model)) with hW
    have key : (W.countP fun w => decide (w ∈ F)) = (W.filter fun w => decide (w ∈ F)).length := List.countP_eq_length_filter
    constructor
    · rintro ⟨F', W', h1, h2, h3, h4, h5⟩
      have e1 : F' = F := (words_iff.1 h1).symm
      have e2 : W' = W := (words_iff.1 h2).symm
      rw [e1, e2] at h5; rw [e1] at h3; rw [e2] at h4
      have l1 : F.length ≠ 0 := fun h => h3 (List.length_eq_zero_iff.1 h)
      have l2 : W.length ≠ 0 := fun h => h4 (List.length_eq_zero_iff.1 h)
      rw [if_neg (by rintro (h | h); exacts [l2 h, l1 h]), key]
      congr 1
      have : (W.length : K) * (F.length : K) ≠ 0 := mul_ne_zero (by exact_mod_cast l2) (by exact_mod_cast l1)
      rw [div_eq_iff this, ← sq, h5]
    · intro h
      by_cases hz : W.length = 0 ∨ F.length = 0
      · rw [if_pos hz] at h; cases h
      · rw [if_neg hz] at h
        have h := Option.some.inj h
        rw [not_or] at hz
        refine ⟨F, W, words_iff.2 hF.symm, words_iff.2 hW.symm, fun hh => hz.2 (by rw [hh]; rfl),
          fun hh => hz.1 (by rw [hh]; rfl), ?_⟩
        have : (W.length : K) * (F.length : K) ≠ 0 := mul_ne_zero (by exact_mod_cast hz.1) (by exact_mod_cast hz.2)
        rw [← h, key, div_mul_cancel₀ _ this, sq]

theorem nameMatch_nonneg {fe : FeData K} {e : EpaRow K} {n : K} (h : nameMatch fe e = some n) : 0 ≤ n := by
  unfold nameMatch at h
  split at h
  · rw [← Option.some.inj h]; exact zero_le_one
  · simp only at h
    split at h
    · cases h
    · rw [← Option.some.inj h]
      positivity

theorem engineScore_iff {R : ImportFns K} {fe : FeData K} {e : EpaRow K} {a : K} :
    ((SameEngine R fe e ∧ a = 1) ∨ (¬ SameEngine R fe e ∧ a = 0)) ↔ engineScore R fe e = a := by
  classical
  have h10 : (((10 : Nat) : K)) = 10 := by norm_num
  have hs : engineScore R fe e = if SameEngine R fe e then (1 : K) else 0 := by
    unfold engineScore SameEngine
    by_cases hv : fe.altVehType = "EV".toList
    · rw [if_pos hv]
      simp only [hv, not_true_eq_false, ne_eq, false_and, or_false, true_and, Bool.and_eq_true, List.isEmpty_iff,
        decide_eq_true_iff]
    · rw [if_neg hv]
      simp only [hv, false_and, ne_eq, not_false_eq_true, true_and, false_or, h10]
      have : ∀ x y : K, x / 10 = y ↔ x = 10 * y := fun x y => by
        rw [div_eq_iff (by norm_num), mul_comm]
      simp only [this]
  rw [hs]
  by_cases h : SameEngine R fe e <;> simp [h, eq_comm]

theorem driveScore_iff {fe : FeData K} {e : EpaRow K} {b : K} :
    ((SameDrive fe e ∧ b = 1) ∨ (¬ SameDrive fe e ∧ b = 0)) ↔ driveScore fe e = b := by
  classical
  have hf : (hasPart "4WD" e.model || hasPart "AWD" e.model || hasPart "4-Wheel Drive" e.drive) = true ↔ FourWheels e := by
    unfold FourWheels
    simp only [Bool.or_eq_true, hasPart_iff, or_assoc]
  have hs : driveScore fe e = if SameDrive fe e then (1 : K) else 0 := by
    unfold driveScore SameDrive
    by_cases h : FourWheels e
    · simp only [if_pos (hf.2 h), h, true_and, not_true_eq_false, false_and, or_false]
      by_cases hd : fe.drive.take 1 = ['A']
      · rw [if_pos hd, if_pos (by rw [hd]; rfl)]
      · rw [if_neg hd, if_neg (fun hh => hd hh.symm)]
    · simp only [if_neg (fun hh => h (hf.1 hh)), h, false_and, not_false_eq_true, true_and, false_or]
      by_cases hd : fe.drive.take 1 = e.drive
      · rw [if_pos hd, if_pos hd.symm]
      · rw [if_neg hd, if_neg (fun hh => hd hh.symm)]
  rw [hs]
  by_cases h : SameDrive fe e <;> simp [h, eq_comm]

theorem transmissionScore_iff {kind : Txt} {e : EpaRow K} {c : K} :
    ((e.transmissionCode = kind ∧ c = 1 / 2) ∨ (e.transmissionCode ≠ kind ∧ e.transmissionType <+: kind ∧ c = 1 / 4) ∨
      (e.transmissionCode ≠ kind ∧ ¬ e.transmissionType <+: kind ∧ c = 0)) ↔ transmissionScore kind e = c := by
  unfold transmissionScore
  have e2 : (dec 1 2 : K) = 1 / 2 := by norm_num [dec]
  have e4 : (dec 1 4 : K) = 1 / 4 := by norm_num [dec]
  rw [e2, e4]
  by_cases h : e.transmissionCode = kind
  · simp [h, eq_comm]
  · by_cases h2 : e.transmissionType <+: kind <;> simp [h, h2, eq_comm]

theorem gearScore_iff {gears : Nat} {e : EpaRow K} {d : K} :
    ((e.gears = gears ∧ d = 1 / 2) ∨ (e.gears ≠ gears ∧ d = 0)) ↔ gearScore gears e = d := by
  unfold gearScore
  have e2 : (dec 1 2 : K) = 1 / 2 := by norm_num [dec]
  rw [e2]
  by_cases h : e.gears = gears <;> simp [h, eq_comm]

theorem rating_iff {R : ImportFns K} {fe : FeData K} {g : Nat} {k : Txt} {e : EpaRow K} {p : K} :
    Rating R fe g k e p ↔ epaScore R fe (g, k) e = p := by
  unfold Rating epaScore
  simp only [engineScore_iff, driveScore_iff, transmissionScore_iff, gearScore_iff]
  constructor
  · rintro ⟨a, b, c, d, h, rfl, rfl, rfl, rfl⟩; rw [h]; ring
  · intro h; exact ⟨_, _, _, _, by rw [← h]; ring, rfl, rfl, rfl, rfl⟩

/-! ### The search -/

theorem considered_iff {fe : FeData K} {e : EpaRow K} :
    (e.year = fe.year ∧ sameFolded e.make fe.make = true ∧ hasPart "Cold CO" e.testFuelType = false) ↔ Considered fe e := by
  rw [sameFolded_iff, ← Bool.not_eq_true, hasPart_iff]
  exact ⟨fun ⟨a, b, c⟩ => ⟨a, b, c⟩, fun ⟨a, b, c⟩ => ⟨a, b, c⟩⟩

/-- The search has found `b` among the tests. -/
def FoundTest (R : ImportFns K) (fe : FeData K) (g : Nat) (k : Txt) (tests : List (EpaRow K)) (b : K × K × Option (EpaRow K)) : Prop :=
  (b = (0, 0, none) ∧ ∀ e ∈ tests, Considered fe e → ∀ n, NameRating fe e n → n = 0) ∨
  (∃ pre e post n p, b = (n, p, some e) ∧ tests = pre ++ e :: post ∧ Considered fe e ∧ NameRating fe e n ∧ 0 < n ∧
    Rating R fe g k e p ∧
    (∀ e' ∈ pre, Considered fe e' → ∀ n' p', NameRating fe e' n' → Rating R fe g k e' p' → n' < n ∨ n' = n ∧ p' < p) ∧
    (∀ e' ∈ post, Considered fe e' → ∀ n' p', NameRating fe e' n' → Rating R fe g k e' p' → n' < n ∨ n' = n ∧ p' ≤ p))

/-- One more test. -/
def nextTest (R : ImportFns K) (fe : FeData K) (spec : Nat × Txt) (b : K × K × Option (EpaRow K)) (e : EpaRow K) :
    K × K × Option (EpaRow K) :=
  (epaCandidates R fe spec [e]).foldl bestRound b

theorem search_snoc (R : ImportFns K) (fe : FeData K) (spec : Nat × Txt) (l : List (EpaRow K)) (e : EpaRow K)
    (b : K × K × Option (EpaRow K)) : (epaCandidates R fe spec (l ++ [e])).foldl bestRound b =
      nextTest R fe spec ((epaCandidates R fe spec l).foldl bestRound b) e := by
  have : epaCandidates R fe spec (l ++ [e]) = epaCandidates R fe spec l ++ epaCandidates R fe spec [e] := by
    unfold epaCandidates; rw [List.filterMap_append]
  rw [this, List.foldl_append]; rfl

theorem nextTest_skip {R : ImportFns K} {fe : FeData K} {spec : Nat × Txt} {b : K × K × Option (EpaRow K)} {e : EpaRow K}
    (h : ¬ Considered fe e ∨ nameMatch fe e = some 0 ∨ nameMatch fe e = none) : nextTest R fe spec b e = b := by
  unfold nextTest epaCandidates
  simp only [List.filterMap_cons, List.filterMap_nil]
  by_cases hc : Considered fe e
  · simp only [if_pos (considered_iff.2 hc)]
    rcases h with h | h | h
    · exact absurd hc h
    · simp only [h, if_true]; rfl
    · simp only [h]; rfl
  · simp only [if_neg (fun hh => hc (considered_iff.1 hh))]; rfl

theorem nextTest_some {R : ImportFns K} {fe : FeData K} {spec : Nat × Txt} {b : K × K × Option (EpaRow K)} {e : EpaRow K}
    (hc : Considered fe e) {n : K} (hn : nameMatch fe e = some n) (h0 : n ≠ 0) : nextTest R fe spec b e =
      if b.1 < n ∨ n = b.1 ∧ b.2.1 < epaScore R fe spec e then (n, epaScore R fe spec e, some e) else b := by
  unfold nextTest epaCandidates
  simp only [List.filterMap_cons, List.filterMap_nil, if_pos (considered_iff.2 hc), hn]
  rw [if_neg (fun hh => h0 (Option.some.inj hh))]
  rfl

theorem search_found (R : ImportFns K) (fe : FeData K) (g : Nat) (k : Txt) (tests : List (EpaRow K)) :
    FoundTest R fe g k tests ((epaCandidates R fe (g, k) tests).foldl bestRound (0, 0, none)) := by
  induction tests using List.reverseRecOn with
  | nil => exact Or.inl ⟨rfl, by simp⟩
  | append_singleton l x ih =>
    rw [search_snoc]
    by_cases hskip : ¬ Considered fe x ∨ nameMatch fe x = some 0 ∨ nameMatch fe x = none
    · rw [nextTest_skip hskip]
      have hz : Considered fe x → ∀ n, NameRating fe x n → n = 0 := fun hc n hn => by
        rw [nameRating_iff] at hn
        rcases hskip with h | h | h
        · exact absurd hc h
        · rw [h] at hn; exact (Option.some.inj hn).symm
        · rw [h] at hn; cases hn
      rcases ih with ⟨h1, h2⟩ | ⟨pre, e, post, n, p, h1, h2, h3, h4, h5, h6, h7, h8⟩
      · refine Or.inl ⟨h1, fun e he => ?_⟩
        rcases List.mem_append.1 he with he | he
        · exact h2 e he
        · rw [List.mem_singleton.1 he]; exact hz
      · refine Or.inr ⟨pre, e, post ++ [x], n, p, h1, by rw [h2]; simp, h3, h4, h5, h6, h7, fun e' he' hc' n' p' hn' hp' => ?_⟩
        rcases List.mem_append.1 he' with he' | he'
        · exact h8 e' he' hc' n' p' hn' hp'
        · rw [List.mem_singleton.1 he'] at hc' hn'
          rw [hz hc' n' hn']; exact Or.inl h5
    · rw [not_or, not_or, not_not] at hskip
      obtain ⟨hc, hn0, hnn⟩ := hskip
      obtain ⟨n, hn⟩ := Option.ne_none_iff_exists'.1 hnn
      have hnz : n ≠ 0 := fun h => hn0 (h ▸ hn)
      have hpos : 0 < n := lt_of_le_of_ne (nameMatch_nonneg hn) (Ne.symm hnz)
      rw [nextTest_some hc hn hnz]
      have uniq : ∀ n', NameRating fe x n' → n' = n := fun n' h => by
        rw [nameRating_iff, hn] at h; exact (Option.some.inj h).symm
      have uniqp : ∀ p', Rating R fe g k x p' → p' = epaScore R fe (g, k) x := fun p' h => (rating_iff.1 h).symm
      rcases ih with ⟨h1, h2⟩ | ⟨pre, e, post, m, p, h1, h2, h3, h4, h5, h6, h7, h8⟩
      · rw [h1, if_pos (Or.inl hpos)]
        refine Or.inr ⟨l, x, [], n, _, rfl, by simp, hc, nameRating_iff.2 hn, hpos, rating_iff.2 rfl, ?_, by simp⟩
        intro e' he' hc' n' p' hn' hp'
        rw [h2 e' he' hc' n' hn']; exact Or.inl hpos
      · rw [h1]
        simp only
        by_cases hw : m < n ∨ n = m ∧ p < epaScore R fe (g, k) x
        · rw [if_pos hw]
          refine Or.inr ⟨l, x, [], n, _, rfl, by simp, hc, nameRating_iff.2 hn, hpos, rating_iff.2 rfl, ?_, by simp⟩
          intro e' he' hc' n' p' hn' hp'
          have hle : n' < m ∨ n' = m ∧ p' ≤ p := by
            rw [h2] at he'
            rcases List.mem_append.1 he' with he' | he'
            · exact (h7 e' he' hc' n' p' hn' hp').imp_right fun h => ⟨h.1, h.2.le⟩
            · rcases List.mem_cons.1 he' with he' | he'
              · subst he'
                right
                constructor
                · have := (nameRating_iff.1 hn').symm.trans (nameRating_iff.1 h4)
                  exact Option.some.inj this
                · exact le_of_eq ((rating_iff.1 hp').symm.trans (rating_iff.1 h6))
              · exact h8 e' he' hc' n' p' hn' hp'
          rcases hw with hw | ⟨hw1, hw2⟩
          · rcases hle with h | ⟨h, -⟩
            · exact Or.inl (h.trans hw)
            · exact Or.inl (h ▸ hw)
          · rcases hle with h | ⟨h, h'⟩
            · exact Or.inl (hw1 ▸ h)
            · exact Or.inr ⟨h.trans hw1.symm, lt_of_le_of_lt h' hw2⟩
        · rw [if_neg hw]
          refine Or.inr ⟨pre, e, post ++ [x], m, p, rfl, by rw [h2]; simp, h3, h4, h5, h6, h7, fun e' he' hc' n' p' hn' hp' => ?_⟩
          rcases List.mem_append.1 he' with he' | he'
          · exact h8 e' he' hc' n' p' hn' hp'
          · rw [List.mem_singleton.1 he'] at hn' hp'
            rw [uniq n' hn', uniqp p' hp']
            rw [not_or, not_lt, not_and, not_lt] at hw
            rcases lt_or_eq_of_le hw.1 with h | h
            · exact Or.inl h
            · exact Or.inr ⟨h, hw.2 h⟩

theorem bestTest_unique {R : ImportFns K} {fe : FeData K} {g : Nat} {k : Txt} {tests : List (EpaRow K)} {e e' : EpaRow K}
    (h : BestTest R fe g k tests e) (h' : BestTest R fe g k tests e') : e = e' := by
  obtain ⟨pre, post, n, p, h2, h3, h4, h5, h6, h7, h8⟩ := h
  obtain ⟨pre', post', n', p', g2, g3, g4, g5, g6, g7, g8⟩ := h'
  rw [h2] at g2
  rcases List.append_eq_append_iff.1 g2 with ⟨a, ha1, ha2⟩ | ⟨a, ha1, ha2⟩
  · cases a with
    | nil => exact (List.cons.inj ha2).1
    | cons b a =>
      obtain ⟨rfl, hb⟩ := List.cons.inj ha2
      have i1 := g7 e (by rw [ha1]; simp) h3 n p h4 h6
      have i2 := h8 e' (by rw [hb]; simp) g3 n' p' g4 g6
      rcases i1 with i1 | ⟨i1, i1'⟩ <;> rcases i2 with i2 | ⟨i2, i2'⟩
      · exact absurd (i1.trans i2) (lt_irrefl _)
      · exact absurd i1 (by rw [i2]; exact lt_irrefl _)
      · exact absurd i2 (by rw [i1]; exact lt_irrefl _)
      · exact absurd (lt_of_lt_of_le i1' i2') (lt_irrefl _)
  · cases a with
    | nil => exact (List.cons.inj ha2).1.symm
    | cons b a =>
      obtain ⟨rfl, hb⟩ := List.cons.inj ha2
      have i1 := h7 e' (by rw [ha1]; simp) g3 n' p' g4 g6
      have i2 := g8 e (by rw [hb]; simp) h3 n p h4 h6
      rcases i1 with i1 | ⟨i1, i1'⟩ <;> rcases i2 with i2 | ⟨i2, i2'⟩
      · exact absurd (i1.trans i2) (lt_irrefl _)
      · exact absurd i1 (by rw [i2]; exact lt_irrefl _)
      · exact absurd i2 (by rw [i1]; exact lt_irrefl _)
      · exact absurd (lt_of_lt_of_le i1' i2') (lt_irrefl _)

/-- **C106 (the best test).** The test that a vehicle is built from is the first of those with the best match of names and,
among these, the most points; and no other. -/
theorem C106_best {R : ImportFns K} {fe : FeData K} {tests : List (EpaRow K)} {e : EpaRow K} :
    matchEpa R fe tests = .ok (some e) ↔
      ∃ gears kind, transmissionSpecs fe.transmission = .ok (gears, kind) ∧ BestTest R fe gears kind tests e := by
  unfold matchEpa
  cases ht : transmissionSpecs fe.transmission with
  | error x => simp
  | ok spec =>
    obtain ⟨g, k⟩ := spec
    have hf := search_found R fe g k tests
    simp only
    constructor
    · intro h
      refine ⟨g, k, rfl, ?_⟩
      rcases hf with ⟨h1, -⟩ | ⟨pre, e', post, n, p, h1, h2, h3, h4, h5, h6, h7, h8⟩
      · rw [h1] at h; simp at h
      · rw [h1] at h
        simp only [if_neg (ne_of_gt h5)] at h
        obtain rfl := Option.some.inj (Except.ok.inj h)
        exact ⟨pre, post, n, p, h2, h3, h4, h5, h6, h7, h8⟩
    · rintro ⟨g', k', hgk, hb⟩
      cases hgk
      rcases hf with ⟨h1, h2⟩ | ⟨pre, e', post, n, p, h1, h2, h3, h4, h5, h6, h7, h8⟩
      · obtain ⟨pre, post, n, p, g2, g3, g4, g5, -⟩ := hb
        exact absurd (h2 e (by rw [g2]; simp) g3 n g4) (ne_of_gt g5)
      · rw [h1]
        simp only [if_neg (ne_of_gt h5)]
        rw [bestTest_unique ⟨pre, post, n, p, h2, h3, h4, h5, h6, h7, h8⟩ hb]

/-- **C106 (no test).** A vehicle is given up only if no test of its year and make shares a word with its name: engine, drive and
transmission never exclude a test. -/
theorem C106_none {R : ImportFns K} {fe : FeData K} {tests : List (EpaRow K)} :
    matchEpa R fe tests = .ok none ↔
      (∃ spec, transmissionSpecs fe.transmission = .ok spec) ∧
        ∀ e ∈ tests, Considered fe e → ∀ n, NameRating fe e n → n = 0 := by
  unfold matchEpa
  cases ht : transmissionSpecs fe.transmission with
  | error x => simp
  | ok spec =>
    obtain ⟨g, k⟩ := spec
    have hf := search_found R fe g k tests
    simp only
    rcases hf with ⟨h1, h2⟩ | ⟨pre, e', post, n, p, h1, h2, h3, h4, h5, h6, h7, h8⟩
    · rw [h1]
      simp only [if_true, true_iff]
      exact ⟨⟨_, rfl⟩, h2⟩
    · rw [h1]
      simp only [if_neg (ne_of_gt h5)]
      refine ⟨fun h => by simp at h, fun ⟨_, h⟩ => ?_⟩
      exact absurd (h e' (by rw [h2]; simp) h3 n h4) (ne_of_gt h5)

/-- **C106 (an identified test is enough).** With a test of the same year, make and model, or of the same engine family, some
test is found. -/
theorem C106_identified {R : ImportFns K} {fe : FeData K} {tests : List (EpaRow K)} {e : EpaRow K} (he : e ∈ tests)
    (hc : Considered fe e) (hi : Identified fe e) {spec : Nat × Txt} (ht : transmissionSpecs fe.transmission = .ok spec) :
    ∃ e', matchEpa R fe tests = .ok (some e') ∧ e' ∈ tests ∧ Considered fe e' := by
  have hne : matchEpa R fe tests ≠ .ok none := fun h => by
    have := (C106_none.1 h).2 e he hc 1 (Or.inl ⟨hi, rfl⟩)
    exact one_ne_zero this
  have hok : ∃ o, matchEpa R fe tests = .ok o := by
    unfold matchEpa; rw [ht]; exact ⟨_, rfl⟩
  obtain ⟨o, ho⟩ := hok
  cases o with
  | none => exact absurd ho hne
  | some e' =>
    obtain ⟨g, k, -, pre, post, n, p, g2, g3, -⟩ := C106_best.1 ho
    exact ⟨e', ho, by rw [g2]; simp, g3⟩

/-! ### What the search does not see -/

/-- **C106 (the drive is hardly compared).** The test tables describe drives in words ("2-Wheel Drive, Front"). For a vehicle
whose drive does not start with A (front, rear or "4-Wheel" drive) no such test has the same drive, the right one included. -/
theorem C106_drive_found {fe : FeData K} {e : EpaRow K} (h1 : 2 ≤ e.drive.length) (h2 : fe.drive.take 1 ≠ ['A']) :
    ¬ SameDrive fe e := by
  rintro (⟨-, h⟩ | ⟨-, h⟩)
  · exact h2 h
  · have := congrArg List.length h
    rw [List.length_take] at this
    omega

/-- **C106 (codes of drives are not read).** The code of the drive in the test tables ("F", "R", "4", "A") has no influence. -/
theorem C106_drive_code (R : ImportFns K) (fe : FeData K) (tests : List (EpaRow K)) (code : EpaRow K → Txt) :
    matchEpa R fe (tests.map fun e => { e with driveCode := code e }) =
      (matchEpa R fe tests).map (Option.map fun e => { e with driveCode := code e }) := by
  let f : EpaRow K → EpaRow K := fun e => { e with driveCode := code e }
  unfold matchEpa
  cases transmissionSpecs fe.transmission with
  | error x => rfl
  | ok spec =>
    have hc : ∀ l : List (EpaRow K), epaCandidates R fe spec (l.map f) =
        (epaCandidates R fe spec l).map fun c => (c.1, c.2.1, f c.2.2) := by
      intro l
      unfold epaCandidates
      rw [List.filterMap_map, List.map_filterMap]
      congr 1
      funext e
      show (if e.year = fe.year ∧ sameFolded e.make fe.make = true ∧ hasPart "Cold CO" e.testFuelType = false then
          (if nameMatch fe e = some 0 then none else some (nameMatch fe e, epaScore R fe spec e, f e)) else none) = _
      by_cases h : e.year = fe.year ∧ sameFolded e.make fe.make = true ∧ hasPart "Cold CO" e.testFuelType = false
      · simp only [if_pos h]
        by_cases h0 : nameMatch fe e = some 0
        · simp only [if_pos h0]; rfl
        · simp only [if_neg h0]; rfl
      · simp only [if_neg h]; rfl
    have hr : ∀ (l : List (Option K × K × EpaRow K)) (b : K × K × Option (EpaRow K)),
        (l.map fun c => (c.1, c.2.1, f c.2.2)).foldl bestRound (b.1, b.2.1, b.2.2.map f) =
          ((l.foldl bestRound b).1, (l.foldl bestRound b).2.1, (l.foldl bestRound b).2.2.map f) := by
      intro l
      induction l with
      | nil => intro b; rfl
      | cons c l ih =>
        intro b
        have e : bestRound (b.1, b.2.1, b.2.2.map f) (c.1, c.2.1, f c.2.2) =
            ((bestRound b c).1, (bestRound b c).2.1, (bestRound b c).2.2.map f) := by
          unfold bestRound
          cases c.1 with
          | none => rfl
          | some n =>
            simp only
            split <;> rfl
        rw [List.map_cons, List.foldl_cons, List.foldl_cons, e, ih]
    simp only
    have := hr (epaCandidates R fe spec tests) (0, 0, none)
    simp only [Option.map_none] at this
    rw [hc tests, this]
    simp only [Except.map]
    split <;> rfl

end Fastsim.Props
