import Verif.Model.Tire
import Verif.Props.Units
import Mathlib.Tactic.IntervalCases

/-!
# C55: tire codes are read as written
-/
set_option linter.unusedSectionVars false

namespace Fastsim.Props
open Fastsim Spec

/-- One of the ten digits. -/
def _root_.Fastsim.Spec.Digit (c : Char) : Prop := c ∈ ['0', '1', '2', '3', '4', '5', '6', '7', '8', '9']

/-- A number as written in a tire code: digits, or `lo` or `lo + 1` digits, a point, and digits. -/
inductive _root_.Fastsim.Spec.Numeral (lo : Nat) : List Char → Prop
  | int {d : List Char} : d ≠ [] → (∀ c ∈ d, Digit c) → Numeral lo d
  | frac {i f : List Char} : (i.length = lo ∨ i.length = lo + 1) → (∀ c ∈ i, Digit c) → f ≠ [] →
      (∀ c ∈ f, Digit c) → Numeral lo (i ++ '.' :: f)

/-- What follows a number neither continues it nor adds a decimal part. -/
def _root_.Fastsim.Spec.Ends (r : List Char) : Prop := ∀ c s, r = c :: s → ¬ Digit c ∧ c ≠ '.'

theorem isDig_iff (c : Char) : isDig c = true ↔ Digit c := by
  unfold isDig Digit
  constructor
  · intro h
    have h : '0' ≤ c ∧ c ≤ '9' := by simpa using h
    have h1 : 48 ≤ c.toNat := h.1
    have h2 : c.toNat ≤ 57 := h.2
    have : c = Char.ofNat c.toNat := (Char.ofNat_toNat c).symm
    rw [this]
    generalize c.toNat = n at h1 h2
    interval_cases n <;> decide
  · intro h
    simp only [List.mem_cons, List.not_mem_nil, or_false] at h
    rcases h with h | h | h | h | h | h | h | h | h | h <;> subst h <;> decide

theorem digits1_nil_of {r : List Char} (h : Ends r) : digits1 r = [] := by
  cases r with
  | nil => rfl
  | cons c s =>
    have := (h c s rfl).1
    rw [digits1, if_neg (by rw [isDig_iff]; exact this)]

theorem digits1_head : ∀ {d : List Char}, d ≠ [] → (∀ c ∈ d, Digit c) → ∀ {r : List Char}, Ends r →
    (digits1 (d ++ r)).head? = some (d, r)
  | [], h, _, _, _ => absurd rfl h
  | [c], _, hd, r, hr => by
    have hc := (isDig_iff c).2 (hd c (by simp))
    rw [List.cons_append, List.nil_append, digits1, if_pos hc, digits1_nil_of hr]; rfl
  | c :: c' :: d, _, hd, r, hr => by
    have hc := (isDig_iff c).2 (hd c (by simp))
    have ih := digits1_head (d := c' :: d) (by simp) (fun x hx => hd x (by simp [hx])) hr
    rw [List.cons_append, digits1, if_pos hc, List.head?_append, List.head?_map, ih]; rfl

theorem not_digit_dot : ¬ Digit '.' := by unfold Digit; decide

/-- `dotPrefixN` finds nothing in digits that are not followed by a point. -/
theorem dotPrefix_int {d r : List Char} (hd : ∀ c ∈ d, Digit c) (hr : Ends r) (n : Nat) :
    dotPrefixN n (d ++ r) = [] := by
  unfold dotPrefixN
  split
  · rename_i s' hs
    split
    · rename_i hall
      exfalso
      have hmem : '.' ∈ (d ++ r).drop n := by rw [hs]; simp
      have hlen := hall.2
      by_cases hn : n < d.length
      · rw [List.drop_append_of_le_length hn.le] at hs
        obtain ⟨x, l, hx⟩ : ∃ x l, d.drop n = x :: l := by
          cases e : d.drop n with
          | nil => have := congrArg List.length e; simp at this; omega
          | cons x l => exact ⟨x, l, rfl⟩
        rw [hx] at hs
        have : x = '.' := by simpa using (List.cons.inj hs).1
        have hxd : x ∈ d := List.mem_of_mem_drop (i := n) (by rw [hx]; simp)
        exact not_digit_dot (this ▸ hd x hxd)
      · rcases Nat.eq_or_lt_of_le (Nat.le_of_not_lt hn) with he | hl
        · rw [← he, List.drop_left] at hs
          exact (hr _ _ hs).2 rfl
        · -- the first character of `r` would be among the `n` digits
          cases r with
          | nil => rw [List.append_nil, List.drop_eq_nil_of_le hl.le] at hs; cases hs
          | cons c s =>
            have hc : c ∈ (d ++ c :: s).take n := by
              rw [List.take_append, List.mem_append]
              right
              obtain ⟨k, hk⟩ : ∃ k, n - d.length = k + 1 := ⟨n - d.length - 1, by omega⟩
              rw [hk]; simp
            have := List.all_eq_true.1 hall.1 c hc
            exact (hr c s rfl).1 ((isDig_iff c).1 this)
    · rfl
  · rfl

theorem dotPrefix_frac {i f : List Char} (hi : ∀ c ∈ i, Digit c) :
    dotPrefixN i.length (i ++ '.' :: f) = [(i ++ ['.'], f)] := by
  unfold dotPrefixN
  rw [List.drop_left, List.take_left]
  show (if _ then _ else _) = _
  rw [if_pos ⟨List.all_eq_true.2 fun c hc => (isDig_iff c).2 (hi c hc), rfl⟩]

theorem dotPrefix_frac_ne {i f : List Char} {n : Nat} (hn : i.length < n) :
    dotPrefixN n (i ++ '.' :: f) = [] := by
  unfold dotPrefixN
  split
  · split
    · rename_i hall
      exfalso
      have hc : '.' ∈ (i ++ '.' :: f).take n := by
        rw [List.take_append, List.mem_append]
        right
        obtain ⟨k, hk⟩ : ∃ k, n - i.length = k + 1 := ⟨n - i.length - 1, by omega⟩
        rw [hk]; simp
      exact not_digit_dot ((isDig_iff _).1 (List.all_eq_true.1 hall.1 _ hc))
    · rfl
  · rfl

theorem head?_flatMap_of {α β : Type*} {l : List α} {a : α} {f : α → List β} {b : β} (h : l.head? = some a)
    (h' : (f a).head? = some b) : (l.flatMap f).head? = some b := by
  cases l with
  | nil => cases h
  | cons x l =>
    have : x = a := by simpa using h
    subst this
    rw [List.flatMap_cons, List.head?_append, h']; rfl

theorem numPat_head {lo : Nat} {d : List Char} (hd : Numeral lo d) {r : List Char} (hr : Ends r) :
    (numPat lo (d ++ r)).head? = some (d, r) := by
  unfold numPat
  cases hd with
  | int hne hd =>
    rw [dotPrefix_int hd hr, dotPrefix_int hd hr]
    simpa using digits1_head hne hd hr
  | @frac i f hlen hi hne hf =>
    have e : (i ++ '.' :: f) ++ r = i ++ '.' :: (f ++ r) := by simp
    rw [e, List.head?_append]
    have key : ((dotPrefixN (lo + 1) (i ++ '.' :: (f ++ r)) ++ dotPrefixN lo (i ++ '.' :: (f ++ r))).flatMap
        (fun p => (digits1 p.2).map fun q => (p.1 ++ q.1, q.2))).head? = some (i ++ '.' :: f, r) := by
      have h2 : ((digits1 (f ++ r)).map fun q => ((i ++ ['.']) ++ q.1, q.2)).head? = some (i ++ '.' :: f, r) := by
        rw [List.head?_map, digits1_head hne hf hr]; simp
      rcases hlen with hl | hl
      · rw [dotPrefix_frac_ne (n := lo + 1) (by omega), ← hl, dotPrefix_frac hi, List.nil_append]
        exact head?_flatMap_of rfl h2
      · rw [← hl, dotPrefix_frac hi]
        exact head?_flatMap_of (a := (i ++ ['.'], f ++ r)) rfl h2
    rw [key]; rfl

/-- At most one letter `P`, `L`, `S` or `T` (or a bar) in front. -/
def _root_.Fastsim.Spec.Front (p : List Char) : Prop := p = [] ∨ ∃ c ∈ prefixClass, p = [c]

/-- Between aspect ratio and rim: one construction letter, one separator, or one of each in this order. -/
def _root_.Fastsim.Spec.Middle (m : List Char) : Prop :=
  (∃ c ∈ buildClass, m = [c]) ∨ (∃ c ∈ sepClass, m = [c]) ∨ ∃ c ∈ buildClass, ∃ x ∈ sepClass, m = [c, x]

theorem numeral_head {lo : Nat} (hlo : 0 < lo) {d : List Char} (hd : Numeral lo d) :
    ∃ c s, d = c :: s ∧ Digit c := by
  cases hd with
  | int hne hd =>
    cases d with
    | nil => exact absurd rfl hne
    | cons c s => exact ⟨c, s, rfl, hd c (by simp)⟩
  | @frac i f hlen hi hne hf =>
    cases i with
    | nil => simp at hlen; omega
    | cons c s => exact ⟨c, s ++ '.' :: f, rfl, hi c (by simp)⟩

theorem digit_not_class {c : Char} (h : Digit c) : c ∉ prefixClass ∧ c ∉ buildClass ∧ c ∉ sepClass := by
  unfold Digit at h
  simp only [List.mem_cons, List.not_mem_nil, or_false] at h
  rcases h with h | h | h | h | h | h | h | h | h | h <;> subst h <;> decide

theorem build_ends {c : Char} (h : c ∈ buildClass) (s : List Char) : Ends (c :: s) := by
  intro c' s' e
  cases e
  simp only [buildClass, List.mem_cons, List.not_mem_nil, or_false] at h
  unfold Digit
  rcases h with h | h | h | h | h | h | h <;> subst h <;> decide

theorem sep_ends {c : Char} (h : c ∈ sepClass) (s : List Char) : Ends (c :: s) := by
  intro c' s' e
  cases e
  simp only [sepClass, List.mem_cons, List.not_mem_nil, or_false] at h
  unfold Digit
  rcases h with h | h | h | h | h <;> subst h <;> decide

theorem sep_not_build {c : Char} (h : c ∈ sepClass) (hb : c ∉ buildClass) (s : List Char) :
    (optClass buildClass (c :: s)).head? = some (c :: s) := by
  rw [optClass, if_neg hb]; rfl

theorem optClass_mem {cls : List Char} {c : Char} (h : c ∈ cls) (s : List Char) :
    (optClass cls (c :: s)).head? = some s := by rw [optClass, if_pos h]; rfl

theorem optClass_not {cls : List Char} {c : Char} (h : c ∉ cls) (s : List Char) :
    (optClass cls (c :: s)).head? = some (c :: s) := by rw [optClass, if_neg h]; rfl

/-- A code made of an optional front letter, a width, a slash, an aspect ratio, a construction letter or
separator and a rim diameter is read as exactly these numbers, whatever follows that does not continue the last
number. -/
theorem C55_reads {p w a m d t : List Char} (hp : Front p) (hw : Numeral 2 w) (ha : Numeral 1 a) (hm : Middle m)
    (hd : Numeral 1 d) (ht : Ends t) :
    (tireMatches (p ++ w ++ '/' :: (a ++ m ++ d ++ t))).head? = some (w, a, d) := by
  obtain ⟨cw, sw, ew, hcw⟩ := numeral_head (by omega) hw
  obtain ⟨cd, sd, ed, hcd⟩ := numeral_head (by omega) hd
  have hslash : Ends ('/' :: (a ++ m ++ d ++ t)) := by
    intro c s e; cases e; unfold Digit; decide
  have h1 : (optClass prefixClass (p ++ w ++ '/' :: (a ++ m ++ d ++ t))).head? =
      some (w ++ '/' :: (a ++ m ++ d ++ t)) := by
    rcases hp with rfl | ⟨c, hc, rfl⟩
    · rw [List.nil_append, ew]; exact optClass_not (digit_not_class hcw).1 _
    · rw [List.append_assoc]; exact optClass_mem hc _
  have hmid : ∃ s1, Ends (m ++ d ++ t) ∧ (optClass buildClass (m ++ d ++ t)).head? = some s1 ∧
      (optClass sepClass s1).head? = some (d ++ t) := by
    have hds : (optClass sepClass (d ++ t)).head? = some (d ++ t) := by
      rw [ed]; exact optClass_not (digit_not_class hcd).2.2 _
    rcases hm with ⟨c, hc, rfl⟩ | ⟨c, hc, rfl⟩ | ⟨c, hc, x, hx, rfl⟩
    · exact ⟨d ++ t, build_ends hc _, optClass_mem hc _, hds⟩
    · by_cases hb : c ∈ buildClass
      · exact ⟨d ++ t, sep_ends hc _, optClass_mem hb _, hds⟩
      · exact ⟨c :: (d ++ t), sep_ends hc _, optClass_not hb _, optClass_mem hc _⟩
    · exact ⟨x :: (d ++ t), build_ends hc _, optClass_mem hc _, optClass_mem hx _⟩
  obtain ⟨s1, hends, hb, hs⟩ := hmid
  unfold tireMatches
  refine head?_flatMap_of h1 (head?_flatMap_of (numPat_head hw hslash) ?_)
  refine head?_flatMap_of (a := a ++ m ++ d ++ t) rfl ?_
  have e : a ++ m ++ d ++ t = a ++ (m ++ d ++ t) := by simp
  rw [e]
  refine head?_flatMap_of (numPat_head ha hends) (head?_flatMap_of hb (head?_flatMap_of hs ?_))
  rw [List.head?_map, numPat_head hd ht]; rfl

variable {K : Type*} [Field K] [LinearOrder K] [IsStrictOrderedRing K]

/-- The number a numeral stands for. -/
def _root_.Fastsim.Spec.digitVal (c : Char) : Nat := c.toNat - 48
/-- Value of a row of digits, the last one counting one. -/
def _root_.Fastsim.Spec.digitsVal (d : List Char) : Nat :=
  match d with
  | [] => 0
  | c :: s => Fastsim.Spec.digitVal c * 10 ^ s.length + Fastsim.Spec.digitsVal s

theorem readFloat_int (acc : K) : ∀ (d : List Char), (∀ c ∈ d, Digit c) → ∀ r : List Char,
    readFloat acc none (d ++ r) = readFloat (acc * 10 ^ d.length + (digitsVal d : K)) none r := by
  intro d
  induction d generalizing acc with
  | nil => intro _ r; simp [digitsVal]
  | cons c s ih =>
    intro h r
    have hc : c ≠ '.' := fun e => not_digit_dot (e ▸ h c (by simp))
    rw [List.cons_append, readFloat, if_neg hc, ih _ (fun x hx => h x (by simp [hx]))]
    congr 1
    simp only [digitsVal, digitVal, List.length_cons, pow_succ]
    push_cast
    ring

theorem readFloat_frac (acc u : K) : ∀ (d : List Char),
    readFloat acc (some u) d = acc + (digitsVal d : K) * u / 10 ^ d.length * 10 := by
  intro d
  induction d generalizing acc u with
  | nil => simp [readFloat, digitsVal]
  | cons c s ih =>
    rw [readFloat, ih]
    simp only [digitsVal, digitVal, List.length_cons, pow_succ]
    push_cast
    field_simp
    ring

/-- Digits stand for the whole number they write. -/
theorem C55_int {d : List Char} (h : ∀ c ∈ d, Digit c) : readFloat (0 : K) none d = digitsVal d := by
  have := readFloat_int (0 : K) d h []
  rw [List.append_nil] at this
  rw [this, readFloat]; simp

/-- Digits with a point stand for the whole number without the point divided by a power of ten. -/
theorem C55_frac {i f : List Char} (hi : ∀ c ∈ i, Digit c) :
    readFloat (0 : K) none (i ++ '.' :: f) = digitsVal i + (digitsVal f : K) / 10 ^ f.length := by
  rw [readFloat_int _ _ hi, readFloat, if_pos rfl, readFloat_frac]
  simp only [zero_mul, zero_add]
  field_simp

/-- So for a code with whole numbers the radius in metres is half the rim diameter in inches of 25.4 mm plus
the sidewall, divided by 1000. -/
theorem C55_radius {p w a m d t : List Char} (hp : Front p) (hw : w ≠ [] ∧ ∀ c ∈ w, Digit c)
    (ha : a ≠ [] ∧ ∀ c ∈ a, Digit c) (hm : Middle m) (hd : d ≠ [] ∧ ∀ c ∈ d, Digit c) (ht : Ends t) :
    calculateTireRadius (K := K) (p ++ w ++ '/' :: (a ++ m ++ d ++ t)) .m =
      .ok (((digitsVal d : K) * (254 / 10) / 2 + digitsVal w * (digitsVal a / 100)) / 1000) := by
  rw [calculateTireRadius, C55_reads hp (.int hw.1 hw.2) (.int ha.1 ha.2) hm (.int hd.1 hd.2) ht]
  simp only [C55_int hw.2, C55_int ha.2, C55_int hd.2, tireRadius, Except.ok.injEq]
  ring

/-- A code with decimals, separator and load letter: the second example of the docstring. -/
theorem demo_code : (tireMatches "225/70Rx19.5G".toList).head? = some ("225".toList, "70".toList, "19.5".toList) :=
  C55_reads (p := []) (w := "225".toList) (a := "70".toList) (m := "Rx".toList) (d := "19.5".toList) (t := "G".toList)
    (Or.inl rfl) (.int (by decide) (by unfold Digit; decide)) (.int (by decide) (by unfold Digit; decide))
    (Or.inr (Or.inr ⟨'R', by decide, 'x', by decide, rfl⟩))
    (.frac (i := "19".toList) (f := "5".toList) (Or.inr rfl) (by unfold Digit; decide) (by decide) (by unfold Digit; decide))
    (by intro c s e; cases e; unfold Digit; decide)

/-- Disagreement: the brackets make `[P|LT|ST|T]` a choice of one letter, so every code starting with two letters,
such as the common `LT...` and `ST...`, raises `ValueError`. -/
theorem C55_two_letters (c c' : Char) (hc : ¬ Digit c) (hc' : ¬ Digit c') (s : List Char) (u : LenUnit) :
    calculateTireRadius (K := K) (c :: c' :: s) u = .error .valueError := by
  have none1 : ∀ (c : Char) (s : List Char), ¬ Digit c → numPat 2 (c :: s) = [] := by
    intro c s h
    have hb : ¬ isDig c = true := fun h' => h ((isDig_iff c).1 h')
    have hdp : ∀ n, 0 < n → dotPrefixN n (c :: s) = [] := by
      intro n hn
      unfold dotPrefixN
      split
      · split
        · rename_i hall
          exfalso
          obtain ⟨k, rfl⟩ : ∃ k, n = k + 1 := ⟨n - 1, by omega⟩
          exact hb (List.all_eq_true.1 hall.1 c (by simp))
        · rfl
      · rfl
    rw [numPat, hdp _ (by omega), hdp _ (by omega), digits1, if_neg hb]; rfl
  have : tireMatches (c :: c' :: s) = [] := by
    rw [tireMatches, List.flatMap_eq_nil_iff]
    intro x hx
    have hx : x = c' :: s ∨ x = c :: c' :: s := by
      rw [optClass] at hx
      split at hx <;> simp at hx <;> tauto
    rcases hx with rfl | rfl
    · rw [none1 c' s hc']; rfl
    · rw [none1 c _ hc]; rfl
  rw [calculateTireRadius, this]; rfl

/-- Without a letter between aspect ratio and rim the digits are split by guesswork: `205/6016` is read as an aspect
ratio of 601 and a rim of 6 inches. -/
theorem C55_no_letter : (tireMatches "205/6016".toList).head? = some ("205".toList, "601".toList, "6".toList) := by
  decide +kernel

end Fastsim.Props
