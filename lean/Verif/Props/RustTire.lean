import Verif.Model.RsTire
import Verif.Props.Tire

/-!
# C109: tire codes in the Rust core
-/
set_option linter.unusedSectionVars false

namespace Fastsim.Props
open Fastsim Spec

/-- Between aspect ratio and rim: what python reads there, with or without a blank in front. -/
def _root_.Fastsim.Spec.RsMiddle (m : List Char) : Prop := Middle m ∨ ∃ m', Middle m' ∧ m = ' ' :: m'

theorem numPat_nondigit (lo : ℕ) {c : Char} (s : List Char) (h : ¬ Digit c) (hlo : 0 < lo) : numPat lo (c :: s) = [] := by
  have hb : ¬ isDig c = true := fun h' => h ((isDig_iff c).1 h')
  have hdp : ∀ n, 0 < n → dotPrefixN n (c :: s) = [] := by
    intro n hn
    unfold dotPrefixN
    split
    · split
      · rename_i hall
        exfalso
        obtain ⟨k, rfl⟩ : ∃ k, n = k + 1 := ⟨n - 1, by omega⟩
        exact hb (List.all_eq_true.1 hall.1 c (by simp))
      · rfl
    · rfl
  rw [numPat, hdp _ (by omega), hdp _ hlo, digits1, if_neg hb]; rfl

/-- At a place that is not a digit and is not followed by one, there is no match. -/
theorem rsMatches_nondigit {c c' : Char} (s : List Char) (h : ¬ Digit c) (h' : ¬ Digit c') : rsTireMatches (c :: c' :: s) = [] := by
  unfold rsTireMatches
  rw [List.flatMap_eq_nil_iff]
  intro x hx
  have hx : x = c' :: s ∨ x = c :: c' :: s := by
    rw [optClass] at hx
    split at hx <;> simp at hx <;> tauto
  rcases hx with rfl | rfl
  · rw [numPat_nondigit 2 s h' (by omega)]; rfl
  · rw [numPat_nondigit 2 _ h (by omega)]; rfl

theorem space_ends (s : List Char) : Ends (' ' :: s) := sep_ends (by decide) s

/-- A code is read as its three numbers, with one letter in front. -/
theorem rsMatches_reads {p w a m d t : List Char} (hp : Front p) (hw : Numeral 2 w) (ha : Numeral 1 a) (hm : RsMiddle m)
    (hd : Numeral 1 d) (ht : Ends t) :
    (rsTireMatches (p ++ w ++ '/' :: (a ++ m ++ d ++ t))).head? = some (w, a, d) := by
  obtain ⟨cw, sw, ew, hcw⟩ := numeral_head (by omega) hw
  obtain ⟨cd, sd, ed, hcd⟩ := numeral_head (by omega) hd
  have hslash : Ends ('/' :: (a ++ m ++ d ++ t)) := by
    intro c s e; cases e; unfold Digit; decide
  have h1 : (optClass prefixClass (p ++ w ++ '/' :: (a ++ m ++ d ++ t))).head? =
      some (w ++ '/' :: (a ++ m ++ d ++ t)) := by
    rcases hp with rfl | ⟨c, hc, rfl⟩
    · rw [List.nil_append, ew]; exact optClass_not (digit_not_class hcw).1 _
    · rw [List.append_assoc]; exact optClass_mem hc _
  have hds : (optClass sepClass (d ++ t)).head? = some (d ++ t) := by
    rw [ed]; exact optClass_not (digit_not_class hcd).2.2 _
  have hdb : (optClass buildClass (d ++ t)).head? = some (d ++ t) := by
    rw [ed]; exact optClass_not (digit_not_class hcd).2.1 _
  have hmid : ∀ m, Middle m → ∃ s1, Ends (m ++ d ++ t) ∧ (optClass buildClass (m ++ d ++ t)).head? = some s1 ∧
      (optClass sepClass s1).head? = some (d ++ t) := by
    intro m hm
    rcases hm with ⟨c, hc, rfl⟩ | ⟨c, hc, rfl⟩ | ⟨c, hc, x, hx, rfl⟩
    · exact ⟨d ++ t, build_ends hc _, optClass_mem hc _, hds⟩
    · by_cases hb : c ∈ buildClass
      · exact ⟨d ++ t, sep_ends hc _, optClass_mem hb _, hds⟩
      · exact ⟨c :: (d ++ t), sep_ends hc _, optClass_not hb _, optClass_mem hc _⟩
    · exact ⟨x :: (d ++ t), build_ends hc _, optClass_mem hc _, optClass_mem hx _⟩
  have hall : ∃ s0 s1, Ends (m ++ d ++ t) ∧ (optClass [' '] (m ++ d ++ t)).head? = some s0 ∧
      (optClass buildClass s0).head? = some s1 ∧ (optClass sepClass s1).head? = some (d ++ t) := by
    rcases hm with hm | ⟨m', hm, rfl⟩
    · obtain ⟨s1, he, hb, hs⟩ := hmid m hm
      by_cases hsp : ∃ r, m ++ d ++ t = ' ' :: r
      · obtain ⟨r, hr⟩ := hsp
        have : r = d ++ t := by
          rcases hm with ⟨c, hc, rfl⟩ | ⟨c, hc, rfl⟩ | ⟨c, hc, x, hx, rfl⟩
          · exact (List.cons.inj hr).2.symm
          · exact (List.cons.inj hr).2.symm
          · have : c = ' ' := (List.cons.inj hr).1
            subst this
            exact absurd hc (by decide)
        subst this
        rw [hr] at he ⊢
        exact ⟨d ++ t, d ++ t, he, optClass_mem (by decide) _, hdb, hds⟩
      · have hne : (optClass [' '] (m ++ d ++ t)).head? = some (m ++ d ++ t) := by
          cases e : m ++ d ++ t with
          | nil => rfl
          | cons c r =>
            refine optClass_not ?_ _
            intro h
            exact hsp ⟨r, by rw [e, List.mem_singleton.1 h]⟩
        exact ⟨m ++ d ++ t, s1, he, hne, hb, hs⟩
    · obtain ⟨s1, he, hb, hs⟩ := hmid m' hm
      exact ⟨m' ++ d ++ t, s1, space_ends _, optClass_mem (by decide) _, hb, hs⟩
  obtain ⟨s0, s1, hends, hsp, hb, hs⟩ := hall
  unfold rsTireMatches
  refine head?_flatMap_of h1 (head?_flatMap_of (numPat_head hw hslash) ?_)
  refine head?_flatMap_of (a := a ++ m ++ d ++ t) rfl ?_
  have e : a ++ m ++ d ++ t = a ++ (m ++ d ++ t) := by simp
  rw [e]
  refine head?_flatMap_of (numPat_head ha hends) (head?_flatMap_of hsp (head?_flatMap_of hb (head?_flatMap_of hs ?_)))
  rw [List.head?_map, numPat_head hd ht]; rfl

theorem rsSearch_of_head {s : List Char} {r : List Char × List Char × List Char} (h : (rsTireMatches s).head? = some r) :
    rsTireSearch s = some r := by
  cases s with
  | nil => exact h
  | cons c s => rw [rsTireSearch, h]

/-- Any letters may stand in front, and a blank behind the aspect ratio: the code is read as its three numbers. -/
theorem C109_reads {p w a m d t : List Char} (hp : ∀ c ∈ p, ¬ Digit c) (hw : Numeral 2 w) (ha : Numeral 1 a) (hm : RsMiddle m)
    (hd : Numeral 1 d) (ht : Ends t) :
    rsTireSearch (p ++ w ++ '/' :: (a ++ m ++ d ++ t)) = some (w, a, d) := by
  induction p with
  | nil => exact rsSearch_of_head (rsMatches_reads (.inl rfl) hw ha hm hd ht)
  | cons c p ih =>
    cases p with
    | nil =>
      by_cases hc : c ∈ prefixClass
      · exact rsSearch_of_head (rsMatches_reads (.inr ⟨c, hc, rfl⟩) hw ha hm hd ht)
      · have ih' := ih (by simp)
        have : rsTireMatches ([c] ++ w ++ '/' :: (a ++ m ++ d ++ t)) = [] := by
          unfold rsTireMatches
          rw [List.append_assoc, List.cons_append, optClass, if_neg hc, List.flatMap_cons, List.flatMap_nil, List.append_nil,
            numPat_nondigit 2 _ (hp c (by simp)) (by omega)]
          rfl
        rw [List.append_assoc, List.cons_append] at this ⊢
        rw [rsTireSearch, this]
        simpa using ih'
    | cons c' p =>
      have := rsMatches_nondigit (p ++ w ++ '/' :: (a ++ m ++ d ++ t)) (hp c (by simp)) (hp c' (by simp))
      simp only [List.cons_append] at ih ⊢
      rw [rsTireSearch, this]
      exact ih fun x hx => hp x (List.mem_cons_of_mem _ hx)

theorem optClass_self (cls s : List Char) : s ∈ optClass cls s := by
  cases s with
  | nil => simp [optClass]
  | cons c s => rw [optClass]; split <;> simp

theorem matches_sub {s : List Char} {r : List Char × List Char × List Char} (h : r ∈ tireMatches s) : r ∈ rsTireMatches s := by
  simp only [tireMatches, rsTireMatches, List.mem_flatMap] at h ⊢
  obtain ⟨s1, h1, w, h2, s2, h3, a, h4, s3, h5, s4, h6, h7⟩ := h
  exact ⟨s1, h1, w, h2, s2, h3, a, h4, a.2, optClass_self _ _, s3, h5, s4, h6, h7⟩

theorem digits1_two {i r : List Char} {c : Char} (hi : i ≠ []) (hd : ∀ x ∈ i ++ [c], Digit x) (hr : Ends r) :
    ∃ l, digits1 (i ++ c :: r) = (i ++ [c], r) :: (i, c :: r) :: l := by
  induction i with
  | nil => exact absurd rfl hi
  | cons x i ih =>
    have hx : isDig x = true := (isDig_iff x).2 (hd x (by simp))
    rw [List.cons_append, digits1, if_pos hx]
    cases i with
    | nil =>
      have hc : isDig c = true := (isDig_iff c).2 (hd c (by simp))
      rw [List.nil_append, digits1, if_pos hc, digits1_nil_of hr]
      exact ⟨[], rfl⟩
    | cons y i =>
      obtain ⟨l, hl⟩ := ih (by simp) fun z hz => hd z (List.mem_cons_of_mem _ hz)
      rw [hl]
      exact ⟨_, rfl⟩

/-- Disagreement: python takes the last digit of the aspect ratio for the rim, if a blank and then no digit follows it. -/
theorem C55_blank {p w i : List Char} {c e : Char} {t : List Char} (hp : Front p) (hw : Numeral 2 w) (hi : i ≠ [])
    (hd : ∀ x ∈ i ++ [c], Digit x) (he : ¬ Digit e) :
    (tireMatches (p ++ w ++ '/' :: (i ++ c :: ' ' :: e :: t))).head? = some (w, i, [c]) := by
  obtain ⟨cw, sw, ew, hcw⟩ := numeral_head (by omega) hw
  have hslash : Ends ('/' :: (i ++ c :: ' ' :: e :: t)) := by
    intro c s e; cases e; unfold Digit; decide
  have h1 : (optClass prefixClass (p ++ w ++ '/' :: (i ++ c :: ' ' :: e :: t))).head? =
      some (w ++ '/' :: (i ++ c :: ' ' :: e :: t)) := by
    rcases hp with rfl | ⟨c, hc, rfl⟩
    · rw [List.nil_append, ew]; exact optClass_not (digit_not_class hcw).1 _
    · rw [List.append_assoc]; exact optClass_mem hc _
  unfold tireMatches
  refine head?_flatMap_of h1 (head?_flatMap_of (numPat_head hw hslash) ?_)
  refine head?_flatMap_of (a := i ++ c :: ' ' :: e :: t) rfl ?_
  have hr : Ends (' ' :: e :: t) := space_ends _
  obtain ⟨l, hl⟩ := digits1_two hi hd hr
  have hnp : numPat 1 (i ++ c :: ' ' :: e :: t) = (i ++ [c], ' ' :: e :: t) :: (i, c :: ' ' :: e :: t) :: l := by
    have e1 : i ++ c :: ' ' :: e :: t = (i ++ [c]) ++ ' ' :: e :: t := by simp
    unfold numPat
    rw [hl, e1, dotPrefix_int hd hr, dotPrefix_int hd hr]
    rfl
  rw [hnp, List.flatMap_cons, List.flatMap_cons]
  have first : ((optClass buildClass (' ' :: e :: t)).flatMap fun s => (optClass sepClass s).flatMap fun s =>
      (numPat 1 s).map fun d => (w, i ++ [c], d.1)) = [] := by
    have hb : optClass buildClass (' ' :: e :: t) = [' ' :: e :: t] := by rw [optClass, if_neg (by decide)]
    have hs : optClass sepClass (' ' :: e :: t) = [e :: t, ' ' :: e :: t] := by rw [optClass, if_pos (by decide)]
    rw [hb, List.flatMap_cons, List.flatMap_nil, List.append_nil, hs, List.flatMap_cons, List.flatMap_cons, List.flatMap_nil,
      numPat_nondigit 1 t he (by omega), numPat_nondigit 1 (e :: t) (by unfold Digit; decide) (by omega)]
    rfl
  dsimp only
  rw [first, List.nil_append, List.head?_append]
  have hc : Digit c := hd c (by simp)
  have second : ((optClass buildClass (c :: ' ' :: e :: t)).flatMap fun s => (optClass sepClass s).flatMap fun s =>
      (numPat 1 s).map fun d => (w, i, d.1)).head? = some (w, i, [c]) := by
    refine head?_flatMap_of (optClass_not (digit_not_class hc).2.1 _) (head?_flatMap_of (optClass_not (digit_not_class hc).2.2 _) ?_)
    have := numPat_head (lo := 1) (d := [c]) (.int (by simp) (by simpa using hc)) hr
    rw [List.cons_append, List.nil_append] at this
    rw [List.head?_map, this]
    rfl
  rw [second]
  rfl

section Field
variable {K : Type*} [Field K] [LinearOrder K] [IsStrictOrderedRing K]

/-- Every code that python reads is read. -/
theorem C109_reads_more {code : List Char} {r : K} (h : calculateTireRadius code .m = .ok r) :
    ∃ r' : K, rsTireRadius code = .ok r' := by
  have hs : ∃ q, rsTireSearch code = some q := by
    unfold calculateTireRadius at h
    split at h
    · cases h
    · rename_i q hq
      have := matches_sub (List.mem_of_mem_head? hq)
      cases hh : (rsTireMatches code).head? with
      | none =>
        have : rsTireMatches code = [] := by simpa using hh
        rw [this] at *
        simp_all
      | some q => exact ⟨q, rsSearch_of_head hh⟩
  obtain ⟨q, hq⟩ := hs
  unfold rsTireRadius
  rw [hq]
  exact ⟨_, rfl⟩

theorem digits1_sub {s d r : List Char} (h : (d, r) ∈ digits1 s) : ∃ x, s = x ++ r := by
  induction s generalizing d with
  | nil => simp [digits1] at h
  | cons c s ih =>
    rw [digits1] at h
    split at h
    · rcases List.mem_append.1 h with h | h
      · obtain ⟨⟨d', r'⟩, hm, he⟩ := List.mem_map.1 h
        simp only [Prod.mk.injEq] at he
        obtain ⟨-, rfl⟩ := he
        obtain ⟨x, hx⟩ := ih hm
        exact ⟨c :: x, by rw [hx]; rfl⟩
      · simp only [List.mem_singleton, Prod.mk.injEq] at h
        exact ⟨[c], by rw [h.2]; rfl⟩
    · simp at h

theorem dotPrefix_sub {n : ℕ} {s d r : List Char} (h : (d, r) ∈ dotPrefixN n s) : ∃ x, s = x ++ r := by
  unfold dotPrefixN at h
  split at h
  · rename_i r' hr
    split at h
    · simp only [List.mem_singleton, Prod.mk.injEq] at h
      refine ⟨s.take n ++ ['.'], ?_⟩
      rw [List.append_assoc, h.2, List.cons_append, List.nil_append, ← hr, List.take_append_drop]
    · simp at h
  · simp at h

theorem numPat_sub {lo : ℕ} {s d r : List Char} (h : (d, r) ∈ numPat lo s) : ∃ x, s = x ++ r := by
  unfold numPat at h
  rcases List.mem_append.1 h with h | h
  · obtain ⟨⟨p, q⟩, hp, hq⟩ := List.mem_flatMap.1 h
    obtain ⟨⟨d', r'⟩, hm, he⟩ := List.mem_map.1 hq
    simp only [Prod.mk.injEq] at he
    obtain ⟨-, rfl⟩ := he
    obtain ⟨x, hx⟩ : ∃ x, s = x ++ q := by
      rcases List.mem_append.1 hp with hp | hp
      · exact dotPrefix_sub hp
      · exact dotPrefix_sub hp
    obtain ⟨y, hy⟩ := digits1_sub hm
    dsimp only at hy
    exact ⟨x ++ y, by rw [hx, hy, List.append_assoc]⟩
  · exact digits1_sub h

theorem flatMap_congr' {A B : Type*} {l : List A} {f g : A → List B} (h : ∀ a ∈ l, f a = g a) : l.flatMap f = l.flatMap g := by
  induction l with
  | nil => rfl
  | cons a l ih =>
    rw [List.flatMap_cons, List.flatMap_cons, h a (by simp), ih fun b hb => h b (by simp [hb])]

/-- Without a blank both find the same matches. -/
theorem matches_same {s : List Char} (h : ' ' ∉ s) : rsTireMatches s = tireMatches s := by
  unfold rsTireMatches tireMatches
  refine flatMap_congr' fun s1 h1 => flatMap_congr' fun w hw => flatMap_congr' fun s2 h2 => flatMap_congr' fun a ha => ?_
  have n1 : ' ' ∉ s1 := by
    cases s with
    | nil => simp [optClass] at h1; rw [h1]; simp
    | cons c s =>
      rw [optClass] at h1
      split at h1
      · simp only [List.mem_cons, List.not_mem_nil, or_false] at h1
        rcases h1 with rfl | rfl
        · exact fun hh => h (List.mem_cons_of_mem _ hh)
        · exact h
      · simp only [List.mem_singleton] at h1
        rw [h1]; exact h
  obtain ⟨x, hx⟩ := numPat_sub (show (w.1, w.2) ∈ _ from hw)
  have n2 : ' ' ∉ s2 := by
    intro hh
    refine n1 ?_
    rw [hx]
    refine List.mem_append_right _ ?_
    cases hw2 : w.2 with
    | nil => rw [hw2] at h2; simp [slash] at h2
    | cons c r =>
      rw [hw2] at h2
      unfold slash at h2
      split at h2
      · rename_i e
        simp only [List.cons.injEq] at e
        obtain ⟨-, rfl⟩ := e
        simp only [List.mem_singleton] at h2
        rw [← h2]
        exact List.mem_cons_of_mem _ hh
      · simp at h2
  obtain ⟨y, hy⟩ := numPat_sub (show (a.1, a.2) ∈ _ from ha)
  have n3 : ' ' ∉ a.2 := fun hh => n2 (by rw [hy]; exact List.mem_append_right _ hh)
  have : optClass [' '] a.2 = [a.2] := by
    cases e : a.2 with
    | nil => rfl
    | cons c r =>
      rw [optClass, if_neg]
      intro hc
      rw [List.mem_singleton] at hc
      rw [e, hc] at n3
      simp at n3
  rw [this]
  simp

/-- The radius of a code without blanks is the one that python finds, where it finds one. -/
theorem C109_same {code : List Char} (hb : ' ' ∉ code) {r : K} (h : calculateTireRadius code .m = .ok r) :
    rsTireRadius code = .ok r := by
  unfold calculateTireRadius at h
  split at h
  · cases h
  · rename_i q w a d hq
    rw [← matches_same hb] at hq
    unfold rsTireRadius
    rw [rsSearch_of_head hq]
    simp only [tireRadius, Except.ok.injEq] at h
    simp only [Except.ok.injEq]
    rw [← h]
    push_cast
    ring

/-- With whole numbers: half the rim in inches of 25.4 mm, plus the width times the aspect ratio in percent, in metres. -/
theorem C109_radius {p w a m d t : List Char} (hp : ∀ c ∈ p, ¬ Digit c) (hw : w ≠ [] ∧ ∀ c ∈ w, Digit c)
    (ha : a ≠ [] ∧ ∀ c ∈ a, Digit c) (hm : RsMiddle m) (hd : d ≠ [] ∧ ∀ c ∈ d, Digit c) (ht : Ends t) :
    rsTireRadius (K := K) (p ++ w ++ '/' :: (a ++ m ++ d ++ t)) =
      .ok (((digitsVal d : K) * (254 / 10) / 2 + digitsVal w * (digitsVal a / 100)) / 1000) := by
  rw [rsTireRadius, C109_reads hp (.int hw.1 hw.2) (.int ha.1 ha.2) hm (.int hd.1 hd.2) ht]
  simp only [C55_int hw.2, C55_int ha.2, C55_int hd.2, Except.ok.injEq]
  push_cast
  ring

/-- A text without a slash is an error. -/
theorem C109_no_slash {code : List Char} (h : '/' ∉ code) : rsTireRadius (K := K) code = .error .err := by
  have none_ : ∀ s : List Char, '/' ∉ s → rsTireMatches s = [] := by
    intro s hs
    unfold rsTireMatches
    rw [List.flatMap_eq_nil_iff]
    intro s1 h1
    rw [List.flatMap_eq_nil_iff]
    intro w hw
    obtain ⟨x, hx⟩ := numPat_sub (show (w.1, w.2) ∈ _ from hw)
    have n1 : '/' ∉ s1 := by
      cases s with
      | nil => simp [optClass] at h1; rw [h1]; simp
      | cons c s =>
        rw [optClass] at h1
        split at h1
        · simp only [List.mem_cons, List.not_mem_nil, or_false] at h1
          rcases h1 with rfl | rfl
          · exact fun hh => hs (List.mem_cons_of_mem _ hh)
          · exact hs
        · simp only [List.mem_singleton] at h1
          rw [h1]; exact hs
    have : slash w.2 = [] := by
      unfold slash
      split
      · rename_i e
        exact absurd (by rw [hx, e]; simp) n1
      · rfl
    rw [this]; rfl
  have search : ∀ s : List Char, '/' ∉ s → rsTireSearch s = none := by
    intro s
    induction s with
    | nil => intro hs; rw [rsTireSearch, none_ _ hs]; rfl
    | cons c s ih =>
      intro hs
      rw [rsTireSearch, none_ _ hs]
      exact ih fun hh => hs (List.mem_cons_of_mem _ hh)
  rw [rsTireRadius, search code h]

end Field

/-- Codes of light trucks, which python refuses, and codes with a blank, which python reads as an aspect ratio of one digit and
a rim of one digit. -/
theorem C109_demo : rsTireSearch "LT235/75R15".toList = some ("235".toList, "75".toList, "15".toList) ∧
    rsTireSearch "225/70 R16".toList = some ("225".toList, "70".toList, "16".toList) ∧
    (tireMatches "225/70 R16".toList).head? = some ("225".toList, "7".toList, "0".toList) := by decide +kernel

end Fastsim.Props
