import Verif.Model.RsImport
import Mathlib.Tactic.Linarith
import Mathlib.Tactic.Ring

/-!
# Text of the vehicle import: places, numbers and transmissions (C106)

How the number of gears is read off the description of a transmission (vehicle_import.rs:366-415).
-/

set_option linter.unusedSectionVars false

namespace Fastsim.Props

/-! ### Parts of texts -/

theorem hasPart_iff {p : String} {s : Txt} : hasPart p s = true ↔ p.toList <:+: s := by
  unfold hasPart; exact decide_eq_true_iff

/-- A text without one of the characters of `p` does not contain `p`. -/
theorem hasPart_false {p : String} {s : Txt} (c : Char) (hc : c ∈ p.toList) (hs : c ∉ s) : hasPart p s = false := by
  cases h : hasPart p s with
  | false => rfl
  | true => exact absurd ((hasPart_iff.1 h).subset hc) hs

theorem hasPart_mid {p : String} (a b : Txt) : hasPart p (a ++ p.toList ++ b) = true := hasPart_iff.2 ⟨a, b, rfl⟩

/-- `find` gives the place of the first occurrence if the text before lacks the first character. -/
theorem findPart_mid {c : Char} {p : Txt} : ∀ {a : Txt} (b : Txt), c ∉ a → findPart (c :: p) (a ++ (c :: p) ++ b) = some a.length
  | [], b, _ => by
    simp only [List.nil_append, List.length_nil, List.cons_append, findPart]
    rw [if_pos]
    exact ⟨b, rfl⟩
  | d :: a, b, h => by
    have h1 : c ≠ d := fun e => h (by simp [e])
    have h2 : c ∉ a := fun e => h (by simp [e])
    have hn : ¬ (c :: p <+: d :: (a ++ (c :: p) ++ b)) := by
      rintro ⟨t, ht⟩
      simp only [List.cons_append, List.cons.injEq] at ht
      exact h1 ht.1
    simp only [List.cons_append, findPart]
    rw [if_neg (by simpa using hn)]
    have := findPart_mid (p := p) b h2
    simp only [List.cons_append, List.append_assoc] at this ⊢
    rw [this]; simp

theorem findPart_none {c : Char} {p : Txt} : ∀ {s : Txt}, c ∉ s → findPart (c :: p) s = none
  | [], _ => by simp [findPart]
  | d :: s, h => by
    have h1 : c ≠ d := fun e => h (by simp [e])
    have h2 : c ∉ s := fun e => h (by simp [e])
    simp only [findPart]
    rw [if_neg, findPart_none h2]; rfl
    rintro ⟨t, ht⟩
    simp only [List.cons_append, List.cons.injEq] at ht
    exact h1 ht.1

theorem sliceOf_mid (a w b : Txt) : sliceOf (a ++ w ++ b) a.length (a.length + w.length) = .ok w := by
  unfold sliceOf
  rw [if_pos (by simp)]
  simp

/-! ### Numbers -/

/-- A number as text. -/
abbrev digitsOf (n : Nat) : Txt := Nat.toDigits 10 n

theorem digitsOf_isDigit {n : Nat} {c : Char} (h : c ∈ digitsOf n) : c.isDigit = true :=
  Nat.isDigit_of_mem_toDigits (by omega) (by omega) h

theorem not_mem_digitsOf {n : Nat} (c : Char) (hc : c.isDigit = false) : c ∉ digitsOf n := fun h => by
  rw [digitsOf_isDigit h] at hc; cases hc

theorem digitsNum_append (s : Txt) (c : Char) : digitsNum (s ++ [c]) = 10 * digitsNum s + (c.toNat - '0'.toNat) := by
  simp [digitsNum]

theorem digitChar_val {k : Nat} (h : k < 10) : (Nat.digitChar k).toNat - '0'.toNat = k := by
  have : ∀ k < 10, (Nat.digitChar k).toNat - '0'.toNat = k := by decide
  exact this k h

theorem digitsOf_last (n : Nat) : ∃ a, digitsOf n = a ++ [Nat.digitChar (n % 10)] := by
  by_cases h : n < 10
  · exact ⟨[], by rw [digitsOf, Nat.toDigits_of_lt_base h, Nat.mod_eq_of_lt h]; rfl⟩
  · exact ⟨digitsOf (n / 10), by rw [digitsOf, Nat.toDigits_of_base_le (by omega) (by omega)]⟩

theorem digitsNum_digitsOf (n : Nat) : digitsNum (digitsOf n) = n := by
  induction n using Nat.strong_induction_on with
  | _ n ih =>
    by_cases h : n < 10
    · rw [digitsOf, Nat.toDigits_of_lt_base h]
      show 10 * 0 + ((Nat.digitChar n).toNat - '0'.toNat) = n
      rw [digitChar_val h]; omega
    · have e : digitsOf n = digitsOf (n / 10) ++ [Nat.digitChar (n % 10)] := by
        rw [digitsOf, Nat.toDigits_of_base_le (by omega) (by omega)]
      rw [e, digitsNum_append, ih _ (by omega), digitChar_val (by omega)]; omega

theorem digitsOf_ne (n : Nat) : digitsOf n ≠ [] := by
  obtain ⟨a, h⟩ := digitsOf_last n
  rw [h]; simp

theorem unsigned_of {c : Char} {s : Txt} (h : c ≠ '+') : unsigned (c :: s) = c :: s := by
  unfold unsigned
  split
  · rename_i heq; exact absurd (List.cons.inj heq).1 h
  · rfl

theorem parseU32_digits {d : Txt} (h0 : d ≠ []) (hd : ∀ c ∈ d, c.isDigit = true) (hn : digitsNum d < 4294967296) :
    parseU32 d = some (digitsNum d) := by
  unfold parseU32
  have hp : unsigned d = d := by
    cases d with
    | nil => rfl
    | cons c d => exact unsigned_of fun e => absurd (hd c (by simp)) (by rw [e]; decide)
  simp only [hp]
  rw [if_pos ⟨h0, by simpa using hd, hn⟩]

theorem parseU32_digitsOf {n : Nat} (h : n < 4294967296) : parseU32 (digitsOf n) = some n := by
  have := parseU32_digits (digitsOf_ne n) (fun c hc => digitsOf_isDigit hc) (by rwa [digitsNum_digitsOf])
  rwa [digitsNum_digitsOf] at this

theorem parseU32_digit (n : Nat) : parseU32 [Nat.digitChar (n % 10)] = some (n % 10) := by
  have e : digitsOf (n % 10) = [Nat.digitChar (n % 10)] := by rw [digitsOf, Nat.toDigits_of_lt_base (by omega)]
  rw [← e]; exact parseU32_digitsOf (by omega)

/-- Text that starts with a letter is no number. -/
theorem parseU32_letter {c : Char} (s : Txt) (h1 : c ≠ '+') (h2 : c.isDigit = false) : parseU32 (c :: s) = none := by
  unfold parseU32
  have hp : unsigned (c :: s) = c :: s := unsigned_of h1
  simp only [hp]
  rw [if_neg]
  rintro ⟨-, h, -⟩
  simp [h2] at h

/-! ### Gears -/

theorem gearsBeforeSpd_eq {pre : Txt} (n : Nat) (post : Txt) (h : '-' ∉ pre) :
    gearsBeforeSpd (pre ++ digitsOf n ++ "-spd".toList ++ post) = .ok (n % 10) := by
  obtain ⟨a, ha⟩ := digitsOf_last n
  have hf : findPart "-spd".toList (pre ++ digitsOf n ++ "-spd".toList ++ post) = some (pre ++ digitsOf n).length := by
    apply findPart_mid
    simp only [List.mem_append, not_or]
    exact ⟨h, not_mem_digitsOf _ (by decide)⟩
  have hs : sliceOf (pre ++ digitsOf n ++ "-spd".toList ++ post) ((pre ++ digitsOf n).length - 1) (pre ++ digitsOf n).length =
      .ok [Nat.digitChar (n % 10)] := by
    have := sliceOf_mid (pre ++ a) [Nat.digitChar (n % 10)] ("-spd".toList ++ post)
    rw [ha]
    simp only [List.append_assoc, List.length_append, List.length_cons, List.length_nil] at this ⊢
    convert this using 2 <;> omega
  have h0 : (pre ++ digitsOf n).length ≠ 0 := by rw [ha]; simp
  unfold gearsBeforeSpd
  simp only [hf, orPanic, bind, Except.bind, hs, if_neg h0, parseU32_digit]

theorem gearsAfterS_eq {pre : Txt} {n : Nat} (post : Txt) (h1 : 'S' ∉ pre) (h2 : ')' ∉ pre) (hn : n < 4294967296) :
    gearsAfterS (pre ++ 'S' :: digitsOf n ++ ')' :: post) = .ok n := by
  have e1 : findPart "S".toList (pre ++ 'S' :: digitsOf n ++ ')' :: post) = some pre.length := by
    have := findPart_mid (c := 'S') (p := []) (digitsOf n ++ ')' :: post) h1
    simpa using this
  have e2 : findPart ")".toList (pre ++ 'S' :: digitsOf n ++ ')' :: post) = some (pre.length + 1 + (digitsOf n).length) := by
    have hm : ')' ∉ pre ++ 'S' :: digitsOf n := by
      simp only [List.mem_append, List.mem_cons, not_or]
      exact ⟨h2, by decide, not_mem_digitsOf _ (by decide)⟩
    have := findPart_mid (c := ')') (p := []) post hm
    simp only [List.append_assoc, List.cons_append, List.length_append, List.length_cons, List.nil_append] at this ⊢
    rw [show pre.length + 1 + (digitsOf n).length = pre.length + ((digitsOf n).length + 1) by omega]
    exact this
  have e3 := sliceOf_mid (pre ++ ['S']) (digitsOf n) (')' :: post)
  unfold gearsAfterS
  simp only [e1, e2, orPanic, bind, Except.bind]
  simp only [List.append_assoc, List.cons_append, List.length_append, List.length_cons, List.nil_append, List.length_nil,
    Nat.zero_add] at e3 ⊢
  rw [e3]
  simp only [parseU32_digitsOf hn]

/-- **C106 (gears of a manual transmission).** Of "Manual n-spd" only the last digit of n is read: ten gears count as none. -/
theorem C106_gears_manual (n : Nat) :
    transmissionSpecs ("Manual ".toList ++ digitsOf n ++ "-spd".toList) = .ok (n % 10, "M".toList) := by
  unfold transmissionSpecs
  have h1 : hasPart "Manual" ("Manual ".toList ++ digitsOf n ++ "-spd".toList) = true := by
    have := hasPart_mid (p := "Manual") [] (' ' :: digitsOf n ++ "-spd".toList)
    simpa using this
  rw [if_pos h1]
  have := gearsBeforeSpd_eq (pre := "Manual ".toList) n [] (by decide)
  rw [List.append_nil] at this
  rw [this]; rfl

/-- **C106 (gears of an automatic transmission).** The same for "Automatic n-spd". -/
theorem C106_gears_automatic (n : Nat) :
    transmissionSpecs ("Automatic ".toList ++ digitsOf n ++ "-spd".toList) = .ok (n % 10, "A".toList) := by
  have hd : ∀ c : Char, c.isDigit = false → c ∉ "Automatic ".toList → c ∉ "-spd".toList →
      c ∉ "Automatic ".toList ++ digitsOf n ++ "-spd".toList := fun c h1 h2 h3 => by
    simp only [List.mem_append, not_or]; exact ⟨⟨h2, not_mem_digitsOf c h1⟩, h3⟩
  unfold transmissionSpecs
  rw [if_neg (by rw [hasPart_false 'l' (by decide) (hd _ (by decide) (by decide) (by decide))]; decide),
    if_neg (by rw [hasPart_false 'l' (by decide) (hd _ (by decide) (by decide) (by decide))]; decide),
    if_neg (by rw [hasPart_false 'S' (by decide) (hd _ (by decide) (by decide) (by decide))]; decide),
    if_neg (by rw [hasPart_false 'S' (by decide) (hd _ (by decide) (by decide) (by decide))]; decide),
    if_neg (by rw [hasPart_false 'S' (by decide) (hd _ (by decide) (by decide) (by decide))]; decide),
    if_pos (by
      have := hasPart_mid (p := "-spd") ("Automatic ".toList ++ digitsOf n) []
      rwa [List.append_nil] at this)]
  have := gearsBeforeSpd_eq (pre := "Automatic ".toList) n [] (by decide)
  rw [List.append_nil] at this
  rw [this]; rfl

/-- What a description of an automatic transmission that is in parentheses contains. -/
theorem not_mem_paren {k : String} {n : Nat} (c : Char) (h1 : c.isDigit = false) (h2 : c ∉ "Automatic (".toList) (h3 : c ∉ k.toList)
    (h4 : c ≠ ')') : c ∉ "Automatic (".toList ++ k.toList ++ digitsOf n ++ [')'] := by
  simp only [List.mem_append, not_or, List.mem_cons, List.not_mem_nil, or_false]
  exact ⟨⟨⟨h2, h3⟩, not_mem_digitsOf c h1⟩, h4⟩

/-- **C106 (gears in parentheses).** From "(Sn)", "(AM-Sn)" and "(AV-Sn)" the whole number is read, and the three kinds are
told apart. -/
theorem C106_gears_paren {n : Nat} (hn : n < 4294967296) :
    transmissionSpecs ("Automatic (".toList ++ "S".toList ++ digitsOf n ++ [')']) = .ok (n, "SA".toList) ∧
    transmissionSpecs ("Automatic (".toList ++ "AM-S".toList ++ digitsOf n ++ [')']) = .ok (n, "AMS".toList) ∧
    transmissionSpecs ("Automatic (".toList ++ "AV-S".toList ++ digitsOf n ++ [')']) = .ok (n, "SCV".toList) := by
  have hS := gearsAfterS_eq (pre := "Automatic (".toList) (n := n) [] (by decide) (by decide) hn
  have hM := gearsAfterS_eq (pre := "Automatic (AM-".toList) (n := n) [] (by decide) (by decide) hn
  have hV := gearsAfterS_eq (pre := "Automatic (AV-".toList) (n := n) [] (by decide) (by decide) hn
  refine ⟨?_, ?_, ?_⟩
  · unfold transmissionSpecs
    rw [if_neg (by rw [hasPart_false 'l' (by decide) (not_mem_paren _ (by decide) (by decide) (by decide) (by decide))]; decide),
      if_neg (by rw [hasPart_false 'l' (by decide) (not_mem_paren _ (by decide) (by decide) (by decide) (by decide))]; decide),
      if_neg (by rw [hasPart_false 'V' (by decide) (not_mem_paren _ (by decide) (by decide) (by decide) (by decide))]; decide),
      if_neg (by rw [hasPart_false 'M' (by decide) (not_mem_paren _ (by decide) (by decide) (by decide) (by decide))]; decide),
      if_pos (by
        have := hasPart_mid (p := "S") "Automatic (".toList (digitsOf n ++ [')'])
        simpa using this)]
    have e : "Automatic (".toList ++ "S".toList ++ digitsOf n ++ [')'] = "Automatic (".toList ++ 'S' :: digitsOf n ++ [')'] := by
      simp
    rw [e, hS]; rfl
  · unfold transmissionSpecs
    rw [if_neg (by rw [hasPart_false 'l' (by decide) (not_mem_paren _ (by decide) (by decide) (by decide) (by decide))]; decide),
      if_neg (by rw [hasPart_false 'l' (by decide) (not_mem_paren _ (by decide) (by decide) (by decide) (by decide))]; decide),
      if_neg (by rw [hasPart_false 'V' (by decide) (not_mem_paren _ (by decide) (by decide) (by decide) (by decide))]; decide),
      if_pos (by
        have := hasPart_mid (p := "AM-S") "Automatic (".toList (digitsOf n ++ [')'])
        simpa using this)]
    have e : "Automatic (".toList ++ "AM-S".toList ++ digitsOf n ++ [')'] =
        "Automatic (AM-".toList ++ 'S' :: digitsOf n ++ [')'] := by simp
    rw [e, hM]; rfl
  · unfold transmissionSpecs
    rw [if_neg (by rw [hasPart_false 'l' (by decide) (not_mem_paren _ (by decide) (by decide) (by decide) (by decide))]; decide),
      if_neg (by rw [hasPart_false 'l' (by decide) (not_mem_paren _ (by decide) (by decide) (by decide) (by decide))]; decide),
      if_pos (by
        have := hasPart_mid (p := "AV-S") "Automatic (".toList (digitsOf n ++ [')'])
        simpa using this)]
    have e : "Automatic (".toList ++ "AV-S".toList ++ digitsOf n ++ [')'] =
        "Automatic (AV-".toList ++ 'S' :: digitsOf n ++ [')'] := by simp
    rw [e, hV]; rfl

/-- The last branch. -/
theorem paren_other {k : String} {n : Nat} (h1 : 'l' ∉ k.toList) (h2 : 'S' ∉ k.toList) (h3 : '-' ∉ k.toList)
    (h4 : ')' ∉ k.toList) (w : Txt) (hk : k.toList = 'A' :: w) :
    transmissionSpecs ("Automatic (".toList ++ k.toList ++ digitsOf n ++ [')']) =
      .ok ((parseU32 (w ++ digitsOf n)).getD 1, "A".toList) := by
  have a1 : findPart "(A".toList ("Automatic (".toList ++ k.toList ++ digitsOf n ++ [')']) = some 10 := by
    have := findPart_mid (c := '(') (p := ['A']) (a := "Automatic ".toList) (w ++ digitsOf n ++ [')']) (by decide)
    rw [hk]; simpa using this
  have a2 : findPart ")".toList ("Automatic (".toList ++ k.toList ++ digitsOf n ++ [')']) =
      some (12 + (w ++ digitsOf n).length) := by
    have hm : ')' ∉ "Automatic (".toList ++ k.toList ++ digitsOf n := by
      simp only [List.mem_append, not_or]
      exact ⟨⟨by decide, h4⟩, not_mem_digitsOf _ (by decide)⟩
    have := findPart_mid (c := ')') (p := []) [] hm
    simp only [List.append_nil] at this
    rw [hk] at this ⊢
    rw [show ")".toList = [')'] from rfl, this]
    simp; omega
  have a3 : sliceOf ("Automatic (".toList ++ k.toList ++ digitsOf n ++ [')']) 12 (12 + (w ++ digitsOf n).length) =
      .ok (w ++ digitsOf n) := by
    have := sliceOf_mid "Automatic (A".toList (w ++ digitsOf n) [')']
    rw [hk]; simpa using this
  unfold transmissionSpecs
  rw [if_neg (by rw [hasPart_false 'l' (by decide) (not_mem_paren _ (by decide) (by decide) h1 (by decide))]; decide),
    if_neg (by rw [hasPart_false 'l' (by decide) (not_mem_paren _ (by decide) (by decide) h1 (by decide))]; decide),
    if_neg (by rw [hasPart_false 'S' (by decide) (not_mem_paren _ (by decide) (by decide) h2 (by decide))]; decide),
    if_neg (by rw [hasPart_false 'S' (by decide) (not_mem_paren _ (by decide) (by decide) h2 (by decide))]; decide),
    if_neg (by rw [hasPart_false 'S' (by decide) (not_mem_paren _ (by decide) (by decide) h2 (by decide))]; decide),
    if_neg (by rw [hasPart_false '-' (by decide) (not_mem_paren _ (by decide) (by decide) h3 (by decide))]; decide)]
  simp only [a1, a2, orPanic, bind, Except.bind, a3]

/-- **C106 (gears of other automatics).** "(An)" has n gears, but a dual clutch transmission "(AMn)" has one gear, whatever n. -/
theorem C106_gears_other {n : Nat} (hn : n < 4294967296) :
    transmissionSpecs ("Automatic (".toList ++ "A".toList ++ digitsOf n ++ [')']) = .ok (n, "A".toList) ∧
    transmissionSpecs ("Automatic (".toList ++ "AM".toList ++ digitsOf n ++ [')']) = .ok (1, "A".toList) := by
  constructor
  · rw [paren_other (by decide) (by decide) (by decide) (by decide) [] rfl, List.nil_append, parseU32_digitsOf hn]; rfl
  · rw [paren_other (by decide) (by decide) (by decide) (by decide) ['M'] rfl, List.cons_append,
      parseU32_letter _ (by decide) (by decide)]; rfl

/-- **C106 (descriptions that stop the program).** A transmission without "-spd", "variable gear ratios" and closing parenthesis
(an empty one, for example) is a panic. -/
theorem C106_gears_panic {t : Txt} (h1 : hasPart "-spd" t = false) (h2 : hasPart "variable gear ratios" t = false)
    (h3 : ')' ∉ t) : transmissionSpecs t = .error .panic := by
  have hp : ∀ {s : Txt}, (hasPart "-spd" s = false) → findPart "-spd".toList s = none := by
    intro s
    induction s with
    | nil => intro _; rfl
    | cons c s ih =>
      intro h
      have hn : ¬ ("-spd".toList <+: c :: s) := fun hh => by
        have : hasPart "-spd" (c :: s) = true := hasPart_iff.2 hh.isInfix
        rw [this] at h; cases h
      have hs : hasPart "-spd" s = false := by
        cases e : hasPart "-spd" s with
        | false => rfl
        | true =>
          have : hasPart "-spd" (c :: s) = true := hasPart_iff.2 ((hasPart_iff.1 e).trans (List.suffix_cons c s).isInfix)
          rw [this] at h; cases h
      simp only [findPart, if_neg hn, ih hs]; rfl
  have e1 : gearsBeforeSpd t = .error .panic := by
    unfold gearsBeforeSpd; simp only [hp h1, orPanic, bind, Except.bind]
  have e2 : findPart ")".toList t = none := findPart_none h3
  have e3 : gearsAfterS t = .error .panic := by
    unfold gearsAfterS; simp only [e2, orPanic, bind, Except.bind]
    cases findPart "S".toList t <;> rfl
  unfold transmissionSpecs
  rw [h2, h1, e1, e3, e2]
  simp only [orPanic, bind, Except.bind, Except.map]
  cases findPart "(A".toList t <;> simp

/-- Concrete descriptions. -/
theorem C106_gears_demo :
    transmissionSpecs "Manual 6-spd".toList = .ok (6, "M".toList) ∧
    transmissionSpecs "Manual 10-spd".toList = .ok (0, "M".toList) ∧
    transmissionSpecs "Automatic (S10)".toList = .ok (10, "SA".toList) ∧
    transmissionSpecs "Automatic (AM7)".toList = .ok (1, "A".toList) ∧
    transmissionSpecs "Automatic (variable gear ratios)".toList = .ok (1, "CVT".toList) ∧
    transmissionSpecs "Manual(M7)".toList = .error .panic ∧
    transmissionSpecs "Auto(L4)".toList = .error .panic ∧
    transmissionSpecs [] = .error .panic := by decide +kernel

end Fastsim.Props
