import Verif.Model.Names

/-!
# C88: `camel_to_snake`, C89: `rollav`
-/

set_option linter.unusedSectionVars false

namespace Fastsim.Spec

/-- A word boundary between `x` and the capital `u`, followed by the text `s`: `x` is a small letter or a digit, or
`u` begins a capitalised word. -/
def boundary (x u : Char) (s : List Char) : Prop :=
  u.isUpper = true ∧ ((x.isLower || x.isDigit) = true ∨ (x ≠ '\n' ∧ ∃ l r, s = l :: r ∧ l.isLower = true))

instance (x u : Char) (s : List Char) : Decidable (boundary x u s) := by
  unfold boundary
  match s with
  | [] => exact decidable_of_iff (u.isUpper = true ∧ (x.isLower || x.isDigit) = true) (by simp)
  | l :: r => exact decidable_of_iff (u.isUpper = true ∧ ((x.isLower || x.isDigit) = true ∨ (x ≠ '\n' ∧ l.isLower = true))) (by simp)

/-- The text with an underscore at every word boundary. -/
def underscored : List Char → List Char
  | [] => []
  | [c] => [c]
  | c :: u :: s => if boundary c u s then c :: '_' :: underscored (u :: s) else c :: underscored (u :: s)

/-- The words of a camelCase name, joined. -/
def joinWords : List (List Char) → List Char
  | [] => []
  | [w] => w
  | w :: ws => w ++ '_' :: joinWords ws

/-- A capitalised word: a capital and small letters or digits. -/
def CapWord (w : List Char) : Prop := ∃ u t, w = u :: t ∧ u.isUpper = true ∧ t ≠ [] ∧ ∀ c ∈ t, (c.isLower || c.isDigit) = true

end Fastsim.Spec

namespace Fastsim.Props
open Spec

theorem isUpC_eq (c : Char) : isUpC c = c.isUpper := by
  simp [isUpC, Char.isUpper, Char.le_def]

theorem isLowC_eq (c : Char) : isLowC c = c.isLower := by
  simp [isLowC, Char.isLower, Char.le_def]

theorem isLowDigC_eq (c : Char) : isLowDigC c = (c.isLower || c.isDigit) := by
  simp [isLowDigC, isLowC, Char.isLower, Char.isDigit, Char.le_def]

theorem boundary_iff {x u : Char} {s : List Char} : boundary x u s ↔
    isUpC u = true ∧ (isLowDigC x = true ∨ (x ≠ '\n' ∧ ∃ l r, s = l :: r ∧ isLowC l = true)) := by
  simp only [boundary, isUpC_eq, isLowC_eq, isLowDigC_eq]

theorem capWord_iff {w : List Char} : CapWord w ↔
    ∃ u t, w = u :: t ∧ isUpC u = true ∧ t ≠ [] ∧ ∀ c ∈ t, isLowDigC c = true := by
  simp only [CapWord, isUpC_eq, isLowDigC_eq]

theorem up_not_lowDig {c : Char} (h : isUpC c = true) : isLowDigC c = false := by
  simp only [isUpC, isLowDigC, isLowC, decide_eq_true_eq, decide_eq_false_iff_not, Char.le_def, UInt32.le_iff_toNat_le] at *
  simp at *
  omega

theorem low_lowDig {c : Char} (h : isLowC c = true) : isLowDigC c = true := by simp [isLowDigC, h]

theorem low_not_up {c : Char} (h : isLowDigC c = true) : isUpC c = false := by
  by_contra hc
  rw [Bool.not_eq_false] at hc
  rw [up_not_lowDig hc] at h
  cases h

/-- Underscores at the boundaries of the second pattern only. -/
def under2 : List Char → List Char
  | [] => []
  | [c] => [c]
  | c :: u :: s => if isLowDigC c ∧ isUpC u then c :: '_' :: under2 (u :: s) else c :: under2 (u :: s)

theorem under2_up {u : Char} (h : isUpC u = true) (s : List Char) : under2 (u :: s) = u :: under2 s := by
  cases s with
  | nil => rfl
  | cons v s => simp [under2, up_not_lowDig h]

theorem reSub2 : ∀ (n : Nat) (s : List Char), s.length ≤ n → reSub camelPat2 n s = under2 s
  | 0, s, h => by simp at h; subst h; rfl
  | n + 1, [], _ => rfl
  | n + 1, [c], _ => by
    have : reSub camelPat2 n [] = [] := by cases n <;> rfl
    simp [reSub, camelPat2, under2, this]
  | n + 1, c :: u :: s, h => by
    simp only [List.length_cons] at h
    by_cases hc : isLowDigC c = true ∧ isUpC u = true
    · have hp : camelPat2 (c :: u :: s) = some ([c, '_', u], s) := by simp [camelPat2, hc]
      rw [reSub, hp, under2, if_pos hc, under2_up hc.2]
      simp only []
      rw [reSub2 n s (by omega)]
      rfl
    · have hp : camelPat2 (c :: u :: s) = none := by simp only [camelPat2, if_neg hc]
      rw [reSub, hp, under2, if_neg hc]
      simp only []
      rw [reSub2 n (u :: s) (by simp; omega)]

theorem underscored_not_up {c v : Char} (s : List Char) (hv : isUpC v = false) :
    underscored (c :: v :: s) = c :: underscored (v :: s) := by
  rw [underscored, if_neg (by simp [boundary_iff, hv])]

theorem under2_not_up {c v : Char} (s : List Char) (hv : isUpC v = false) :
    under2 (c :: v :: s) = c :: under2 (v :: s) := by
  rw [under2, if_neg (by simp [hv])]

theorem takeWhile_all {α : Type*} (p : α → Bool) : ∀ (l : List α), ∀ c ∈ l.takeWhile p, p c = true
  | [], c, h => by simp at h
  | x :: l, c, h => by
    rw [List.takeWhile_cons] at h
    split at h
    · rename_i hx
      rcases List.mem_cons.1 h with rfl | h
      · exact hx
      · exact takeWhile_all p l c h
    · simp at h

/-- Small letters in front of two texts. -/
theorem low_run (s s' : List Char) (h : ∀ x, isLowC x = true → under2 (x :: s) = underscored (x :: s')) :
    ∀ (l : Char) (w : List Char), isLowC l = true → (∀ c ∈ w, isLowC c = true) →
      under2 (l :: (w ++ s)) = underscored (l :: (w ++ s'))
  | l, [], hl, _ => h l hl
  | l, v :: w, hl, hw => by
    have hv : isUpC v = false := low_not_up (low_lowDig (hw v (by simp)))
    rw [List.cons_append, List.cons_append, under2_not_up _ hv, underscored_not_up _ hv,
      low_run s s' h v w (hw v (by simp)) fun c hc => hw c (by simp [hc])]

/-- The first substitution keeps the first character. -/
theorem reSub1_head (n : Nat) (v : Char) (r : List Char) : ∃ T, reSub camelPat1 n (v :: r) = v :: T := by
  cases n with
  | zero => exact ⟨r, rfl⟩
  | succ n =>
    rw [reSub]
    rcases r with _ | ⟨u, _ | ⟨l, r⟩⟩
    · exact ⟨_, rfl⟩
    · exact ⟨_, rfl⟩
    · simp only [camelPat1]
      split
      · rename_i h
        split at h
        · cases h; exact ⟨_, rfl⟩
        · cases h
      · exact ⟨_, rfl⟩

theorem reSub1_low {n : Nat} {s : List Char} (ih : under2 (reSub camelPat1 n s) = underscored s) {x : Char}
    (hx : isLowDigC x = true) : under2 (x :: reSub camelPat1 n s) = underscored (x :: s) := by
  cases s with
  | nil =>
    have : reSub camelPat1 n [] = [] := by cases n <;> rfl
    rw [this]; rfl
  | cons v r =>
    obtain ⟨T, hT⟩ := reSub1_head n v r
    rw [hT] at ih ⊢
    rw [under2, underscored, ih]
    by_cases hv : isUpC v = true
    · rw [if_pos ⟨hx, hv⟩, if_pos (boundary_iff.2 ⟨hv, Or.inl hx⟩)]
    · rw [if_neg (by simp [hv]), if_neg (by simp [boundary_iff, hv])]

theorem reSub1 : ∀ (n : Nat) (s : List Char), s.length ≤ n → under2 (reSub camelPat1 n s) = underscored s
  | 0, s, h => by simp at h; subst h; rfl
  | n + 1, [], _ => rfl
  | n + 1, [c], _ => by
    have : reSub camelPat1 n [] = [] := by cases n <;> rfl
    simp [reSub, camelPat1, this, under2, underscored]
  | n + 1, [c, u], h => by
    have hp : camelPat1 [c, u] = none := rfl
    have ih := reSub1 n [u] (by simp at h ⊢; omega)
    obtain ⟨T, hT⟩ := reSub1_head n u []
    rw [reSub, hp]
    show under2 (c :: reSub camelPat1 n [u]) = _
    rw [hT] at ih ⊢
    rw [under2, ih, underscored.eq_3]
    simp only [boundary_iff, reduceCtorEq, false_and, exists_false, and_false, or_false]
    by_cases hc : isLowDigC c = true ∧ isUpC u = true
    · rw [if_pos hc, if_pos hc.symm]
    · rw [if_neg hc, if_neg fun h => hc h.symm]
  | n + 1, c :: u :: l :: s, h => by
    simp only [List.length_cons] at h
    by_cases hc : c ≠ '\n' ∧ isUpC u = true ∧ isLowC l = true
    · have hp : camelPat1 (c :: u :: l :: s) =
          some (c :: '_' :: u :: l :: s.takeWhile isLowC, s.dropWhile isLowC) := by
        simp only [camelPat1, if_pos hc]
      have hlen : (s.dropWhile isLowC).length ≤ n := by
        have := (List.dropWhile_sublist isLowC (l := s)).length_le
        omega
      have ih := reSub1 n (s.dropWhile isLowC) hlen
      have hl : isUpC l = false := low_not_up (low_lowDig hc.2.2)
      have hw : ∀ c ∈ s.takeWhile isLowC, isLowC c = true := fun c hc => takeWhile_all isLowC s c hc
      have hrun := low_run _ _ (fun x hx => reSub1_low ih (low_lowDig hx)) l (s.takeWhile isLowC) hc.2.2 hw
      rw [List.takeWhile_append_dropWhile] at hrun
      rw [reSub, hp]
      simp only [List.cons_append]
      rw [under2_not_up (v := '_') _ (by decide), under2, if_neg (by simp [isLowDigC, isLowC]), under2_up hc.2.1,
        hrun, underscored, if_pos (boundary_iff.2 ⟨hc.2.1, Or.inr ⟨hc.1, l, s, rfl, hc.2.2⟩⟩), underscored_not_up _ hl]
    · have hp : camelPat1 (c :: u :: l :: s) = none := by simp only [camelPat1, if_neg hc]
      have ih := reSub1 n (u :: l :: s) (by simp; omega)
      obtain ⟨T, hT⟩ := reSub1_head n u (l :: s)
      rw [reSub, hp]
      show under2 (c :: reSub camelPat1 n (u :: l :: s)) = _
      rw [hT] at ih ⊢
      rw [under2, ih, underscored.eq_3 c]
      by_cases hd : isLowDigC c = true ∧ isUpC u = true
      · rw [if_pos hd, if_pos (boundary_iff.2 ⟨hd.2, Or.inl hd.1⟩)]
      · rw [if_neg hd, if_neg]
        rw [boundary_iff]
        rintro ⟨h1, h2 | ⟨h2, l', r', h3, h4⟩⟩
        · exact hd ⟨h2, h1⟩
        · simp only [List.cons.injEq] at h3
          exact hc ⟨h2, h1, h3.1 ▸ h4⟩

/-- **C88** `camel_to_snake` puts an underscore at every word boundary and nowhere else, and makes letters small. -/
theorem C88_boundaries (s : List Char) : camelToSnake s = (underscored s).map Char.toLower := by
  show (reSub camelPat2 (reSub camelPat1 s.length s).length (reSub camelPat1 s.length s)).map Char.toLower = _
  rw [reSub2 _ _ le_rfl, reSub1 _ _ le_rfl]

theorem underscored_strip : ∀ s : List Char, (underscored s).filter (· ≠ '_') = s.filter (· ≠ '_')
  | [] => rfl
  | [c] => rfl
  | c :: u :: s => by
    have ih := underscored_strip (u :: s)
    rw [underscored]
    split
    · rw [List.filter_cons, List.filter_cons, ih]
      simp [List.filter_cons]
    · rw [List.filter_cons, ih]
      simp [List.filter_cons]

theorem toLower_up {c : Char} (h : isUpC c = true) : isLowC c.toLower = true := by
  have key : ∀ n : Fin 26, isLowC (Char.toLower (Char.ofNat (65 + n))) = true := by decide
  simp only [isUpC, decide_eq_true_eq, Char.le_def, UInt32.le_iff_toNat_le] at h
  have h65 : 65 ≤ c.toNat := h.1
  have h90 : c.toNat ≤ 90 := h.2
  have := key ⟨c.toNat - 65, by omega⟩
  rwa [show 65 + (c.toNat - 65) = c.toNat by omega, Char.ofNat_toNat] at this

theorem toLower_not_up {c : Char} (h : isUpC c = false) : c.toLower = c := by
  unfold Char.toLower
  rw [dif_neg]
  intro hc
  have : isUpC c = true := by
    simp only [isUpC, decide_eq_true_eq, Char.le_def]
    exact hc
  rw [h] at this
  cases this

theorem toLower_underscore (c : Char) : c.toLower = '_' ↔ c = '_' := by
  by_cases h : isUpC c = true
  · have hl := toLower_up h
    constructor
    · intro he
      rw [he] at hl
      exact absurd hl (by decide)
    · rintro rfl
      exact absurd h (by decide)
  · rw [toLower_not_up (by simpa using h)]

/-- Nothing but case and underscores changes. -/
theorem C88_letters (s : List Char) :
    (camelToSnake s).filter (· ≠ '_') = (s.filter (· ≠ '_')).map Char.toLower := by
  have hf : ∀ l : List Char, (l.map Char.toLower).filter (· ≠ '_') = (l.filter (· ≠ '_')).map Char.toLower := by
    intro l
    rw [List.filter_map]
    congr 1
    apply List.filter_congr
    intro c _
    simp [toLower_underscore]
  rw [C88_boundaries, hf, underscored_strip]

/-- The result has no capitals. -/
theorem C88_small (s : List Char) : ∀ c ∈ camelToSnake s, c.isUpper = false := by
  intro c hc
  rw [← isUpC_eq]
  rw [C88_boundaries] at hc
  obtain ⟨d, _, rfl⟩ := List.mem_map.1 hc
  by_cases h : isUpC d = true
  · exact low_not_up (low_lowDig (toLower_up h))
  · rw [toLower_not_up (by simpa using h)]
    simpa using h

/-- A name without capitals is unchanged. -/
theorem C88_snake {s : List Char} (h : ∀ c ∈ s, c.isUpper = false) : camelToSnake s = s := by
  simp only [← isUpC_eq] at h
  have hu : ∀ s : List Char, (∀ c ∈ s, isUpC c = false) → underscored s = s := by
    intro s
    induction s with
    | nil => intro _; rfl
    | cons c s ih =>
      intro h
      cases s with
      | nil => rfl
      | cons u s =>
        rw [underscored_not_up _ (h u (by simp)), ih fun c hc => h c (List.mem_cons_of_mem _ hc)]
  rw [C88_boundaries, hu s h]
  exact (List.map_congr_left fun c hc => toLower_not_up (h c hc)).trans (List.map_id' s)

theorem C88_idempotent (s : List Char) : camelToSnake (camelToSnake s) = camelToSnake s :=
  C88_snake (C88_small s)

theorem underscored_run : ∀ (w : List Char) (u : Char) (s : List Char), w ≠ [] → (∀ c ∈ w, isLowDigC c = true) →
    isUpC u = true → underscored (w ++ u :: s) = w ++ '_' :: underscored (u :: s)
  | [], _, _, h, _, _ => absurd rfl h
  | [c], u, s, _, hw, hu => by
    rw [List.singleton_append, underscored.eq_3, if_pos (boundary_iff.2 ⟨hu, Or.inl (hw c (by simp))⟩)]
    rfl
  | c :: d :: w, u, s, _, hw, hu => by
    rw [List.cons_append, List.cons_append, underscored_not_up _ (low_not_up (hw d (by simp)))]
    have := underscored_run (d :: w) u s (by simp) (fun c hc => hw c (List.mem_cons_of_mem _ hc)) hu
    rw [List.cons_append] at this
    rw [this]
    rfl

theorem underscored_last : ∀ (w : List Char), (∀ c ∈ w, isLowDigC c = true) → underscored w = w
  | [], _ => rfl
  | [c], _ => rfl
  | c :: d :: w, hw => by
    rw [underscored_not_up _ (low_not_up (hw d (by simp))),
      underscored_last (d :: w) fun c hc => hw c (List.mem_cons_of_mem _ hc)]

theorem underscored_cap {u : Char} (t s : List Char) (ht : t ≠ []) (hl : ∀ c ∈ t, isLowDigC c = true) :
    underscored (u :: (t ++ s)) = u :: underscored (t ++ s) := by
  cases t with
  | nil => exact absurd rfl ht
  | cons v t => rw [List.cons_append, underscored_not_up _ (low_not_up (hl v (by simp)))]

theorem underscored_caps : ∀ ws : List (List Char), (∀ w ∈ ws, CapWord w) →
    underscored ws.flatten = joinWords ws
  | [], _ => rfl
  | [w], h => by
    obtain ⟨u, t, rfl, hu, ht, hl⟩ := capWord_iff.1 (h w (by simp))
    have := underscored_cap (u := u) t [] ht hl
    simp only [List.append_nil] at this
    simp only [List.flatten_cons, List.flatten_nil, List.append_nil, joinWords, this, underscored_last t hl]
  | w :: w' :: ws, h => by
    obtain ⟨u, t, rfl, hu, ht, hl⟩ := capWord_iff.1 (h w (by simp))
    have ih := underscored_caps (w' :: ws) fun w hw => h w (List.mem_cons_of_mem _ hw)
    obtain ⟨u', t', rfl, hu', ht', hl'⟩ := capWord_iff.1 (h w' (by simp))
    rw [List.flatten_cons, List.cons_append, underscored_cap t _ ht hl, joinWords]
    · rw [← ih, List.flatten_cons, List.cons_append, underscored_run t u' _ ht hl hu']
      rfl
    · simp

/-- A camelCase name of a first word of small letters and digits and any number of capitalised words becomes the words,
in small letters, joined by underscores. -/
theorem C88_words (w : List Char) (ws : List (List Char)) (hw : w ≠ [])
    (hl : ∀ c ∈ w, (c.isLower || c.isDigit) = true) (hws : ∀ v ∈ ws, CapWord v) :
    camelToSnake (w ++ ws.flatten) = (joinWords (w :: ws)).map Char.toLower := by
  simp only [← isLowDigC_eq] at hl
  rw [C88_boundaries]
  congr 1
  cases ws with
  | nil => simp [joinWords, underscored_last w hl]
  | cons v ws =>
    have h := underscored_caps (v :: ws) hws
    obtain ⟨u', t', rfl, hu', ht', hl'⟩ := capWord_iff.1 (hws v (by simp))
    rw [joinWords.eq_3 _ _ (by simp), ← h, List.flatten_cons, List.cons_append, underscored_run w u' _ hw hl hu']

/-- Different names can become one. -/
theorem C88_not_injective : camelToSnake "aB".toList = camelToSnake "a_b".toList ∧ "aB" ≠ "a_b" := by
  constructor
  · decide +kernel
  · decide

/-- The cases of the project's test, and a name that breaks inside an acronym. -/
example : camelToSnake "camel2_camel2_case".toList = "camel2_camel2_case".toList ∧
    camelToSnake "essAEKwOut".toList = "ess_ae_kw_out".toList ∧
    camelToSnake "electKwReq4AE".toList = "elect_kw_req4_ae".toList ∧
    camelToSnake "ess_AE".toList = "ess_ae".toList ∧ camelToSnake "ess_Kw".toList = "ess__kw".toList := by
  decide +kernel

/-- A name that meets the hypotheses of `C88_words`. -/
example : camelToSnake "maxEss4KwIn".toList = "max_ess4_kw_in".toList := by
  have := C88_words "max".toList ["Ess4".toList, "Kw".toList, "In".toList] (by decide) (by decide) (by
    intro v hv
    simp only [List.mem_cons, List.not_mem_nil, or_false] at hv
    rcases hv with rfl | rfl | rfl
    · exact ⟨'E', "ss4".toList, rfl, by decide, by decide, by decide⟩
    · exact ⟨'K', "w".toList, rfl, by decide, by decide, by decide⟩
    · exact ⟨'I', "n".toList, rfl, by decide, by decide, by decide⟩)
  exact this

section
variable {K : Type*} [Zero K] [Add K] [Sub K] [Mul K] [Div K]

/-- **C89** `rollav` raises for every input: with data of equal lengths, `ValueError`. -/
theorem C89_raises (diff : List K → List K) (x y : List K) (width : Nat) :
    rollav diff x y width = if x.length = y.length then .error .valueError else .error .assertionError := by
  by_cases h : x.length = y.length <;> simp [rollav, h, npConcatenate] <;> rfl

end

end Fastsim.Props
