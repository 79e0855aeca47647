import Verif.Model.RsFile
import Verif.Props.RustSaved
import Mathlib.Data.List.TakeWhile

/-!
# C117: files, formats and the cache of the Rust core
-/

set_option linter.unusedSectionVars false

namespace Fastsim.Spec

/-- `d` is the folder part of a path: empty, or up to a slash. -/
def FolderPart (d : Txt) : Prop := d = [] ∨ ∃ s, d = s ++ ['/']

/-- The words that stand for a format. -/
def formatWords : Fmt → List Txt
  | .yaml => ["yaml".toList, "yml".toList]
  | .json => ["json".toList]
  | .toml => ["toml".toList]
  | .csv => ["csv".toList]

end Fastsim.Spec

namespace Fastsim.Props
open Fastsim Spec

/-! ### Paths -/

theorem pieces_ne (s : Txt) : pieces s ≠ [] := by
  cases s with
  | nil => simp [pieces]
  | cons c s =>
    unfold pieces
    split
    · simp
    · split <;> simp

theorem pieces_slash (t : Txt) : pieces ('/' :: t) = [] :: pieces t := by
  conv_lhs => unfold pieces
  cases h : pieces t with
  | nil => exact absurd h (pieces_ne t)
  | cons p ps => simp

theorem pieces_cons {c : Char} (s : Txt) (hc : c ≠ '/') {p : Txt} {ps : List Txt} (h : pieces s = p :: ps) :
    pieces (c :: s) = (c :: p) :: ps := by
  conv_lhs => unfold pieces
  rw [h]
  simp [hc]

theorem pieces_append (t : Txt) : ∀ s : Txt, pieces (s ++ '/' :: t) = pieces s ++ pieces t
  | [] => by simp [pieces_slash, pieces]
  | c :: s => by
    have ih := pieces_append t s
    rw [List.cons_append]
    by_cases hc : c = '/'
    · subst hc
      rw [pieces_slash, pieces_slash, ih, List.cons_append]
    · cases h : pieces s with
      | nil => exact absurd h (pieces_ne s)
      | cons p ps =>
        rw [h] at ih
        rw [pieces_cons s hc h, pieces_cons (s ++ '/' :: t) hc (ih.trans (List.cons_append ..)), List.cons_append]

theorem pieces_plain : ∀ {n : Txt}, '/' ∉ n → pieces n = [n]
  | [], _ => rfl
  | c :: n, h => by
    simp only [List.mem_cons, not_or] at h
    unfold pieces
    rw [pieces_plain h.2]
    simp [Ne.symm h.1]

theorem pieces_folder {d n : Txt} (hd : FolderPart d) (hn : '/' ∉ n) : ∃ l, pieces (d ++ n) = l ++ [n] := by
  rcases hd with rfl | ⟨s, rfl⟩
  · exact ⟨[], by simpa using pieces_plain hn⟩
  · refine ⟨pieces s, ?_⟩
    rw [List.append_assoc, List.singleton_append, pieces_append, pieces_plain hn]

/-- Every path has a folder part and a last piece. -/
theorem path_parts (p : Txt) : ∃ d n : Txt, FolderPart d ∧ '/' ∉ n ∧ p = d ++ n := by
  induction p with
  | nil => exact ⟨[], [], Or.inl rfl, by simp, rfl⟩
  | cons c p ih =>
    obtain ⟨d, n, hd, hn, rfl⟩ := ih
    rcases hd with rfl | ⟨s, rfl⟩
    · by_cases hc : c = '/'
      · exact ⟨['/'], n, Or.inr ⟨[], rfl⟩, hn, by simp [hc]⟩
      · exact ⟨[], c :: n, Or.inl rfl, by simp [Ne.symm hc, hn], rfl⟩
    · exact ⟨c :: s ++ ['/'], n, Or.inr ⟨c :: s, rfl⟩, hn, by simp⟩

theorem fileName_plain {d n : Txt} (hd : FolderPart d) (hn : '/' ∉ n) (h0 : n ≠ []) (h1 : n ≠ ['.']) (h2 : n ≠ ['.', '.']) :
    fileName (d ++ n) = some n := by
  obtain ⟨l, hl⟩ := pieces_folder hd hn
  unfold fileName
  rw [hl, List.filter_append]
  simp [h0, h1, h2]

theorem splitDot_dot {b e : Txt} (he : '.' ∉ e) : splitDot (b ++ '.' :: e) = some (b, e) := by
  unfold splitDot
  have h1 : (b ++ '.' :: e).reverse = e.reverse ++ '.' :: b.reverse := by simp
  have h2 : (e.reverse ++ '.' :: b.reverse).span (fun x => decide (x ≠ '.')) = (e.reverse, '.' :: b.reverse) := by
    rw [List.span_eq_takeWhile_dropWhile]
    have : ∀ x ∈ e.reverse, (decide (x ≠ '.')) = true := fun x hx => by
      simp only [decide_eq_true_eq]
      rintro rfl
      exact he (List.mem_reverse.1 hx)
    rw [List.takeWhile_append_of_pos this, List.dropWhile_append_of_pos this]
    simp
  rw [h1, h2]
  simp

theorem splitDot_none {n : Txt} (hn : '.' ∉ n) : splitDot n = none := by
  unfold splitDot
  have h2 : n.reverse.span (fun x => decide (x ≠ '.')) = (n.reverse, []) := by
    rw [List.span_eq_takeWhile_dropWhile]
    have : ∀ x ∈ n.reverse, (decide (x ≠ '.')) = true := fun x hx => by
      simp only [decide_eq_true_eq]
      rintro rfl
      exact hn (List.mem_reverse.1 hx)
    rw [List.takeWhile_eq_self_iff.2 this, List.dropWhile_eq_nil_iff.2 this]
  rw [h2]

theorem dot_parts : ∀ n : Txt, '.' ∉ n ∨ ∃ b e : Txt, '.' ∉ e ∧ n = b ++ '.' :: e
  | [] => Or.inl (by simp)
  | c :: n => by
    rcases dot_parts n with h | ⟨b, e, he, rfl⟩
    · by_cases hc : c = '.'
      · exact Or.inr ⟨[], n, h, by simp [hc]⟩
      · exact Or.inl (by simp [Ne.symm hc, h])
    · exact Or.inr ⟨c :: b, e, he, rfl⟩

/-- **C117 (the extension).** In whatever folder, the extension of a file `name.ext` is `ext`, where `name` may have dots. -/
theorem C117_extension {d b e : Txt} (hd : FolderPart d) (hb : '/' ∉ b) (hb0 : b ≠ []) (he : '/' ∉ e) (he' : '.' ∉ e)
    (hdd : b ++ '.' :: e ≠ "..".toList) : extOf (d ++ (b ++ '.' :: e)) = some e := by
  unfold extOf
  rw [fileName_plain hd (by simp [hb, he]) (by simp) (by
    intro h
    cases b with
    | nil => exact hb0 rfl
    | cons c b => simp at h) hdd]
  simp only
  rw [splitDot_dot he']
  simp [hb0]

/-- **C117 (no extension).** A name without a dot, or whose only dot is the first character, has no extension. -/
theorem C117_no_extension {d n : Txt} (hd : FolderPart d) (hn : '/' ∉ n) (hn' : '.' ∉ n) (h0 : n ≠ []) :
    extOf (d ++ n) = none ∧ extOf (d ++ '.' :: n) = none := by
  have h1 : n ≠ ['.'] := by rintro rfl; simp at hn'
  have h2 : n ≠ ['.', '.'] := by rintro rfl; simp at hn'
  constructor
  · unfold extOf
    rw [fileName_plain hd hn h0 h1 h2]
    simp only
    rw [splitDot_none hn']
  · unfold extOf
    rw [fileName_plain hd (by simp [hn]) (by simp) (by simpa using h0) (by simpa using h1)]
    simp only
    rw [show ('.' :: n : Txt) = [] ++ '.' :: n from rfl, splitDot_dot hn']
    simp

/-! ### Formats -/

theorem dropWhile_dots (s : Txt) : ∃ n, s = List.replicate n '.' ++ s.dropWhile (· = '.') := by
  induction s with
  | nil => exact ⟨0, rfl⟩
  | cons c s ih =>
    by_cases hc : c = '.'
    · obtain ⟨n, hn⟩ := ih
      refine ⟨n + 1, ?_⟩
      rw [List.dropWhile_cons_of_pos (by simp [hc]), List.replicate_succ, List.cons_append, ← hn, hc]
    · exact ⟨0, by rw [List.dropWhile_cons_of_neg (by simp [hc])]; rfl⟩

theorem toLower_dot {c : Char} (h : c.toLower = '.') : c = '.' := by
  unfold Char.toLower at h
  split at h
  · rename_i hu
    exfalso
    have h3 : c.val + ('a'.val - 'A'.val) = '.'.val := congrArg Char.val h
    have h4 := congrArg UInt32.toNat h3
    have e1 : 65 ≤ c.val.toNat := hu.1
    have e2 : c.val.toNat ≤ 90 := hu.2
    rw [UInt32.toNat_add, show ('a'.val - 'A'.val).toNat = 32 by decide, show '.'.val.toNat = 46 by decide] at h4
    omega
  · exact h

theorem lower_dots (s : Txt) : ∀ (n : Nat) (w : Txt), w.head? ≠ some '.' → s.map Char.toLower = List.replicate n '.' ++ w →
    (s.dropWhile (· = '.')).map Char.toLower = w := by
  intro n
  induction n generalizing s with
  | zero =>
    intro w hw h
    rw [List.replicate_zero, List.nil_append] at h
    cases s with
    | nil => simpa using h
    | cons c s =>
      have : c ≠ '.' := by
        rintro rfl
        apply hw
        rw [← h]
        rfl
      rw [List.dropWhile_cons_of_neg (by simp [this])]
      exact h
  | succ n ih =>
    intro w hw h
    cases s with
    | nil => simp [List.replicate_succ] at h
    | cons c s =>
      rw [List.replicate_succ, List.cons_append, List.map_cons, List.cons.injEq] at h
      rw [List.dropWhile_cons_of_pos (by simp [toLower_dot h.1])]
      exact ih s w hw h.2

/-- **C117 (formats).** A text stands for a format exactly if, with leading dots removed and in small letters, it is one of the
words for it: `yaml` or `yml`, `json`, `toml`, and `csv` for cycles only. -/
theorem C117_formats (csv : Bool) (s : Txt) (f : Fmt) : formatOf csv s = some f ↔
    (f = .csv → csv = true) ∧ ∃ n w, w ∈ formatWords f ∧ s.map Char.toLower = List.replicate n '.' ++ w := by
  have key : ∀ w : Txt, w.head? ≠ some '.' →
      ((∃ n, s.map Char.toLower = List.replicate n '.' ++ w) ↔ (s.dropWhile (· = '.')).map Char.toLower = w) := by
    intro w hw
    constructor
    · rintro ⟨n, hn⟩
      exact lower_dots s n w hw hn
    · intro h
      obtain ⟨n, hn⟩ := dropWhile_dots s
      refine ⟨n, ?_⟩
      conv_lhs => rw [hn]
      rw [List.map_append, h, List.map_replicate]
      rfl
  have k1 := key "yaml".toList (by decide)
  have k2 := key "yml".toList (by decide)
  have k3 := key "json".toList (by decide)
  have k4 := key "toml".toList (by decide)
  have k5 := key "csv".toList (by decide)
  have swap : ∀ l : List Txt, (∃ n w, w ∈ l ∧ s.map Char.toLower = List.replicate n '.' ++ w) ↔
      ∃ w ∈ l, ∃ n, s.map Char.toLower = List.replicate n '.' ++ w := by
    intro l
    constructor
    · rintro ⟨n, w, h1, h2⟩; exact ⟨w, h1, n, h2⟩
    · rintro ⟨w, h1, n, h2⟩; exact ⟨n, w, h1, h2⟩
  rw [swap]
  unfold formatOf
  generalize hq : (s.dropWhile (· = '.')).map Char.toLower = q at *
  cases f <;>
    simp only [formatWords, List.mem_cons, List.not_mem_nil, or_false, exists_eq_or_imp, exists_eq_left, k1, k2, k3, k4, k5]
  · constructor
    · intro h
      refine ⟨nofun, ?_⟩
      by_contra hc
      rw [if_neg hc] at h
      split_ifs at h <;> simp at h
    · rintro ⟨-, h⟩
      rw [if_pos h]
  · constructor
    · intro h
      refine ⟨nofun, ?_⟩
      split_ifs at h with h1 h2 h3 h4 <;> first | exact h2 | simp at h
    · rintro ⟨-, rfl⟩; decide +revert
  · constructor
    · intro h
      refine ⟨nofun, ?_⟩
      split_ifs at h with h1 h2 h3 h4 <;> first | exact h3 | simp at h
    · rintro ⟨-, rfl⟩; decide +revert
  · constructor
    · intro h
      split_ifs at h with h1 h2 h3 h4 <;> first | exact ⟨fun _ => h4.1, h4.2⟩ | simp at h
    · rintro ⟨h, rfl⟩; rw [h trivial]; decide

/-! ### Files -/

section Files
variable {T B L : Type*} [DecidableEq L]

/-- **C117 (writing).** A file is written exactly if its path has an extension that stands for a format, it can be created, and
the format can write the object; the file then contains what the format writes. Whatever happens, no other file is touched. -/
theorem C117_write (k : Kind T B) (place : Txt → L) (creatable : L → Bool) (d : RsDisk L B) (t : T) (p : Txt) :
    ((toFile k place creatable d t p).2 = .ok () ↔ ∃ e f, extOf p = some e ∧ formatOf k.csv e = some f ∧
      creatable (place p) = true ∧ (k.write f t).2 = true) ∧
    (∀ e f, extOf p = some e → formatOf k.csv e = some f → creatable (place p) = true →
      (toFile k place creatable d t p).1 (place p) = some (k.write f t).1) ∧
    ∀ l, l ≠ place p → (toFile k place creatable d t p).1 l = d l := by
  unfold toFile
  cases he : extOf p with
  | none => simp
  | some e =>
    cases hc : creatable (place p) with
    | false => simp
    | true =>
      cases hf : formatOf k.csv e with
      | none =>
        refine ⟨by simp [hf], (by intro e' f h1 h2; cases h1; rw [hf] at h2; cases h2), fun l hl => ?_⟩
        simp [hf, RsDisk.put, hl]
      | some f =>
        refine ⟨?_, ?_, fun l hl => ?_⟩
        · cases hw : (k.write f t).2 <;> simp [hf, hw]
        · intro e' f' h1 h2 _
          cases h1
          rw [hf] at h2
          cases h2
          simp [hf, RsDisk.put]
        · simp [hf, RsDisk.put, hl]

/-- **C117 (nothing is written without an extension).** -/
theorem C117_no_extension_untouched (k : Kind T B) (place : Txt → L) (creatable : L → Bool) (d : RsDisk L B) (t : T) {p : Txt}
    (h : extOf p = none) : toFile k place creatable d t p = (d, .error .err) := by
  unfold toFile
  rw [h]

/-- **C117 (found: a file is emptied although the format is refused).** Saving with an extension that stands for no format fails,
and what the file contained is gone. `bin` is such an extension in the default build, although it is among those listed as
supported. -/
theorem C117_emptied (k : Kind T B) (place : Txt → L) (creatable : L → Bool) (d : RsDisk L B) (t : T) {p e : Txt}
    (h : extOf p = some e) (hf : formatOf k.csv e = none) (hc : creatable (place p) = true) :
    toFile k place creatable d t p = (d.put (place p) [], .error .err) ∧
    (toFile k place creatable d t p).1 (place p) = some [] ∧ ∀ c, formatOf c "bin".toList = none := by
  have : toFile k place creatable d t p = (d.put (place p) [], .error .err) := by
    unfold toFile
    rw [h]
    simp only [hc, hf]
    rfl
  refine ⟨this, ?_, by decide⟩
  rw [this]
  simp [RsDisk.put]

/-- **C117 (reading what was written).** After a file was written, it is read with what the format makes of it; without `init` that
is the object, with `init` it is run once, and twice for toml. -/
theorem C117_read_back (k : Kind T B) (place : Txt → L) (creatable : L → Bool) (d : RsDisk L B) {t t' : T} {p e : Txt} {f : Fmt}
    (he : extOf p = some e) (hf : formatOf k.csv e = some f) (hc : creatable (place p) = true)
    (hr : k.read f (k.write f t).1 = .ok t') :
    fromFile k place (toFile k place creatable d t p).1 p true = .ok t' ∧
    fromFile k place (toFile k place creatable d t p).1 p false = (if f = .toml then k.init t' >>= k.init else k.init t') := by
  have h1 := (C117_write k place creatable d t p).2.1 e f he hf hc
  unfold fromFile fromReader
  rw [he]
  simp only [h1, hf, hr]
  refine ⟨by simp, ?_⟩
  by_cases ht : f = .toml
  · simp only [ht, and_self, if_true]
    cases k.init t' <;> rfl
  · simp [ht]

/-- **C117 (round trip).** If `init` gives back the object from what a format makes of it, and leaves the object alone, the object
is read from every file it was written to, in any format. -/
theorem C117_round_trip (k : Kind T B) (place : Txt → L) (creatable : L → Bool) (d : RsDisk L B) {t : T} {p : Txt}
    (h : (toFile k place creatable d t p).2 = .ok ())
    (hr : ∀ f, (k.write f t).2 = true → ∃ t', k.read f (k.write f t).1 = .ok t' ∧ k.init t' = .ok t) (hi : k.init t = .ok t) :
    fromFile k place (toFile k place creatable d t p).1 p false = .ok t := by
  obtain ⟨e, f, he, hf, hc, hw⟩ := (C117_write k place creatable d t p).1.1 h
  obtain ⟨t', h1, h2⟩ := hr f hw
  rw [(C117_read_back k place creatable d he hf hc h1).2, h2]
  split
  · exact hi
  · rfl

/-- **C117 (texts).** `from_str` reads what `to_str` gave, under any spelling of the format, and runs `init` once. -/
theorem C117_text (k : Kind T B) {t t' : T} {s s' : Txt} {f : Fmt} (hf : formatOf k.csv s = some f) (hf' : formatOf k.csv s' = some f)
    (hw : (k.write f t).2 = true) (hr : k.read f (k.write f t).1 = .ok t') :
    ∃ b, toStr k t s = .ok b ∧ fromStr k b s' true = .ok t' ∧ fromStr k b s' false = k.init t' := by
  refine ⟨(k.write f t).1, ?_, ?_, ?_⟩
  · simp [toStr, hf, hw]
  · simp [fromStr, hf', hr]
  · simp [fromStr, hf', hr]

/-- **C117 (later writes).** A file that was written is read back after any other file was written. -/
theorem C117_apart (k k' : Kind T B) (place : Txt → L) (creatable : L → Bool) (d : RsDisk L B) (t : T) {p q : Txt}
    (h : place q ≠ place p) (skip : Bool) :
    fromFile k' place (toFile k place creatable d t p).1 q skip = fromFile k' place d q skip := by
  unfold fromFile
  rw [(C117_write k place creatable d t p).2.2 _ h]

/-! ### Resources -/

/-- The words that end a listed name. -/
theorem afterDot_iff {n w : Txt} (hw : '.' ∉ w) : afterDot n = w ↔ n = w ∨ ∃ b, n = b ++ '.' :: w := by
  unfold afterDot
  rcases dot_parts n with h | ⟨b, e, he, rfl⟩
  · rw [splitDot_none h]
    simp only
    constructor
    · exact Or.inl
    · rintro (rfl | ⟨b, rfl⟩)
      · rfl
      · simp at h
  · rw [splitDot_dot he]
    simp only
    constructor
    · rintro rfl; exact Or.inr ⟨b, rfl⟩
    · rintro (h | ⟨b', h⟩)
      · rw [← h] at hw; simp at hw
      · have e1 : splitDot (b ++ '.' :: e) = splitDot (b' ++ '.' :: w) := by rw [h]
        rw [splitDot_dot he, splitDot_dot hw] at e1
        exact (congrArg Prod.snd (Option.some.inj e1) :)

theorem listed_nodot (c : Bool) : ∀ w ∈ listedFormats c, '.' ∉ w := by
  cases c <;> decide

/-- **C117 (what is listed).** The resources listed are the files of the folder that end in a dot and `yaml`, `json`, `toml` (or
`csv`, for cycles), or are named just so, in order. -/
theorem C117_listed (k : Kind T B) {ns : List Txt} (hk : k.prefixDir ≠ []) :
    (∀ n, n ∈ listResources k (some ns) ↔ n ∈ ns ∧ ∃ w ∈ listedFormats k.csv, n = w ∨ ∃ b, n = b ++ '.' :: w) ∧
    (listResources k (some ns)).Pairwise (· ≤ ·) ∧
    (ns.Nodup → (listResources k (some ns)).Nodup) := by
  unfold listResources
  rw [if_neg hk]
  simp only
  refine ⟨fun n => ?_, ?_, fun h => ?_⟩
  · rw [List.mem_mergeSort, List.mem_filter, decide_eq_true_eq]
    refine and_congr_right fun _ => ?_
    constructor
    · intro h
      exact ⟨afterDot n, h, (afterDot_iff (listed_nodot _ _ h)).1 rfl⟩
    · rintro ⟨w, hw, h⟩
      rw [(afterDot_iff (listed_nodot _ _ hw)).2 h]
      exact hw
  · have := List.pairwise_mergeSort (le := fun a b : Txt => decide (a ≤ b)) (fun a b c h1 h2 => by
      simp only [decide_eq_true_eq] at *
      exact List.le_trans h1 h2) (fun a b => by simpa using List.le_total a b)
      (ns.filter fun n => decide (afterDot n ∈ listedFormats k.csv))
    exact this.imp fun h => by simpa using h
  · exact (List.mergeSort_perm _ _).nodup_iff.2 (h.filter _)

theorem listed_format {c : Bool} {w : Txt} (h : w ∈ listedFormats c) : ∃ f, formatOf c w = some f := by
  have : ∀ c : Bool, ∀ w ∈ listedFormats c, (formatOf c w).isSome = true := by
    intro c
    cases c <;> decide
  exact Option.isSome_iff_exists.1 (this c w h)

theorem joinPath_folder {a n : Txt} (ha : a ≠ []) (hn : n.head? ≠ some '/') : ∃ d, FolderPart d ∧ joinPath a n = d ++ n := by
  unfold joinPath
  rw [if_neg hn]
  by_cases h : a.getLast? = some '/'
  · rw [if_pos (Or.inr h)]
    refine ⟨a, Or.inr ⟨a.dropLast, ?_⟩, rfl⟩
    have := List.dropLast_append_getLast ha
    rw [List.getLast?_eq_some_getLast ha] at h
    rw [Option.some.inj h] at this
    exact this.symm
  · rw [if_neg (by rintro (h1 | h1); exacts [ha h1, h h1])]
    exact ⟨a ++ ['/'], Or.inr ⟨a, rfl⟩, by simp⟩

theorem plain_head {n : Txt} (h : '/' ∉ n) : n.head? ≠ some '/' := by
  cases n with
  | nil => simp
  | cons c n =>
    simp only [List.mem_cons, not_or] at h
    simpa using Ne.symm h.1

/-- **C117 (what is listed can be loaded).** A listed name that has something before its last dot is loaded from its file. -/
theorem C117_listed_loads (k : Kind T B) {ns : List Txt} (hk : k.prefixDir ≠ []) {n : Txt} (h : n ∈ listResources k (some ns))
    (hn : '/' ∉ n) (h0 : afterDot n ≠ n) (h1 : '.' :: afterDot n ≠ n) (D : RsDisk Txt B) (skip : Bool) {b : List B}
    (hb : D (joinPath k.prefixDir n) = some b) :
    ∃ e, fromResource k D n skip = fromReader k b e skip ∧ ∃ f, formatOf k.csv e = some f := by
  obtain ⟨-, w, hw, hnw⟩ := ((C117_listed k hk).1 n).1 h
  have haft := (afterDot_iff (listed_nodot _ _ hw)).2 hnw
  rw [haft] at h0 h1
  obtain ⟨c, rfl⟩ := hnw.resolve_left (Ne.symm h0)
  obtain ⟨d, hd, hj⟩ := joinPath_folder (a := k.prefixDir) hk (plain_head hn)
  have hdot := listed_nodot _ _ hw
  have hc0 : c ≠ [] := by rintro rfl; exact h1 rfl
  have hw0 : w ≠ [] := by
    rintro rfl
    revert hw
    cases k.csv <;> decide
  simp only [List.mem_append, List.mem_cons, not_or] at hn
  have hext := C117_extension hd hn.1 hc0 hn.2.2 hdot (by
    intro h2
    have h3 : c ++ '.' :: w = ['.'] ++ '.' :: [] := h2
    have := congrArg splitDot h3
    rw [splitDot_dot hdot, splitDot_dot (by simp)] at this
    exact hw0 (congrArg Prod.snd (Option.some.inj this) :))
  refine ⟨w, ?_, listed_format hw⟩
  unfold fromResource fromFile
  rw [hj, hext]
  simp only [id]
  rw [← hj, hb]

/-- **C117 (found: listed but not loaded).** A file named just like a format, with or without a dot in front, is listed and can
never be loaded. -/
theorem C117_listed_not_loaded (k : Kind T B) {ns : List Txt} (hk : k.prefixDir ≠ []) {w : Txt} (hw : w ∈ listedFormats k.csv)
    (D : RsDisk Txt B) (skip : Bool) :
    (w ∈ ns → w ∈ listResources k (some ns)) ∧ ('.' :: w ∈ ns → '.' :: w ∈ listResources k (some ns)) ∧
    fromResource k D w skip = .error .err ∧ fromResource k D ('.' :: w) skip = .error .err := by
  have hslash : '/' ∉ w ∧ w ≠ [] := by
    revert hw
    cases k.csv <;> revert w <;> decide
  refine ⟨fun h => ((C117_listed k hk).1 _).2 ⟨h, w, hw, Or.inl rfl⟩,
    fun h => ((C117_listed k hk).1 _).2 ⟨h, w, hw, Or.inr ⟨[], rfl⟩⟩, ?_, ?_⟩
  · obtain ⟨d, hd, hj⟩ := joinPath_folder (a := k.prefixDir) hk (plain_head hslash.1)
    unfold fromResource fromFile
    rw [hj, (C117_no_extension hd hslash.1 (listed_nodot _ _ hw) hslash.2).1]
  · obtain ⟨d, hd, hj⟩ := joinPath_folder (a := k.prefixDir) (n := '.' :: w) hk (by simp)
    unfold fromResource fromFile
    rw [hj, (C117_no_extension hd hslash.1 (listed_nodot _ _ hw) hslash.2).2]

/-- **C117 (found: loaded but not listed).** A resource `name.yml`, or one whose extension has capitals, is loaded as yaml, but not
listed. -/
theorem C117_loaded_not_listed (k : Kind T B) (hk : k.prefixDir ≠ []) {b : Txt} (hb : '/' ∉ b) (hb0 : b ≠ []) (ns : List Txt)
    (D : RsDisk Txt B) (skip : Bool) {c : List B} {e : Txt} (he : e ∈ ["yml".toList, "YAML".toList, "Yaml".toList, "YML".toList])
    (hc : D (joinPath k.prefixDir (b ++ '.' :: e)) = some c) :
    b ++ '.' :: e ∉ listResources k (some ns) ∧ fromResource k D (b ++ '.' :: e) skip = fromReader k c "yaml".toList skip := by
  have hs : '/' ∉ e ∧ '.' ∉ e ∧ (∀ x, e ∉ listedFormats x) ∧ (∀ x, formatOf x e = some .yaml) ∧ e ≠ [] := by
    clear hc; revert e; decide
  obtain ⟨h1, h2, h3, h4, h5⟩ := hs
  constructor
  · intro h
    obtain ⟨-, w, hw, h⟩ := ((C117_listed k hk).1 _).1 h
    have e1 := (afterDot_iff (listed_nodot _ _ hw)).2 h
    have e2 := (afterDot_iff h2).2 (Or.inr ⟨b, rfl⟩)
    rw [e1] at e2
    rw [e2] at hw
    exact h3 _ hw
  · have hn : '/' ∉ b ++ '.' :: e := by simp [hb, h1]
    obtain ⟨d, hd, hj⟩ := joinPath_folder (a := k.prefixDir) hk (plain_head hn)
    have hext := C117_extension hd hb hb0 h1 h2 (by
      intro h6
      have h7 : b ++ '.' :: e = ['.'] ++ '.' :: [] := h6
      have := congrArg splitDot h7
      rw [splitDot_dot h2, splitDot_dot (by simp)] at this
      exact h5 (congrArg Prod.snd (Option.some.inj this) :))
    unfold fromResource fromFile
    rw [hj, hext]
    simp only [id]
    rw [← hj, hc]
    simp only
    unfold fromReader
    rw [h4, show ∀ x, formatOf x "yaml".toList = some .yaml by decide]

/-! ### The cache -/

/-- What a path is before something is put after it. -/
def withSep (a : Txt) : Txt := if a = [] ∨ a.getLast? = some '/' then a else a ++ ['/']

theorem joinPath_rel {a n : Txt} (hn : n.head? ≠ some '/') : joinPath a n = withSep a ++ n := by
  unfold joinPath withSep
  rw [if_neg hn]
  split <;> simp

theorem withSep_end (a : Txt) : withSep a = [] ∨ (withSep a).getLast? = some '/' := by
  unfold withSep
  split
  · assumption
  · right; simp

theorem withSep_idem (a : Txt) : withSep (withSep a) = withSep a := by
  exact if_pos (withSep_end a)

theorem withSep_append {a b : Txt} (hb : b ≠ []) : withSep (a ++ b) = a ++ withSep b := by
  have hl : (a ++ b).getLast? = b.getLast? := by
    rw [List.getLast?_append]
    cases h : b.getLast? with
    | none => exact absurd (List.getLast?_eq_none_iff.1 h) hb
    | some c => rfl
  have hne : a ++ b ≠ [] := by simp [hb]
  unfold withSep
  rw [hl]
  by_cases h : b.getLast? = some '/'
  · rw [if_pos (Or.inr h), if_pos (Or.inr h)]
  · rw [if_neg (by rintro (h1 | h1); exacts [hne h1, h h1]), if_neg (by rintro (h1 | h1); exacts [hb h1, h h1])]
    simp

theorem withSep_head {a n : Txt} (ha : a.head? = some '/') : (withSep a ++ n).head? = some '/' := by
  unfold withSep
  cases a with
  | nil => simp at ha
  | cons c a => split <;> simpa using ha

/-- Joining twice is joining what is joined. -/
theorem joinPath_assoc {a b n : Txt} (hn : n.head? ≠ some '/') : joinPath (joinPath a b) n = joinPath a (joinPath b n) := by
  rw [joinPath_rel (a := b) hn, joinPath_rel (a := joinPath a b) hn]
  by_cases hb : b.head? = some '/'
  · have h1 : joinPath a b = b := by unfold joinPath; rw [if_pos hb]
    have h2 : joinPath a (withSep b ++ n) = withSep b ++ n := by
      unfold joinPath
      rw [if_pos (withSep_head hb)]
    rw [h1, h2]
  · rw [joinPath_rel hb]
    have h2 : (withSep b ++ n).head? ≠ some '/' := by
      cases b with
      | nil => simpa [withSep] using hn
      | cons c b =>
        unfold withSep
        split <;> simpa using hb
    rw [joinPath_rel h2]
    by_cases hb0 : b = []
    · subst hb0
      rw [List.append_nil, withSep_idem]
      simp [withSep]
    · rw [withSep_append hb0, List.append_assoc]

theorem joinPath_folderPart {s n : Txt} (hs : FolderPart s) (hn : n.head? ≠ some '/') : joinPath s n = s ++ n := by
  rw [joinPath_rel hn]
  unfold withSep
  rcases hs with rfl | ⟨q, rfl⟩
  · simp
  · rw [if_pos (Or.inr (by simp))]

/-- The last component of a path, where it is the end of the path. -/
theorem fileName_suffix {p n : Txt} (h : fileName p = some n) (hs : n <:+ p) :
    ∃ d, FolderPart d ∧ p = d ++ n ∧ '/' ∉ n ∧ n ≠ [] := by
  obtain ⟨d, m, hd, hm, rfl⟩ := path_parts p
  obtain ⟨l, hl⟩ := pieces_folder hd hm
  have hmem : n ∈ pieces (d ++ m) ∧ n ≠ [] ∧ n ≠ ['.'] := by
    unfold fileName at h
    split at h
    · cases h
    · rename_i c hc
      split at h
      · cases h
      · cases h
        have := List.mem_of_getLast? hc
        rw [List.mem_filter, decide_eq_true_eq] at this
        exact ⟨this.1, this.2⟩
  have hplain : ∀ (s : Txt), ∀ c ∈ pieces s, '/' ∉ c := by
    intro s
    induction s with
    | nil => simp [pieces]
    | cons c s ih =>
      intro x hx
      by_cases hc : c = '/'
      · subst hc
        rw [pieces_slash, List.mem_cons] at hx
        rcases hx with rfl | hx
        · simp
        · exact ih x hx
      · cases hp : pieces s with
        | nil => exact absurd hp (pieces_ne s)
        | cons q qs =>
          rw [pieces_cons s hc hp, List.mem_cons] at hx
          rw [hp] at ih
          rcases hx with rfl | hx
          · have := ih q (by simp)
            simp [Ne.symm hc, this]
          · exact ih x (by simp [hx])
  have hns := hplain _ _ hmem.1
  by_cases hok : m ≠ [] ∧ m ≠ ['.']
  · have : fileName (d ++ m) = if m = ['.', '.'] then none else some m := by
      unfold fileName
      rw [hl, List.filter_append]
      simp [hok.1, hok.2]
    rw [this] at h
    split at h
    · cases h
    · cases h
      exact ⟨d, hd, rfl, hm, hok.1⟩
  · exfalso
    rcases hd with rfl | ⟨q, rfl⟩
    · rw [List.nil_append, pieces_plain hm, List.mem_singleton] at hmem
      exact hok ⟨hmem.1 ▸ hmem.2.1, hmem.1 ▸ hmem.2.2⟩
    · obtain ⟨u, hu⟩ := hs
      rcases List.eq_nil_or_concat n with h0 | ⟨n', c, h0⟩
      · exact hmem.2.1 h0
      · by_cases hm0 : m = []
        · rw [hm0, List.append_nil, h0, List.concat_eq_append, ← List.append_assoc] at hu
          have := List.append_inj_right' hu rfl
          rw [h0, List.concat_eq_append] at hns
          simp at this
          simp [this] at hns
        · have hm1 : m = ['.'] := by
            by_contra h3
            exact hok ⟨hm0, h3⟩
          rw [hm1, h0, List.concat_eq_append, ← List.append_assoc] at hu
          have e1 := List.append_inj' hu rfl
          rcases List.eq_nil_or_concat n' with h4 | ⟨n'', c', h4⟩
          · rw [h4, List.concat_eq_append, List.nil_append] at h0
            rw [h0] at hmem
            exact hmem.2.2 e1.2
          · rw [h4, List.concat_eq_append, ← List.append_assoc] at e1
            have := List.append_inj_right' e1.1 rfl
            rw [h0, h4] at hns
            simp at this
            simp [this] at hns

/-- **C117 (the cache).** `to_cache` writes to the very path `from_cache` reads. -/
theorem C117_cache_path {c root p q : Txt} (h : cacheTarget c root p = some q) : q = cacheSource c root p := by
  unfold cacheTarget at h
  split at h
  · cases h
  · rename_i n hn
    split at h
    · rename_i he
      cases h
      subst he
      obtain ⟨d, hd, hp, hs, h0⟩ := fileName_suffix hn (List.suffix_refl _)
      exact joinPath_assoc (plain_head hs)
    · split at h
      · rename_i h1 h2
        cases h
        obtain ⟨d, hd, hp, hs, h0⟩ := fileName_suffix hn h2
        have ht : p.take (p.length - n.length) = d := by
          rw [hp]; simp
        rw [ht, joinPath_assoc (plain_head hs), joinPath_assoc (plain_head hs), joinPath_folderPart hd (plain_head hs), ← hp]
        rfl
      · cases h

/-- **C117 (which paths can be cached).** A path is accepted by `to_cache` exactly if what follows its last slash is a name: not
empty, not `.` and not `..`. -/
theorem C117_cache_defined (c root : Txt) {d n : Txt} (hd : FolderPart d) (hn : '/' ∉ n) :
    (cacheTarget c root (d ++ n)).isSome = true ↔ n ≠ [] ∧ n ≠ ['.'] ∧ n ≠ ['.', '.'] := by
  constructor
  · intro h
    obtain ⟨q, hq⟩ := Option.isSome_iff_exists.1 h
    have key : ∃ m, fileName (d ++ n) = some m ∧ m <:+ d ++ n := by
      unfold cacheTarget at hq
      split at hq
      · cases hq
      · rename_i m hm
        refine ⟨m, hm, ?_⟩
        split at hq
        · rename_i he
          rw [← he]
        · split at hq
          · assumption
          · cases hq
    obtain ⟨m, hm, hs⟩ := key
    obtain ⟨d', hd', he, hm', hm0⟩ := fileName_suffix hm hs
    have hmn : m = n := by
      obtain ⟨l1, h1⟩ := pieces_folder hd hn
      obtain ⟨l2, h2⟩ := pieces_folder hd' hm'
      rw [he, h2] at h1
      have := congrArg List.getLast? h1
      simpa using this
    subst hmn
    refine ⟨hm0, ?_, ?_⟩
    · rintro rfl
      unfold fileName at hm
      split at hm
      · cases hm
      · rename_i c' hc
        split at hm
        · cases hm
        · cases hm
          have := List.mem_of_getLast? hc
          simp at this
    · rintro rfl
      unfold fileName at hm
      split at hm
      · cases hm
      · split at hm
        · cases hm
        · rename_i h2
          cases hm
          exact h2 rfl
  · rintro ⟨h0, h1, h2⟩
    unfold cacheTarget
    rw [fileName_plain hd hn h0 h1 h2]
    simp only
    split
    · rfl
    · rw [if_pos ⟨d, rfl⟩]
      rfl

/-- **C117 (reading from the cache).** What was put into the cache is read from it under the same path. -/
theorem C117_cache (k : Kind T B) (place : Txt → L) (creatable : L → Bool) (d : RsDisk L B) (root : Txt) {t : T} {p : Txt}
    (h : (toCache k place creatable d root t p).2 = .ok ())
    (hr : ∀ f, (k.write f t).2 = true → ∃ t', k.read f (k.write f t).1 = .ok t' ∧ k.init t' = .ok t) (hi : k.init t = .ok t) :
    fromCache k place (toCache k place creatable d root t p).1 root p false = .ok t := by
  unfold toCache at *
  cases hq : cacheTarget k.cacheDir root p with
  | none => rw [hq] at h; cases h
  | some q =>
    rw [hq] at h
    simp only at h ⊢
    unfold fromCache
    rw [← C117_cache_path hq]
    exact C117_round_trip k place creatable d h hr hi

/-- **C117 (found: absolute paths leave the cache).** With an absolute path `to_cache` writes to that path itself, outside the
data folder. -/
theorem C117_cache_absolute {c root p q : Txt} (hp : p.head? = some '/') (h : cacheTarget c root p = some q) : q = p := by
  rw [C117_cache_path h]
  unfold cacheSource
  have h1 : joinPath c p = p := by unfold joinPath; rw [if_pos hp]
  rw [h1]
  unfold joinPath
  rw [if_pos hp]

/-- **C117 (kinds are kept apart).** A vehicle and a cycle cached under the same relative path are different files in the data
folder. -/
theorem C117_cache_apart {root p : Txt} (hp : p.head? ≠ some '/') :
    cacheSource "vehicles".toList root p ≠ cacheSource "cycles".toList root p := by
  unfold cacheSource
  rw [joinPath_rel hp, joinPath_rel hp, joinPath_rel (by simp [withSep]), joinPath_rel (by simp [withSep])]
  intro h
  have := List.append_cancel_left h
  simp [withSep] at this

end Files

/-! ### Vehicles -/

section Vehicles
variable {K B L : Type*} [Field K] [LinearOrder K] [IsStrictOrderedRing K] [DecidableEq L]

/-- **C117 (vehicles).** With formats that keep what serde writes of a vehicle, a vehicle saved to any file that can be written is
loaded as C116 says, whatever the format. -/
theorem C117_vehicle {write : Fmt → VehObj K → List B × Bool} {read : Fmt → List B → Except RsErr (VehObj K)}
    (place : Txt → L) (creatable : L → Bool) (d : RsDisk L B) {v : VehObj K} {p : Txt}
    (h : (toFile (vehKind write read) place creatable d v p).2 = .ok ())
    (hr : ∀ f, (write f v).2 = true → read f (write f v).1 = .ok (v.rsFromText [])) :
    fromFile (vehKind write read) place (toFile (vehKind write read) place creatable d v p).1 p false = v.rsReload := by
  obtain ⟨e, f, he, hf, hc, hw⟩ := (C117_write _ place creatable d v p).1.1 h
  rw [(C117_read_back (vehKind write read) place creatable d he hf hc (hr f hw)).2]
  show (if f = .toml then v.rsReload >>= VehObj.rsInitLoaded else v.rsReload) = _
  split
  · have := C116_toml v
    unfold VehObj.rsReloadToml at this
    change (match v.rsReload with | .error e => Except.error e | .ok r => r.rsInitLoaded) = _ at this
    cases hv : v.rsReload with
    | error e => rfl
    | ok r =>
      rw [hv] at this
      exact this
  · rfl

end Vehicles

/-! ### Cases -/

/-- A kind with objects that are numbers, written as themselves; a negative number is refused by `init`. -/
def numKind : Kind ℤ ℤ where
  csv := true
  prefixDir := "cycles".toList
  cacheDir := "cycles".toList
  write _ t := ([t], true)
  read _ b := match b with
    | [x] => .ok x
    | _ => .error .err
  init t := if t < 0 then .error .err else .ok t

/-- Hypotheses are met: numbers are read back from every format, `init` leaves them alone, and paths of all sorts occur. -/
theorem C117_demo :
    (∀ f, (numKind.write f 5).2 = true → ∃ t', numKind.read f (numKind.write f 5).1 = .ok t' ∧ numKind.init t' = .ok 5) ∧
    numKind.init 5 = .ok 5 ∧
    (toFile numKind (id : Txt → Txt) (fun _ => true) (fun _ => none) 5 "a/b.c/x.CSV".toList).2 = .ok () ∧
    (toFile numKind (id : Txt → Txt) (fun _ => true) (fun _ => some [7]) 5 "x.txt".toList).1 "x.txt".toList = some [] ∧
    (toCache numKind (id : Txt → Txt) (fun _ => true) (fun _ => none) "/home/c".toList 5 "a/x.yml".toList).1
      "/home/c/cycles/a/x.yml".toList = some [5] ∧
    extOf "a.b/c".toList = none ∧ extOf "/a.b/.yaml".toList = none ∧ extOf "x.tar.gz/".toList = some "gz".toList ∧
    extOf "x.".toList = some [] ∧ extOf "a/..".toList = none ∧
    (["b.csv".toList, "a.json".toList, "a.yml".toList, "yaml".toList].filter fun n => decide (afterDot n ∈ listedFormats true)) =
      ["b.csv".toList, "a.json".toList, "yaml".toList] := by
  refine ⟨fun f _ => ⟨5, rfl, rfl⟩, rfl, ?_, ?_, ?_, ?_, ?_, ?_, ?_, ?_, ?_⟩ <;> decide +kernel

end Fastsim.Props
