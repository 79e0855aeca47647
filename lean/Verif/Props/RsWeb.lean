import Verif.Model.RsWeb
import Verif.Props.Preproc
import Mathlib.Tactic.SplitIfs

/-!
# Data from the net (C124)

Which files of a year are downloaded, and what a failed download leaves behind.
-/

set_option linter.unusedSectionVars false

namespace Fastsim.Spec
open Fastsim

/-- The three tables of a year are there. -/
def YearFull {B : Type*} (d : Txt → Option (List B)) (y : Nat) : Prop :=
  ∀ f, f ≠ .zip → (d (dataName y f)).isSome = true

/-- The server has, for the year, an archive with the tables `e`, `v` and `t`, and they can be stored. -/
structure Offers {B : Type*} (N : Net B) (url : Txt) (y : Nat) (e v t : List B) : Prop where
  archive : ∃ b, b ≠ [] ∧ N.body (yearUrl url y) = some b ∧ N.unzip b (dataName y .emissions) = some e ∧
    N.unzip b (dataName y .vehicles) = some v ∧ N.unzip b (dataName y .tests) = some t
  room : ∀ f, N.creatable (dataName y f) = true

end Fastsim.Spec

namespace Fastsim.Props
open Fastsim Spec

/-- **C124 (names).** No two tables of one or several years share a file. -/
theorem C124_names {y y' : Nat} {f f' : DataFile} (h : dataName y f = dataName y' f') : y = y' ∧ f = f' := by
  have dig : ∀ n : Nat, (toString n).toList = Nat.toDigits 10 n := fun n => by
    show (Nat.repr n).toList = _
    rw [Nat.repr, String.toList_ofList]
  have tw : ∀ (n : Nat) (g : DataFile), (dataName n g).takeWhile Char.isDigit = Nat.toDigits 10 n ∧
      (dataName n g).dropWhile Char.isDigit = g.ending := by
    intro n g
    have ha : ∀ c ∈ Nat.toDigits 10 n, c.isDigit = true := fun c hc => Nat.isDigit_of_mem_toDigits (by omega) (by omega) hc
    unfold dataName
    rw [dig]
    refine ⟨?_, ?_⟩
    · have : g.ending.takeWhile Char.isDigit = [] := by cases g <;> decide +kernel
      rw [List.takeWhile_append_of_pos ha, this, List.append_nil]
    · have : g.ending.dropWhile Char.isDigit = g.ending := by cases g <;> decide +kernel
      rw [List.dropWhile_append_of_pos ha, this]
  refine ⟨?_, ?_⟩
  · have := (tw y f).1.symm.trans ((congrArg _ h).trans (tw y' f').1)
    rw [← Nat.ofDigitChars_ten_toDigits (n := y), this, Nat.ofDigitChars_ten_toDigits]
  · have := (tw y f).2.symm.trans ((congrArg _ h).trans (tw y' f').2)
    revert this
    cases f <;> cases f' <;> decide +kernel

section
variable {B : Type*} {N : Net B} {url : Txt}

theorem put_same (d : RsDisk Txt B) (l : Txt) (b : List B) : d.put l b l = some b := by simp [RsDisk.put]

theorem put_other (d : RsDisk Txt B) {l l' : Txt} (b : List B) (h : l' ≠ l) : d.put l b l' = d l' := by
  simp [RsDisk.put, h]

theorem name_ne {y : Nat} {f f' : DataFile} (h : f ≠ f') : dataName y f ≠ dataName y f' := fun e => h (C124_names e).2

theorem there_iff (d : RsDisk Txt B) (y : Nat) : yearThere d y = true ↔ YearFull d y := by
  unfold yearThere YearFull
  simp only [Bool.and_eq_true]
  refine ⟨fun h f hf => ?_, fun h => ⟨⟨h _ (by decide), h _ (by decide)⟩, h _ (by decide)⟩⟩
  cases f
  · exact h.1.2
  · exact h.1.1
  · exact h.2
  · exact absurd rfl hf

theorem populate_nil (d : RsDisk Txt B) : populate N url d [] = (d, .ok ()) := rfl

theorem populate_cons (d : RsDisk Txt B) (y : Nat) (ys : List Nat) :
    populate N url d (y :: ys) =
      if yearThere d y = true then populate N url d ys
      else andThen (fetchYear N url d y) fun d => populate N url d ys := by
  unfold populate
  rw [populateLoop]
  by_cases h : yearThere d y = true
  · rw [if_pos h, if_pos h]
  · rw [if_neg h, if_neg h]
    rcases fetchYear N url d y with ⟨d1, e | u⟩
    · rfl
    · rfl

/-- What fetching a year does: all is stored, or an error comes up, with the tables of tests as before. -/
theorem fetchYear_cases (d : RsDisk Txt B) (y : Nat) :
    (∃ b e v t, Offers N url y e v t ∧ b ≠ [] ∧ N.body (yearUrl url y) = some b ∧ fetchYear N url d y =
      ((((d.put (dataName y .zip) b).put (dataName y .emissions) e).put (dataName y .vehicles) v).put (dataName y .tests) t,
        .ok ())) ∨
    (¬ ∃ e v t, Offers N url y e v t) ∧ ∃ d', fetchYear N url d y = (d', .error .err) ∧
      d' (dataName y .tests) = d (dataName y .tests) := by
  have z1 : dataName y .tests ≠ dataName y .zip := name_ne (by decide)
  have z2 : dataName y .tests ≠ dataName y .emissions := name_ne (by decide)
  have z3 : dataName y .tests ≠ dataName y .vehicles := name_ne (by decide)
  have z4 : dataName y .zip ≠ dataName y .emissions := name_ne (by decide)
  have z5 : dataName y .zip ≠ dataName y .vehicles := name_ne (by decide)
  unfold fetchYear download
  rcases hb : N.body (yearUrl url y) with _ | b
  · exact Or.inr ⟨fun ⟨e, v, t, ⟨b, _, h, _⟩, _⟩ => by simp [hb] at h, d, rfl, rfl⟩
  · dsimp only
    by_cases hb0 : b = []
    · rw [if_pos hb0]
      exact Or.inr ⟨fun ⟨e, v, t, ⟨b', h', h, _⟩, _⟩ => h' (by rw [hb] at h; simpa [hb0] using h.symm), d, rfl, rfl⟩
    rw [if_neg hb0]
    by_cases hz : N.creatable (dataName y .zip) = false
    · rw [if_pos hz]
      exact Or.inr ⟨fun ⟨e, v, t, _, h⟩ => by simp [h] at hz, d, rfl, rfl⟩
    rw [if_neg hz]
    simp only [andThen, extractOne, put_same]
    rcases he : N.unzip b (dataName y .emissions) with _ | e
    · refine Or.inr ⟨fun ⟨e, v, t, ⟨b', _, h, h', _⟩, _⟩ => ?_, _, rfl, put_other _ _ z1⟩
      rw [hb] at h; cases h; simp [he] at h'
    dsimp only
    by_cases he' : N.creatable (dataName y .emissions) = false
    · rw [if_pos he']
      exact Or.inr ⟨fun ⟨e, v, t, _, h⟩ => by simp [h] at he', _, rfl, put_other _ _ z1⟩
    rw [if_neg he']
    dsimp only
    rw [put_other _ _ z4, put_same]
    dsimp only
    rcases hv : N.unzip b (dataName y .vehicles) with _ | v
    · refine Or.inr ⟨fun ⟨e, v, t, ⟨b', _, h, _, h', _⟩, _⟩ => ?_, _, rfl, ?_⟩
      · rw [hb] at h; cases h; simp [hv] at h'
      · rw [put_other _ _ z2, put_other _ _ z1]
    dsimp only
    by_cases hv' : N.creatable (dataName y .vehicles) = false
    · rw [if_pos hv']
      exact Or.inr ⟨fun ⟨e, v, t, _, h⟩ => by simp [h] at hv', _, rfl, by rw [put_other _ _ z2, put_other _ _ z1]⟩
    rw [if_neg hv']
    dsimp only
    rw [put_other _ _ z5, put_other _ _ z4, put_same]
    dsimp only
    rcases ht : N.unzip b (dataName y .tests) with _ | t
    · refine Or.inr ⟨fun ⟨e, v, t, ⟨b', _, h, _, _, h'⟩, _⟩ => ?_, _, rfl, ?_⟩
      · rw [hb] at h; cases h; simp [ht] at h'
      · rw [put_other _ _ z3, put_other _ _ z2, put_other _ _ z1]
    dsimp only
    by_cases ht' : N.creatable (dataName y .tests) = false
    · rw [if_pos ht']
      exact Or.inr ⟨fun ⟨e, v, t, _, h⟩ => by simp [h] at ht', _, rfl, by
        rw [put_other _ _ z3, put_other _ _ z2, put_other _ _ z1]⟩
    rw [if_neg ht']
    refine Or.inl ⟨b, e, v, t, ⟨⟨b, hb0, hb, he, hv, ht⟩, fun f => ?_⟩, hb0, rfl, rfl⟩
    cases f <;> simp_all

/-- Only files of the year change. -/
theorem fetchYear_frame (d : RsDisk Txt B) (y : Nat) (n : Txt) (h : ∀ f, n ≠ dataName y f) :
    (fetchYear N url d y).1 n = d n := by
  have ext : ∀ (d : RsDisk Txt B) f, (extractOne N d y f).1 n = d n := fun d f => by
    unfold extractOne
    split
    · rfl
    · split
      · rfl
      · split
        · rfl
        · exact put_other _ _ (h f)
  have seq : ∀ (a : RsDisk Txt B × Except RsErr Unit) (g : RsDisk Txt B → RsDisk Txt B × Except RsErr Unit),
      (∀ d, (g d).1 n = d n) → (andThen a g).1 n = a.1 n := fun a g hg => by
    rcases a with ⟨a, e | u⟩
    · rfl
    · exact hg a
  unfold fetchYear
  rw [seq _ _ fun d => by rw [seq _ _ fun d => by rw [seq _ _ fun d => ext d _]; exact ext d _]; exact ext d _]
  unfold download
  split
  · rfl
  · split
    · rfl
    · split
      · rfl
      · exact put_other _ _ (h .zip)

/-- What a fetched year looks like. -/
theorem stored_full {d : RsDisk Txt B} {y : Nat} {b e v t : List B} {d' : RsDisk Txt B}
    (h : d' = (((d.put (dataName y .zip) b).put (dataName y .emissions) e).put (dataName y .vehicles) v).put
      (dataName y .tests) t) :
    d' (dataName y .emissions) = some e ∧ d' (dataName y .vehicles) = some v ∧ d' (dataName y .tests) = some t ∧
      YearFull d' y := by
  have a1 : d' (dataName y .emissions) = some e := by
    rw [h, put_other _ _ (name_ne (by decide)), put_other _ _ (name_ne (by decide)), put_same]
  have a2 : d' (dataName y .vehicles) = some v := by rw [h, put_other _ _ (name_ne (by decide)), put_same]
  have a3 : d' (dataName y .tests) = some t := by rw [h, put_same]
  refine ⟨a1, a2, a3, fun f hf => ?_⟩
  cases f
  · rw [a1]; rfl
  · rw [a2]; rfl
  · rw [a3]; rfl
  · exact absurd rfl hf

theorem full_congr {d d' : RsDisk Txt B} {y : Nat} (h : ∀ f, d' (dataName y f) = d (dataName y f)) :
    YearFull d' y ↔ YearFull d y := by
  unfold YearFull
  simp only [h]

/-- Fetching a year leaves the others alone. -/
theorem fetchYear_others (d : RsDisk Txt B) {y y' : Nat} (h : y' ≠ y) (f : DataFile) :
    (fetchYear N url d y).1 (dataName y' f) = d (dataName y' f) :=
  fetchYear_frame d y _ fun _ e => h (C124_names e).1

/-- **C124 (what is touched).** Whether or not populating succeeds, only files of asked years that were not complete
change. -/
theorem C124_keeps (d : RsDisk Txt B) (ys : List Nat) (n : Txt) (h : ∀ y ∈ ys, ∀ f, n = dataName y f → YearFull d y) :
    (populate N url d ys).1 n = d n := by
  induction ys generalizing d with
  | nil => rfl
  | cons y ys ih =>
    rw [populate_cons]
    by_cases hy : yearThere d y = true
    · rw [if_pos hy]
      exact ih d fun y' hy' => h y' (List.mem_cons_of_mem _ hy')
    · rw [if_neg hy]
      have hn : ∀ f, n ≠ dataName y f := fun f e => hy ((there_iff d y).2 (h y (by simp) f e))
      have key := fetchYear_frame (N := N) (url := url) d y n hn
      rcases hf : fetchYear N url d y with ⟨d1, e | u⟩
      · rw [hf] at key; exact key
      · rw [hf] at key
        show (populate N url d1 ys).1 n = d n
        rw [ih d1 fun y' hy' f e => ?_]
        · exact key
        · have hne : y' ≠ y := fun e' => hn f (by rw [e, e'])
          have := h y' (List.mem_cons_of_mem _ hy') f e
          refine (full_congr fun g => ?_).2 this
          have := fetchYear_others (N := N) (url := url) d hne g
          rw [hf] at this; exact this

/-- **C124 (when it succeeds).** Populating succeeds exactly if every asked year is complete or the server offers all of its
tables. -/
theorem C124_succeeds (d : RsDisk Txt B) (ys : List Nat) :
    (populate N url d ys).2 = .ok () ↔ ∀ y ∈ ys, YearFull d y ∨ ∃ e v t, Offers N url y e v t := by
  induction ys generalizing d with
  | nil => simp [populate_nil]
  | cons y ys ih =>
    rw [populate_cons]
    by_cases hy : yearThere d y = true
    · rw [if_pos hy, ih d]
      simp [(there_iff d y).1 hy]
    · rw [if_neg hy]
      have hy' : ¬ YearFull d y := fun h => hy ((there_iff d y).2 h)
      rcases fetchYear_cases (N := N) (url := url) d y with ⟨b, e, v, t, ho, -, -, hf⟩ | ⟨hno, d', hf, -⟩
      · rw [hf]
        show (populate N url _ ys).2 = _ ↔ _
        rw [ih]
        have oth : ∀ {y'}, y' ≠ y → (YearFull ((((d.put (dataName y .zip) b).put (dataName y .emissions) e).put
            (dataName y .vehicles) v).put (dataName y .tests) t) y' ↔ YearFull d y') := fun {y'} hne => full_congr fun f => by
          have := fetchYear_others (N := N) (url := url) d hne f
          rwa [hf] at this
        have me := (stored_full (d := d) (y := y) (b := b) (e := e) (v := v) (t := t) rfl).2.2.2
        simp only [List.mem_cons, forall_eq_or_imp]
        refine ⟨fun h => ⟨Or.inr ⟨e, v, t, ho⟩, fun y' hy' => ?_⟩, fun h y' hy' => ?_⟩
        · by_cases hne : y' = y
          · rw [hne]; exact Or.inr ⟨e, v, t, ho⟩
          · exact (h y' hy').imp (oth hne).1 id
        · by_cases hne : y' = y
          · rw [hne]; exact Or.inl me
          · exact (h.2 y' hy').imp (oth hne).2 id
      · rw [hf]
        simp only [andThen, List.mem_cons, forall_eq_or_imp]
        refine Iff.intro (fun h => by cases h) fun h => ?_
        rcases h.1 with h | h
        · exact absurd h hy'
        · exact absurd h hno

/-- **C124 (what success gives).** After success the tables of every asked year are there: the old ones if all three were, or
else the three of the archive, whatever was there before. -/
theorem C124_fills {d d' : RsDisk Txt B} {ys : List Nat} (h : populate N url d ys = (d', .ok ())) (y : Nat) (hy : y ∈ ys) :
    (YearFull d y ∧ ∀ f, d' (dataName y f) = d (dataName y f)) ∨
      (¬ YearFull d y ∧ ∃ e v t, Offers N url y e v t ∧ d' (dataName y .emissions) = some e ∧
        d' (dataName y .vehicles) = some v ∧ d' (dataName y .tests) = some t) := by
  have keep : ∀ {d : RsDisk Txt B} {ys : List Nat}, populate N url d ys = (d', .ok ()) → YearFull d y →
      ∀ f, d' (dataName y f) = d (dataName y f) := by
    intro d ys h hf f
    have := C124_keeps (N := N) (url := url) d ys (dataName y f) fun y' _ g e => (C124_names e).1 ▸ hf
    rw [h] at this; exact this
  by_cases hfull : YearFull d y
  · exact Or.inl ⟨hfull, keep h hfull⟩
  refine Or.inr ⟨hfull, ?_⟩
  induction ys generalizing d with
  | nil => simp at hy
  | cons z ys ih =>
    rw [populate_cons] at h
    by_cases hz : yearThere d z = true
    · rw [if_pos hz] at h
      have hne : y ≠ z := fun e => hfull (e ▸ (there_iff d z).1 hz)
      exact ih h ((List.mem_cons.1 hy).resolve_left hne) hfull
    · rw [if_neg hz] at h
      rcases fetchYear_cases (N := N) (url := url) d z with ⟨b, e, v, t, ho, -, -, hf⟩ | ⟨hno, d1, hf, -⟩
      · rw [hf] at h
        change populate N url _ ys = _ at h
        by_cases hne : y = z
        · subst hne
          obtain ⟨a1, a2, a3, a4⟩ := stored_full (d := d) (y := y) (b := b) (e := e) (v := v) (t := t) rfl
          refine ⟨e, v, t, ho, ?_, ?_, ?_⟩
          · rw [keep h a4, a1]
          · rw [keep h a4, a2]
          · rw [keep h a4, a3]
        · refine ih h ((List.mem_cons.1 hy).resolve_left hne) fun hc => hfull ((full_congr fun f => ?_).1 hc)
          have := fetchYear_others (N := N) (url := url) d hne f
          rw [hf] at this; exact this
      · rw [hf] at h
        simp [andThen] at h

/-- **C124 (offline).** If the tables of all asked years are there, nothing is downloaded: the result is the same whatever the
net answers, and no file changes. -/
theorem C124_offline (d : RsDisk Txt B) (ys : List Nat) (h : ∀ y ∈ ys, YearFull d y) : populate N url d ys = (d, .ok ()) := by
  induction ys with
  | nil => rfl
  | cons y ys ih =>
    rw [populate_cons, if_pos ((there_iff d y).2 (h y (by simp)))]
    exact ih fun y' hy' => h y' (List.mem_cons_of_mem _ hy')

/-- **C124 (once is enough).** After success, asking for some of these years again, with any net and any server, does nothing. -/
theorem C124_again {d d' : RsDisk Txt B} {ys ys' : List Nat} (h : populate N url d ys = (d', .ok ())) (hs : ∀ y ∈ ys', y ∈ ys)
    (N' : Net B) (url' : Txt) : populate N' url' d' ys' = (d', .ok ()) := by
  refine C124_offline d' ys' fun y hy => ?_
  rcases C124_fills h y (hs y hy) with ⟨hf, he⟩ | ⟨-, e, v, t, -, he, hv, ht⟩
  · exact (full_congr he).2 hf
  · intro f hf
    cases f
    · rw [he]; rfl
    · rw [hv]; rfl
    · rw [ht]; rfl
    · exact absurd rfl hf

/-- **C124 (a first download is all or nothing).** If the tests of cars of a year were missing, then after any call, successful
or not, they are still missing, or all three tables are those of one archive. -/
theorem C124_first (d : RsDisk Txt B) (ys : List Nat) (y : Nat) (h : d (dataName y .tests) = none) :
    (populate N url d ys).1 (dataName y .tests) = none ∨
      ∃ e v t, Offers N url y e v t ∧ (populate N url d ys).1 (dataName y .emissions) = some e ∧
        (populate N url d ys).1 (dataName y .vehicles) = some v ∧ (populate N url d ys).1 (dataName y .tests) = some t := by
  induction ys generalizing d with
  | nil => exact Or.inl h
  | cons z ys ih =>
    rw [populate_cons]
    by_cases hz : yearThere d z = true
    · rw [if_pos hz]; exact ih d h
    rw [if_neg hz]
    rcases fetchYear_cases (N := N) (url := url) d z with ⟨b, e, v, t, ho, -, -, hf⟩ | ⟨hno, d1, hf, h1⟩
    · rw [hf]
      simp only [andThen]
      by_cases hne : y = z
      · subst hne
        obtain ⟨a1, a2, a3, a4⟩ := stored_full (d := d) (y := y) (b := b) (e := e) (v := v) (t := t) rfl
        have keep := fun f =>
          C124_keeps (N := N) (url := url) _ ys (dataName y f) fun y' _ g e => by rw [← (C124_names e).1]; exact a4
        exact Or.inr ⟨e, v, t, ho, by rw [keep, a1], by rw [keep, a2], by rw [keep, a3]⟩
      · refine ih _ ?_
        have := fetchYear_others (N := N) (url := url) d hne .tests
        rw [hf] at this
        exact this.trans h
    · rw [hf]
      refine Or.inl ?_
      show d1 _ = none
      by_cases hne : y = z
      · rw [hne, h1, ← hne, h]
      · have := fetchYear_others (N := N) (url := url) d hne .tests
        rw [hf] at this
        exact this.trans h

/-- **C124 (order).** The years come in no particular order, and it does not matter: whatever the order, populating succeeds or
fails alike, and after success every table of the asked years is the same. -/
theorem C124_order {d : RsDisk Txt B} {ys ys' : List Nat} (hp : ∀ y, y ∈ ys ↔ y ∈ ys') :
    ((populate N url d ys).2 = .ok () ↔ (populate N url d ys').2 = .ok ()) ∧
      ((populate N url d ys).2 = .ok () → ∀ y f, f ≠ .zip →
        (populate N url d ys).1 (dataName y f) = (populate N url d ys').1 (dataName y f)) := by
  have iff : (populate N url d ys).2 = .ok () ↔ (populate N url d ys').2 = .ok () := by
    rw [C124_succeeds, C124_succeeds]; simp only [hp]
  refine ⟨iff, fun h y f hf => ?_⟩
  have ok : ∀ {zs : List Nat}, (populate N url d zs).2 = .ok () → populate N url d zs = ((populate N url d zs).1, .ok ()) :=
    fun {zs} h => by rw [← h]
  have h1 := ok h
  have h2 := ok (iff.1 h)
  by_cases hy : y ∈ ys
  · rcases C124_fills h1 y hy with ⟨hfull, he⟩ | ⟨hnot, e, v, t, ho, he, hv, ht⟩
    · rcases C124_fills h2 y ((hp y).1 hy) with ⟨-, he'⟩ | ⟨hnot, -⟩
      · rw [he, he']
      · exact absurd hfull hnot
    · rcases C124_fills h2 y ((hp y).1 hy) with ⟨hfull, -⟩ | ⟨-, e', v', t', ho', he', hv', ht'⟩
      · exact absurd hfull hnot
      · obtain ⟨b, -, hb, p1, p2, p3⟩ := ho.archive
        obtain ⟨b', -, hb', q1, q2, q3⟩ := ho'.archive
        rw [hb] at hb'; cases hb'
        cases f
        · rw [he, he', ← p1, q1]
        · rw [hv, hv', ← p2, q2]
        · rw [ht, ht', ← p3, q3]
        · exact absurd rfl hf
  · have k : ∀ zs, y ∉ zs → (populate N url d zs).1 (dataName y f) = d (dataName y f) := fun zs hz =>
      C124_keeps d zs _ fun y' hy' g e => absurd ((C124_names e).1 ▸ hy') hz
    rw [k ys hy, k ys' fun h => hy ((hp y).2 h)]

/-- **C124 (where things are).** The archive of a year is `<url>/<year>.zip`, with one slash however the URL ends; the files of
the year are named `<year>-emissions.csv`, `<year>-vehicles.csv` and `<year>-testcar.csv`, the archive `<year>.zip`. -/
theorem C124_url (u : Txt) (y : Nat) :
    (u.getLast? ≠ some '/' → yearUrl u y = u ++ ['/'] ++ (toString y).toList ++ ".zip".toList) ∧
    yearUrl (u ++ ['/']) y = u ++ ['/'] ++ (toString y).toList ++ ".zip".toList ∧
    dataName y .zip = (toString y).toList ++ ".zip".toList ∧
    dataName y .emissions = (toString y).toList ++ "-emissions.csv".toList ∧
    dataName y .vehicles = (toString y).toList ++ "-vehicles.csv".toList ∧
    dataName y .tests = (toString y).toList ++ "-testcar.csv".toList := by
  have e : dataName y .zip = (toString y).toList ++ ".zip".toList := rfl
  refine ⟨?_, ?_, e, rfl, rfl, rfl⟩
  · generalize ".zip".toList = z at e ⊢
    intro h
    have h2 : ¬ ['/'] <:+ u := by
      rintro ⟨w, rfl⟩
      exact h List.getLast?_concat
    rw [yearUrl, if_neg h2, e]
    exact (List.append_assoc _ _ _).symm
  · generalize ".zip".toList = z at e ⊢
    have h1 : ['/'] <:+ u ++ ['/'] := List.suffix_append _ _
    rw [yearUrl, if_pos h1, e, List.append_nil]
    exact (List.append_assoc _ _ _).symm

/-- **C124 (slash).** The address of the server can be given with or without a slash at its end. -/
theorem C124_slash (u : Txt) (y : Nat) (h : u.getLast? ≠ some '/') : yearUrl (u ++ ['/']) y = yearUrl u y := by
  have h1 : ['/'] <:+ u ++ ['/'] := List.suffix_append _ _
  have h2 : ¬ ['/'] <:+ u := by
    rintro ⟨v, rfl⟩
    simp at h
  simp [yearUrl, h1, h2]

end

/-! ### Concrete cases -/

/-- A net with the archives of 2020 (complete), 2021 (without tests of cars) and nothing else; a byte tells the year. -/
def someNet : Net Nat where
  body u := if u = yearUrl defaultUrl 2020 then some [2020] else if u = yearUrl defaultUrl 2021 then some [2021] else none
  unzip b n :=
    if b = [2020] ∧ (n = dataName 2020 .emissions ∨ n = dataName 2020 .vehicles ∨ n = dataName 2020 .tests) then some [1, 20]
    else if b = [2021] ∧ (n = dataName 2021 .emissions) then some [1, 21] else none
  creatable _ := true

/-- The server offers 2020, not 2021; a complete year is left as it is, an incomplete one is replaced. -/
theorem C124_demo : Offers someNet defaultUrl 2020 [1, 20] [1, 20] [1, 20] ∧
    (populate someNet defaultUrl (fun _ => none) [2020]).2 = .ok () ∧
    (populate someNet defaultUrl (fun _ => none) [2020, 2021]).2 = .error .err ∧
    (populate someNet defaultUrl (fun _ => none) [2020, 2021]).1 (dataName 2020 .tests) = some [1, 20] ∧
    (populate someNet defaultUrl (fun n => if n = dataName 2020 .tests then some [7] else none) [2020]).1
      (dataName 2020 .tests) = some [1, 20] ∧
    (populate someNet defaultUrl (fun _ => some [7]) [2020, 2021]).1 (dataName 2020 .tests) = some [7] :=
  ⟨⟨⟨[2020], by decide +kernel, by decide +kernel, by decide +kernel, by decide +kernel, by decide +kernel⟩,
    fun _ => rfl⟩, by decide +kernel, by decide +kernel, by decide +kernel, by decide +kernel, by decide +kernel⟩

/-- **Finding (C124).** A repair that fails can leave a year that counts as complete with tables of different origin: the
missing emission tests are stored before the archive turns out to lack the vehicles. The next call takes the year as it is. -/
theorem C124_mixed :
    let d : RsDisk Txt Nat := fun n => if n = dataName 2021 .vehicles ∨ n = dataName 2021 .tests then some [7] else none
    ¬ YearFull d 2021 ∧ (populate someNet defaultUrl d [2021]).2 = .error .err ∧
      YearFull (populate someNet defaultUrl d [2021]).1 2021 ∧
      (populate someNet defaultUrl d [2021]).1 (dataName 2021 .emissions) = some [1, 21] ∧
      (populate someNet defaultUrl d [2021]).1 (dataName 2021 .vehicles) = some [7] ∧
      (populate someNet defaultUrl (populate someNet defaultUrl d [2021]).1 [2021]).2 = .ok () := by
  refine ⟨fun h => absurd (h .emissions (by decide)) (by decide +kernel), by decide +kernel, fun f hf => ?_, by decide +kernel,
    by decide +kernel, by decide +kernel⟩
  cases f
  · decide +kernel
  · decide +kernel
  · decide +kernel
  · exact absurd rfl hf

end Fastsim.Props
