import Verif.Model.RsTable
import Verif.Props.CopyCycle
import Verif.Spec.Cycle
import Mathlib.Data.List.Chain
import Mathlib.Data.Rat.Defs
import Mathlib.Tactic.FieldSimp
import Mathlib.Tactic.NormNum

/-!
# C112: tables of the cycle of the Rust core
-/
set_option linter.unusedSectionVars false

namespace Fastsim.Spec
section
variable {K : Type*}

/-- The columns of a trace. -/
def columns (c : Cyc K) (name : Txt) : RsTable K :=
  ⟨c.map (·.t), c.map (·.v), c.map (·.g), c.map (·.r), name⟩

/-- A csv row with all four cells filled. -/
def fullRow (x : Sample K) : RsElem K := ⟨x.t, x.v, some x.g, some x.r⟩

/-- A table that is a trace: at least one sample, times strictly rising, every column with a value for each time. -/
def IsTrace [LinearOrder K] (t : RsTable K) (c : Cyc K) : Prop :=
  c ≠ [] ∧ Increasing c ∧ t = columns c t.name

end
end Fastsim.Spec

namespace Fastsim.Props
open Fastsim Fastsim.Spec

section
variable {K : Type*} [Zero K] [LinearOrder K]

theorem rsIsSorted_iff : ∀ l : List K, rsIsSorted l = true ↔ l.Pairwise (· < ·)
  | [] => by simp [rsIsSorted]
  | [a] => by simp [rsIsSorted]
  | a :: b :: l => by
    rw [rsIsSorted, Bool.and_eq_true, decide_eq_true_eq, rsIsSorted_iff (b :: l)]
    constructor
    · rintro ⟨h, hp⟩
      refine List.Pairwise.cons ?_ hp
      intro x hx
      rcases List.mem_cons.1 hx with rfl | hx
      · exact h
      · exact h.trans (List.rel_of_pairwise_cons hp hx)
    · intro h
      exact ⟨List.rel_of_pairwise_cons h List.mem_cons_self, h.of_cons⟩

/-- Four columns of one length are the columns of a trace. -/
theorem exists_columns : ∀ t m g r : List K, m.length = t.length → g.length = t.length → r.length = t.length →
    ∃ c : Cyc K, c.map (·.t) = t ∧ c.map (·.v) = m ∧ c.map (·.g) = g ∧ c.map (·.r) = r
  | [], m, g, r, hm, hg, hr => by
    refine ⟨[], rfl, ?_, ?_, ?_⟩
    · exact (List.length_eq_zero_iff.1 hm).symm
    · exact (List.length_eq_zero_iff.1 hg).symm
    · exact (List.length_eq_zero_iff.1 hr).symm
  | a :: t, m, g, r, hm, hg, hr => by
    match m, g, r with
    | v :: m, x :: g, y :: r =>
      obtain ⟨c, h1, h2, h3, h4⟩ := exists_columns t m g r (by simpa using hm) (by simpa using hg) (by simpa using hr)
      exact ⟨⟨a, v, x, y⟩ :: c, by simp [h1], by simp [h2], by simp [h3], by simp [h4]⟩
    | [], _, _ => simp at hm
    | _ :: _, [], _ => simp at hg
    | _ :: _, _ :: _, [] => simp at hr

/-- **C112 (checks).** A table passes the checks exactly if it is a trace: samples with strictly rising times, each with a
speed, a grade and a road type. Otherwise it is refused with an error. -/
theorem C112_checks (t : RsTable K) :
    (rsInitChecks t = .ok () ↔ ∃ c, IsTrace t c) ∧ (rsInitChecks t = .ok () ∨ rsInitChecks t = .error .err) := by
  constructor
  · unfold rsInitChecks IsTrace
    constructor
    · intro h
      split at h
      · cases h
      · rename_i h0
        split at h
        · cases h
        · rename_i hs
          split at h
          · cases h
          · rename_i hl
            simp only [Bool.not_eq_true, Bool.not_eq_false'] at hs hl
            simp only [rsEqualLength, List.all_cons, List.all_nil, Bool.and_true, Bool.and_eq_true,
              beq_iff_eq] at hl
            obtain ⟨c, h1, h2, h3, h4⟩ := exists_columns t.timeS t.mps t.grade t.roadType hl.1 hl.2.1 hl.2.2
            refine ⟨c, ?_, ?_, ?_⟩
            · rintro rfl
              exact h0 (by rw [← h1]; rfl)
            · have := (rsIsSorted_iff _).1 hs
              rw [← h1, List.pairwise_map] at this
              exact this
            · unfold columns
              rw [h1, h2, h3, h4]
    · rintro ⟨c, hc, hi, e⟩
      rw [e]
      have h1 : rsIsSorted (c.map (·.t)) = true := (rsIsSorted_iff _).2 (List.pairwise_map.2 hi)
      simp [columns, h1, rsEqualLength, hc]
  · unfold rsInitChecks
    split
    · exact Or.inr rfl
    · split
      · exact Or.inr rfl
      · split
        · exact Or.inr rfl
        · exact Or.inl rfl

theorem rsInitUnless_false {t u : RsTable K} :
    rsInitUnless false t = .ok u ↔ u = t ∧ ∃ c, IsTrace t c := by
  rw [← (C112_checks t).1]
  unfold rsInitUnless
  simp only [Bool.false_eq_true, if_false]
  cases h : rsInitChecks t with
  | error e => simp
  | ok w => cases w; simp [eq_comm]

theorem rsInitUnless_error {t : RsTable K} (h : ∀ c, ¬ IsTrace t c) : rsInitUnless false t = .error .err := by
  unfold rsInitUnless
  rcases (C112_checks t).2 with e | e
  · obtain ⟨c, hc⟩ := (C112_checks t).1.1 e
    exact absurd hc (h c)
  · rw [e]; rfl

theorem rsPush_fold : ∀ (rows : List (RsElem K)) (t : RsTable K), rows.foldl rsPush t =
    ⟨t.timeS ++ rows.map (·.timeS), t.mps ++ rows.map (·.mps), t.grade ++ rows.filterMap (·.grade),
      t.roadType ++ rows.filterMap (·.roadType), t.name⟩
  | [], t => by simp
  | e :: rows, t => by
    rw [List.foldl_cons, rsPush_fold rows]
    unfold rsPush
    cases hg : e.grade <;> cases hr : e.roadType <;> simp [hg, hr, List.filterMap_cons]

/-- **C112 (columns of a csv file).** Without the checks every csv file is read: times and speeds are those of the rows in
order; the grades are those of the rows *that have one*, without gaps, and so are the road types. -/
theorem C112_columns (rows : List (RsElem K)) (name : Txt) :
    rsFromCsv rows name true = .ok ⟨rows.map (·.timeS), rows.map (·.mps), rows.filterMap (·.grade),
      rows.filterMap (·.roadType), name⟩ := by
  simp [rsFromCsv, rsReadCsv, rsInitUnless, rsPush_fold]

theorem filterMap_full {A B : Type*} (f : A → Option B) : ∀ l : List A, (l.filterMap f).length = l.length →
    ∀ a ∈ l, (f a).isSome
  | [], _, a, ha => by simp at ha
  | x :: l, h, a, ha => by
    have hle := List.length_filterMap_le f l
    rcases hx : f x with _ | y
    · rw [List.filterMap_cons_none hx, List.length_cons] at h
      omega
    · rw [List.filterMap_cons_some hx, List.length_cons, List.length_cons] at h
      rcases List.mem_cons.1 ha with rfl | ha
      · simp [hx]
      · exact filterMap_full f l (by omega) a ha

theorem fullRows_columns (c : Cyc K) :
    (c.map fullRow).map (·.timeS) = c.map (·.t) ∧ (c.map fullRow).map (·.mps) = c.map (·.v) ∧
    (c.map fullRow).filterMap (·.grade) = c.map (·.g) ∧ (c.map fullRow).filterMap (·.roadType) = c.map (·.r) := by
  induction c with
  | nil => simp
  | cons x c ih =>
    obtain ⟨h1, h2, h3, h4⟩ := ih
    refine ⟨?_, ?_, ?_, ?_⟩
    · rw [List.map_cons, List.map_cons, h1, List.map_cons]; rfl
    · rw [List.map_cons, List.map_cons, h2, List.map_cons]; rfl
    · rw [List.map_cons, List.filterMap_cons_some (f := fun e : RsElem K => e.grade) (b := x.g) rfl, h3, List.map_cons]
    · rw [List.map_cons, List.filterMap_cons_some (f := fun e : RsElem K => e.roadType) (b := x.r) rfl, h4, List.map_cons]

/-- Rows whose columns are those of a trace are the full rows of the trace. -/
theorem rows_eq_full : ∀ (rows : List (RsElem K)) (c : Cyc K), (∀ e ∈ rows, e.grade.isSome ∧ e.roadType.isSome) →
    rows.map (·.timeS) = c.map (·.t) → rows.map (·.mps) = c.map (·.v) →
    rows.filterMap (·.grade) = c.map (·.g) → rows.filterMap (·.roadType) = c.map (·.r) → rows = c.map fullRow
  | [], c, _, h, _, _, _ => by
    have : c = [] := List.map_eq_nil_iff.1 h.symm
    rw [this]; rfl
  | e :: rows, [], _, h, _, _, _ => by simp at h
  | e :: rows, x :: c, ha, h1, h2, h3, h4 => by
    obtain ⟨hg, hr⟩ := ha e List.mem_cons_self
    obtain ⟨g, hg⟩ := Option.isSome_iff_exists.1 hg
    obtain ⟨r, hr⟩ := Option.isSome_iff_exists.1 hr
    have e3 : (e :: rows).filterMap (·.grade) = g :: rows.filterMap (·.grade) := List.filterMap_cons_some hg
    have e4 : (e :: rows).filterMap (·.roadType) = r :: rows.filterMap (·.roadType) := List.filterMap_cons_some hr
    rw [e3] at h3
    rw [e4] at h4
    simp only [List.map_cons, List.cons.injEq] at h1 h2 h3 h4
    rw [rows_eq_full rows c (fun a h => ha a (List.mem_cons_of_mem _ h)) h1.2 h2.2 h3.2 h4.2, List.map_cons]
    congr 1
    obtain ⟨a, b, y, z⟩ := e
    simp only at hg hr h1 h2
    simp [fullRow, hg, hr, h1.1, h2.1, h3.1, h4.1]

/-- **C112 (csv).** A csv file is accepted exactly if its rows are the full rows of a trace with rising times, and the cycle is
that trace with the given name; every other file gives an error. -/
theorem C112_csv (rows : List (RsElem K)) (name : Txt) :
    (∀ t, rsFromCsv rows name false = .ok t ↔
      ∃ c : Cyc K, c ≠ [] ∧ Increasing c ∧ rows = c.map fullRow ∧ t = columns c name) ∧
    ((¬ ∃ c : Cyc K, c ≠ [] ∧ Increasing c ∧ rows = c.map fullRow) → rsFromCsv rows name false = .error .err) := by
  have key : ∀ c : Cyc K, IsTrace (rows.foldl rsPush ⟨[], [], [], [], []⟩) c ↔
      c ≠ [] ∧ Increasing c ∧ rows = c.map fullRow := by
    intro c
    rw [rsPush_fold]
    simp only [IsTrace, List.nil_append, columns, RsTable.mk.injEq, and_true]
    refine and_congr Iff.rfl (and_congr Iff.rfl ⟨?_, ?_⟩)
    · rintro ⟨h1, h2, h3, h4⟩
      have hn : rows.length = c.length := by simpa using congrArg List.length h1
      have l3 := congrArg List.length h3
      have l4 := congrArg List.length h4
      rw [List.length_map] at l3 l4
      exact rows_eq_full rows c (fun e he => ⟨filterMap_full _ rows (by rw [l3, hn]) e he,
        filterMap_full _ rows (by rw [l4, hn]) e he⟩) h1 h2 h3 h4
    · rintro rfl
      exact fullRows_columns c
  have inj : ∀ c : Cyc K, rows = c.map fullRow →
      rows.foldl rsPush ⟨[], [], [], [], []⟩ = columns c [] := by
    rintro c rfl
    rw [rsPush_fold]
    obtain ⟨h1, h2, h3, h4⟩ := fullRows_columns c
    simp only [List.nil_append, h1, h2, h3, h4, columns]
  constructor
  · intro t
    unfold rsFromCsv rsReadCsv
    constructor
    · intro h
      split at h
      · cases h
      · rename_i u hu
        obtain ⟨rfl, c, hc⟩ := rsInitUnless_false.1 hu
        obtain ⟨h0, hi, hr⟩ := (key c).1 hc
        refine ⟨c, h0, hi, hr, ?_⟩
        rw [inj c hr] at h
        cases h
        rfl
    · rintro ⟨c, h0, hi, hr, rfl⟩
      have := rsInitUnless_false.2 ⟨rfl, c, (key c).2 ⟨h0, hi, hr⟩⟩
      rw [this, inj c hr]
      rfl
  · intro h
    unfold rsFromCsv rsReadCsv
    rw [rsInitUnless_error]
    intro c hc
    exact h ⟨c, (key c).1 hc⟩

/-- **C112 (missing cells).** A csv file in which any row lacks its grade or its road type is refused: there is no default. -/
theorem C112_missing_cell (rows : List (RsElem K)) (name : Txt)
    (h : ∃ e ∈ rows, e.grade = none ∨ e.roadType = none) : rsFromCsv rows name false = .error .err := by
  refine (C112_csv rows name).2 ?_
  rintro ⟨c, _, _, rfl⟩
  obtain ⟨e, he, hn⟩ := h
  obtain ⟨x, _, rfl⟩ := List.mem_map.1 he
  simp [fullRow] at hn

theorem rsMapM_ok_iff {A B : Type*} (f : A → Except RsErr B) : ∀ (l : List A) (r : List B),
    rsMapM f l = .ok r ↔ List.Forall₂ (fun a b => f a = .ok b) l r
  | [], r => by
    cases r <;> simp [rsMapM]
  | a :: l, r => by
    unfold rsMapM
    cases ha : f a with
    | error e =>
      simp only [reduceCtorEq, false_iff]
      intro h
      cases h with
      | cons h _ => rw [ha] at h; cases h
    | ok b =>
      cases hl : rsMapM f l with
      | error e =>
        simp only [reduceCtorEq, false_iff]
        intro h
        cases h with
        | cons _ h => rw [← rsMapM_ok_iff f l] at h; rw [hl] at h; cases h
      | ok bs =>
        have := rsMapM_ok_iff f l
        constructor
        · intro h
          cases h
          exact List.Forall₂.cons ha ((this bs).1 hl)
        · intro h
          cases h with
          | cons h1 h2 =>
            rw [ha] at h1
            rw [← this, hl] at h2
            cases h1; cases h2; rfl

theorem rsMapM_error_of {A B : Type*} (f : A → Except RsErr B) (hf : ∀ a e, f a = .error e → e = .panic) :
    ∀ l : List A, (∃ a ∈ l, ∀ b, f a ≠ .ok b) → rsMapM f l = .error .panic
  | [], h => by simp at h
  | a :: l, h => by
    unfold rsMapM
    cases ha : f a with
    | error e => rw [hf a e ha]
    | ok b =>
      obtain ⟨x, hx, hb⟩ := h
      have : rsMapM f l = .error .panic := by
        refine rsMapM_error_of f hf l ?_
        rcases List.mem_cons.1 hx with rfl | hx
        · exact absurd ha (hb b)
        · exact ⟨x, hx, hb⟩
      rw [this]

/-- **C112 (writing).** Writing a table as csv gives one full row for each time, built from the values at its position, if no
column is shorter than that of the times (values beyond are dropped); otherwise it panics. -/
theorem C112_write (t : RsTable K) :
    (∀ rows, rsToCsv t = .ok rows ↔ ∃ c : Cyc K, rows = c.map fullRow ∧ c.map (·.t) = t.timeS ∧
      c.map (·.v) <+: t.mps ∧ c.map (·.g) <+: t.grade ∧ c.map (·.r) <+: t.roadType) ∧
    (t.mps.length < t.timeS.length ∨ t.grade.length < t.timeS.length ∨ t.roadType.length < t.timeS.length →
      rsToCsv t = .error .panic) := by
  have cell : ∀ (i : ℕ) (a : RsElem K), (match t.timeS[i]?, t.mps[i]?, t.grade[i]?, t.roadType[i]? with
      | some a, some v, some g, some r => (.ok ⟨a, v, some g, some r⟩ : Except RsErr (RsElem K))
      | _, _, _, _ => .error .panic) = .ok a ↔ ∃ x : Sample K, a = fullRow x ∧ t.timeS[i]? = some x.t ∧
        t.mps[i]? = some x.v ∧ t.grade[i]? = some x.g ∧ t.roadType[i]? = some x.r := by
    intro i a
    constructor
    · intro h
      split at h
      · rename_i a v g r h1 h2 h3 h4
        cases h
        exact ⟨⟨a, v, g, r⟩, rfl, h1, h2, h3, h4⟩
      · cases h
    · rintro ⟨x, rfl, h1, h2, h3, h4⟩
      rw [h1, h2, h3, h4]
      rfl
  have full : ∀ (l m : List K) (n : ℕ), l.length = n → (∀ i, i < n → m[i]? = l[i]?) → l <+: m := by
    intro l m n hn h
    rw [List.prefix_iff_getElem?]
    intro i hi
    rw [h i (hn ▸ hi), List.getElem?_eq_getElem hi]
  constructor
  · intro rows
    unfold rsToCsv
    rw [rsMapM_ok_iff]
    constructor
    · intro h
      have hl := h.length_eq
      rw [List.length_range] at hl
      rw [List.forall₂_iff_get] at h
      obtain ⟨_, h⟩ := h
      have hx : ∀ i (hi : i < rows.length), ∃ x : Sample K, rows[i] = fullRow x ∧ t.timeS[i]? = some x.t ∧
          t.mps[i]? = some x.v ∧ t.grade[i]? = some x.g ∧ t.roadType[i]? = some x.r := by
        intro i hi
        have := h i (by simpa [hl] using hi) hi
        rw [List.get_eq_getElem, List.getElem_range] at this
        exact (cell i _).1 this
      choose f hf using hx
      refine ⟨List.ofFn fun i : Fin rows.length => f i i.2, ?_, ?_, ?_, ?_, ?_⟩
      · refine List.ext_getElem (by simp) fun i h1 h2 => ?_
        rw [(hf i h1).1]
        simp
      · refine List.ext_getElem (by simp [hl]) fun i h1 h2 => ?_
        have := (hf i (by simpa using h1)).2.1
        rw [List.getElem?_eq_getElem h2] at this
        simpa [eq_comm] using this
      · refine full _ _ rows.length (by simp) fun i hi => ?_
        rw [(hf i hi).2.2.1]
        simp [hi]
      · refine full _ _ rows.length (by simp) fun i hi => ?_
        rw [(hf i hi).2.2.2.1]
        simp [hi]
      · refine full _ _ rows.length (by simp) fun i hi => ?_
        rw [(hf i hi).2.2.2.2]
        simp [hi]
    · rintro ⟨c, rfl, h1, h2, h3, h4⟩
      have hn : c.length = t.timeS.length := by rw [← h1, List.length_map]
      rw [List.forall₂_iff_get]
      refine ⟨by simp [hn], fun i hi hj => ?_⟩
      rw [List.get_eq_getElem, List.getElem_range]
      refine (cell i _).2 ?_
      have hi' : i < c.length := by simpa using hj
      have pre : ∀ {l m : List K}, l <+: m → ∀ (h : i < l.length), m[i]? = some l[i] := by
        intro l m h hi
        exact (List.prefix_iff_getElem?.1 h) i hi
      refine ⟨c[i], by simp, ?_, ?_, ?_, ?_⟩
      · rw [← h1]; simp [hi']
      · rw [pre h2 (by simpa using hi')]; simp
      · rw [pre h3 (by simpa using hi')]; simp
      · rw [pre h4 (by simpa using hi')]; simp
  · intro h
    unfold rsToCsv
    refine rsMapM_error_of _ ?_ _ ?_
    · intro i e he
      split at he
      · cases he
      · cases he; rfl
    · have : ∃ i, i < t.timeS.length ∧ (t.mps[i]? = none ∨ t.grade[i]? = none ∨ t.roadType[i]? = none) := by
        rcases h with h | h | h
        · exact ⟨_, h, Or.inl (by simp)⟩
        · exact ⟨_, h, Or.inr (Or.inl (by simp))⟩
        · exact ⟨_, h, Or.inr (Or.inr (by simp))⟩
      obtain ⟨i, hi, hn⟩ := this
      refine ⟨i, List.mem_range.2 hi, fun b hb => ?_⟩
      obtain ⟨x, _, _, h2, h3, h4⟩ := (cell i b).1 hb
      rcases hn with hn | hn | hn
      · rw [h2] at hn; cases hn
      · rw [h3] at hn; cases hn
      · rw [h4] at hn; cases hn

/-- **C112 (round trip).** A trace written as csv and read again is the same trace, under whatever name is given. -/
theorem C112_round_trip (c : Cyc K) (hc : c ≠ []) (hi : Increasing c) (name name' : Txt) :
    ∃ rows, rsToCsv (columns c name) = .ok rows ∧ rsFromCsv rows name' false = .ok (columns c name') ∧
      rsReadCsv rows false = .ok (columns c []) := by
  refine ⟨c.map fullRow, ((C112_write _).1 _).2 ⟨c, rfl, rfl, List.prefix_rfl, List.prefix_rfl, List.prefix_rfl⟩,
    ((C112_csv _ _).1 _).2 ⟨c, hc, hi, rfl, rfl⟩, ?_⟩
  have h := ((C112_csv (c.map fullRow) []).1 (columns c [])).2 ⟨c, hc, hi, rfl, rfl⟩
  unfold rsFromCsv at h
  split at h
  · cases h
  · rename_i u hu
    have hn : u.name = [] := by
      unfold rsReadCsv at hu
      obtain ⟨rfl, _⟩ := rsInitUnless_false.1 hu
      rw [rsPush_fold]
    rw [hu]
    obtain ⟨a, b, d, e, n⟩ := u
    simp only at hn
    subst hn
    exact h

/-- **C112 (dictionary).** A dictionary is accepted exactly if it has times and speeds which, with zeros for a missing grade or
road type, form a trace; the name is that of the dictionary, or empty. Read back, the dictionary of a trace gives the trace. -/
theorem C112_dict (time mps grade road : Option (List K)) (name : Option Txt) :
    (∀ t, rsReadDict time mps grade road name false = .ok t ↔
      ∃ c : Cyc K, c ≠ [] ∧ Increasing c ∧ t = columns c (name.getD []) ∧ time = some (c.map (·.t)) ∧
        mps = some (c.map (·.v)) ∧
        (grade = some (c.map (·.g)) ∨ grade = none ∧ ∀ x ∈ c, x.g = 0) ∧
        (road = some (c.map (·.r)) ∨ road = none ∧ ∀ x ∈ c, x.r = 0)) ∧
    ((∃ t, rsReadDict time mps grade road name false = .ok t) ∨
      rsReadDict time mps grade road name false = .error .err) := by
  have zeros : ∀ (f : Sample K → K) (o : Option (List K)) (c : Cyc K),
      c.map f = o.getD (List.replicate c.length 0) ↔ (o = some (c.map f) ∨ o = none ∧ ∀ x ∈ c, f x = 0) := by
    intro f o c
    cases o with
    | some l => simp [eq_comm]
    | none =>
      simp only [Option.getD_none, reduceCtorEq, true_and, false_or]
      rw [List.eq_replicate_iff]
      simp
  constructor
  · intro t
    unfold rsReadDict
    cases time with
    | none => simp
    | some ts =>
      cases mps with
      | none => simp
      | some ms =>
        simp only [rsInitUnless_false]
        constructor
        · rintro ⟨rfl, c, h0, hi, e⟩
          simp only [columns, RsTable.mk.injEq, and_true] at e
          obtain ⟨rfl, rfl, e3, e4⟩ := e
          simp only [List.length_map] at e3 e4
          refine ⟨c, h0, hi, ?_, rfl, rfl, (zeros _ _ _).1 e3.symm, (zeros _ _ _).1 e4.symm⟩
          simp only [columns, List.length_map, e3, e4]
        · rintro ⟨c, h0, hi, rfl, e1, e2, e3, e4⟩
          simp only [Option.some.injEq] at e1 e2
          subst e1 e2
          have e3 := (zeros _ _ _).2 e3
          have e4 := (zeros _ _ _).2 e4
          refine ⟨?_, c, h0, hi, ?_⟩
          · simp only [columns, List.length_map, e3, e4]
          · simp only [columns, List.length_map, e3, e4]
  · unfold rsReadDict
    cases time with
    | none => exact Or.inr rfl
    | some ts =>
      cases mps with
      | none => exact Or.inr rfl
      | some ms =>
        simp only [rsInitUnless, Bool.false_eq_true, if_false]
        rcases (C112_checks (⟨ts, ms, grade.getD (List.replicate ts.length 0),
          road.getD (List.replicate ts.length 0), name.getD []⟩ : RsTable K)).2 with e | e
        · rw [e]; exact Or.inl ⟨_, rfl⟩
        · rw [e]; exact Or.inr rfl

/-- **C112 (dictionary round trip).** -/
theorem C112_dict_round_trip (c : Cyc K) (hc : c ≠ []) (hi : Increasing c) (name : Txt) :
    (match rsWriteDict (columns c name) with
      | (t, m, g, r, n) => rsReadDict t m g r n false) = .ok (columns c name) :=
  ((C112_dict _ _ _ _ _).1 _).2 ⟨c, hc, hi, rfl, rfl, rfl, Or.inl rfl, Or.inl rfl⟩

/-- **C112 (map).** The map of the columns of a trace gives the trace back without its name, for every name; a map is read as
the dictionary without a name would be. -/
theorem C112_map (h : String → Option (List K)) (c : Cyc K) (hc : c ≠ []) (hi : Increasing c) (name : Txt) :
    rsTryFromMap (rsIntoMap (columns c name)) = .ok (columns c []) ∧
    rsTryFromMap h = rsReadDict (h "time_s") (h "mps") (h "grade") (h "road_type") none false := by
  have key : ∀ h : String → Option (List K), rsTryFromMap h =
      rsReadDict (h "time_s") (h "mps") (h "grade") (h "road_type") none false := fun h => rfl
  refine ⟨?_, key h⟩
  rw [key]
  exact ((C112_dict _ _ _ _ _).1 _).2 ⟨c, hc, hi, rfl, rfl, rfl, Or.inl rfl, Or.inl rfl⟩

/-- **C112 (json and yaml).** A json or yaml document is accepted only if it has times, speeds, a name *and* grades and road
types for every time: the default for a missing array is the empty one, which the checks refuse. -/
theorem C112_serde (time mps grade road : Option (List K)) (name : Option Txt) :
    (∀ t, rsFromSerde time mps grade road name false = .ok t ↔
      ∃ (c : Cyc K) (n : Txt), c ≠ [] ∧ Increasing c ∧ t = columns c n ∧ time = some (c.map (·.t)) ∧
        mps = some (c.map (·.v)) ∧ grade = some (c.map (·.g)) ∧ road = some (c.map (·.r)) ∧ name = some n) ∧
    (grade = none ∨ road = none → rsFromSerde time mps grade road name false = .error .err) := by
  have getD : ∀ (f : Sample K → K) (o : Option (List K)) (c : Cyc K), c ≠ [] →
      (o.getD [] = c.map f ↔ o = some (c.map f)) := by
    intro f o c hc
    cases o with
    | some l => simp
    | none => simpa [eq_comm] using hc
  have main : ∀ t, rsFromSerde time mps grade road name false = .ok t ↔
      ∃ (c : Cyc K) (n : Txt), c ≠ [] ∧ Increasing c ∧ t = columns c n ∧ time = some (c.map (·.t)) ∧
        mps = some (c.map (·.v)) ∧ grade = some (c.map (·.g)) ∧ road = some (c.map (·.r)) ∧ name = some n := by
    intro t
    unfold rsFromSerde
    cases time with
    | none => simp
    | some ts =>
      cases mps with
      | none => simp
      | some ms =>
        cases name with
        | none => simp
        | some n =>
          simp only [rsInitUnless_false]
          constructor
          · rintro ⟨rfl, c, h0, hi, e⟩
            simp only [columns, RsTable.mk.injEq, and_true] at e
            obtain ⟨rfl, rfl, e3, e4⟩ := e
            exact ⟨c, n, h0, hi, by simp only [columns, e3, e4], rfl, rfl, (getD _ _ _ h0).1 e3,
              (getD _ _ _ h0).1 e4, rfl⟩
          · rintro ⟨c, n', h0, hi, rfl, e1, e2, rfl, rfl, e5⟩
            cases e1; cases e2; cases e5
            exact ⟨rfl, c, h0, hi, rfl⟩
  refine ⟨main, fun h => ?_⟩
  cases hr : rsFromSerde time mps grade road name false with
  | ok t =>
    obtain ⟨c, n, _, _, _, _, _, e1, e2, _⟩ := (main t).1 hr
    rcases h with h | h
    · rw [h] at e1; cases e1
    · rw [h] at e2; cases e2
  | error e =>
    unfold rsFromSerde at hr
    split at hr
    · rename_i t m n
      unfold rsInitUnless at hr
      rcases (C112_checks (⟨t, m, grade.getD [], road.getD [], n⟩ : RsTable K)).2 with e' | e'
      · simp [e'] at hr
      · simp only [Bool.false_eq_true, if_false, e'] at hr
        exact hr.symm ▸ rfl
    · exact hr.symm ▸ rfl

/-- **C112 (against python).** Times and speeds alone are a cycle with a flat road in python and for the dictionary reader of
the Rust core; the same table as a csv file or as json is refused by the Rust core. -/
theorem C112_defaults (c : Cyc K) (hc : c ≠ []) (hi : Increasing c) (hg : ∀ x ∈ c, x.g = 0) (hr : ∀ x ∈ c, x.r = 0)
    (name : Txt) :
    cycFromDict [("mps", .arr (c.map (·.v))), ("time_s", .arr (c.map (·.t)))] =
      .ok ⟨.arr (columns c []).timeS, .arr (columns c []).mps, .arr (columns c []).grade, .arr (columns c []).roadType,
        .str ""⟩ ∧
    rsReadDict (some (c.map (·.t))) (some (c.map (·.v))) none none none false = .ok (columns c []) ∧
    rsFromCsv (c.map fun x => ⟨x.t, x.v, none, none⟩) name false = .error .err ∧
    rsFromSerde (some (c.map (·.t))) (some (c.map (·.v))) none none (some name) false = .error .err := by
  refine ⟨?_, ((C112_dict _ _ _ _ _).1 _).2 ⟨c, hc, hi, rfl, rfl, rfl, Or.inr ⟨rfl, hg⟩, Or.inr ⟨rfl, hr⟩⟩, ?_,
    (C112_serde _ _ _ _ _).2 (Or.inl rfl)⟩
  · rw [C39_defaults]
    have h1 : List.replicate c.length (0 : K) = c.map (·.g) := by
      rw [eq_comm, List.eq_replicate_iff]; simpa using hg
    have h2 : List.replicate c.length (0 : K) = c.map (·.r) := by
      rw [eq_comm, List.eq_replicate_iff]; simpa using hr
    simp only [CVal.len, List.length_map, columns]
    rw [← h1, ← h2]
  · refine C112_missing_cell _ _ ?_
    cases c with
    | nil => exact absurd rfl hc
    | cons x c => exact ⟨_, List.mem_cons_self, Or.inl rfl⟩

end

section
variable {K : Type*} [Field K] [LinearOrder K] [IsStrictOrderedRing K]

/-- **C112 (miles per hour).** Speeds set in miles per hour are read back as set, and setting what was read changes nothing;
only the speeds change. -/
theorem C112_mph (t : RsTable K) (l : List K) :
    rsGetMph (rsSetMph t l) = l ∧ rsSetMph t (rsGetMph t) = t ∧
    (rsSetMph t l).timeS = t.timeS ∧ (rsSetMph t l).grade = t.grade ∧ (rsSetMph t l).roadType = t.roadType ∧
    (rsSetMph t l).name = t.name ∧ (rsSetMph t l).mps.length = l.length := by
  have h0 : (mphPerMps : K) ≠ 0 := by unfold mphPerMps; positivity
  refine ⟨?_, ?_, rfl, rfl, rfl, rfl, by simp [rsSetMph]⟩
  · simp only [rsGetMph, rsSetMph, List.map_map]
    refine List.map_id'' (fun x => ?_) l
    simp only [Function.comp]
    field_simp
  · obtain ⟨a, m, g, r, n⟩ := t
    simp only [rsGetMph, rsSetMph, List.map_map, RsTable.mk.injEq, true_and, and_true]
    refine List.map_id'' (fun x => ?_) m
    simp only [Function.comp]
    field_simp

end

/-- A trace of three samples with uneven steps, on a slope and a charging road. -/
theorem C112_setting :
    let c : Cyc ℚ := [⟨0, 0, 0, 0⟩, ⟨1, 3, 1/50, 5⟩, ⟨5/2, 7, -1/50, 0⟩]
    c ≠ [] ∧ Increasing c ∧
    rsToCsv (columns c ['a']) = .ok [⟨0, 0, some 0, some 0⟩, ⟨1, 3, some (1/50), some 5⟩, ⟨5/2, 7, some (-1/50), some 0⟩] ∧
    rsFromCsv [⟨0, 0, some 0, some 0⟩, ⟨1, 3, some (1/50), some 5⟩, ⟨5/2, 7, some (-1/50), some 0⟩] ['b'] false =
      .ok (columns c ['b']) ∧
    rsFromCsv (K := ℚ) [⟨0, 0, some 0, some 0⟩, ⟨0, 3, some 0, some 0⟩] [] false = .error .err ∧
    rsFromCsv (K := ℚ) [] [] false = .error .err ∧
    rsToCsv (K := ℚ) ⟨[0, 1], [0, 3], [0], [0, 0], []⟩ = .error .panic := by
  refine ⟨by simp, ?_, ?_, ?_, ?_, ?_, ?_⟩
  · unfold Increasing
    decide +kernel
  all_goals decide +kernel

/-- **C112 (defect).** Read without the checks, a file whose first row has no grade puts the grade of the second row (5 %) at the
first time, and the second time has none; written again the table panics. -/
theorem C112_shifted_grade :
    rsFromCsv (K := ℚ) [⟨0, 0, none, some 0⟩, ⟨1, 3, some (1/20), some 0⟩] [] true =
      .ok ⟨[0, 1], [0, 3], [1/20], [0, 0], []⟩ ∧
    rsToCsv (K := ℚ) ⟨[0, 1], [0, 3], [1/20], [0, 0], []⟩ = .error .panic := by
  constructor <;> decide +kernel

end Fastsim.Props
