import Verif.Model.Preproc
import Verif.Lemmas.Dict
import Mathlib.Tactic.IntervalCases
import Mathlib.Data.List.Basic
import Mathlib.Data.List.Induction

/-! # C82: every vehicle record lands in the archive of its own model year -/

set_option linter.unusedSectionVars false

namespace Fastsim.Spec

/-- The cell of a row under a heading: where a heading is repeated, the last of them
that the row reaches. -/
def cellUnder (header row : List String) (key : String) : Option String :=
  (((header.zip row).filter fun p => p.1 = key).getLast?).map Prod.snd

/-- The whole number in a row under a heading, if there is one. -/
def numberUnder (int : String → Option Int) (header : List String) (key : String)
    (row : List String) : Option Int :=
  (cellUnder header row key).bind int

/-- The rows of a table that belong to a model year. -/
def rowsOfYear (int : String → Option Int) (header : List String) (rows : List (List String))
    (y : Int) : List (List String) :=
  rows.filter fun r => numberUnder int header "year" r = some y

/-- The emission rows of a model year: those whose vehicle identifier is carried by
some vehicle of the year. -/
def emissionsOfYear (int : String → Option Int) (vh : List String) (vrows : List (List String))
    (eh : List String) (erows : List (List String)) (y : Int) : List (List String) :=
  erows.filter fun e => (rowsOfYear int vh vrows y).any fun v =>
    (numberUnder int eh "id" e).isSome && numberUnder int vh "id" v == numberUnder int eh "id" e

/-- The year a pair of digits stands for among the test files. -/
def testYear (y2 : Nat) : Int := if y2 ≤ 70 then 2000 + y2 else 1900 + y2

/-- A name that begins with the two digits of a number and no third digit. -/
def TestStem (stem : String) (y2 : Nat) : Prop :=
  y2 < 100 ∧ ∃ c rest, stem.toList =
    Nat.digitChar (y2 / 10) :: Nat.digitChar (y2 % 10) :: c :: rest ∧ c.isDigit = false

/-- An input file is a test file of a year. -/
def TestFileOf (f : Preproc.InFile) (y : Int) : Prop :=
  f.isFile = true ∧ (f.suffix = ".csv" ∨ f.suffix = ".xlsx") ∧
    ∃ y2, TestStem f.stem y2 ∧ testYear y2 = y

/-- A name that begins with the year and a dash and goes on to `.csv`. -/
def FileOfYear (name : String) (y : Nat) : Prop :=
  ∃ p q : String, name = (y : Int).repr ++ "-" ++ p ++ ".csv" ++ q

end Fastsim.Spec

namespace Fastsim.Props
open Fastsim.Preproc Fastsim.Spec

/-! ## Lemmas -/

section grouping
variable {α : Type}

/-- A dictionary of lists is the grouping of `f`-images: the key `y` is present exactly
if `f y` is not empty, and then holds it. -/
def IsGroup (d : ByYear α) (f : Int → List α) : Prop :=
  (d.map Prod.fst).Nodup ∧ ∀ y, d.lookup y = if f y = [] then none else some (f y)

theorem lookup_addTo (d : ByYear α) (y y' : Int) (x : α) :
    (addTo d y' x).lookup y =
      if y = y' then some ((d.lookup y).getD [] ++ [x]) else d.lookup y := by
  induction d with
  | nil =>
    simp only [addTo, List.lookup_cons, List.lookup_nil]
    by_cases h : y = y'
    · simp [h]
    · have : (y == y') = false := by simpa using h
      simp [h, this]
  | cons p d ih =>
    obtain ⟨a, xs⟩ := p
    simp only [addTo]
    by_cases h : a = y'
    · subst h
      simp only [if_true, List.lookup_cons]
      by_cases h' : y = a
      · simp [h']
      · have : (y == a) = false := by simpa using h'
        simp [h', this]
    · rw [if_neg h, List.lookup_cons, List.lookup_cons, ih]
      by_cases h' : y = a
      · subst h'; simp [h]
      · have : (y == a) = false := by simpa using h'
        simp [this]

theorem mem_keys_addTo (d : ByYear α) (y y' : Int) (x : α) :
    y ∈ (addTo d y' x).map Prod.fst ↔ y = y' ∨ y ∈ d.map Prod.fst := by
  induction d with
  | nil => simp [addTo]
  | cons p d ih =>
    obtain ⟨a, xs⟩ := p
    simp only [addTo]
    by_cases h : a = y'
    · subst h; simp
    · rw [if_neg h]
      simp only [List.map_cons, List.mem_cons, ih]
      tauto

theorem nodup_addTo (d : ByYear α) (y' : Int) (x : α) (h : (d.map Prod.fst).Nodup) :
    ((addTo d y' x).map Prod.fst).Nodup := by
  induction d with
  | nil => simp [addTo]
  | cons p d ih =>
    obtain ⟨a, xs⟩ := p
    simp only [List.map_cons, List.nodup_cons] at h
    simp only [addTo]
    by_cases h' : a = y'
    · rw [if_pos h']; simpa using h
    · rw [if_neg h', List.map_cons, List.nodup_cons]
      refine ⟨?_, ih h.2⟩
      rw [mem_keys_addTo]
      rintro (e | e)
      · exact h' e
      · exact h.1 e

theorem isGroup_nil : IsGroup ([] : ByYear α) (fun _ => []) := by
  refine ⟨by simp, fun y => by simp⟩

theorem isGroup_addTo {d : ByYear α} {f : Int → List α} (h : IsGroup d f) (y' : Int) (x : α) :
    IsGroup (addTo d y' x) (fun y => if y = y' then f y ++ [x] else f y) := by
  refine ⟨nodup_addTo d y' x h.1, fun y => ?_⟩
  rw [lookup_addTo, h.2]
  by_cases e : y = y'
  · subst e
    by_cases hf : f y = [] <;> simp [hf]
  · simp [e]

theorem IsGroup.congr {d : ByYear α} {f g : Int → List α} (h : IsGroup d f)
    (e : ∀ y, f y = g y) : IsGroup d g := by
  have : f = g := funext e
  rwa [← this]

end grouping

theorem lookup_of_mem_nodup {α : Type} {d : List (Int × α)} (h : (d.map Prod.fst).Nodup)
    {y : Int} {v : α} (hm : (y, v) ∈ d) : d.lookup y = some v := by
  induction d with
  | nil => simp at hm
  | cons p d ih =>
    obtain ⟨a, b⟩ := p
    simp only [List.map_cons, List.nodup_cons] at h
    rw [List.lookup_cons]
    rcases List.mem_cons.mp hm with e | e
    · cases e; simp
    · have hne : (y == a) = false := by
        have : y ≠ a := by
          rintro rfl
          exact h.1 (List.mem_map.mpr ⟨(y, v), e, rfl⟩)
        simpa using this
      simp [hne, ih h.2 e]

/-- Looking a heading up in the dictionary of a row. -/
theorem get?_rowData (header row : List String) (key : String) :
    (rowData header row).get? key = cellUnder header row key := by
  have aux : ∀ (l : List (String × String)) (d : PyDict String),
      (l.foldl (fun d p => d.set p.1 p.2) d).get? key =
        match (l.filter fun p => p.1 = key).getLast? with
        | none => d.get? key
        | some p => some p.2 := by
    intro l
    induction l using List.reverseRecOn with
    | nil => intro d; rfl
    | append_singleton l a ih =>
      intro d
      rw [List.foldl_append, List.foldl_cons, List.foldl_nil, PyDict.get?_set, List.filter_append]
      by_cases h : a.1 = key
      · simp [h]
      · have h' : ¬ key = a.1 := fun e => h e.symm
        rw [if_neg h', ih]
        simp [h]
  have := aux (header.zip row) []
  unfold rowData cellUnder
  rw [this]
  cases ((header.zip row).filter fun p => p.1 = key).getLast? <;> simp [PyDict.get?_nil]

theorem intCell_ok (int : String → Option Int) (header row : List String) (key : String) (n : Int) :
    intCell int (rowData header row) key = .ok n ↔ numberUnder int header key row = some n := by
  unfold intCell numberUnder
  rw [get?_rowData]
  cases cellUnder header row key with
  | none => simp
  | some c => cases h : int c <;> simp [h]

theorem intCell_error (int : String → Option Int) (header row : List String) (key : String) :
    (∃ e, intCell int (rowData header row) key = .error e) ↔
      numberUnder int header key row = none := by
  unfold intCell numberUnder
  rw [get?_rowData]
  cases cellUnder header row key with
  | none => simp
  | some c => cases h : int c <;> simp [h]

/-- What the pass over the vehicle table leaves behind. -/
theorem vehicles_fold (int : String → Option Int) (header : List String) (rows : List (List String)) :
    (∀ r ∈ rows, (numberUnder int header "year" r).isSome ∧ (numberUnder int header "id" r).isSome) →
    ∃ s, rows.foldlM (fun s row => processVehicles int s (rowData header row) row) ([], [])
        = .ok s ∧
      IsGroup s.1 (rowsOfYear int header rows) ∧
      IsGroup s.2 (fun y => (rowsOfYear int header rows y).filterMap
        (numberUnder int header "id")) := by
  induction rows using List.reverseRecOn with
  | nil => intro _; exact ⟨_, rfl, isGroup_nil, isGroup_nil⟩
  | append_singleton rows r ih =>
    intro h
    obtain ⟨s, hs, h1, h2⟩ := ih fun r' hr' => h r' (List.mem_append_left _ hr')
    obtain ⟨hy, hid⟩ := h r (by simp)
    obtain ⟨y, hy⟩ := Option.isSome_iff_exists.mp hy
    obtain ⟨i, hid⟩ := Option.isSome_iff_exists.mp hid
    refine ⟨(addTo s.1 y r, addTo s.2 y i), ?_, ?_, ?_⟩
    · rw [List.foldlM_append, hs]
      show processVehicles int s (rowData header r) r >>= pure = _
      unfold processVehicles
      rw [(intCell_ok int header r "year" y).mpr hy, (intCell_ok int header r "id" i).mpr hid]
      rfl
    · refine (isGroup_addTo h1 y r).congr fun y' => ?_
      unfold rowsOfYear
      rw [List.filter_append]
      by_cases e : y' = y
      · subst e; simp [hy]
      · have : ¬ y = y' := fun e' => e e'.symm
        simp [hy, e, this]
    · refine (isGroup_addTo h2 y i).congr fun y' => ?_
      unfold rowsOfYear
      rw [List.filter_append]
      by_cases e : y' = y
      · subst e; simp [hy, hid]
      · have : ¬ y = y' := fun e' => e e'.symm
        simp [hy, e, this]

/-- The pass over the vehicle table fails at any row without both numbers. -/
theorem vehicles_fold_error (int : String → Option Int) (header : List String)
    (rows : List (List String)) (s : ByYear (List String) × ByYear Int) (s')
    (h : rows.foldlM (fun s row => processVehicles int s (rowData header row) row) s = .ok s') :
    ∀ r ∈ rows, (numberUnder int header "year" r).isSome ∧ (numberUnder int header "id" r).isSome := by
  induction rows generalizing s with
  | nil => simp
  | cons r rows ih =>
    rw [List.foldlM_cons] at h
    unfold processVehicles at h
    cases hy : intCell int (rowData header r) "year" with
    | error e => rw [hy] at h; cases h
    | ok y =>
      cases hi : intCell int (rowData header r) "id" with
      | error e => rw [hy, hi] at h; cases h
      | ok i =>
        rw [hy, hi] at h
        intro r' hr'
        rcases List.mem_cons.mp hr' with e | e
        · subst e
          rw [(intCell_ok ..).mp hy, (intCell_ok ..).mp hi]; simp
        · exact ih _ h r' e

/-- One emission row is added to each year that knows its identifier. -/
theorem emission_row (ids : ByYear Int) (hids : (ids.map Prod.fst).Nodup) (id : Int)
    (row : List String) (s : ByYear (List String)) (f : Int → List (List String))
    (h : IsGroup s f) :
    IsGroup (ids.foldl (fun s p => if id ∈ p.2 then addTo s p.1 row else s) s)
      (fun y => if id ∈ (ids.lookup y).getD [] then f y ++ [row] else f y) := by
  induction ids generalizing s f with
  | nil => exact h.congr fun y => by simp
  | cons p ids ih =>
    obtain ⟨a, l⟩ := p
    simp only [List.map_cons, List.nodup_cons] at hids
    have hnone : ids.lookup a = none := by
      rw [List.lookup_eq_none_iff]
      intro q hq
      have : a ≠ q.1 := by
        rintro rfl; exact hids.1 (List.mem_map.mpr ⟨q, hq, rfl⟩)
      simpa using this
    rw [List.foldl_cons]
    by_cases hm : id ∈ l
    · rw [if_pos hm]
      refine (ih hids.2 _ _ (isGroup_addTo h a row)).congr fun y => ?_
      rw [List.lookup_cons]
      by_cases e : y = a
      · subst e; simp [hnone, hm]
      · have : (y == a) = false := by simpa using e
        simp [this, e]
    · rw [if_neg hm]
      refine (ih hids.2 _ _ h).congr fun y => ?_
      rw [List.lookup_cons]
      by_cases e : y = a
      · subst e; simp [hnone, hm]
      · have : (y == a) = false := by simpa using e
        simp [this]

theorem emissions_fold (int : String → Option Int) (header : List String) (ids : ByYear Int)
    (hids : (ids.map Prod.fst).Nodup) (rows : List (List String)) :
    (∀ r ∈ rows, (numberUnder int header "id" r).isSome) →
    ∃ s, rows.foldlM (fun s row => processEmissions int ids s (rowData header row) row) []
        = .ok s ∧
      IsGroup s (fun y => rows.filter fun r =>
        ((ids.lookup y).getD []).any fun i => numberUnder int header "id" r == some i) := by
  induction rows using List.reverseRecOn with
  | nil => intro _; exact ⟨_, rfl, isGroup_nil⟩
  | append_singleton rows r ih =>
    intro h
    obtain ⟨s, hs, h1⟩ := ih fun r' hr' => h r' (List.mem_append_left _ hr')
    obtain ⟨i, hid⟩ := Option.isSome_iff_exists.mp (h r (by simp))
    refine ⟨_, ?_, (emission_row ids hids i r s _ h1).congr fun y => ?_⟩
    · rw [List.foldlM_append, hs]
      show processEmissions int ids s (rowData header r) r >>= pure = _
      unfold processEmissions
      rw [(intCell_ok int header r "id" i).mpr hid]
      rfl
    · rw [List.filter_append]
      by_cases e : i ∈ (ids.lookup y).getD []
      · have : (((ids.lookup y).getD []).any fun j => numberUnder int header "id" r == some j)
            = true := by
          rw [List.any_eq_true]; exact ⟨i, e, by simp [hid]⟩
        simp [e, this]
      · have : (((ids.lookup y).getD []).any fun j => numberUnder int header "id" r == some j)
            = false := by
          rw [List.any_eq_false]
          intro j hj
          rw [hid]
          simp only [beq_iff_eq, Option.some.injEq]
          rintro rfl; exact e hj
        simp [e, this]

theorem emissions_fold_error (int : String → Option Int) (header : List String) (ids : ByYear Int)
    (rows : List (List String)) (s : ByYear (List String)) (s')
    (h : rows.foldlM (fun s row => processEmissions int ids s (rowData header row) row) s = .ok s') :
    ∀ r ∈ rows, (numberUnder int header "id" r).isSome := by
  induction rows generalizing s with
  | nil => simp
  | cons r rows ih =>
    rw [List.foldlM_cons] at h
    unfold processEmissions at h
    cases hi : intCell int (rowData header r) "id" with
    | error e => rw [hi] at h; cases h
    | ok i =>
      rw [hi] at h
      intro r' hr'
      rcases List.mem_cons.mp hr' with e | e
      · subst e
        rw [(intCell_ok ..).mp hi]; simp
      · exact ih _ h r' e

/-! ### Names -/

theorem nat_repr_inj {m n : Nat} (h : m.repr = n.repr) : m = n := by
  have := congrArg String.toList h
  rw [Nat.toList_repr, Nat.toList_repr] at this
  rw [← Nat.ofDigitChars_ten_toDigits (n := m), this, Nat.ofDigitChars_ten_toDigits]

theorem int_repr_inj {a b : Int} (h : a.repr = b.repr) : a = b := by
  have noDash : ∀ n m : Nat, n.repr ≠ "-" ++ m.repr := by
    intro n m e
    have := congrArg String.toList e
    rw [Nat.toList_repr, String.toList_append] at this
    have hd : '-' ∈ Nat.toDigits 10 n := by rw [this]; simp
    have := Nat.isDigit_of_mem_toDigits (by omega) (by omega) hd
    simp [Char.isDigit] at this
  rw [Int.repr_eq_if, Int.repr_eq_if] at h
  by_cases ha : 0 ≤ a <;> by_cases hb : 0 ≤ b
  · rw [if_pos ha, if_pos hb] at h
    have := nat_repr_inj h; omega
  · rw [if_pos ha, if_neg hb] at h; exact absurd h (noDash _ _)
  · rw [if_neg ha, if_pos hb] at h; exact absurd h.symm (noDash _ _)
  · rw [if_neg ha, if_neg hb] at h
    have := nat_repr_inj ((String.append_right_inj _).mp h); omega

theorem yearName_eq (y : Int) (b : String) : yearName y b = y.repr ++ ("-" ++ b) := by
  unfold yearName; rw [String.append_assoc]

theorem yearName_inj {y y' : Int} {b : String} (h : yearName y b = yearName y' b) : y = y' := by
  unfold yearName at h
  exact int_repr_inj ((String.append_left_inj _).mp ((String.append_left_inj _).mp h))

/-- What writing the files of a grouping does to a directory. -/
theorem writeCsvs_get? (b : String) (header : List String) (rows : ByYear (List String))
    (f : Int → List (List String)) (h : IsGroup rows f) (dir : PyDict Table) :
    (∀ y, (writeCsvs dir b rows header).get? (yearName y b) =
      if f y = [] then dir.get? (yearName y b) else some (header :: f y)) ∧
    ∀ name, (∀ y, name ≠ yearName y b) →
      (writeCsvs dir b rows header).get? name = dir.get? name := by
  have aux : ∀ (rows : ByYear (List String)), (rows.map Prod.fst).Nodup → ∀ (dir : PyDict Table),
      (∀ y, (writeCsvs dir b rows header).get? (yearName y b) =
        match rows.lookup y with
        | none => dir.get? (yearName y b)
        | some l => some (header :: l)) ∧
      ∀ name, (∀ y, name ≠ yearName y b) →
        (writeCsvs dir b rows header).get? name = dir.get? name := by
    intro rows
    induction rows with
    | nil => intro _ dir; exact ⟨fun _ => rfl, fun _ _ => rfl⟩
    | cons p rows ih =>
      intro hn dir
      obtain ⟨a, l⟩ := p
      simp only [List.map_cons, List.nodup_cons] at hn
      obtain ⟨i1, i2⟩ := ih hn.2 (dir.set (yearName a b) (header :: l))
      have e : writeCsvs dir b ((a, l) :: rows) header
          = writeCsvs (dir.set (yearName a b) (header :: l)) b rows header := rfl
      rw [e]
      refine ⟨fun y => ?_, fun name hname => ?_⟩
      · rw [i1, List.lookup_cons, PyDict.get?_set]
        by_cases hy : y = a
        · subst hy
          have hnone : rows.lookup y = none := by
            rw [List.lookup_eq_none_iff]
            intro q hq
            have : y ≠ q.1 := by
              rintro rfl; exact hn.1 (List.mem_map.mpr ⟨q, hq, rfl⟩)
            simpa using this
          simp [hnone]
        · have h1 : (y == a) = false := by simpa using hy
          have h2 : ¬ yearName y b = yearName a b := fun e => hy (yearName_inj e)
          simp only [h1, if_neg h2]
      · rw [i2 name hname, PyDict.get?_set, if_neg (hname a)]
  obtain ⟨h1, h2⟩ := aux rows h.1 dir
  refine ⟨fun y => ?_, h2⟩
  rw [h1, h.2]
  by_cases e : f y = [] <;> simp [e]

/-! ## The tables of fueleconomy.gov -/

/-- **C82.**  The tables are split without loss: if the vehicle and emission tables are
read, the file of a year holds the heading and, in their order, exactly the rows of
that year; an emission row goes to the years of the vehicles with its identifier.
Every other file of the directory stays as it was. -/
theorem C82_split (strip : String → String) (int : String → Option Int)
    (vh eh : List String) (vrows erows : Table) (out out' : PyDict Table)
    (h : sortByYear strip int (vh :: vrows) (eh :: erows) out = .ok out') :
    (∀ y : Int, out'.get? (y.repr ++ "-vehicles.csv") =
      if rowsOfYear int (vh.map strip) vrows y = [] then out.get? (y.repr ++ "-vehicles.csv")
      else some (vh.map strip :: rowsOfYear int (vh.map strip) vrows y)) ∧
    (∀ y : Int, out'.get? (y.repr ++ "-emissions.csv") =
      if emissionsOfYear int (vh.map strip) vrows (eh.map strip) erows y = [] then
        out.get? (y.repr ++ "-emissions.csv")
      else some (eh.map strip ::
        emissionsOfYear int (vh.map strip) vrows (eh.map strip) erows y)) ∧
    ∀ name, (∀ y : Int, name ≠ y.repr ++ "-vehicles.csv" ∧ name ≠ y.repr ++ "-emissions.csv") →
      out'.get? name = out.get? name := by
  have nv : ∀ y : Int, y.repr ++ "-vehicles.csv" = yearName y "vehicles.csv" := by
    intro y; rw [yearName_eq]; rfl
  have ne : ∀ y : Int, y.repr ++ "-emissions.csv" = yearName y "emissions.csv" := by
    intro y; rw [yearName_eq]; rfl
  simp only [nv, ne]
  unfold sortByYear processCsv at h
  simp only [] at h
  cases hv : vrows.foldlM (fun s row => processVehicles int s (rowData (vh.map strip) row) row)
      ([], []) with
  | error e => rw [hv] at h; cases h
  | ok s =>
    obtain ⟨s', hs', g1, g2⟩ := vehicles_fold int (vh.map strip) vrows
      (vehicles_fold_error int _ _ _ _ hv)
    rw [hv] at hs'; cases hs'
    rw [hv] at h
    cases he : erows.foldlM (fun t row =>
        processEmissions int s.2 t (rowData (eh.map strip) row) row) [] with
    | error e =>
      replace h : (Except.map (fun s => (some (eh.map strip), s)) (erows.foldlM (fun t row =>
        processEmissions int s.2 t (rowData (eh.map strip) row) row) []) >>= _) = _ := h
      rw [he] at h; cases h
    | ok t =>
      obtain ⟨t', ht', g3⟩ := emissions_fold int (eh.map strip) s.2 g2.1 erows
        (emissions_fold_error int _ _ _ _ _ he)
      rw [he] at ht'; cases ht'
      replace h : (Except.map (fun s => (some (eh.map strip), s)) (erows.foldlM (fun t row =>
        processEmissions int s.2 t (rowData (eh.map strip) row) row) []) >>= fun r =>
          pure (writeCsvs (writeCsvs out "vehicles.csv" s.1 (vh.map strip)) "emissions.csv"
            r.2 (r.1.getD []))) = .ok out' := h
      rw [he] at h
      replace h : writeCsvs (writeCsvs out "vehicles.csv" s.1 (vh.map strip)) "emissions.csv"
            t (eh.map strip) = out' := by
        exact Except.ok.inj h
      have g4 : IsGroup t (emissionsOfYear int (vh.map strip) vrows (eh.map strip) erows) := by
        refine g3.congr fun y => ?_
        unfold emissionsOfYear
        apply List.filter_congr
        intro e hem
        have hsome := emissions_fold_error int _ _ _ _ _ he e hem
        obtain ⟨i, hi⟩ := Option.isSome_iff_exists.mp hsome
        rw [Bool.eq_iff_iff, List.any_eq_true, List.any_eq_true, g2.2]
        have hget : ∀ l : List Int, (if l = [] then none else some l).getD [] = l := by
          intro l; by_cases hl : l = [] <;> simp [hl]
        rw [hget]
        simp only [hi, List.mem_filterMap, Option.isSome_some, Bool.true_and, beq_iff_eq,
          Option.some.injEq]
        constructor
        · rintro ⟨j, ⟨v, hv1, hv2⟩, rfl⟩
          exact ⟨v, hv1, hv2⟩
        · rintro ⟨v, hv1, hv2⟩
          exact ⟨i, ⟨v, hv1, hv2⟩, rfl⟩
      obtain ⟨w1, w2⟩ := writeCsvs_get? "vehicles.csv" (vh.map strip) s.1 _ g1 out
      obtain ⟨w3, w4⟩ := writeCsvs_get? "emissions.csv" (eh.map strip) t _ g4
        (writeCsvs out "vehicles.csv" s.1 (vh.map strip))
      rw [h] at w3 w4
      have hne : ∀ y y' : Int, yearName y "emissions.csv" ≠ yearName y' "vehicles.csv" := by
        intro y y' e
        have e' := congrArg String.toList e
        unfold yearName at e'
        simp only [String.toList_append] at e'
        have := congrArg (fun l => (l.drop (l.length - 8))) e'
        have d1 : ∀ (p q : List Char), 8 ≤ q.length →
            (p ++ q).drop ((p ++ q).length - 8) = q.drop (q.length - 8) := by
          intro p q hq
          rw [List.length_append, List.drop_append]
          have : p.drop (p.length + q.length - 8) = [] := by
            apply List.drop_eq_nil_of_le; omega
          rw [this, List.nil_append]
          congr 1; omega
        rw [d1 _ _ (by decide), d1 _ _ (by decide)] at this
        revert this; decide
      refine ⟨fun y => ?_, fun y => ?_, fun name hname => ?_⟩
      · rw [w4 _ fun y' e => hne y' y e.symm, w1]
      · rw [w3, w2 _ fun y' => hne y y']
      · rw [w4 _ fun y => (hname y).2, w2 _ fun y => (hname y).1]

/-- **C82.**  The split succeeds exactly if every vehicle row has a whole number for
its year and one for its identifier, and every emission row one for its identifier. -/
theorem C82_readable (strip : String → String) (int : String → Option Int)
    (vh eh : List String) (vrows erows : Table) (out : PyDict Table) :
    (∃ out', sortByYear strip int (vh :: vrows) (eh :: erows) out = .ok out') ↔
      (∀ r ∈ vrows, (numberUnder int (vh.map strip) "year" r).isSome ∧
        (numberUnder int (vh.map strip) "id" r).isSome) ∧
      ∀ r ∈ erows, (numberUnder int (eh.map strip) "id" r).isSome := by
  constructor
  · rintro ⟨out', h⟩
    unfold sortByYear processCsv at h
    simp only [] at h
    cases hv : vrows.foldlM (fun s row =>
        processVehicles int s (rowData (vh.map strip) row) row) ([], []) with
    | error e => rw [hv] at h; cases h
    | ok s =>
      rw [hv] at h
      cases he : erows.foldlM (fun t row =>
          processEmissions int s.2 t (rowData (eh.map strip) row) row) [] with
      | error e =>
        replace h : (Except.map (fun s => (some (eh.map strip), s)) (erows.foldlM (fun t row =>
          processEmissions int s.2 t (rowData (eh.map strip) row) row) []) >>= _) = _ := h
        rw [he] at h; cases h
      | ok t =>
        exact ⟨vehicles_fold_error int _ _ _ _ hv, emissions_fold_error int _ _ _ _ _ he⟩
  · rintro ⟨h1, h2⟩
    obtain ⟨s, hs, g1, g2⟩ := vehicles_fold int (vh.map strip) vrows h1
    obtain ⟨t, ht, g3⟩ := emissions_fold int (eh.map strip) s.2 g2.1 erows h2
    refine ⟨writeCsvs (writeCsvs out "vehicles.csv" s.1 (vh.map strip)) "emissions.csv"
            t (eh.map strip), ?_⟩
    unfold sortByYear processCsv
    simp only []
    rw [hs]
    show (Except.map (fun s => (some (eh.map strip), s)) (erows.foldlM (fun t row =>
        processEmissions int s.2 t (rowData (eh.map strip) row) row) []) >>= fun r =>
          pure (writeCsvs (writeCsvs out "vehicles.csv" s.1 (vh.map strip)) "emissions.csv"
            r.2 (r.1.getD []))) = _
    rw [ht]
    rfl

/-- **C82.**  In a fresh directory each vehicle row is in the file of one year only,
the year it carries. -/
theorem C82_partition (strip : String → String) (int : String → Option Int)
    (vh eh : List String) (vrows erows : Table) (out' : PyDict Table)
    (h : sortByYear strip int (vh :: vrows) (eh :: erows) [] = .ok out')
    (r : List String) (hr : r ∈ vrows) :
    ∃! y : Int, ∃ rows, out'.get? (y.repr ++ "-vehicles.csv") = some (vh.map strip :: rows) ∧
      r ∈ rows := by
  obtain ⟨h1, -, -⟩ := C82_split strip int vh eh vrows erows [] out' h
  obtain ⟨hr1, -⟩ := ((C82_readable strip int vh eh vrows erows []).mp ⟨_, h⟩).1 r hr
  obtain ⟨y, hy⟩ := Option.isSome_iff_exists.mp hr1
  have hm : r ∈ rowsOfYear int (vh.map strip) vrows y := by
    unfold rowsOfYear; rw [List.mem_filter]; exact ⟨hr, by simp [hy]⟩
  refine ⟨y, ⟨_, ?_, hm⟩, ?_⟩
  · rw [h1, if_neg (List.ne_nil_of_mem hm)]
  · rintro y' ⟨rows, hg, hrr⟩
    rw [h1] at hg
    by_cases e : rowsOfYear int (vh.map strip) vrows y' = []
    · rw [if_pos e, PyDict.get?_nil] at hg; cases hg
    · rw [if_neg e] at hg
      cases hg
      unfold rowsOfYear at hrr
      rw [List.mem_filter, hy] at hrr
      have := hrr.2
      simp at this
      exact this.symm

/-! ## The EPA test files -/

theorem digit_of_isDigit {c : Char} (h : c.isDigit = true) :
    c = Nat.digitChar (c.toNat - '0'.toNat) ∧ c.toNat - '0'.toNat < 10 := by
  have h1 : 48 ≤ c.toNat ∧ c.toNat ≤ 57 := by
    simp only [Char.isDigit, Bool.and_eq_true, decide_eq_true_eq] at h
    exact ⟨h.1, h.2⟩
  have z : '0'.toNat = 48 := rfl
  have e : c = Char.ofNat c.toNat := (Char.ofNat_toNat c).symm
  refine ⟨?_, by omega⟩
  rw [z]
  obtain ⟨h1, h2⟩ := h1
  generalize c.toNat = n at *
  interval_cases n <;> (rw [e]; rfl)

theorem digitChar_toNat {n : Nat} (h : n < 10) :
    (Nat.digitChar n).isDigit = true ∧ (Nat.digitChar n).toNat - '0'.toNat = n := by
  interval_cases n <;> exact ⟨rfl, rfl⟩

theorem epaYear2_iff (stem : String) (y2 : Nat) :
    epaYear2 stem = some y2 ↔ TestStem stem y2 := by
  unfold epaYear2 TestStem
  constructor
  · intro h
    split at h
    · rename_i a b c rest hl
      split at h
      · rename_i hd
        simp only [Bool.and_eq_true, Bool.not_eq_true'] at hd
        obtain ⟨⟨ha, hb⟩, hc⟩ := hd
        cases h
        obtain ⟨ha1, ha2⟩ := digit_of_isDigit ha
        obtain ⟨hb1, hb2⟩ := digit_of_isDigit hb
        refine ⟨by omega, c, rest, ?_, hc⟩
        have e1 : ((a.toNat - '0'.toNat) * 10 + (b.toNat - '0'.toNat)) / 10
            = a.toNat - '0'.toNat := by omega
        have e2 : ((a.toNat - '0'.toNat) * 10 + (b.toNat - '0'.toNat)) % 10
            = b.toNat - '0'.toNat := by omega
        rw [e1, e2, ← ha1, ← hb1, hl]
      · cases h
    · cases h
  · rintro ⟨hlt, c, rest, hl, hc⟩
    rw [hl]
    obtain ⟨a1, a2⟩ := digitChar_toNat (n := y2 / 10) (by omega)
    obtain ⟨b1, b2⟩ := digitChar_toNat (n := y2 % 10) (by omega)
    simp only [a1, b1, hc, a2, b2]
    simp only [Bool.and_true, Bool.not_false, if_true, Option.some.injEq]
    omega

/-- **C82.**  The two digits of a test file stand for a year from 1971 to 2070. -/
theorem C82_century (stem : String) (y2 : Nat) (h : TestStem stem y2) :
    1971 ≤ testYear y2 ∧ testYear y2 ≤ 2070 ∧ testYear y2 % 100 = y2 := by
  have hlt := h.1
  unfold testYear
  by_cases h70 : y2 ≤ 70
  · rw [if_pos h70]; omega
  · rw [if_neg h70]; omega

theorem century_eq (y2 : Nat) : century y2 = testYear y2 := by
  unfold century testYear
  by_cases h70 : y2 > 70
  · rw [if_pos h70, if_neg (by omega)]; omega
  · rw [if_neg h70, if_pos (by omega)]; omega

open Classical in
/-- **C82.**  The test file of a year is a copy of the last input file found for it: a
file whose name begins with the two digits of the year and no third digit, and that is
a csv file or a spreadsheet.  Where the inputs hold several for one year, the others are
lost.  Every other file of the directory stays as it was. -/
theorem C82_tests (inputs : List InFile) (out : PyDict Table) :
    (∀ y : Int, (processEpa inputs out).get? (y.repr ++ "-testcar.csv") =
      match (inputs.filter fun f => TestFileOf f y).getLast? with
      | none => out.get? (y.repr ++ "-testcar.csv")
      | some f => some f.table) ∧
    ∀ name, (∀ y : Int, name ≠ y.repr ++ "-testcar.csv") →
      (processEpa inputs out).get? name = out.get? name := by
  have nt : ∀ y : Int, y.repr ++ "-testcar.csv" = yearName y "testcar.csv" := by
    intro y; rw [yearName_eq]; rfl
  simp only [nt]
  induction inputs using List.reverseRecOn with
  | nil => exact ⟨fun _ => rfl, fun _ _ => rfl⟩
  | append_singleton inputs f ih =>
    have e : processEpa (inputs ++ [f]) out = epaStep (processEpa inputs out) f := by
      unfold processEpa; rw [List.foldl_append]; rfl
    rw [e]
    have hstep : ∀ d : PyDict Table,
        (∃ y, TestFileOf f y ∧ epaStep d f = d.set (yearName y "testcar.csv") f.table ∧
          ∀ y', TestFileOf f y' → y' = y) ∨
        (∀ y, ¬ TestFileOf f y) ∧ epaStep d f = d := by
      intro d
      unfold epaStep
      by_cases h1 : f.isFile = true
      · rw [if_pos h1]
        cases h2 : epaYear2 f.stem with
        | none =>
          right
          refine ⟨?_, rfl⟩
          rintro y ⟨-, -, y2, hs, -⟩
          rw [← epaYear2_iff, h2] at hs; cases hs
        | some y2 =>
          by_cases h3 : f.suffix = ".csv" ∨ f.suffix = ".xlsx"
          · left
            refine ⟨testYear y2, ⟨h1, h3, y2, (epaYear2_iff _ _).mp h2, rfl⟩, ?_, ?_⟩
            · simp only [if_pos h3, century_eq]
            · rintro y' ⟨-, -, y3, hs, rfl⟩
              rw [← epaYear2_iff, h2] at hs; cases hs; rfl
          · right
            refine ⟨?_, by simp only [if_neg h3]⟩
            rintro y ⟨-, hsuf, -⟩
            exact h3 hsuf
      · right
        refine ⟨?_, by rw [if_neg h1]⟩
        rintro y ⟨h, -⟩
        exact h1 h
    rcases hstep (processEpa inputs out) with ⟨y, hy, hset, huniq⟩ | ⟨hno, hsame⟩
    · rw [hset]
      refine ⟨fun y' => ?_, fun name hname => ?_⟩
      · rw [PyDict.get?_set, List.filter_append]
        by_cases ey : y' = y
        · subst ey; simp [hy]
        · have h1 : ¬ yearName y' "testcar.csv" = yearName y "testcar.csv" :=
            fun e => ey (yearName_inj e)
          have h2 : ¬ TestFileOf f y' := fun h => ey (huniq y' h)
          rw [if_neg h1, ih.1]
          simp [h2]
      · rw [PyDict.get?_set, if_neg (hname y), ih.2 name hname]
    · rw [hsame]
      refine ⟨fun y' => ?_, ih.2⟩
      rw [ih.1, List.filter_append]
      simp [hno y']

/-! ## The archives -/

theorem hasCsv_iff (l : List Char) :
    hasCsv l = true ↔ ∃ p q, l = p ++ ['.', 'c', 's', 'v'] ++ q := by
  induction l with
  | nil =>
    constructor
    · intro h; cases h
    · rintro ⟨p, q, h⟩
      have := congrArg List.length h
      simp at this
  | cons c cs ih =>
    unfold hasCsv
    rw [Bool.or_eq_true, ih, List.isPrefixOf_iff_prefix]
    constructor
    · rintro (⟨q, hq⟩ | ⟨p, q, h⟩)
      · exact ⟨[], q, by rw [← hq]; rfl⟩
      · exact ⟨c :: p, q, by rw [h]; rfl⟩
    · rintro ⟨p, q, h⟩
      cases p with
      | nil => left; exact ⟨q, h.symm⟩
      | cons c' p =>
        right
        simp only [List.cons_append, List.cons.injEq] at h
        exact ⟨p, q, by rw [h.2]⟩

theorem toDigits_four {n : Nat} (h1 : 1000 ≤ n) (h2 : n ≤ 9999) :
    Nat.toDigits 10 n = [Nat.digitChar (n / 1000), Nat.digitChar (n / 100 % 10),
      Nat.digitChar (n / 10 % 10), Nat.digitChar (n % 10)] := by
  rw [Nat.toDigits_of_base_le (by omega) (by omega),
    Nat.toDigits_of_base_le (by omega) (by omega),
    Nat.toDigits_of_base_le (by omega) (by omega),
    Nat.toDigits_of_lt_base (by omega)]
  have e1 : n / 10 / 10 / 10 = n / 1000 := by omega
  have e2 : n / 10 / 10 % 10 = n / 100 % 10 := by omega
  rw [e1, e2]; rfl

theorem csvYear_iff (name : String) (n : Nat) (h1 : 1000 ≤ n) (h2 : n ≤ 9999) :
    csvYear name = some n ↔ FileOfYear name n := by
  have hrep : ((n : Int).repr).toList = Nat.toDigits 10 n := by
    rw [Int.repr_eq_if, if_pos (by omega), Int.toNat_natCast, Nat.toList_repr]
  have key : FileOfYear name n ↔ ∃ rest, name.toList = Nat.digitChar (n / 1000) ::
      Nat.digitChar (n / 100 % 10) :: Nat.digitChar (n / 10 % 10) :: Nat.digitChar (n % 10) ::
      '-' :: rest ∧ hasCsv rest = true := by
    unfold FileOfYear
    constructor
    · rintro ⟨p, q, h⟩
      refine ⟨p.toList ++ ['.', 'c', 's', 'v'] ++ q.toList, ?_, (hasCsv_iff _).mpr ⟨_, _, rfl⟩⟩
      rw [h]
      simp only [String.toList_append, hrep, toDigits_four h1 h2]
      rfl
    · rintro ⟨rest, h, hr⟩
      obtain ⟨p, q, hr⟩ := (hasCsv_iff _).mp hr
      refine ⟨String.ofList p, String.ofList q, ?_⟩
      apply String.toList_inj.mp
      rw [h, hr]
      simp only [String.toList_append, hrep, toDigits_four h1 h2, String.toList_ofList]
      rfl
  rw [key]
  unfold csvYear
  constructor
  · intro h
    split at h
    · rename_i a b c d rest hl
      split at h
      · rename_i hd
        simp only [Bool.and_eq_true] at hd
        obtain ⟨⟨⟨⟨ha, hb⟩, hc⟩, hd⟩, hr⟩ := hd
        obtain ⟨ha1, ha2⟩ := digit_of_isDigit ha
        obtain ⟨hb1, hb2⟩ := digit_of_isDigit hb
        obtain ⟨hc1, hc2⟩ := digit_of_isDigit hc
        obtain ⟨hd1, hd2⟩ := digit_of_isDigit hd
        rw [Option.some.injEq] at h
        refine ⟨rest, ?_, hr⟩
        have e1 : n / 1000 = a.toNat - '0'.toNat := by omega
        have e2 : n / 100 % 10 = b.toNat - '0'.toNat := by omega
        have e3 : n / 10 % 10 = c.toNat - '0'.toNat := by omega
        have e4 : n % 10 = d.toNat - '0'.toNat := by omega
        rw [e1, e2, e3, e4, ← ha1, ← hb1, ← hc1, ← hd1, hl]
      · cases h
    · cases h
  · rintro ⟨rest, hl, hr⟩
    rw [hl]
    obtain ⟨a1, a2⟩ := digitChar_toNat (n := n / 1000) (by omega)
    obtain ⟨b1, b2⟩ := digitChar_toNat (n := n / 100 % 10) (by omega)
    obtain ⟨c1, c2⟩ := digitChar_toNat (n := n / 10 % 10) (by omega)
    obtain ⟨d1, d2⟩ := digitChar_toNat (n := n % 10) (by omega)
    simp only [a1, b1, c1, d1, a2, b2, c2, d2, hr]
    simp only [Bool.and_true, if_true, Option.some.injEq]
    omega

theorem filesByYear_group (files : PyDict Table) :
    IsGroup (filesByYear files) (fun y => files.filter fun f =>
      (csvYear f.1).any fun n => (n : Int) == y) := by
  unfold filesByYear
  induction files using List.reverseRecOn with
  | nil => exact isGroup_nil
  | append_singleton files f ih =>
    rw [List.foldl_append, List.foldl_cons, List.foldl_nil]
    cases h : csvYear f.1 with
    | none =>
      refine ih.congr fun y => ?_
      rw [List.filter_append]; simp [h]
    | some n =>
      refine (isGroup_addTo ih (n : Int) f).congr fun y => ?_
      rw [List.filter_append]
      by_cases e : y = (n : Int)
      · subst e; simp [h]
      · have : ¬ (n : Int) = y := fun e' => e e'.symm
        simp [h, e, this]

open Classical in
/-- **C82.**  The archive of a four-digit year holds exactly the files of the directory
whose names begin with the year and a dash and go on to `.csv`; archives of years without
files are left alone. -/
theorem C82_archive (files : PyDict Table) (zips : PyDict (List (String × Table))) (y : Nat)
    (h1 : 1000 ≤ y) (h2 : y ≤ 9999) :
    (zipByYear files zips).get? ((y : Int).repr ++ ".zip") =
      if (files.filter fun f => FileOfYear f.1 y) = [] then
        zips.get? ((y : Int).repr ++ ".zip")
      else some (files.filter fun f => FileOfYear f.1 y) := by
  have hg := filesByYear_group files
  have hf : (files.filter fun f => FileOfYear f.1 y) = files.filter fun f =>
      (csvYear f.1).any fun n => (n : Int) == (y : Int) := by
    apply List.filter_congr
    intro f _
    rw [Bool.eq_iff_iff, decide_eq_true_iff, ← csvYear_iff _ _ h1 h2]
    cases csvYear f.1 with
    | none => simp
    | some n => simp [Int.ofNat_inj]
  have aux : ∀ (d : ByYear (String × Table)), (d.map Prod.fst).Nodup →
      ∀ (z : PyDict (List (String × Table))),
      (d.foldl (fun z p => z.set (p.1.repr ++ ".zip") p.2) z).get? ((y : Int).repr ++ ".zip") =
        match d.lookup (y : Int) with
        | none => z.get? ((y : Int).repr ++ ".zip")
        | some l => some l := by
    intro d
    induction d with
    | nil => intro _ z; rfl
    | cons p d ih =>
      intro hn z
      obtain ⟨a, l⟩ := p
      simp only [List.map_cons, List.nodup_cons] at hn
      rw [List.foldl_cons, ih hn.2, List.lookup_cons, PyDict.get?_set]
      by_cases hy : (y : Int) = a
      · have hnone : d.lookup (y : Int) = none := by
          rw [List.lookup_eq_none_iff]
          intro q hq
          have : (y : Int) ≠ q.1 := by
            intro e; exact hn.1 (List.mem_map.mpr ⟨q, hq, by rw [← e, hy]⟩)
          simpa using this
        subst hy; simp [hnone]
      · have e1 : ((y : Int) == a) = false := by simpa using hy
        have e2 : ¬ (y : Int).repr ++ ".zip" = a.repr ++ ".zip" :=
          fun e => hy (int_repr_inj ((String.append_left_inj _).mp e))
        simp only [e1, if_neg e2]
  unfold zipByYear
  rw [aux _ hg.1, hg.2, hf]
  by_cases e : (files.filter fun f => (csvYear f.1).any fun n => (n : Int) == (y : Int)) = []
  · rw [if_pos e, if_pos e]
  · rw [if_neg e, if_neg e]

theorem nodup_set {V : Type} (d : PyDict V) (k : String) (v : V) (h : (PyDict.keys d).Nodup) :
    (PyDict.keys (d.set k v)).Nodup := by
  induction d with
  | nil => simp [PyDict.set, PyDict.keys]
  | cons p d ih =>
    obtain ⟨a, b⟩ := p
    unfold PyDict.keys at h ih ⊢
    simp only [List.map_cons, List.nodup_cons] at h
    unfold PyDict.set
    by_cases e : a = k
    · rw [if_pos e, List.map_cons, List.nodup_cons]; exact ⟨e ▸ h.1, h.2⟩
    · rw [if_neg e, List.map_cons, List.nodup_cons]
      refine ⟨?_, ih h.2⟩
      have := PyDict.mem_keys_set d k a v
      unfold PyDict.keys at this
      rw [this]
      rintro (e' | e')
      · exact e e'
      · exact h.1 e'

theorem nodup_writeCsvs (b : String) (header : List String) (rows : ByYear (List String))
    (dir : PyDict Table) (h : (PyDict.keys dir).Nodup) :
    (PyDict.keys (writeCsvs dir b rows header)).Nodup := by
  unfold writeCsvs
  induction rows generalizing dir with
  | nil => exact h
  | cons p rows ih => exact ih _ (nodup_set _ _ _ h)

theorem nodup_sortByYear (strip : String → String) (int : String → Option Int)
    (vehicles emissions : Table) (out out' : PyDict Table)
    (h : sortByYear strip int vehicles emissions out = .ok out')
    (hn : (PyDict.keys out).Nodup) : (PyDict.keys out').Nodup := by
  unfold sortByYear at h
  cases h1 : processCsv strip (processVehicles int) ([], []) vehicles with
  | error e => rw [h1] at h; cases h
  | ok a =>
    rw [h1] at h
    obtain ⟨vh, vs, ids⟩ := a
    replace h : (processCsv strip (processEmissions int ids) [] emissions >>= fun r =>
      pure (writeCsvs (writeCsvs out "vehicles.csv" vs (vh.getD [])) "emissions.csv" r.2
        (r.1.getD []))) = .ok out' := h
    cases h2 : processCsv strip (processEmissions int ids) [] emissions with
    | error e => rw [h2] at h; cases h
    | ok b =>
      rw [h2] at h
      rw [← Except.ok.inj h]
      exact nodup_writeCsvs _ _ _ _ (nodup_writeCsvs _ _ _ _ hn)

theorem nodup_processEpa (inputs : List InFile) (out : PyDict Table)
    (hn : (PyDict.keys out).Nodup) : (PyDict.keys (processEpa inputs out)).Nodup := by
  unfold processEpa
  induction inputs generalizing out with
  | nil => exact hn
  | cons f inputs ih =>
    rw [List.foldl_cons]
    apply ih
    unfold epaStep
    split
    · split
      · exact hn
      · split
        · exact nodup_set _ _ _ hn
        · exact hn
    · exact hn

/-- **C82.**  From the tables to the archives: every vehicle row with a four-digit year
is in the vehicle file of the archive of that year, and in no other archive of a
four-digit year. -/
theorem C82_run (strip : String → String) (int : String → Option Int)
    (vh eh : List String) (vrows erows : Table) (inputs : List InFile)
    (out' : PyDict Table) (zips' : PyDict (List (String × Table)))
    (h : run strip int (vh :: vrows) (eh :: erows) inputs [] [] = .ok (out', zips'))
    (r : List String) (hr : r ∈ vrows) (y : Nat)
    (hy : numberUnder int (vh.map strip) "year" r = some (y : Int))
    (h1 : 1000 ≤ y) (h2 : y ≤ 9999) :
    (∃ members rows, zips'.get? ((y : Int).repr ++ ".zip") = some members ∧
      ((y : Int).repr ++ "-vehicles.csv", vh.map strip :: rows) ∈ members ∧ r ∈ rows) ∧
    ∀ (y' : Nat) (members : List (String × Table)) (t : Int) (rows : Table),
      1000 ≤ y' → y' ≤ 9999 →
      zips'.get? ((y' : Int).repr ++ ".zip") = some members →
      (t.repr ++ "-vehicles.csv", vh.map strip :: rows) ∈ members → r ∈ rows → y' = y := by
  classical
  unfold run at h
  cases hs : sortByYear strip int (vh :: vrows) (eh :: erows) [] with
  | error e => rw [hs] at h; cases h
  | ok out =>
    rw [hs] at h
    replace h : (processEpa inputs out, zipByYear (processEpa inputs out) []) = (out', zips') :=
      Except.ok.inj h
    rw [Prod.mk.injEq] at h
    obtain ⟨ho, hz⟩ := h
    rw [ho] at hz
    obtain ⟨s1, -, -⟩ := C82_split strip int vh eh vrows erows [] out hs
    have hnames : ∀ t t' : Int, t.repr ++ "-vehicles.csv" ≠ t'.repr ++ "-testcar.csv" := by
      intro t t' e
      have e' := congrArg String.toList e
      rw [String.toList_append, String.toList_append] at e'
      have := congrArg (fun l => (l.drop (l.length - 8))) e'
      have d1 : ∀ (p q : List Char), 8 ≤ q.length →
          (p ++ q).drop ((p ++ q).length - 8) = q.drop (q.length - 8) := by
        intro p q hq
        rw [List.length_append, List.drop_append]
        have : p.drop (p.length + q.length - 8) = [] := by
          apply List.drop_eq_nil_of_le; omega
        rw [this, List.nil_append]
        congr 1; omega
      rw [d1 _ _ (by decide), d1 _ _ (by decide)] at this
      revert this; decide
    have hout : ∀ t : Int, out'.get? (t.repr ++ "-vehicles.csv") =
        if rowsOfYear int (vh.map strip) vrows t = [] then none
        else some (vh.map strip :: rowsOfYear int (vh.map strip) vrows t) := by
      intro t
      rw [← ho, (C82_tests inputs out).2 _ (fun t' => hnames t t'), s1, PyDict.get?_nil]
    have hnd : (PyDict.keys out').Nodup := by
      rw [← ho]
      exact nodup_processEpa _ _ (nodup_sortByYear strip int _ _ _ _ hs (by simp [PyDict.keys]))
    have hfile : ∀ n : Nat, FileOfYear ((n : Int).repr ++ "-vehicles.csv") n := by
      intro n
      refine ⟨"vehicles", "", ?_⟩
      rw [String.append_assoc, String.append_assoc, String.append_assoc]; rfl
    have hm : r ∈ rowsOfYear int (vh.map strip) vrows (y : Int) := by
      unfold rowsOfYear; rw [List.mem_filter]; exact ⟨hr, by simp [hy]⟩
    constructor
    · have hin : ((y : Int).repr ++ "-vehicles.csv",
          vh.map strip :: rowsOfYear int (vh.map strip) vrows (y : Int)) ∈
          out'.filter fun f => FileOfYear f.1 y := by
        rw [List.mem_filter]
        refine ⟨PyDict.get?_mem ?_, by simp [hfile y]⟩
        rw [hout, if_neg (List.ne_nil_of_mem hm)]
      refine ⟨_, _, ?_, hin, hm⟩
      rw [← hz, C82_archive _ _ y h1 h2, if_neg (List.ne_nil_of_mem hin)]
    · intro y' members t rows h1' h2' hg hmem hrr
      rw [← hz, C82_archive _ _ y' h1' h2', PyDict.get?_nil] at hg
      split at hg
      · cases hg
      · cases hg
        rw [List.mem_filter, decide_eq_true_iff] at hmem
        obtain ⟨hmo, p, q, hpq⟩ := hmem
        have hgt := PyDict.get?_of_mem hnd hmo
        rw [hout] at hgt
        have ht : t = (y : Int) := by
          split at hgt
          · cases hgt
          · cases hgt
            unfold rowsOfYear at hrr
            rw [List.mem_filter, hy] at hrr
            have := hrr.2
            simp at this
            exact this.symm
        subst ht
        have hl : ∀ n : Nat, 1000 ≤ n → n ≤ 9999 → ((n : Int).repr).toList.length = 4 := by
          intro n ha hb
          rw [Int.repr_eq_if, if_pos (by omega), Int.toNat_natCast, Nat.toList_repr,
            toDigits_four ha hb]; rfl
        have e := congrArg String.toList hpq
        simp only [String.toList_append, List.append_assoc] at e
        have := (List.append_inj e (by rw [hl y h1 h2, hl y' h1' h2'])).1
        have := int_repr_inj (String.toList_inj.mp this)
        omega

/-! ## A concrete case -/

namespace PreprocDemo

/-- Reads the few numbers of the example. -/
def int (s : String) : Option Int :=
  if s = "1" then some 1 else if s = "2" then some 2 else if s = "3" then some 3
  else if s = "9" then some 9 else if s = "1999" then some 1999
  else if s = "2020" then some 2020 else if s = "984" then some 984 else none

/-- Takes one leading blank off. -/
def strip (s : String) : String := if s = " year" then "year" else s

def vehHead : List String := ["id", " year", "make"]
def vehRows : Table :=
  [["1", "2020", "a"], ["2", "1999", "b"], ["3", "2020", "c"], ["1", "1999", "d"]]
def emHead : List String := ["id", "score"]
def emRows : Table := [["3", "x"], ["1", "y"], ["9", "z"]]
def tests : List InFile :=
  [⟨"20tstcar-a", ".csv", true, [["old"]]⟩, ⟨"20tstcar-b", ".xlsx", true, [["new"]]⟩,
   ⟨"99tst", ".csv", true, [["t99"]]⟩, ⟨"2020tst", ".csv", true, [["no"]]⟩,
   ⟨"20tst", ".txt", true, [["no"]]⟩]

end PreprocDemo

local instance preprocDictEq {V : Type} [DecidableEq V] : DecidableEq (PyDict V) :=
  inferInstanceAs (DecidableEq (List (String × V)))

/-- The example: rows of two years out of order, an emission row of two years, one of
none, and two test files for one year. -/
theorem C82_demo :
    (run PreprocDemo.strip PreprocDemo.int (PreprocDemo.vehHead :: PreprocDemo.vehRows)
        (PreprocDemo.emHead :: PreprocDemo.emRows) PreprocDemo.tests [] []).toOption = some (
      [("2020-vehicles.csv", [["id", "year", "make"], ["1", "2020", "a"], ["3", "2020", "c"]]),
       ("1999-vehicles.csv", [["id", "year", "make"], ["2", "1999", "b"], ["1", "1999", "d"]]),
       ("2020-emissions.csv", [["id", "score"], ["3", "x"], ["1", "y"]]),
       ("1999-emissions.csv", [["id", "score"], ["1", "y"]]),
       ("2020-testcar.csv", [["new"]]), ("1999-testcar.csv", [["t99"]])],
      [("2020.zip", [
        ("2020-vehicles.csv", [["id", "year", "make"], ["1", "2020", "a"], ["3", "2020", "c"]]),
        ("2020-emissions.csv", [["id", "score"], ["3", "x"], ["1", "y"]]),
        ("2020-testcar.csv", [["new"]])]),
       ("1999.zip", [
        ("1999-vehicles.csv", [["id", "year", "make"], ["2", "1999", "b"], ["1", "1999", "d"]]),
        ("1999-emissions.csv", [["id", "score"], ["1", "y"]]),
        ("1999-testcar.csv", [["t99"]])])]) := by
  decide +kernel

/-- An emission row whose identifier no vehicle carries is in no file of the split. -/
theorem C82_orphan (strip : String → String) (int : String → Option Int)
    (vh eh : List String) (vrows erows : Table) (out' : PyDict Table)
    (h : sortByYear strip int (vh :: vrows) (eh :: erows) [] = .ok out')
    (e : List String)
    (ho : ∀ v ∈ vrows, numberUnder int (vh.map strip) "id" v ≠
      numberUnder int (eh.map strip) "id" e) (y : Int) (rows : Table)
    (hf : out'.get? (y.repr ++ "-emissions.csv") = some (eh.map strip :: rows)) : e ∉ rows := by
  obtain ⟨-, h2, -⟩ := C82_split strip int vh eh vrows erows [] out' h
  rw [h2, PyDict.get?_nil] at hf
  split at hf
  · cases hf
  · cases hf
    unfold emissionsOfYear
    rw [List.mem_filter]
    rintro ⟨-, hany⟩
    rw [List.any_eq_true] at hany
    obtain ⟨v, hv, hc⟩ := hany
    simp only [Bool.and_eq_true, beq_iff_eq] at hc
    unfold rowsOfYear at hv
    exact ho v (List.mem_filter.mp hv).1 hc.2

/-- A vehicle row whose year has fewer than four digits is written to a file, but that
file is packed into no archive. -/
theorem C82_short_year :
    (run PreprocDemo.strip PreprocDemo.int (PreprocDemo.vehHead :: [["1", "984", "a"]])
        [PreprocDemo.emHead] [] [] []).toOption =
      some ([("984-vehicles.csv", [["id", "year", "make"], ["1", "984", "a"]])], []) := by
  decide +kernel

end Fastsim.Props
