import Verif.Lemmas.Files
import Verif.Props.CopyCycle
import Verif.Props.LoadDemo
import Mathlib.Tactic.Linarith

/-!
# C93: loading from files
-/

set_option linter.unusedSectionVars false

namespace Fastsim.Spec

variable {K : Type*}

/-- The table that the name of a file stands for: the one in the working directory, otherwise the one among the shipped
tables. -/
def Picks (D : Disk K) (name : Txt) (c : Csv K) : Prop :=
  D.here name = some c ∨ D.here name = none ∧ D.shipped name = some c

/-- The full name of a file: `.csv` may be left out. -/
def FullName (f name : Txt) : Prop :=
  (∃ base, f = base ++ ".csv".toList) ∧ name = f ∨ (¬ ∃ base, f = base ++ ".csv".toList) ∧ name = f ++ ".csv".toList

/-- A file of one vehicle, as the shipped ones are: `Param Value` is the title of one of its columns (not of the first),
and its lines have the names of the parameters in the second column and the values under that title. -/
structure Lists (c : Csv K) (l : List (String × LVal K)) : Prop where
  titles : c.header.Nodup
  names : c.rows.map (fun row => row[1]?) = l.map fun p => some (.text p.1.toList)
  values : ∃ j, c.header[j + 1]? = some "Param Value" ∧ c.rows.map (fun row => row[j + 1]?) = l.map fun p => some p.2

/-- The table of numbers in a file of a cycle. -/
structure Holds (c : Csv K) (cols : List (String × List K)) : Prop where
  titles : c.header = cols.map Prod.fst
  cells : ∀ (j : Nat) (p : String × List K), cols[j]? = some p → c.rows.map (fun row => row[j]?) = p.2.map fun x => some (.num x)

end Fastsim.Spec

namespace Fastsim.Props
open Spec

/-! ### Which file is read -/

theorem withCsv_fullName (f : Txt) : FullName f (withCsv f) := by
  unfold withCsv FullName
  by_cases h : ".csv".toList <:+ f
  · rw [if_pos h]
    obtain ⟨base, hb⟩ := h
    exact .inl ⟨⟨base, hb.symm⟩, rfl⟩
  · rw [if_neg h]
    exact .inr ⟨fun ⟨base, hb⟩ => h ⟨base, hb.symm⟩, rfl⟩

theorem fullName_unique {f name : Txt} (h : FullName f name) : withCsv f = name := by
  rcases withCsv_fullName f with ⟨h1, h2⟩ | ⟨h1, h2⟩
  · rcases h with ⟨-, e⟩ | ⟨n, -⟩
    · rw [h2, e]
    · exact absurd h1 n
  · rcases h with ⟨n, -⟩ | ⟨-, e⟩
    · exact absurd n h1
    · rw [h2, e]

theorem vehicleFile_picks {K : Type*} {D : Disk K} {f name : Txt} (hf : FullName f name) {c : Csv K}
    (h : Picks D name c) : vehicleFile D f = .ok c := by
  unfold vehicleFile
  rw [fullName_unique hf]
  rcases h with h | ⟨h, h'⟩
  · rw [h]
  · rw [h]; simp only [h']

theorem cycleFile_picks {K : Type*} {D : Disk K} {f name : Txt} (hf : FullName f name) {c : Csv K}
    (h : Picks D name c) : cycleFile D f = .ok c := by
  unfold cycleFile
  rw [fullName_unique hf]
  rcases h with h | ⟨h, h'⟩
  · rw [h]
  · rw [h, h']

section Lawless
variable {K : Type*} [Zero K] [One K] [NatCast K] [Add K] [Sub K] [Mul K] [Div K] [Neg K]
  [LinearOrder K]

/-- Without a file of that name, neither in the working directory nor among the shipped ones, there is neither a cycle
nor a vehicle, but a `ValueError`. -/
theorem C93_missing (R : Reader K) {D : Disk K} {f name : Txt} (hf : FullName f name)
    (h : ¬ ∃ c, Picks D name c) (n : Option K) :
    vehFromFile R D f n = .error .valueError ∧ cycFromFile R D f = .error .valueError := by
  have h1 : D.here name = none := by
    rcases e : D.here name with _ | c
    · rfl
    · exact absurd ⟨c, .inl e⟩ h
  have h2 : D.shipped name = none := by
    rcases e : D.shipped name with _ | c
    · rfl
    · exact absurd ⟨c, .inr ⟨h1, e⟩⟩ h
  unfold vehFromFile cycFromFile vehicleFile cycleFile
  rw [fullName_unique hf, h1, h2]
  exact ⟨rfl, rfl⟩

/-- The vehicle depends on nothing but the table that the name stands for: neither on the name itself nor on any other
file. -/
theorem C93_vehicle_from_table (R : Reader K) {D D' : Disk K} {f f' name name' : Txt} (hf : FullName f name)
    (hf' : FullName f' name') {c : Csv K} (h : Picks D name c) (h' : Picks D' name' c) (n : Option K) :
    vehFromFile R D f n = vehFromFile R D' f' n := by
  unfold vehFromFile
  rw [vehicleFile_picks hf h, vehicleFile_picks hf' h']

/-- The suffix may be left out. -/
theorem C93_suffix (R : Reader K) (D : Disk K) {f : Txt} (hf : ¬ ∃ base, f = base ++ ".csv".toList) (n : Option K) :
    vehFromFile R D (f ++ ".csv".toList) n = vehFromFile R D f n ∧
      cycFromFile R D (f ++ ".csv".toList) = cycFromFile R D f := by
  have e : withCsv (f ++ ".csv".toList) = withCsv f := by
    rw [fullName_unique (.inl ⟨⟨f, rfl⟩, rfl⟩), fullName_unique (.inr ⟨hf, rfl⟩)]
  unfold vehFromFile cycFromFile vehicleFile cycleFile
  rw [e]
  exact ⟨rfl, rfl⟩

/-! ### Vehicles -/

/-- With a number, the vehicle is the one that the table of the file has under that number, as with the database. -/
theorem C93_numbered (R : Reader K) {D : Disk K} {f name : Txt} (hf : FullName f name) {c : Csv K}
    (h : Picks D name c) (n : K) :
    vehFromFile R D f (some n) = (fromTable R ⟨c.header, c.rows⟩ n).1 := by
  unfold vehFromFile
  rw [vehicleFile_picks hf h]

theorem traverseE_ok {α β : Type*} (f : α → Except PyErr β) (g : α → β) (l : List α)
    (h : ∀ a ∈ l, f a = .ok (g a)) : traverseE f l = .ok (l.map g) := by
  induction l with
  | nil => rfl
  | cons a l ih =>
    rw [traverseE, h a (by simp), List.map_cons]
    simp only
    rw [ih fun b hb => h b (by simp [hb])]

theorem column_of {c : Csv K} {j : Nat} {l : List (LVal K)}
    (h : c.rows.map (fun row => row[j]?) = l.map some) : c.column j = l := by
  unfold Csv.column
  have : c.rows.map (fun row => row.getD j .nan) = (c.rows.map fun row => row[j]?).map fun o => o.getD .nan := by
    rw [List.map_map]
    apply List.map_congr_left
    intro row _
    simp [List.getD_eq_getElem?_getD]
  rw [this, h, List.map_map]
  simp

/-- Where the first row with number 0 is found. -/
theorem find_first {T : VehTable K} {pre post : List (List (LVal K))} {row : List (LVal K)} {n : K}
    (hr : T.rows = pre ++ row :: post)
    (hpre : ∀ r ∈ pre, List.lookup "selection" (T.cols.zip r) ≠ some (.num n))
    (hrow : List.lookup "selection" (T.cols.zip row) = some (.num n)) :
    T.find n = some pre.length := by
  unfold VehTable.find VehTable.cell
  rw [List.findIdx?_eq_some_iff_getElem]
  refine ⟨by rw [hr]; simp, ?_, ?_⟩
  · simp only [hr, decide_eq_true_eq]
    rw [List.getElem_append_right (le_refl _)]
    simpa using hrow
  · intro j hj
    simp only [hr, decide_eq_true_eq]
    rw [List.getElem_append_left hj]
    exact hpre _ (List.getElem_mem hj)

theorem lookup_append_last {V : Type*} {names : List String} {vals : List V} {x : V} {k : String}
    (hl : vals.length = names.length) (hk : k ∉ names) :
    List.lookup k ((names ++ [k]).zip (vals ++ [x])) = some x := by
  induction names generalizing vals with
  | nil =>
    obtain rfl := List.length_eq_zero_iff.1 hl
    simp
  | cons a names ih =>
    cases vals with
    | nil => simp at hl
    | cons v vals =>
      rw [List.mem_cons, not_or] at hk
      rw [List.cons_append, List.cons_append, List.zip_cons_cons, List.lookup_cons]
      have : (k == a) = false := by simpa using hk.1
      rw [this]
      exact ih (by simpa using hl) hk.2

/-- The outcome of loading from a table whose first row with the given number is known. -/
theorem fromTable_row {R : Reader K} {T : VehTable K} {pre post : List (List (LVal K))} {row : List (LVal K)} {n : K}
    (hs : "selection" ∈ T.cols) (ha : ∀ col ∈ T.cols, allowedColumn col)
    (hr : T.rows = pre ++ row :: post)
    (hpre : ∀ r ∈ pre, List.lookup "selection" (T.cols.zip r) ≠ some (.num n))
    (hrow : List.lookup "selection" (T.cols.zip row) = some (.num n)) :
    (fromTable R T n).1 = fromDict R (rowDict T.cols (row.map (cleanData R))) := by
  unfold fromTable
  rw [if_neg (not_not.2 hs), if_neg (not_not.2 ha), find_first hr hpre hrow]
  simp only
  have : (T.clean R pre.length).rows.getD pre.length [] = row.map (cleanData R) := by
    unfold VehTable.clean
    simp only [hr]
    rw [List.getD_eq_getElem?_getD, List.getElem?_modify_eq, List.getElem?_append_right (le_refl _)]
    simp
  rw [this]
  rfl

/-- A file of one vehicle is read as a table of one row, whose columns are the parameters of the file. Comments and
categories are not looked at. -/
theorem C93_single (R : Reader K) {D : Disk K} {f name : Txt} (hf : FullName f name) {c : Csv K}
    (h : Picks D name c) {l : List (String × LVal K)} (hl : Lists c l) (hs : "selection" ∉ l.map Prod.fst) :
    vehFromFile R D f none =
      (fromTable R ⟨l.map Prod.fst ++ ["selection"], [l.map Prod.snd ++ [.num 0]]⟩ 0).1 := by
  obtain ⟨j, hj, hv⟩ := hl.values
  have hjl : j + 1 < c.header.length := (List.getElem?_eq_some_iff.1 hj).1
  have hn1 : c.column 1 = l.map fun p => .text p.1.toList := column_of (by rw [hl.names, List.map_map]; rfl)
  have hnames : paramColumn c = .ok (l.map Prod.fst) := by
    unfold paramColumn
    rw [hn1, traverseE_ok _ (fun v => match v with | LVal.text s => String.ofList s | _ => "") _ ?_]
    · rw [List.map_map]
      congr 1
      apply List.map_congr_left
      intro p _
      simp [String.ofList_toList]
    · intro v hv
      obtain ⟨p, -, rfl⟩ := List.mem_map.1 hv
      rfl
  have hcol : c.column (j + 1) = l.map Prod.snd := column_of (by rw [hv, List.map_map]; rfl)
  have hpv : "Param Value" ∈ c.header.tail := by
    apply List.mem_of_getElem? (i := j)
    rw [List.getElem?_tail]; exact hj
  unfold vehFromFile
  rw [vehicleFile_picks hf h]
  simp only
  unfold singleTable
  rw [if_neg (by omega), hnames]
  simp only [if_pos hpv, if_neg hs, List.append_nil]
  set cols := l.map Prod.fst ++ ["selection"] with hcols
  set mk : String × Nat → List (LVal K) := fun p =>
    setSelection (l.map Prod.fst) (c.column p.2) (if p.1 = "Param Value" then .num 0 else .nan) with hmk
  have hmk' : ∀ p, mk p = c.column p.2 ++ [if p.1 = "Param Value" then .num 0 else .nan] := by
    intro p
    simp only [hmk, setSelection, if_neg hs]
  have hlen : ∀ i, (c.column i).length = (l.map Prod.fst).length := by
    intro i
    have := congrArg List.length hl.names
    simp only [List.length_map] at this
    simp [Csv.column, this]
  by_cases ha : ∀ col ∈ cols, allowedColumn col
  · have hsel : "selection" ∈ cols := by simp [hcols]
    have hz : c.header.zipIdx[j + 1]? = some ("Param Value", j + 1) := by
      rw [List.getElem?_zipIdx, hj]; simp
    have hz' : c.header.zipIdx.tail[j]? = some ("Param Value", j + 1) := by
      rw [List.getElem?_tail]; exact hz
    obtain ⟨hjt, hjv⟩ := List.getElem?_eq_some_iff.1 hz'
    have hsplit : c.header.zipIdx.tail =
        c.header.zipIdx.tail.take j ++ ("Param Value", j + 1) :: c.header.zipIdx.tail.drop (j + 1) := by
      conv_lhs => rw [← List.take_append_drop j c.header.zipIdx.tail]
      rw [List.drop_eq_getElem_cons hjt, hjv]
    rw [fromTable_row (pre := (c.header.zipIdx.tail.take j).map mk)
      (post := (c.header.zipIdx.tail.drop (j + 1)).map mk) (row := mk ("Param Value", j + 1)) hsel ha ?_ ?_ ?_]
    · rw [fromTable_row (pre := []) (post := []) (row := l.map Prod.snd ++ [.num 0]) hsel ha rfl (by simp) ?_]
      · rw [hmk', hcol]; simp
      · exact lookup_append_last (by simp) hs
    · simp only
      conv_lhs => rw [hsplit]
      rw [List.map_append, List.map_cons]
    · intro r hr
      obtain ⟨p, hp, rfl⟩ := List.mem_map.1 hr
      rw [hmk', hcols, lookup_append_last (hlen _) hs]
      rw [if_neg]
      · simp
      · intro e
        obtain ⟨i, hi⟩ := List.mem_iff_getElem?.1 hp
        rw [List.getElem?_take] at hi
        split at hi
        · next hij =>
          rw [List.getElem?_tail, List.getElem?_zipIdx] at hi
          rcases hg : c.header[i + 1]? with _ | t
          · rw [hg] at hi; cases hi
          · rw [hg] at hi
            simp only [Option.map_some, Option.some.injEq] at hi
            rw [← hi] at e
            simp only at e
            subst e
            obtain ⟨l1, e1⟩ := List.getElem?_eq_some_iff.1 hg
            obtain ⟨l2, e2⟩ := List.getElem?_eq_some_iff.1 hj
            have := (List.Nodup.getElem_inj_iff hl.titles).1 (e1.trans e2.symm)
            omega
        · cases hi
    · rw [hmk', if_pos rfl]
      exact lookup_append_last (hlen _) hs
  · unfold fromTable
    have hsel : "selection" ∈ cols := by simp [hcols]
    rw [if_neg (not_not.2 hsel), if_pos ha, if_neg (not_not.2 hsel), if_pos ha]

theorem lookup_overwrite {names : List String} {cells : List (LVal K)} {v : LVal K} {k : String}
    (hl : cells.length = names.length) (hk : k ∈ names) :
    List.lookup k (names.zip (List.zipWith (fun n x => if n = k then v else x) names cells)) = some v := by
  induction names generalizing cells with
  | nil => simp at hk
  | cons a names ih =>
    cases cells with
    | nil => simp at hl
    | cons x cells =>
      rw [List.zipWith_cons_cons, List.zip_cons_cons, List.lookup_cons]
      by_cases e : a = k
      · subst e; simp
      · have : (k == a) = false := by simpa using fun h => e h.symm
        rw [this]
        rcases List.mem_cons.1 hk with h | h
        · exact absurd h.symm e
        · exact ih (by simpa using hl) h

/-- A file of one vehicle that has a parameter `selection` itself: its value is not looked at, the vehicle gets number 0 as all
vehicles from such files do. -/
theorem C93_own_number (R : Reader K) {D : Disk K} {f name : Txt} (hf : FullName f name) {c : Csv K}
    (h : Picks D name c) {l : List (String × LVal K)} (hl : Lists c l) (hs : "selection" ∈ l.map Prod.fst) :
    vehFromFile R D f none =
      (fromTable R ⟨l.map Prod.fst, [l.map fun p => if p.1 = "selection" then .num 0 else p.2]⟩ 0).1 := by
  obtain ⟨j, hj, hv⟩ := hl.values
  have hjl : j + 1 < c.header.length := (List.getElem?_eq_some_iff.1 hj).1
  have hn1 : c.column 1 = l.map fun p => .text p.1.toList := column_of (by rw [hl.names, List.map_map]; rfl)
  have hnames : paramColumn c = .ok (l.map Prod.fst) := by
    unfold paramColumn
    rw [hn1, traverseE_ok _ (fun v => match v with | LVal.text s => String.ofList s | _ => "") _ ?_]
    · rw [List.map_map]
      congr 1
      apply List.map_congr_left
      intro p _
      simp [String.ofList_toList]
    · intro v hv
      obtain ⟨p, -, rfl⟩ := List.mem_map.1 hv
      rfl
  have hcol : c.column (j + 1) = l.map Prod.snd := column_of (by rw [hv, List.map_map]; rfl)
  have hpv : "Param Value" ∈ c.header.tail := by
    apply List.mem_of_getElem? (i := j)
    rw [List.getElem?_tail]; exact hj
  unfold vehFromFile
  rw [vehicleFile_picks hf h]
  simp only
  unfold singleTable
  rw [if_neg (by omega), hnames]
  simp only [if_pos hpv, if_pos hs, List.append_nil]
  set cols := l.map Prod.fst with hcols
  set mk : String × Nat → List (LVal K) := fun p =>
    setSelection cols (c.column p.2) (if p.1 = "Param Value" then .num 0 else .nan) with hmk
  have hmk' : ∀ p, mk p = List.zipWith (fun n x => if n = "selection" then
      (if p.1 = "Param Value" then .num 0 else .nan) else x) cols (c.column p.2) := by
    intro p
    simp only [hmk, setSelection, if_pos hs]
  have hlen : ∀ i, (c.column i).length = cols.length := by
    intro i
    have := congrArg List.length hl.names
    simp only [List.length_map] at this
    simp [Csv.column, hcols, this]
  have hrow : mk ("Param Value", j + 1) = l.map fun p => if p.1 = "selection" then .num 0 else p.2 := by
    rw [hmk', hcol, hcols, List.zipWith_map, List.zipWith_self]
    simp
  by_cases ha : ∀ col ∈ cols, allowedColumn col
  · have hsel : "selection" ∈ cols := hs
    have hz : c.header.zipIdx[j + 1]? = some ("Param Value", j + 1) := by
      rw [List.getElem?_zipIdx, hj]; simp
    have hz' : c.header.zipIdx.tail[j]? = some ("Param Value", j + 1) := by
      rw [List.getElem?_tail]; exact hz
    obtain ⟨hjt, hjv⟩ := List.getElem?_eq_some_iff.1 hz'
    have hsplit : c.header.zipIdx.tail =
        c.header.zipIdx.tail.take j ++ ("Param Value", j + 1) :: c.header.zipIdx.tail.drop (j + 1) := by
      conv_lhs => rw [← List.take_append_drop j c.header.zipIdx.tail]
      rw [List.drop_eq_getElem_cons hjt, hjv]
    rw [fromTable_row (pre := (c.header.zipIdx.tail.take j).map mk)
      (post := (c.header.zipIdx.tail.drop (j + 1)).map mk) (row := mk ("Param Value", j + 1)) hsel ha ?_ ?_ ?_]
    · rw [fromTable_row (pre := []) (post := []) (row := l.map fun p => if p.1 = "selection" then .num 0 else p.2) hsel ha rfl (by simp) ?_]
      · rw [hrow]
      · rw [← hrow, hmk', if_pos rfl]
        exact lookup_overwrite (hlen _) hs
    · simp only
      conv_lhs => rw [hsplit]
      rw [List.map_append, List.map_cons]
    · intro r hr
      obtain ⟨p, hp, rfl⟩ := List.mem_map.1 hr
      rw [hmk', lookup_overwrite (hlen _) hs]
      rw [if_neg]
      · simp
      · intro e
        obtain ⟨i, hi⟩ := List.mem_iff_getElem?.1 hp
        rw [List.getElem?_take] at hi
        split at hi
        · next hij =>
          rw [List.getElem?_tail, List.getElem?_zipIdx] at hi
          rcases hg : c.header[i + 1]? with _ | t
          · rw [hg] at hi; cases hi
          · rw [hg] at hi
            simp only [Option.map_some, Option.some.injEq] at hi
            rw [← hi] at e
            simp only at e
            subst e
            obtain ⟨l1, e1⟩ := List.getElem?_eq_some_iff.1 hg
            obtain ⟨l2, e2⟩ := List.getElem?_eq_some_iff.1 hj
            have := (List.Nodup.getElem_inj_iff hl.titles).1 (e1.trans e2.symm)
            omega
        · cases hi
    · rw [hmk', if_pos rfl]
      exact lookup_overwrite (hlen _) hs
  · unfold fromTable
    have hsel : "selection" ∈ cols := hs
    rw [if_neg (not_not.2 hsel), if_pos ha, if_neg (not_not.2 hsel), if_pos ha]

theorem rowDict_eq (cols : List String) (row : List (LVal K)) :
    rowDict cols row = (cols.zip row).foldl (fun d p => PyDict.set d (columnKey p.1) p.2) [] := rfl

theorem pairs_get {l : List (String × LVal K)} (hn : (l.map fun p => columnKey p.1).Nodup) (k : String) (v : LVal K) :
    PyDict.get? (l.foldl (fun d p => PyDict.set d (columnKey p.1) p.2) []) k = some v ↔
      ∃ p ∈ l, columnKey p.1 = k ∧ p.2 = v := by
  obtain ⟨h1, h2⟩ := PyDict.get?_foldl columnKey l [] hn k
  by_cases h : ∃ p ∈ l, columnKey p.1 = k
  · obtain ⟨p, hp, hk⟩ := h
    rw [h1 p hp hk, Option.some.injEq]
    constructor
    · rintro rfl; exact ⟨p, hp, hk, rfl⟩
    · rintro ⟨q, hq, hk', rfl⟩
      have := h1 q hq hk'
      rw [h1 p hp hk, Option.some.injEq] at this
      exact this
  · rw [h2 fun p hp e => h ⟨p, hp, e⟩]
    constructor
    · intro h'; cases h'
    · rintro ⟨p, hp, hk, -⟩; exact absurd ⟨p, hp, hk⟩ h

theorem pairs_nodup (l : List (String × LVal K)) (d : PyDict (LVal K)) (h : d.keys.Nodup) :
    (l.foldl (fun d p => PyDict.set d (columnKey p.1) p.2) d).keys.Nodup := by
  induction l generalizing d with
  | nil => exact h
  | cons p l ih => rw [List.foldl_cons]; exact ih _ (nodup_keys_set _ _ _ h)

theorem columnKey_selection : columnKey "selection" = "selection" := by decide +kernel

theorem lookup_of_pair {V : Type*} {l : List (String × V)} (hn : (l.map Prod.fst).Nodup) {k : String} {v : V}
    (h : (k, v) ∈ l) : List.lookup k l = some v :=
  PyDict.get?_of_mem (d := l) hn h

/-- Two tables, each with a row under some number, that give the same parameters the same values: if one of the vehicles
can be loaded, so can the other, and it is the same vehicle but for its number. The order of the columns does not
matter. -/
theorem C93_tables {R : Reader K} {T T' : VehTable K} {pre post pre' post' : List (List (LVal K))}
    {row row' : List (LVal K)} {n n' : K} {l : List (String × LVal K)}
    (hn : (T.cols.map columnKey).Nodup) (hn' : (T'.cols.map columnKey).Nodup)
    (hlen : row.length = T.cols.length) (hlen' : row'.length = T'.cols.length)
    (hr : T.rows = pre ++ row :: post) (hr' : T'.rows = pre' ++ row' :: post')
    (hpre : ∀ r ∈ pre, List.lookup "selection" (T.cols.zip r) ≠ some (.num n))
    (hpre' : ∀ r ∈ pre', List.lookup "selection" (T'.cols.zip r) ≠ some (.num n'))
    (hp : (T.cols.zip row).Perm (l ++ [("selection", .num n)]))
    (hp' : (T'.cols.zip row').Perm (l ++ [("selection", .num n')]))
    {a : PyDict (LVal K)} (ha : (fromTable R T n).1 = .ok a) :
    ∃ a', (fromTable R T' n').1 = .ok a' ∧ a'.get? "selection" = some (.num (R.trunc n')) ∧
      ∀ k, k ≠ "selection" → a'.get? k = a.get? k := by
  have hcols : ∀ {cols : List String} {row : List (LVal K)}, row.length = cols.length →
      (cols.zip row).map Prod.fst = cols := fun h => List.map_fst_zip (by omega)
  have hsetT : ∀ col, col ∈ T.cols ↔ col ∈ l.map Prod.fst ∨ col = "selection" := by
    intro col
    rw [← hcols hlen, (hp.map Prod.fst).mem_iff]; simp
  have hsetT' : ∀ col, col ∈ T'.cols ↔ col ∈ l.map Prod.fst ∨ col = "selection" := by
    intro col
    rw [← hcols hlen', (hp'.map Prod.fst).mem_iff]; simp
  have hall : ∀ col ∈ T.cols, allowedColumn col := by
    by_contra hc
    unfold fromTable at ha
    rw [if_neg (not_not.2 ((hsetT _).2 (.inr rfl))), if_pos hc] at ha
    cases ha
  have hall' : ∀ col ∈ T'.cols, allowedColumn col := fun col hc => hall col ((hsetT col).2 ((hsetT' col).1 hc))
  have hlook : List.lookup "selection" (T.cols.zip row) = some (.num n) :=
    lookup_of_pair (by rw [hcols hlen]; exact hn.of_map _) (hp.mem_iff.2 (by simp))
  have hlook' : List.lookup "selection" (T'.cols.zip row') = some (.num n') :=
    lookup_of_pair (by rw [hcols hlen']; exact hn'.of_map _) (hp'.mem_iff.2 (by simp))
  rw [fromTable_row ((hsetT _).2 (.inr rfl)) hall hr hpre hlook] at ha
  rw [fromTable_row ((hsetT' _).2 (.inr rfl)) hall' hr' hpre' hlook']
  have hz : ∀ (cols : List String) (row : List (LVal K)), cols.zip (row.map (cleanData R)) =
      (cols.zip row).map fun p => (p.1, cleanData R p.2) := by
    intro cols row
    rw [List.zip_map_right]
    rfl
  have hkeys : ∀ {cols : List String} {row : List (LVal K)}, row.length = cols.length →
      (cols.map columnKey).Nodup → ((cols.zip (row.map (cleanData R))).map fun p => columnKey p.1).Nodup := by
    intro cols row hl hn
    have : (cols.zip (row.map (cleanData R))).map (fun p => columnKey p.1) =
        ((cols.zip (row.map (cleanData R))).map Prod.fst).map columnKey := by rw [List.map_map]; rfl
    rw [this, hcols (by simpa using hl)]
    exact hn
  have hmem : ∀ {cols : List String} {row : List (LVal K)} {m : K},
      (cols.zip row).Perm (l ++ [("selection", .num m)]) → ∀ p : String × LVal K,
      p ∈ cols.zip (row.map (cleanData R)) ↔
        (∃ q ∈ l, (q.1, cleanData R q.2) = p) ∨ p = ("selection", .num m) := by
    intro cols row m hp p
    rw [hz, List.mem_map]
    constructor
    · rintro ⟨q, hq, rfl⟩
      rcases List.mem_append.1 (hp.mem_iff.1 hq) with hq | hq
      · exact .inl ⟨q, hq, rfl⟩
      · rw [List.mem_singleton] at hq; subst hq; exact .inr rfl
    · rintro (⟨q, hq, rfl⟩ | rfl)
      · exact ⟨q, hp.mem_iff.2 (List.mem_append_left _ hq), rfl⟩
      · exact ⟨("selection", .num m), hp.mem_iff.2 (by simp), rfl⟩
  refine fromDict_agree ?_ ?_ ?_ ha
  · intro k hk
    have key : ∀ v, (rowDict T.cols (row.map (cleanData R))).get? k = some v ↔
        (rowDict T'.cols (row'.map (cleanData R))).get? k = some v := by
      intro v
      rw [rowDict_eq, rowDict_eq, pairs_get (hkeys hlen hn), pairs_get (hkeys hlen' hn')]
      constructor
      · rintro ⟨p, hpm, h1, h2⟩
        rcases (hmem hp p).1 hpm with h | rfl
        · exact ⟨p, (hmem hp' p).2 (.inl h), h1, h2⟩
        · exact absurd (h1.symm.trans columnKey_selection) hk
      · rintro ⟨p, hpm, h1, h2⟩
        rcases (hmem hp' p).1 hpm with h | rfl
        · exact ⟨p, (hmem hp p).2 (.inl h), h1, h2⟩
        · exact absurd (h1.symm.trans columnKey_selection) hk
    exact Option.ext key
  · exact pairs_nodup _ _ (by simp [PyDict.keys])
  · rw [rowDict_eq, pairs_get (hkeys hlen' hn')]
    exact ⟨("selection", .num n'), (hmem hp' _).2 (.inr rfl), columnKey_selection, rfl⟩

/-- A vehicle is the same, but for its number, whether it is loaded from its own file or from a database with the same
values in one of its rows: if the load from the database succeeds, so does the load from the file. -/
theorem C93_file_like_database {R : Reader K} {D : Disk K} {f name : Txt} (hf : FullName f name) {c : Csv K}
    (h : Picks D name c) {l : List (String × LVal K)} (hl : Lists c l)
    {T : VehTable K} {pre post : List (List (LVal K))} {row : List (LVal K)} {n : K}
    (hn : (T.cols.map columnKey).Nodup) (hlen : row.length = T.cols.length)
    (hr : T.rows = pre ++ row :: post)
    (hpre : ∀ r ∈ pre, List.lookup "selection" (T.cols.zip r) ≠ some (.num n))
    (hp : (T.cols.zip row).Perm (l ++ [("selection", .num n)]))
    {a : PyDict (LVal K)} (ha : (fromTable R T n).1 = .ok a) :
    ∃ a', vehFromFile R D f none = .ok a' ∧ a'.get? "selection" = some (.num (R.trunc 0)) ∧
      ∀ k, k ≠ "selection" → a'.get? k = a.get? k := by
  have hcols : (l.map Prod.fst ++ ["selection"]).Perm T.cols := by
    have := hp.map Prod.fst
    rw [List.map_fst_zip (by omega)] at this
    simpa using this.symm
  have hnd : ((l.map Prod.fst ++ ["selection"]).map columnKey).Nodup := (hcols.map columnKey).nodup_iff.2 hn
  have hs : "selection" ∉ l.map Prod.fst := by
    intro hm
    have := List.disjoint_of_nodup_append (hnd.of_map _)
    exact this hm (by simp)
  rw [C93_single R hf h hl hs]
  refine C93_tables (T := T) hn hnd hlen (by simp) hr (pre' := []) (post' := []) rfl hpre (by simp) hp ?_ ha
  rw [List.zip_append (by simp)]
  have : (l.map Prod.fst).zip (l.map Prod.snd) = l := by
    rw [List.zip_map']
    simp
  rw [this]
  simp

/-- And the other way round. -/
theorem C93_database_like_file {R : Reader K} {D : Disk K} {f name : Txt} (hf : FullName f name) {c : Csv K}
    (h : Picks D name c) {l : List (String × LVal K)} (hl : Lists c l)
    {T : VehTable K} {pre post : List (List (LVal K))} {row : List (LVal K)} {n : K}
    (hn : (T.cols.map columnKey).Nodup) (hlen : row.length = T.cols.length)
    (hr : T.rows = pre ++ row :: post)
    (hpre : ∀ r ∈ pre, List.lookup "selection" (T.cols.zip r) ≠ some (.num n))
    (hp : (T.cols.zip row).Perm (l ++ [("selection", .num n)]))
    {a : PyDict (LVal K)} (ha : vehFromFile R D f none = .ok a) :
    ∃ a', (fromTable R T n).1 = .ok a' ∧ a'.get? "selection" = some (.num (R.trunc n)) ∧
      ∀ k, k ≠ "selection" → a'.get? k = a.get? k := by
  have hcols : (l.map Prod.fst ++ ["selection"]).Perm T.cols := by
    have := hp.map Prod.fst
    rw [List.map_fst_zip (by omega)] at this
    simpa using this.symm
  have hnd : ((l.map Prod.fst ++ ["selection"]).map columnKey).Nodup := (hcols.map columnKey).nodup_iff.2 hn
  have hs : "selection" ∉ l.map Prod.fst := by
    intro hm
    have := List.disjoint_of_nodup_append (hnd.of_map _)
    exact this hm (by simp)
  rw [C93_single R hf h hl hs] at ha
  refine C93_tables (T' := T) hnd hn (by simp) hlen (pre := []) (post := []) rfl hr (by simp) hpre ?_ hp ha
  rw [List.zip_append (by simp)]
  have : (l.map Prod.fst).zip (l.map Prod.snd) = l := by
    rw [List.zip_map']
    simp
  rw [this]
  simp

/-! ### Cycles -/

/-- The cycle is named after its file, without directory and suffix. -/
theorem C93_name {dir base f : Txt} (hb : base ≠ []) (hs : '/' ∉ base) (hd : dir = [] ∨ ∃ p, dir = p ++ ['/'])
    (hf : FullName f (dir ++ base ++ ".csv".toList)) : stem (withCsv f) = base := by
  rw [fullName_unique hf]
  have e : baseName (dir ++ base ++ ".csv".toList) = base ++ ".csv".toList := by
    unfold baseName
    have hrev : (dir ++ base ++ ".csv".toList).reverse = (base ++ ".csv".toList).reverse ++ dir.reverse := by
      simp
    have hno : ∀ x ∈ (base ++ ".csv".toList).reverse, (decide (x ≠ '/')) = true := by
      intro x hx
      rw [List.mem_reverse, List.mem_append] at hx
      rw [decide_eq_true_iff]
      rintro rfl
      rcases hx with hx | hx
      · exact hs hx
      · revert hx; decide
    rw [hrev, List.takeWhile_append_of_pos hno]
    have : dir.reverse.takeWhile (fun x => decide (x ≠ '/')) = [] := by
      rcases hd with rfl | ⟨p, rfl⟩
      · rfl
      · simp
    rw [this, List.append_nil, List.reverse_reverse]
  unfold stem
  rw [e, if_neg]
  · simp
  · intro h
    have := congrArg List.length h
    simp at this
    exact hb this

theorem cycFromFile_dict {R : Reader K} {D : Disk K} {f name : Txt} (hf : FullName f name) {c : Csv K}
    (h : Picks D name c) {cols : List (String × List K)} (hc : Holds c cols) :
    cycFromFile R D f = cycFromDict (PyDict.set (cols.map fun p => (p.1, .arr p.2)) "name"
      (.str (String.ofList (stem name)))) := by
  unfold cycFromFile
  rw [cycleFile_picks hf h, fullName_unique hf]
  simp only
  have hcell : ∀ j p, cols[j]? = some p → columnEntry R c (p.1, j) = .ok (p.1, .arr p.2) := by
    intro j p hp
    have hcol : c.column j = p.2.map .num := column_of (by rw [hc.cells j p hp, List.map_map]; rfl)
    unfold columnEntry
    simp only [hcol]
    rw [traverseE_ok (cellFloat R) (fun v => match v with | LVal.num x => x | _ => 0) _ ?_]
    · simp only [List.map_map]
      congr 3
      conv_rhs => rw [← List.map_id p.2]
      rfl
    · intro v hv
      obtain ⟨x, -, rfl⟩ := List.mem_map.1 hv
      rfl
  have hall : traverseE (columnEntry R c) c.header.zipIdx = .ok (cols.map fun p => (p.1, .arr p.2)) := by
    rw [traverseE_ok (columnEntry R c) (fun q => (q.1, .arr ((cols.getD q.2 ("", [])).2))) _ ?_]
    · congr 1
      apply List.ext_getElem?
      intro j
      rw [List.getElem?_map, List.getElem?_zipIdx, List.getElem?_map, hc.titles, List.getElem?_map]
      rcases hj : cols[j]? with _ | p
      · rfl
      · simp [List.getD_eq_getElem?_getD, hj]
    · rintro ⟨t, j⟩ hm
      obtain ⟨i, hi⟩ := List.mem_iff_getElem?.1 hm
      rw [List.getElem?_zipIdx, hc.titles, List.getElem?_map] at hi
      rcases hj : cols[i]? with _ | p
      · rw [hj] at hi; cases hi
      · rw [hj] at hi
        simp only [Option.map_some, Option.some.injEq, Prod.mk.injEq, Nat.zero_add] at hi
        obtain ⟨rfl, rfl⟩ := hi
        rw [hcell _ p hj]
        simp [List.getD_eq_getElem?_getD, hj]
  rw [hall]

/-- A cycle loaded from a file is what the columns of the file mean: time and speed under their present or their old
names, grade and road type likewise or zero, nothing else, and the name is that of the file. It can be loaded exactly
if there is such a cycle. -/
theorem C93_cycle {R : Reader K} {D : Disk K} {f dir base : Txt} (hb : base ≠ []) (hs : '/' ∉ base)
    (hd : dir = [] ∨ ∃ p, dir = p ++ ['/']) (hf : FullName f (dir ++ base ++ ".csv".toList)) {c : Csv K}
    (h : Picks D (dir ++ base ++ ".csv".toList) c) {cols : List (String × List K)} (hc : Holds c cols)
    (hn : (cols.map fun p => oldToNew p.1).Nodup) (hname : "name" ∉ cols.map Prod.fst) (o : CycObj K) :
    cycFromFile R D f = .ok o ↔
      ReadsAs (cols.map (fun p => (p.1, .arr p.2)) ++ [("name", .str (String.ofList base))]) o := by
  rw [cycFromFile_dict hf h hc]
  have hst := C93_name hb hs hd hf
  rw [fullName_unique hf] at hst
  rw [hst]
  have hset : ∀ (l : List (String × List K)), "name" ∉ l.map Prod.fst →
      PyDict.set (l.map fun p => (p.1, CVal.arr p.2)) "name" (.str (String.ofList base)) =
      l.map (fun p => (p.1, CVal.arr p.2)) ++ [("name", .str (String.ofList base))] := by
    intro l hl
    induction l with
    | nil => rfl
    | cons p l ih =>
      rw [List.map_cons, List.mem_cons, not_or] at hl
      rw [List.map_cons, PyDict.set, if_neg (fun e => hl.1 e.symm), ih hl.2]
      rfl
  rw [hset cols hname]
  apply C39_from_dict
  rw [List.map_append, List.nodup_append]
  refine ⟨by rw [List.map_map]; exact hn, by simp, ?_⟩
  intro x hx y hy e
  subst e
  simp only [List.map_cons, List.map_nil, List.mem_singleton] at hy
  rw [(oldToNew_iff "name").2.2.2.2.1.2 rfl] at hy
  obtain ⟨q, hq, rfl⟩ := List.mem_map.1 hx
  obtain ⟨p, hp, rfl⟩ := List.mem_map.1 hq
  rw [(oldToNew_iff p.1).2.2.2.2.1] at hy
  exact hname (List.mem_map.2 ⟨p, hp, hy⟩)

theorem traverseE_error {α β : Type*} {f : α → Except PyErr β} {e : PyErr} {l : List α} {a : α} (ha : a ∈ l)
    (he : f a = .error e) (h : ∀ b ∈ l, ∀ e', f b = .error e' → e' = e) : traverseE f l = .error e := by
  induction l with
  | nil => cases ha
  | cons b l ih =>
    rw [traverseE]
    rcases hb : f b with e' | v
    · simp only; rw [h b (by simp) e' hb]
    · simp only
      rcases List.mem_cons.1 ha with rfl | ha
      · rw [he] at hb; cases hb
      · rw [ih ha fun b hb => h b (by simp [hb])]

/-- A file with text anywhere among its numbers is not loaded. So a cycle that is written to a file together with its
name, as `to_dict` gives it, cannot be read back. -/
theorem C93_text_rejected {R : Reader K} {D : Disk K} {f name : Txt} (hf : FullName f name) {c : Csv K}
    (h : Picks D name c) {row : List (LVal K)} (hrow : row ∈ c.rows) {j : Nat} (hj : j < c.header.length) {s : Txt}
    (hs : row[j]? = some (.text s)) (ht : R.float s = none) :
    cycFromFile R D f = .error .valueError := by
  have hcf : ∀ v e, cellFloat R v = .error e → e = .valueError := by
    intro v e he
    unfold cellFloat at he
    split at he <;> cases he
    rfl
  have hce : ∀ p e, columnEntry R c p = .error e → e = .valueError := by
    intro p e he
    unfold columnEntry at he
    have : ∀ l, ∀ e, traverseE (cellFloat R) l = .error e → e = .valueError := by
      intro l
      induction l with
      | nil => intro e he; cases he
      | cons a l ih =>
        intro e he
        rw [traverseE] at he
        split at he
        · next e' h' => cases he; exact hcf _ _ h'
        · split at he
          · next e' h' => cases he; exact ih _ h'
          · cases he
    split at he
    · next e' h' => cases he; exact this _ _ h'
    · cases he
  unfold cycFromFile
  rw [cycleFile_picks hf h]
  simp only
  obtain ⟨t, htt⟩ : ∃ t, c.header[j]? = some t := ⟨_, List.getElem?_eq_getElem hj⟩
  have hbad : columnEntry R c (t, j) = .error .valueError := by
    unfold columnEntry
    rw [traverseE_error (a := .text s) (e := .valueError) ?_ ?_ fun b _ e' he => hcf b e' he]
    · unfold Csv.column
      refine List.mem_map.2 ⟨row, hrow, ?_⟩
      rw [List.getD_eq_getElem?_getD, hs]
      rfl
    · simp [cellFloat, toFloat, ht]
  rw [traverseE_error (a := (t, j)) (e := .valueError) ?_ hbad fun b _ e' he => hce b e' he]
  apply List.mem_of_getElem? (i := j)
  rw [List.getElem?_zipIdx, htt]
  simp

end Lawless

/-! ### Witnesses -/

namespace FilesDemo
open LoadDemo

/-- The Corolla without its number. -/
def params : List (String × LVal ℚ) := corolla.tail

/-- A file of one vehicle, laid out like the shipped ones. -/
def vehicleCsv : Csv ℚ where
  header := ["Unnamed: 0", "Param Name", "Param Value", "Param Source / Comments"]
  rows := params.map fun p => [.text "Vehicle".toList, .text p.1.toList, p.2, .nan]

/-- A file of a cycle with old names of columns. -/
def cycleCsv : Csv ℚ where
  header := ["cycSecs", "cycMps", "cycGrade"]
  rows := [[.num 0, .num 0, .num 0], [.num 1, .num 2, .num (1 / 100)], [.num 2, .num 1, .num 0]]

/-- The cycle together with its name. -/
def namedCsv : Csv ℚ where
  header := ["time_s", "mps", "name"]
  rows := [[.num 0, .num 0, .text "trip".toList], [.num 1, .num 2, .text "trip".toList]]

/-- Files in the working directory and shipped ones. -/
def disk : Disk ℚ where
  here f := if f = "mine/trip.csv".toList then some cycleCsv else if f = "named.csv".toList then some namedCsv else none
  shipped f := if f = "corolla.csv".toList then some vehicleCsv
    else if f = "mine/trip.csv".toList then some namedCsv else none

theorem demo_picks : Picks disk "corolla.csv".toList vehicleCsv := by
  unfold Picks; right; constructor <;> decide +kernel

theorem demo_fullName : FullName "corolla".toList "corolla.csv".toList := by
  have h : withCsv "corolla".toList = "corolla.csv".toList := by decide +kernel
  rw [← h]
  exact withCsv_fullName _

theorem demo_lists : Lists vehicleCsv params := by
  refine ⟨by decide +kernel, ?_, 1, ?_, ?_⟩
  · unfold vehicleCsv; rw [List.map_map]; rfl
  · decide +kernel
  · unfold vehicleCsv; rw [List.map_map]; rfl

theorem demo_perm :
    ((table corolla).cols.zip (corolla.map Prod.snd)).Perm (params ++ [("selection", .num 1)]) := by
  have : (table corolla).cols.zip (corolla.map Prod.snd) = ("selection", .num 1) :: params := by decide +kernel
  rw [this]
  exact (List.perm_append_singleton _ _).symm

/-- The hypotheses of `C93_file_like_database` are met by the Corolla, which is the vehicle of the database that
`C65_demo` loads. So it can be loaded from its file, found among the shipped ones, as well. -/
theorem C93_demo : ∃ a, vehFromFile R disk "corolla".toList none = .ok a ∧
    a.get? "drag_coef" = some (.num (3 / 10)) ∧ a.get? "veh_year" = some (.num 2016) ∧
    a.get? "scenario_name" = some (.text "2016 TOYOTA Corolla 4cyl 2WD".toList) := by
  obtain ⟨h, hn⟩ := C65_demo
  rcases e : (fromTable R (table corolla) 1).1 with er | a
  · rw [e] at h; cases h
  · rw [e] at h
    simp only [attrs, Except.map, List.map_cons, List.map_nil, Except.ok.injEq, List.cons.injEq] at h
    obtain ⟨a', h1, -, h3⟩ := C93_file_like_database demo_fullName demo_picks demo_lists (T := table corolla) hn
      (by simp [table]) (pre := []) (post := []) rfl (by simp) demo_perm e
    refine ⟨a', h1, ?_, ?_, ?_⟩
    · rw [h3 _ (by decide), h.1]
    · rw [h3 _ (by decide), h.2.1]
    · rw [h3 _ (by decide), h.2.2.2.1]

/-- The file of the Corolla with its number in it. -/
def numberedCsv : Csv ℚ where
  header := ["Unnamed: 0", "Param Name", "Param Value"]
  rows := corolla.map fun p => [.text "Vehicle".toList, .text p.1.toList, p.2]

/-- The hypotheses of `C93_own_number` are met by a file of the Corolla with its number 1; it is vehicle 0 when it is loaded. -/
theorem C93_own_number_demo : Lists numberedCsv corolla ∧ "selection" ∈ corolla.map Prod.fst ∧
    attrs ["selection", "drag_coef"] (vehFromFile R ⟨fun _ => some numberedCsv, fun _ => none⟩ "x".toList none) =
      .ok [some (.num 0), some (.num (3 / 10))] := by
  refine ⟨⟨by decide +kernel, ?_, 1, by decide +kernel, ?_⟩, by decide +kernel, by decide +kernel⟩
  · unfold numberedCsv; rw [List.map_map]; rfl
  · unfold numberedCsv; rw [List.map_map]; rfl

/-- The hypotheses of `C93_cycle` are met by the file in the working directory, not the shipped one of the same name. -/
theorem C93_cycle_demo : Picks disk "mine/trip.csv".toList cycleCsv ∧
    Holds cycleCsv [("cycSecs", [0, 1, 2]), ("cycMps", [0, 2, 1]), ("cycGrade", [0, 1 / 100, 0])] ∧
    cycFromFile R disk "mine/trip".toList =
      .ok ⟨.arr [0, 1, 2], .arr [0, 2, 1], .arr [0, 1 / 100, 0], .arr [0, 0, 0], .str "trip"⟩ := by
  refine ⟨.inl (by decide +kernel), ⟨rfl, ?_⟩, by decide +kernel⟩
  intro j p hp
  match j, hp with
  | 0, hp => cases hp; rfl
  | 1, hp => cases hp; rfl
  | 2, hp => cases hp; rfl

/-- A cycle written with its name cannot be read; a name that stands for no file is a `ValueError`. -/
theorem C93_rejected_demo : cycFromFile R disk "named".toList = .error .valueError ∧
    cycFromFile R disk "other".toList = .error .valueError ∧
    attrs [] (vehFromFile R disk "other".toList none) = .error .valueError := by
  decide +kernel

end FilesDemo

end Fastsim.Props
