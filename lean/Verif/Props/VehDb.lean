import Verif.Model.VehDb
import Verif.Lemmas.Dict
import Mathlib.Data.List.Basic

/-! # C83: the vehicle database and the model files written from it -/

set_option linter.unusedSectionVars false

namespace Fastsim.Spec

/-- The file a vehicle of a name is to be found in: underscores for blanks, no
parentheses. -/
def modelFileName (scenario ext : String) : String :=
  String.ofList (((scenario.toList ++ '.' :: ext.toList).filter fun c => c ≠ '(' ∧ c ≠ ')').map
    fun c => if c = ' ' then '_' else c)

/-- A vehicle that can be exported: it loads, and its name is a file name. -/
def Exportable (load : Int → Except PyErr (String × String)) (sel : Int) : Prop :=
  ∃ scenario text, load sel = .ok (scenario, text) ∧ '/' ∉ scenario.toList

/-- The first of a list of vehicles whose file has the given name. -/
def firstFor (load : Int → Except PyErr (String × String)) (ext : String) (name : String) :
    List Int → Option String
  | [] => none
  | sel :: sels => match load sel with
    | .ok (scenario, text) =>
      if modelFileName scenario ext = name then some text else firstFor load ext name sels
    | .error _ => firstFor load ext name sels

end Fastsim.Spec

namespace Fastsim.Props
open Fastsim.VehDb Fastsim.Spec

/-! ## Adding a vehicle -/

/-- **C83.**  Adding a vehicle in a new session keeps all vehicles in their order and puts
the new one behind them, with all its parameters and the number after that of the last
one; if that was the highest, no vehicle has this number yet. -/
theorem C83_added (file : List Entry) (last : Entry) (cells : PyDict String) (db' : Db)
    (h : modelFileToVehdb (openDb (file ++ [last])) cells = .ok db') :
    ∃ new : Entry, db'.file = file ++ [last] ++ [new] ∧
      new.selection = last.selection + 1 ∧
      (∀ k, k ≠ "selection" → new.cells.get? k = cells.get? k) ∧
      ((∀ e ∈ file, e.selection ≤ last.selection) →
        ∀ e ∈ file ++ [last], e.selection ≠ new.selection) := by
  unfold modelFileToVehdb openDb at h
  simp only [List.getLast?_append, List.getLast?_singleton, Option.some_or] at h
  cases h
  refine ⟨_, rfl, rfl, ?_, ?_⟩
  · intro k hk
    simp only []
    induction cells with
    | nil => rfl
    | cons p d ih =>
      obtain ⟨a, b⟩ := p
      by_cases e : a = "selection"
      · have hka : ¬ k = a := by rw [e]; exact hk
        rw [List.filter_cons_of_neg (by simpa using e), PyDict.get?_cons, if_neg hka]
        exact ih
      · rw [List.filter_cons_of_pos (by simpa using e)]
        by_cases hka : k = a
        · rw [PyDict.get?_cons, if_pos hka, PyDict.get?_cons, if_pos hka]
        · rw [PyDict.get?_cons, if_neg hka, PyDict.get?_cons, if_neg hka]
          exact ih
  · intro hle e he
    rcases List.mem_append.mp he with he | he
    · have := hle e he
      show e.selection ≠ last.selection + 1
      omega
    · rw [List.mem_singleton.mp he]
      show last.selection ≠ last.selection + 1
      omega

/-- **C83.**  An empty database takes no vehicle. -/
theorem C83_empty (cells : PyDict String) :
    modelFileToVehdb (openDb []) cells = .error .indexError := rfl

/-- **C83, the limit.**  A second vehicle added in the same session replaces the first:
the file is what adding the second alone would have made it. -/
theorem C83_second_replaces_first (file : List Entry) (a b : PyDict String) (db1 db2 : Db)
    (h1 : modelFileToVehdb (openDb file) a = .ok db1) (h2 : modelFileToVehdb db1 b = .ok db2) :
    modelFileToVehdb (openDb file) b = .ok db2 := by
  unfold modelFileToVehdb openDb at *
  cases hl : file.getLast? with
  | none => rw [hl] at h1; cases h1
  | some last =>
    simp only [hl] at h1 ⊢
    cases h1
    simp only [hl] at h2
    cases h2
    rfl

/-- In a new session for each, both stay. -/
theorem C83_sessions (file : List Entry) (last : Entry) (a b : PyDict String) (db1 db2 : Db)
    (h1 : modelFileToVehdb (openDb (file ++ [last])) a = .ok db1)
    (h2 : modelFileToVehdb (openDb db1.file) b = .ok db2) :
    ∃ n1 n2 : Entry, db2.file = file ++ [last] ++ [n1, n2] ∧
      n1.selection = last.selection + 1 ∧ n2.selection = last.selection + 2 := by
  obtain ⟨n1, e1, s1, -, -⟩ := C83_added file last a db1 h1
  rw [e1] at h2
  obtain ⟨n2, e2, s2, -, -⟩ := C83_added (file ++ [last]) n1 b db2 h2
  refine ⟨n1, n2, ?_, s1, by omega⟩
  rw [e2, List.append_assoc (file ++ [last])]; rfl

/-- The number of the new vehicle may be taken, if the last vehicle has not the highest
one. -/
theorem C83_number_taken :
    modelFileToVehdb (openDb [⟨3, []⟩, ⟨2, []⟩]) [("a", "b")] =
      .ok ⟨[⟨3, []⟩, ⟨2, []⟩, ⟨3, [("a", "b")]⟩], [⟨3, []⟩, ⟨2, []⟩]⟩ := rfl

/-! ## Writing the model files -/

theorem fileName_eq (scenario ext : String) (hx : ext = "yaml" ∨ ext = "json") :
    fileName scenario ext = modelFileName scenario ext := by
  have hext : ext.toList.map (fun c => if c = ' ' then '_' else c) = ext.toList := by
    rcases hx with rfl | rfl <;> decide
  have key : ∀ l : List Char,
      List.filter (fun c => decide (c ≠ ')')) (List.filter (fun c => decide (c ≠ '('))
        (l.map fun c => if c = ' ' then '_' else c)) =
      (l.filter fun c => decide (c ≠ '(' ∧ c ≠ ')')).map fun c => if c = ' ' then '_' else c := by
    intro l
    induction l with
    | nil => rfl
    | cons c l ih =>
      rw [List.map_cons]
      by_cases h1 : c = ' '
      · subst h1
        rw [if_pos rfl, List.filter_cons_of_pos (by decide), List.filter_cons_of_pos (by decide),
          List.filter_cons_of_pos (by decide), List.map_cons, ih, if_pos rfl]
      · rw [if_neg h1]
        by_cases h2 : c = '('
        · subst h2
          rw [List.filter_cons_of_neg (by decide), List.filter_cons_of_neg (by decide), ih]
        · rw [List.filter_cons_of_pos (by simpa using h2)]
          by_cases h3 : c = ')'
          · subst h3
            rw [List.filter_cons_of_neg (by decide), List.filter_cons_of_neg (by decide), ih]
          · rw [List.filter_cons_of_pos (by simpa using h3),
              List.filter_cons_of_pos (by simpa using ⟨h2, h3⟩), List.map_cons, ih, if_neg h1]
  have hdot : (if '.' = ' ' then '_' else '.') = '.' := by decide
  have hlist : (String.ofList (scenario.toList.map fun c => if c = ' ' then '_' else c)
      ++ "." ++ ext).toList =
      (scenario.toList ++ '.' :: ext.toList).map fun c => if c = ' ' then '_' else c := by
    rw [String.toList_append, String.toList_append, String.toList_ofList, List.map_append,
      List.map_cons, hext, hdot, List.append_assoc]
    have : ".".toList = ['.'] := by decide
    rw [this, List.singleton_append]
  apply String.toList_inj.mp
  unfold fileName modelFileName
  simp only [String.toList_ofList]
  rw [hlist, key]

theorem slash_fileName (scenario ext : String) (hx : ext = "yaml" ∨ ext = "json") :
    '/' ∈ (fileName scenario ext).toList ↔ '/' ∈ scenario.toList := by
  have hext : '/' ∉ ext.toList := by rcases hx with rfl | rfl <;> decide
  rw [fileName_eq _ _ hx]
  unfold modelFileName
  rw [String.toList_ofList, List.mem_map]
  constructor
  · rintro ⟨c, hc, e⟩
    by_cases h : c = ' '
    · rw [if_pos h] at e; exact absurd e (by decide)
    · rw [if_neg h] at e
      subst e
      have := (List.mem_filter.mp hc).1
      rw [List.mem_append, List.mem_cons] at this
      rcases this with h | h | h
      · exact h
      · exact absurd h (by decide)
      · exact absurd h hext
  · intro h
    refine ⟨'/', List.mem_filter.mpr ⟨List.mem_append_left _ h, by decide⟩, by decide⟩

/-- What one step of the export does. -/
theorem entry_cases (load : Int → Except PyErr (String × String)) (ext : String)
    (hx : ext = "yaml" ∨ ext = "json") (sel : Int) (files : PyDict String) :
    (Exportable load sel → ∃ scenario text, load sel = .ok (scenario, text) ∧
      (files.get? (modelFileName scenario ext) = none ∧
        entryToModelFile load ext sel files = .ok (files.set (modelFileName scenario ext) text) ∨
      (files.get? (modelFileName scenario ext)).isSome ∧
        entryToModelFile load ext sel files = .error .exists)) ∧
    (¬ Exportable load sel → ∃ e, e ≠ .exists ∧
      entryToModelFile load ext sel files = .error e) := by
  unfold entryToModelFile
  rw [if_pos hx]
  constructor
  · rintro ⟨scenario, text, hl, hs⟩
    refine ⟨scenario, text, hl, ?_⟩
    rw [hl]
    simp only [if_neg (mt (slash_fileName scenario ext hx).mp hs)]
    rw [fileName_eq _ _ hx]
    cases files.get? (modelFileName scenario ext) with
    | none => left; exact ⟨rfl, rfl⟩
    | some t => right; exact ⟨rfl, rfl⟩
  · intro hne
    cases hl : load sel with
    | error e => exact ⟨.other e, by simp, rfl⟩
    | ok p =>
      obtain ⟨scenario, text⟩ := p
      have hs : '/' ∈ scenario.toList := by
        by_contra h
        exact hne ⟨scenario, text, hl, h⟩
      refine ⟨.notFound, by simp, ?_⟩
      simp only [if_pos ((slash_fileName scenario ext hx).mpr hs)]

/-- **C83.**  If every vehicle of the database can be exported, nothing is raised; files
that were there are not touched; and any other name holds the text of the first vehicle
of that file name, if there is one. -/
theorem C83_export (load : Int → Except PyErr (String × String)) (ext : String)
    (hx : ext = "yaml" ∨ ext = "json") (sels : List Int)
    (hall : ∀ sel ∈ sels, Exportable load sel) (files : PyDict String) :
    (fullExport load ext sels files).2 = none ∧
    ∀ name, (fullExport load ext sels files).1.get? name =
      match files.get? name with
      | some old => some old
      | none => firstFor load ext name sels := by
  induction sels generalizing files with
  | nil =>
    refine ⟨rfl, fun name => ?_⟩
    show files.get? name = _
    cases files.get? name <;> rfl
  | cons sel sels ih =>
    obtain ⟨scenario, text, hl, hc⟩ :=
      (entry_cases load ext hx sel files).1 (hall sel (List.mem_cons_self ..))
    have hrest := ih fun s hs => hall s (List.mem_cons_of_mem _ hs)
    rcases hc with ⟨hn, he⟩ | ⟨hs, he⟩
    · have e : fullExport load ext (sel :: sels) files
          = fullExport load ext sels (files.set (modelFileName scenario ext) text) := by
        rw [fullExport, he]
      rw [e]
      refine ⟨(hrest _).1, fun name => ?_⟩
      rw [(hrest _).2, PyDict.get?_set, firstFor, hl]
      by_cases h : name = modelFileName scenario ext
      · rw [if_pos h, h, hn]
        simp
      · have h' : ¬ modelFileName scenario ext = name := fun e => h e.symm
        rw [if_neg h]
        simp only [if_neg h']
    · have e : fullExport load ext (sel :: sels) files = fullExport load ext sels files := by
        rw [fullExport, he]
      rw [e]
      refine ⟨(hrest _).1, fun name => ?_⟩
      rw [(hrest _).2, firstFor, hl]
      by_cases h : modelFileName scenario ext = name
      · obtain ⟨t, ht⟩ := Option.isSome_iff_exists.mp hs
        rw [← h, ht]
      · simp only [if_neg h]

/-- **C83.**  Vehicles with distinct file names are all written, each to its own file. -/
theorem C83_all_written (load : Int → Except PyErr (String × String)) (ext : String)
    (hx : ext = "yaml" ∨ ext = "json") (sels : List Int)
    (hall : ∀ sel ∈ sels, Exportable load sel)
    (hdist : ∀ a ∈ sels, ∀ b ∈ sels, ∀ na ta nb tb, load a = .ok (na, ta) → load b = .ok (nb, tb) →
      modelFileName na ext = modelFileName nb ext → ta = tb)
    (sel : Int) (hsel : sel ∈ sels) (scenario text : String)
    (hl : load sel = .ok (scenario, text)) :
    (fullExport load ext sels []).1.get? (modelFileName scenario ext) = some text := by
  rw [(C83_export load ext hx sels hall []).2, PyDict.get?_nil]
  show firstFor load ext _ sels = some text
  clear hall
  induction sels with
  | nil => simp at hsel
  | cons s sels ih =>
    rw [firstFor]
    cases hls : load s with
    | error e =>
      rcases List.mem_cons.mp hsel with e' | e'
      · subst e'; rw [hl] at hls; cases hls
      · exact ih (fun a ha b hb => hdist a (List.mem_cons_of_mem _ ha) b (List.mem_cons_of_mem _ hb)) e'
    | ok p =>
      obtain ⟨n, t⟩ := p
      by_cases h : modelFileName n ext = modelFileName scenario ext
      · simp only [if_pos h]
        rw [hdist s (List.mem_cons_self ..) sel hsel n t scenario text hls hl h]
      · simp only [if_neg h]
        rcases List.mem_cons.mp hsel with e' | e'
        · subst e'; rw [hl] at hls; cases hls; exact absurd rfl h
        · exact ih (fun a ha b hb =>
            hdist a (List.mem_cons_of_mem _ ha) b (List.mem_cons_of_mem _ hb)) e'

/-- **C83.**  Exporting again changes nothing. -/
theorem C83_again (load : Int → Except PyErr (String × String)) (ext : String)
    (hx : ext = "yaml" ∨ ext = "json") (sels : List Int)
    (hall : ∀ sel ∈ sels, Exportable load sel) (files : PyDict String) (name : String) :
    (fullExport load ext sels (fullExport load ext sels files).1).1.get? name =
      (fullExport load ext sels files).1.get? name := by
  rw [(C83_export load ext hx sels hall _).2 name, (C83_export load ext hx sels hall files).2 name]
  cases files.get? name with
  | some t => rfl
  | none => cases firstFor load ext name sels <;> rfl

/-- **C83, the limit.**  The export stops with an error at the first vehicle that does not
load or has a slash in its name: of the vehicles behind it none is written. -/
theorem C83_stops (load : Int → Except PyErr (String × String)) (ext : String)
    (hx : ext = "yaml" ∨ ext = "json") (before : List Int) (bad : Int) (behind : List Int)
    (hall : ∀ sel ∈ before, Exportable load sel) (hbad : ¬ Exportable load bad)
    (files : PyDict String) :
    (∃ e, e ≠ .exists ∧ (fullExport load ext (before ++ bad :: behind) files).2 = some e) ∧
    (fullExport load ext (before ++ bad :: behind) files).1 =
      (fullExport load ext before files).1 := by
  induction before generalizing files with
  | nil =>
    obtain ⟨e, he, hstep⟩ := (entry_cases load ext hx bad files).2 hbad
    have : fullExport load ext ([] ++ bad :: behind) files = (files, some e) := by
      rw [List.nil_append, fullExport, hstep]
      cases e <;> first | rfl | exact absurd rfl he
    rw [this]
    exact ⟨⟨e, he, rfl⟩, rfl⟩
  | cons sel sels ih =>
    obtain ⟨scenario, text, hl, hc⟩ :=
      (entry_cases load ext hx sel files).1 (hall sel (List.mem_cons_self ..))
    have hrest := ih fun s hs => hall s (List.mem_cons_of_mem _ hs)
    rw [List.cons_append]
    rcases hc with ⟨hn, he⟩ | ⟨hs, he⟩
    · rw [fullExport, fullExport, he]; exact hrest _
    · rw [fullExport, fullExport, he]; exact hrest _

/-! ## Concrete cases -/

namespace VehDbDemo

/-- Three vehicles, two of which share a file name, and one like number 41 of the
database that comes with the package. -/
def load (sel : Int) : Except PyErr (String × String) :=
  if sel = 1 then .ok ("Truck (4)", "one") else if sel = 2 then .ok ("Truck 4", "two")
  else if sel = 3 then .ok ("Car", "three")
  else if sel = 41 then .ok ("2022 Toyota Avanza E/J MT", "avanza")
  else .error .keyError

end VehDbDemo

/-- The vehicles of the example are exportable, without number 41. -/
theorem C83_demo : ∀ sel ∈ [(1 : Int), 2, 3], Exportable VehDbDemo.load sel := by
  intro sel h
  simp only [List.mem_cons, List.not_mem_nil, or_false] at h
  rcases h with rfl | rfl | rfl
  · exact ⟨_, _, rfl, by decide +kernel⟩
  · exact ⟨_, _, rfl, by decide +kernel⟩
  · exact ⟨_, _, rfl, by decide +kernel⟩

local instance vehDbDictEq {V : Type} [DecidableEq V] : DecidableEq (PyDict V) :=
  inferInstanceAs (DecidableEq (List (String × V)))

/-- Two names that differ in parentheses only: the second vehicle is not written, and
nothing is said. -/
theorem C83_same_file :
    fullExport VehDbDemo.load "yaml" [1, 2, 3] [] =
      ([("Truck_4.yaml", "one"), ("Car.yaml", "three")], none) := by
  decide +kernel

/-- A name with a slash, as number 41 of the database of the package has, ends the
export. -/
theorem C83_slash :
    fullExport VehDbDemo.load "yaml" [1, 41, 3] [] =
      ([("Truck_4.yaml", "one")], some .notFound) ∧
    ¬ Exportable VehDbDemo.load 41 := by
  refine ⟨by decide +kernel, ?_⟩
  rintro ⟨n, t, h, hs⟩
  have : n = "2022 Toyota Avanza E/J MT" := by
    have h' : (Except.ok ("2022 Toyota Avanza E/J MT", "avanza") : Except PyErr _) = .ok (n, t) := h
    cases h'; rfl
  rw [this] at hs
  exact hs (by decide +kernel)

end Fastsim.Props
