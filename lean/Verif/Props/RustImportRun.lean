import Verif.Props.RustImportVeh

/-!
# Imports from the tables of a year (C106)
-/

set_option linter.unusedSectionVars false

namespace Fastsim.Spec
variable {K : Type*}

/-- A vehicle of the tables with the engine families of the emission rows that have its identifier. -/
structure Joined (T : YearTables K) (fe : FeData K) : Prop where
  row : fe.toFeRow ∈ T.vehicles
  families : fe.efids = T.emissions.filterMap fun p => if p.1 = some fe.id then some p.2 else none

/-- The rows of `l` that satisfy `p`, in their order: `r` is what remains of `l`. -/
def PicksRows {A : Type*} (p : A → Prop) (l r : List A) : Prop := r.Sublist l ∧ (∀ a ∈ r, p a) ∧ ∀ r' : List A, r'.Sublist l → (∀ a ∈ r', p a) →
  r'.length ≤ r.length

/-- `r` is the first row of the tables with this identifier. -/
def FirstWithId (T : YearTables K) (id : Int) (r : FeRow K) : Prop :=
  ∃ pre post, T.vehicles = pre ++ r :: post ∧ r.id = id ∧ ∀ q ∈ pre, q.id ≠ id

/-- The same text up to case and white space around it. -/
def SameName (a b : Txt) : Prop := trimTxt (a.map Char.toLower) = trimTxt (b.map Char.toLower)

end Fastsim.Spec

namespace Fastsim.Props
open Fastsim Spec

section Lists
variable {A : Type*}

theorem picksRows_filter (p : A → Bool) (l : List A) : PicksRows (fun a => p a = true) l (l.filter p) := by
  refine ⟨List.filter_sublist, fun a ha => (List.mem_filter.1 ha).2, fun r hr hp => ?_⟩
  have h1 : r.filter p = r := List.filter_eq_self.2 hp
  rw [← h1]
  exact (hr.filter p).length_le

theorem picksRows_unique {p : A → Prop} {l r r' : List A} [DecidablePred p] (h : PicksRows p l r) (h' : PicksRows p l r') : r = r' := by
  have key : ∀ {r : List A}, PicksRows p l r → r = l.filter fun a => decide (p a) := by
    intro r h
    have h1 : r.filter (fun a => decide (p a)) = r := List.filter_eq_self.2 fun a ha => decide_eq_true (h.2.1 a ha)
    have h2 : r.Sublist (l.filter fun a => decide (p a)) := by
      rw [← h1]; exact h.1.filter _
    refine h2.eq_of_length_le ?_
    exact h.2.2 _ List.filter_sublist fun a ha => of_decide_eq_true (List.mem_filter.1 ha).2
  rw [key h, key h']

end Lists

section Order
variable {K : Type*} [LinearOrder K]

theorem joined_iff {T : YearTables K} {fe : FeData K} : fe ∈ T.data ↔ Joined T fe := by
  have hfam : ∀ v : FeRow K, (T.emissions.filter fun e => decide (e.1 = some v.id)).map Prod.snd =
      T.emissions.filterMap fun p => if p.1 = some v.id then some p.2 else none := by
    intro v
    induction T.emissions with
    | nil => rfl
    | cons a l ih =>
      by_cases h : a.1 = some v.id
      · rw [List.filter_cons, if_pos (by simpa using h), List.map_cons, ih, List.filterMap_cons, if_pos h]
      · rw [List.filter_cons, if_neg (by simpa using h), ih, List.filterMap_cons, if_neg h]
  unfold YearTables.data
  rw [List.mem_map]
  constructor
  · rintro ⟨v, hv, rfl⟩
    exact ⟨hv, hfam v⟩
  · rintro ⟨h1, h2⟩
    refine ⟨fe.toFeRow, h1, ?_⟩
    rw [hfam, ← h2]

theorem data_map (T : YearTables K) : T.data.map (fun fe => fe.toFeRow) = T.vehicles := by
  unfold YearTables.data
  rw [List.map_map]
  conv_rhs => rw [← List.map_id T.vehicles]
  rfl

theorem trim_around {pre w post : Txt} (h1 : ∀ c ∈ pre, isWs c = true) (h2 : ∀ c ∈ post, isWs c = true) (hw : w ≠ [])
    (hn : ∀ c ∈ w, isWs c = false) : trimTxt (pre ++ w ++ post) = w := by
  have drop : ∀ {a b : Txt}, (∀ c ∈ a, isWs c = true) → b ≠ [] → (∀ c t, b = c :: t → isWs c = false) →
      (a ++ b).dropWhile isWs = b := by
    intro a b ha hb hc
    induction a with
    | nil =>
      cases b with
      | nil => exact absurd rfl hb
      | cons c t => rw [List.nil_append, List.dropWhile_cons, hc c t rfl]; rfl
    | cons x a ih =>
      rw [List.cons_append, List.dropWhile_cons, if_pos (ha x (by simp))]
      exact ih fun c hcm => ha c (by simp [hcm])
  unfold trimTxt
  rw [List.append_assoc, drop h1 (by simp [hw]) fun c t ht => ?_, List.reverse_append,
    drop (fun c hc => h2 c (List.mem_reverse.1 hc)) (by simpa using hw) fun c t ht => ?_, List.reverse_reverse]
  · exact hn c (List.mem_reverse.1 (by rw [ht]; simp))
  · cases w with
    | nil => exact absurd rfl hw
    | cons d w =>
      have : d = c := by rw [List.cons_append] at ht; exact (List.cons.inj ht).1
      exact hn c (by rw [← this]; simp)

theorem parse_year {pre post : Txt} {y : Nat} (h1 : ∀ c ∈ pre, Blank c) (h2 : ∀ c ∈ post, Blank c) (hy : y < 4294967296) :
    parseU32 (trimTxt (pre ++ digitsOf y ++ post)) = some y := by
  rw [trim_around (fun c hc => isWs_iff.2 (h1 c hc)) (fun c hc => isWs_iff.2 (h2 c hc)) (digitsOf_ne y) fun c hc => ?_,
    parseU32_digitsOf hy]
  have := digitsOf_isDigit hc
  cases h : isWs c with
  | false => rfl
  | true =>
    rcases isWs_iff.1 h with rfl | rfl | rfl | rfl | rfl <;> revert this <;> decide

/-- **C106 (options).** `get_options_for_year_make_model` lists, in the order of the table, every vehicle of the year with
exactly this make and this model, each with its engine families. -/
theorem C106_options {A : Archive K} {pre post make model : Txt} {y : Nat} {T : YearTables K} (h1 : ∀ c ∈ pre, Blank c)
    (h2 : ∀ c ∈ post, Blank c) (hy : y < 4294967296) (hT : A y = some T) :
    ∃ l, optionsFor A (pre ++ digitsOf y ++ post) make model = .ok l ∧
      PicksRows (fun r : FeRow K => r.make = make ∧ r.model = model) T.vehicles (l.map fun fe => fe.toFeRow) ∧
      ∀ fe ∈ l, Joined T fe := by
  unfold optionsFor
  rw [parse_year h1 h2 hy]
  simp only [hT]
  refine ⟨_, rfl, ?_, fun fe hfe => joined_iff.1 (List.mem_filter.1 hfe).1⟩
  have := picksRows_filter (fun v : FeRow K => decide (v.make = make ∧ v.model = model)) T.vehicles
  have e : (T.data.filter fun v => decide (v.make = make ∧ v.model = model)).map (fun fe => fe.toFeRow) =
      T.vehicles.filter fun v => decide (v.make = make ∧ v.model = model) := by
    rw [← data_map T, List.filter_map]; rfl
  rw [e]
  simpa using this

/-- **C106 (years that are not there).** Without tables for the year, or if the year is no number, all lookups are errors. -/
theorem C106_no_year {A : Archive K} {year make model : Txt} (id : Int)
    (h : parseU32 (trimTxt year) = none ∨ ∃ y, parseU32 (trimTxt year) = some y ∧ A y = none) :
    optionsFor A year make model = .error .err ∧ dataForId A id year = .error .err := by
  unfold optionsFor dataForId
  rcases h with h | ⟨y, h, hA⟩
  · rw [h]; exact ⟨rfl, rfl⟩
  · rw [h]; simp only [hA, and_self]

theorem find_id {T : YearTables K} {id : Int} {fe : FeData K} :
    (T.data.find? fun v => decide (v.id = id)) = some fe ↔ FirstWithId T id fe.toFeRow ∧ Joined T fe := by
  rw [List.find?_eq_some_iff_append]
  constructor
  · rintro ⟨h1, as, bs, h2, h3⟩
    refine ⟨⟨as.map (fun f => f.toFeRow), bs.map (fun f => f.toFeRow), ?_, of_decide_eq_true h1, fun q hq => ?_⟩,
      joined_iff.1 (by rw [h2]; simp)⟩
    · rw [← data_map T, h2]; simp
    · obtain ⟨f, hf, rfl⟩ := List.mem_map.1 hq
      simpa using h3 f hf
  · rintro ⟨⟨pre, post, h1, h2, h3⟩, hj⟩
    refine ⟨decide_eq_true h2, ?_⟩
    have hd := h1
    rw [← data_map T] at hd
    obtain ⟨as, b, hs, e2, e3⟩ := List.map_eq_append_iff.1 hd
    obtain ⟨f, bs, e4, e5, -⟩ := List.map_eq_cons_iff.1 e3
    have hf : f = fe := by
      have jf : Joined T f := joined_iff.1 (by rw [hs, e4]; simp)
      obtain ⟨fr, ff⟩ := f
      obtain ⟨gr, gf⟩ := fe
      simp only at e5
      subst e5
      have := jf.families.trans hj.families.symm
      simp only at this
      rw [this]
    refine ⟨as, bs, by rw [hs, e4, hf], fun a ha => ?_⟩
    have := h3 a.toFeRow (by rw [← e2]; exact List.mem_map.2 ⟨a, ha, rfl⟩)
    simpa using this

/-- **C106 (identifiers).** `get_vehicle_data_for_id` gives the first vehicle of the year with the identifier; if there is none
it is an error. -/
theorem C106_id {A : Archive K} {pre post : Txt} {y : Nat} {T : YearTables K} (h1 : ∀ c ∈ pre, Blank c)
    (h2 : ∀ c ∈ post, Blank c) (hy : y < 4294967296) (hT : A y = some T) (id : Int) :
    (∀ fe, dataForId A id (pre ++ digitsOf y ++ post) = .ok fe ↔ FirstWithId T id fe.toFeRow ∧ Joined T fe) ∧
    ((∀ r ∈ T.vehicles, r.id ≠ id) → dataForId A id (pre ++ digitsOf y ++ post) = .error .err) := by
  unfold dataForId
  rw [parse_year h1 h2 hy]
  simp only [hT]
  constructor
  · intro fe
    rw [← find_id]
    cases T.data.find? fun v => decide (v.id = id) with
    | none => simp
    | some f => simp
  · intro hn
    have : (T.data.find? fun v => decide (v.id = id)) = none := by
      rw [List.find?_eq_none]
      intro fe hfe
      simpa using hn _ (joined_iff.1 hfe).row
    rw [this]

end Order

section Field
variable {K : Type*} [Field K] [LinearOrder K] [IsStrictOrderedRing K]

/-- **C106 (import by identifier).** `vehicle_import_by_id_and_year` gives a vehicle exactly if the year has a vehicle with this
identifier, a test matches it, and the vehicle can be built; it is then built from the first such vehicle and the best test. -/
theorem C106_import_id {R : ImportFns K} {fit : Fit K} {A : Archive K} {id : Int} {year : Nat} {o : OtherInputs K}
    {v : ImportedVeh K} : importById R fit A id year o = .ok v ↔
      ∃ T fe gears kind e, A year = some T ∧ FirstWithId T id fe.toFeRow ∧ Joined T fe ∧
        transmissionSpecs fe.transmission = .ok (gears, kind) ∧ BestTest R fe gears kind T.tests e ∧
        makeVehicle fit fe.toFeRow e o = .ok (some v) := by
  unfold importById
  constructor
  · intro h
    split at h
    · cases h
    · rename_i T hT
      split at h
      · cases h
      · rename_i fe hfe
        split at h
        · cases h
        · cases h
        · rename_i e he
          split at h
          · cases h
          · cases h
          · rename_i w hw
            cases h
            obtain ⟨g, k, hg, hb⟩ := C106_best.1 he
            obtain ⟨f1, f2⟩ := find_id.1 hfe
            exact ⟨T, fe, g, k, e, hT, f1, f2, hg, hb, hw⟩
  · rintro ⟨T, fe, g, k, e, hT, f1, f2, hg, hb, hw⟩
    rw [hT]
    simp only [find_id.2 ⟨f1, f2⟩, C106_best.2 ⟨g, k, hg, hb⟩, hw]

/-- What is made of a vehicle of fueleconomy.gov: nothing if no test matches it. -/
def Made (R : ImportFns K) (fit : Fit K) (tests : List (EpaRow K)) (o : OtherInputs K) (fe : FeData K)
    (made : List (ImportedVeh K)) : Prop :=
  (matchEpa R fe tests = .ok none ∧ made = []) ∨
  (∃ e, matchEpa R fe tests = .ok (some e) ∧ makeVehicle fit fe.toFeRow e o = .ok none ∧ made = []) ∨
  (∃ e v name, matchEpa R fe tests = .ok (some e) ∧ makeVehicle fit fe.toFeRow e o = .ok (some v) ∧
    made = [{ v with name := name }] ∧ v.name <+: name ∧ ("Hybrid".toList = fe.altVehType → "Hybrid, ".toList <:+: name) ∧
    (fe.altVehType = "EV".toList → name = v.name ++ " (EV)".toList) ∧
    (fe.altVehType ≠ "EV".toList → fe.transmission <:+: name))

theorem fullName_spec (fe : FeRow K) (name : Txt) : name <+: fullName fe name ∧
    ("Hybrid".toList = fe.altVehType → "Hybrid, ".toList <:+: fullName fe name) ∧
    (fe.altVehType = "EV".toList → fullName fe name = name ++ " (EV)".toList) ∧
    (fe.altVehType ≠ "EV".toList → fe.transmission <:+: fullName fe name) := by
  unfold fullName
  refine ⟨?_, fun h => ?_, fun h => by rw [if_pos h], fun h => ?_⟩
  · split
    · exact ⟨_, rfl⟩
    · simp only [List.append_assoc]; exact ⟨_, rfl⟩
  · rw [if_neg (by rw [← h]; decide)]
    simp only [← h]
    rw [if_neg (by decide)]
    refine ⟨name ++ " ( ".toList, " ".toList ++ fe.cylinders ++ " cylinders, ".toList ++ fe.displ ++ " L, ".toList ++
      fe.transmission ++ " )".toList, ?_⟩
    simp only [List.append_assoc]
    rfl
  · rw [if_neg h]
    exact ⟨_, " )".toList, rfl⟩

theorem importRecord_spec {R : ImportFns K} {fit : Fit K} {r : InputRecord K} {tests : List (EpaRow K)} :
    ∀ {l : List (FeData K)} {vs : List (ImportedVeh K)}, importRecord R fit r tests l = .ok vs →
      ∃ parts, vs = parts.flatten ∧ List.Forall₂ (Made R fit tests r.other) l parts
  | [], vs, h => by
    cases h
    exact ⟨[], rfl, .nil⟩
  | fe :: l, vs, h => by
    unfold importRecord at h
    obtain ⟨hit, h1, h⟩ := rsBind_ok h
    obtain ⟨rest, h2, h⟩ := rsBind_ok h
    cases h
    obtain ⟨parts, e1, e2⟩ := importRecord_spec h2
    refine ⟨hit :: parts, by rw [e1]; rfl, .cons ?_ e2⟩
    unfold importRow at h1
    split at h1
    · cases h1
    · rename_i hm
      cases h1
      exact Or.inl ⟨hm, rfl⟩
    · rename_i e hm
      split at h1
      · cases h1
      · rename_i hv
        cases h1
        exact Or.inr (Or.inl ⟨e, hm, hv, rfl⟩)
      · rename_i v hv
        cases h1
        obtain ⟨n1, n2, n3, n4⟩ := fullName_spec fe.toFeRow v.name
        exact Or.inr (Or.inr ⟨e, v, _, hm, hv, rfl, n1, n2, n3, n4⟩)

/-- **C106 (all vehicles of a name).** `import_all_vehicles` makes, in the order of the table, one vehicle of every vehicle of
the year whose make and model are the given ones up to case and surrounding blanks and that some test matches. -/
theorem C106_import_all {R : ImportFns K} {fit : Fit K} {A : Archive K} {year : Nat} {make model : Txt} {o : OtherInputs K}
    {T : YearTables K} (hT : A year = some T) {vs : List (ImportedVeh K)}
    (h : importAll R fit A year make model o = .ok vs) :
    ∃ fes parts, PicksRows (fun r : FeRow K => r.year = year ∧ SameName r.make make ∧ SameName r.model model) T.vehicles
        (fes.map fun fe => fe.toFeRow) ∧ (∀ fe ∈ fes, Joined T fe) ∧
      List.Forall₂ (Made R fit T.tests o) fes parts ∧ vs = parts.flatten := by
  unfold importAll at h
  simp only [hT] at h
  unfold importRecords at h
  simp only [hT] at h
  cases hr : importRecord R fit ⟨make, model, year, [], o⟩ T.tests (askedFor ⟨make, model, year, [], o⟩ T.data) with
  | error x => rw [hr] at h; cases h
  | ok ws =>
    rw [hr] at h
    have hvs : vs = ws := by
      have := Except.ok.inj h
      rw [← this]
      show ((ws.map fun v => _) ++ []).map Prod.snd = ws
      rw [List.append_nil, List.map_map]
      conv_rhs => rw [← List.map_id ws]
      rfl
    obtain ⟨parts, e1, e2⟩ := importRecord_spec hr
    refine ⟨_, parts, ?_, fun fe hfe => ?_, e2, by rw [hvs, e1]⟩
    · have := picksRows_filter (fun v : FeRow K => decide (v.year = year ∧ trimTxt (lowerTxt v.make) = trimTxt (lowerTxt make) ∧
        trimTxt (lowerTxt v.model) = trimTxt (lowerTxt model))) T.vehicles
      have e : (askedFor ⟨make, model, year, [], o⟩ T.data).map (fun fe => fe.toFeRow) =
          T.vehicles.filter fun v => decide (v.year = year ∧ trimTxt (lowerTxt v.make) = trimTxt (lowerTxt make) ∧
            trimTxt (lowerTxt v.model) = trimTxt (lowerTxt model)) := by
        unfold askedFor
        conv_rhs => rw [← data_map T, List.filter_map]
        rfl
      rw [e]
      refine ⟨this.1, fun a ha => ?_, fun q hq hp => this.2.2 q hq fun a ha => decide_eq_true ?_⟩
      · have h0 := this.2.1 a ha
        simp only [decide_eq_true_eq] at h0
        exact h0
      · exact hp a ha
    · unfold askedFor at hfe
      exact joined_iff.1 (List.mem_filter.1 hfe).1

/-- **C106 (one description stops all).** If the transmission of one of the vehicles asked for cannot be read, there is no result
at all. -/
theorem C106_all_panic {R : ImportFns K} {fit : Fit K} {A : Archive K} {year : Nat} {make model : Txt} {o : OtherInputs K}
    {T : YearTables K} (hT : A year = some T) {fe : FeData K} (hj : Joined T fe) (hy : fe.year = year)
    (hm : SameName fe.make make) (hn : SameName fe.model model) {x : RsErr} (hx : transmissionSpecs fe.transmission = .error x) :
    ∃ x', importAll R fit A year make model o = .error x' := by
  cases h : importAll R fit A year make model o with
  | error x' => exact ⟨x', rfl⟩
  | ok vs =>
    exfalso
    unfold importAll at h
    simp only [hT] at h
    unfold importRecords at h
    simp only [hT] at h
    cases hr : importRecord R fit ⟨make, model, year, [], o⟩ T.tests (askedFor ⟨make, model, year, [], o⟩ T.data) with
    | error x => rw [hr] at h; cases h
    | ok ws =>
      obtain ⟨parts, -, e2⟩ := importRecord_spec hr
      have hmem : fe ∈ askedFor ⟨make, model, year, [], o⟩ T.data := by
        unfold askedFor
        rw [List.mem_filter]
        exact ⟨joined_iff.2 hj, decide_eq_true ⟨hy, hm, hn⟩⟩
      have hx' : matchEpa R fe T.tests = .error x := by unfold matchEpa; rw [hx]
      have : ∀ {l : List (FeData K)} {p : List (List (ImportedVeh K))}, List.Forall₂ (Made R fit T.tests o) l p → fe ∉ l := by
        intro l p hf
        induction hf with
        | nil => simp
        | cons ha _ ih =>
          rename_i f _ _ _
          intro hc
          rcases List.mem_cons.1 hc with rfl | hc
          · rcases ha with ⟨h1, -⟩ | ⟨e, h1, -⟩ | ⟨e, v, n, h1, -⟩ <;> rw [hx'] at h1 <;> cases h1
          · exact ih hc
      exact this e2 hmem

/-! ### Files -/

/-- **C106 (file names).** Of all vehicles that a run imports, the first gets the file name of its record; the one with number
k > 0, counted over all records, gets the name with "-k" before the extension, also if its record gave just one vehicle. -/
theorem C106_files {l : List (InputRecord K × ImportedVeh K)} : ∀ {i : Nat} {fs : List (Txt × ImportedVeh K)},
    saveLoop i l = .ok fs → fs.map Prod.snd = l.map Prod.snd ∧
      ∀ k rv, l[k]? = some rv → (i + k = 0 → (fs.map Prod.fst)[k]? = some rv.1.outputFileName) ∧
        (0 < i + k → ∃ stem ext, lastPart rv.1.outputFileName = stem ++ '.' :: ext ∧ '.' ∉ ext ∧
          (fs.map Prod.fst)[k]? = some (stem ++ '-' :: digitsOf (i + k) ++ '.' :: ext)) := by
  induction l with
  | nil =>
    intro i fs h
    cases h
    exact ⟨rfl, fun k rv h => by simp at h⟩
  | cons rv l ih =>
    intro i fs h
    obtain ⟨r, v⟩ := rv
    unfold saveLoop at h
    split at h
    · cases h
    · rename_i name hname
      split at h
      · cases h
      · rename_i rest hrest
        cases h
        obtain ⟨g1, g2⟩ := ih hrest
        refine ⟨by rw [List.map_cons, List.map_cons, g1], fun k rv' hk => ?_⟩
        cases k with
        | zero =>
          obtain rfl : (r, v) = rv' := by simpa using hk
          unfold saveName at hname
          constructor
          · intro hi
            rw [if_neg (by omega)] at hname
            simpa using (Except.ok.inj hname).symm
          · intro hi
            rw [if_pos (by omega)] at hname
            split at hname
            · cases hname
            · rename_i stem ext hs
              refine ⟨stem, ext, ?_⟩
              have hn := Except.ok.inj hname
              unfold stemAndExt at hs
              simp only at hs
              split at hs
              · cases hs
              · rename_i hne
                rw [not_or] at hne
                obtain ⟨hs1, hs2⟩ := Prod.mk.inj hs
                have hs2 := Option.some.inj hs2
                generalize hL : lastPart r.outputFileName = L at *
                have hdot : '.' ∉ ext := by
                  rw [← hs2, List.mem_reverse]
                  intro hc
                  have := List.all_eq_true.1 (List.all_takeWhile (p := fun c => decide (c ≠ '.')) (l := L.reverse)) '.' hc
                  simp at this
                have hsplit := List.takeWhile_append_dropWhile (p := fun c => decide (c ≠ '.')) (l := L.reverse)
                have hlen : ((L.reverse.takeWhile fun c => decide (c ≠ '.'))).length ≠ L.length := by
                  simpa using hne.1
                have hdrop : (L.reverse.dropWhile fun c => decide (c ≠ '.')) ≠ [] := by
                  intro h0
                  rw [h0, List.append_nil] at hsplit
                  apply hlen
                  rw [hsplit, List.length_reverse]
                obtain ⟨c, t, ht⟩ := List.exists_cons_of_ne_nil hdrop
                have hc : c = '.' := by
                  have := List.head_dropWhile_not (p := fun c => decide (c ≠ '.')) (l := L.reverse) hdrop
                  simp only [ht, List.head_cons] at this
                  simpa using this
                have hL' : L = t.reverse ++ '.' :: ext := by
                  have := congrArg List.reverse hsplit
                  rw [ht, List.reverse_append, List.reverse_reverse, List.reverse_cons, hs2, hc] at this
                  rw [← this]; simp
                have hst : stem = t.reverse := by
                  rw [← hs1, hs2, hL']
                  refine List.take_left' ?_
                  simp only [List.length_append, List.length_cons]
                  omega
                refine ⟨by rw [hst]; exact hL', hdot, ?_⟩
                rw [← hn]
                simp
        | succ k =>
          have hk' : l[k]? = some rv' := by simpa using hk
          obtain ⟨f1, f2⟩ := g2 k rv' hk'
          constructor
          · intro hi; omega
          · intro hi
            obtain ⟨stem, ext, q1, q2, q3⟩ := f2 (by omega)
            refine ⟨stem, ext, q1, q2, ?_⟩
            rw [List.map_cons, List.getElem?_cons_succ, q3]
            rw [show i + 1 + k = i + (k + 1) by omega]

theorem last_split {c : Char} {a b x y : Txt} (hx : c ∉ x) (hy : c ∉ y) (h : a ++ c :: x = b ++ c :: y) : a = b ∧ x = y := by
  rcases List.append_eq_append_iff.1 h with ⟨t, h1, h2⟩ | ⟨t, h1, h2⟩
  · cases t with
    | nil => exact ⟨by simpa using h1.symm, (List.cons.inj h2).2⟩
    | cons d t =>
      obtain ⟨-, h3⟩ := List.cons.inj h2
      exact absurd (by rw [h3]; simp) hx
  · cases t with
    | nil => exact ⟨by simpa using h1, (List.cons.inj h2).2.symm⟩
    | cons d t =>
      obtain ⟨-, h3⟩ := List.cons.inj h2
      exact absurd (by rw [h3]; simp) hy

/-- **C106 (no later file is lost).** No two vehicles but the first get the same file, whatever names the records have. (The
file of the first one may be overwritten, see `ImportDemo.C106_files_found`.) -/
theorem C106_files_distinct {l : List (InputRecord K × ImportedVeh K)} {fs : List (Txt × ImportedVeh K)}
    (h : saveLoop 0 l = .ok fs) : ((fs.map Prod.fst).tail).Nodup := by
  obtain ⟨g1, g2⟩ := C106_files h
  have hl : fs.length = l.length := by simpa using congrArg List.length g1
  rw [List.nodup_iff_getElem?_ne_getElem?]
  intro i j hij hj
  rw [List.length_tail, List.length_map] at hj
  rw [List.getElem?_tail, List.getElem?_tail]
  obtain ⟨ri, hri⟩ : ∃ r, l[i + 1]? = some r := ⟨_, List.getElem?_eq_getElem (by omega)⟩
  obtain ⟨rj, hrj⟩ : ∃ r, l[j + 1]? = some r := ⟨_, List.getElem?_eq_getElem (by omega)⟩
  obtain ⟨si, ei, -, di, qi⟩ := (g2 (i + 1) ri hri).2 (by omega)
  obtain ⟨sj, ej, -, dj, qj⟩ := (g2 (j + 1) rj hrj).2 (by omega)
  rw [qi, qj]
  intro he
  have he := Option.some.inj he
  obtain ⟨h1, -⟩ := last_split di dj he
  obtain ⟨-, h2⟩ := last_split (not_mem_digitsOf '-' (by decide)) (not_mem_digitsOf '-' (by decide)) h1
  have := congrArg digitsNum h2
  rw [digitsNum_digitsOf, digitsNum_digitsOf] at this
  omega

end Field

/-! ### Concrete cases -/

namespace ImportDemo

/-- Rounding half up, and the two displacements that occur below. -/
def fns : ImportFns ℚ where
  parse s := if s = "3.5".toList then some (35 / 10) else if s = "2.5".toList then some (25 / 10) else none
  round x := ⌊x + 1 / 2⌋

/-- A fit that always finds the same coefficients. -/
def fit : Fit ℚ := fun _ _ _ _ => .ok (3 / 10, 9 / 1000)

/-- The Camry of the tests of the repository (vehicle_import.rs:1503-1612). -/
def camry : FeRow ℚ where
  id := 32204
  year := 2020
  make := "Toyota".toList
  model := "Camry".toList
  drive := "Front-Wheel Drive".toList
  altVehType := []
  fuel1 := "Regular Gasoline".toList
  cylinders := "6".toList
  displ := "3.5".toList
  transmission := "Automatic (S8)".toList
  startStop := "N".toList
  rangeEv := 0
  cityMpg := 164596 / 10000
  highwayMpg := 225568 / 10000
  combMpg := 187389 / 10000

/-- Its test. -/
def camryTest : EpaRow ℚ where
  year := 2020
  make := "TOYOTA".toList
  model := "CAMRY".toList
  testId := "JTYXV03.5M5B".toList
  displ := 3456 / 1000
  engPwrHp := 301
  cylinders := "6".toList
  transmissionCode := "A".toList
  transmissionType := "Automatic".toList
  gears := 8
  driveCode := "F".toList
  drive := "2-Wheel Drive, Front".toList
  testWeightLbs := 3875
  testFuelType := "61".toList
  aLbf := 24843 / 1000
  bLbfPerMph := 40298 / 100000
  cLbfPerMph2 := 15068 / 1000000

/-- The test of a smaller engine, listed before. -/
def smallTest : EpaRow ℚ := { camryTest with displ := 2487 / 1000, engPwrHp := 203, cylinders := "4".toList }

/-- A test whose name repeats the name of the model. -/
def repeatTest : EpaRow ℚ := { smallTest with model := "Camry Camry Camry".toList, testId := [] }

def other : OtherInputs ℚ := ⟨724 / 10, 569 / 10, 158 / 10, 0, 0, 0, none⟩

/-- The same vehicle under another identifier, with a smaller engine. -/
def small : FeRow ℚ := { camry with id := 32205, cylinders := "4".toList, displ := "2.5".toList }

/-- Two vehicles and two tests of 2020. -/
def tables : YearTables ℚ where
  vehicles := [camry, small]
  emissions := [(some 32204, "LTYXV03.5M5B".toList), (none, "X".toList)]
  tests := [smallTest, camryTest]

def archive : Archive ℚ := fun y => if y = 2020 then some tables else none

/-- The hypotheses of the theorems are met: the year 2020 has two vehicles of this name and the first identifier is found. -/
theorem C106_tables_demo :
    (match optionsFor archive " 2020 ".toList "Toyota".toList "Camry".toList with
      | .ok l => decide (l.map (fun fe => fe.id) = [32204, 32205] ∧ l.map (fun fe => fe.efids.length) = [1, 0])
      | .error _ => false) = true ∧
    (match dataForId archive 32204 "2020".toList with
      | .ok fe => decide (fe.efids = ["LTYXV03.5M5B".toList]) | .error _ => false) = true ∧
    (match dataForId archive 7 "2020".toList with
      | .error .err => true | _ => false) = true ∧
    (match optionsFor archive "2021".toList "Toyota".toList "Camry".toList with
      | .error .err => true | _ => false) = true := by
  decide +kernel

/-- The larger engine is matched to its own test although another one is listed before, and the vehicle weighs what was
tested. -/
theorem C106_import_demo :
    (match importById fns fit archive 32204 2020 other with
      | .ok v => decide (v.obj.vehKg = 3875 / (220462 / 100000) ∧ v.obj.fcMaxKw = 301 / (134102 / 100000) ∧
          v.obj.dragCoef = 3 / 10 ∧ v.name = "2020 Toyota Camry".toList ∧ v.obj.ptType = .conv)
      | .error _ => false) = true ∧
    (match importById fns fit archive 32205 2020 other with
      | .ok v => decide (v.obj.fcMaxKw = 203 / (134102 / 100000))
      | .error _ => false) = true := by
  decide +kernel

/-- Found: looking up the options needs the very spelling of the table, importing does not. -/
theorem C106_case_found :
    (match optionsFor archive "2020".toList "TOYOTA".toList "camry ".toList with
      | .ok l => l.isEmpty | .error _ => false) = true ∧
    (match importAll fns fit archive 2020 "TOYOTA".toList "camry ".toList other with
      | .ok l => decide (l.map (fun v => v.name) = ["2020 Toyota Camry (  6 cylinders, 3.5 L, Automatic (S8) )".toList,
          "2020 Toyota Camry (  4 cylinders, 2.5 L, Automatic (S8) )".toList])
      | .error _ => false) = true := by
  decide +kernel

/-- Found: a test whose name repeats a word of the model counts it every time and is preferred to the test with exactly the
name of the model and the right engine. -/
theorem C106_repeat_found :
    nameMatch { camry with efids := [] } camryTest = some 1 ∧ nameMatch { camry with efids := [] } repeatTest = some 3 ∧
    (match matchEpa fns { camry with efids := [] } [camryTest, repeatTest] with
      | .ok (some e) => decide (e = repeatTest) | _ => false) = true := by
  decide +kernel

/-- Found: with an engine family of a single letter every test group of the make is the right one, whatever the model. -/
theorem C106_family_found :
    nameMatch { camry with efids := ["L".toList] } { camryTest with model := "TACOMA".toList } = some 1 ∧
    nameMatch { camry with efids := [] } { camryTest with model := "TACOMA".toList } = some 0 := by
  decide +kernel

def record (name : String) : InputRecord ℚ := ⟨"Toyota".toList, "Camry".toList, 2020, name.toList, other⟩

/-- Found: the number is counted over all records, so the first vehicle of a second record has a number too, and the file of
the first vehicle can be overwritten by a later one. A name without an extension is accepted for a single vehicle only. -/
theorem C106_files_found :
    (match importAndSave fns fit archive [record "a-1.yaml", record "b.yaml"] with
      | .ok fs => decide (fs.map Prod.fst = ["a-1.yaml".toList, "a-1-1.yaml".toList, "b-2.yaml".toList, "b-3.yaml".toList])
      | .error _ => false) = true ∧
    (match importAndSave fns fit archive [{ record "a-2.yaml" with model := "Camry".toList }, record "a.yaml"] with
      | .ok fs => decide (fs.map Prod.fst = ["a-2.yaml".toList, "a-2-1.yaml".toList, "a-2.yaml".toList, "a-3.yaml".toList])
      | .error _ => false) = true ∧
    (match importAndSave fns fit archive [record "camry"] with
      | .error .panic => true | _ => false) = true := by
  decide +kernel

/-- The inputs of the demo are plain, so `C106_builds` applies. -/
theorem C106_builds_demo : PlainInputs camryTest other ∧ (camryTest.testId ≠ [] ∨ camryTest.make ≠ []) := by
  refine ⟨⟨?_, ?_, ?_, ?_, ?_, ?_, ?_, fun x h => by cases h⟩, Or.inl (by decide)⟩ <;> norm_num [camryTest, other]

end ImportDemo
end Fastsim.Props
