import Verif.Props.RsWeb

/-!
# Reading the tables of a year (C125)

What the rows of the tables from fueleconomy.gov and EPA become, and which rows stop the import.
-/

set_option linter.unusedSectionVars false

namespace Fastsim.Spec
open Fastsim

/-- What stands under a heading is a number without sign. -/
def NumberUnder (r : CsvRow) (h : String) (n : Nat) : Prop := ∃ t, under r h = some t ∧ parseU32 t = some n

/-- The engine families of the emission rows whose identifier is `id`, in their order. -/
def familiesOf (rows : List (Option CsvRow)) (id : Int) : List Txt :=
  (rows.reduceOption.filter fun r => decide (((under r "id").bind parseU32).map Nat.cast = some id)).filterMap fun r =>
    under r "efid"

/-- The columns of a vehicle. -/
structure VehicleColumns {K : Type*} (parse : Txt → Option K) (r : CsvRow) (v : FeRow K) : Prop where
  id : ∃ t, under r "id" = some t ∧ (parseU32 t).map Nat.cast = some v.id
  idMax : v.id ≤ 2147483647
  year : NumberUnder r "year" v.year
  make : under r "make" = some v.make
  model : under r "model" = some v.model
  drive : under r "drive" = some v.drive
  alt : under r "atvType" = some v.altVehType
  fuel : under r "fuelType1" = some v.fuel1
  cylinders : under r "cylinders" = some v.cylinders
  displ : under r "displ" = some v.displ
  transmission : under r "trany" = some v.transmission
  startStop : under r "startStop" = some v.startStop
  range : (under r "range").bind parseI32 = some v.rangeEv
  city : (under r "city08U").bind parse = some v.cityMpg
  highway : (under r "highway08U").bind parse = some v.highwayMpg
  comb : (under r "comb08U").bind parse = some v.combMpg

end Fastsim.Spec

namespace Fastsim.Props
open Fastsim Spec

/-! ### Numbers -/

theorem digit_not_ws {c : Char} (h : c.isDigit = true) : isWs c = false := by
  have h1 : '0'.toNat ≤ c.toNat ∧ c.toNat ≤ '9'.toNat := by
    simp only [Char.isDigit, Bool.and_eq_true, decide_eq_true_eq] at h
    exact ⟨h.1, h.2⟩
  have ne : ∀ x : Char, x.toNat < 48 → c ≠ x := by
    rintro x hx rfl
    have : '0'.toNat = 48 := rfl
    omega
  unfold isWs
  simp [ne ' ' (by decide), ne '\t' (by decide), ne '\n' (by decide), ne '\r' (by decide), ne (Char.ofNat 12) (by decide)]

theorem trim_no_ws {s : Txt} (h : ∀ c ∈ s, isWs c = false) : trimTxt s = s := by
  have d : ∀ l : Txt, (∀ c ∈ l, isWs c = false) → l.dropWhile isWs = l := fun l hl => by
    cases l with
    | nil => rfl
    | cons c l => simp [List.dropWhile_cons, hl c (by simp)]
  unfold trimTxt
  rw [d s h, d _ fun c hc => h c (by simpa using hc), List.reverse_reverse]

/-- The characters of a number without sign. -/
theorem parseU32_chars {s : Txt} {n : Nat} (h : parseU32 s = some n) :
    unsigned s ≠ [] ∧ (∀ c ∈ unsigned s, c.isDigit = true) ∧ digitsNum (unsigned s) = n ∧ n < 4294967296 ∧
      ∀ c ∈ s, isWs c = false := by
  unfold parseU32 at h
  simp only at h
  split_ifs at h with hc
  simp only [Option.some.injEq] at h
  have dg : ∀ c ∈ unsigned s, c.isDigit = true := by simpa using hc.2.1
  refine ⟨hc.1, dg, h, h ▸ hc.2.2, fun c hcs => ?_⟩
  by_cases hp : ∃ t, s = '+' :: t
  · obtain ⟨t, rfl⟩ := hp
    rcases List.mem_cons.1 hcs with rfl | ht
    · decide
    · exact digit_not_ws (dg c ht)
  · have : unsigned s = s := by
      unfold unsigned
      split
      · rename_i t
        exact absurd ⟨t, rfl⟩ hp
      · rfl
    rw [this] at dg
    exact digit_not_ws (dg c hcs)

/-- **C125 (identifier).** The identifier of a vehicle is read twice; when both readings succeed they agree. -/
theorem C125_id {t : Txt} {n : Nat} {i : Int} (h1 : parseU32 t = some n) (h2 : parseI32 (trimTxt t) = some i) :
    i = n ∧ n ≤ 2147483647 := by
  obtain ⟨hne, dg, hn, -, ws⟩ := parseU32_chars h1
  rw [trim_no_ws ws] at h2
  have hm : signed t = (false, unsigned t) := by
    by_cases hp : ∃ u, t = '-' :: u
    · obtain ⟨u, rfl⟩ := hp
      exact absurd (dg '-' (by simp [unsigned])) (by decide)
    · unfold signed
      split
      · exact absurd ⟨_, rfl⟩ hp
      · rfl
  unfold parseI32 at h2
  simp only [hm] at h2
  rw [Option.ite_none_right_eq_some] at h2
  obtain ⟨⟨-, -, -, a4⟩, h2⟩ := h2
  simp only [Bool.false_eq_true, if_false, Option.some.injEq] at a4 h2
  omega

section
variable {K B : Type*}

/-- **C125 (columns).** Every value of a vehicle comes from its column. -/
theorem C125_columns {R : ImportFns K} {r : CsvRow} {v : FeRow K} (h : vehicleRow R r = some v) :
    VehicleColumns R.parse r v := by
  unfold vehicleRow at h
  rw [Option.ite_none_right_eq_some] at h
  obtain ⟨hc, h⟩ := h
  rw [Bool.and_eq_true, Bool.and_eq_true, Bool.and_eq_true, Bool.and_eq_true] at hc
  obtain ⟨⟨⟨⟨hid, -⟩, -⟩, -⟩, -⟩ := hc
  obtain ⟨id, hid', h⟩ := Option.bind_eq_some_iff.1 h
  obtain ⟨y, hy, h⟩ := Option.bind_eq_some_iff.1 h
  obtain ⟨mk, hmk, h⟩ := Option.bind_eq_some_iff.1 h
  obtain ⟨md, hmd, h⟩ := Option.bind_eq_some_iff.1 h
  obtain ⟨dr, hdr, h⟩ := Option.bind_eq_some_iff.1 h
  obtain ⟨al, hal, h⟩ := Option.bind_eq_some_iff.1 h
  obtain ⟨fu, hfu, h⟩ := Option.bind_eq_some_iff.1 h
  obtain ⟨cy, hcy, h⟩ := Option.bind_eq_some_iff.1 h
  obtain ⟨di, hdi, h⟩ := Option.bind_eq_some_iff.1 h
  obtain ⟨tr, htr, h⟩ := Option.bind_eq_some_iff.1 h
  obtain ⟨ss, hss, h⟩ := Option.bind_eq_some_iff.1 h
  obtain ⟨rg, hrg, h⟩ := Option.bind_eq_some_iff.1 h
  obtain ⟨ci, hci, h⟩ := Option.bind_eq_some_iff.1 h
  obtain ⟨hw, hhw, h⟩ := Option.bind_eq_some_iff.1 h
  obtain ⟨co, hco, h⟩ := Option.bind_eq_some_iff.1 h
  cases h
  obtain ⟨t, ht, hi⟩ := Option.bind_eq_some_iff.1 hid'
  obtain ⟨ty, hty, hy⟩ := Option.bind_eq_some_iff.1 hy
  rw [ht] at hid
  obtain ⟨n, hn⟩ := Option.isSome_iff_exists.1 hid
  change parseU32 t = some n at hn
  obtain ⟨e, hmax⟩ := C125_id hn hi
  exact ⟨⟨t, ht, by rw [hn, e]; rfl⟩, by show id ≤ _; omega, ⟨ty, hty, hy⟩, hmk, hmd, hdr, hal, hfu, hcy, hdi, htr, hss, hrg,
    hci, hhw, hco⟩

/-- **Finding (C125).** White space before the identifier of a vehicle stops the import, although the identifier that is kept is
trimmed: it is read for the emission tests first, untrimmed. -/
theorem C125_blank_id {R : ImportFns K} {r : CsvRow} {c : Char} {t : Txt} (hc : isWs c = true)
    (h : under r "id" = some (c :: t) ∨ under r "id" = some (t ++ [c])) : vehicleRow R r = none := by
  have key : ∀ s : Txt, c ∈ s → under r "id" = some s → vehicleRow R r = none := by
    intro s hs hr
    have : parseU32 s = none := by
      rcases hp : parseU32 s with _ | n
      · rfl
      · have := (parseU32_chars hp).2.2.2.2 c hs
        rw [hc] at this; cases this
    rcases hv : vehicleRow R r with _ | v
    · rfl
    · obtain ⟨t, ht, hi⟩ := (C125_columns hv).id
      rw [hr] at ht
      cases ht
      rw [this] at hi
      cases hi
  rcases h with h | h
  · exact key _ (by simp) h
  · exact key _ (by simp) h

/-! ### Tables -/

theorem mapM_nil {A C : Type*} (f : A → Except RsErr C) : ([] : List A).mapM f = .ok [] := rfl

theorem mapM_cons_ok {A C : Type*} {f : A → Except RsErr C} {a : A} {l : List A} {m : List C} :
    (a :: l).mapM f = .ok m ↔ ∃ c m', f a = .ok c ∧ l.mapM f = .ok m' ∧ m = c :: m' := by
  rw [List.mapM_cons]
  rcases f a with e | c
  · constructor
    · intro h; cases h
    · rintro ⟨c, m', h, -⟩; cases h
  · rcases l.mapM f with e | m'
    · constructor
      · intro h; cases h
      · rintro ⟨c, m', -, h, -⟩; cases h
    · constructor
      · intro h; cases h; exact ⟨c, m', rfl, rfl, rfl⟩
      · rintro ⟨c, m', h, h', rfl⟩; cases h; cases h'; rfl

/-- One result for every element. -/
theorem mapM_ok {A C : Type*} {f : A → Except RsErr C} {l : List A} {m : List C} :
    l.mapM f = .ok m ↔ List.Forall₂ (fun a c => f a = .ok c) l m := by
  induction l generalizing m with
  | nil => rw [mapM_nil]; constructor
           · intro h; cases h; exact .nil
           · intro h; cases h; rfl
  | cons a l ih =>
    rw [mapM_cons_ok]
    constructor
    · rintro ⟨c, m', h, h', rfl⟩
      exact .cons h (ih.1 h')
    · intro h
      cases h with
      | cons h h' => exact ⟨_, _, h, ih.2 h', rfl⟩

/-- **C125 (vehicles).** Reading the vehicles succeeds exactly if every row can be read and its values fit; there is then one
vehicle for every row, in their order. -/
theorem C125_vehicles (R : ImportFns K) (T : Tables K B) (b : List B) (l : List (FeRow K)) :
    readVehicles R T b = .ok l ↔ List.Forall₂ (fun r v => ∃ x, r = some x ∧ vehicleRow R x = some v) (T.rows b) l := by
  unfold readVehicles
  rw [mapM_ok]
  constructor
  · refine List.Forall₂.imp fun r v h => ?_
    cases r with
    | none => cases h
    | some x =>
      refine ⟨x, rfl, ?_⟩
      dsimp only at h
      rcases hx : vehicleRow R x with _ | w
      · rw [hx] at h; cases h
      · rw [hx] at h; cases h; rfl
  · refine List.Forall₂.imp fun r v h => ?_
    obtain ⟨x, rfl, hx⟩ := h
    show orPanic (vehicleRow R x) = _
    rw [hx]; rfl

/-- **C125 (emission tests).** When the emission tests can be read, the engine families of a vehicle are those of the rows with its
identifier. -/
theorem C125_families {R : ImportFns K} {T : Tables K B} {b : List B} {l : List (Option Int × Txt)}
    (h : readEmissions R T b = .ok l) (id : Int) :
    (l.filter fun e => decide (e.1 = some id)).map Prod.snd = familiesOf (T.rows b) id := by
  unfold readEmissions at h
  rcases hm : (T.rows b).mapM (emissionRow R) with x | m
  · rw [hm] at h; cases h
  rw [hm] at h
  cases h
  rw [mapM_ok] at hm
  unfold familiesOf
  generalize T.rows b = rows at hm
  induction hm with
  | nil => rfl
  | @cons r c rows m h _ ih =>
    rw [List.flatten_cons, List.filter_append, List.map_append, ih]
    cases r with
    | none =>
      cases h
      simp [List.reduceOption]
    | some x =>
      rw [show (some x :: rows).reduceOption = x :: rows.reduceOption from rfl]
      unfold emissionRow at h
      dsimp only at h
      rcases hid : under x "id" with _ | t
      · rw [hid] at h; cases h
        simp [hid]
      · rw [hid] at h
        dsimp only at h
        rcases hn : parseU32 t with _ | n
        · rw [hn] at h; cases h
          simp [hid, hn]
        · rw [hn] at h
          dsimp only at h
          split_ifs at h with hc
          · rcases he : under x "efid" with _ | e
            · rw [he] at h; cases h
            · rw [he] at h; cases h
              by_cases hi : (n : Int) = id
              · simp [hid, hn, he, hi]
              · simp [hid, hn, hi]
          · cases h

/-- **C125 (rows that do not count).** Rows of the emission tests that cannot be read, that have no identifier or one that is no
number make no difference. -/
theorem C125_skipped (R : ImportFns K) {r : Option CsvRow}
    (h : ∀ x, r = some x → (under x "id").bind parseU32 = none) : emissionRow R r = .ok [] := by
  cases r with
  | none => rfl
  | some x =>
    have := h x rfl
    unfold emissionRow
    dsimp only
    rcases hid : under x "id" with _ | t
    · rfl
    · rw [hid] at this
      change parseU32 t = none at this
      dsimp only
      rw [this]

/-- **C125 (rows that stop the import).** A row of the emission tests with a number as identifier but without one for the score,
as where it is `N/A`, is a panic, whether or not any asked vehicle has this identifier. -/
theorem C125_score {R : ImportFns K} {T : Tables K B} {b : List B} {x : CsvRow} (hx : some x ∈ T.rows b)
    (hid : ((under x "id").bind parseU32).isSome = true) (hs : (under x "score").bind R.parse = none) :
    readEmissions R T b = .error .panic := by
  have bad : emissionRow R (some x) = .error .panic := by
    unfold emissionRow
    dsimp only
    rcases h : under x "id" with _ | t
    · rw [h] at hid; cases hid
    · rw [h] at hid
      change (parseU32 t).isSome = true at hid
      obtain ⟨n, hn⟩ := Option.isSome_iff_exists.1 hid
      dsimp only
      rw [hn]
      dsimp only
      rw [hs]
      rfl
  have only : ∀ r e, emissionRow R r = .error e → e = .panic := by
    intro r e h
    unfold emissionRow at h
    split at h
    · cases h
    · split at h
      · cases h
      · split at h
        · cases h
        · unfold orPanic at h
          split at h
          · cases h
          · cases h; rfl
  unfold readEmissions
  have : (T.rows b).mapM (emissionRow R) = .error .panic := by
    generalize T.rows b = rows at hx
    induction rows with
    | nil => cases hx
    | cons r rows ih =>
      rw [List.mapM_cons]
      rcases hr : emissionRow R r with e | c
      · rw [only r e hr]; rfl
      · rcases List.mem_cons.1 hx with rfl | hx
        · rw [bad] at hr; cases hr
        · rw [ih hx]; rfl
  rw [this]; rfl

/-! ### Years -/

theorem openWith_ok {A : Type*} {read : List B → Except RsErr A} {d : RsDisk Txt B} {f : DataFile} {y : Nat} {p : Nat × A} :
    openWith read d f y = .ok p ↔ p.1 = y ∧ ∃ b, d (dataName y f) = some b ∧ read b = .ok p.2 := by
  unfold openWith
  rcases d (dataName y f) with _ | b
  · simp
  · dsimp only
    rcases hr : read b with e | a
    · simp [hr]
    · constructor
      · intro h; cases h; exact ⟨rfl, b, rfl, hr⟩
      · rintro ⟨rfl, b', hb, h⟩
        cases hb
        rw [hr] at h; cases h; rfl

/-- What the table of a year is, after loading tables for several years. -/
theorem ofYear_loaded {A : Type*} {read : List B → Except RsErr A} {d : RsDisk Txt B} {f : DataFile} {ys : List Nat}
    {l : List (Nat × A)} (h : ys.mapM (openWith read d f) = .ok l) (y : Nat) :
    (y ∈ ys → ∃ a b, ofYear l y = some a ∧ d (dataName y f) = some b ∧ read b = .ok a) ∧ (y ∉ ys → ofYear l y = none) := by
  rw [mapM_ok] at h
  induction h with
  | nil => exact ⟨fun h => by simp at h, fun _ => rfl⟩
  | @cons z p ys l hz _ ih =>
    obtain ⟨e, b, hb, hr⟩ := openWith_ok.1 hz
    by_cases hy : z = y
    · subst hy
      refine ⟨fun _ => ⟨p.2, b, ?_, hb, hr⟩, fun h => absurd (List.mem_cons_self) h⟩
      simp [ofYear, e]
    · have : ofYear (p :: l) y = ofYear l y := by
        unfold ofYear
        rw [List.find?_cons_of_neg (by simpa [e] using hy)]
      rw [this]
      refine ⟨fun h => ih.1 ((List.mem_cons.1 h).resolve_left (Ne.symm hy)), fun h => ih.2 fun h' => h (List.mem_cons_of_mem _ h')⟩

/-- **C125 (years).** Loading gives, for every asked year, the tables in the files of this year, and nothing for the others. -/
theorem C125_years {R : ImportFns K} {T : Tables K B} {d : RsDisk Txt B} {ys : List Nat} {Y : Archive K}
    (h : loadAll R T d ys = .ok Y) (y : Nat) :
    (y ∈ ys → ∃ (tb : YearTables K) (be bv bt : List B), Y y = some tb ∧ d (dataName y .emissions) = some be ∧
      d (dataName y .vehicles) = some bv ∧ d (dataName y .tests) = some bt ∧ readEmissions R T be = .ok tb.emissions ∧
      readVehicles R T bv = .ok tb.vehicles ∧ readTests T bt = .ok tb.tests) ∧ (y ∉ ys → Y y = none) := by
  unfold loadAll loadFe at h
  rcases he : ys.mapM (openWith (readEmissions R T) d .emissions) with x | em
  · rw [he] at h; cases h
  rw [he] at h
  dsimp only at h
  rcases hv : ys.mapM (openWith (readVehicles R T) d .vehicles) with x | ve
  · rw [hv] at h; cases h
  rw [hv] at h
  dsimp only at h
  rcases ht : ys.mapM (openWith (readTests T) d .tests) with x | te
  · rw [ht] at h; cases h
  rw [ht] at h
  cases h
  refine ⟨fun hy => ?_, fun hy => ?_⟩
  · obtain ⟨e, be, e1, e2, e3⟩ := (ofYear_loaded he y).1 hy
    obtain ⟨v, bv, v1, v2, v3⟩ := (ofYear_loaded hv y).1 hy
    obtain ⟨t, bt, t1, t2, t3⟩ := (ofYear_loaded ht y).1 hy
    exact ⟨⟨v, e, t⟩, be, bv, bt, by simp only [e1, v1, t1], e2, v2, t2, e3, v3, t3⟩
  · simp only [(ofYear_loaded he y).2 hy]

/-- The same without the tests of cars. -/
theorem loadFe_one {R : ImportFns K} {T : Tables K B} {d : RsDisk Txt B} {y : Nat} {Y : Archive K}
    (h : loadFe R T d [y] = .ok Y) :
    ∃ (tb : YearTables K) (be bv : List B), Y y = some tb ∧ d (dataName y .emissions) = some be ∧
      d (dataName y .vehicles) = some bv ∧ readEmissions R T be = .ok tb.emissions ∧
      readVehicles R T bv = .ok tb.vehicles := by
  unfold loadFe at h
  rcases he : [y].mapM (openWith (readEmissions R T) d .emissions) with x | em
  · rw [he] at h; cases h
  rw [he] at h
  dsimp only at h
  rcases hv : [y].mapM (openWith (readVehicles R T) d .vehicles) with x | ve
  · rw [hv] at h; cases h
  rw [hv] at h
  cases h
  obtain ⟨e, be, e1, e2, e3⟩ := (ofYear_loaded he y).1 (by simp)
  obtain ⟨v, bv, v1, v2, v3⟩ := (ofYear_loaded hv y).1 (by simp)
  exact ⟨⟨v, e, []⟩, be, bv, by simp only [e1, v1], e2, v2, e3, v3⟩

/-- Vehicles with their engine families, row by row. -/
theorem data_rows {R : ImportFns K} {T : Tables K B} {be bv : List B} {tb : YearTables K}
    (he : readEmissions R T be = .ok tb.emissions) (hv : readVehicles R T bv = .ok tb.vehicles) :
    List.Forall₂ (fun r v => ∃ x, r = some x ∧ VehicleColumns R.parse x v.toFeRow ∧ v.efids = familiesOf (T.rows be) v.id)
      (T.rows bv) tb.data := by
  unfold YearTables.data
  rw [List.forall₂_map_right_iff]
  refine ((C125_vehicles R T bv tb.vehicles).1 hv).imp fun r v h => ?_
  obtain ⟨x, hx, hr⟩ := h
  exact ⟨x, hx, C125_columns hr, C125_families he v.id⟩

variable [Zero K] [One K] [NatCast K] [Add K] [Sub K] [Mul K] [Div K] [Neg K] [LinearOrder K]

/-- **C125 (options).** `get_options_for_year_make_model` gives, of the vehicles in the year's file, one for each of its rows with
the columns of the row and the engine families of the emission tests with its identifier, those with just this make and
model, in their order. -/
theorem C125_options {N : Net B} {R : ImportFns K} {T : Tables K B} {url : Option Txt} {d d' : RsDisk Txt B}
    {year make model : Txt} {l : List (FeData K)} (h : netOptions N R T url d year make model = (d', .ok l)) :
    ∃ (y : Nat) (be bv : List B) (all : List (FeData K)), parseU32 (trimTxt year) = some y ∧
      d' (dataName y .emissions) = some be ∧ d' (dataName y .vehicles) = some bv ∧
      List.Forall₂ (fun r v => ∃ x, r = some x ∧ VehicleColumns R.parse x v.toFeRow ∧ v.efids = familiesOf (T.rows be) v.id)
        (T.rows bv) all ∧
      l = all.filter fun v => decide (v.make = make ∧ v.model = model) := by
  unfold netOptions at h
  rcases hy : parseU32 (trimTxt year) with _ | y
  · rw [hy] at h; cases h
  rw [hy] at h
  dsimp only at h
  unfold withData at h
  rcases hp : populate N (url.getD defaultUrl) d [y] with ⟨d1, e | u⟩
  · rw [hp] at h; cases h
  rw [hp] at h
  dsimp only at h
  rw [Prod.mk.injEq] at h
  obtain ⟨rfl, h⟩ := h
  rcases hl : loadFe R T d1 [y] with e | Y
  · rw [hl] at h; cases h
  rw [hl] at h
  dsimp only at h
  obtain ⟨tb, be, bv, hY, h1, h2, h3, h4⟩ := loadFe_one hl
  unfold optionsFor at h
  rw [hy] at h
  dsimp only at h
  rw [hY] at h
  cases h
  exact ⟨y, be, bv, tb.data, rfl, h1, h2, data_rows h3 h4, rfl⟩

/-- **C125 (a vehicle).** `get_vehicle_data_for_id` gives the first row of the year's file with this identifier. -/
theorem C125_vehicle {N : Net B} {R : ImportFns K} {T : Tables K B} {url : Option Txt} {d d' : RsDisk Txt B} {id : Int}
    {year : Txt} {v : FeData K} (h : netDataForId N R T url d id year = (d', .ok v)) :
    ∃ (y : Nat) (be bv : List B) (all : List (FeData K)), parseU32 (trimTxt year) = some y ∧
      d' (dataName y .emissions) = some be ∧ d' (dataName y .vehicles) = some bv ∧
      List.Forall₂ (fun r v => ∃ x, r = some x ∧ VehicleColumns R.parse x v.toFeRow ∧ v.efids = familiesOf (T.rows be) v.id)
        (T.rows bv) all ∧
      ∃ pre post, all = pre ++ v :: post ∧ v.id = id ∧ ∀ w ∈ pre, w.id ≠ id := by
  unfold netDataForId at h
  rcases hy : parseU32 (trimTxt year) with _ | y
  · rw [hy] at h; cases h
  rw [hy] at h
  dsimp only at h
  unfold withData at h
  rcases hp : populate N (url.getD defaultUrl) d [y] with ⟨d1, e | u⟩
  · rw [hp] at h; cases h
  rw [hp] at h
  dsimp only at h
  rw [Prod.mk.injEq] at h
  obtain ⟨rfl, h⟩ := h
  rcases hl : loadFe R T d1 [y] with e | Y
  · rw [hl] at h; cases h
  rw [hl] at h
  dsimp only at h
  obtain ⟨tb, be, bv, hY, h1, h2, h3, h4⟩ := loadFe_one hl
  unfold dataForId at h
  rw [hy] at h
  dsimp only at h
  rw [hY] at h
  dsimp only at h
  rcases hf : tb.data.find? fun v => decide (v.id = id) with _ | w
  · rw [hf] at h; cases h
  rw [hf] at h
  cases h
  obtain ⟨hid, pre, post, e, hpre⟩ := List.find?_eq_some_iff_append.1 hf
  exact ⟨y, be, bv, tb.data, rfl, h1, h2, data_rows h3 h4, pre, post, e, by simpa using hid, fun w hw => by simpa using hpre w hw⟩

theorem withData_ok {A : Type*} {N : Net B} {url : Option Txt} {d d' : RsDisk Txt B} {ys : List Nat}
    {load : RsDisk Txt B → List Nat → Except RsErr (Archive K)} {f : Archive K → Except RsErr A} {a : A}
    (h : withData N url d ys load f = (d', .ok a)) :
    populate N (url.getD defaultUrl) d ys = (d', .ok ()) ∧ ∃ Y, load d' ys = .ok Y ∧ f Y = .ok a := by
  unfold withData at h
  rcases hp : populate N (url.getD defaultUrl) d ys with ⟨d1, e | u⟩
  · rw [hp] at h; cases h
  rw [hp] at h
  dsimp only at h
  rw [Prod.mk.injEq] at h
  obtain ⟨rfl, h⟩ := h
  refine ⟨rfl, ?_⟩
  rcases hl : load d1 ys with e | Y
  · rw [hl] at h; cases h
  · rw [hl] at h; exact ⟨Y, rfl, h⟩

/-- **C125 (imports).** The imports work on the files of the asked years, of all years of the records when there are several:
they are what C106 says of the tables in these files. -/
theorem C125_imports {N : Net B} {R : ImportFns K} {fit : Fit K} {T : Tables K B} {url : Option Txt} {d d' : RsDisk Txt B} :
    (∀ {id : Int} {year : Nat} {o : OtherInputs K} {v : ImportedVeh K},
      netImportById N R fit T url d id year o = (d', .ok v) →
      populate N (url.getD defaultUrl) d [year] = (d', .ok ()) ∧
        ∃ Y, loadAll R T d' [year] = .ok Y ∧ importById R fit Y id year o = .ok v) ∧
    (∀ {year : Nat} {make model : Txt} {o : OtherInputs K} {l : List (ImportedVeh K)},
      netImportAll N R fit T url d year make model o = (d', .ok l) →
      populate N (url.getD defaultUrl) d [year] = (d', .ok ()) ∧
        ∃ Y, loadAll R T d' [year] = .ok Y ∧ importAll R fit Y year make model o = .ok l) ∧
    ∀ {rs : List (InputRecord K)} {l : List (Txt × ImportedVeh K)}, netImportAndSave N R fit T url d rs = (d', .ok l) →
      ∃ ys : List Nat, ys.Nodup ∧ (∀ y, y ∈ ys ↔ ∃ r ∈ rs, r.year = y) ∧
        populate N (url.getD defaultUrl) d ys = (d', .ok ()) ∧
        ∃ Y, loadAll R T d' ys = .ok Y ∧ importAndSave R fit Y rs = .ok l :=
  ⟨fun h => withData_ok h, fun h => withData_ok h, fun {rs l} h =>
    ⟨(rs.map InputRecord.year).dedup, List.nodup_dedup _, fun y => by simp, withData_ok h⟩⟩

end

/-! ### Concrete cases -/

/-- Numbers for the cases: those without sign. -/
def someFns : ImportFns ℚ := ⟨fun t => (parseU32 t).map Nat.cast, id⟩

/-- A row whose text columns hold `Car` and whose numbers are 1, but for the identifier `i` and the score `sc`. -/
def someRow (i sc : String) : CsvRow := fun h =>
  if h = "id".toList then some i.toList
  else if h = "score".toList then some sc.toList
  else if h = "phevBlended".toList then some " False".toList
  else if h ∈ (["make", "model", "efid", "standard", "stdText", "drive"] : List String).map String.toList then some "Car".toList
  else some "1".toList

/-- Every table has the rows of this list. -/
def someTables (l : List (Option CsvRow)) : Tables ℚ Nat := ⟨fun _ => l, fun _ => []⟩

/-- With the net of C124: the vehicle is found by make and model and by its identifier, with the engine family of its emission
test; rows with another identifier do not count. In the emission tests a row without number as identifier is skipped, while a
score `N/A` is a panic, as is a blank before the identifier of a vehicle. -/
theorem C125_demo :
    ((netOptions someNet someFns (someTables [some (someRow "17" "1"), some (someRow "18" "1")]) none (fun _ => none)
      " 2020".toList "Car".toList "Car".toList).2.toOption.map fun l => l.map fun v => (v.id, v.efids)) =
      some [(17, ["Car".toList]), (18, ["Car".toList])] ∧
    ((netDataForId someNet someFns (someTables [some (someRow "17" "1"), some (someRow "+18" "1")]) none (fun _ => none) 18
      "2020".toList).2.toOption.map fun v => (v.id, v.efids)) = some (18, ["Car".toList]) ∧
    (readEmissions someFns (someTables [none, some (someRow "x" "1"), some (someRow "17" "1")]) []).toOption =
      some [(some 17, "Car".toList)] ∧
    (match readEmissions someFns (someTables [some (someRow "17" "N/A")]) [] with
      | .error e => decide (e = .panic) | .ok _ => false) = true ∧
    (match readVehicles someFns (someTables [some (someRow " 17" "1")]) [] with
      | .error e => decide (e = .panic) | .ok _ => false) = true := by
  refine ⟨by decide +kernel, by decide +kernel, by decide +kernel, by decide +kernel, by decide +kernel⟩

end Fastsim.Props
