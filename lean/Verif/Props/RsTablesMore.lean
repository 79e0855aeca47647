import Verif.Props.RsTables
import Verif.Props.RsRepo
import Verif.Props.RustImportText

/-!
# Reading the tables of a year (C125), continued

How numbers and truth values are written, which rows fit, which failures are errors and which are panics; and the `doc` of a
vehicle from a URL (C126).
-/

set_option linter.unusedSectionVars false

namespace Fastsim.Spec
open Fastsim

/-- What a row of the vehicles must have: the identifier as a number without sign and below 2^31, the year as a number without
sign, whole numbers, numbers and texts under these headings, and a truth value under `phevBlended`. -/
structure RowFits {K : Type*} (parse : Txt → Option K) (r : CsvRow) : Prop where
  id : ∃ t n, r "id".toList = some t ∧ parseU32 t = some n ∧ n ≤ 2147483647
  year : ∃ t n, r "year".toList = some t ∧ parseU32 t = some n
  blended : ∃ t, r "phevBlended".toList = some t ∧
    (lowerTxt (trimTxt t) = "true".toList ∨ lowerTxt (trimTxt t) = "false".toList)
  wholes : ∀ h ∈ ["range", "phevCity", "phevComb", "phevHwy"], ∃ t n, r (String.toList h) = some t ∧ parseI32 t = some n
  numbers : ∀ h ∈ ["city08U", "highway08U", "comb08U", "cityA08U", "UCity", "UCityA", "cityE", "highwayA08U", "UHighway",
    "UHighwayA", "highwayE", "combA08U", "combE"], ∃ t x, r (String.toList h) = some t ∧ parse t = some x
  texts : ∀ h ∈ ["make", "model", "VClass", "drive", "atvType", "fuelType", "fuelType1", "fuelType2", "eng_dscr", "cylinders",
    "displ", "trany", "sCharger", "tCharger", "startStop", "evMotor"], ∃ t, r (String.toList h) = some t

end Fastsim.Spec

namespace Fastsim.Props
open Fastsim Spec

/-- **C125 (whole numbers).** A whole number is read as it is written, with its sign, if it has 32 bits. -/
theorem C125_whole (n : Nat) :
    (parseI32 (digitsOf n) = if n ≤ 2147483647 then some (n : Int) else none) ∧
    (parseI32 ('+' :: digitsOf n) = if n ≤ 2147483647 then some (n : Int) else none) ∧
    (parseI32 ('-' :: digitsOf n) = if n ≤ 2147483648 then some (-(n : Int)) else none) := by
  have hne := digitsOf_ne n
  have hd : (digitsOf n).all Char.isDigit = true := by
    rw [List.all_eq_true]
    exact fun c hc => Nat.isDigit_of_mem_toDigits (by omega) (by omega) hc
  have hu : signed (digitsOf n) = (false, digitsOf n) := by
    have h1 : ∀ c ∈ digitsOf n, c.isDigit = true := by simpa using hd
    cases h : digitsOf n with
    | nil => exact absurd h hne
    | cons c t =>
      rw [h] at h1
      have hc := h1 c (by simp)
      unfold signed
      split
      · rename_i heq
        rw [(List.cons.inj heq).1] at hc
        exact absurd hc (by decide)
      · rw [unsigned_of (by rintro rfl; exact absurd hc (by decide))]
  have hp : signed ('+' :: digitsOf n) = (false, digitsOf n) := rfl
  have hm : signed ('-' :: digitsOf n) = (true, digitsOf n) := rfl
  unfold parseI32
  simp only [hu, hp, hm, digitsNum_digitsOf, hne, hd, ne_eq, not_false_eq_true, true_and, if_true, Bool.false_eq_true, if_false]
  refine ⟨?_, ?_, ?_⟩ <;> split_ifs <;> first | rfl | omega

/-- **C125 (truth values).** -/
theorem C125_truth (s : Txt) :
    (parseBool s = some true ↔ s = "true".toList) ∧ (parseBool s = some false ↔ s = "false".toList) := by
  have hne : "false".toList ≠ "true".toList := by decide
  unfold parseBool
  generalize "true".toList = t at *
  generalize "false".toList = f at *
  constructor
  · split_ifs with h1 h2 <;> simp [h1]
  · split_ifs with h1 h2
    · simp only [Option.some.injEq, Bool.true_eq_false, false_iff, h1]
      exact fun e => hne e.symm
    · simp [h2]
    · simp [h2]

section
variable {K B : Type*}

theorem bind_isSome' {A C : Type*} {o : Option A} {f : A → Option C} :
    (o.bind f).isSome = true ↔ ∃ t n, o = some t ∧ f t = some n := by
  cases o with
  | none => simp
  | some t => simp [Option.isSome_iff_exists]

theorem bind_some' {A C : Type*} {o : Option A} {f : A → Option C} {x : C} (e : o.bind f = some x) :
    ∃ t n, o = some t ∧ f t = some n := bind_isSome'.1 (by rw [e]; rfl)

/-- **C125 (which rows fit).** A row becomes a vehicle exactly if it has everything that is asked for, also under the headings
nobody reads. -/
theorem C125_fits (R : ImportFns K) (r : CsvRow) : (vehicleRow R r).isSome = true ↔ RowFits R.parse r := by
  constructor
  · intro h
    obtain ⟨v, hv⟩ := Option.isSome_iff_exists.1 h
    have col := C125_columns hv
    unfold vehicleRow at hv
    rw [Option.ite_none_right_eq_some] at hv
    obtain ⟨hc, -⟩ := hv
    simp only [Bool.and_eq_true] at hc
    obtain ⟨⟨⟨⟨-, hb⟩, hi⟩, hn⟩, ht⟩ := hc
    rw [List.all_eq_true] at hi hn ht
    have hi' := fun h hm => bind_isSome'.1 (hi h hm)
    have hn' := fun h hm => bind_isSome'.1 (hn h hm)
    have ht' := fun h hm => Option.isSome_iff_exists.1 (ht h hm)
    refine ⟨?_, ?_, ?_, ?_, ?_, ?_⟩
    · obtain ⟨t, h1, h2⟩ := col.id
      obtain ⟨n, h3, h4⟩ := Option.map_eq_some_iff.1 h2
      refine ⟨t, n, h1, h3, ?_⟩
      have := col.idMax
      rw [← h4] at this
      have h5 : ((n : Nat) : Int) ≤ 2147483647 := this
      omega
    · obtain ⟨t, h1, h2⟩ := col.year
      exact ⟨t, _, h1, h2⟩
    · obtain ⟨t, b, h1, h2⟩ := bind_isSome'.1 hb
      refine ⟨t, h1, ?_⟩
      cases b with
      | true => exact .inl ((C125_truth _).1.1 h2)
      | false => exact .inr ((C125_truth _).2.1 h2)
    · simp only [List.forall_mem_cons]
      exact ⟨bind_some' col.range, hi' _ (by simp [unusedInts]), hi' _ (by simp [unusedInts]), hi' _ (by simp [unusedInts]), by simp⟩
    · simp only [List.forall_mem_cons]
      refine ⟨bind_some' col.city, bind_some' col.highway, bind_some' col.comb, ?_⟩
      refine ⟨hn' _ ?_, hn' _ ?_, hn' _ ?_, hn' _ ?_, hn' _ ?_, hn' _ ?_, hn' _ ?_, hn' _ ?_, hn' _ ?_, hn' _ ?_, by simp⟩ <;>
        simp [unusedNums]
    · simp only [List.forall_mem_cons]
      refine ⟨⟨_, col.make⟩, ⟨_, col.model⟩, ht' _ ?_, ⟨_, col.drive⟩, ⟨_, col.alt⟩, ht' _ ?_, ⟨_, col.fuel⟩, ht' _ ?_, ht' _ ?_,
        ⟨_, col.cylinders⟩, ⟨_, col.displ⟩, ⟨_, col.transmission⟩, ht' _ ?_, ht' _ ?_, ⟨_, col.startStop⟩, ht' _ ?_, by simp⟩ <;>
        simp [unusedTexts]
  · rintro ⟨⟨t, n, i1, i2, i3⟩, ⟨ty, ny, y1, y2⟩, ⟨tb, b1, b2⟩, hw, hnum, htx⟩
    simp only [List.forall_mem_cons] at hw hnum htx
    obtain ⟨⟨t1, n1, a1, a1'⟩, w2, w3, w4, -⟩ := hw
    obtain ⟨⟨c1, x1, d1, d1'⟩, ⟨c2, x2, d2, d2'⟩, ⟨c3, x3, d3, d3'⟩, e1, e2, e3, e4, e5, e6, e7, e8, e9, e10, -⟩ := hnum
    obtain ⟨⟨m1, f1⟩, ⟨m2, f2⟩, g1, ⟨m3, f3⟩, ⟨m4, f4⟩, g2, ⟨m5, f5⟩, g3, g4, ⟨m6, f6⟩, ⟨m7, f7⟩, ⟨m8, f8⟩, g5, g6, ⟨m9, f9⟩, g7,
      -⟩ := htx
    have hb : parseBool (lowerTxt (trimTxt tb)) ≠ none := by
      rcases b2 with e | e
      · rw [(C125_truth _).1.2 e]; simp
      · rw [(C125_truth _).2.2 e]; simp
    obtain ⟨b, hb⟩ := Option.ne_none_iff_exists'.1 hb
    have hid : parseI32 (trimTxt t) = some (n : Int) := by
      obtain ⟨u1, u2, u3, -, ws⟩ := parseU32_chars i2
      rw [trim_no_ws ws]
      have hm : signed t = (false, unsigned t) := by
        by_cases hp : ∃ u, t = '-' :: u
        · obtain ⟨u, rfl⟩ := hp
          exact absurd (u2 '-' (by simp [unsigned])) (by decide)
        · unfold signed
          split
          · exact absurd ⟨_, rfl⟩ hp
          · rfl
      unfold parseI32
      simp only [hm, Bool.false_eq_true, if_false, u3]
      rw [if_pos ⟨u1, by rw [List.all_eq_true]; exact u2, by omega, by omega⟩]
    unfold vehicleRow
    rw [if_pos]
    · have z : ∀ (h : String), under r h = r h.toList := fun _ => rfl
      simp only [z, i1, y1, y2, hid, f1, f2, f3, f4, f5, f6, f7, f8, f9, a1, a1', d1, d1', d2, d2', d3, d3', Option.bind_some,
        Option.isSome_some]
    · simp only [Bool.and_eq_true, List.all_eq_true]
      refine ⟨⟨⟨⟨bind_isSome'.2 ⟨t, n, i1, i2⟩, bind_isSome'.2 ⟨tb, b, b1, hb⟩⟩, ?_⟩, ?_⟩, ?_⟩
      · simp only [unusedInts, List.forall_mem_cons]
        exact ⟨bind_isSome'.2 w2, bind_isSome'.2 w3, bind_isSome'.2 w4, by simp⟩
      · simp only [unusedNums, List.forall_mem_cons]
        exact ⟨bind_isSome'.2 e1, bind_isSome'.2 e2, bind_isSome'.2 e3, bind_isSome'.2 e4, bind_isSome'.2 e5, bind_isSome'.2 e6,
          bind_isSome'.2 e7, bind_isSome'.2 e8, bind_isSome'.2 e9, bind_isSome'.2 e10, by simp⟩
      · simp only [unusedTexts, List.forall_mem_cons]
        exact ⟨Option.isSome_iff_exists.2 g1, Option.isSome_iff_exists.2 g2, Option.isSome_iff_exists.2 g3,
          Option.isSome_iff_exists.2 g4, Option.isSome_iff_exists.2 g5, Option.isSome_iff_exists.2 g6,
          Option.isSome_iff_exists.2 g7, by simp⟩

/-- The first failure decides. -/
theorem mapM_error {A C : Type*} {f : A → Except RsErr C} {l : List A} {e : RsErr} :
    l.mapM f = .error e ↔ ∃ pre a post, l = pre ++ a :: post ∧ (∀ x ∈ pre, ∃ c, f x = .ok c) ∧ f a = .error e := by
  induction l with
  | nil =>
    rw [mapM_nil]
    constructor
    · intro h; cases h
    · rintro ⟨pre, a, post, h, -⟩; simp at h
  | cons a l ih =>
    rw [List.mapM_cons]
    rcases ha : f a with x | c
    · constructor
      · intro h; cases h; exact ⟨[], a, l, rfl, by simp, ha⟩
      · rintro ⟨pre, b, post, h, h1, h2⟩
        cases pre with
        | nil => cases h; rw [ha] at h2; cases h2; rfl
        | cons p pre =>
          cases h
          obtain ⟨c, hc⟩ := h1 a (by simp)
          rw [ha] at hc; cases hc
    · have e1 : (do let b ← Except.ok c; let bs ← l.mapM f; pure (b :: bs)) = (Except.error e : Except RsErr (List C)) ↔
          l.mapM f = .error e := by
        rcases l.mapM f with x | m
        · exact ⟨fun h => by cases h; rfl, fun h => by cases h; rfl⟩
        · constructor
          · intro h
            cases h
          · intro h
            cases h
      rw [e1, ih]
      constructor
      · rintro ⟨pre, b, post, rfl, h1, h2⟩
        exact ⟨a :: pre, b, post, rfl, by rintro x (_ | ⟨_, hx⟩); exacts [⟨c, ha⟩, h1 x hx], h2⟩
      · rintro ⟨pre, b, post, h, h1, h2⟩
        cases pre with
        | nil => cases h; rw [ha] at h2; cases h2
        | cons p pre =>
          cases h
          exact ⟨pre, b, post, rfl, fun x hx => h1 x (by simp [hx]), h2⟩

/-- **C125 (how reading the vehicles fails).** The first row that is not a vehicle decides: it is an error if the row cannot be
read, a panic if its values do not fit. -/
theorem C125_vehicle_errors (R : ImportFns K) (T : Tables K B) (b : List B) (e : RsErr) :
    readVehicles R T b = .error e ↔ ∃ pre a post, T.rows b = pre ++ a :: post ∧
      (∀ x ∈ pre, ∃ r, x = some r ∧ RowFits R.parse r) ∧
      (a = none ∧ e = .err ∨ ∃ r, a = some r ∧ ¬ RowFits R.parse r ∧ e = .panic) := by
  unfold readVehicles
  rw [mapM_error]
  have ok : ∀ x : Option CsvRow, (∃ c : FeRow K, (match x with | none => Except.error RsErr.err | some r => orPanic (vehicleRow R r)) = .ok c) ↔
      ∃ r, x = some r ∧ RowFits R.parse r := by
    intro x
    cases x with
    | none => simp
    | some r =>
      have := C125_fits R r
      rcases hv : vehicleRow R r with _ | v
      · rw [hv] at this
        have hn : ¬ RowFits R.parse r := fun h => by simpa using this.2 h
        simp [orPanic, hv, hn]
      · rw [hv] at this
        simp [orPanic, hv, this.1 rfl]
  have bad : ∀ x : Option CsvRow, (match x with | none => Except.error RsErr.err | some r => orPanic (vehicleRow R r)) = .error e ↔
      (x = none ∧ e = .err ∨ ∃ r, x = some r ∧ ¬ RowFits R.parse r ∧ e = .panic) := by
    intro x
    cases x with
    | none => simp [eq_comm]
    | some r =>
      have := C125_fits R r
      rcases hv : vehicleRow R r with _ | v
      · rw [hv] at this
        have hn : ¬ RowFits R.parse r := fun h => by simpa using this.2 h
        simp [orPanic, hv, hn, eq_comm]
      · rw [hv] at this
        simp [orPanic, hv, this.1 rfl]
  constructor
  · rintro ⟨pre, a, post, h, h1, h2⟩
    exact ⟨pre, a, post, h, fun x hx => (ok x).1 (h1 x hx), (bad a).1 h2⟩
  · rintro ⟨pre, a, post, h, h1, h2⟩
    exact ⟨pre, a, post, h, fun x hx => (ok x).2 (h1 x hx), (bad a).2 h2⟩

/-- **C125 (how reading the tests of cars fails).** They are read exactly if every row can be read, and a row that cannot is an
error. -/
theorem C125_tests (T : Tables K B) (b : List B) :
    (∀ l, readTests T b = .ok l ↔ T.tests b = l.map some) ∧
    (∀ e, readTests T b = .error e ↔ none ∈ T.tests b ∧ e = .err) := by
  unfold readTests
  generalize T.tests b = rows
  constructor
  · intro l
    rw [mapM_ok]
    constructor
    · intro h
      induction h with
      | nil => rfl
      | @cons a c l m h1 _ ih =>
        cases a with
        | none => cases h1
        | some x => cases h1; rw [ih]; rfl
    · rintro rfl
      induction l with
      | nil => exact .nil
      | cons a l ih => exact .cons rfl ih
  · intro e
    rw [mapM_error]
    constructor
    · rintro ⟨pre, a, post, rfl, -, h⟩
      cases a with
      | none => cases h; exact ⟨by simp, rfl⟩
      | some x => cases h
    · rintro ⟨h, rfl⟩
      obtain ⟨pre, post, h1, h2⟩ := List.append_of_mem h |>.elim fun p ⟨q, hq⟩ => by
        exact List.eq_append_cons_of_mem h |>.elim fun a ⟨b, hab, hn⟩ => (⟨a, b, hab, hn⟩ : ∃ a b, rows = a ++ none :: b ∧ none ∉ a)
      refine ⟨pre, none, post, h1, fun x hx => ?_, rfl⟩
      cases x with
      | none => exact absurd hx h2
      | some x => exact ⟨x, rfl⟩

/-- **C125 (missing files).** A file of the year that is not there is an error, and a file that is there is read. -/
theorem C125_missing {A : Type*} (read : List B → Except RsErr A) (d : RsDisk Txt B) (f : DataFile) (y : Nat) :
    (d (dataName y f) = none → openWith read d f y = .error .err) ∧
    ∀ b, d (dataName y f) = some b → openWith read d f y = (read b).map fun a => (y, a) := by
  unfold openWith
  refine ⟨fun h => by rw [h], fun b h => ?_⟩
  rw [h]
  dsimp only
  rcases read b with e | a <;> rfl

end

section
variable {T B : Type*} {k : Kind T B} {parse : Txt → Option ParsedUrl} {call : Txt → Option (List B)}

/-- **C126 (doc).** The `doc` of a vehicle from a URL names the URL as it is written after parsing. -/
theorem C126_doc {url : Txt} {skip : Bool} {t : T} {doc : Txt} (h : fromUrl k parse call url skip = .ok (t, doc)) :
    ∃ u e b, parse url = some u ∧ doc = "Vehicle from ".toList ++ u.text ∧ u.last.bind extOf = some e ∧
      call u.text = some b ∧ fromReader k b e skip = .ok t := by
  unfold fromUrl at h
  rcases hp : parse url with _ | u
  · rw [hp] at h; cases h
  rw [hp] at h
  dsimp only at h
  rcases he : u.last.bind extOf with _ | e
  · rw [he] at h; cases h
  rw [he] at h
  dsimp only at h
  rcases hb : call u.text with _ | b
  · rw [hb] at h; cases h
  rw [hb] at h
  dsimp only at h
  rcases hr : fromReader k b e skip with x | t'
  · rw [hr] at h; cases h
  rw [hr] at h
  cases h
  exact ⟨u, e, b, rfl, rfl, he, hb, hr⟩

end

/-- The rows of the demo of C125 fit, and one without the heading `VClass` does not. -/
theorem C125_fits_demo : RowFits someFns.parse (someRow "17" "1") ∧
    ¬ RowFits someFns.parse (fun h => if h = "VClass".toList then none else someRow "17" "1" h) := by
  constructor
  · rw [← C125_fits]; decide +kernel
  · rw [← C125_fits]; decide +kernel

end Fastsim.Props
