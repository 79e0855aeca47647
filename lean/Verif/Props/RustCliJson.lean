import Verif.Model.RsCli
import Mathlib.Tactic.Linarith

/-!
# C107: ADOPT vehicles

What the program makes of the JSON of a vehicle before it is read, key by key.
-/

set_option linter.unusedSectionVars false

namespace Fastsim.Spec

section
variable {K : Type*}

/-- The value of a key of an object. -/
def field? : Json K → String → Option (Json K)
  | .obj l, k => l.lookup k.toList
  | _, _ => none

/-- The value of a key of the object at another key. -/
def part? (v : Json K) (part k : String) : Option (Json K) := (field? v part).bind fun w => field? w k

variable [Field K] [LinearOrder K] [IsStrictOrderedRing K]

/-- The number that a value is. -/
def num? : Json K → Option K
  | .int n => some n
  | .float x => some x
  | _ => none

/-- The text for a powertrain. -/
def ptName : Int → Txt
  | 1 => "Conv".toList
  | 2 => "HEV".toList
  | 3 => "PHEV".toList
  | 4 => "BEV".toList
  | n => (toString n).toList

/-- An array as `ndarray` writes it: version, shape, numbers. -/
def NdArray (w : Json K) (xs : List K) : Prop :=
  field? w "v" = some (.int 1) ∧ field? w "dim" = some (.arr [.int xs.length]) ∧ field? w "data" = some (.arr (xs.map .float))

/-- A key with an array of `ndarray` made of the numbers of an array of a part; without such an array it stays. -/
def LiftedArray (v w : Json K) (part k : String) : Prop :=
  (∀ l, part? v part k = some (.arr l) → ∃ a, field? w k = some a ∧ NdArray a (l.filterMap num?)) ∧
  ((∀ l, part? v part k ≠ some (.arr l)) → field? w k = field? v k)

/-- A key with the number of a part; without one it stays. -/
def LiftedNumber (v w : Json K) (part k : String) : Prop :=
  (∀ x, (part? v part k).bind num? = some x → field? w k = some (.float x)) ∧
  ((part? v part k).bind num? = none → field? w k = field? v k)

/-- The keys that may change. -/
def adoptKeys : List String :=
  ["vehPtType", "fcEffType", "forceAuxOnFC", "vehCgM", "fcPwrOutPerc", "fcEffArray", "mcEffArray", "mcPwrOutPerc", "idleFcKw",
    "mcMaxElecInKw", "stop_start"]

/-- How an ADOPT vehicle `v` becomes a vehicle `w`. -/
structure Adopted (v w : Json K) : Prop where
  ptType : ∀ n, field? v "vehPtType" = some (.int n) → field? w "vehPtType" = some (.str (ptName n))
  ptType' : (∀ n, field? v "vehPtType" ≠ some (.int n)) → field? w "vehPtType" = field? v "vehPtType"
  fcEffType : ∀ s, part? v "fuelConverter" "fcEffType" = some (.str s) → field? w "fcEffType" = some (.str s)
  fcEffType' : (∀ s, part? v "fuelConverter" "fcEffType" ≠ some (.str s)) → field? w "fcEffType" = field? v "fcEffType"
  aux : ∀ n, field? v "forceAuxOnFC" = some (.int n) → field? w "forceAuxOnFC" = some (.bool (decide (n ≠ 0)))
  aux' : (∀ n, field? v "forceAuxOnFC" ≠ some (.int n)) → field? w "forceAuxOnFC" = field? v "forceAuxOnFC"
  cg : ∀ n x, field? v "fwd1rwd2awd3" = some (.int n) → (n = 2 ∨ n = 3) → (field? v "vehCgM").bind num? = some x → 0 < x →
    field? w "vehCgM" = some (.float (-x))
  cg' : (∀ n, field? v "fwd1rwd2awd3" = some (.int n) → ¬ (n = 2 ∨ n = 3)) ∨
      (∀ x, (field? v "vehCgM").bind num? = some x → ¬ 0 < x) → field? w "vehCgM" = field? v "vehCgM"
  fcPwrOutPerc : LiftedArray v w "fuelConverter" "fcPwrOutPerc"
  fcEffArray : ∀ l, part? v "fuelConverter" "fcEffArray" = some (.arr l) →
    field? w "fcEffArray" = some (.arr ((l.filterMap num?).map .float))
  fcEffArray' : (∀ l, part? v "fuelConverter" "fcEffArray" ≠ some (.arr l)) → field? w "fcEffArray" = field? v "fcEffArray"
  mcEffArray : LiftedArray v w "motor" "mcEffArray"
  mcPwrOutPerc : LiftedArray v w "motor" "mcPwrOutPerc"
  idleFcKw : LiftedNumber v w "fuelConverter" "idleFcKw"
  mcMaxElecInKw : LiftedNumber v w "motor" "mcMaxElecInKw"
  stopStart : field? w "stop_start" = some (.bool false)
  others : ∀ k, k ∉ adoptKeys → field? w k = field? v k

/-- The numbers of an array of a hydrogen-diesel engine. -/
def H2Table (v : Json K) (k : String) (t : Option (List K)) : Prop :=
  ∀ xs, t = some xs ↔ part? v "fuelConverter" "fcEffType" = some (.str "HDH2DieselIce".toList) ∧
    ∃ l, part? v "fuelConverter" k = some (.arr l) ∧ xs = l.filterMap num?

end
end Fastsim.Spec

namespace Fastsim.Props
open Fastsim Fastsim.Spec

section Field
variable {K : Type*} [Field K] [LinearOrder K] [IsStrictOrderedRing K]

theorem at_eq (v : Json K) (k : String) : v.at k = (field? v k).getD .null := by
  cases v with
  | obj l =>
    unfold Json.at field?
    induction l with
    | nil => rfl
    | cons p l ih =>
      obtain ⟨a, b⟩ := p
      simp only [List.find?_cons, List.lookup_cons]
      by_cases h : a = k.toList
      · subst h; simp
      · have h' : (k.toList == a) = false := by simpa using fun e => h e.symm
        simp only [h, decide_false, h']
        exact ih
  | _ => rfl

theorem lookup_setPair (key k : Txt) (x : Json K) : ∀ l : List (Txt × Json K),
    (setPair key x l).lookup k = if k = key then some x else l.lookup k
  | [] => by
    rw [setPair, List.lookup_cons]
    by_cases h : k = key
    · simp [h]
    · have h' : (k == key) = false := by simpa using h
      simp [h, h']
  | p :: l => by
    obtain ⟨a, b⟩ := p
    rw [setPair]
    by_cases hk : a = key
    · subst hk
      rw [if_pos rfl, List.lookup_cons, List.lookup_cons]
      by_cases h : k = a
      · simp [h]
      · have h' : (k == a) = false := by simpa using h
        simp [h, h']
    · simp only [hk, if_false]
      rw [List.lookup_cons, List.lookup_cons, lookup_setPair key k x l]
      by_cases h : k = a
      · subst h; simp [hk]
      · have h' : (k == a) = false := by simpa using h
        simp [h']

/-- Only objects and `null` can be assigned to. -/
def Settable (v : Json K) : Prop := v = .null ∨ ∃ l, v = .obj l

theorem put_ok {v w : Json K} {key : String} {x : Json K} (h : v.put key x = .ok w) :
    Settable v ∧ Settable w ∧ ∀ k, field? w k = if k = key then some x else field? v k := by
  unfold Json.put at h
  split at h
  · rw [Except.ok.injEq] at h
    subst h
    refine ⟨.inr ⟨_, rfl⟩, .inr ⟨_, rfl⟩, fun k => ?_⟩
    simp only [field?, lookup_setPair, String.toList_inj]
  · rw [Except.ok.injEq] at h
    subst h
    refine ⟨.inl rfl, .inr ⟨_, rfl⟩, fun k => ?_⟩
    have := lookup_setPair key.toList k.toList x []
    simp only [setPair, String.toList_inj] at this
    simpa [field?] using this
  · cases h

theorem put_settable {v : Json K} (h : Settable v) (key : String) (x : Json K) : ∃ w, v.put key x = .ok w := by
  rcases h with rfl | ⟨l, rfl⟩
  · exact ⟨_, rfl⟩
  · exact ⟨_, rfl⟩

/-- A stage of the rewriting: `key` gets `x`, or everything stays. -/
theorem stage_field {v w : Json K} {key : String} {x : Option (Json K)} {f : Except RsErr (Json K)}
    (hf : f = match x with | some y => v.put key y | none => .ok v) (h : f = .ok w) :
    ∀ k, field? w k = if k = key then (x <|> field? v key) else field? v k := by
  rw [hf] at h
  cases x with
  | none =>
    simp only [Except.ok.injEq] at h
    subst h
    intro k
    by_cases hk : k = key
    · simp [hk]
    · simp [hk]
  | some y =>
    intro k
    rw [(put_ok h).2.2 k]
    rfl

/-! #### What every stage writes -/

/-- The integer that a value is. -/
def int? : Json K → Option Int
  | .int n => some n
  | _ => none

/-- The text that a value is. -/
def str? : Json K → Option Txt
  | .str s => some s
  | _ => none

/-- The list that a value is. -/
def arr? : Json K → Option (List (Json K))
  | .arr l => some l
  | _ => none

theorem numOfInt_eq (n : Int) : (numOfInt n : K) = n := by
  unfold numOfInt
  split
  · rename_i h
    have : (n : K) = ((-(n.natAbs : ℤ) : ℤ) : K) := by rw [Int.ofNat_natAbs_of_nonpos h.le]; simp
    rw [this]; simp
  · rename_i h
    push Not at h
    conv_rhs => rw [← Int.natAbs_of_nonneg h]
    simp

theorem number_eq (v : Json K) : v.number = num? v := by
  cases v <;> simp [Json.number, num?, numOfInt_eq]

theorem numbersOf_eq : ∀ l : List (Json K), numbersOf l = l.filterMap num?
  | [] => rfl
  | v :: l => by
    rw [numbersOf, number_eq, List.filterMap_cons, numbersOf_eq l]
    cases num? v <;> rfl

theorem ptTypeText_eq (n : Int) : ptTypeText n = ptName n := by
  unfold ptTypeText
  split_ifs with h1 h2 h3 h4
  · rw [h1]; rfl
  · rw [h2]; rfl
  · rw [h3]; rfl
  · rw [h4]; rfl
  · unfold ptName
    split <;> simp_all

theorem part_eq (v : Json K) (part k : String) : (v.at part).at k = (part? v part k).getD .null := by
  rw [at_eq, at_eq, part?]
  cases field? v part with
  | none => rfl
  | some w => rfl

section Stages
variable (v : Json K)

theorem ptType_stage : rewritePtType v =
    match ((field? v "vehPtType").bind int?).map (fun n => Json.str (ptName n)) with
    | some y => v.put "vehPtType" y | none => .ok v := by
  unfold rewritePtType
  rw [at_eq]
  cases field? v "vehPtType" with
  | none => rfl
  | some x => cases x <;> simp [int?, ptTypeText_eq]

theorem fcEffType_stage : rewriteFcEffType v =
    match ((part? v "fuelConverter" "fcEffType").bind str?).map Json.str with
    | some y => v.put "fcEffType" y | none => .ok v := by
  unfold rewriteFcEffType
  rw [part_eq]
  cases part? v "fuelConverter" "fcEffType" with
  | none => rfl
  | some x => cases x <;> simp [str?]

theorem aux_stage : rewriteForceAux v =
    match ((field? v "forceAuxOnFC").bind int?).map (fun n => Json.bool (decide (n ≠ 0))) with
    | some y => v.put "forceAuxOnFC" y | none => .ok v := by
  unfold rewriteForceAux
  rw [at_eq]
  cases field? v "forceAuxOnFC" with
  | none => rfl
  | some x => cases x <;> simp [int?]

/-- The height that is written, if one is. -/
def cgOf (v : Json K) : Option (Json K) :=
  match (field? v "fwd1rwd2awd3").bind int?, (field? v "vehCgM").bind num? with
  | some n, some x => if (n = 2 ∨ n = 3) ∧ 0 < x then some (.float (-x)) else none
  | _, _ => none

theorem cg_stage : rewriteCg v = match cgOf v with | some y => v.put "vehCgM" y | none => .ok v := by
  unfold rewriteCg rearDriven cgOf
  rw [number_eq, at_eq, at_eq]
  have h1 : num? ((field? v "vehCgM").getD .null) = (field? v "vehCgM").bind num? := by
    cases field? v "vehCgM" <;> rfl
  rw [h1]
  cases (field? v "vehCgM").bind num? with
  | none => cases (field? v "fwd1rwd2awd3").bind int? <;> rfl
  | some x =>
    cases field? v "fwd1rwd2awd3" with
    | none => simp
    | some y =>
      cases y with
      | int n =>
        simp only [Option.getD_some, Option.bind_some, int?, Bool.or_eq_true, decide_eq_true_eq]
        split_ifs
        · simp
        · rfl
      | _ => simp [int?]

theorem ndarray_stage (part key : String) : liftNdarray part key v =
    match ((part? v part key).bind arr?).map (fun l => ndarrayOf (l.filterMap num?)) with
    | some y => v.put key y | none => .ok v := by
  unfold liftNdarray
  rw [part_eq]
  cases part? v part key with
  | none => rfl
  | some x => cases x <;> simp [arr?, numbersOf_eq]

theorem vector_stage (part key : String) : liftVector part key v =
    match ((part? v part key).bind arr?).map (fun l => Json.arr ((l.filterMap num?).map .float)) with
    | some y => v.put key y | none => .ok v := by
  unfold liftVector
  rw [part_eq]
  cases part? v part key with
  | none => rfl
  | some x => cases x <;> simp [arr?, numbersOf_eq, Json.ofNums]

theorem number_stage (part key : String) : liftNumber part key v =
    match ((part? v part key).bind num?).map Json.float with
    | some y => v.put key y | none => .ok v := by
  unfold liftNumber
  rw [part_eq, number_eq]
  cases part? v part key with
  | none => rfl
  | some x => simp only [Option.getD_some, Option.bind_some]; cases num? x <;> rfl

end Stages

theorem stage_settable {v w : Json K} {key : String} {x : Option (Json K)} {f : Except RsErr (Json K)}
    (hf : f = match x with | some y => v.put key y | none => .ok v) (h : f = .ok w) (hv : Settable v) : Settable w := by
  rw [hf] at h
  cases x with
  | none => simp only [Except.ok.injEq] at h; exact h ▸ hv
  | some y => exact (put_ok h).2.1

theorem stage_ok {v : Json K} {key : String} {x : Option (Json K)} {f : Except RsErr (Json K)}
    (hf : f = match x with | some y => v.put key y | none => .ok v) (hv : Settable v) : ∃ w, f = .ok w := by
  rw [hf]
  cases x with
  | none => exact ⟨v, rfl⟩
  | some y => exact put_settable hv _ _

theorem part_of_field {v w : Json K} {part : String} (h : field? w part = field? v part) (k : String) :
    part? w part k = part? v part k := by unfold part?; rw [h]

theorem h2Table_form (v : Json K) (k : String) : h2Table v k =
    if (part? v "fuelConverter" "fcEffType").bind str? = some "HDH2DieselIce".toList then
      ((part? v "fuelConverter" k).bind arr?).map (fun l => l.filterMap num?) else none := by
  unfold h2Table
  rw [part_eq, part_eq]
  generalize "HDH2DieselIce".toList = name
  generalize part? v "fuelConverter" "fcEffType" = e
  generalize part? v "fuelConverter" k = q
  cases e with
  | none => rfl
  | some y =>
    cases y with
    | str s =>
      simp only [Option.getD_some, Option.bind_some, str?, Option.some.injEq]
      split
      · cases q with
        | none => rfl
        | some z => cases z <;> simp [arr?, numbersOf_eq]
      · rfl
    | _ => rfl

theorem str?_some {o : Option (Json K)} {s : Txt} : o.bind str? = some s ↔ o = some (.str s) := by
  cases o with
  | none => simp
  | some y => cases y <;> simp [str?]

theorem int?_some {o : Option (Json K)} {n : Int} : o.bind int? = some n ↔ o = some (.int n) := by
  cases o with
  | none => simp
  | some y => cases y <;> simp [int?]

theorem arr?_some {o : Option (Json K)} {l : List (Json K)} : o.bind arr? = some l ↔ o = some (.arr l) := by
  cases o with
  | none => simp
  | some y => cases y <;> simp [arr?]

theorem h2Table_eq (v : Json K) (k : String) : H2Table v k (h2Table v k) := by
  intro xs
  rw [h2Table_form]
  generalize "HDH2DieselIce".toList = name
  split
  · rename_i h
    rw [str?_some] at h
    simp only [h, true_and, Option.map_eq_some_iff, arr?_some]
    exact exists_congr fun l => and_congr_right fun _ => eq_comm
  · rename_i h
    rw [str?_some] at h
    simp [h]

theorem rewrite_ok {v w : Json K} {p h : Option (List K)} (hr : jsonRewrite v = .ok (w, p, h)) :
    ∃ v1 v2 v3 v4 v5 v6 v7 v8 v9 v10,
      rewritePtType v = .ok v1 ∧ rewriteFcEffType v1 = .ok v2 ∧ rewriteForceAux v2 = .ok v3 ∧ rewriteCg v3 = .ok v4 ∧
      liftNdarray "fuelConverter" "fcPwrOutPerc" v4 = .ok v5 ∧ liftVector "fuelConverter" "fcEffArray" v5 = .ok v6 ∧
      liftNdarray "motor" "mcEffArray" v6 = .ok v7 ∧ liftNdarray "motor" "mcPwrOutPerc" v7 = .ok v8 ∧
      liftNumber "fuelConverter" "idleFcKw" v8 = .ok v9 ∧ liftNumber "motor" "mcMaxElecInKw" v9 = .ok v10 ∧
      v10.put "stop_start" (.bool false) = .ok w ∧ p = h2Table v2 "fcPwrOutPerc" ∧ h = h2Table v2 "HDH2DieselIceH2Share" := by
  unfold jsonRewrite at hr
  cases h1 : rewritePtType v with
  | error e => rw [h1] at hr; cases hr
  | ok v1 =>
  rw [h1] at hr; dsimp only at hr
  cases h2 : rewriteFcEffType v1 with
  | error e => rw [h2] at hr; cases hr
  | ok v2 =>
  rw [h2] at hr; dsimp only at hr
  cases h3 : rewriteForceAux v2 with
  | error e => rw [h3] at hr; cases hr
  | ok v3 =>
  rw [h3] at hr; dsimp only at hr
  cases h4 : rewriteCg v3 with
  | error e => rw [h4] at hr; cases hr
  | ok v4 =>
  rw [h4] at hr; dsimp only at hr
  cases h5 : liftNdarray "fuelConverter" "fcPwrOutPerc" v4 with
  | error e => rw [h5] at hr; cases hr
  | ok v5 =>
  rw [h5] at hr; dsimp only at hr
  cases h6 : liftVector "fuelConverter" "fcEffArray" v5 with
  | error e => rw [h6] at hr; cases hr
  | ok v6 =>
  rw [h6] at hr; dsimp only at hr
  cases h7 : liftNdarray "motor" "mcEffArray" v6 with
  | error e => rw [h7] at hr; cases hr
  | ok v7 =>
  rw [h7] at hr; dsimp only at hr
  cases h8 : liftNdarray "motor" "mcPwrOutPerc" v7 with
  | error e => rw [h8] at hr; cases hr
  | ok v8 =>
  rw [h8] at hr; dsimp only at hr
  cases h9 : liftNumber "fuelConverter" "idleFcKw" v8 with
  | error e => rw [h9] at hr; cases hr
  | ok v9 =>
  rw [h9] at hr; dsimp only at hr
  cases h10 : liftNumber "motor" "mcMaxElecInKw" v9 with
  | error e => rw [h10] at hr; cases hr
  | ok v10 =>
  rw [h10] at hr; dsimp only at hr
  cases h11 : v10.put "stop_start" (.bool false) with
  | error e => rw [h11] at hr; cases hr
  | ok v11 =>
  rw [h11] at hr; dsimp only at hr
  simp only [Except.ok.injEq, Prod.mk.injEq] at hr
  obtain ⟨rfl, rfl, rfl⟩ := hr
  exact ⟨v1, v2, v3, v4, v5, v6, v7, v8, v9, v10, rfl, h2, h3, h4, h5, h6, h7, h8, h9, h10, h11, rfl, rfl⟩

theorem option_or_none {A : Type*} (a : Option A) : (none <|> a) = a := rfl
theorem option_or_some {A : Type*} (x : A) (a : Option A) : (some x <|> a) = some x := rfl

/-- Every field of the vehicle that is read, out of the fields of the ADOPT vehicle. -/
theorem C107_rewrite {v w : Json K} {p h : Option (List K)} (hr : jsonRewrite v = .ok (w, p, h)) :
    Adopted v w ∧ H2Table v "fcPwrOutPerc" p ∧ H2Table v "HDH2DieselIceH2Share" h := by
  obtain ⟨v1, v2, v3, v4, v5, v6, v7, v8, v9, v10, h1, h2, h3, h4, h5, h6, h7, h8, h9, h10, h11, hp, hh⟩ := rewrite_ok hr
  have f1 := stage_field (ptType_stage v) h1
  have f2 := stage_field (fcEffType_stage v1) h2
  have f3 := stage_field (aux_stage v2) h3
  have f4 := stage_field (cg_stage v3) h4
  have f5 := stage_field (ndarray_stage v4 _ _) h5
  have f6 := stage_field (vector_stage v5 _ _) h6
  have f7 := stage_field (ndarray_stage v6 _ _) h7
  have f8 := stage_field (ndarray_stage v7 _ _) h8
  have f9 := stage_field (number_stage v8 _ _) h9
  have f10 := stage_field (number_stage v9 _ _) h10
  have f11 := (put_ok h11).2.2
  clear h1 h2 h3 h4 h5 h6 h7 h8 h9 h10 h11 hr
  -- the parts are never written
  have c2 : ∀ k, k ≠ "vehPtType" → k ≠ "fcEffType" → field? v2 k = field? v k := fun k a b => by
    rw [f2, if_neg b, f1, if_neg a]
  have c4 : ∀ k, k ≠ "vehPtType" → k ≠ "fcEffType" → k ≠ "forceAuxOnFC" → k ≠ "vehCgM" → field? v4 k = field? v k :=
    fun k a b c d => by rw [f4, if_neg d, f3, if_neg c, c2 k a b]
  have c8 : ∀ k, k ≠ "vehPtType" → k ≠ "fcEffType" → k ≠ "forceAuxOnFC" → k ≠ "vehCgM" → k ≠ "fcPwrOutPerc" →
      k ≠ "fcEffArray" → k ≠ "mcEffArray" → k ≠ "mcPwrOutPerc" → field? v8 k = field? v k :=
    fun k a b c d e f g i => by rw [f8, if_neg i, f7, if_neg g, f6, if_neg f, f5, if_neg e, c4 k a b c d]
  have p1 : ∀ k, part? v1 "fuelConverter" k = part? v "fuelConverter" k := part_of_field (by rw [f1, if_neg (by decide)])
  have p2 : ∀ k, part? v2 "fuelConverter" k = part? v "fuelConverter" k := part_of_field (c2 _ (by decide) (by decide))
  have p4 : ∀ k, part? v4 "fuelConverter" k = part? v "fuelConverter" k :=
    part_of_field (c4 _ (by decide) (by decide) (by decide) (by decide))
  have p5 : ∀ k, part? v5 "fuelConverter" k = part? v "fuelConverter" k :=
    part_of_field (by rw [f5, if_neg (by decide)]; exact c4 _ (by decide) (by decide) (by decide) (by decide))
  have p6 : ∀ k, part? v6 "motor" k = part? v "motor" k :=
    part_of_field (by
      rw [f6, if_neg (by decide), f5, if_neg (by decide)]; exact c4 _ (by decide) (by decide) (by decide) (by decide))
  have p7 : ∀ k, part? v7 "motor" k = part? v "motor" k :=
    part_of_field (by
      rw [f7, if_neg (by decide), f6, if_neg (by decide), f5, if_neg (by decide)]
      exact c4 _ (by decide) (by decide) (by decide) (by decide))
  have p8 : ∀ k, part? v8 "fuelConverter" k = part? v "fuelConverter" k :=
    part_of_field (c8 _ (by decide) (by decide) (by decide) (by decide) (by decide) (by decide) (by decide) (by decide))
  have p9 : ∀ k, part? v9 "motor" k = part? v "motor" k :=
    part_of_field (by
      rw [f9, if_neg (by decide)]
      exact c8 _ (by decide) (by decide) (by decide) (by decide) (by decide) (by decide) (by decide) (by decide))
  -- the last value of every key
  have l1 : field? w "vehPtType" = field? v1 "vehPtType" := by
    rw [f11, if_neg (by decide), f10, if_neg (by decide), f9, if_neg (by decide), f8, if_neg (by decide), f7, if_neg (by decide),
      f6, if_neg (by decide), f5, if_neg (by decide), f4, if_neg (by decide), f3, if_neg (by decide), f2, if_neg (by decide)]
  have l2 : field? w "fcEffType" = field? v2 "fcEffType" := by
    rw [f11, if_neg (by decide), f10, if_neg (by decide), f9, if_neg (by decide), f8, if_neg (by decide), f7, if_neg (by decide),
      f6, if_neg (by decide), f5, if_neg (by decide), f4, if_neg (by decide), f3, if_neg (by decide)]
  have l3 : field? w "forceAuxOnFC" = field? v3 "forceAuxOnFC" := by
    rw [f11, if_neg (by decide), f10, if_neg (by decide), f9, if_neg (by decide), f8, if_neg (by decide), f7, if_neg (by decide),
      f6, if_neg (by decide), f5, if_neg (by decide), f4, if_neg (by decide)]
  have l4 : field? w "vehCgM" = field? v4 "vehCgM" := by
    rw [f11, if_neg (by decide), f10, if_neg (by decide), f9, if_neg (by decide), f8, if_neg (by decide), f7, if_neg (by decide),
      f6, if_neg (by decide), f5, if_neg (by decide)]
  have l5 : field? w "fcPwrOutPerc" = field? v5 "fcPwrOutPerc" := by
    rw [f11, if_neg (by decide), f10, if_neg (by decide), f9, if_neg (by decide), f8, if_neg (by decide), f7, if_neg (by decide),
      f6, if_neg (by decide)]
  have l6 : field? w "fcEffArray" = field? v6 "fcEffArray" := by
    rw [f11, if_neg (by decide), f10, if_neg (by decide), f9, if_neg (by decide), f8, if_neg (by decide), f7, if_neg (by decide)]
  have l7 : field? w "mcEffArray" = field? v7 "mcEffArray" := by
    rw [f11, if_neg (by decide), f10, if_neg (by decide), f9, if_neg (by decide), f8, if_neg (by decide)]
  have l8 : field? w "mcPwrOutPerc" = field? v8 "mcPwrOutPerc" := by
    rw [f11, if_neg (by decide), f10, if_neg (by decide), f9, if_neg (by decide)]
  have l9 : field? w "idleFcKw" = field? v9 "idleFcKw" := by rw [f11, if_neg (by decide), f10, if_neg (by decide)]
  have l10 : field? w "mcMaxElecInKw" = field? v10 "mcMaxElecInKw" := by rw [f11, if_neg (by decide)]
  -- and its value before
  have b2 : field? v1 "fcEffType" = field? v "fcEffType" := by rw [f1, if_neg (by decide)]
  have b3 : field? v2 "forceAuxOnFC" = field? v "forceAuxOnFC" := c2 _ (by decide) (by decide)
  have b4 : field? v3 "vehCgM" = field? v "vehCgM" := by rw [f3, if_neg (by decide)]; exact c2 _ (by decide) (by decide)
  have b4' : field? v3 "fwd1rwd2awd3" = field? v "fwd1rwd2awd3" := by
    rw [f3, if_neg (by decide)]; exact c2 _ (by decide) (by decide)
  have b5 : field? v4 "fcPwrOutPerc" = field? v "fcPwrOutPerc" := c4 _ (by decide) (by decide) (by decide) (by decide)
  have b6 : field? v5 "fcEffArray" = field? v "fcEffArray" := by
    rw [f5, if_neg (by decide)]; exact c4 _ (by decide) (by decide) (by decide) (by decide)
  have b7 : field? v6 "mcEffArray" = field? v "mcEffArray" := by
    rw [f6, if_neg (by decide), f5, if_neg (by decide)]; exact c4 _ (by decide) (by decide) (by decide) (by decide)
  have b8 : field? v7 "mcPwrOutPerc" = field? v "mcPwrOutPerc" := by
    rw [f7, if_neg (by decide), f6, if_neg (by decide), f5, if_neg (by decide)]
    exact c4 _ (by decide) (by decide) (by decide) (by decide)
  have b9 : field? v8 "idleFcKw" = field? v "idleFcKw" :=
    c8 _ (by decide) (by decide) (by decide) (by decide) (by decide) (by decide) (by decide) (by decide)
  have b10 : field? v9 "mcMaxElecInKw" = field? v "mcMaxElecInKw" := by
    rw [f9, if_neg (by decide)]
    exact c8 _ (by decide) (by decide) (by decide) (by decide) (by decide) (by decide) (by decide) (by decide)
  have nd : ∀ xs : List K, NdArray (ndarrayOf xs) xs := fun xs =>
    ⟨rfl, rfl, rfl⟩
  have lift : ∀ {u u' : Json K} {part key : String}, field? w key = field? u' key →
      (∀ k, field? u' k = if k = key then
        ((((part? u part key).bind arr?).map fun l => ndarrayOf (l.filterMap num?)) <|> field? u key) else field? u k) →
      part? u part key = part? v part key → field? u key = field? v key → LiftedArray v w part key := by
    intro u u' part key e1 e2 e3 e4
    have e := e2 key
    rw [if_pos rfl, e3, e4] at e
    rw [← e1] at e
    refine ⟨fun l hl => ⟨_, ?_, nd _⟩, fun hn => ?_⟩
    · rw [e, hl]; rfl
    · rw [e]
      cases hc : (part? v part key).bind arr? with
      | none => rfl
      | some l => exact absurd (arr?_some.1 hc) (hn l)
  have liftn : ∀ {u u' : Json K} {part key : String}, field? w key = field? u' key →
      (∀ k, field? u' k = if k = key then ((((part? u part key).bind num?).map Json.float) <|> field? u key) else field? u k) →
      part? u part key = part? v part key → field? u key = field? v key → LiftedNumber v w part key := by
    intro u u' part key e1 e2 e3 e4
    have e := e2 key
    rw [if_pos rfl, e3, e4] at e
    rw [← e1] at e
    exact ⟨fun x hx => by rw [e, hx]; rfl, fun hx => by rw [e, hx]; rfl⟩
  refine ⟨?_, ?_, ?_⟩
  · refine { ptType := ?_, ptType' := ?_, fcEffType := ?_, fcEffType' := ?_, aux := ?_, aux' := ?_, cg := ?_, cg' := ?_,
             fcPwrOutPerc := lift l5 f5 (p4 _) b5, fcEffArray := ?_, fcEffArray' := ?_,
             mcEffArray := lift l7 f7 (p6 _) b7, mcPwrOutPerc := lift l8 f8 (p7 _) b8,
             idleFcKw := liftn l9 f9 (p8 _) b9, mcMaxElecInKw := liftn l10 f10 (p9 _) b10,
             stopStart := ?_, others := ?_ }
    · intro n hn
      rw [l1, f1, if_pos rfl, hn]; rfl
    · intro hn
      rw [l1, f1, if_pos rfl]
      cases hc : (field? v "vehPtType").bind int? with
      | none => rfl
      | some n => exact absurd (int?_some.1 hc) (hn n)
    · intro s hs
      rw [l2, f2, if_pos rfl, p1, hs]; rfl
    · intro hn
      rw [l2, f2, if_pos rfl, p1, b2]
      cases hc : (part? v "fuelConverter" "fcEffType").bind str? with
      | none => rfl
      | some n => exact absurd (str?_some.1 hc) (hn n)
    · intro n hn
      rw [l3, f3, if_pos rfl, b3, hn]; rfl
    · intro hn
      rw [l3, f3, if_pos rfl, b3]
      cases hc : (field? v "forceAuxOnFC").bind int? with
      | none => rfl
      | some n => exact absurd (int?_some.1 hc) (hn n)
    · intro n x hn h23 hx h0
      rw [l4, f4, if_pos rfl, cgOf, b4', b4, hn, hx]
      simp only [Option.bind_some, int?]
      rw [if_pos ⟨h23, h0⟩]; rfl
    · intro hn
      rw [l4, f4, if_pos rfl, b4]
      have : cgOf v3 = none := by
        rw [cgOf, b4', b4]
        cases hc : (field? v "fwd1rwd2awd3").bind int? with
        | none => rfl
        | some n =>
          cases hx : (field? v "vehCgM").bind num? with
          | none => rfl
          | some x =>
            simp only
            rw [if_neg]
            rintro ⟨a, b⟩
            rcases hn with hn | hn
            · exact hn n (int?_some.1 hc) a
            · exact hn x hx b
      rw [this]; rfl
    · intro l hl
      rw [l6, f6, if_pos rfl, p5, hl]; rfl
    · intro hn
      rw [l6, f6, if_pos rfl, p5, b6]
      cases hc : (part? v "fuelConverter" "fcEffArray").bind arr? with
      | none => rfl
      | some n => exact absurd (arr?_some.1 hc) (hn n)
    · rw [f11, if_pos rfl]
    · intro k hk
      simp only [adoptKeys, List.mem_cons, List.not_mem_nil, or_false, not_or] at hk
      obtain ⟨k1, k2, k3, k4, k5, k6, k7, k8, k9, k10, k11⟩ := hk
      rw [f11, if_neg k11, f10, if_neg k10, f9, if_neg k9]
      exact c8 k k1 k2 k3 k4 k5 k6 k7 k8
  · intro xs
    rw [hp, h2Table_eq v2 _ xs, p2, p2]
  · intro xs
    rw [hh, h2Table_eq v2 _ xs, p2, p2]

/-- The rewriting works on objects and on `null`; anything else makes the program panic. -/
theorem C107_rewrite_objects (v : Json K) :
    ((v = .null ∨ ∃ l, v = .obj l) → ∃ r, jsonRewrite v = .ok r) ∧
    (¬ (v = .null ∨ ∃ l, v = .obj l) → jsonRewrite v = .error .panic) := by
  constructor
  · intro hv
    obtain ⟨v1, h1⟩ := stage_ok (ptType_stage v) hv
    have s1 := stage_settable (ptType_stage v) h1 hv
    obtain ⟨v2, h2⟩ := stage_ok (fcEffType_stage v1) s1
    have s2 := stage_settable (fcEffType_stage v1) h2 s1
    obtain ⟨v3, h3⟩ := stage_ok (aux_stage v2) s2
    have s3 := stage_settable (aux_stage v2) h3 s2
    obtain ⟨v4, h4⟩ := stage_ok (cg_stage v3) s3
    have s4 := stage_settable (cg_stage v3) h4 s3
    obtain ⟨v5, h5⟩ := stage_ok (ndarray_stage v4 "fuelConverter" "fcPwrOutPerc") s4
    have s5 := stage_settable (ndarray_stage v4 _ _) h5 s4
    obtain ⟨v6, h6⟩ := stage_ok (vector_stage v5 "fuelConverter" "fcEffArray") s5
    have s6 := stage_settable (vector_stage v5 _ _) h6 s5
    obtain ⟨v7, h7⟩ := stage_ok (ndarray_stage v6 "motor" "mcEffArray") s6
    have s7 := stage_settable (ndarray_stage v6 _ _) h7 s6
    obtain ⟨v8, h8⟩ := stage_ok (ndarray_stage v7 "motor" "mcPwrOutPerc") s7
    have s8 := stage_settable (ndarray_stage v7 _ _) h8 s7
    obtain ⟨v9, h9⟩ := stage_ok (number_stage v8 "fuelConverter" "idleFcKw") s8
    have s9 := stage_settable (number_stage v8 _ _) h9 s8
    obtain ⟨v10, h10⟩ := stage_ok (number_stage v9 "motor" "mcMaxElecInKw") s9
    have s10 := stage_settable (number_stage v9 _ _) h10 s9
    obtain ⟨v11, h11⟩ := put_settable s10 "stop_start" (.bool false)
    refine ⟨(v11, h2Table v2 "fcPwrOutPerc", h2Table v2 "HDH2DieselIceH2Share"), ?_⟩
    simp only [jsonRewrite, h1, h2, h3, h4, h5, h6, h7, h8, h9, h10, h11]
  · intro hv
    push Not at hv
    cases v with
    | null => exact absurd rfl hv.1
    | obj l => exact absurd rfl (hv.2 l)
    | bool b => rfl
    | int n => rfl
    | float x => rfl
    | str s => rfl
    | arr l => rfl

/-- Rewriting keeps the two parts, so every figure of a part that is not moved stays where nothing reads it. -/
theorem C107_parts_stay {v w : Json K} {p h : Option (List K)} (hr : jsonRewrite v = .ok (w, p, h)) :
    field? w "fuelConverter" = field? v "fuelConverter" ∧ field? w "motor" = field? v "motor" := by
  obtain ⟨a, -⟩ := C107_rewrite hr
  exact ⟨a.others _ (by decide), a.others _ (by decide)⟩

end Field

/-! ### A vehicle -/

namespace CliDemo

/-- A heavy-duty truck with a hydrogen-diesel engine and all wheels driven; one entry of its engine map is `null`. -/
def truck : Json ℚ := .obj
  [("name".toList, .str "truck".toList), ("vehPtType".toList, .int 1), ("fwd1rwd2awd3".toList, .int 3),
   ("vehCgM".toList, .float (1 / 2)), ("forceAuxOnFC".toList, .int 1), ("stop_start".toList, .bool true),
   ("fuelConverter".toList, .obj
     [("fcEffType".toList, .str "HDH2DieselIce".toList), ("fcPwrOutPerc".toList, .arr [.int 0, .null, .int 1]),
      ("HDH2DieselIceH2Share".toList, .arr [.float (1 / 4), .float (3 / 4)]), ("idleFcKw".toList, .int 2)])]

/-- The hypothesis of `C107_rewrite` is met; the entry that is no number is gone, and with it one of the three points. -/
theorem C107_rewrite_demo : ∃ w, jsonRewrite truck = .ok (w, some [0, 1], some [1 / 4, 3 / 4]) ∧
    field? w "vehPtType" = some (.str "Conv".toList) ∧ field? w "vehCgM" = some (.float (-(1 / 2))) ∧
    field? w "stop_start" = some (.bool false) ∧ field? w "idleFcKw" = some (.float 2) ∧
    field? w "name" = some (.str "truck".toList) := by
  obtain ⟨⟨w, p, h⟩, hr⟩ := (C107_rewrite_objects truck).1 (.inr ⟨_, rfl⟩)
  obtain ⟨a, b, c⟩ := C107_rewrite hr
  have hp : p = some [0, 1] := (b [0, 1]).2 ⟨rfl, _, rfl, by simp [num?, List.filterMap_cons]⟩
  have hh : h = some [1 / 4, 3 / 4] := (c [1 / 4, 3 / 4]).2 ⟨rfl, _, rfl, by simp [num?, List.filterMap_cons]⟩
  refine ⟨w, by rw [hr, hp, hh], a.ptType 1 rfl, a.cg 3 (1 / 2) rfl (.inr rfl) rfl (by norm_num), a.stopStart, ?_, ?_⟩
  · have := a.idleFcKw.1 2 (by rfl)
    exact this
  · rw [a.others "name" (by decide)]; rfl

end CliDemo
end Fastsim.Props
