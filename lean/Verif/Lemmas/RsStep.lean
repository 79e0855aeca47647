import Verif.Model.RsStep
import Verif.Model.Vehicle
import Verif.Lemmas.Vehicle
import Mathlib.Tactic.Ring
import Mathlib.Tactic.FieldSimp
import Mathlib.Tactic.Linarith

/-!
# Lemmas on the tables and the speed search of the Rust core
-/

set_option linter.unusedSectionVars false

namespace Fastsim.Spec
variable {K : Type*} [Field K] [LinearOrder K] [IsStrictOrderedRing K]

/-- A table of powers whose lookups the two programs place in the same bin: it starts at zero and ends at its largest
value `m`, has no negative entry, and no entry lies within a hundredth of a kilowatt or a ten-thousandth part below `m`. The
table of a motor of no power is all zeros. -/
structure TableOk (arr : List K) (m : K) : Prop where
  two : 2 ≤ arr.length
  head : arr[0]? = some 0
  nonneg : ∀ a ∈ arr, 0 ≤ a
  max_mem : m ∈ arr
  gap : ∀ a ∈ arr, a = m ∨ (a ≤ m - 1 / 100 ∧ a ≤ m * (9999 / 10000))

/-- What the agreement of the two programs needs of a vehicle: tables as `set_derived` builds them (for a motor of at least a
kilowatt or none), ratings without sign errors, and the derived values that the Rust core recomputes from the tables. -/
structure RsOk (V : Veh K) : Prop where
  outTable : TableOk V.mcKwOutArray V.mcMaxKw
  inTable : TableOk V.mcKwInArray (listMax V.mcKwInArray)
  lenIn : V.mcKwInArray.length = V.mcKwOutArray.length
  lenEff : V.mcFullEffArray.length = V.mcKwOutArray.length
  inPos : V.mcMaxKw ≠ 0 → listMax V.mcKwInArray ≠ 0
  effNonneg : ∀ e ∈ V.mcFullEffArray, 0 ≤ e
  elecIn : 0 ≤ V.mcMaxElecInKw
  mcTime : 0 ≤ V.mcSecToPeakPwr
  essMax : 0 ≤ V.essMaxKw
  fcMax : 0 ≤ V.fcMaxKw
  fcTime : 0 ≤ V.fcSecToPeakPwr
  fcTwo : 2 ≤ V.fcKwOutArray.length
  fcHead : V.fcKwOutArray[0]? = some 0
  fcLen : V.fcEffArray.length = V.fcKwOutArray.length
  noSys : V.noElecSys = (decide (V.essMaxKwh = 0) || decide (V.essMaxKw = 0) || decide (V.mcMaxKw = 0))
  peak : V.mcPeakEff = listMax V.mcFullEffArray
  best : V.maxFcEffKw = V.fcKwOutArray.getD (argmaxIdx V.fcEffArray) 0

/-- The same vehicle with the last entry of the engine's efficiency curve replaced by the one before it. -/
def lastEffRepeated (V : Veh K) : Veh K :=
  { V with fcEffArray := V.fcEffArray.set (V.fcEffArray.length - 1) (V.fcEffArray.getD (V.fcEffArray.length - 2) 0) }

end Fastsim.Spec

namespace Fastsim
open Spec
section Order
variable {K : Type*} [Field K] [LinearOrder K] [IsStrictOrderedRing K]

theorem rsArrMax_eq : ∀ l : List K, rsArrMax l = listMax l
  | [] => rfl
  | [a] => rfl
  | a :: b :: l => by
    have h : ∀ (l : List K) (x y : K), (y :: l).foldl max x = max x (l.foldl max y) := by
      intro l
      induction l with
      | nil => intro x y; rfl
      | cons c l ih => intro x y; simp only [List.foldl_cons] at *; rw [max_assoc, ih]
    have q := rsArrMax_eq (b :: l)
    change (b :: l).foldl max a = max a (listMax (b :: l))
    rw [h, ← q]; rfl

/-- Index found by `np.argmax(arr > x)`, when there is an entry above `x`. -/
theorem argmaxGt_of_find {arr : List K} {x : K} {k : Nat} (h : arr.findIdx? (fun a => decide (x < a)) = some k) :
    argmaxGt arr x = k := by
  rcases argmaxGt_spec arr x with ⟨hall, -⟩ | ⟨⟨a, ha, hxa⟩, hb⟩
  · obtain ⟨hk, h1, -⟩ := List.findIdx?_eq_some_iff_getElem.1 h
    exact absurd (of_decide_eq_true h1) (not_lt.2 (hall _ (List.getElem_mem _)))
  · obtain ⟨hk, h1, h2⟩ := List.findIdx?_eq_some_iff_getElem.1 h
    have h1 := of_decide_eq_true h1
    rcases lt_trichotomy (argmaxGt arr x) k with q | q | q
    · obtain ⟨hi, rfl⟩ := List.getElem?_eq_some_iff.1 ha
      exact absurd hxa (by simpa using h2 _ q)
    · exact q
    · exact absurd h1 (not_lt.2 (hb k _ q (List.getElem?_eq_getElem hk)))

/-- Both cutoffs below the end of a table with no entry close to its end select the same bin. -/
theorem find_cut {arr : List K} {m x : K} (h : TableOk arr m) (hm : 0 < m) (hx : 0 ≤ x) :
    ∃ k, arr.findIdx? (fun a => decide (min (m * rsBelow) x < a)) = some (k + 1) ∧
      arr.findIdx? (fun a => decide (min (m - 1 / 100) x < a)) = some (k + 1) ∧ k + 1 < arr.length := by
  have e : ∀ a ∈ arr, (min (m * rsBelow) x < a ↔ min (m - 1 / 100) x < a) := by
    intro a ha
    unfold rsBelow
    have h1 : m * (9999 / 10000) < m := by nlinarith
    have h2 : m - 1 / 100 < m := by linarith
    rcases h.gap a ha with rfl | ⟨g1, g2⟩
    · constructor <;> intro _
      · exact lt_of_le_of_lt (min_le_left _ _) h2
      · exact lt_of_le_of_lt (min_le_left _ _) h1
    · simp only [min_lt_iff]
      constructor <;> rintro (q | q)
      · exact absurd q (not_lt.2 g2)
      · exact .inr q
      · exact absurd q (not_lt.2 g1)
      · exact .inr q
  have e' : arr.findIdx? (fun a => decide (min (m * rsBelow) x < a)) =
      arr.findIdx? (fun a => decide (min (m - 1 / 100) x < a)) := by
    have : ∀ l : List K, (∀ a ∈ l, (min (m * rsBelow) x < a ↔ min (m - 1 / 100) x < a)) →
        l.findIdx? (fun a => decide (min (m * rsBelow) x < a)) =
          l.findIdx? (fun a => decide (min (m - 1 / 100) x < a)) := by
      intro l
      induction l with
      | nil => intro _; rfl
      | cons a l ih =>
        intro hl
        have h1 := ih fun b hb => hl b (List.mem_cons_of_mem _ hb)
        have h2 := hl a List.mem_cons_self
        simp only [List.findIdx?_cons, h1, decide_eq_decide.2 h2]
    exact this arr e
  have hnot : ∃ j, arr.findIdx? (fun a => decide (min (m * rsBelow) x < a)) = some j := by
    cases hq : arr.findIdx? (fun a => decide (min (m * rsBelow) x < a)) with
    | some j => exact ⟨j, rfl⟩
    | none =>
      have := List.findIdx?_eq_none_iff.1 hq m h.max_mem
      have h1 : m * rsBelow < m := by unfold rsBelow; nlinarith
      simp only [decide_eq_false_iff_not, not_lt] at this
      exact absurd (lt_of_le_of_lt (min_le_left (m * rsBelow) x) h1) (not_lt.2 this)
  obtain ⟨j, hj⟩ := hnot
  obtain ⟨hlt, h1, -⟩ := List.findIdx?_eq_some_iff_getElem.1 hj
  have h1 := of_decide_eq_true h1
  cases j with
  | zero =>
    have hh := h.head
    rw [List.getElem?_eq_getElem hlt] at hh
    simp only [Option.some.injEq] at hh
    rw [hh] at h1
    have : 0 ≤ m * rsBelow := by unfold rsBelow; nlinarith
    exact absurd h1 (not_lt.2 (le_min this hx))
  | succ k => exact ⟨k, hj, e' ▸ hj, hlt⟩

theorem rsFirstGrtr_some {arr : List K} {x : K} {k : Nat} (h : arr.findIdx? (fun a => decide (x < a)) = some k) :
    rsFirstGrtr arr x = some k := by
  unfold rsFirstGrtr
  have : arr.length ≠ 0 := by
    obtain ⟨hlt, -⟩ := List.findIdx?_eq_some_iff_getElem.1 h
    omega
  rw [if_neg this, h]; rfl

theorem rsIdx_getD {arr : List K} {k : Nat} (h : k < arr.length) : rsIdx arr k = .ok (arr.getD k 0) := by
  unfold rsIdx
  rw [List.getD_eq_getElem?_getD, List.getElem?_eq_getElem h]; rfl

theorem rsLast_getD {arr : List K} (h : 0 < arr.length) : rsLast arr = .ok (arr.getLast?.getD 0) := by
  unfold rsLast
  cases arr with
  | nil => simp at h
  | cons a l => rw [List.getLast?_eq_some_getLast (List.cons_ne_nil a l)]; rfl

theorem rsLookup_eq {arr vals : List K} {m x : K} (h : TableOk arr m) (hm : 0 < m) (hx : 0 ≤ x)
    (hl : vals.length = arr.length) :
    rsLookup arr vals (min (m * rsBelow) x) = .ok (lookupM1 arr vals (min (m - 1 / 100) x)) := by
  obtain ⟨k, h1, h2, h3⟩ := find_cut h hm hx
  unfold rsLookup rsBefore lookupM1
  rw [rsFirstGrtr_some h1, argmaxGt_of_find h2]
  simpa using rsIdx_getD (by omega)

theorem rsLookup0_eq {arr vals : List K} {m x : K} (h : TableOk arr m) (hm : 0 < m) (hx : 0 ≤ x)
    (hl : vals.length = arr.length) :
    rsLookup0 arr vals (min (m * rsBelow) x) = .ok (lookupM1 arr vals (min (m - 1 / 100) x)) := by
  obtain ⟨k, h1, h2, h3⟩ := find_cut h hm hx
  unfold rsLookup0 rsBefore0 lookupM1
  rw [rsFirstGrtr_some h1, argmaxGt_of_find h2]
  simpa using rsIdx_getD (by omega)

theorem rsLookup1_eq {arr vals : List K} {m x : K} (h : TableOk arr m) (hm : 0 < m) (hx : 0 ≤ x)
    (hl : vals.length = arr.length) :
    rsLookup1 arr vals (min (m * rsBelow) x) = .ok (lookupMax1 arr vals (min (m - 1 / 100) x)) := by
  obtain ⟨k, h1, h2, h3⟩ := find_cut h hm hx
  unfold rsLookup1 rsBefore lookupMax1
  rw [rsFirstGrtr_some h1, argmaxGt_of_find h2]
  exact rsIdx_getD (by have := h.two; omega)

theorem rsLookup10_eq {arr vals : List K} {m x : K} (h : TableOk arr m) (hm : 0 < m) (hx : 0 ≤ x)
    (hl : vals.length = arr.length) :
    rsLookup10 arr vals (min (m * rsBelow) x) = .ok (lookupMax1 arr vals (min (m - 1 / 100) x)) := by
  obtain ⟨k, h1, h2, h3⟩ := find_cut h hm hx
  unfold rsLookup10 rsBefore0 lookupMax1
  rw [rsFirstGrtr_some h1, argmaxGt_of_find h2]
  exact rsIdx_getD (by have := h.two; omega)

/-- A table of zeros: the Rust core reads the entry before the last. -/
theorem rsFirstGrtr_zero {arr : List K} {x : K} (h : TableOk arr 0) (hx : 0 ≤ x) :
    rsFirstGrtr arr x = some (arr.length - 2 + 1) := by
  unfold rsFirstGrtr
  have h2 := h.two
  have : arr.findIdx? (fun a => decide (x < a)) = none := by
    rw [List.findIdx?_eq_none_iff]
    intro a ha
    simp only [decide_eq_false_iff_not, not_lt]
    rcases h.gap a ha with rfl | ⟨-, q⟩
    · exact hx
    · simp only [zero_mul] at q; exact q.trans hx
  rw [if_neg (by omega), this]
  simp only [Option.getD_none, Option.some.injEq]
  omega

/-! ### The speed search -/

theorem argminBy_find (f : K → K) : ∀ (l : List K) (b : K),
    ((b :: l).find? fun y => decide (f y = (l.map f).foldl min (f b))) = some (argminBy f l b) ∧
      f (argminBy f l b) = (l.map f).foldl min (f b)
  | [], b => by simp [argminBy]
  | x :: l, b => by
    have hle : ∀ (l : List K) (y : K), l.foldl min y ≤ y := by
      intro l
      induction l with
      | nil => intro y; exact le_refl _
      | cons c l ih => intro y; exact (ih _).trans (min_le_left _ _)
    simp only [argminBy, List.map_cons, List.foldl_cons]
    split
    · rename_i h
      obtain ⟨h1, h2⟩ := argminBy_find f l x
      rw [min_eq_right h.le]
      refine ⟨?_, h2⟩
      rw [List.find?_cons_of_neg, h1]
      simp only [decide_eq_true_eq]
      exact (lt_of_le_of_lt (hle _ _) h).ne'
    · rename_i h
      rw [not_lt] at h
      obtain ⟨h1, h2⟩ := argminBy_find f l b
      rw [min_eq_left h]
      refine ⟨?_, h2⟩
      by_cases hb : f b = (l.map f).foldl min (f b)
      · rw [List.find?_cons_of_pos (by simpa using hb)] at h1 ⊢
        exact h1
      · rw [List.find?_cons_of_neg (by simpa using hb)] at h1 ⊢
        rw [List.find?_cons_of_neg, h1]
        simp only [decide_eq_true_eq]
        intro q
        have := hle (l.map f) (f b)
        exact hb (le_antisymm (q ▸ h) this)

theorem getD_findIdx {α : Type*} (p : α → Bool) : ∀ (l : List α) {x d : α}, l.find? p = some x →
    l.getD ((l.findIdx? p).getD 0) d = x
  | [], x, d, h => by simp at h
  | a :: l, x, d, h => by
    by_cases ha : p a = true
    · rw [List.find?_cons_of_pos ha] at h
      simp only [Option.some.injEq] at h
      subst h
      simp [List.findIdx?_cons, ha]
    · rw [List.find?_cons_of_neg ha] at h
      have q := getD_findIdx p l (d := d) h
      obtain ⟨k, hk⟩ : ∃ k, l.findIdx? p = some k := by
        cases hq : l.findIdx? p with
        | some k => exact ⟨k, rfl⟩
        | none =>
          have := List.findIdx?_eq_none_iff.1 hq x (List.mem_of_find?_eq_some h)
          rw [List.find?_some h] at this
          exact absurd this (by simp)
      rw [hk] at q
      simp only [List.findIdx?_cons, ha, hk]
      simpa using q

/-- The vectors of the Rust search that belong to the guesses `xs` (oldest first). -/
def rsVecs (t3 t2 t1 t0 : K) (xs : List K) : RsGuesses K :=
  { guesses := xs
    errs := xs.map (cubic t3 t2 t1 t0)
    slopes := xs.map (cubicD t3 t2 t1)
    news := xs.map fun x => cubic t3 t2 t1 t0 x - x * cubicD t3 t2 t1 x }

theorem rsVecs_push (t3 t2 t1 t0 : K) (xs : List K) (x : K) :
    (rsVecs t3 t2 t1 t0 xs).push t3 t2 t1 t0 x = rsVecs t3 t2 t1 t0 (xs ++ [x]) := by
  simp [rsVecs, RsGuesses.push, cubic, cubicD]

theorem newtonLoop_cons (t3 t2 t1 t0 xtol g : K) (n k : Nat) (x : K) (xs : List K) :
    newtonLoop t3 t2 t1 t0 xtol g (n + 1) k (x :: xs) =
      let x' := x * (1 - g) - g * (cubic t3 t2 t1 t0 x - x * cubicD t3 t2 t1 x) / cubicD t3 t2 t1 x
      if pabs ((x' - x) / x) < xtol then (k + 1, x' :: x :: xs)
      else newtonLoop t3 t2 t1 t0 xtol g n (k + 1) (x' :: x :: xs) := rfl

theorem rsNewtonLoop_eq (t3 t2 t1 t0 xtol g : K) : ∀ (n k : Nat) (x : K) (xs : List K),
    rsNewtonLoop t3 t2 t1 t0 xtol g n k (rsVecs t3 t2 t1 t0 (xs.reverse ++ [x])) =
      ((newtonLoop t3 t2 t1 t0 xtol g n k (x :: xs)).1,
        rsVecs t3 t2 t1 t0 (newtonLoop t3 t2 t1 t0 xtol g n k (x :: xs)).2.reverse)
  | 0, k, x, xs => by simp [rsNewtonLoop, newtonLoop]
  | n + 1, k, x, xs => by
    have h1 : (rsVecs t3 t2 t1 t0 (xs.reverse ++ [x])).guesses.getLast?.getD 0 = x := by simp [rsVecs]
    have h2 : (rsVecs t3 t2 t1 t0 (xs.reverse ++ [x])).news.getLast?.getD 0
        = cubic t3 t2 t1 t0 x - x * cubicD t3 t2 t1 x := by simp [rsVecs]
    have h3 : (rsVecs t3 t2 t1 t0 (xs.reverse ++ [x])).slopes.getD
        ((rsVecs t3 t2 t1 t0 (xs.reverse ++ [x])).guesses.length - 1) 0 = cubicD t3 t2 t1 x := by
      simp [rsVecs, List.getD_eq_getElem?_getD]
    rw [rsNewtonLoop, newtonLoop_cons]
    simp only [h1, h2, h3, rsVecs_push]
    by_cases hc : pabs ((x * (1 - g) - g * (cubic t3 t2 t1 t0 x - x * cubicD t3 t2 t1 x) / cubicD t3 t2 t1 x - x) / x) < xtol
    · rw [if_pos hc, if_pos hc]
      simp
    · rw [if_neg hc, if_neg hc]
      have := rsNewtonLoop_eq t3 t2 t1 t0 xtol g n (k + 1)
        (x * (1 - g) - g * (cubic t3 t2 t1 t0 x - x * cubicD t3 t2 t1 x) / cubicD t3 t2 t1 x) (x :: xs)
      simp only [List.reverse_cons] at this
      exact this

theorem newtonLoop_shape (t3 t2 t1 t0 xtol g : K) : ∀ (n k : Nat) (xs : List K),
    ∃ ys, (newtonLoop t3 t2 t1 t0 xtol g n k xs).2 = ys ++ xs ∧ k ≤ (newtonLoop t3 t2 t1 t0 xtol g n k xs).1
  | 0, k, xs => ⟨[], rfl, le_refl _⟩
  | n + 1, k, xs => by
    rw [newtonLoop]
    split
    · exact ⟨[_], rfl, Nat.le_succ k⟩
    · obtain ⟨ys, h, h'⟩ := newtonLoop_shape t3 t2 t1 t0 xtol g n (k + 1)
        ((xs.headD 0 * (1 - g) - g * (cubic t3 t2 t1 t0 (xs.headD 0) - xs.headD 0 * cubicD t3 t2 t1 (xs.headD 0))
          / cubicD t3 t2 t1 (xs.headD 0)) :: xs)
      exact ⟨ys ++ [_], h.trans (List.append_cons _ _ _), by omega⟩

theorem rsBest_eq (t3 t2 t1 t0 x : K) (xs : List K) :
    rsBest (rsVecs t3 t2 t1 t0 (x :: xs)) = argminBy (fun x => pabs (cubic t3 t2 t1 t0 x)) xs x := by
  have h := (argminBy_find (fun x => pabs (cubic t3 t2 t1 t0 x)) xs x).1
  unfold rsBest
  simp only [rsVecs, List.map_cons, List.map_map]
  have := getD_findIdx _ _ (d := 0) h
  rw [← this]
  have e : ∀ (p : K → Bool) (f : K → K) (l : List K), (l.map f).findIdx? p = l.findIdx? (fun a => p (f a)) := by
    intro p f l
    rw [List.findIdx?_map]; rfl
  rw [show pabs (cubic t3 t2 t1 t0 x) :: xs.map (pabs ∘ cubic t3 t2 t1 t0)
    = (x :: xs).map (fun x => pabs (cubic t3 t2 t1 t0 x)) from rfl, e]
  rfl

theorem rsSpeedFor_eq (F : Fns K) (V : Veh K) (P : StepParams K) (dt v0 maxOut grade : K) :
    rsSpeedFor F V P dt v0 maxOut grade =
      (let t := speedCoeffs F V P dt v0 maxOut grade
       newtonMps P v0 t.1 t.2.1 t.2.2.1 t.2.2.2) := by
  unfold rsSpeedFor speedCoeffs newtonMps
  simp only
  rw [show (1 : K) / 16 * P.airDensity * V.dragCoef * V.frontalAreaM2
      = 1 / 16 * (P.airDensity * V.dragCoef * V.frontalAreaM2) by ring,
    show (3 : K) / 16 * P.airDensity * V.dragCoef * V.frontalAreaM2
      = 3 / 16 * (P.airDensity * V.dragCoef * V.frontalAreaM2) by ring]
  generalize (1 : K) / 16 * (P.airDensity * V.dragCoef * V.frontalAreaM2) / 1000 = t3
  generalize (1 / 2 * V.vehKg / dt + 3 / 16 * (P.airDensity * V.dragCoef * V.frontalAreaM2) * v0
    + 1 / 2 * V.wheelInertiaKgM2 * V.numWheels / (dt * (V.wheelRadiusM * V.wheelRadiusM))) / 1000 = t2
  generalize (3 / 16 * (P.airDensity * V.dragCoef * V.frontalAreaM2) * (v0 * v0)
    + 1 / 2 * V.vehKg * P.aGrav * V.wheelRrCoef * F.cosAtan grade + 1 / 2 * P.aGrav * F.sinAtan grade * V.vehKg)
      / 1000 = t1
  generalize (-(1 / 2) * V.vehKg * (v0 * v0) / dt
    + 1 / 16 * (P.airDensity * V.dragCoef * V.frontalAreaM2) * (v0 * v0 * v0)
    + 1 / 2 * V.vehKg * P.aGrav * V.wheelRrCoef * F.cosAtan grade * v0
    + 1 / 2 * P.aGrav * F.sinAtan grade * V.vehKg * v0
    + -(1 / 2) * V.wheelInertiaKgM2 * V.numWheels * (v0 * v0) / (dt * (V.wheelRadiusM * V.wheelRadiusM))) / 1000
      - maxOut = t0
  rw [show RsGuesses.push t3 t2 t1 t0 ⟨[], [], [], []⟩ (max 1 v0) = rsVecs t3 t2 t1 t0 (([] : List K).reverse ++ [max 1 v0])
    from rsVecs_push t3 t2 t1 t0 [] _, rsNewtonLoop_eq]
  obtain ⟨ys, h, -⟩ := newtonLoop_shape t3 t2 t1 t0 P.newtonXtol P.newtonGain (P.newtonMaxIter - 1) 1 [max 1 v0]
  simp only [h, List.reverse_append, List.reverse_cons, List.reverse_nil, List.nil_append, List.singleton_append,
    List.tail_cons, rsBest_eq]

theorem newtonMps_count (P : StepParams K) (v0 t3 t2 t1 t0 : K) : 0 < (newtonMps P v0 t3 t2 t1 t0).1 := by
  obtain ⟨ys, -, h⟩ := newtonLoop_shape t3 t2 t1 t0 P.newtonXtol P.newtonGain (P.newtonMaxIter - 1) 1 [max 1 v0]
  exact h

theorem rsGradeLoop_eq {F : Fns K} {V : Veh K} {P : StepParams K} {E : StepEnv K} (v0 maxOut : K) (r : Nat × K)
    (hg : ∀ v, E.gradeOf v = E.gradeEst) :
    rsGradeLoop F V P E v0 maxOut 3 E.gradeEst r = gradeLoop F V P E v0 maxOut 3 E.gradeEst r ∧
      0 < (gradeLoop F V P E v0 maxOut 3 E.gradeEst r).1 := by
  have h0 : pabs (E.gradeEst - E.gradeEst) = 0 := by simp [pabs]
  have n1 : ¬ (1 / 10000 : K) < 0 := by norm_num
  have n2 : ¬ (1 / 1000000 : K) < 0 := by norm_num
  rw [rsGradeLoop, gradeLoop]
  simp only [rsSpeedFor_eq, hg, h0, n1, n2, if_false]
  exact ⟨trivial, newtonMps_count _ _ _ _ _ _⟩

end Order
end Fastsim
