import Verif.Model.RsHistory
import Mathlib.Data.List.Basic
import Mathlib.Data.List.Induction
import Mathlib.Algebra.Order.Field.Rat
import Mathlib.Tactic.NormNum

set_option linter.unusedSectionVars false

/-!
# C128: histories of the Rust core and the thermal models of a vehicle
-/

namespace Fastsim.Spec
variable {A : Type*}

/-- The history of the states `ss`, which have `n` fields: list `i` holds field `i` of every state in order. -/
def HoldsStates (n : Nat) (ss : List (List A)) (h : History A) : Prop :=
  h.cols.length = n ∧ ∀ i, i < n → h.cols[i]?.map (List.map some) = some (ss.map fun s => s[i]?)

/-- A history after the states were pushed one after the other. -/
def pushAll (h : History A) (ss : List (RsState A)) : History A := ss.foldl History.push h

end Fastsim.Spec

namespace Fastsim.Props
open Spec
variable {A : Type*}

theorem pushAll_concat (h : History A) (ss : List (RsState A)) (s : RsState A) :
    pushAll h (ss ++ [s]) = (pushAll h ss).push s := by
  simp [pushAll]

theorem push_orphaned (ss : List (RsState A)) : ∀ h : History A, (pushAll h ss).orphaned = h.orphaned := by
  induction ss with
  | nil => exact fun h => rfl
  | cons s ss ih => exact fun h => ih (h.push s)

/-- Pushing states into a new history: list `i` holds field `i` of the states in order, none lost and none mixed up. -/
theorem C128_push (n : Nat) (ss : List (RsState A)) (hs : ∀ s ∈ ss, s.fields.length = n) :
    HoldsStates n (ss.map RsState.fields) (pushAll (History.new n) ss) ∧ (pushAll (History.new n) ss).orphaned = false := by
  refine ⟨?_, push_orphaned ss _⟩
  induction ss using List.reverseRecOn with
  | nil =>
    refine ⟨by simp [pushAll, History.new], fun i hi => ?_⟩
    simp [pushAll, History.new, List.getElem?_replicate, hi]
  | append_singleton ss s ih =>
    obtain ⟨h1, h2⟩ := ih (fun t ht => hs t (List.mem_append_left _ ht))
    have hf := hs s (by simp)
    rw [pushAll_concat]
    refine ⟨by simp [History.push, h1, hf], fun i hi => ?_⟩
    have h3 := h2 i hi
    have hc : i < (pushAll (History.new n) ss).cols.length := by omega
    have hfi : i < s.fields.length := by omega
    rw [List.getElem?_eq_getElem hc] at h3
    simp only [Option.map_some, Option.some.injEq] at h3
    simp only [History.push, List.getElem?_zipWith, List.getElem?_eq_getElem hc, List.getElem?_eq_getElem hfi, Option.map_some,
      List.map_append, List.map_cons, List.map_nil, h3]

theorem popCols_push (cs : List (List A)) : ∀ as : List A, as.length = cs.length →
    popCols (List.zipWith (fun c a => c ++ [a]) cs as) = .ok (cs, as) := by
  induction cs with
  | nil => intro as h; cases as with
    | nil => rfl
    | cons a as => cases h
  | cons c cs ih =>
    intro as h
    cases as with
    | nil => cases h
    | cons a as =>
      simp only [List.zipWith_cons_cons, popCols, List.getLast?_concat, List.dropLast_concat]
      rw [ih as (by simpa using h)]

/-- Popping takes off the state pushed last and leaves the history before it; but the state carries the flag of the history
instead of its own. -/
theorem C128_pop_push (h : History A) (s : RsState A) (hs : s.fields.length = h.cols.length) (hne : h.cols ≠ []) :
    (h.push s).pop = .ok (h, some ⟨s.fields, h.orphaned⟩) := by
  obtain ⟨cols, o⟩ := h
  obtain ⟨as, q⟩ := s
  dsimp only at hs hne ⊢
  unfold History.pop
  have he : (History.push ⟨cols, o⟩ ⟨as, q⟩).isEmpty = false := by
    cases cols with
    | nil => exact absurd rfl hne
    | cons c cs => cases as with
      | nil => cases hs
      | cons a as => simp [History.push, History.isEmpty]
  rw [he]
  simp only [Bool.false_eq_true, if_false]
  rw [show (History.push ⟨cols, o⟩ ⟨as, q⟩).cols = List.zipWith (fun c a => c ++ [a]) cols as from rfl, popCols_push cols as hs]
  rfl

/-- Popped one after the other: the states, last first, until the history is as before. -/
def popN (h : History A) : Nat → Except RsErr (History A × List (Option (RsState A)))
  | 0 => .ok (h, [])
  | n + 1 => match h.pop with
    | .error e => .error e
    | .ok (g, s) => match popN g n with
      | .error e => .error e
      | .ok (k, l) => .ok (k, s :: l)

/-- Popping as many states as were pushed gives them back, last first, and leaves the history as it was. -/
theorem C128_stack (h : History A) (hne : h.cols ≠ []) (ss : List (RsState A)) (hs : ∀ s ∈ ss, s.fields.length = h.cols.length) :
    popN (pushAll h ss) ss.length = .ok (h, (ss.map fun s => some (⟨s.fields, h.orphaned⟩ : RsState A)).reverse) := by
  induction ss using List.reverseRecOn with
  | nil => rfl
  | append_singleton ss s ih =>
    have hlen : (pushAll h ss).cols.length = h.cols.length := by
      clear ih
      have hs' : ∀ t ∈ ss, t.fields.length = h.cols.length := fun t ht => hs t (List.mem_append_left _ ht)
      clear hs
      induction ss using List.reverseRecOn with
      | nil => rfl
      | append_singleton ts t ih =>
        rw [pushAll_concat]
        have h1 := ih (fun u hu => hs' u (List.mem_append_left _ hu))
        have h2 := hs' t (by simp)
        simp [History.push, h1, h2]
    rw [pushAll_concat, List.length_append, List.length_singleton]
    unfold popN
    rw [C128_pop_push _ s (by rw [hlen]; exact hs s (by simp)) (by
      intro e; rw [e] at hlen; exact hne (List.eq_nil_of_length_eq_zero hlen.symm))]
    dsimp only
    rw [ih (fun t ht => hs t (List.mem_append_left _ ht)), push_orphaned]
    simp

/-- The length of a history is the number of states pushed into it. -/
theorem C128_len (n : Nat) (ss : List (RsState A)) (hn : 0 < n) (hs : ∀ s ∈ ss, s.fields.length = n) :
    (pushAll (History.new n) ss).len = ss.length ∧ ((pushAll (History.new n) ss).isEmpty = true ↔ ss = []) := by
  obtain ⟨⟨h1, h2⟩, _⟩ := C128_push n ss hs
  have h3 := h2 0 hn
  generalize pushAll (History.new n) ss = h at *
  obtain ⟨cols, o⟩ := h
  cases cols with
  | nil => dsimp only [List.length_nil] at h1; omega
  | cons c cs =>
    simp only [List.getElem?_cons_zero, Option.map_some, Option.some.injEq] at h3
    have hl := congrArg List.length h3
    simp only [List.length_map] at hl
    refine ⟨by simpa [History.len] using hl, ?_⟩
    show c.isEmpty = true ↔ _
    rw [List.isEmpty_iff, ← List.length_eq_zero_iff, hl, List.length_eq_zero_iff]

/-- Clearing empties every list, whatever they hold, and keeps their number. -/
theorem C128_clear (h : History A) : h.clear.cols.length = h.cols.length ∧ (∀ c ∈ h.clear.cols, c = []) ∧
    (h.clear.pop = .ok (h.clear, none)) := by
  refine ⟨by simp [History.clear], by simp [History.clear], ?_⟩
  unfold History.pop
  have : h.clear.isEmpty = true := by
    obtain ⟨cols, o⟩ := h
    cases cols <;> rfl
  rw [if_pos this]

theorem popCols_panic (cs : List (List A)) (h : [] ∈ cs) : popCols cs = .error .panic := by
  induction cs with
  | nil => cases h
  | cons c cs ih =>
    unfold popCols
    cases hc : c.getLast? with
    | none => rfl
    | some a =>
      rcases List.mem_cons.1 h with h | h
      · rw [← h] at hc; cases hc
      · dsimp only; rw [ih h]

/-- Finding: Python may replace the list of one field by one of another length. If that of the first field is empty, nothing can be
popped although the others hold values; if it is another one that is empty, popping is a panic. -/
theorem C128_ragged (h : History A) (i : Nat) (hi : i < h.cols.length) (ho : h.orphaned = false) :
    ∃ g, h.setCol i [] = .ok g ∧ (if i = 0 then g.pop = .ok (g, none) else h.isEmpty = false → g.pop = .error .panic) := by
  refine ⟨{ h with cols := h.cols.set i [] }, by unfold History.setCol; rw [if_pos ho], ?_⟩
  obtain ⟨cols, o⟩ := h
  cases cols with
  | nil => cases hi
  | cons c cs =>
    split
    · rename_i h0
      subst h0
      rfl
    · rename_i h0
      intro hne
      obtain ⟨j, rfl⟩ := Nat.exists_eq_succ_of_ne_zero h0
      unfold History.pop
      have : (History.mk ((c :: cs).set (j + 1) []) o).isEmpty = false := hne
      rw [show ({ cols := (c :: cs).set (j.succ) [], orphaned := o } : History A).isEmpty = false from this]
      simp only [Bool.false_eq_true, if_false]
      rw [popCols_panic _ (by
        show [] ∈ c :: cs.set j []
        exact List.mem_cons_of_mem _ (List.mem_iff_getElem?.2 ⟨j, List.getElem?_set_self (by simpa using hi)⟩))]

/-! ### Setters of the thermal vehicle -/

section
variable {K : Type*} [Zero K] [One K] [NatCast K] [Add K] [Div K]

/-- Setting a parameter of the exponential model of the engine: it is read back; the other two are as before if the model was
exponential, else the defaults; the cabin and the component do not change, and an external model becomes one of the engine's own
temperature. On a nested object it is an error. -/
theorem C128_exp (h : HeatModels K) (p : ExpParam) (x : K) :
    (h.orphaned = true → setFcExp h p x = .error .err) ∧
    (h.orphaned = false → ∃ g, setFcExp h p x = .ok g ∧ getFcExp g p = .ok x ∧ g.cabin = h.cabin ∧ g.orphaned = false ∧
      (∀ q y, q ≠ p → getFcExp h q = .ok y → getFcExp g q = .ok y) ∧
      (∀ t c, h.fc = some (t, c) → ∃ t', g.fc = some (t', c)) ∧ (h.fc = none → ∃ t', g.fc = some (t', .fuelConverter)) ∧
      (∀ q, q ≠ p → getFcExp h q = .error .err → getFcExp g q = .ok (match q with
        | .offset => 0
        | .lag => 25
        | .minimum => 1 / 5))) := by
  refine ⟨fun ho => by simp [setFcExp, ho], fun ho => ?_⟩
  obtain ⟨fc, cabin, o⟩ := h
  dsimp only at ho
  subst ho
  rcases fc with _ | ⟨_ | ⟨a, b, d⟩, c⟩
  · refine ⟨_, rfl, ?_, rfl, rfl, ?_, ?_, ?_, ?_⟩
    · cases p <;> rfl
    · intro q y _ hq; cases hq
    · intro t c hc; cases hc
    · intro _; exact ⟨_, rfl⟩
    · intro q hq _
      cases p <;> cases q <;> first | exact absurd rfl hq | rfl
  · refine ⟨_, rfl, ?_, rfl, rfl, ?_, ?_, ?_, ?_⟩
    · cases p <;> rfl
    · intro q y _ hq; cases hq
    · intro t c' hc; cases hc; exact ⟨_, rfl⟩
    · intro hc; cases hc
    · intro q hq _
      cases p <;> cases q <;> first | exact absurd rfl hq | rfl
  · refine ⟨_, rfl, ?_, rfl, rfl, ?_, ?_, ?_, ?_⟩
    · cases p <;> rfl
    · intro q y hq hy
      cases p <;> cases q <;> first | exact absurd rfl hq | exact hy
    · intro t c' hc; cases hc; exact ⟨_, rfl⟩
    · intro hc; cases hc
    · intro q _ hq; cases hq

/-- The model of the engine is set as a whole: its parameters are read back; a name other than the three is an error. -/
theorem C128_model (h : HeatModels K) (o l m : K) (s : String) :
    (s ∉ ["FuelConverter", "Catalyst", "CatAndFC"] ∨ h.orphaned = true → setFcExponential h o l m s = .error .err) ∧
    (s ∈ ["FuelConverter", "Catalyst", "CatAndFC"] → h.orphaned = false → ∃ g, setFcExponential h o l m s = .ok g ∧
      getFcExp g .offset = .ok o ∧ getFcExp g .lag = .ok l ∧ getFcExp g .minimum = .ok m ∧ g.cabin = h.cabin ∧
      (g.fc.map Prod.snd = some .catalyst ↔ s = "Catalyst") ∧ (g.fc.map Prod.snd = some .catAndFc ↔ s = "CatAndFC")) := by
  constructor
  · rintro (hs | ho)
    · have : compOf s = none := by
        simp only [List.mem_cons, List.not_mem_nil, or_false, not_or] at hs
        unfold compOf
        rw [if_neg hs.1, if_neg hs.2.1, if_neg hs.2.2]
      unfold setFcExponential
      rw [this]
    · unfold setFcExponential
      cases compOf s with
      | none => rfl
      | some c => simp [ho]
  · intro hs ho
    simp only [List.mem_cons, List.not_mem_nil, or_false] at hs
    obtain ⟨f, cb, q⟩ := h
    dsimp only at ho
    subst ho
    rcases hs with rfl | rfl | rfl
    · exact ⟨⟨some (.exponential o l m, .fuelConverter), cb, false⟩, rfl, rfl, rfl, rfl, rfl, by simp, by simp⟩
    · exact ⟨⟨some (.exponential o l m, .catalyst), cb, false⟩, rfl, rfl, rfl, rfl, rfl, by simp, by simp⟩
    · exact ⟨⟨some (.exponential o l m, .catAndFc), cb, false⟩, rfl, rfl, rfl, rfl, rfl, by simp, by simp⟩

/-- The model of the cabin: what is set is read back, and an external one cannot be read; the engine's model stays. -/
theorem C128_cabin (h : HeatModels K) (m : Hvac K) :
    (h.orphaned = true → setCabinInternal h m = .error .err ∧ setCabinExternal h = .error .err) ∧
    (h.orphaned = false → (∃ g, setCabinInternal h m = .ok g ∧ getCabin g = .ok m ∧ g.fc = h.fc) ∧
      ∃ g, setCabinExternal h = .ok g ∧ getCabin g = .error .err ∧ g.fc = h.fc) := by
  refine ⟨fun ho => ⟨by simp [setCabinInternal, ho], by simp [setCabinExternal, ho]⟩, fun ho => ⟨⟨{ h with cabin := some m }, ?_, rfl, rfl⟩, ⟨{ h with cabin := none }, ?_, rfl, rfl⟩⟩⟩
  · unfold setCabinInternal; rw [if_pos ho]
  · unfold setCabinExternal; rw [if_pos ho]

/-- Two of these settings of different parameters can be done in either order. -/
theorem C128_commute (h : HeatModels K) (p q : ExpParam) (x y : K) (hpq : p ≠ q) :
    (match setFcExp h p x with | .ok g => setFcExp g q y | .error e => .error e) =
      match setFcExp h q y with | .ok g => setFcExp g p x | .error e => .error e := by
  obtain ⟨fc, cabin, o⟩ := h
  cases o with
  | true => rfl
  | false => rcases fc with _ | ⟨_ | ⟨a, b, d⟩, c⟩ <;> cases p <;> cases q <;> first | exact absurd rfl hpq | rfl

end

/-! ### Concrete cases -/

/-- Three states of two fields. -/
def demoStates : List (RsState Nat) := [⟨[20, 1], false⟩, ⟨[25, 2], true⟩, ⟨[30, 3], false⟩]

/-- They meet the condition of `C128_push`, `C128_stack` and `C128_len`, and the lists are the two fields over time. -/
theorem C128_demo : (∀ s ∈ demoStates, s.fields.length = 2) ∧
    (pushAll (History.new 2) demoStates).cols = [[20, 25, 30], [1, 2, 3]] := by
  decide +kernel

/-- From a linear model: the lag is set, the others are the defaults, the component stays. -/
theorem C128_exp_demo : ∃ g, setFcExp (⟨some (.linear 1 2 3, .catalyst), none, false⟩ : HeatModels ℚ) .lag 30 = .ok g ∧
    g.fc = some (.exponential 0 30 (1 / 5), .catalyst) := ⟨_, rfl, rfl⟩

end Fastsim.Props
