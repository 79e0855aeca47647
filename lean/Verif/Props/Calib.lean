import Verif.Model.Calib
import Verif.Lemmas.Dict
import Verif.Props.CalError

/-!
# C81: calibration objectives belong to the trips and signals they are labelled with
-/

set_option linter.unusedSectionVars false

namespace Fastsim.Spec
section
variable {K : Type*} [Zero K] [One K] [NatCast K] [Add K] [Sub K] [Mul K] [Div K] [Neg K] [LinearOrder K]
variable {M SD : Type*}

/-- `e` is the error of the signal `m` of the simulation `sd` against column `r` of the test data. -/
def ErrorOf (A : SimApi M SD K) (df : PyDict (List K)) (sd : SD) (m r : String) (e : K) : Prop :=
  ∃ sd' sig ref, A.run sd = .ok sd' ∧ A.signal sd' m = .ok sig ∧ PyDict.get? df r = some ref ∧
    getErrorVal sig ref (A.times sd') = .ok e

/-- Every objective compares a model signal with a column of test data. -/
def Compares (objNames : List (List String)) (pairs : List (String × String)) : Prop :=
  objNames = pairs.map (fun p => [p.1, p.2]) ∧ ∀ p ∈ pairs, p.2 ≠ ""

end
end Fastsim.Spec

namespace Fastsim.Props
open Fastsim Spec

section
variable {K : Type*} [Zero K] [One K] [NatCast K] [Add K] [Sub K] [Mul K] [Div K] [Neg K] [LinearOrder K]
variable {M SD : Type*} {A : SimApi M SD K} {P : ModelObjectives M K}

theorem dictSet_fresh {V : Type*} : ∀ (d : PyDict V) (k : String) (v : V), k ∉ PyDict.keys d →
    PyDict.set d k v = d ++ [(k, v)]
  | [], _, _, _ => rfl
  | (k', v') :: d, k, v, h => by
    have h1 : k' ≠ k := fun e => h (by simp [PyDict.keys, e])
    have h2 : k ∉ PyDict.keys d := fun e => h (by simp only [PyDict.keys, List.map_cons, List.mem_cons]; exact Or.inr e)
    rw [PyDict.set, if_neg h1, dictSet_fresh d k v h2]
    rfl

theorem keys_append {V : Type*} (a b : PyDict V) : PyDict.keys (a ++ b) = PyDict.keys a ++ PyDict.keys b := by
  unfold PyDict.keys; rw [List.map_append]

/-- The objectives of one trip: all errors exist and are recorded under the model path, or an exception is raised. -/
theorem objectives_ok (df : PyDict (List K)) (sd : SD) (e : String → String → K) :
    ∀ (pairs : List (String × String)) (ref : Option (List K)) (acc : PyDict K),
      (∀ p ∈ pairs, p.2 ≠ "") → (PyDict.keys acc ++ pairs.map Prod.fst).Nodup →
      (∀ p ∈ pairs, ∃ sig r, A.signal sd p.1 = .ok sig ∧ PyDict.get? df p.2 = some r ∧
        getErrorVal sig r (A.times sd) = .ok (e p.1 p.2)) →
      ∃ ref', objectivesLoop A df sd (ref, acc) (pairs.map fun p => [p.1, p.2]) =
        .ok (ref', acc ++ pairs.map fun p => (p.1, e p.1 p.2))
  | [], ref, acc, _, _, _ => ⟨ref, by simp [objectivesLoop]⟩
  | (m, c) :: pairs, ref, acc, hne, hnd, hok => by
    obtain ⟨sig, r, h1, h2, h3⟩ := hok (m, c) (by simp)
    have hc : c ≠ "" := hne (m, c) (by simp)
    have hm : m ∉ PyDict.keys acc := by
      rw [List.nodup_append] at hnd
      intro hmem
      exact hnd.2.2 m hmem m (by simp) rfl
    have hnd' : (PyDict.keys (acc ++ [(m, e m c)]) ++ pairs.map Prod.fst).Nodup := by
      rw [keys_append, List.append_assoc]
      exact hnd
    obtain ⟨ref', ih⟩ := objectives_ok df sd e pairs (some r) (acc ++ [(m, e m c)])
      (fun p hp => hne p (by simp [hp])) hnd' (fun p hp => hok p (by simp [hp]))
    refine ⟨ref', ?_⟩
    rw [List.map_cons, objectivesLoop]
    simp only [objectiveStep, h1, h2, h3, if_neg hc]
    rw [dictSet_fresh _ _ _ hm, ih]
    simp

/-- If the objectives of a trip give values, each is the error it stands for. -/
theorem objectives_inv (df : PyDict (List K)) (sd : SD) :
    ∀ (pairs : List (String × String)) (st st' : Option (List K) × PyDict K),
      (∀ p ∈ pairs, p.2 ≠ "") →
      objectivesLoop A df sd st (pairs.map fun p => [p.1, p.2]) = .ok st' →
      ∀ p ∈ pairs, ∃ sig r e, A.signal sd p.1 = .ok sig ∧ PyDict.get? df p.2 = some r ∧
        getErrorVal sig r (A.times sd) = .ok e
  | [], _, _, _, _ => by simp
  | (m, c) :: pairs, st, st', hne, h => by
    have hc : c ≠ "" := hne (m, c) (by simp)
    rw [List.map_cons, objectivesLoop] at h
    simp only [objectiveStep, if_neg hc] at h
    cases h1 : A.signal sd m with
    | error x => rw [h1] at h; simp at h
    | ok sig =>
      rw [h1] at h
      cases h2 : PyDict.get? df c with
      | none => simp only [h2] at h; simp at h
      | some r =>
        simp only [h2] at h
        cases h3 : getErrorVal sig r (A.times sd) with
        | error x => simp only [h3] at h; simp at h
        | ok e =>
          simp only [h3] at h
          intro p hp
          rcases List.mem_cons.1 hp with rfl | hp
          · exact ⟨sig, r, e, h1, h2, h3⟩
          · exact objectives_inv df sd pairs _ _ (fun p hp => hne p (by simp [hp])) h p hp

theorem trips_ok (pairs : List (String × String)) (hne : ∀ p ∈ pairs, p.2 ≠ "") (hnd : (pairs.map Prod.fst).Nodup)
    (e : String → String → String → K) :
    ∀ (l : List ((String × PyDict (List K)) × SD)) (ref : Option (List K)) (acc : PyDict (PyDict K)),
      (PyDict.keys acc ++ l.map fun t => t.1.1).Nodup →
      (∀ t ∈ l, ∃ sd', A.run t.2 = .ok sd' ∧ ∀ p ∈ pairs, ∃ sig r, A.signal sd' p.1 = .ok sig ∧
        PyDict.get? t.1.2 p.2 = some r ∧ getErrorVal sig r (A.times sd') = .ok (e t.1.1 p.1 p.2)) →
      tripsLoop A (pairs.map fun p => [p.1, p.2]) ref acc l =
        .ok (acc ++ l.map fun t => (t.1.1, pairs.map fun p => (p.1, e t.1.1 p.1 p.2)))
  | [], ref, acc, _, _ => by simp [tripsLoop]
  | ((key, df), sd) :: l, ref, acc, hk, hok => by
    obtain ⟨sd', h1, h2⟩ := hok ((key, df), sd) (by simp)
    obtain ⟨ref', h3⟩ := objectives_ok (A := A) df sd' (e key) pairs ref [] hne (by simpa [PyDict.keys] using hnd) h2
    have hm : key ∉ PyDict.keys acc := by
      rw [List.nodup_append] at hk
      intro hmem
      exact hk.2.2 key hmem key (by simp) rfl
    rw [tripsLoop]
    simp only [h1, h3, List.nil_append]
    rw [dictSet_fresh _ _ _ hm, trips_ok pairs hne hnd e l ref' _ ?_ (fun t ht => hok t (by simp [ht]))]
    · simp
    · rw [keys_append, List.append_assoc]
      exact hk

theorem trips_inv (pairs : List (String × String)) (hne : ∀ p ∈ pairs, p.2 ≠ "") :
    ∀ (l : List ((String × PyDict (List K)) × SD)) (ref : Option (List K)) (acc d : PyDict (PyDict K)),
      tripsLoop A (pairs.map fun p => [p.1, p.2]) ref acc l = .ok d →
      ∀ t ∈ l, ∃ sd', A.run t.2 = .ok sd' ∧ ∀ p ∈ pairs, ∃ sig r e, A.signal sd' p.1 = .ok sig ∧
        PyDict.get? t.1.2 p.2 = some r ∧ getErrorVal sig r (A.times sd') = .ok e
  | [], _, _, _, _ => by simp
  | ((key, df), sd) :: l, ref, acc, d, h => by
    rw [tripsLoop] at h
    cases h1 : A.run sd with
    | error x => rw [h1] at h; simp at h
    | ok sd' =>
      simp only [h1] at h
      cases h2 : objectivesLoop A df sd' (ref, []) (pairs.map fun p => [p.1, p.2]) with
      | error x => simp only [h2] at h; simp at h
      | ok st =>
        simp only [h2] at h
        intro t ht
        rcases List.mem_cons.1 ht with rfl | ht
        · exact ⟨sd', h1, objectives_inv df sd' pairs _ _ hne h2⟩
        · exact trips_inv pairs hne l _ _ _ h t ht

/-- Pairing by position is pairing by key if both dictionaries list their keys in the same order. -/
theorem zip_keys {α β : Type*} : ∀ (a : PyDict α) (b : PyDict β), PyDict.keys b = PyDict.keys a →
    a.zip (b.map Prod.snd) = (a.zip b).map (fun t => (t.1, t.2.2)) ∧ (∀ t ∈ a.zip b, t.1.1 = t.2.1) ∧
      (a.zip b).map (fun t => t.1.1) = PyDict.keys a
  | [], b, h => by cases b with
    | nil => simp [PyDict.keys]
    | cons x b => simp [PyDict.keys] at h
  | x :: a, [], h => by simp [PyDict.keys] at h
  | x :: a, y :: b, h => by
    simp only [PyDict.keys, List.map_cons, List.cons.injEq] at h
    obtain ⟨i1, i2, i3⟩ := zip_keys a b h.2
    refine ⟨by simp [i1], ?_, by simp only [List.zip_cons_cons, List.map_cons, i3]; rfl⟩
    intro t ht
    rcases List.mem_cons.1 ht with rfl | ht
    · exact h.1.symm
    · exact i2 t ht

theorem mem_zip_keys {α β : Type*} {a : PyDict α} {b : PyDict β} (h : PyDict.keys b = PyDict.keys a)
    (hnd : (PyDict.keys a).Nodup) {k : String} {x : α} {y : β} (hx : PyDict.get? a k = some x)
    (hy : PyDict.get? b k = some y) : ((k, x), (k, y)) ∈ a.zip b := by
  have hx' := PyDict.get?_mem hx
  obtain ⟨i, hi, hxi⟩ := List.getElem_of_mem hx'
  have hlen : b.length = a.length := by
    have := congrArg List.length h
    simpa [PyDict.keys] using this
  have hbi : (b[i]'(by omega)).1 = k := by
    have : (PyDict.keys b)[i]? = (PyDict.keys a)[i]? := by rw [h]
    unfold PyDict.keys at this
    rw [List.getElem?_map, List.getElem?_map, List.getElem?_eq_getElem hi, List.getElem?_eq_getElem (by omega)] at this
    simp only [Option.map_some, Option.some.injEq] at this
    rw [this, hxi]
  have hby : b[i]'(by omega) = (k, y) := by
    have hm : (k, (b[i]'(by omega)).2) ∈ b := by
      rw [← hbi]; exact List.getElem_mem _
    have := PyDict.get?_of_mem (by rw [h]; exact hnd) hm
    rw [hy] at this
    exact Prod.ext hbi (Option.some.inj this).symm
  rw [← hxi, ← hby]
  exact List.mem_iff_getElem.2 ⟨i, by rw [List.length_zip]; omega, by rw [List.getElem_zip]⟩

/-- **C81 (values).** If the trips of test data and simulations are listed in the same order and the objectives
compare different signals with columns, then `get_errors` succeeds exactly if every error exists, and it then
lists, for every trip and objective in order, the error of that trip's signal against that trip's column. -/
theorem C81_errors {pairs : List (String × String)} (hobj : Compares P.objNames pairs)
    (hdist : (pairs.map Prod.fst).Nodup) {sims : PyDict SD} (hkeys : PyDict.keys sims = PyDict.keys P.dfs)
    (hnd : (PyDict.keys P.dfs).Nodup) :
    (∀ e : String → String → String → K,
      (∀ k df sd, PyDict.get? P.dfs k = some df → PyDict.get? sims k = some sd →
        (∃ sd', A.run sd = .ok sd') ∧ ∀ p ∈ pairs, ErrorOf A df sd p.1 p.2 (e k p.1 p.2)) →
      getErrors A P sims =
        .ok ((PyDict.keys P.dfs).map fun k => (k, pairs.map fun p => (p.1, e k p.1 p.2)))) ∧
    (∀ d, getErrors A P sims = .ok d →
      ∀ k df sd, PyDict.get? P.dfs k = some df → PyDict.get? sims k = some sd →
        (∃ sd', A.run sd = .ok sd') ∧ ∀ p ∈ pairs, ∃ e, ErrorOf A df sd p.1 p.2 e) := by
  obtain ⟨z1, z2, z3⟩ := zip_keys P.dfs sims hkeys
  have hnd' : (PyDict.keys sims).Nodup := by rw [hkeys]; exact hnd
  constructor
  · intro e hok
    unfold getErrors
    rw [hobj.1, trips_ok pairs hobj.2 hdist e]
    · rw [List.nil_append, z1, List.map_map, ← z3, List.map_map]
      rfl
    · rw [z1, List.map_map]
      show (PyDict.keys ([] : PyDict (PyDict K)) ++ (P.dfs.zip sims).map fun t => t.1.1).Nodup
      rw [z3]; simpa [PyDict.keys] using hnd
    · intro t ht
      rw [z1] at ht
      obtain ⟨⟨⟨k, df⟩, ⟨k', sd⟩⟩, hu, rfl⟩ := List.mem_map.1 ht
      obtain rfl : k = k' := z2 _ hu
      have m1 := (List.of_mem_zip hu).1
      have m2 := (List.of_mem_zip hu).2
      obtain ⟨⟨sd', hrun⟩, he⟩ := hok k df sd (PyDict.get?_of_mem hnd m1) (PyDict.get?_of_mem hnd' m2)
      refine ⟨sd', hrun, fun p hp => ?_⟩
      obtain ⟨sd'', sig, r, h1, h2, h3, h4⟩ := he p hp
      rw [hrun] at h1
      obtain rfl := Except.ok.inj h1
      exact ⟨sig, r, h2, h3, h4⟩
  · intro d hd k df sd hk hsd
    unfold getErrors at hd
    rw [hobj.1] at hd
    have hmem := mem_zip_keys hkeys hnd hk hsd
    obtain ⟨sd', hrun, he⟩ := trips_inv pairs hobj.2 _ _ _ _ hd ((k, df), sd)
      (by rw [z1]; exact List.mem_map.2 ⟨_, hmem, rfl⟩)
    refine ⟨⟨sd', hrun⟩, fun p hp => ?_⟩
    obtain ⟨sig, r, e, h1, h2, h3⟩ := he p hp
    exact ⟨e, sd', sig, r, hrun, h1, h2, h3⟩

theorem mapValues_spec {α β : Type*} {f : α → Except PyErr β} :
    ∀ {d : PyDict α} {d' : PyDict β}, mapValues f d = .ok d' →
      PyDict.keys d' = PyDict.keys d ∧ ∀ k a, PyDict.get? d k = some a → ∃ b, PyDict.get? d' k = some b ∧ f a = .ok b
  | [], d', h => by
    simp only [mapValues, Except.ok.injEq] at h
    subst h
    exact ⟨rfl, by simp [PyDict.get?]⟩
  | (k, a) :: d, d', h => by
    rw [mapValues] at h
    cases h1 : f a with
    | error x => rw [h1] at h; simp at h
    | ok b =>
      rw [h1] at h
      cases h2 : mapValues f d with
      | error x => simp only [h2] at h; simp at h
      | ok d'' =>
        simp only [h2, Except.ok.injEq] at h
        subst h
        obtain ⟨i1, i2⟩ := mapValues_spec h2
        refine ⟨by simp only [PyDict.keys, List.map_cons] at i1 ⊢; rw [i1], ?_⟩
        intro k' a' hk
        rw [PyDict.get?_cons] at hk ⊢
        by_cases hkk : k' = k
        · simp only [hkk, if_true, Option.some.injEq] at hk ⊢
          exact ⟨b, rfl, by rw [← hk]; exact h1⟩
        · rw [if_neg (by tauto)] at hk ⊢
          exact i2 k' a' hk

theorem dottedNames_spec : ∀ {ps : List ParamName} {ns : List String}, dottedNames ps = .ok ns →
    ps = ns.map .dotted
  | [], ns, h => by simp only [dottedNames, Except.ok.injEq] at h; subst h; rfl
  | .tuple l :: ps, ns, h => by simp [dottedNames] at h
  | .dotted s :: ps, ns, h => by
    rw [dottedNames] at h
    cases h1 : dottedNames ps with
    | error e => rw [h1] at h; simp at h
    | ok l =>
      rw [h1] at h
      simp only [Except.ok.injEq] at h
      subst h
      rw [dottedNames_spec h1]; rfl

theorem dottedNames_map : ∀ ns : List String, dottedNames (ns.map .dotted) = .ok ns
  | [] => rfl
  | n :: ns => by rw [List.map_cons, dottedNames, dottedNames_map ns]

theorem foldl_set_zip {V : Type*} : ∀ (ns : List String) (xs : List V) (acc : PyDict V), xs.length = ns.length →
    (PyDict.keys acc ++ ns).Nodup → (ns.zip xs).foldl (fun d kv => PyDict.set d kv.1 kv.2) acc = acc ++ ns.zip xs
  | [], xs, acc, _, _ => by simp
  | n :: ns, [], acc, h, _ => by simp at h
  | n :: ns, x :: xs, acc, h, hnd => by
    have hm : n ∉ PyDict.keys acc := by
      rw [List.nodup_append] at hnd
      intro hmem
      exact hnd.2.2 n hmem n (by simp) rfl
    rw [List.zip_cons_cons, List.foldl_cons, dictSet_fresh _ _ _ hm,
      foldl_set_zip ns xs _ (by simpa using h) (by rw [keys_append, List.append_assoc]; exact hnd)]
    simp

/-- **C81 (parameters).** `update_params` sets the same values in every model and derives the vehicle anew, and
keeps the trips in order. -/
theorem C81_params {names : List String} (hp : P.params = names.map .dotted) (hnd : names.Nodup) {xs : List K}
    {sds : PyDict SD} (h : updateParams A P xs = .ok sds) :
    xs.length = names.length ∧ PyDict.keys sds = PyDict.keys P.models ∧
    ∀ k m, PyDict.get? P.models k = some m → ∃ s0 s1 sd, A.fromJson m = .ok s0 ∧ A.setPaths s0 (names.zip xs) = .ok s1 ∧
      A.setDerived s1 = .ok sd ∧ PyDict.get? sds k = some sd := by
  unfold updateParams at h
  split at h
  · rename_i hl
    have hl : xs.length = names.length := by rw [hl, hp, List.length_map]
    rw [hp, dottedNames_map] at h
    simp only at h
    cases h1 : mapValues A.fromJson P.models with
    | error e => rw [h1] at h; simp at h
    | ok d1 =>
      rw [h1] at h
      simp only at h
      rw [foldl_set_zip names xs [] hl (by simpa [PyDict.keys] using hnd)] at h
      obtain ⟨k1, v1⟩ := mapValues_spec h1
      obtain ⟨k2, v2⟩ := mapValues_spec h
      refine ⟨hl, by rw [k2, k1], fun k m hm => ?_⟩
      obtain ⟨s0, g0, f0⟩ := v1 k m hm
      obtain ⟨sd, g1, f1⟩ := v2 k s0 g0
      rw [List.nil_append] at f1
      cases h2 : A.setPaths s0 (names.zip xs) with
      | error e => rw [h2] at f1; simp at f1
      | ok s1 =>
        rw [h2] at f1
        exact ⟨s0, s1, sd, f0, h2, f1, g1⟩
  · simp at h

/-- **C81 (parameter names).** Parameters given as tuples, as the documentation says, raise `AttributeError`. -/
theorem C81_tuple_params {l : List String} (h : .tuple l ∈ P.params) (xs : List K) :
    updateParams A P xs = .error .assertionError ∨ updateParams A P xs = .error .attributeError := by
  have key : ∀ ps : List ParamName, .tuple l ∈ ps → dottedNames ps = .error .attributeError := by
    intro ps
    induction ps with
    | nil => simp
    | cons p ps ih =>
      intro hm
      cases p with
      | tuple l' => rfl
      | dotted s =>
        rw [dottedNames, ih (by simpa using hm)]
  unfold updateParams
  split
  · right; rw [key _ h]
  · left; rfl

/-- **C81 (vector).** Under the conditions of `C81_errors`, with test data and models listed in the same order,
the vector handed to the optimiser has one entry per column of the result table, and the entry belongs to the trip
and signal in the column's name. -/
theorem C81_vector {pairs : List (String × String)} (hobj : Compares P.objNames pairs)
    (hdist : (pairs.map Prod.fst).Nodup) (hkeys : PyDict.keys P.models = PyDict.keys P.dfs)
    (hnd : (PyDict.keys P.dfs).Nodup) {xs : List K} {sds : PyDict SD} (hu : updateParams A P xs = .ok sds)
    (hk : PyDict.keys sds = PyDict.keys P.models) {e : String → String → String → K}
    (hok : ∀ k df sd, PyDict.get? P.dfs k = some df → PyDict.get? sds k = some sd →
      (∃ sd', A.run sd = .ok sd') ∧ ∀ p ∈ pairs, ErrorOf A df sd p.1 p.2 (e k p.1 p.2)) :
    ∃ f, evaluateProblem A P xs = .ok f ∧ P.nObj = .ok f.length ∧
      (objectiveColumns P).zip f =
        (PyDict.keys P.dfs).flatMap fun k => pairs.map fun p => (k ++ ": " ++ p.1, e k p.1 p.2) := by
  have hg := (C81_errors (A := A) hobj hdist (sims := sds) (by rw [hk, hkeys]) hnd).1 e hok
  refine ⟨(PyDict.keys P.dfs).flatMap fun k => pairs.map fun p => e k p.1 p.2, ?_, ?_, ?_⟩
  · unfold evaluateProblem
    rw [hu]
    simp only [hg]
    rw [List.flatMap_map]
    congr 2
    funext k
    rw [List.map_map]
    rfl
  · have hl : P.dfs.length = P.models.length := by
      have := congrArg List.length hkeys
      simpa [PyDict.keys] using this.symm
    unfold ModelObjectives.nObj
    rw [if_pos hl, hobj.1, ← hl]
    have : ∀ l : List String, (l.flatMap fun k => pairs.map fun p => e k p.1 p.2).length = l.length * pairs.length := by
      intro l
      induction l with
      | nil => simp
      | cons k l ih => rw [List.flatMap_cons, List.length_append, ih, List.length_map, List.length_cons]; ring
    rw [this, List.length_map, PyDict.keys, List.length_map]
  · have hcol : objectiveColumns P = (PyDict.keys P.dfs).flatMap fun k => pairs.map fun p => k ++ ": " ++ p.1 := by
      unfold objectiveColumns PyDict.keys
      rw [List.flatMap_map, hobj.1]
      congr 1
      funext kv
      rw [List.map_map]
      rfl
    rw [hcol]
    induction PyDict.keys P.dfs with
    | nil => simp
    | cons k l ih =>
      rw [List.flatMap_cons, List.flatMap_cons, List.flatMap_cons, List.zip_append (by simp), ih]
      congr 1
      induction pairs with
      | nil => rfl
      | cons p ps _ => simp [List.zip_map']

/-- **C81 (objectives without reference).** An objective to be minimised (a single path) as the first objective makes
every evaluation with a trip raise. -/
theorem C81_single_first {m : String} {rest : List (List String)} (h : P.objNames = [m] :: rest)
    {sims : PyDict SD} (h1 : P.dfs ≠ []) (h2 : sims ≠ []) (d : PyDict (PyDict K)) : getErrors A P sims ≠ .ok d := by
  obtain ⟨⟨k, df⟩, l, hl⟩ := List.exists_cons_of_ne_nil h1
  obtain ⟨⟨k', sd⟩, l', hl'⟩ := List.exists_cons_of_ne_nil h2
  unfold getErrors
  rw [hl, hl', h, List.map_cons, List.zip_cons_cons, tripsLoop]
  cases A.run sd with
  | error e => simp
  | ok sd' =>
    simp only [objectivesLoop, objectiveStep]
    cases A.signal sd' m <;> simp

/-- **C81 (later objectives without reference).** After another objective it is ignored: the vector gets no entry for
it, although `n_obj` and the columns count it. -/
theorem C81_single_later (df : PyDict (List K)) (sd : SD) {r : List K} {acc : PyDict K} {m : String} {x : List K}
    (hs : A.signal sd m = .ok x) (l : List (List String)) :
    objectivesLoop A df sd (some r, acc) ([m] :: l) = objectivesLoop A df sd (some r, acc) l := by
  rw [objectivesLoop]
  simp only [objectiveStep, hs]
  rfl

end

section Field
variable {K : Type*} [Field K] [LinearOrder K] [IsStrictOrderedRing K]
variable {M SD : Type*} {A : SimApi M SD K}

/-- **C81 (perfect fit).** On signals of the length of a proper time base, the error of an objective is never
negative and is zero exactly if model and test data agree everywhere. -/
theorem C81_perfect {df : PyDict (List K)} {sd sd' : SD} {m r : String} {sig ref : List K} (h1 : A.run sd = .ok sd')
    (h2 : A.signal sd' m = .ok sig) (h3 : PyDict.get? df r = some ref) (hx : TimeBase (A.times sd'))
    (hl : sig.length = (A.times sd').length) (hl' : ref.length = (A.times sd').length) :
    ∃ e, ErrorOf A df sd m r e ∧ 0 ≤ e ∧ (e = 0 ↔ sig = ref) := by
  obtain ⟨e, he, -, h0, hz⟩ := C45_distance hx hl hl'
  exact ⟨e, ⟨sd', sig, ref, h1, h2, h3, he⟩, h0, hz⟩

end Field

/-! ### Concrete cases -/

/-- Toy simulations: a model is a gain; its signals `a` and `b` are multiples of a ramp; the only parameter adds to the
gain. -/
def toyApi : SimApi ℚ ℚ ℚ where
  fromJson := fun m => .ok m
  setPaths := fun g d => .ok (g + (PyDict.get? d "g").getD 0)
  setDerived := fun g => .ok g
  run := fun g => .ok g
  signal := fun g s => if s = "a" then .ok [0, g, 2 * g] else if s = "b" then .ok [g, g, g] else .error .attributeError
  times := fun _ => [0, 1, 2]

/-- Test data of two trips, which the models 1 and 3 reproduce when 1 is added to both. -/
def toyTests : PyDict (PyDict (List ℚ)) :=
  [("t1", [("x", [0, 2, 4]), ("y", [2, 2, 2])]), ("t2", [("x", [0, 4, 8]), ("y", [4, 4, 4])])]

def toyProblem : ModelObjectives ℚ ℚ where
  models := [("t1", 1), ("t2", 3)]
  dfs := toyTests
  objNames := [["a", "x"], ["b", "y"]]
  params := [.dotted "g"]

/-- The toy problem meets the hypotheses of `C81_errors` and `C81_vector`; the parameter 1 fits perfectly, 0 does not. -/
theorem C81_demo : Compares toyProblem.objNames [("a", "x"), ("b", "y")] ∧
    (([("a", "x"), ("b", "y")] : List (String × String)).map Prod.fst).Nodup ∧
    PyDict.keys toyProblem.models = PyDict.keys toyProblem.dfs ∧ (PyDict.keys toyProblem.dfs).Nodup ∧
    updateParams toyApi toyProblem [1] = .ok [("t1", 2), ("t2", 4)] ∧
    evaluateProblem toyApi toyProblem [1] = .ok [0, 0, 0, 0] ∧
    evaluateProblem toyApi toyProblem [0] = .ok [1, 1, 1, 1] ∧
    objectiveColumns toyProblem = ["t1: a", "t1: b", "t2: a", "t2: b"] := by
  refine ⟨⟨by decide, by decide⟩, by decide, by decide, by decide, by decide +kernel, by decide +kernel,
    by decide +kernel, by decide +kernel⟩

/-- **C81 refuted for dictionaries in different order.** Trips are paired by position: with the test data listed the
other way round, under the same keys, the perfect model has errors. -/
theorem C81_mixed_up :
    evaluateProblem toyApi { toyProblem with dfs := toyTests.reverse } [1] = .ok [2, 2, 2, 2] := by decide +kernel

/-- **C81 refuted for repeated signals.** Of two objectives for the same model signal only the last is reported: the
vector is shorter than `n_obj` says. -/
theorem C81_repeated :
    evaluateProblem toyApi { toyProblem with objNames := [["a", "x"], ["a", "y"]] } [1] = .ok [1, 2] ∧
    ({ toyProblem with objNames := [["a", "x"], ["a", "y"]] } : ModelObjectives ℚ ℚ).nObj = .ok 4 := by
  refine ⟨by decide +kernel, by decide +kernel⟩

end Fastsim.Props
