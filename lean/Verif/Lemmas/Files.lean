import Verif.Model.Files
import Verif.Props.Load

/-! Lemmas about loading from files. -/

set_option linter.unusedSectionVars false

namespace Fastsim
open Spec Props

variable {K : Type*} [Zero K] [One K] [NatCast K] [Add K] [Sub K] [Mul K] [Div K] [Neg K]
  [LinearOrder K]

/-! ### Dictionaries that differ in the number of the vehicle only -/

/-- Two dictionaries have the same entries but for the number of the vehicle. -/
def Agree (d d' : PyDict (LVal K)) : Prop := ∀ k, k ≠ "selection" → d.get? k = d'.get? k

/-- The outcomes are the same exception, or dictionaries that agree. -/
inductive AgreeE : Except PyErr (PyDict (LVal K)) → Except PyErr (PyDict (LVal K)) → Prop
  | error (e : PyErr) : AgreeE (.error e) (.error e)
  | ok {d d' : PyDict (LVal K)} : Agree d d' → AgreeE (.ok d) (.ok d')

theorem Agree.set {d d' : PyDict (LVal K)} (h : Agree d d') (k : String) (v : LVal K) :
    Agree (d.set k v) (d'.set k v) := by
  intro k' hk'
  rw [PyDict.get?_set, PyDict.get?_set, h k' hk']

theorem AgreeE.bind {x x' : Except PyErr (PyDict (LVal K))} (h : AgreeE x x')
    {f : PyDict (LVal K) → Except PyErr (PyDict (LVal K))}
    (hf : ∀ d d', Agree d d' → AgreeE (f d) (f d')) : AgreeE (x >>= f) (x' >>= f) := by
  cases h with
  | error e => exact .error e
  | ok h => exact hf _ _ h

theorem loadEngineMap_agree (R : Reader K) {d d' : PyDict (LVal K)} (h : Agree d d') :
    AgreeE (loadEngineMap R d) (loadEngineMap R d') := by
  unfold loadEngineMap
  rw [h "fc_eff_type" (by decide)]
  split
  · exact .error _
  · next t ht =>
    have h1 := h.set "fc_eff_type" (.text (strOf R t))
    simp only [h1 "fc_eff_map" (by decide)]
    split
    · exact .ok (h1.set _ _)
    · split
      · exact .error _
      · split
        · exact .error _
        · exact .ok (h1.set _ _)

theorem loadEnginePowers_agree (R : Reader K) {d d' : PyDict (LVal K)} (h : Agree d d') :
    AgreeE (loadEnginePowers R d) (loadEnginePowers R d') := by
  unfold loadEnginePowers
  rw [h "fc_pwr_out_perc" (by decide), h "fc_eff_map" (by decide)]
  simp only
  split
  · split
    · exact .ok (h.set _ _)
    · exact .error _
  · split
    · exact .ok (h.set _ _)
    · exact .error _

theorem loadMotorPowers_agree (R : Reader K) {d d' : PyDict (LVal K)} (h : Agree d d') :
    AgreeE (loadMotorPowers R d) (loadMotorPowers R d') := by
  unfold loadMotorPowers
  rw [h "mc_pwr_out_perc" (by decide)]
  simp only
  split
  · split
    · exact .ok (h.set _ _)
    · exact .error _
  · split
    · exact .ok (h.set _ _)
    · exact .error _

theorem loadMotorMap_agree (R : Reader K) {d d' : PyDict (LVal K)} (h : Agree d d') :
    Agree (loadMotorMap R d) (loadMotorMap R d') := by
  unfold loadMotorMap
  rw [h "mc_eff_map" (by decide)]
  split <;> exact h.set _ _

theorem loadStopStart_agree {d d' : PyDict (LVal K)} (h : Agree d d') :
    AgreeE (loadStopStart d) (loadStopStart d') := by
  unfold loadStopStart
  rw [h "stop_start" (by decide)]
  split
  · exact .ok h
  · split
    · exact .error _
    · exact .ok (h.set _ _)
    · exact .ok h

theorem loadMassOverride_agree {d d' : PyDict (LVal K)} (h : Agree d d') :
    AgreeE (loadMassOverride d) (loadMassOverride d') := by
  unfold loadMassOverride
  rw [h "veh_override_kg" (by decide)]
  split
  · exact .ok (h.set _ _)
  · exact .ok (h.set _ _)
  · split
    · exact .error _
    · exact .ok (h.set _ _)
    · exact .ok h

theorem loadYear_agree (R : Reader K) {d d' : PyDict (LVal K)} (h : Agree d d') :
    AgreeE (loadYear R d) (loadYear R d') := by
  unfold loadYear
  rw [h "veh_year" (by decide), h "scenario_name" (by decide)]
  simp only
  have hn : AgreeE
      (match d'.get? "scenario_name" with
        | none => (.error .keyError : Except PyErr (PyDict (LVal K)))
        | some n => .ok (d.set "veh_year" (.num ((yearOfName (strOf R n) : Nat) : K))))
      (match d'.get? "scenario_name" with
        | none => .error .keyError
        | some n => .ok (d'.set "veh_year" (.num ((yearOfName (strOf R n) : Nat) : K)))) := by
    split
    · exact .error _
    · exact .ok (h.set _ _)
  split
  · exact hn
  · split
    · exact .error _
    · exact hn
    · split
      · exact .error _
      · exact .ok (h.set _ _)

theorem checkPtType_agree {d d' : PyDict (LVal K)} (h : Agree d d') :
    AgreeE (checkPtType d) (checkPtType d') := by
  unfold checkPtType
  rw [h "veh_pt_type" (by decide)]
  split
  · exact .error _
  · split
    · exact .ok h
    · exact .error _
  · exact .error _

theorem loadPeak_agree (R : Reader K) {k : String} (hk : k ≠ "selection") {d d' : PyDict (LVal K)}
    (h : Agree d d') : Agree (loadPeak R k d) (loadPeak R k d') := by
  unfold loadPeak
  rw [h k hk]
  split
  · exact h
  · split
    · split <;> exact h.set _ _
    · exact h.set _ _

theorem prepare_agree (R : Reader K) {d d' : PyDict (LVal K)} (h : Agree d d') :
    AgreeE (prepare R d) (prepare R d') := by
  unfold prepare
  refine (loadEngineMap_agree R h).bind fun d d' h => ?_
  refine (loadEnginePowers_agree R h).bind fun d d' h => ?_
  refine (loadMotorPowers_agree R h).bind fun d d' h => ?_
  refine (loadStopStart_agree (loadMotorMap_agree R h)).bind fun d d' h => ?_
  refine (loadMassOverride_agree h).bind fun d d' h => ?_
  refine (loadYear_agree R h).bind fun d d' h => ?_
  refine (checkPtType_agree h).bind fun d d' h => ?_
  exact .ok (loadPeak_agree R (by decide) (loadPeak_agree R (by decide) h))

theorem mem_keys_iff {V : Type*} (d : PyDict V) (k : String) : k ∈ d.keys ↔ ∃ v, d.get? k = some v := by
  rcases h : d.get? k with _ | v
  · simp [(PyDict.get?_eq_none d k).1 h]
  · simp only [Option.some.injEq, exists_eq', iff_true]
    by_contra hk
    rw [(PyDict.get?_eq_none d k).2 hk] at h
    cases h

/-- If a dictionary can be loaded, one that agrees with it and numbers the vehicle as well can too, and the vehicle is
the same but for its number. -/
theorem fromDict_agree {R : Reader K} {d d' a : PyDict (LVal K)} (h : Agree d d') (hn' : d'.keys.Nodup)
    {y : K} (hs' : d'.get? "selection" = some (.num y))
    (ha : fromDict R d = .ok a) :
    ∃ a', fromDict R d' = .ok a' ∧ a'.get? "selection" = some (.num (R.trunc y)) ∧
      ∀ k, k ≠ "selection" → a'.get? k = a.get? k := by
  have hp := prepare_agree R h
  unfold fromDict at ha ⊢
  simp only [bind, Except.bind] at ha ⊢
  split at ha
  · cases ha
  next e he =>
  split at ha
  · cases ha
  next f hf =>
  obtain ⟨rfl, hk, hr⟩ := construct_ok ha
  rw [he] at hp
  generalize hp' : prepare R d' = x' at hp
  cases hp with
  | ok hee =>
  rename_i e'
  have hset := prepare_setIn hp'
  have hne' : e'.keys.Nodup := hset.nodup hn'
  have hse' : e'.get? "selection" = some (.num y) := by rw [hset.other (by decide), hs']
  have hsel : convertEntry R ("selection", .num y) = .ok ("selection", .num (R.trunc y)) := by
    have : keyType "selection" = some .int := by decide +kernel
    simp [convertEntry, this, convert, toInt]
  have hsucc : ∀ p ∈ e', ∃ q, convertEntry R p = .ok q := by
    rintro ⟨k, v⟩ hm
    have hg := PyDict.get?_of_mem hne' hm
    by_cases hks : k = "selection"
    · subst hks
      rw [hse'] at hg
      cases hg
      exact ⟨_, hsel⟩
    · rw [← hee k hks] at hg
      rcases convertAll_get hf k with ⟨h1, -⟩ | ⟨v', w, h1, -, h3⟩
      · rw [hg] at h1; cases h1
      · rw [hg] at h1; cases h1; exact ⟨_, h3⟩
  obtain ⟨a', ha', hka'⟩ := convertAll_succeeds hsucc
  have hget : ∀ k, k ≠ "selection" → a'.get? k = a.get? k := by
    intro k hks
    rcases convertAll_get hf k with ⟨h1, h2⟩ | ⟨v, w, h1, h2, h3⟩
    · rcases convertAll_get ha' k with ⟨-, g2⟩ | ⟨v', w', g1, -, -⟩
      · rw [h2, g2]
      · rw [← hee k hks, h1] at g1; cases g1
    · rcases convertAll_get ha' k with ⟨g1, -⟩ | ⟨v', w', g1, g2, g3⟩
      · rw [← hee k hks, h1] at g1; cases g1
      · rw [← hee k hks, h1] at g1
        cases g1
        rw [h3] at g3
        cases g3
        rw [h2, g2]
  have hsa : a'.get? "selection" = some (.num (R.trunc y)) := by
    rcases convertAll_get ha' "selection" with ⟨g1, -⟩ | ⟨v', w', g1, g2, g3⟩
    · rw [hse'] at g1; cases g1
    · rw [hse'] at g1; cases g1; rw [hsel] at g3; cases g3; exact g2
  refine ⟨a', ?_, hsa, hget⟩
  simp only [ha']
  unfold construct
  rw [if_pos]
  constructor
  · intro k hk'
    by_cases hks : k = "selection"
    · subst hks; left; decide +kernel
    · obtain ⟨v, hv⟩ := (mem_keys_iff a' k).1 hk'
      exact hk k ((mem_keys_iff a k).2 ⟨v, by rw [← hget k hks, hv]⟩)
  · intro k hk'
    by_cases hks : k = "selection"
    · subst hks; exact (mem_keys_iff _ _).2 ⟨_, hsa⟩
    · obtain ⟨v, hv⟩ := (mem_keys_iff a k).1 (hr k hk')
      exact (mem_keys_iff _ _).2 ⟨v, by rw [hget k hks, hv]⟩

end Fastsim
