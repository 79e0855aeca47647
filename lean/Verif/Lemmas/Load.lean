import Verif.Model.Load
import Verif.Lemmas.Dict

/-! Lemmas about loading vehicles. -/

set_option linter.unusedSectionVars false

namespace Fastsim

variable {K : Type*} [Zero K] [One K] [NatCast K] [Add K] [Sub K] [Mul K] [Div K] [Neg K]
  [LinearOrder K]

/-! ### The stages of `from_dict` -/

theorem loadEngineMap_ok {R : Reader K} {d d' : PyDict (LVal K)} (h : loadEngineMap R d = .ok d') :
    ∃ t m l, d.get? "fc_eff_type" = some t ∧ d.get? "fc_eff_map" = m ∧
      (readArray R m = some l ∨
        readArray R m = none ∧ m ≠ none ∧ builtinFcMap (engineOf (strOf R t)) = some l) ∧
      d' = (d.set "fc_eff_type" (.text (strOf R t))).set "fc_eff_map" (.arr l) := by
  unfold loadEngineMap at h
  split at h
  · cases h
  · next t ht =>
    have hg : (d.set "fc_eff_type" (.text (strOf R t))).get? "fc_eff_map" = d.get? "fc_eff_map" := by
      rw [PyDict.get?_set, if_neg (by decide)]
    simp only [hg] at h
    split at h
    · next l hl => cases h; exact ⟨t, _, l, ht, rfl, .inl hl, rfl⟩
    · next hl =>
      split at h
      · cases h
      · next v hv =>
        split at h
        · cases h
        · next l hb =>
          cases h
          exact ⟨t, _, l, ht, rfl, .inr ⟨hl, by rw [hv]; simp, hb⟩, rfl⟩

/-- The list in an entry, or the default. -/
def listOr (R : Reader K) (v : Option (LVal K)) (dflt : List K) : List K :=
  match readArray R v with
  | some l => l
  | none => dflt

theorem loadEnginePowers_ok {R : Reader K} {d d' : PyDict (LVal K)} (h : loadEnginePowers R d = .ok d') :
    (listOr R (d.get? "fc_pwr_out_perc") defaultFcPwrOutPerc).length = arrLen (d.get? "fc_eff_map") ∧
      d' = d.set "fc_pwr_out_perc" (.arr (listOr R (d.get? "fc_pwr_out_perc") defaultFcPwrOutPerc)) := by
  unfold loadEnginePowers at h
  change (if (listOr R _ defaultFcPwrOutPerc).length = _ then Except.ok (d.set _ (.arr (listOr R _ _)))
    else _) = _ at h
  split at h
  · next hl => cases h; exact ⟨hl, rfl⟩
  · cases h

theorem loadMotorPowers_ok {R : Reader K} {d d' : PyDict (LVal K)} (h : loadMotorPowers R d = .ok d') :
    (listOr R (d.get? "mc_pwr_out_perc") defaultMcPwrOutPerc).length =
        (largeBaselineEff : List K).length ∧
      d' = d.set "mc_pwr_out_perc" (.arr (listOr R (d.get? "mc_pwr_out_perc") defaultMcPwrOutPerc)) := by
  unfold loadMotorPowers at h
  change (if (listOr R _ defaultMcPwrOutPerc).length = _ then Except.ok (d.set _ (.arr (listOr R _ _)))
    else _) = _ at h
  split at h
  · next hl => cases h; exact ⟨hl, rfl⟩
  · cases h

/-- The motor map in an entry, or `None`. -/
def listOrNone (R : Reader K) (v : Option (LVal K)) : LVal K :=
  match readArray R v with
  | some l => .arr l
  | none => .pyNone

theorem loadMotorMap_eq (R : Reader K) (d : PyDict (LVal K)) :
    loadMotorMap R d = d.set "mc_eff_map" (listOrNone R (d.get? "mc_eff_map")) := by
  unfold loadMotorMap listOrNone
  cases readArray R (d.get? "mc_eff_map") <;> rfl

/-- `d'` differs from `d` at most in the entry of `k`. -/
def OnlyAt (k : String) (d d' : PyDict (LVal K)) : Prop := ∀ k', k' ≠ k → d'.get? k' = d.get? k'

theorem onlyAt_set (k : String) (d : PyDict (LVal K)) (v : LVal K) : OnlyAt k d (d.set k v) :=
  fun k' h => by rw [PyDict.get?_set, if_neg h]

theorem onlyAt_refl (k : String) (d : PyDict (LVal K)) : OnlyAt k d d := fun _ _ => rfl

theorem loadStopStart_ok {d d' : PyDict (LVal K)} (h : loadStopStart d = .ok d') :
    OnlyAt "stop_start" d d' ∧
      ((d.get? "stop_start" = none ∧ d'.get? "stop_start" = none) ∨
        (d.get? "stop_start" = some .nan ∧ d'.get? "stop_start" = some (.bool false)) ∨
        ((∃ x, d.get? "stop_start" = some (.num x)) ∨ ∃ b, d.get? "stop_start" = some (.bool b)) ∧
          d'.get? "stop_start" = d.get? "stop_start") := by
  unfold loadStopStart at h
  split at h
  · next hg => cases h; exact ⟨onlyAt_refl _ _, .inl ⟨hg, hg⟩⟩
  · next v hg =>
    cases v <;> simp only [isNan] at h <;> cases h
    · exact ⟨onlyAt_refl _ _, .inr (.inr ⟨.inl ⟨_, hg⟩, rfl⟩)⟩
    · exact ⟨onlyAt_set _ _ _, .inr (.inl ⟨hg, by rw [PyDict.get?_set, if_pos rfl]⟩)⟩
    · exact ⟨onlyAt_refl _ _, .inr (.inr ⟨.inr ⟨_, hg⟩, rfl⟩)⟩

theorem loadMassOverride_ok {d d' : PyDict (LVal K)} (h : loadMassOverride d = .ok d') :
    OnlyAt "veh_override_kg" d d' ∧
      (((d.get? "veh_override_kg" = none ∨ d.get? "veh_override_kg" = some .pyNone ∨
          d.get? "veh_override_kg" = some .nan) ∧ d'.get? "veh_override_kg" = some .pyNone) ∨
        ((∃ x, d.get? "veh_override_kg" = some (.num x)) ∨
          ∃ b, d.get? "veh_override_kg" = some (.bool b)) ∧
          d'.get? "veh_override_kg" = d.get? "veh_override_kg") := by
  have hs : (d.set "veh_override_kg" .pyNone).get? "veh_override_kg" = some .pyNone := by
    rw [PyDict.get?_set, if_pos rfl]
  unfold loadMassOverride at h
  split at h
  · next hg => cases h; exact ⟨onlyAt_set _ _ _, .inl ⟨.inl hg, hs⟩⟩
  · next hg => cases h; exact ⟨onlyAt_set _ _ _, .inl ⟨.inr (.inl hg), hs⟩⟩
  · next v _ hg =>
    cases v <;> simp only [isNan] at h <;> cases h
    · exact ⟨onlyAt_refl _ _, .inr ⟨.inl ⟨_, hg⟩, rfl⟩⟩
    · exact ⟨onlyAt_set _ _ _, .inl ⟨.inr (.inr hg), hs⟩⟩
    · exact ⟨onlyAt_refl _ _, .inr ⟨.inr ⟨_, hg⟩, rfl⟩⟩

theorem loadYear_ok {R : Reader K} {d d' : PyDict (LVal K)} (h : loadYear R d = .ok d') :
    OnlyAt "veh_year" d d' ∧
      (((d.get? "veh_year" = none ∨ d.get? "veh_year" = some .nan) ∧
          ∃ n, d.get? "scenario_name" = some n ∧
            d'.get? "veh_year" = some (.num ((yearOfName (strOf R n) : Nat) : K))) ∨
        (∃ x, d.get? "veh_year" = some (.num x) ∧ d'.get? "veh_year" = some (.num (R.trunc x))) ∨
        ∃ b, d.get? "veh_year" = some (.bool b) ∧ d'.get? "veh_year" = some (.num (boolNum b))) := by
  have hs : ∀ v, (d.set "veh_year" v).get? "veh_year" = some v := fun v => by
    rw [PyDict.get?_set, if_pos rfl]
  unfold loadYear at h
  simp only at h
  split at h
  · next hg =>
    split at h
    · cases h
    · next n hn => cases h; exact ⟨onlyAt_set _ _ _, .inl ⟨.inl hg, n, hn, hs _⟩⟩
  · next v hg =>
    cases v <;> simp only [isNan, toInt] at h
    · cases h; exact ⟨onlyAt_set _ _ _, .inr (.inl ⟨_, hg, hs _⟩)⟩
    · split at h
      · cases h
      · next n hn => cases h; exact ⟨onlyAt_set _ _ _, .inl ⟨.inr hg, n, hn, hs _⟩⟩
    · cases h; exact ⟨onlyAt_set _ _ _, .inr (.inr ⟨_, hg, hs _⟩)⟩
    all_goals cases h

theorem checkPtType_ok {d d' : PyDict (LVal K)} (h : checkPtType d = .ok d') :
    d' = d ∧ ∃ s, d.get? "veh_pt_type" = some (.text s) ∧ s ∈ ptTypes := by
  unfold checkPtType at h
  split at h
  · cases h
  · next s hg =>
    split at h
    · next hs => cases h; exact ⟨rfl, s, hg, hs⟩
    · cases h
  · cases h

theorem loadPeak_onlyAt (R : Reader K) (k : String) (d : PyDict (LVal K)) : OnlyAt k d (loadPeak R k d) := by
  unfold loadPeak
  split
  · exact onlyAt_refl _ _
  · split
    · split <;> exact onlyAt_set _ _ _
    · exact onlyAt_set _ _ _

/-- What becomes of a peak efficiency. -/
def peakOf (R : Reader K) (v : LVal K) : LVal K :=
  match toFloat R v with
  | .ok (.num x) => if 0 < x ∧ x < 1 then .num x else .pyNone
  | _ => .pyNone

theorem loadPeak_get (R : Reader K) (k : String) (d : PyDict (LVal K)) :
    (loadPeak R k d).get? k = (d.get? k).map (peakOf R) := by
  unfold loadPeak peakOf
  cases hg : d.get? k with
  | none => simp [hg]
  | some v =>
    simp only [Option.map_some]
    rcases hf : toFloat R v with e | w
    · rw [PyDict.get?_set, if_pos rfl]
    · cases w with
      | num x => simp only; split <;> rw [PyDict.get?_set, if_pos rfl]
      | _ => rw [PyDict.get?_set, if_pos rfl]

theorem convertEntry_key {R : Reader K} {p q : String × LVal K} (h : convertEntry R p = .ok q) : q.1 = p.1 := by
  unfold convertEntry at h
  split at h
  · cases h; rfl
  · split at h
    · cases h; rfl
    · split at h
      · cases h
      · split at h
        · cases h
        · cases h; rfl

theorem convertAll_get {R : Reader K} {d a : PyDict (LVal K)} (h : convertAll R d = .ok a) (k : String) :
    (d.get? k = none ∧ a.get? k = none) ∨
      ∃ v w, d.get? k = some v ∧ a.get? k = some w ∧ convertEntry R (k, v) = .ok (k, w) := by
  induction d generalizing a with
  | nil => cases h; exact .inl ⟨rfl, rfl⟩
  | cons p d ih =>
    unfold convertAll at h
    split at h
    · cases h
    · next q hq =>
      split at h
      · cases h
      · next d' hd' =>
        cases h
        have hk := convertEntry_key hq
        obtain ⟨pk, pv⟩ := p
        obtain ⟨qk, qv⟩ := q
        simp only at hk
        subst hk
        rw [PyDict.get?_cons, PyDict.get?_cons]
        by_cases he : k = qk
        · subst he
          rw [if_pos rfl, if_pos rfl]
          exact .inr ⟨pv, qv, rfl, rfl, hq⟩
        · rw [if_neg he, if_neg he]
          exact ih hd'

theorem construct_ok {d a : PyDict (LVal K)} (h : construct d = .ok a) :
    a = d ∧ (∀ k ∈ d.keys, k ∈ requiredKeys ∨ k ∈ optionalKeys) ∧ ∀ k ∈ requiredKeys, k ∈ d.keys := by
  unfold construct at h
  split at h
  · next hk => cases h; exact ⟨rfl, hk⟩
  · cases h

/-- The dictionary after all stages before the conversion of types, described entry by entry. -/
structure Staged (R : Reader K) (d e : PyDict (LVal K)) : Prop where
  other : ∀ k, k ∉ ["fc_eff_type", "fc_eff_map", "fc_pwr_out_perc", "mc_pwr_out_perc", "mc_eff_map",
    "stop_start", "veh_override_kg", "veh_year", "fc_peak_eff_override", "mc_peak_eff_override"] →
    e.get? k = d.get? k
  engine : ∃ t l, d.get? "fc_eff_type" = some t ∧
    (readArray R (d.get? "fc_eff_map") = some l ∨
      readArray R (d.get? "fc_eff_map") = none ∧ d.get? "fc_eff_map" ≠ none ∧
        builtinFcMap (engineOf (strOf R t)) = some l) ∧
    e.get? "fc_eff_type" = some (.text (strOf R t)) ∧ e.get? "fc_eff_map" = some (.arr l) ∧
    (listOr R (d.get? "fc_pwr_out_perc") defaultFcPwrOutPerc).length = l.length
  powers : e.get? "fc_pwr_out_perc" = some (.arr (listOr R (d.get? "fc_pwr_out_perc") defaultFcPwrOutPerc))
  motor : e.get? "mc_pwr_out_perc" = some (.arr (listOr R (d.get? "mc_pwr_out_perc") defaultMcPwrOutPerc))
  motorLen : (listOr R (d.get? "mc_pwr_out_perc") defaultMcPwrOutPerc).length =
    (largeBaselineEff : List K).length
  map : e.get? "mc_eff_map" = some (listOrNone R (d.get? "mc_eff_map"))
  stop : (d.get? "stop_start" = none ∧ e.get? "stop_start" = none) ∨
    (d.get? "stop_start" = some .nan ∧ e.get? "stop_start" = some (.bool false)) ∨
    ((∃ x, d.get? "stop_start" = some (.num x)) ∨ ∃ b, d.get? "stop_start" = some (.bool b)) ∧
      e.get? "stop_start" = d.get? "stop_start"
  mass : ((d.get? "veh_override_kg" = none ∨ d.get? "veh_override_kg" = some .pyNone ∨
      d.get? "veh_override_kg" = some .nan) ∧ e.get? "veh_override_kg" = some .pyNone) ∨
    ((∃ x, d.get? "veh_override_kg" = some (.num x)) ∨ ∃ b, d.get? "veh_override_kg" = some (.bool b)) ∧
      e.get? "veh_override_kg" = d.get? "veh_override_kg"
  year : ((d.get? "veh_year" = none ∨ d.get? "veh_year" = some .nan) ∧
      ∃ n, d.get? "scenario_name" = some n ∧
        e.get? "veh_year" = some (.num ((yearOfName (strOf R n) : Nat) : K))) ∨
    (∃ x, d.get? "veh_year" = some (.num x) ∧ e.get? "veh_year" = some (.num (R.trunc x))) ∨
    ∃ b, d.get? "veh_year" = some (.bool b) ∧ e.get? "veh_year" = some (.num (boolNum b))
  pt : ∃ s, d.get? "veh_pt_type" = some (.text s) ∧ s ∈ ptTypes
  fcPeak : e.get? "fc_peak_eff_override" = (d.get? "fc_peak_eff_override").map (peakOf R)
  mcPeak : e.get? "mc_peak_eff_override" = (d.get? "mc_peak_eff_override").map (peakOf R)

theorem prepare_ok {R : Reader K} {d e : PyDict (LVal K)} (h : prepare R d = .ok e) : Staged R d e := by
  unfold prepare at h
  simp only [bind, Except.bind] at h
  split at h
  · cases h
  next d1 h1 =>
  split at h
  · cases h
  next d2 h2 =>
  split at h
  · cases h
  next d3 h3 =>
  rw [loadMotorMap_eq] at h
  split at h
  · cases h
  next d5 h5 =>
  split at h
  · cases h
  next d6 h6 =>
  split at h
  · cases h
  next d7 h7 =>
  split at h
  · cases h
  next d8 h8 =>
  cases h
  obtain ⟨t, m, l, ht, hm, hl, e1⟩ := loadEngineMap_ok h1
  obtain ⟨l2, e2⟩ := loadEnginePowers_ok h2
  obtain ⟨l3, e3⟩ := loadMotorPowers_ok h3
  obtain ⟨f5, v5⟩ := loadStopStart_ok h5
  obtain ⟨f6, v6⟩ := loadMassOverride_ok h6
  obtain ⟨f7, v7⟩ := loadYear_ok h7
  obtain ⟨e8, s, hs, hp⟩ := checkPtType_ok h8
  subst hm e8
  have f9 := loadPeak_onlyAt R "fc_peak_eff_override" d8
  have f10 := loadPeak_onlyAt R "mc_peak_eff_override" (loadPeak R "fc_peak_eff_override" d8)
  have g1 : ∀ k, k ≠ "fc_eff_type" → k ≠ "fc_eff_map" → d1.get? k = d.get? k := fun k a b => by
    rw [e1, PyDict.get?_set, if_neg b, PyDict.get?_set, if_neg a]
  have g2 : ∀ k, k ≠ "fc_pwr_out_perc" → d2.get? k = d1.get? k := fun k a => by
    rw [e2, PyDict.get?_set, if_neg a]
  have g3 : ∀ k, k ≠ "mc_pwr_out_perc" → d3.get? k = d2.get? k := fun k a => by
    rw [e3, PyDict.get?_set, if_neg a]
  have g4 : ∀ k, k ≠ "mc_eff_map" →
      (d3.set "mc_eff_map" (listOrNone R (d3.get? "mc_eff_map"))).get? k = d3.get? k := fun k a => by
    rw [PyDict.get?_set, if_neg a]
  have m1 : d1.get? "fc_eff_map" = some (.arr l) := by rw [e1, PyDict.get?_set, if_pos rfl]
  constructor
  · intro k hk
    simp only [List.mem_cons, List.not_mem_nil, or_false, not_or] at hk
    obtain ⟨k1, k2, k3, k4, k5, k6, k7, k8, k9, k10⟩ := hk
    rw [f10 k k10, f9 k k9, f7 k k8, f6 k k7, f5 k k6, g4 k k5, g3 k k4, g2 k k3, g1 k k1 k2]
  · refine ⟨t, l, ht, hl, ?_, ?_, ?_⟩
    · rw [f10 _ (by decide), f9 _ (by decide), f7 _ (by decide), f6 _ (by decide), f5 _ (by decide),
        g4 _ (by decide), g3 _ (by decide), g2 _ (by decide), e1, PyDict.get?_set, if_neg (by decide),
        PyDict.get?_set, if_pos rfl]
    · rw [f10 _ (by decide), f9 _ (by decide), f7 _ (by decide), f6 _ (by decide), f5 _ (by decide),
        g4 _ (by decide), g3 _ (by decide), g2 _ (by decide), m1]
    · rw [m1, g1 _ (by decide) (by decide)] at l2
      exact l2
  · rw [f10 _ (by decide), f9 _ (by decide), f7 _ (by decide), f6 _ (by decide), f5 _ (by decide),
        g4 _ (by decide), g3 _ (by decide), e2, PyDict.get?_set, if_pos rfl, g1 _ (by decide) (by decide)]
  · rw [f10 _ (by decide), f9 _ (by decide), f7 _ (by decide), f6 _ (by decide), f5 _ (by decide),
        g4 _ (by decide), e3, PyDict.get?_set, if_pos rfl, g2 _ (by decide), g1 _ (by decide) (by decide)]
  · rw [g2 _ (by decide), g1 _ (by decide) (by decide)] at l3
    exact l3
  · rw [f10 _ (by decide), f9 _ (by decide), f7 _ (by decide), f6 _ (by decide), f5 _ (by decide),
        PyDict.get?_set, if_pos rfl, g3 _ (by decide), g2 _ (by decide), g1 _ (by decide) (by decide)]
  · rw [g4 _ (by decide), g3 _ (by decide), g2 _ (by decide), g1 _ (by decide) (by decide)] at v5
    rw [f10 _ (by decide), f9 _ (by decide), f7 _ (by decide), f6 _ (by decide)]
    exact v5
  · rw [f5 _ (by decide), g4 _ (by decide), g3 _ (by decide), g2 _ (by decide),
      g1 _ (by decide) (by decide)] at v6
    rw [f10 _ (by decide), f9 _ (by decide), f7 _ (by decide)]
    exact v6
  · rw [f6 _ (by decide), f5 _ (by decide), g4 _ (by decide), g3 _ (by decide), g2 _ (by decide),
      g1 _ (by decide) (by decide), f6 _ (by decide), f5 _ (by decide), g4 _ (by decide),
      g3 _ (by decide), g2 _ (by decide), g1 _ (by decide) (by decide)] at v7
    rw [f10 _ (by decide), f9 _ (by decide)]
    exact v7
  · refine ⟨s, ?_, hp⟩
    rw [f7 _ (by decide), f6 _ (by decide), f5 _ (by decide), g4 _ (by decide), g3 _ (by decide),
      g2 _ (by decide), g1 _ (by decide) (by decide)] at hs
    exact hs
  · rw [f10 _ (by decide), loadPeak_get, f7 _ (by decide), f6 _ (by decide), f5 _ (by decide),
      g4 _ (by decide), g3 _ (by decide), g2 _ (by decide), g1 _ (by decide) (by decide)]
  · rw [loadPeak_get, f9 _ (by decide), f7 _ (by decide), f6 _ (by decide), f5 _ (by decide),
      g4 _ (by decide), g3 _ (by decide), g2 _ (by decide), g1 _ (by decide) (by decide)]

/-- A load that succeeds goes through all stages. -/
theorem fromDict_ok {R : Reader K} {d a : PyDict (LVal K)} (h : fromDict R d = .ok a) :
    ∃ e, Staged R d e ∧ convertAll R e = .ok a ∧
      (∀ k ∈ a.keys, k ∈ requiredKeys ∨ k ∈ optionalKeys) ∧ ∀ k ∈ requiredKeys, k ∈ a.keys := by
  unfold fromDict at h
  simp only [bind, Except.bind] at h
  split at h
  · cases h
  next e h1 =>
  split at h
  · cases h
  next f h2 =>
  obtain ⟨ha, hk, hr⟩ := construct_ok h
  subst ha
  exact ⟨e, prepare_ok h1, h2, hk, hr⟩

/-! ### Loads that succeed -/

theorem nodup_keys_set {V : Type*} (d : PyDict V) (k : String) (v : V) (h : d.keys.Nodup) :
    (d.set k v).keys.Nodup := by
  induction d with
  | nil => simp [PyDict.set, PyDict.keys]
  | cons p d ih =>
    obtain ⟨a, b⟩ := p
    unfold PyDict.set
    unfold PyDict.keys at h ih ⊢
    rw [List.map_cons, List.nodup_cons] at h
    by_cases hk : a = k
    · subst hk
      rw [if_pos rfl, List.map_cons, List.nodup_cons]
      exact h
    · rw [if_neg hk, List.map_cons, List.nodup_cons]
      refine ⟨fun hm => ?_, ih h.2⟩
      rcases (PyDict.mem_keys_set d k a v).1 hm with rfl | hm
      · exact hk rfl
      · exact h.1 hm

theorem convertAll_succeeds {R : Reader K} {d : PyDict (LVal K)}
    (h : ∀ p ∈ d, ∃ q, convertEntry R p = .ok q) : ∃ a, convertAll R d = .ok a ∧ a.keys = d.keys := by
  induction d with
  | nil => exact ⟨[], rfl, rfl⟩
  | cons p d ih =>
    obtain ⟨q, hq⟩ := h p (by simp)
    obtain ⟨a, ha, hk⟩ := ih fun p hp => h p (by simp [hp])
    refine ⟨q :: a, by simp [convertAll, hq, ha], ?_⟩
    unfold PyDict.keys at hk ⊢
    rw [List.map_cons, List.map_cons, hk, convertEntry_key hq]

/-- `d'` comes from `d` by setting entries of the given names. -/
inductive SetIn (ks : List String) (d : PyDict (LVal K)) : PyDict (LVal K) → Prop
  | refl : SetIn ks d d
  | step {d' : PyDict (LVal K)} (k : String) (v : LVal K) : SetIn ks d d' → k ∈ ks → SetIn ks d (d'.set k v)

theorem SetIn.nodup {ks : List String} {d d' : PyDict (LVal K)} (h : SetIn ks d d') (hn : d.keys.Nodup) :
    d'.keys.Nodup := by
  induction h with
  | refl => exact hn
  | step k v _ _ ih => exact nodup_keys_set _ _ _ ih

theorem SetIn.keys {ks : List String} {d d' : PyDict (LVal K)} (h : SetIn ks d d') (k : String) :
    (k ∈ d.keys → k ∈ d'.keys) ∧ (k ∈ d'.keys → k ∈ d.keys ∨ k ∈ ks) := by
  induction h with
  | refl => exact ⟨id, .inl⟩
  | step k' v _ hk ih =>
    constructor
    · exact fun h => (PyDict.mem_keys_set ..).2 (.inr (ih.1 h))
    · intro h
      rcases (PyDict.mem_keys_set ..).1 h with rfl | h
      · exact .inr hk
      · exact ih.2 h

theorem SetIn.other {ks : List String} {d d' : PyDict (LVal K)} (h : SetIn ks d d') {k : String} (hk : k ∉ ks) :
    d'.get? k = d.get? k := by
  induction h with
  | refl => rfl
  | step k' v _ hk' ih =>
    rw [PyDict.get?_set, if_neg (fun e => hk (by rw [e]; exact hk')), ih]

/-- The names whose entries `from_dict` may set before the conversion of types. -/
def preparedKeys : List String :=
  ["fc_eff_type", "fc_eff_map", "fc_pwr_out_perc", "mc_pwr_out_perc", "mc_eff_map",
    "stop_start", "veh_override_kg", "veh_year", "fc_peak_eff_override", "mc_peak_eff_override"]

theorem loadPeak_setIn (R : Reader K) {k : String} (hk : k ∈ preparedKeys) {d d' : PyDict (LVal K)}
    (h : SetIn preparedKeys d d') : SetIn preparedKeys d (loadPeak R k d') := by
  unfold loadPeak
  split
  · exact h
  · split
    · split <;> exact .step _ _ h hk
    · exact .step _ _ h hk

theorem prepare_setIn {R : Reader K} {d e : PyDict (LVal K)} (h : prepare R d = .ok e) :
    SetIn preparedKeys d e := by
  unfold prepare at h
  simp only [bind, Except.bind] at h
  split at h
  · cases h
  next d1 h1 =>
  split at h
  · cases h
  next d2 h2 =>
  split at h
  · cases h
  next d3 h3 =>
  rw [loadMotorMap_eq] at h
  split at h
  · cases h
  next d5 h5 =>
  split at h
  · cases h
  next d6 h6 =>
  split at h
  · cases h
  next d7 h7 =>
  split at h
  · cases h
  next d8 h8 =>
  cases h
  obtain ⟨t, m, l, -, -, -, e1⟩ := loadEngineMap_ok h1
  obtain ⟨-, e2⟩ := loadEnginePowers_ok h2
  obtain ⟨-, e3⟩ := loadMotorPowers_ok h3
  obtain ⟨e8, -⟩ := checkPtType_ok h8
  subst e8
  apply loadPeak_setIn R (by decide)
  apply loadPeak_setIn R (by decide)
  have s1 : SetIn preparedKeys d d1 := by
    rw [e1]; exact .step _ _ (.step _ _ .refl (by decide)) (by decide)
  have s2 : SetIn preparedKeys d d2 := by rw [e2]; exact .step _ _ s1 (by decide)
  have s3 : SetIn preparedKeys d d3 := by rw [e3]; exact .step _ _ s2 (by decide)
  have s4 : SetIn preparedKeys d (d3.set "mc_eff_map" (listOrNone R (d3.get? "mc_eff_map"))) :=
    .step _ _ s3 (by decide)
  have s5 : SetIn preparedKeys d d5 := by
    unfold loadStopStart at h5
    split at h5
    · cases h5; exact s4
    · split at h5
      · cases h5
      · cases h5; exact .step _ _ s4 (by decide)
      · cases h5; exact s4
  have s6 : SetIn preparedKeys d d6 := by
    unfold loadMassOverride at h6
    split at h6
    · cases h6; exact .step _ _ s5 (by decide)
    · cases h6; exact .step _ _ s5 (by decide)
    · split at h6
      · cases h6
      · cases h6; exact .step _ _ s5 (by decide)
      · cases h6; exact s5
  unfold loadYear at h7
  simp only at h7
  split at h7
  · split at h7
    · cases h7
    · cases h7; exact .step _ _ s6 (by decide)
  · split at h7
    · cases h7
    · split at h7
      · cases h7
      · cases h7; exact .step _ _ s6 (by decide)
    · split at h7
      · cases h7
      · cases h7; exact .step _ _ s6 (by decide)

end Fastsim
