import Verif.Lemmas.Dict

/-!
# C39 (first part): copies and comparison of cycles, parameters and physical properties
-/

set_option linter.unusedSectionVars false

namespace Fastsim.Spec

/-- The attributes set by `SimDriveParams()`. -/
def paramNames : List String :=
  ["favor_grade_accuracy", "missed_trace_correction", "max_time_dilation", "min_time_dilation",
   "time_dilation_tol", "max_trace_miss_iters", "trace_miss_speed_mps_tol", "trace_miss_time_tol",
   "trace_miss_dist_tol", "sim_count_max", "newton_gain", "newton_max_iter", "newton_xtol",
   "energy_audit_error_tol", "coast_allow", "coast_allow_passing", "coast_max_speed_m_per_s",
   "coast_brake_accel_m_per_s2", "coast_brake_start_speed_m_per_s", "coast_start_speed_m_per_s",
   "coast_time_horizon_for_adjustment_s", "idm_allow", "idm_v_desired_m_per_s", "idm_dt_headway_s",
   "idm_minimum_gap_m", "idm_delta", "idm_accel_m_per_s2", "idm_decel_m_per_s2",
   "idm_v_desired_in_m_per_s_by_distance_m", "max_epa_adj"]

/-- The attributes set by `PhysicalProperties()`. -/
def propNames : List String :=
  ["air_density_kg_per_m3", "a_grav_mps2", "kwh_per_gge", "fuel_rho_kg__L", "fuel_afr_stoich"]

end Fastsim.Spec

namespace Fastsim.Props
open Fastsim Spec

section
variable {K : Type*} [Zero K]

/-- What reading a cycle from a dictionary means, entry by entry and independent of their order: each
column may be given under its present or its old name; grade and road type may be missing, and are
zero then, one zero per time; a missing name is empty; nothing else may be given. -/
structure _root_.Fastsim.Spec.ReadsAs (d : PyDict (CVal K)) (c : CycObj K) : Prop where
  known : ∀ kv ∈ d, kv.1 ∈ ["time_s", "cycSecs", "mps", "cycMps", "grade", "cycGrade", "road_type",
    "cycRoadType", "name"]
  time : ("time_s", c.timeS) ∈ d ∨ ("cycSecs", c.timeS) ∈ d
  speed : ("mps", c.mps) ∈ d ∨ ("cycMps", c.mps) ∈ d
  grade : (("grade", c.grade) ∈ d ∨ ("cycGrade", c.grade) ∈ d) ∨
    (c.grade = .arr (List.replicate c.timeS.len 0) ∧
      ∀ kv ∈ d, kv.1 ≠ "grade" ∧ kv.1 ≠ "cycGrade")
  road : (("road_type", c.roadType) ∈ d ∨ ("cycRoadType", c.roadType) ∈ d) ∨
    (c.roadType = .arr (List.replicate c.timeS.len 0) ∧
      ∀ kv ∈ d, kv.1 ≠ "road_type" ∧ kv.1 ≠ "cycRoadType")
  name : ("name", c.name) ∈ d ∨ (c.name = .str "" ∧ ∀ kv ∈ d, kv.1 ≠ "name")

theorem oldToNew_iff (k : String) :
    (oldToNew k = "time_s" ↔ k = "time_s" ∨ k = "cycSecs") ∧
    (oldToNew k = "mps" ↔ k = "mps" ∨ k = "cycMps") ∧
    (oldToNew k = "grade" ↔ k = "grade" ∨ k = "cycGrade") ∧
    (oldToNew k = "road_type" ↔ k = "road_type" ∨ k = "cycRoadType") ∧
    (oldToNew k = "name" ↔ k = "name") ∧
    (oldToNew k ∈ standardCycleKeys ↔ k ∈ ["time_s", "cycSecs", "mps", "cycMps", "grade", "cycGrade",
      "road_type", "cycRoadType", "name"]) := by
  by_cases h1 : k = "cycSecs"
  · subst h1; decide
  by_cases h2 : k = "cycMps"
  · subst h2; decide
  by_cases h3 : k = "cycGrade"
  · subst h3; decide
  by_cases h4 : k = "cycRoadType"
  · subst h4; decide
  have : oldToNew k = k := by
    unfold oldToNew; simp [h1, h2, h3, h4]
  rw [this]
  simp [h1, h2, h3, h4, standardCycleKeys]

/-- The dictionary with the new names, entry by entry. -/
theorem renamed_get (d : PyDict (CVal K)) (hn : (d.map fun kv => oldToNew kv.1).Nodup) (key : String)
    (v : CVal K) :
    PyDict.get? (d.foldl (fun acc kv => PyDict.set acc (oldToNew kv.1) kv.2) []) key = some v ↔
      ∃ k, oldToNew k = key ∧ (k, v) ∈ d := by
  obtain ⟨h1, h2⟩ := PyDict.get?_foldl oldToNew d [] hn key
  constructor
  · intro h
    by_contra hne
    by_cases hall : ∀ kv ∈ d, oldToNew kv.1 ≠ key
    · rw [h2 hall] at h; simp [PyDict.get?_nil] at h
    · push Not at hall
      obtain ⟨kv, hm, hk⟩ := hall
      have e := h1 kv hm hk
      rw [h] at e
      exact hne ⟨kv.1, hk, by rw [Option.some.inj e]; exact hm⟩
  · rintro ⟨k, hk, hm⟩
    exact h1 _ hm hk

theorem renamed_none (d : PyDict (CVal K)) (hn : (d.map fun kv => oldToNew kv.1).Nodup) (key : String) :
    PyDict.get? (d.foldl (fun acc kv => PyDict.set acc (oldToNew kv.1) kv.2) []) key = none ↔
      ∀ kv ∈ d, oldToNew kv.1 ≠ key := by
  obtain ⟨h1, h2⟩ := PyDict.get?_foldl oldToNew d [] hn key
  constructor
  · intro h kv hm hk
    rw [h1 kv hm hk] at h; simp at h
  · intro h; rw [h2 h]; rfl

/-- **C39 (reading a cycle).** `Cycle.from_dict` succeeds exactly when the dictionary describes a
cycle, and returns that cycle; the order of the entries and the choice between old and new names do not
matter. The dictionary must not give one column under both names. -/
theorem C39_from_dict (d : PyDict (CVal K)) (hn : (d.map fun kv => oldToNew kv.1).Nodup)
    (c : CycObj K) : cycFromDict d = .ok c ↔ ReadsAs d c := by
  have hkeys : (PyDict.keys d).Nodup := by
    have : (d.map fun kv => oldToNew kv.1) = (PyDict.keys d).map oldToNew := by
      simp [PyDict.keys]
    rw [this] at hn
    exact hn.of_map _
  unfold cycFromDict
  simp only
  set d1 := d.foldl (fun acc kv => PyDict.set acc (oldToNew kv.1) kv.2) [] with hd1
  have hg := renamed_get d hn
  have hz := renamed_none d hn
  rw [← hd1] at hg hz
  -- names
  have hname : ∀ v, PyDict.get? d "name" = some v ↔ ("name", v) ∈ d := fun v => PyDict.get?_iff hkeys
  have hcol : ∀ (a b : String) (v : CVal K), (∀ k, oldToNew k = a ↔ k = a ∨ k = b) →
      (PyDict.get? d1 a = some v ↔ (a, v) ∈ d ∨ (b, v) ∈ d) := by
    intro a b v h
    rw [hg]
    constructor
    · rintro ⟨k, hk, hm⟩
      rcases (h k).1 hk with rfl | rfl
      · exact Or.inl hm
      · exact Or.inr hm
    · rintro (hm | hm)
      · exact ⟨a, (h a).2 (Or.inl rfl), hm⟩
      · exact ⟨b, (h b).2 (Or.inr rfl), hm⟩
  have hcolN : ∀ (a b : String), (∀ k, oldToNew k = a ↔ k = a ∨ k = b) →
      (PyDict.get? d1 a = none ↔ ∀ kv ∈ d, kv.1 ≠ a ∧ kv.1 ≠ b) := by
    intro a b h
    rw [hz]
    constructor
    · intro q kv hm
      have := q kv hm
      rw [Ne, h] at this
      push Not at this
      exact this
    · intro q kv hm e
      rcases (h _).1 e with e | e
      · exact (q kv hm).1 e
      · exact (q kv hm).2 e
  have ct := fun v => hcol "time_s" "cycSecs" v (fun k => (oldToNew_iff k).1)
  have cm := fun v => hcol "mps" "cycMps" v (fun k => (oldToNew_iff k).2.1)
  have cg := fun v => hcol "grade" "cycGrade" v (fun k => (oldToNew_iff k).2.2.1)
  have cr := fun v => hcol "road_type" "cycRoadType" v (fun k => (oldToNew_iff k).2.2.2.1)
  have cgN := hcolN "grade" "cycGrade" (fun k => (oldToNew_iff k).2.2.1)
  have crN := hcolN "road_type" "cycRoadType" (fun k => (oldToNew_iff k).2.2.2.1)
  simp only [PyDict.get?_set, reduceIte, show ("time_s" : String) ≠ "name" by decide,
    show ("grade" : String) ≠ "name" by decide, show ("road_type" : String) ≠ "name" by decide,
    show ("road_type" : String) ≠ "grade" by decide, show ("mps" : String) ≠ "road_type" by decide,
    show ("mps" : String) ≠ "grade" by decide, show ("mps" : String) ≠ "name" by decide,
    show ("grade" : String) ≠ "road_type" by decide, show ("name" : String) ≠ "road_type" by decide,
    show ("name" : String) ≠ "grade" by decide]
  have hknown : ((PyDict.keys (PyDict.set (PyDict.set (PyDict.set d1 "name"
      ((PyDict.get? d "name").getD (.str ""))) "grade" ((PyDict.get? d1 "grade").getD
        (CVal.arr (List.replicate c.timeS.len 0)))) "road_type"
      ((PyDict.get? d1 "road_type").getD (CVal.arr (List.replicate c.timeS.len 0))))).all
        fun k => standardCycleKeys.contains k) = true ↔
      ∀ kv ∈ d, kv.1 ∈ ["time_s", "cycSecs", "mps", "cycMps", "grade", "cycGrade", "road_type",
        "cycRoadType", "name"] := by
    rw [List.all_eq_true]
    simp only [PyDict.mem_keys_set, List.contains_iff_mem]
    constructor
    · intro h kv hm
      refine ((oldToNew_iff kv.1).2.2.2.2.2).1 (h _ ?_)
      right; right; right
      rw [hd1, PyDict.mem_keys_foldl]
      exact Or.inr ⟨kv, hm, rfl⟩
    · intro h k hk
      rcases hk with rfl | rfl | rfl | hk
      · decide
      · decide
      · decide
      · rw [hd1, PyDict.mem_keys_foldl] at hk
        rcases hk with hk | ⟨kv, hm, rfl⟩
        · simp [PyDict.keys] at hk
        · exact ((oldToNew_iff kv.1).2.2.2.2.2).2 (h kv hm)
  constructor
  · intro h
    split at h
    · simp at h
    · rename_i t ht
      split at h
      · rename_i hall
        split at h
        · rename_i m g r n em eg er en
          simp only [Except.ok.injEq] at h
          subst h
          simp only at hknown
          refine ⟨hknown.1 hall, (ct t).1 ht, (cm m).1 em, ?_, ?_, ?_⟩
          · simp only [Option.some.injEq] at eg
            rcases hgg : PyDict.get? d1 "grade" with _ | g'
            · rw [hgg] at eg
              exact Or.inr ⟨eg.symm, cgN.1 hgg⟩
            · rw [hgg] at eg
              simp only [Option.getD_some] at eg
              subst eg
              exact Or.inl ((cg _).1 hgg)
          · simp only [Option.some.injEq] at er
            rcases hrr : PyDict.get? d1 "road_type" with _ | g'
            · rw [hrr] at er
              exact Or.inr ⟨er.symm, crN.1 hrr⟩
            · rw [hrr] at er
              simp only [Option.getD_some] at er
              subst er
              exact Or.inl ((cr _).1 hrr)
          · simp only [Option.some.injEq] at en
            rcases hnn : PyDict.get? d "name" with _ | n'
            · rw [hnn] at en
              refine Or.inr ⟨en.symm, fun kv hm e => ?_⟩
              rw [PyDict.get?_eq_none] at hnn
              exact hnn (List.mem_map.2 ⟨kv, hm, e⟩)
            · rw [hnn] at en
              simp only [Option.getD_some] at en
              subst en
              exact Or.inl ((hname _).1 hnn)
        · simp at h
      · simp at h
  · intro h
    have et := (ct c.timeS).2 h.time
    have em := (cm c.mps).2 h.speed
    have eg : (PyDict.get? d1 "grade").getD (CVal.arr (List.replicate c.timeS.len 0)) = c.grade := by
      rcases h.grade with hgr | ⟨e, hgr⟩
      · rw [(cg _).2 hgr]; rfl
      · rw [cgN.2 hgr, e]; rfl
    have er : (PyDict.get? d1 "road_type").getD (CVal.arr (List.replicate c.timeS.len 0)) =
        c.roadType := by
      rcases h.road with hgr | ⟨e, hgr⟩
      · rw [(cr _).2 hgr]; rfl
      · rw [crN.2 hgr, e]; rfl
    have en : (PyDict.get? d "name").getD (.str "") = c.name := by
      rcases h.name with hgr | ⟨e, hgr⟩
      · rw [(hname _).2 hgr]; rfl
      · rw [e, (PyDict.get?_eq_none d "name").2]
        · rfl
        · intro hm
          obtain ⟨kv, hm, e⟩ := List.mem_map.1 hm
          exact hgr kv hm e
    simp only [et, em]
    rw [if_pos (hknown.2 h.known), eg, er, en]

/-- **C39 (cycle and dictionary).** A cycle read back from its own dictionary is the same cycle, and so
is `copy_cycle`'s copy; a copy in the legacy format always raises, as does an unknown format. -/
theorem C39_cycle_copy (c : CycObj K) :
    cycFromDict (cycToDict c) = .ok c ∧ copyCycle c .python = .ok (.obj c) ∧
    copyCycle c .dict = .ok (.dict (cycToDict c)) ∧
    copyCycle c .legacy = .error .attributeError ∧ copyCycle c .other = .error .valueError := by
  have h : cycFromDict (cycToDict c) = .ok c := by
    rw [C39_from_dict]
    · exact ⟨by simp [cycToDict], by simp [cycToDict], by simp [cycToDict], by simp [cycToDict],
        by simp [cycToDict], by simp [cycToDict]⟩
    · show ["time_s", "mps", "grade", "road_type", "name"].Nodup
      decide
  refine ⟨h, ?_, rfl, rfl, rfl⟩
  unfold copyCycle
  simp only [h]

/-- **C39 (old names).** The old column names give the same cycle. -/
theorem C39_legacy_names (t m g r n : CVal K) :
    cycFromDict [("cycSecs", t), ("cycMps", m), ("cycGrade", g), ("cycRoadType", r), ("name", n)] =
      .ok ⟨t, m, g, r, n⟩ := by
  rw [C39_from_dict]
  · exact ⟨by simp, by simp, by simp, by simp, by simp, by simp⟩
  · show ["time_s", "mps", "grade", "road_type", "name"].Nodup
    decide

/-- **C39 (defaults).** Times and speeds are enough: the road is flat and of type 0 at every one of
the times. -/
theorem C39_defaults (t m : CVal K) :
    cycFromDict [("mps", m), ("time_s", t)] =
      .ok ⟨t, m, .arr (List.replicate t.len 0), .arr (List.replicate t.len 0), .str ""⟩ := by
  rw [C39_from_dict]
  · exact ⟨by simp, by simp, by simp, by simp, by simp, by simp⟩
  · show ["mps", "time_s"].Nodup
    decide

/-- **C39 (unknown columns).** A dictionary with an entry of an unknown name is never accepted. -/
theorem C39_unknown_column (d : PyDict (CVal K)) {k : String} {v : CVal K} (hm : (k, v) ∈ d)
    (hk : k ∉ ["time_s", "cycSecs", "mps", "cycMps", "grade", "cycGrade", "road_type", "cycRoadType",
      "name"]) : ∃ e, cycFromDict d = .error e := by
  unfold cycFromDict
  simp only
  split
  · exact ⟨_, rfl⟩
  · rename_i t ht
    rw [if_neg]
    · exact ⟨_, rfl⟩
    · rw [List.all_eq_true]
      push Not
      refine ⟨oldToNew k, ?_, ?_⟩
      · rw [PyDict.mem_keys_set, PyDict.mem_keys_set, PyDict.mem_keys_set, PyDict.mem_keys_foldl]
        exact Or.inr (Or.inr (Or.inr (Or.inr ⟨_, hm, rfl⟩)))
      · intro hc
        rw [List.contains_iff_mem, (oldToNew_iff k).2.2.2.2.2] at hc
        exact hk hc

variable [DecidableEq K]

theorem zip_all_eq {l l' : List K} (hl : l.length = l'.length) :
    (!((List.zip l l').any fun p => decide (p.1 ≠ p.2))) = true ↔ l = l' := by
  induction l generalizing l' with
  | nil => cases l' <;> simp_all
  | cons a l ih =>
    cases l' with
    | nil => simp at hl
    | cons b l' =>
      have := ih (l' := l') (by simpa using hl)
      simp only [List.zip_cons_cons, List.any_cons, Bool.not_or, Bool.and_eq_true, this,
        List.cons.injEq]
      simp

/-- **C39 (equality of dictionaries).** `equals` is true exactly when the two dictionaries have the same
keys with the same values, whatever the order of the keys. -/
theorem C39_equals (c1 c2 : PyDict (CVal K)) :
    cycEquals c1 c2 = true ↔ ∀ k, PyDict.get? c1 k = PyDict.get? c2 k := by
  unfold cycEquals
  simp only [Bool.and_eq_true, List.all_eq_true, List.contains_iff_mem]
  constructor
  · rintro ⟨⟨h1, h2⟩, h3⟩ k
    by_cases hk : k ∈ PyDict.keys c1
    · have := h3 k hk
      split at this
      · rename_i l l' e1 e2
        simp only [Bool.and_eq_true, decide_eq_true_eq] at this
        rw [e1, e2, (zip_all_eq this.1).1 this.2]
      · rename_i s s' e1 e2
        simp only [Bool.and_eq_true, decide_eq_true_eq] at this
        rw [e1, e2]
        simpa using this.2
      · simp at this
    · have hk' : k ∉ PyDict.keys c2 := fun h => hk (h2 k h)
      rw [(PyDict.get?_eq_none c1 k).2 hk, (PyDict.get?_eq_none c2 k).2 hk']
  · intro h
    have hmem : ∀ k, k ∈ PyDict.keys c1 ↔ k ∈ PyDict.keys c2 := by
      intro k
      rw [← not_iff_not, ← PyDict.get?_eq_none, ← PyDict.get?_eq_none, h k]
    refine ⟨⟨fun k hk => (hmem k).1 hk, fun k hk => (hmem k).2 hk⟩, fun k hk => ?_⟩
    rw [← h k]
    rcases e : PyDict.get? c1 k with _ | v
    · exact absurd hk ((PyDict.get?_eq_none c1 k).1 e)
    · cases v with
      | arr l =>
        simp only [decide_true, Bool.true_and]
        exact (zip_all_eq rfl).2 rfl
      | str s => simp

/-- **C39 (equality of cycles).** `cyc_equal` says yes exactly for cycles that agree in everything: in
particular it is reflexive, symmetric and transitive, and a copy equals its original. -/
theorem C39_cyc_equal (a b : CycObj K) : cycEqual a b = true ↔ a = b := by
  unfold cycEqual
  rw [C39_equals]
  constructor
  · intro h
    have e1 := h "time_s"
    have e2 := h "mps"
    have e3 := h "grade"
    have e4 := h "road_type"
    have e5 := h "name"
    unfold cycToDict at e1 e2 e3 e4 e5
    simp only [PyDict.get?_cons, reduceIte, Option.some.injEq, String.reduceEq] at e1 e2 e3 e4 e5
    obtain ⟨⟩ := a
    obtain ⟨⟩ := b
    simp_all
  · rintro rfl k; rfl

end

/-! ### Parameters and physical properties -/

section
variable {V : Type*}

theorem attrsDict_ok {keys : List String} {a : Attrs V} (h : ∀ k ∈ keys, a k ≠ none) :
    ∃ d, attrsDict keys a = .ok d ∧ d.map Prod.fst = keys ∧ ∀ kv ∈ d, a kv.1 = some kv.2 := by
  induction keys with
  | nil => exact ⟨[], rfl, rfl, by simp⟩
  | cons k ks ih =>
    obtain ⟨d, h1, h2, h3⟩ := ih fun q hq => h q (List.mem_cons_of_mem _ hq)
    obtain ⟨v, hv⟩ := Option.ne_none_iff_exists'.1 (h k List.mem_cons_self)
    refine ⟨(k, v) :: d, ?_, by simp [h2], ?_⟩
    · simp only [attrsDict, hv, h1]
    · intro kv hm
      rcases List.mem_cons.1 hm with rfl | hm
      · exact hv
      · exact h3 kv hm

theorem attrsDict_missing {keys : List String} {a : Attrs V} {k : String} (hk : k ∈ keys)
    (h : a k = none) : attrsDict keys a = .error .attributeError := by
  induction keys with
  | nil => simp at hk
  | cons q ks ih =>
    simp only [attrsDict]
    rcases List.mem_cons.1 hk with rfl | hk
    · rw [h]
    · rcases a q with _ | v
      · rfl
      · simp only [ih hk]

theorem attrsFromDict_get (fresh : Attrs V) (d : PyDict V) (a : Attrs V)
    (hd : ∀ kv ∈ d, a kv.1 = some kv.2) (k : String) :
    attrsFromDict fresh d k = if k ∈ d.map Prod.fst then a k else fresh k := by
  unfold attrsFromDict
  induction d generalizing fresh with
  | nil => simp
  | cons p d ih =>
    rw [List.foldl_cons, ih _ fun kv hm => hd kv (List.mem_cons_of_mem _ hm)]
    have hp := hd p List.mem_cons_self
    by_cases h1 : k ∈ d.map Prod.fst
    · have : k ∈ (p :: d).map Prod.fst := by
        rw [List.map_cons]; exact List.mem_cons_of_mem _ h1
      rw [if_pos h1, if_pos this]
    · rw [if_neg h1]
      by_cases h2 : k = p.1
      · rw [if_pos h2, if_pos (by rw [List.map_cons, h2]; exact List.mem_cons_self), h2, hp]
      · rw [if_neg h2, if_neg]
        rw [List.map_cons, List.mem_cons]
        tauto

/-- **C39 (copies of parameters).** A copy of simulation parameters or physical properties (`keys` is the
list of attributes of the class, `fresh` a new object) has the original's value in every one of these
attributes, and is otherwise as new. The dictionary format has these attributes, in order; other formats
raise `ValueError`; an object that lacks an attribute cannot be copied. -/
theorem C39_params_copy (keys : List String) (fresh a : Attrs V) :
    ((∀ k ∈ keys, a k ≠ none) →
      (∃ c, copyAttrs keys fresh a .python = .ok (.obj c) ∧
        ∀ k, c k = if k ∈ keys then a k else fresh k) ∧
      (∃ d, copyAttrs keys fresh a .dict = .ok (.dict d) ∧ d.map Prod.fst = keys ∧
        ∀ kv ∈ d, a kv.1 = some kv.2) ∧
      copyAttrs keys fresh a .other = .error .valueError ∧
      copyAttrs keys fresh a .legacy = .error .valueError) ∧
    ((∃ k ∈ keys, a k = none) → ∀ t, copyAttrs keys fresh a t = .error .attributeError) := by
  constructor
  · intro h
    obtain ⟨d, h1, h2, h3⟩ := attrsDict_ok h
    refine ⟨⟨attrsFromDict fresh d, ?_, fun k => ?_⟩, ⟨d, ?_, h2, h3⟩, ?_, ?_⟩
    · simp only [copyAttrs, h1]
    · rw [attrsFromDict_get fresh d a h3, h2]
    · simp only [copyAttrs, h1]
    · simp only [copyAttrs, h1]
    · simp only [copyAttrs, h1]
  · rintro ⟨k, hk, h⟩ t
    have := attrsDict_missing hk h
    cases t <;> simp only [copyAttrs, this]

variable [DecidableEq V]

theorem dictsEqual_iff (d1 d2 : PyDict V) (h : ∀ k ∈ PyDict.keys d1, PyDict.get? d2 k ≠ none) :
    ∃ b, dictsEqual d1 d2 = .ok b ∧
      (b = true ↔ ∀ kv ∈ d1, PyDict.get? d2 kv.1 = some kv.2) := by
  induction d1 with
  | nil => exact ⟨true, rfl, by simp⟩
  | cons p d ih =>
    obtain ⟨k, v⟩ := p
    obtain ⟨b, h1, h2⟩ := ih fun q hq => h q (by unfold PyDict.keys at *; simp_all)
    obtain ⟨v', hv'⟩ := Option.ne_none_iff_exists'.1 (h k (by simp [PyDict.keys]))
    simp only [dictsEqual, hv']
    by_cases e : v = v'
    · refine ⟨b, by rw [if_neg (by simpa using e)]; exact h1, ?_⟩
      rw [h2]
      subst e
      simp [hv']
    · refine ⟨false, by rw [if_pos e], ?_⟩
      simp only [Bool.false_eq_true, List.mem_cons, forall_eq_or_imp, false_iff, not_and]
      intro hc
      rw [hv'] at hc
      exact absurd (Option.some.inj hc).symm e

theorem simParamsEqual_iff (a b : Attrs V) (ha : ∀ k ∈ simParamKeys, a k ≠ none)
    (hb : ∀ k ∈ simParamKeys, b k ≠ none) :
    ∃ r, simParamsEqual a b = .ok r ∧ (r = true ↔ ∀ k ∈ simParamKeys, a k = b k) := by
  obtain ⟨d1, e1, k1, m1⟩ := attrsDict_ok ha
  obtain ⟨d2, e2, k2, m2⟩ := attrsDict_ok hb
  have hnd : simParamKeys.Nodup := by decide
  have hget : ∀ k ∈ simParamKeys, PyDict.get? d2 k = b k := by
    intro k hk
    obtain ⟨v, hv⟩ := Option.ne_none_iff_exists'.1 (hb k hk)
    rw [← k2] at hk
    obtain ⟨kv, hm, rfl⟩ := List.mem_map.1 hk
    rw [m2 kv hm]
    exact PyDict.get?_of_mem (by unfold PyDict.keys; rw [k2]; exact hnd) hm
  obtain ⟨r, h1, h2⟩ := dictsEqual_iff d1 d2 (by
    intro k hk
    unfold PyDict.keys at hk
    rw [k1] at hk
    rw [hget k hk]; exact hb k hk)
  refine ⟨r, ?_, ?_⟩
  · unfold simParamsEqual
    simp only [e1, e2]
    have : d1.length = d2.length := by
      have := congrArg List.length (k1.trans k2.symm)
      simpa using this
    rw [if_neg (by simpa using this), h1]
  · rw [h2]
    constructor
    · intro h k hk
      have hk' := hk
      rw [← k1] at hk'
      obtain ⟨kv, hm, rfl⟩ := List.mem_map.1 hk'
      rw [m1 kv hm, ← h kv hm, hget _ hk]
    · intro h kv hm
      have hk : kv.1 ∈ simParamKeys := by rw [← k1]; exact List.mem_map.2 ⟨kv, hm, rfl⟩
      rw [hget _ hk, ← h _ hk, m1 kv hm]

/-- **C39 (equality of parameters).** `sim_params_equal` says yes exactly when the two agree in every
parameter; so it is reflexive, symmetric, transitive, and finds every difference. -/
theorem C39_sim_params_equal (a b : Attrs V) (ha : ∀ k ∈ paramNames, a k ≠ none)
    (hb : ∀ k ∈ paramNames, b k ≠ none) :
    ∃ r, simParamsEqual a b = .ok r ∧ (r = true ↔ ∀ k ∈ paramNames, a k = b k) :=
  simParamsEqual_iff a b ha hb

theorem propsEqual_iff (a b : Attrs V) (ha : ∀ k ∈ propKeys, a k ≠ none)
    (hb : ∀ k ∈ propKeys, b k ≠ none) :
    ∃ r, physPropsEqual a b = .ok r ∧ (r = true ↔ ∀ k ∈ propKeys, a k = b k) := by
  unfold physPropsEqual
  generalize propKeys = ks at ha hb ⊢
  induction ks with
  | nil => exact ⟨true, rfl, by simp⟩
  | cons k ks ih =>
    obtain ⟨r, h1, h2⟩ := ih (fun q hq => ha q (List.mem_cons_of_mem _ hq))
      (fun q hq => hb q (List.mem_cons_of_mem _ hq))
    obtain ⟨v, hv⟩ := Option.ne_none_iff_exists'.1 (ha k List.mem_cons_self)
    obtain ⟨w, hw⟩ := Option.ne_none_iff_exists'.1 (hb k List.mem_cons_self)
    simp only [propsLoop, hv, hw]
    by_cases e : v = w
    · refine ⟨r, by rw [if_neg (by simpa using e)]; exact h1, ?_⟩
      rw [h2]
      subst e
      simp [hv, hw]
    · refine ⟨false, by rw [if_pos e], ?_⟩
      simp only [Bool.false_eq_true, List.mem_cons, forall_eq_or_imp, false_iff, not_and, hv, hw]
      intro hc
      exact absurd (Option.some.inj hc) e

/-- **C39 (equality of physical properties).** The same for `physical_properties_equal`. -/
theorem C39_props_equal (a b : Attrs V) (ha : ∀ k ∈ propNames, a k ≠ none)
    (hb : ∀ k ∈ propNames, b k ≠ none) :
    ∃ r, physPropsEqual a b = .ok r ∧ (r = true ↔ ∀ k ∈ propNames, a k = b k) :=
  propsEqual_iff a b ha hb

/-- **C39 (copies equal their originals).** For parameters and physical properties. -/
theorem C39_params_copy_equal (fresh a : Attrs V) (ha : ∀ k ∈ paramNames, a k ≠ none) :
    ∃ c, copyAttrs simParamKeys fresh a .python = .ok (.obj c) ∧ simParamsEqual a c = .ok true ∧
      simParamsEqual c a = .ok true := by
  obtain ⟨⟨c, h1, h2⟩, -⟩ := (C39_params_copy simParamKeys fresh a).1 ha
  have hag : ∀ k ∈ simParamKeys, a k = c k := fun k hk => by rw [h2, if_pos hk]
  have hc : ∀ k ∈ simParamKeys, c k ≠ none := fun k hk => by rw [← hag k hk]; exact ha k hk
  obtain ⟨r, e, hr⟩ := C39_sim_params_equal a c ha hc
  obtain ⟨r', e', hr'⟩ := C39_sim_params_equal c a hc ha
  refine ⟨c, h1, ?_, ?_⟩
  · rw [e, hr.2 hag]
  · rw [e', hr'.2 fun k hk => (hag k hk).symm]

theorem C39_props_copy_equal (fresh a : Attrs V) (ha : ∀ k ∈ propNames, a k ≠ none) :
    ∃ c, copyAttrs propKeys fresh a .python = .ok (.obj c) ∧ physPropsEqual a c = .ok true ∧
      physPropsEqual c a = .ok true := by
  obtain ⟨⟨c, h1, h2⟩, -⟩ := (C39_params_copy propKeys fresh a).1 ha
  have hag : ∀ k ∈ propKeys, a k = c k := fun k hk => by rw [h2, if_pos hk]
  have hc : ∀ k ∈ propKeys, c k ≠ none := fun k hk => by rw [← hag k hk]; exact ha k hk
  obtain ⟨r, e, hr⟩ := C39_props_equal a c ha hc
  obtain ⟨r', e', hr'⟩ := C39_props_equal c a hc ha
  refine ⟨c, h1, ?_, ?_⟩
  · rw [e, hr.2 hag]
  · rw [e', hr'.2 fun k hk => (hag k hk).symm]

end

/-! ### Concrete cases -/

/-- A cycle under mixed names and without grade; and one difference found. -/
theorem C39_demo_cycle :
    cycFromDict (K := ℤ) [("name", .str "trip"), ("cycMps", .arr [0, 3, 0]), ("time_s", .arr [0, 1, 2]),
      ("road_type", .arr [0, 1, 0])] =
      .ok ⟨.arr [0, 1, 2], .arr [0, 3, 0], .arr [0, 0, 0], .arr [0, 1, 0], .str "trip"⟩ ∧
    cycFromDict (K := ℤ) [("mps", .arr [0, 3, 0])] = .error .keyError ∧
    cycFromDict (K := ℤ) [("time_s", .arr [0, 1])] = .error .typeError ∧
    cycFromDict (K := ℤ) [("time_s", .arr [0, 1]), ("mps", .arr [0, 1]), ("elev", .arr [0, 1])] =
      .error .assertionError ∧
    cycEqual (K := ℤ) ⟨.arr [0, 1], .arr [0, 3], .arr [0, 0], .arr [0, 0], .str "a"⟩
      ⟨.arr [0, 1], .arr [0, 3], .arr [0, 0], .arr [0, 0], .str "b"⟩ = false := by decide +kernel

/-- Parameters as a fresh object has them, one of them changed: the difference is found, and the copy
has it. -/
theorem C39_demo_params :
    let fresh : Attrs Int := fun k => if k ∈ simParamKeys then some 1 else none
    let mine : Attrs Int := fun k => if k = "idm_delta" then some 4 else fresh k
    simParamsEqual fresh mine = .ok false ∧ simParamsEqual mine mine = .ok true ∧
    (∀ k ∈ simParamKeys, mine k ≠ none) ∧
    physPropsEqual (V := Int) (fun _ => some 2) (fun k => some (if k = "a_grav_mps2" then 3 else 2)) =
      .ok false := by decide +kernel

end Fastsim.Props
