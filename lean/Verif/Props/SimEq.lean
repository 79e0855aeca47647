import Verif.Model.SimEq
import Verif.Props.CopyVehicle
import Verif.Props.CopyCycle

/-!
# C86: comparing simulations
-/

set_option linter.unusedSectionVars false

namespace Fastsim.Spec

/-- The arrays of records a simulation has from the start. -/
def recordNames : List String :=
  ["cur_max_fs_kw_out", "fc_trans_lim_kw", "cur_max_fc_kw_out", "ess_cap_lim_dischg_kw", "cur_ess_max_kw_out",
   "cur_max_avail_elec_kw", "ess_cap_lim_chg_kw", "cur_max_ess_chg_kw", "cur_max_elec_kw", "mc_elec_in_lim_kw",
   "mc_transi_lim_kw", "cur_max_mc_kw_out", "ess_lim_mc_regen_perc_kw", "cur_max_mech_mc_kw_in",
   "cur_max_trans_kw_out", "cyc_trac_kw_req", "cur_max_trac_kw", "spare_trac_kw", "cyc_whl_rad_per_sec",
   "cyc_tire_inertia_kw", "cyc_whl_kw_req", "regen_contrl_lim_kw_perc", "cyc_regen_brake_kw",
   "cyc_fric_brake_kw", "cyc_trans_kw_out_req", "cyc_met", "trans_kw_out_ach", "trans_kw_in_ach",
   "cur_soc_target", "min_mc_kw_2help_fc", "mc_mech_kw_out_ach", "mc_elec_kw_in_ach", "aux_in_kw",
   "impose_coast", "roadway_chg_kw_out_ach", "min_ess_kw_2help_fc", "ess_kw_out_ach", "fc_kw_out_ach",
   "fc_kw_out_ach_pct", "fc_kw_in_ach", "fs_kw_out_ach", "fs_cumu_mj_out_ach", "fs_kwh_out_ach", "ess_cur_kwh",
   "soc", "regen_buff_soc", "ess_regen_buff_dischg_kw", "max_ess_regen_buff_chg_kw", "ess_accel_buff_chg_kw",
   "accel_buff_soc", "max_ess_accell_buff_dischg_kw", "ess_accel_regen_dischg_kw",
   "mc_elec_in_kw_for_max_fc_eff", "elec_kw_req_4ae", "can_pwr_all_elec", "desired_ess_kw_out_for_ae",
   "ess_ae_kw_out", "er_ae_kw_out", "ess_desired_kw_4fc_eff", "ess_kw_if_fc_req", "cur_max_mc_elec_kw_in",
   "fc_kw_gap_fr_eff", "er_kw_if_fc_req", "mc_elec_kw_in_if_fc_req", "mc_kw_if_fc_req", "fc_forced_on",
   "fc_forced_state", "mc_mech_kw_4forced_fc", "fc_time_on", "prev_fc_time_on", "mps_ach", "mph_ach", "dist_m",
   "dist_mi", "high_acc_fc_on_tag", "reached_buff", "max_trac_mps", "add_kwh", "dod_cycs", "ess_perc_dead",
   "drag_kw", "ess_loss_kw", "accel_kw", "ascent_kw", "rr_kw", "cur_max_roadway_chg_kw", "trace_miss_iters",
   "newton_iters", "coast_delay_index", "idm_target_speed_m_per_s"]

/-- The parts of a simulation object. -/
structure Parts (K W : Type*) where
  veh : VehRec K
  cyc : CycObj K
  cyc0 : CycObj K
  params : Attrs W
  props : Attrs W
  i : Int
  hevCount : Int
  records : String → SdVal K W

/-- An array of that length. -/
def IsArr {K W : Type*} (n : Nat) : SdVal K W → Prop
  | .nums l => l.length = n
  | .flags l => l.length = n
  | .ints l => l.length = n
  | _ => False

/-- `a` is a simulation object made of `A`: all parameters are there and every array of records has one entry per sample of the
cycle. -/
structure MadeOf {K W : Type*} (a : Attrs (SdVal K W)) (A : Parts K W) : Prop where
  veh : a "veh" = some (.veh A.veh)
  cyc : a "cyc" = some (.cyc A.cyc)
  cyc0 : a "cyc0" = some (.cyc A.cyc0)
  params : a "sim_params" = some (.pars A.params)
  props : a "props" = some (.pars A.props)
  i : a "i" = some (.int A.i)
  hevCount : a "hev_sim_count" = some (.int A.hevCount)
  records : ∀ k ∈ recordNames, a k = some (A.records k) ∧ IsArr A.cyc.timeS.len (A.records k)
  hasParams : ∀ k ∈ paramNames, A.params k ≠ none
  hasProps : ∀ k ∈ propNames, A.props k ≠ none

/-- The two agree in all that matters for a simulation and its records. -/
structure SameSim {K W : Type*} [Field K] [LinearOrder K] [IsStrictOrderedRing K] (A B : Parts K W) : Prop where
  veh : SameButOverride A.veh B.veh
  cyc : A.cyc = B.cyc
  cyc0 : A.cyc0 = B.cyc0
  params : ∀ k ∈ paramNames, A.params k = B.params k
  props : ∀ k ∈ propNames, A.props k = B.props k
  i : A.i = B.i
  records : ∀ k ∈ recordNames, A.records k = B.records k
  hevCount : A.hevCount = B.hevCount

end Fastsim.Spec

namespace Fastsim.Props
open Fastsim Spec

section Lawless
variable {K W : Type*} [Zero K] [One K] [NatCast K] [Add K] [Sub K] [Mul K] [Div K] [Neg K]
  [LinearOrder K] [DecidableEq W]

theorem sdLoop_app (a b : Attrs (SdVal K W)) (ks ls : List String) :
    sdEqualLoop a b (ks ++ ls) = match sdEqualLoop a b ks with
      | .ok true => sdEqualLoop a b ls
      | r => r := by
  induction ks with
  | nil => rfl
  | cons k ks ih =>
    rw [List.cons_append, sdEqualLoop, sdEqualLoop]
    by_cases hk : k = "cyc0_cache"
    · rw [if_pos hk, if_pos hk, ih]
    · rw [if_neg hk, if_neg hk]
      split
      · split <;> first | rfl | exact ih
      · rfl

/-- Names with a comparison of their own. -/
def special : List String := ["cyc", "cyc0", "veh", "props", "sim_params", "cyc0_cache"]

theorem records_plain : ∀ k ∈ recordNames, k ∉ special := by decide

theorem arrEqual_same {A : Type*} [DecidableEq A] {l l' : List A} (h : l.length = l'.length) :
    arrEqual l l' = .ok (decide (l = l')) := if_pos h

/-- **C86 (arrays of different lengths).** Records that were replaced by arrays of another length: an array of a single value is
equal to every array that has this value everywhere, on either side; any other two lengths are an error, not a difference. -/
theorem C86_stretch {k : String} (hk : k ∉ special) {l l' : List K} (h : l.length ≠ l'.length) :
    (∀ x, l = [x] → ∃ r, sdEntryEqual (W := W) k (.nums l) (.nums l') = .ok r ∧ (r = true ↔ ∀ y ∈ l', y = x)) ∧
    (∀ y, l' = [y] → ∃ r, sdEntryEqual (W := W) k (.nums l) (.nums l') = .ok r ∧ (r = true ↔ ∀ x ∈ l, x = y)) ∧
    (l.length ≠ 1 → l'.length ≠ 1 → sdEntryEqual (W := W) k (.nums l) (.nums l') = .error .valueError) := by
  simp only [special, List.mem_cons, List.not_mem_nil, or_false, not_or] at hk
  obtain ⟨h1, h2, h3, h4, h5, -⟩ := hk
  have e : sdEntryEqual (W := W) k (.nums l) (.nums l') = arrEqual l l' := by
    unfold sdEntryEqual
    rw [if_neg (by simp [h1, h2]), if_neg h3, if_neg h4, if_neg h5]
  rw [e]
  unfold arrEqual
  rw [if_neg h]
  refine ⟨fun x hx => ?_, fun y hy => ?_, fun n1 n2 => ?_⟩
  · subst hx
    exact ⟨_, rfl, by simp only [List.all_eq_true, decide_eq_true_eq]; exact forall₂_congr fun y _ => eq_comm⟩
  · subst hy
    match l, h with
    | [], _ => exact ⟨_, rfl, by simp⟩
    | [_], h => exact absurd rfl h
    | _ :: _ :: _, _ => exact ⟨_, rfl, by simp⟩
  · match l, l', n1, n2 with
    | [], [], _, _ => exact absurd rfl h
    | [_], _, n1, _ => exact absurd rfl n1
    | _, [_], _, n2 => exact absurd rfl n2
    | [], _ :: _ :: _, _, _ => rfl
    | _ :: _ :: _, [], _, _ => rfl
    | _ :: _ :: _, _ :: _ :: _, _, _ => rfl

/-- Two entries against one, and against three. -/
theorem C86_stretch_demo : arrEqual [2, 2] [(2 : ℚ)] = .ok true ∧ arrEqual [(2 : ℚ)] [2, 3] = .ok false ∧
    arrEqual [2, 2] [2, 2, (2 : ℚ)] = .error .valueError := by
  refine ⟨?_, ?_, ?_⟩ <;> rfl

theorem entry_arr {k : String} (hk : k ∉ special) {n : Nat} {x y : SdVal K W} (hx : IsArr n x) (hy : IsArr n y) :
    ∃ r, sdEntryEqual k x y = .ok r ∧ (r = true ↔ x = y) := by
  simp only [special, List.mem_cons, List.not_mem_nil, or_false, not_or] at hk
  obtain ⟨h1, h2, h3, h4, h5, -⟩ := hk
  unfold sdEntryEqual
  rw [if_neg (by simp [h1, h2]), if_neg h3, if_neg h4, if_neg h5]
  cases x <;> cases y <;> simp only [IsArr] at hx hy <;>
    first
    | exact absurd hx id
    | exact absurd hy id
    | exact ⟨_, arrEqual_same (hx.trans hy.symm), by simp⟩
    | exact ⟨false, rfl, by simp⟩

theorem loop_arrays (a b : Attrs (SdVal K W)) (f g : String → SdVal K W) (n : Nat) :
    ∀ ks : List String, (∀ k ∈ ks, k ∉ special) → (∀ k ∈ ks, a k = some (f k) ∧ IsArr n (f k)) →
      (∀ k ∈ ks, b k = some (g k) ∧ IsArr n (g k)) →
      ∃ r, sdEqualLoop a b ks = .ok r ∧ (r = true ↔ ∀ k ∈ ks, f k = g k)
  | [], _, _, _ => ⟨true, rfl, by simp⟩
  | k :: ks, hs, ha, hb => by
    obtain ⟨r, h1, h2⟩ := loop_arrays a b f g n ks (fun q hq => hs q (List.mem_cons_of_mem _ hq))
      (fun q hq => ha q (List.mem_cons_of_mem _ hq)) (fun q hq => hb q (List.mem_cons_of_mem _ hq))
    have hk := hs k List.mem_cons_self
    obtain ⟨ea, ia⟩ := ha k List.mem_cons_self
    obtain ⟨eb, ib⟩ := hb k List.mem_cons_self
    obtain ⟨q, e1, e2⟩ := entry_arr hk ia ib
    rw [sdEqualLoop, if_neg (fun e => hk (by rw [e]; decide)), ea, eb]
    simp only [e1]
    cases q
    · exact ⟨false, rfl, ⟨fun h => by simp at h, fun h => by simpa using e2.2 (h k List.mem_cons_self)⟩⟩
    · exact ⟨r, h1, by rw [h2]; simp [e2.1 rfl]⟩

theorem loop_cons {a b : Attrs (SdVal K W)} {k : String} {ks : List String} {x y : SdVal K W} (hk : k ≠ "cyc0_cache")
    (ea : a k = some x) (eb : b k = some y) :
    sdEqualLoop a b (k :: ks) = match sdEntryEqual k x y with
      | .error e => .error e
      | .ok true => sdEqualLoop a b ks
      | .ok false => .ok false := by
  rw [sdEqualLoop, if_neg hk, ea, eb]
  simp only
  rcases sdEntryEqual k x y with _ | _ | _ <;> rfl

/-- **C86 (what is compared).** An attribute that a new simulation does not have — every result computed after a run — has no
influence on the comparison, nor has the cache of the cycle. -/
theorem C86_ignores (a b : Attrs (SdVal K W)) (k : String) (x y : Option (SdVal K W))
    (hk : k ∉ ["veh", "cyc", "cyc0", "sim_params", "props", "i", "hev_sim_count"] ++ recordNames) :
    simDriveEqual (fun q => if q = k then x else a q) (fun q => if q = k then y else b q) = simDriveEqual a b := by
  have key : ∀ ks : List String, (∀ q ∈ ks, q = "cyc0_cache" ∨ q ≠ k) →
      sdEqualLoop (fun q => if q = k then x else a q) (fun q => if q = k then y else b q) ks = sdEqualLoop a b ks := by
    intro ks h
    induction ks with
    | nil => rfl
    | cons q ks ih =>
      have ih := ih fun q' hq' => h q' (List.mem_cons_of_mem _ hq')
      by_cases hq : q = "cyc0_cache"
      · rw [sdEqualLoop, sdEqualLoop, if_pos hq, if_pos hq, ih]
      · have hne : q ≠ k := (h q List.mem_cons_self).resolve_left hq
        rw [sdEqualLoop, sdEqualLoop, if_neg hq, if_neg hq]
        simp only [if_neg hne, ih]
  refine key sdKeys fun q hq => ?_
  by_cases hq' : q = "cyc0_cache"
  · exact Or.inl hq'
  · right
    rintro rfl
    have : ∀ q ∈ sdKeys, q = "cyc0_cache" ∨
        q ∈ ["veh", "cyc", "cyc0", "sim_params", "props", "i", "hev_sim_count"] ++ recordNames := by decide +kernel
    exact (this q hq).elim hq' hk

end Lawless

section Field
variable {K W : Type*} [Field K] [LinearOrder K] [IsStrictOrderedRing K] [DecidableEq W]

theorem sdEntry_cyc (k : String) (h : k = "cyc" ∨ k = "cyc0") (c c' : CycObj K) :
    sdEntryEqual (W := W) k (.cyc c) (.cyc c') = .ok (cycEqual c c') := by
  unfold sdEntryEqual; rw [if_pos h]

theorem sdEntry_veh (v v' : VehRec K) : sdEntryEqual (W := W) "veh" (.veh v) (.veh v') = vehEqual v v' := rfl
theorem sdEntry_props (p p' : Attrs W) : sdEntryEqual (K := K) "props" (.pars p) (.pars p') = physPropsEqual p p' := rfl
theorem sdEntry_params (p p' : Attrs W) :
    sdEntryEqual (K := K) "sim_params" (.pars p) (.pars p') = simParamsEqual p p' := rfl
theorem sdEntry_i (n n' : Int) : sdEntryEqual (K := K) (W := W) "i" (.int n) (.int n') = .ok (decide (n = n')) := rfl
theorem sdEntry_hev (n n' : Int) :
    sdEntryEqual (K := K) (W := W) "hev_sim_count" (.int n) (.int n') = .ok (decide (n = n')) := rfl

/-- Comparing the parts after the vehicle. -/
theorem rest_equal {a b : Attrs (SdVal K W)} {A B : Parts K W} (ha : MadeOf a A) (hb : MadeOf b B) :
    ∃ r, sdEqualLoop a b (["cyc", "cyc0", "sim_params", "props", "i"] ++ (recordNames ++ ["cyc0_cache", "hev_sim_count"])) = .ok r ∧
      (r = true ↔ A.cyc = B.cyc ∧ A.cyc0 = B.cyc0 ∧ (∀ k ∈ paramNames, A.params k = B.params k) ∧
        (∀ k ∈ propNames, A.props k = B.props k) ∧ A.i = B.i ∧ (∀ k ∈ recordNames, A.records k = B.records k) ∧
        A.hevCount = B.hevCount) := by
  simp only [List.cons_append, List.nil_append]
  rw [loop_cons (by decide) ha.cyc hb.cyc, sdEntry_cyc _ (Or.inl rfl)]
  by_cases h1 : A.cyc = B.cyc
  swap
  · have : cycEqual A.cyc B.cyc = false := by
      rw [Bool.eq_false_iff]; exact fun e => h1 ((C39_cyc_equal _ _).1 e)
    rw [this]
    exact ⟨false, rfl, by simp [h1]⟩
  rw [(C39_cyc_equal _ _).2 h1]
  simp only
  rw [loop_cons (by decide) ha.cyc0 hb.cyc0, sdEntry_cyc _ (Or.inr rfl)]
  by_cases h2 : A.cyc0 = B.cyc0
  swap
  · have : cycEqual A.cyc0 B.cyc0 = false := by
      rw [Bool.eq_false_iff]; exact fun e => h2 ((C39_cyc_equal _ _).1 e)
    rw [this]
    exact ⟨false, rfl, by simp [h2]⟩
  rw [(C39_cyc_equal _ _).2 h2]
  simp only
  rw [loop_cons (by decide) ha.params hb.params, sdEntry_params]
  obtain ⟨r, e, hr⟩ := C39_sim_params_equal A.params B.params ha.hasParams hb.hasParams
  rw [e]
  cases r
  · exact ⟨false, rfl, by simp [← hr]⟩
  simp only
  rw [loop_cons (by decide) ha.props hb.props, sdEntry_props]
  obtain ⟨r', e', hr'⟩ := C39_props_equal A.props B.props ha.hasProps hb.hasProps
  rw [e']
  cases r'
  · exact ⟨false, rfl, by simp [← hr']⟩
  simp only
  rw [loop_cons (by decide) ha.i hb.i, sdEntry_i]
  by_cases h5 : A.i = B.i
  swap
  · rw [decide_eq_false h5]; exact ⟨false, rfl, by simp [h5]⟩
  rw [decide_eq_true h5]
  simp only
  obtain ⟨r6, e6, hr6⟩ := loop_arrays a b A.records B.records A.cyc.timeS.len recordNames records_plain ha.records
    (fun k hk => by rw [h1]; exact hb.records k hk)
  rw [sdLoop_app, e6]
  cases r6
  · exact ⟨false, rfl, by simp [← hr6]⟩
  simp only
  rw [sdEqualLoop, if_pos rfl, loop_cons (by decide) ha.hevCount hb.hevCount, sdEntry_hev]
  by_cases h7 : A.hevCount = B.hevCount
  · rw [decide_eq_true h7]
    exact ⟨true, rfl, by simp [h1, h2, h5, h7, ← hr, ← hr', ← hr6]⟩
  · rw [decide_eq_false h7]; exact ⟨false, rfl, by simp [h7]⟩

theorem sdEqual_veh {a b : Attrs (SdVal K W)} {A B : Parts K W} (ha : MadeOf a A) (hb : MadeOf b B) :
    ∃ r, (r = true ↔ A.cyc = B.cyc ∧ A.cyc0 = B.cyc0 ∧ (∀ k ∈ paramNames, A.params k = B.params k) ∧
        (∀ k ∈ propNames, A.props k = B.props k) ∧ A.i = B.i ∧ (∀ k ∈ recordNames, A.records k = B.records k) ∧
        A.hevCount = B.hevCount) ∧
      simDriveEqual a b = match vehEqual A.veh B.veh with
        | .ok true => .ok r
        | r => r := by
  obtain ⟨r, e, hr⟩ := rest_equal ha hb
  refine ⟨r, hr, ?_⟩
  have : sdKeys = "veh" :: (["cyc", "cyc0", "sim_params", "props", "i"] ++ (recordNames ++ ["cyc0_cache", "hev_sim_count"])) := by
    decide
  unfold simDriveEqual
  rw [this, loop_cons (by decide) ha.veh hb.veh, sdEntry_veh, e]
  rcases vehEqual A.veh B.veh with _ | _ | _ <;> rfl

/-- **C86 (comparison).** Two simulations whose records are as long as their cycles, with vehicle arrays of the same lengths, are
compared without exception, whatever the lengths of the two cycles; the answer is yes exactly if vehicles (as `veh_equal` sees
them), both cycles, all parameters, the physical properties, the counters and every record agree. -/
theorem C86_equal {a b : Attrs (SdVal K W)} {A B : Parts K W} (ha : MadeOf a A) (hb : MadeOf b B)
    (hv : SameArrays A.veh B.veh) : ∃ r, simDriveEqual a b = .ok r ∧ (r = true ↔ SameSim A B) := by
  obtain ⟨r, hr, e⟩ := sdEqual_veh ha hb
  obtain ⟨q, e1, hq⟩ := C39_veh_equal_fields hv
  rw [e, e1]
  cases q
  · refine ⟨false, rfl, ?_⟩
    constructor
    · intro h; simp at h
    · intro h; simpa using hq.2 h.veh
  · refine ⟨r, rfl, hr.trans ?_⟩
    have hq := hq.1 rfl
    constructor
    · rintro ⟨h1, h2, h3, h4, h5, h6, h7⟩
      exact ⟨hq, h1, h2, h3, h4, h5, h6, h7⟩
    · rintro ⟨-, h1, h2, h3, h4, h5, h6, h7⟩
      exact ⟨h1, h2, h3, h4, h5, h6, h7⟩

/-- **C86 (itself).** -/
theorem C86_refl {a : Attrs (SdVal K W)} {A : Parts K W} (ha : MadeOf a A) : simDriveEqual a a = .ok true := by
  obtain ⟨r, hr, e⟩ := sdEqual_veh ha ha
  rw [e, (C39_veh_equal_refl A.veh).1, hr.2 ⟨rfl, rfl, fun _ _ => rfl, fun _ _ => rfl, rfl, fun _ _ => rfl, rfl⟩]

/-- **C86 (copies).** A copy has the cycles, records, counters and results of the original, its parameters and properties under
all their names, and the copied vehicle; it compares equal to the original exactly if that vehicle does. -/
theorem C86_copy {a : Attrs (SdVal K W)} {A : Parts K W} (ha : MadeOf a A) (fp fq : Attrs W) {v : VehRec K}
    (hv : copyVehicle A.veh = .ok v) :
    ∃ c C, copySimDriveObj fp fq a = .ok c ∧ MadeOf c C ∧ C.veh = v ∧
      (∀ k, k ≠ "veh" → k ≠ "sim_params" → k ≠ "props" → c k = a k) ∧
      (∀ k ∈ paramNames, C.params k = A.params k) ∧ (∀ k ∈ propNames, C.props k = A.props k) ∧
      simDriveEqual a c = vehEqual A.veh v := by
  obtain ⟨⟨p, hp, hp'⟩, -⟩ := (C39_params_copy simParamKeys fp A.params).1 ha.hasParams
  obtain ⟨⟨q, hq, hq'⟩, -⟩ := (C39_params_copy propKeys fq A.props).1 ha.hasProps
  have ep : ∀ k ∈ paramNames, p k = A.params k := fun k hk => by
    rw [hp' k]; exact if_pos (show k ∈ simParamKeys from hk)
  have eq' : ∀ k ∈ propNames, q k = A.props k := fun k hk => by
    rw [hq' k]; exact if_pos (show k ∈ propKeys from hk)
  have hcopy : copySimDriveObj fp fq a = .ok fun k => if k = "cyc0" then some (.cyc A.cyc0)
      else if k = "veh" then some (.veh v) else if k = "cyc" then some (.cyc A.cyc)
      else if k = "sim_params" then some (.pars p) else if k = "props" then some (.pars q) else a k := by
    unfold copySimDriveObj
    rw [ha.cyc0, ha.veh, ha.cyc, ha.params, ha.props]
    simp only [(C39_cycle_copy _).2.1, hv, hp, hq]
  have hc : MadeOf (fun k => if k = "cyc0" then some (SdVal.cyc A.cyc0)
      else if k = "veh" then some (.veh v) else if k = "cyc" then some (.cyc A.cyc)
      else if k = "sim_params" then some (.pars p) else if k = "props" then some (.pars q) else a k)
      { A with veh := v, params := p, props := q } := by
    refine ⟨rfl, rfl, rfl, rfl, rfl, ?_, ?_, fun k hk => ?_, fun k hk => ?_, fun k hk => ?_⟩
    · show a "i" = _; exact ha.i
    · show a "hev_sim_count" = _; exact ha.hevCount
    · have hs := records_plain k hk
      simp only [special, List.mem_cons, List.not_mem_nil, or_false, not_or] at hs
      obtain ⟨h1, h2, h3, h4, h5, -⟩ := hs
      simp only [if_neg h1, if_neg h2, if_neg h3, if_neg h4, if_neg h5]
      exact ha.records k hk
    · show p k ≠ none
      rw [ep k hk]; exact ha.hasParams k hk
    · show q k ≠ none
      rw [eq' k hk]; exact ha.hasProps k hk
  refine ⟨_, _, hcopy, hc, rfl, fun k h1 h2 h3 => ?_, ep, eq', ?_⟩
  · simp only [if_neg h1, if_neg h2, if_neg h3]
    split
    · rename_i h; rw [h, ha.cyc0]
    · split
      · rename_i h; rw [h, ha.cyc]
      · rfl
  · obtain ⟨r, hr, e⟩ := sdEqual_veh ha hc
    rw [e, hr.2 ⟨rfl, rfl, fun k hk => (ep k hk).symm, fun k hk => (eq' k hk).symm, rfl, fun _ _ => rfl, rfl⟩]
    show (match vehEqual A.veh v with | .ok true => _ | r => r) = _
    rcases vehEqual A.veh v with _ | _ | _ <;> rfl

end Field

/-! ### Concrete cases -/

/-- A new simulation of three samples, made of these parts. -/
def demoParts (v : VehRec ℚ) (speeds : List ℚ) : Parts ℚ Nat where
  veh := v
  cyc := ⟨.arr [0, 1, 2], .arr [0, 1, 2], .arr [0, 0, 0], .arr [0, 0, 0], .str "demo"⟩
  cyc0 := ⟨.arr [0, 1, 2], .arr [0, 1, 2], .arr [0, 0, 0], .arr [0, 0, 0], .str "demo"⟩
  params := fun _ => some 0
  props := fun _ => some 0
  i := 1
  hevCount := 0
  records := fun k => if k = "mps_ach" then .nums speeds else .flags [false, true, false]

/-- The object with these parts. -/
def demoSd (A : Parts ℚ Nat) : Attrs (SdVal ℚ Nat) := fun k =>
  if k = "veh" then some (.veh A.veh) else if k = "cyc" then some (.cyc A.cyc) else if k = "cyc0" then some (.cyc A.cyc0)
  else if k = "sim_params" then some (.pars A.params) else if k = "props" then some (.pars A.props)
  else if k = "i" then some (.int A.i) else if k = "hev_sim_count" then some (.int A.hevCount)
  else some (A.records k)

theorem demoSd_madeOf (v : VehRec ℚ) (speeds : List ℚ) (h : speeds.length = 3) :
    MadeOf (demoSd (demoParts v speeds)) (demoParts v speeds) := by
  refine ⟨rfl, rfl, rfl, rfl, rfl, rfl, rfl, fun k hk => ⟨?_, ?_⟩, fun k _ => by simp [demoParts], fun k _ => by simp [demoParts]⟩
  · have : ∀ k ∈ recordNames, k ≠ "veh" ∧ k ≠ "cyc" ∧ k ≠ "cyc0" ∧ k ≠ "sim_params" ∧ k ≠ "props" ∧ k ≠ "i" ∧
        k ≠ "hev_sim_count" := by decide
    obtain ⟨h1, h2, h3, h4, h5, h6, h7⟩ := this k hk
    unfold demoSd
    rw [if_neg h1, if_neg h2, if_neg h3, if_neg h4, if_neg h5, if_neg h6, if_neg h7]
  · show IsArr 3 (if k = "mps_ach" then SdVal.nums speeds else .flags [false, true, false])
    split
    · exact h
    · rfl

/-- A different speed is found; the same speeds compare equal. -/
theorem C86_demo (v : VehRec ℚ) :
    simDriveEqual (demoSd (demoParts v [0, 1, 2])) (demoSd (demoParts v [0, 1, 2])) = .ok true ∧
    simDriveEqual (demoSd (demoParts v [0, 1, 2])) (demoSd (demoParts v [0, 1, 1])) = .ok false := by
  refine ⟨C86_refl (demoSd_madeOf v _ rfl), ?_⟩
  obtain ⟨r, e, hr⟩ := C86_equal (demoSd_madeOf v [0, 1, 2] rfl) (demoSd_madeOf v [0, 1, 1] rfl) ⟨rfl, rfl, rfl, rfl⟩
  rw [e]
  cases r
  · rfl
  · have := (hr.1 rfl).records "mps_ach" (by decide)
    simp [demoParts] at this

/-- **C86 refuted for vehicles with a map of their own.** The copy of a simulation of such a hybrid drives another vehicle, and
does not compare equal to the simulation it is a copy of. -/
theorem C86_copy_differs : ∃ (v c : VehRec ℚ) (s : Attrs (SdVal ℚ Nat)), copyVehicle v = .ok c ∧ v.obj.fcPeak = 1 / 4 ∧
    c.obj.fcPeak = 40 / 100 ∧ copySimDriveObj (fun _ => none) (fun _ => none) (demoSd (demoParts v [0, 1, 2])) = .ok s ∧
    s "veh" = some (.veh c) ∧ simDriveEqual (demoSd (demoParts v [0, 1, 2])) s = .ok false := by
  have h := C39_demo_map_lost
  split at h
  · rename_i v hv
    split at h
    · rename_i c hc
      obtain ⟨h1, h2, h3, -⟩ := of_decide_eq_true h
      obtain ⟨s, C, e1, e2, e3, -, -, -, e4⟩ :=
        C86_copy (demoSd_madeOf ⟨v, .atkinson⟩ [0, 1, 2] rfl) (fun _ => none) (fun _ => none) hc
      exact ⟨⟨v, .atkinson⟩, c, s, hc, h1, h2, e1, by rw [e2.veh, e3], by rw [e4]; exact h3⟩
    · simp at h
  · simp at h

end Fastsim.Props
