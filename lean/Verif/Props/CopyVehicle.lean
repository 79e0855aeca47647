import Verif.Props.CopyCycle
import Verif.Props.VehicleEff
import Verif.Props.Follow

/-!
# C39 (second part): copies and comparison of vehicles
-/

set_option linter.unusedSectionVars false

namespace Fastsim.Props
open Fastsim Spec

section Field
variable {K : Type*} [Field K] [LinearOrder K] [IsStrictOrderedRing K]

/-! ### `veh_equal` -/

/-- Two values a user would call the same: lists of the same length whose entries differ by at most a
millionth, anything else only if identical (`nan` is the same as `nan`). -/
def _root_.Fastsim.Spec.Alike : VVal K → VVal K → Prop
  | .list l, .list l' => l.length = l'.length ∧
      ∀ (k : Nat) (x y : K), l[k]? = some x → l'[k]? = some y → |x - y| ≤ 1 / 1000000
  | a, b => a = b

/-- Values of which at least the shapes agree: both lists of one length, or none of them a list. -/
def _root_.Fastsim.Spec.SameShape : VVal K → VVal K → Prop
  | .list l, .list l' => l.length = l'.length
  | .list _, _ => False
  | _, .list _ => False
  | _, _ => True

theorem offBy_iff (x y : K) : offBy x y = true ↔ 1 / 1000000 < |x - y| := by
  unfold offBy vehTol dec
  rw [decide_eq_true_eq, pabs_eq_abs]
  norm_num

theorem alike_refl (v : VVal K) : Alike v v := by
  cases v with
  | list l =>
    refine ⟨rfl, fun k x y hx hy => ?_⟩
    rw [hx] at hy
    cases hy
    rw [sub_self, abs_zero]; norm_num
  | _ => rfl

theorem alike_symm {a b : VVal K} (h : Alike a b) : Alike b a := by
  cases a <;> cases b <;> first
    | exact h.symm
    | (obtain ⟨h1, h2⟩ := h
       exact ⟨h1.symm, fun k x y hx hy => by rw [abs_sub_comm]; exact h2 k y x hy hx⟩)

theorem alike_shape {a b : VVal K} (h : Alike a b) : SameShape a b := by
  cases a <;> cases b <;> first
    | exact h.1
    | exact True.intro
    | (exfalso; simp [Alike] at h; done)

theorem sameShape_symm {a b : VVal K} (h : SameShape a b) : SameShape b a := by
  cases a <;> cases b <;> first
    | exact Eq.symm h
    | exact h

theorem zip_any_off (l l' : List K) (hl : l.length = l'.length) :
    ((List.zip l l').any fun p => offBy p.1 p.2) = true ↔
      ¬ ∀ (k : Nat) (x y : K), l[k]? = some x → l'[k]? = some y → |x - y| ≤ 1 / 1000000 := by
  rw [List.any_eq_true]
  constructor
  · rintro ⟨⟨x, y⟩, hm, ho⟩ hall
    obtain ⟨k, hk, e⟩ := List.getElem_of_mem hm
    have h1 : k < l.length := by rw [List.length_zip] at hk; omega
    have h2 : k < l'.length := by rw [List.length_zip] at hk; omega
    rw [List.getElem_zip] at e
    have e1 : l[k] = x := congrArg Prod.fst e
    have e2 : l'[k] = y := congrArg Prod.snd e
    have := hall k x y (by rw [List.getElem?_eq_getElem h1, e1])
      (by rw [List.getElem?_eq_getElem h2, e2])
    rw [offBy_iff] at ho
    exact absurd this (not_le.2 ho)
  · intro h
    push Not at h
    obtain ⟨k, x, y, hx, hy, hlt⟩ := h
    refine ⟨(x, y), ?_, (offBy_iff x y).2 hlt⟩
    refine List.mem_iff_getElem?.2 ⟨k, ?_⟩
    rw [List.getElem?_zip_eq_some]
    exact ⟨hx, hy⟩

/-- One entry: a difference is found exactly when the values are not alike. -/
theorem entryDiffers_iff {key : String} {v1 v2 : VVal K} (hk : key ≠ "veh_override_kg")
    (hs : SameShape v1 v2) : ∃ b, entryDiffers key v1 v2 = .ok b ∧ (b = true ↔ ¬ Alike v1 v2) := by
  unfold entryDiffers
  rw [if_neg hk]
  cases v1 with
  | list l =>
    cases v2 with
    | list l' =>
      have hl : l.length = l'.length := hs
      refine ⟨_, by simp only [listDiffers]; rw [if_pos hl], ?_⟩
      rw [zip_any_off l l' hl]
      unfold Alike
      tauto
    | _ => exact absurd hs (by simp [SameShape])
  | _ =>
    cases v2 <;> first
      | (refine ⟨_, rfl, ?_⟩; simp [Alike]; done)
      | (exfalso; exact hs)

/-- Two dictionaries of vehicles that can be compared without an error. -/
structure _root_.Fastsim.Spec.Comparable (d1 d2 : PyDict (VVal K)) : Prop where
  nodup : (d2.map Prod.fst).Nodup
  has : ∀ kv ∈ d1, ∃ v, (kv.1, v) ∈ d2
  shape : ∀ kv ∈ d1, ∀ v, (kv.1, v) ∈ d2 → SameShape kv.2 v

theorem entry_total {d1 d2 : PyDict (VVal K)} (h : Comparable d1 d2) {kv : String × VVal K}
    (hm : kv ∈ d1) : ∃ v b, PyDict.get? d2 kv.1 = some v ∧ (kv.1, v) ∈ d2 ∧
      entryDiffers kv.1 kv.2 v = .ok b ∧
      (kv.1 ≠ "veh_override_kg" → (b = true ↔ ¬ Alike kv.2 v)) ∧
      (kv.1 = "veh_override_kg" → (b = true ↔ overrideSame kv.2 v = false)) := by
  obtain ⟨v, hv⟩ := h.has kv hm
  have hg := PyDict.get?_of_mem (d := d2) h.nodup hv
  by_cases hk : kv.1 = "veh_override_kg"
  · refine ⟨v, !overrideSame kv.2 v, hg, hv, ?_, fun hc => absurd hk hc, fun _ => by simp⟩
    unfold entryDiffers
    rw [if_pos hk]
  · obtain ⟨b, h1, h2⟩ := entryDiffers_iff hk (h.shape kv hm v hv)
    exact ⟨v, b, hg, hv, h1, fun _ => h2, fun hc => absurd hc hk⟩

theorem comparable_tail {p : String × VVal K} {d1 d2 : PyDict (VVal K)}
    (h : Comparable (p :: d1) d2) : Comparable d1 d2 :=
  ⟨h.nodup, fun kv hm => h.has kv (List.mem_cons_of_mem _ hm),
    fun kv hm => h.shape kv (List.mem_cons_of_mem _ hm)⟩

/-- **C39 (equality of vehicles).** `veh_equal` says yes exactly when the two vehicles are alike in
every entry, the mass override excepted, which it ignores. -/
theorem C39_veh_equal {d1 d2 : PyDict (VVal K)} (h : Comparable d1 d2) :
    ∃ b, vehEqualDicts d2 d1 = .ok b ∧
      (b = true ↔ ∀ kv ∈ d1, kv.1 ≠ "veh_override_kg" → ∀ v, (kv.1, v) ∈ d2 → Alike kv.2 v) := by
  induction d1 with
  | nil => exact ⟨true, rfl, by simp⟩
  | cons p d ih =>
    obtain ⟨r, h1, h2⟩ := ih (comparable_tail h)
    obtain ⟨v, b, hg, hv, hb, hb1, hb2⟩ := entry_total h List.mem_cons_self
    have huniq : ∀ w, (p.1, w) ∈ d2 → w = v := by
      intro w hw
      have := PyDict.get?_of_mem (d := d2) h.nodup hw
      rw [hg] at this
      exact (Option.some.inj this).symm
    simp only [vehEqualDicts, hg, hb]
    by_cases hc : b = true ∧ p.1 ≠ "veh_override_kg"
    · refine ⟨false, by rw [if_pos hc], ?_⟩
      simp only [Bool.false_eq_true, false_iff]
      intro hall
      exact (hb1 hc.2).1 hc.1 (hall p List.mem_cons_self hc.2 v hv)
    · refine ⟨r, by rw [if_neg hc]; exact h1, ?_⟩
      rw [h2]
      constructor
      · intro hall kv hm hk w hw
        rcases List.mem_cons.1 hm with rfl | hm
        · by_contra hna
          rw [huniq w hw] at hna
          exact hc ⟨(hb1 hk).2 hna, hk⟩
        · exact hall kv hm hk w hw
      · intro hall kv hm
        exact hall kv (List.mem_cons_of_mem _ hm)

/-- **C39 (list of differences).** With `full_out` the keys reported are exactly those of the entries that
are not alike, in order, here including the mass override. -/
theorem C39_veh_diffs {d1 d2 : PyDict (VVal K)} (h : Comparable d1 d2) :
    ∃ ks, vehDiffs d2 d1 = .ok ks ∧ ks.Sublist (d1.map Prod.fst) ∧
      (∀ kv ∈ d1, kv.1 ≠ "veh_override_kg" → ∀ v, (kv.1, v) ∈ d2 → ¬ Alike kv.2 v → kv.1 ∈ ks) ∧
      (∀ kv ∈ d1, kv.1 = "veh_override_kg" → ∀ v, (kv.1, v) ∈ d2 → overrideSame kv.2 v = false →
        kv.1 ∈ ks) ∧
      (∀ k ∈ ks, ∃ v v', (k, v) ∈ d1 ∧ (k, v') ∈ d2 ∧
        (k ≠ "veh_override_kg" → ¬ Alike v v') ∧
        (k = "veh_override_kg" → overrideSame v v' = false)) := by
  induction d1 with
  | nil => exact ⟨[], rfl, by simp, by simp, by simp, by simp⟩
  | cons p d ih =>
    obtain ⟨ks, h1, h2, h3, h4, h5⟩ := ih (comparable_tail h)
    obtain ⟨v, b, hg, hv, hb, hb1, hb2⟩ := entry_total h List.mem_cons_self
    have huniq : ∀ w, (p.1, w) ∈ d2 → w = v := by
      intro w hw
      have := PyDict.get?_of_mem (d := d2) h.nodup hw
      rw [hg] at this
      exact (Option.some.inj this).symm
    refine ⟨if b then p.1 :: ks else ks, ?_, ?_, ?_, ?_, ?_⟩
    · simp only [vehDiffs, hg, hb, h1]
    · cases b
      · exact List.Sublist.cons _ h2
      · exact List.Sublist.cons_cons _ h2
    · intro kv hm hk w hw hna
      rcases List.mem_cons.1 hm with rfl | hm
      · rw [huniq w hw] at hna
        rw [(hb1 hk).2 hna]; simp
      · have := h3 kv hm hk w hw hna
        cases b
        · exact this
        · exact List.mem_cons_of_mem _ this
    · intro kv hm hk w hw hna
      rcases List.mem_cons.1 hm with rfl | hm
      · rw [huniq w hw] at hna
        rw [(hb2 hk).2 hna]; simp
      · have := h4 kv hm hk w hw hna
        cases b
        · exact this
        · exact List.mem_cons_of_mem _ this
    · intro k hk
      cases b with
      | false =>
        obtain ⟨a, a', q1, q2, q3⟩ := h5 k hk
        exact ⟨a, a', List.mem_cons_of_mem _ q1, q2, q3⟩
      | true =>
        rcases List.mem_cons.1 hk with rfl | hk
        · exact ⟨p.2, v, List.mem_cons_self, hv, fun q => (hb1 q).1 rfl, fun q => (hb2 q).1 rfl⟩
        · obtain ⟨a, a', q1, q2, q3⟩ := h5 k hk
          exact ⟨a, a', List.mem_cons_of_mem _ q1, q2, q3⟩

/-- The keys of a vehicle's dictionary, whatever the vehicle, each once. -/
theorem vehToDict_keys (a b : VehRec K) :
    (vehToDict a).map Prod.fst = (vehToDict b).map Prod.fst ∧ ((vehToDict a).map Prod.fst).Nodup := by
  constructor
  · rfl
  · simp only [vehToDict, List.map_cons, List.map_nil]
    decide

/-- The shape condition for two vehicles: arrays of the same length, motor map given or not in both. -/
structure _root_.Fastsim.Spec.SameArrays (a b : VehRec K) : Prop where
  fcPwr : a.obj.fcPwrOutPerc.length = b.obj.fcPwrOutPerc.length
  fcMap : a.obj.fcEffMap.length = b.obj.fcEffMap.length
  mcPwr : a.obj.mcPwrOutPerc.length = b.obj.mcPwrOutPerc.length
  mcMap : a.obj.mcEffMap.map List.length = b.obj.mcEffMap.map List.length

theorem sameArrays_symm {a b : VehRec K} (h : SameArrays a b) : SameArrays b a :=
  ⟨h.fcPwr.symm, h.fcMap.symm, h.mcPwr.symm, h.mcMap.symm⟩

theorem shape_optNum (x y : Option K) : SameShape (optNum x) (optNum y) := by
  cases x <;> cases y <;> trivial

theorem shape_optList {x y : Option (List K)} (h : x.map List.length = y.map List.length) :
    SameShape (optList x) (optList y) := by
  cases x with
  | none =>
    cases y with
    | none => trivial
    | some l' => simp at h
  | some l =>
    cases y with
    | none => simp at h
    | some l' => simpa [optList, SameShape] using h

/-- Entry by entry: the dictionaries of two vehicles zipped. -/
theorem comparable_of_forall2 {d1 d2 : PyDict (VVal K)} (hn : (d2.map Prod.fst).Nodup)
    (h : List.Forall₂ (fun p q => p.1 = q.1 ∧ SameShape p.2 q.2) d1 d2) : Comparable d1 d2 := by
  have key : ∀ kv ∈ d1, ∃ q ∈ d2, kv.1 = q.1 ∧ SameShape kv.2 q.2 := by
    intro kv hm
    clear hn
    induction h with
    | nil => simp at hm
    | cons hab _ ih =>
      rcases List.mem_cons.1 hm with rfl | hm
      · exact ⟨_, List.mem_cons_self, hab⟩
      · obtain ⟨q, hq, e⟩ := ih hm
        exact ⟨q, List.mem_cons_of_mem _ hq, e⟩
  refine ⟨hn, fun kv hm => ?_, fun kv hm v hv => ?_⟩
  · obtain ⟨q, hq, e, -⟩ := key kv hm
    exact ⟨q.2, by rw [e]; exact hq⟩
  · obtain ⟨q, hq, e, hs⟩ := key kv hm
    have h1 := PyDict.get?_of_mem (d := d2) hn hv
    have h2 := PyDict.get?_of_mem (d := d2) (k := q.1) (v := q.2) hn hq
    rw [e, h2] at h1
    rw [← Option.some.inj h1]
    exact hs

theorem vehDicts_comparable {a b : VehRec K} (h : SameArrays a b) :
    Comparable (vehToDict a) (vehToDict b) := by
  refine comparable_of_forall2 (vehToDict_keys b b).2 ?_
  unfold vehToDict
  simp only [List.forall₂_cons, List.forall₂_nil_left_iff, SameShape, true_and, and_true, h.fcPwr,
    h.fcMap, h.mcPwr]
  exact ⟨shape_optNum _ _, shape_optList h.mcMap, shape_optNum _ _, shape_optNum _ _⟩

/-- Agreement in all that `veh_equal` looks at: the four arrays to a millionth, everything else exactly,
but not the mass override. -/
structure _root_.Fastsim.Spec.SameButOverride (a b : VehRec K) : Prop where
  ptType : a.obj.ptType = b.obj.ptType
  effType : a.effType.str = b.effType.str
  flags : a.obj.stopStart = b.obj.stopStart ∧ a.obj.forceAuxOnFc = b.obj.forceAuxOnFc
  body : a.obj.dragCoef = b.obj.dragCoef ∧ a.obj.frontalAreaM2 = b.obj.frontalAreaM2 ∧
    a.obj.gliderKg = b.obj.gliderKg ∧ a.obj.vehCgM = b.obj.vehCgM ∧
    a.obj.driveAxleWeightFrac = b.obj.driveAxleWeightFrac ∧ a.obj.wheelBaseM = b.obj.wheelBaseM ∧
    a.obj.cargoKg = b.obj.cargoKg ∧ a.obj.compMassMultiplier = b.obj.compMassMultiplier ∧
    a.obj.transKg = b.obj.transKg ∧ a.obj.transEff = b.obj.transEff ∧
    a.obj.aGravMps2 = b.obj.aGravMps2
  fuel : a.obj.fsMaxKw = b.obj.fsMaxKw ∧ a.obj.fsSecsToPeakPwr = b.obj.fsSecsToPeakPwr ∧
    a.obj.fsKwh = b.obj.fsKwh ∧ a.obj.fsKwhPerKg = b.obj.fsKwhPerKg
  engine : a.obj.fcMaxKw = b.obj.fcMaxKw ∧ a.obj.fcSecToPeakPwr = b.obj.fcSecToPeakPwr ∧
    a.obj.fcBaseKg = b.obj.fcBaseKg ∧ a.obj.fcKwPerKg = b.obj.fcKwPerKg ∧
    a.obj.minFcTimeOn = b.obj.minFcTimeOn ∧ a.obj.idleFcKw = b.obj.idleFcKw ∧
    a.obj.fcPeakEffOverride = b.obj.fcPeakEffOverride
  motor : a.obj.mcMaxKw = b.obj.mcMaxKw ∧ a.obj.mcSecToPeakPwr = b.obj.mcSecToPeakPwr ∧
    a.obj.mcPeKgPerKw = b.obj.mcPeKgPerKw ∧ a.obj.mcPeBaseKg = b.obj.mcPeBaseKg ∧
    a.obj.mcPeakEffOverride = b.obj.mcPeakEffOverride
  battery : a.obj.essMaxKw = b.obj.essMaxKw ∧ a.obj.essMaxKwh = b.obj.essMaxKwh ∧
    a.obj.essKgPerKwh = b.obj.essKgPerKwh ∧ a.obj.essBaseKg = b.obj.essBaseKg ∧
    a.obj.essRoundTripEff = b.obj.essRoundTripEff ∧ a.obj.minSoc = b.obj.minSoc ∧
    a.obj.maxSoc = b.obj.maxSoc ∧ a.obj.essDischgToFcMaxEffPerc = b.obj.essDischgToFcMaxEffPerc ∧
    a.obj.essChgToFcMaxEffPerc = b.obj.essChgToFcMaxEffPerc ∧
    a.obj.essToFuelOkError = b.obj.essToFuelOkError
  wheels : a.obj.wheelInertiaKgM2 = b.obj.wheelInertiaKgM2 ∧ a.obj.numWheels = b.obj.numWheels ∧
    a.obj.wheelRrCoef = b.obj.wheelRrCoef ∧ a.obj.wheelRadiusM = b.obj.wheelRadiusM ∧
    a.obj.wheelCoefOfFric = b.obj.wheelCoefOfFric
  control : a.obj.maxAccelBufferMph = b.obj.maxAccelBufferMph ∧
    a.obj.maxAccelBufferPercOfUseableSoc = b.obj.maxAccelBufferPercOfUseableSoc ∧
    a.obj.percHighAccBuf = b.obj.percHighAccBuf ∧ a.obj.mphFcOn = b.obj.mphFcOn ∧
    a.obj.kwDemandFcOn = b.obj.kwDemandFcOn ∧ a.obj.maxRegen = b.obj.maxRegen ∧
    a.obj.regenA = b.obj.regenA ∧ a.obj.regenB = b.obj.regenB ∧ a.obj.altEff = b.obj.altEff ∧
    a.obj.chgEff = b.obj.chgEff ∧ a.obj.auxKw = b.obj.auxKw
  fcPwr : Alike (.list a.obj.fcPwrOutPerc) (.list b.obj.fcPwrOutPerc)
  fcMap : Alike (.list a.obj.fcEffMap) (.list b.obj.fcEffMap)
  mcPwr : Alike (.list a.obj.mcPwrOutPerc) (.list b.obj.mcPwrOutPerc)
  mcMap : (a.obj.mcEffMap = none ∧ b.obj.mcEffMap = none) ∨
    ∃ l l', a.obj.mcEffMap = some l ∧ b.obj.mcEffMap = some l' ∧ Alike (.list l) (.list l')

theorem ptType_str {a b : PtType} : a.str = b.str ↔ a = b := by
  cases a <;> cases b <;> decide

theorem optNum_inj {a b : Option K} : Alike (optNum a) (optNum b) ↔ a = b := by
  cases a <;> cases b <;> simp [optNum, Alike]

theorem optList_alike {a b : Option (List K)} : Alike (optList a) (optList b) ↔
    (a = none ∧ b = none) ∨ ∃ l l', a = some l ∧ b = some l' ∧ Alike (.list l) (.list l') := by
  cases a <;> cases b <;> simp [optList, Alike]

theorem alike_num (x y : K) : Alike (.num (some x)) (.num (some y)) ↔ x = y := by simp [Alike]
theorem alike_str (x y : String) : Alike (K := K) (.str x) (.str y) ↔ x = y := by simp [Alike]
theorem alike_bool (x y : Bool) : Alike (K := K) (.bool x) (.bool y) ↔ x = y := by simp [Alike]
theorem alike_props (x y : K) : Alike (.props [x]) (.props [y]) ↔ x = y := by simp [Alike]

/-- Entry by entry over two dictionaries with the same keys. -/
theorem forall_entries {d1 d2 : PyDict (VVal K)} (hk : d1.map Prod.fst = d2.map Prod.fst)
    (hn : (d2.map Prod.fst).Nodup) (P : String → VVal K → VVal K → Prop) :
    (∀ kv ∈ d1, ∀ v, (kv.1, v) ∈ d2 → P kv.1 kv.2 v) ↔
      List.Forall₂ (fun p q => P p.1 p.2 q.2) d1 d2 := by
  induction d1 generalizing d2 with
  | nil =>
    cases d2 with
    | nil => simp
    | cons q d2 => simp at hk
  | cons p d ih =>
    cases d2 with
    | nil => simp at hk
    | cons q d2 =>
      simp only [List.map_cons, List.cons.injEq] at hk
      rw [List.map_cons, List.nodup_cons] at hn
      rw [List.forall₂_cons, ← ih hk.2 hn.2]
      constructor
      · intro h
        refine ⟨h p List.mem_cons_self q.2 (by rw [hk.1]; exact List.mem_cons_self), fun kv hm v hv =>
          h kv (List.mem_cons_of_mem _ hm) v (List.mem_cons_of_mem _ hv)⟩
      · rintro ⟨h1, h2⟩ kv hm v hv
        rcases List.mem_cons.1 hm with rfl | hm
        · rcases List.mem_cons.1 hv with hv | hv
          · rw [← hv] at h1; exact h1
          · exfalso
            apply hn.1
            rw [← hk.1]
            exact List.mem_map.2 ⟨_, hv, rfl⟩
        · rcases List.mem_cons.1 hv with hv | hv
          · exfalso
            apply hn.1
            rw [← hk.2]
            exact List.mem_map.2 ⟨kv, hm, by rw [← hv]⟩
          · exact h2 kv hm v hv

/-- **C39 (equality of vehicles, in the vehicle's own terms).** Two vehicles with arrays of the same
length are reported equal exactly if they agree in everything but, possibly, the mass override. -/
theorem C39_veh_equal_fields {a b : VehRec K} (h : SameArrays a b) :
    ∃ r, vehEqual a b = .ok r ∧ (r = true ↔ SameButOverride a b) := by
  obtain ⟨r, h1, h2⟩ := C39_veh_equal (vehDicts_comparable h)
  refine ⟨r, h1, h2.trans ?_⟩
  have := forall_entries (vehToDict_keys a b).1 (vehToDict_keys b b).2
    (fun k v w => k ≠ "veh_override_kg" → Alike v w)
  have e : (∀ kv ∈ vehToDict a, kv.1 ≠ "veh_override_kg" → ∀ v, (kv.1, v) ∈ vehToDict b →
      Alike kv.2 v) ↔ ∀ kv ∈ vehToDict a, ∀ v, (kv.1, v) ∈ vehToDict b → kv.1 ≠ "veh_override_kg" →
      Alike kv.2 v :=
    ⟨fun q kv hm v hv hk => q kv hm hk v hv, fun q kv hm hk v hv => q kv hm v hv hk⟩
  rw [e, this]
  unfold vehToDict
  simp only [List.forall₂_cons, List.forall₂_nil_left_iff, alike_num, alike_str, alike_bool, alike_props,
    optNum_inj, optList_alike, ptType_str, ne_eq, String.reduceEq, not_false_eq_true, forall_const,
    not_true_eq_false, false_imp_iff, true_and, and_true]
  constructor
  · rintro ⟨a1, a2, a3, a4, a5, a6, a7, a8, a9, a10, a11, a12, a13, a14, a15, a16, a17, a18, a19, a20,
      a21, a22, a23, a24, a25, a26, a27, a28, a29, a30, a31, a32, a33, a34, a35, a36, a37, a38, a39,
      a40, a41, a42, a43, a44, a45, a46, a47, a48, a49, a50, a51, a52, a53, a54, a55, a56, a57, a58,
      a59, a60, a61⟩
    constructor <;> first | assumption | (refine ⟨?_, ?_⟩ <;> assumption) | skip
    all_goals (repeat' constructor) <;> assumption
  · rintro ⟨a1, a2, a3, a4, a5, a6, a7, a8, a9, a10, a11, a12, a13, a14⟩
    obtain ⟨b1, b2⟩ := a3
    obtain ⟨c1, c2, c3, c4, c5, c6, c7, c8, c9, c10, c11⟩ := a4
    obtain ⟨d1, d2, d3, d4⟩ := a5
    obtain ⟨e1, e2, e3, e4, e5, e6, e7⟩ := a6
    obtain ⟨f1, f2, f3, f4, f5⟩ := a7
    obtain ⟨g1, g2, g3, g4, g5, g6, g7, g8, g9, g10⟩ := a8
    obtain ⟨i1, i2, i3, i4, i5⟩ := a9
    obtain ⟨j1, j2, j3, j4, j5, j6, j7, j8, j9, j10, j11⟩ := a10
    refine ⟨?_, ?_, ?_, ?_, ?_, ?_, ?_, ?_, ?_, ?_, ?_, ?_, ?_, ?_, ?_, ?_, ?_, ?_, ?_, ?_, ?_, ?_, ?_, ?_,
      ?_, ?_, ?_, ?_, ?_, ?_, ?_, ?_, ?_, ?_, ?_, ?_, ?_, ?_, ?_, ?_, ?_, ?_, ?_, ?_, ?_, ?_, ?_, ?_,
      ?_, ?_, ?_, ?_, ?_, ?_, ?_, ?_, ?_, ?_, ?_, ?_, ?_⟩ <;> assumption

/-- **C39 (reflexive, symmetric).** -/
theorem C39_veh_equal_refl (a : VehRec K) : vehEqual a a = .ok true ∧ vehEqualFull a a = .ok [] := by
  have hs : SameArrays a a := ⟨rfl, rfl, rfl, rfl⟩
  have hc := vehDicts_comparable hs
  have huniq : ∀ kv ∈ vehToDict a, ∀ v, (kv.1, v) ∈ vehToDict a → v = kv.2 := by
    intro kv hm v hv
    have e1 := PyDict.get?_of_mem (d := vehToDict a) (vehToDict_keys a a).2 hv
    have e2 := PyDict.get?_of_mem (d := vehToDict a) (k := kv.1) (v := kv.2) (vehToDict_keys a a).2 hm
    rw [e1] at e2
    exact Option.some.inj e2
  constructor
  · obtain ⟨r, h1, h2⟩ := C39_veh_equal hc
    rw [vehEqual, h1, h2.2]
    intro kv hm _ v hv
    rw [huniq kv hm v hv]
    exact alike_refl _
  · obtain ⟨ks, h1, -, -, -, h5⟩ := C39_veh_diffs hc
    rw [vehEqualFull, h1]
    rcases ks with _ | ⟨k, ks⟩
    · rfl
    · exfalso
      obtain ⟨v, v', q1, q2, q3, q4⟩ := h5 k List.mem_cons_self
      have : v' = v := huniq (k, v) q1 v' q2
      subst this
      by_cases hk : k = "veh_override_kg"
      · have h0 := q4 hk
        subst hk
        have e1 := PyDict.get?_of_mem (d := vehToDict a) (vehToDict_keys a a).2 q1
        have e2 : PyDict.get? (vehToDict a) "veh_override_kg" = some (optNum a.obj.vehOverrideKg) := rfl
        rw [e1] at e2
        rw [Option.some.inj e2] at h0
        have hself : ∀ x : Option K, overrideSame (optNum x) (optNum x) = true := by
          intro x; cases x <;> simp [optNum, overrideSame]
        rw [hself] at h0
        simp at h0
      · exact q3 hk (alike_refl _)

theorem alike_list_symm {l l' : List K} (h : Alike (.list l) (.list l')) :
    Alike (.list l') (.list l) := alike_symm h

theorem sameButOverride_symm {a b : VehRec K} (h : SameButOverride a b) : SameButOverride b a := by
  obtain ⟨a1, a2, a3, a4, a5, a6, a7, a8, a9, a10, a11, a12, a13, a14⟩ := h
  refine ⟨a1.symm, a2.symm, ?_, ?_, ?_, ?_, ?_, ?_, ?_, ?_, alike_symm a11, alike_symm a12,
    alike_symm a13, ?_⟩
  · simpa only [eq_comm] using a3
  · simpa only [eq_comm] using a4
  · simpa only [eq_comm] using a5
  · simpa only [eq_comm] using a6
  · simpa only [eq_comm] using a7
  · simpa only [eq_comm] using a8
  · simpa only [eq_comm] using a9
  · simpa only [eq_comm] using a10
  · rcases a14 with ⟨p, q⟩ | ⟨l, l', p, q, r⟩
    · exact Or.inl ⟨q, p⟩
    · exact Or.inr ⟨l', l, q, p, alike_symm r⟩

theorem C39_veh_equal_symm {a b : VehRec K} (h : SameArrays a b) : vehEqual a b = vehEqual b a := by
  obtain ⟨r, h1, h2⟩ := C39_veh_equal_fields h
  obtain ⟨r', h1', h2'⟩ := C39_veh_equal_fields (sameArrays_symm h)
  rw [h1, h1']
  congr 1
  rw [Bool.eq_iff_iff, h2, h2']
  exact ⟨sameButOverride_symm, sameButOverride_symm⟩

/-- **C39 refuted for the mass override.** Two vehicles that differ only in the mass override, hence in
mass, are reported as equal, whatever the two values. -/
theorem C39_override_ignored (a : VehRec K) (x : Option K) :
    vehEqual a { a with obj := { a.obj with vehOverrideKg := x } } = .ok true := by
  obtain ⟨r, h1, h2⟩ := C39_veh_equal_fields (a := a)
    (b := { a with obj := { a.obj with vehOverrideKg := x } }) ⟨rfl, rfl, rfl, rfl⟩
  rw [h1, h2.2]
  refine ⟨rfl, rfl, ⟨rfl, rfl⟩, ⟨rfl, rfl, rfl, rfl, rfl, rfl, rfl, rfl, rfl, rfl, rfl⟩,
    ⟨rfl, rfl, rfl, rfl⟩, ⟨rfl, rfl, rfl, rfl, rfl, rfl, rfl⟩, ⟨rfl, rfl, rfl, rfl, rfl⟩,
    ⟨rfl, rfl, rfl, rfl, rfl, rfl, rfl, rfl, rfl, rfl⟩, ⟨rfl, rfl, rfl, rfl, rfl⟩,
    ⟨rfl, rfl, rfl, rfl, rfl, rfl, rfl, rfl, rfl, rfl, rfl⟩, alike_refl _, alike_refl _, alike_refl _, ?_⟩
  rcases h : a.obj.mcEffMap with _ | l
  · exact Or.inl ⟨rfl, rfl⟩
  · exact Or.inr ⟨l, l, rfl, rfl, alike_refl _⟩

/-- **C39 (full report and the mass override).** The list of differences names the mass override exactly
if the overrides differ, where no override and an override of 0 are the same; and `veh_equal` says yes
exactly when the list names nothing else. -/
theorem C39_override_reported {a b : VehRec K} (h : SameArrays a b) :
    ∃ ks, vehEqualFull a b = .ok ks ∧
      ("veh_override_kg" ∈ ks ↔ a.obj.vehOverrideKg.getD 0 ≠ b.obj.vehOverrideKg.getD 0) ∧
      (vehEqual a b = .ok true ↔ ∀ k ∈ ks, k = "veh_override_kg") := by
  have hc := vehDicts_comparable h
  obtain ⟨ks, h1, -, h3, h4, h5⟩ := C39_veh_diffs hc
  obtain ⟨r, g1, g2⟩ := C39_veh_equal hc
  have ga : ∀ {c : VehRec K} {v : VVal K}, ("veh_override_kg", v) ∈ vehToDict c →
      v = optNum c.obj.vehOverrideKg := by
    intro c v hm
    have e1 := PyDict.get?_of_mem (d := vehToDict c) (vehToDict_keys c c).2 hm
    have e2 : PyDict.get? (vehToDict c) "veh_override_kg" = some (optNum c.obj.vehOverrideKg) := rfl
    rw [e1] at e2
    exact Option.some.inj e2
  have mem : ∀ c : VehRec K, ("veh_override_kg", optNum c.obj.vehOverrideKg) ∈ vehToDict c :=
    fun c => PyDict.get?_mem (d := vehToDict c) rfl
  have same : ∀ x y : Option K, overrideSame (optNum x) (optNum y) = false ↔ x.getD 0 ≠ y.getD 0 := by
    intro x y
    cases x <;> cases y <;> simp [optNum, overrideSame, eq_comm]
  refine ⟨ks, h1, ⟨?_, ?_⟩, ?_⟩
  · intro hm
    obtain ⟨v, v', q1, q2, -, q4⟩ := h5 _ hm
    have := q4 rfl
    rw [ga q1, ga q2, same] at this
    exact this
  · intro hne
    exact h4 _ (mem a) rfl _ (mem b) ((same _ _).2 hne)
  · rw [vehEqual, g1, Except.ok.injEq, g2]
    constructor
    · intro hall k hk
      by_contra hno
      obtain ⟨v, v', q1, q2, q3, -⟩ := h5 k hk
      exact q3 hno (hall (k, v) q1 hno v' q2)
    · intro hall kv hm hk v hv
      by_contra hna
      exact hk (hall _ (h3 kv hm hk v hv hna))

/-! ### Copies of vehicles -/

/-- A vehicle with masses and traction limit not yet set. -/
def noMass (o : VehObj K) : VehObj K :=
  { o with
    vehKg := 0, maxTracMps2 := 0, essMassKg := 0, mcMassKg := 0, fcMassKg := 0, fsMassKg := 0 }

/-- `set_derived` does not look at the attributes a copy leaves out. -/
theorem setDerived_bare (o : VehObj K) : o.bare.setDerived = o.setDerived := by
  have h1 : o.bare.typeOk = o.typeOk := rfl
  have h2 : o.bare.setSwitches.setCurves = o.setSwitches.setCurves ∨
      ∃ o1 o2, o.bare.setSwitches.setCurves = .ok o1 ∧ o.setSwitches.setCurves = .ok o2 ∧
        o1 = noMass o2 := by
    unfold VehObj.setCurves
    simp only [VehObj.bare, VehObj.setSwitches]
    rcases npInterp fcPercOutArray o.fcPwrOutPerc o.fcEffMap with e | fcEff
    · exact Or.inl rfl
    · rcases npInterp mcPercOutArray o.mcPwrOutPerc (o.mcEffMap.getD (defaultMcEffMap o.mcMaxKw)) with
        e | mid
      · exact Or.inl rfl
      · exact Or.inr ⟨_, _, rfl, rfl, rfl⟩
  unfold VehObj.setDerived
  rw [h1]
  split
  · rcases h2 with h2 | ⟨o1, o2, e1, e2, e⟩
    · rw [h2]
    · rw [e1, e2]
      simp only
      have hov : o1.setOverrides = noMass o2.setOverrides := by
        rw [e]
        unfold VehObj.setOverrides noMass
        obtain hx | ⟨x, hx⟩ : o2.fcPeakEffOverride = none ∨ ∃ x, o2.fcPeakEffOverride = some x := by
          cases o2.fcPeakEffOverride <;> simp
        · obtain hy | ⟨y, hy⟩ : o2.mcPeakEffOverride = none ∨ ∃ x, o2.mcPeakEffOverride = some x := by
            cases o2.mcPeakEffOverride <;> simp
          · simp only [hx, hy]
          · simp only [hx, hy, VehObj.setMcPeak]
        · obtain hy | ⟨y, hy⟩ : o2.mcPeakEffOverride = none ∨ ∃ x, o2.mcPeakEffOverride = some x := by
            cases o2.mcPeakEffOverride <;> simp
          · simp only [hx, hy, VehObj.setFcPeak]
          · simp only [hx, hy, VehObj.setMcPeak, VehObj.setFcPeak]
      have hef : o1.setOverrides.effOk = o2.setOverrides.effOk := by rw [hov]; rfl
      have hm : o1.setOverrides.setVehMass = o2.setOverrides.setVehMass := by
        rw [hov]
        generalize o2.setOverrides = q
        unfold VehObj.setVehMass noMass
        obtain hx | ⟨x, hx⟩ : q.vehOverrideKg = none ∨ ∃ x, q.vehOverrideKg = some x := by
          cases q.vehOverrideKg <;> simp
        · simp only [hx]
        · simp only [hx]
          by_cases h0 : 0 < x
          · simp only [if_pos h0]
          · simp only [if_neg h0]
      rw [hef, hm]
  · rfl

/-- The built-in maps have twelve positive values. -/
theorem builtin_maps {t : FcEffType} {m : List K} (h : builtinFcMap t = some m) :
    m.length = 12 ∧ (∀ e ∈ m, 0 < e) ∧ m[0]? = some (10 / 100) ∧ ∃ x, m[11]? = some x ∧ 3 / 10 ≤ x := by
  cases t <;> simp only [builtinFcMap, Option.some.injEq, reduceCtorEq] at h <;> subst h <;>
    refine ⟨rfl, ?_, by norm_num [dec], _, rfl, by norm_num [dec]⟩ <;>
    simp only [List.mem_cons, List.not_mem_nil, or_false, forall_eq_or_imp, forall_eq] <;>
    norm_num [dec]

/-- What a copy starts from: the original's description with the built-in maps. -/
theorem copyVehicle_unfold (r : VehRec K) :
    copyVehicle r = match builtinFcMap (K := K) r.effType with
      | none => .error .assertionError
      | some m => match VehObj.setDerived { r.obj with
          fcType := if r.effType = .h2fc then .h2fc else .other
          fcEffMap := m, fcPwrOutPerc := defaultFcPwrOutPerc, mcPwrOutPerc := defaultMcPwrOutPerc
          mcEffMap := none
          fcPeakEffOverride := cleanOverride r.obj.fcPeakEffOverride
          mcPeakEffOverride := cleanOverride r.obj.mcPeakEffOverride } with
        | .error e => .error e
        | .ok v => match v.setDerived with
          | .error e => .error e
          | .ok v => .ok ⟨v, r.effType⟩ := by
  unfold copyVehicle vehFromDict
  simp only
  rcases h : builtinFcMap (K := K) r.effType with _ | m
  · rfl
  · simp only
    rw [if_neg (by rw [(builtin_maps h).1]; simp [defaultFcPwrOutPerc]),
      if_neg (by simp [defaultMcPwrOutPerc, largeBaselineEff]),
      ← setDerived_bare { r.obj with
          fcType := if r.effType = .h2fc then .h2fc else .other
          fcEffMap := m, fcPwrOutPerc := defaultFcPwrOutPerc, mcPwrOutPerc := defaultMcPwrOutPerc
          mcEffMap := none
          fcPeakEffOverride := cleanOverride r.obj.fcPeakEffOverride
          mcPeakEffOverride := cleanOverride r.obj.mcPeakEffOverride }]
    rfl

/-- **C39 (copy of a vehicle).** A vehicle made from a description without arrays of its own and without
an override of the motor's peak is copied exactly: every attribute, derived ones included, is the
same. -/
theorem C39_vehicle_copy {d : VehDict K} {v : VehObj K} (hd : vehFromDict d = .ok v)
    (h1 : d.fcEffMap = .notText) (h2 : d.fcPwrOutPerc = .notText) (h3 : d.mcPwrOutPerc = .notText)
    (h4 : d.mcEffMap = .notText) (ho : d.base.mcPeakEffOverride = none) :
    copyVehicle ⟨v, d.effType⟩ = .ok ⟨v, d.effType⟩ := by
  rw [copyVehicle_unfold]
  unfold vehFromDict at hd
  rw [h1, h2, h3, h4] at hd
  simp only at hd ⊢
  rcases hb : builtinFcMap (K := K) d.effType with _ | m
  · rw [hb] at hd; simp at hd
  · rw [hb] at hd
    simp only at hd ⊢
    obtain ⟨m1, m2, -, -⟩ := builtin_maps hb
    rw [if_neg (by rw [m1]; simp [defaultFcPwrOutPerc]),
      if_neg (by simp [defaultMcPwrOutPerc, largeBaselineEff])] at hd
    set q : VehObj K := { d.base with
      fcType := if d.effType = .h2fc then .h2fc else .other
      fcEffMap := m, fcPwrOutPerc := defaultFcPwrOutPerc, mcPwrOutPerc := defaultMcPwrOutPerc
      mcEffMap := none
      fcPeakEffOverride := cleanOverride d.base.fcPeakEffOverride
      mcPeakEffOverride := cleanOverride d.base.mcPeakEffOverride } with hq
    have hqo : q.mcPeakEffOverride = none := by rw [hq]; simp only [ho]; rfl
    have hi := C37_inputs_kept hd
    -- the peak after an override
    have hfc : ∀ x, q.fcPeakEffOverride = some x → 0 < x ∧ x < 1 := by
      intro x hx
      have : cleanOverride d.base.fcPeakEffOverride = some x := hx
      unfold cleanOverride at this
      split at this
      · simp at this
      · split at this
        · rename_i hx'
          cases this
          exact hx'
        · simp at this
    obtain ⟨o1, fcEff, mid, map, hcu, heff, hv⟩ := setDerived_curves hd
    obtain ⟨g1, g2, g3, g4, g5, g6, g7⟩ := curves_eff _ _ _ _ _ hcu
    have hpos : 0 < o1.fcPeak := by
      unfold VehObj.fcPeak
      rw [g1]
      have hlen : fcEff ≠ [] := by
        rw [(npInterp_ok hcu.fc).2.2]; simp [fcPercOutArray]
      have := npInterp_bounds hcu.fc (lo := listMin m) (hi := listMax m)
        (fun e he => ⟨listMin_le he, le_listMax he⟩) _ (listMax_mem hlen)
      have hm0 : m ≠ [] := by rintro rfl; simp at m1
      exact lt_of_lt_of_le (m2 _ (listMin_mem hm0)) this.1
    -- overrides of the engine touch only its table
    have hov : o1.setOverrides = { o1 with fcEffArray := o1.setOverrides.fcEffArray } := by
      have hmn : o1.mcPeakEffOverride = none := g5.trans hqo
      obtain hx | ⟨x, hx⟩ : o1.fcPeakEffOverride = none ∨ ∃ x, o1.fcPeakEffOverride = some x := by
        cases o1.fcPeakEffOverride <;> simp
      · have : o1.setOverrides = o1 := by
          unfold VehObj.setOverrides; simp only [hx, hmn]
        rw [this]
      · have e := (C38_engine_peak o1 (hfc x (g4.symm.trans hx)).1 hpos).2.2
        have : o1.setOverrides = o1.setFcPeak x := by
          unfold VehObj.setOverrides
          simp only [hx]
          rw [show (o1.setFcPeak x).mcPeakEffOverride = none from hmn]
        rw [this]
        exact e
    have hvm : v.mcEffMap = some (defaultMcEffMap q.mcMaxKw) := by
      rw [hv, (setVehMass_arrays _).2.2.2.2.2.2.1, hov]
      show o1.mcEffMap = _
      rw [g7, hcu.hmap]; rfl
    have hvf : v.fcEffMap = m := by
      rw [hv, (setVehMass_arrays _).2.2.2.2.2.2.2.1, hov]
      show o1.fcEffMap = _
      rw [g6]; rfl
    have hagain : v.setDerived = .ok v := by
      refine C38_derive_again hd hqo fun x hx => ⟨(hfc x hx).1, fun e he => (m2 e he).le, ?_⟩
      unfold VehObj.fcPeak
      rw [hv, (setVehMass_arrays _).1, (override_cases o1).1]
      have : o1.fcPeakEffOverride = some x := g4.trans hx
      rw [this]
      simp only
      rw [listMax_scaleTo (hfc x hx).1.le hpos]
      exact (hfc x hx).1
    have hclean : ∀ y : Option K, cleanOverride (cleanOverride y) = cleanOverride y := by
      intro y
      cases y with
      | none => rfl
      | some y =>
        by_cases hy : 0 < y ∧ y < 1
        · have : cleanOverride (some y) = some y := if_pos hy
          rw [this, this]
        · have : cleanOverride (some y) = none := if_neg hy
          rw [this]; rfl
    have hstart : VehObj.setDerived { v with
          fcType := if d.effType = .h2fc then .h2fc else .other
          fcEffMap := m, fcPwrOutPerc := defaultFcPwrOutPerc, mcPwrOutPerc := defaultMcPwrOutPerc
          mcEffMap := none
          fcPeakEffOverride := cleanOverride v.fcPeakEffOverride
          mcPeakEffOverride := cleanOverride v.mcPeakEffOverride } = v.setDerived := by
      have e1 : v.fcType = if d.effType = .h2fc then .h2fc else .other := hi.fcType
      have e2 : v.fcPwrOutPerc = defaultFcPwrOutPerc := hi.fcPwrOutPerc
      have e3 : v.mcPwrOutPerc = defaultMcPwrOutPerc := hi.mcPwrOutPerc
      have e4 : v.fcPeakEffOverride = cleanOverride d.base.fcPeakEffOverride := hi.fcPeakEffOverride
      have e5 : v.mcPeakEffOverride = cleanOverride d.base.mcPeakEffOverride := hi.mcPeakEffOverride
      have e6 : v.mcMaxKw = q.mcMaxKw := hi.mcMaxKw
      have hw : ({ v with
          fcType := if d.effType = .h2fc then .h2fc else .other
          fcEffMap := m, fcPwrOutPerc := defaultFcPwrOutPerc, mcPwrOutPerc := defaultMcPwrOutPerc
          mcEffMap := none
          fcPeakEffOverride := cleanOverride v.fcPeakEffOverride
          mcPeakEffOverride := cleanOverride v.mcPeakEffOverride } : VehObj K) =
          { v with mcEffMap := none } := by
        rw [← e1, ← hvf, ← e2, ← e3, show cleanOverride v.fcPeakEffOverride = v.fcPeakEffOverride by
          rw [e4, hclean], show cleanOverride v.mcPeakEffOverride = v.mcPeakEffOverride by
          rw [e5, hclean]]
      rw [hw]
      have hcv : ({ v with mcEffMap := none } : VehObj K).setSwitches.setCurves = v.setSwitches.setCurves := by
        unfold VehObj.setCurves
        simp only [VehObj.setSwitches]
        rw [hvm, e6]
        rfl
      unfold VehObj.setDerived
      rw [hcv]
      rfl
    rw [hstart, hagain]
    simp only
    rw [hagain]

/-- **C39 refuted for vehicles with an engine type of their own.** A vehicle whose `fc_eff_type` is not
one of the built-in names can be used with a map of its own, but copying it raises `AssertionError`. -/
theorem C39_unknown_engine_copy (o : VehObj K) (s : String) :
    copyVehicle ⟨o, .unknown s⟩ = .error .assertionError := by
  rw [copyVehicle_unfold]; rfl

/-- **C39 (legacy copies).** They always raise. -/
theorem C39_legacy_vehicle (r : VehRec K) : copyVehicleLegacy r = .error .attributeError := rfl

/-- **C39 refuted for vehicles with arrays of their own.** Whatever arrays the original has, a copy has the
built-in engine map of the engine type and the default breakpoints. -/
theorem C39_copy_loses_arrays {r c : VehRec K} (h : copyVehicle r = .ok c) :
    c.effType = r.effType ∧ builtinFcMap c.effType = some c.obj.fcEffMap ∧
    c.obj.fcPwrOutPerc = defaultFcPwrOutPerc ∧ c.obj.mcPwrOutPerc = defaultMcPwrOutPerc ∧
    (cleanOverride r.obj.mcPeakEffOverride = none →
      c.obj.mcEffMap = some (defaultMcEffMap r.obj.mcMaxKw)) := by
  rw [copyVehicle_unfold] at h
  rcases hb : builtinFcMap (K := K) r.effType with _ | m
  · rw [hb] at h; simp at h
  · rw [hb] at h
    simp only at h
    set q : VehObj K := { r.obj with
      fcType := if r.effType = .h2fc then .h2fc else .other
      fcEffMap := m, fcPwrOutPerc := defaultFcPwrOutPerc, mcPwrOutPerc := defaultMcPwrOutPerc
      mcEffMap := none
      fcPeakEffOverride := cleanOverride r.obj.fcPeakEffOverride
      mcPeakEffOverride := cleanOverride r.obj.mcPeakEffOverride } with hq
    obtain ⟨m1, m2, -, -⟩ := builtin_maps hb
    have hm0 : m ≠ [] := by rintro rfl; simp at m1
    rcases hv : q.setDerived with e | v
    · rw [hv] at h; simp at h
    rw [hv] at h
    simp only at h
    rcases hw : v.setDerived with e | w
    · rw [hw] at h; simp at h
    rw [hw] at h
    simp only [Except.ok.injEq] at h
    subst h
    have hfc : ∀ x, q.fcPeakEffOverride = some x → 0 < x := by
      intro x hx
      have : cleanOverride r.obj.fcPeakEffOverride = some x := hx
      unfold cleanOverride at this
      split at this
      · simp at this
      · split at this
        · rename_i hx'
          cases this
          exact hx'.1
        · simp at this
    -- one derivation keeps the engine map
    have step : ∀ {a b : VehObj K}, a.setDerived = .ok b → a.fcEffMap = m →
        (∀ x, a.fcPeakEffOverride = some x → 0 < x) →
        b.fcEffMap = m ∧ (a.mcPeakEffOverride = none →
          b.mcEffMap = some (a.mcEffMap.getD (defaultMcEffMap a.mcMaxKw))) := by
      intro a b hab ham hax
      obtain ⟨o1, fcEff, mid, map, hcu, heff, rfl⟩ := setDerived_curves hab
      obtain ⟨g1, g2, g3, g4, g5, g6, g7⟩ := curves_eff _ _ _ _ _ hcu
      have hpos : 0 < o1.fcPeak := by
        unfold VehObj.fcPeak
        rw [g1]
        have hlen : fcEff ≠ [] := by
          rw [(npInterp_ok hcu.fc).2.2]; simp [fcPercOutArray]
        have hb' : ∀ e ∈ a.setSwitches.fcEffMap, listMin m ≤ e ∧ e ≤ listMax m := by
          rw [show a.setSwitches.fcEffMap = m from ham]
          exact fun e he => ⟨listMin_le he, le_listMax he⟩
        exact lt_of_lt_of_le (m2 _ (listMin_mem hm0)) (npInterp_bounds hcu.fc hb' _ (listMax_mem hlen)).1
      have hfo : ∀ x, o1.fcPeakEffOverride = some x →
          o1.setFcPeak x = { o1 with fcEffArray := (o1.setFcPeak x).fcEffArray } := fun x hx =>
        (C38_engine_peak o1 (hax x (g4.symm.trans hx)) hpos).2.2
      have e1 : o1.fcEffMap = m := g6.trans ham
      have hmap : map = a.mcEffMap.getD (defaultMcEffMap a.mcMaxKw) := hcu.hmap
      obtain ⟨-, -, -, -, -, -, b7, b8, -⟩ := setVehMass_arrays o1.setOverrides
      rw [b7, b8]
      unfold VehObj.setOverrides
      obtain hx | ⟨x, hx⟩ : o1.fcPeakEffOverride = none ∨ ∃ x, o1.fcPeakEffOverride = some x := by
        cases o1.fcPeakEffOverride <;> simp
      · simp only [hx]
        obtain hy | ⟨y, hy⟩ : o1.mcPeakEffOverride = none ∨ ∃ x, o1.mcPeakEffOverride = some x := by
          cases o1.mcPeakEffOverride <;> simp
        · simp only [hy]
          exact ⟨e1, fun _ => by rw [g7, hmap]⟩
        · simp only [hy]
          refine ⟨e1, fun hn => ?_⟩
          have : o1.mcPeakEffOverride = none := g5.trans hn
          rw [this] at hy
          simp at hy
      · simp only [hx]
        rw [hfo x hx]
        obtain hy | ⟨y, hy⟩ : o1.mcPeakEffOverride = none ∨ ∃ x, o1.mcPeakEffOverride = some x := by
          cases o1.mcPeakEffOverride <;> simp
        · simp only [hy]
          exact ⟨e1, fun _ => by rw [g7, hmap]⟩
        · simp only [hy]
          refine ⟨e1, fun hn => ?_⟩
          have : o1.mcPeakEffOverride = none := g5.trans hn
          rw [this] at hy
          simp at hy
    have i1 := C37_inputs_kept hv
    have i2 := C37_inputs_kept hw
    obtain ⟨s1, s2⟩ := step hv rfl hfc
    obtain ⟨t1, t2⟩ := step hw s1 (fun x hx => hfc x (i1.fcPeakEffOverride.symm.trans hx))
    refine ⟨rfl, ?_, i2.fcPwrOutPerc.trans i1.fcPwrOutPerc, i2.mcPwrOutPerc.trans i1.mcPwrOutPerc,
      fun hn => ?_⟩
    · show builtinFcMap r.effType = some w.fcEffMap
      rw [t1, hb]
    · have hqn : q.mcPeakEffOverride = none := hn
      have := t2 (i1.mcPeakEffOverride.trans hqn)
      rw [s2 hqn] at this
      exact this

/-- **C39 refuted: copies that do not equal the original.** If a vehicle's engine map is not, to a
millionth, the built-in one of its engine type, then no copy of it compares equal to it. -/
theorem C39_copy_not_equal {r c : VehRec K} {m : List K} (h : copyVehicle r = .ok c)
    (hm : builtinFcMap r.effType = some m) (hd : ¬ Alike (.list r.obj.fcEffMap) (.list m))
    (hl : r.obj.fcEffMap.length ≠ 1) : vehEqual r c ≠ .ok true := by
  obtain ⟨e1, e2, -⟩ := C39_copy_loses_arrays h
  rw [e1, hm] at e2
  have e2 := Option.some.inj e2
  obtain ⟨m1, -⟩ := builtin_maps hm
  -- the comparison never passes the entry of the map
  have key : ∀ (d1 d2 : PyDict (VVal K)) (l l' : List K), ("fc_eff_map", VVal.list l) ∈ d1 →
      PyDict.get? d2 "fc_eff_map" = some (.list l') → ¬ Alike (.list l) (.list l') → l.length ≠ 1 →
      l'.length ≠ 1 → vehEqualDicts d2 d1 ≠ .ok true := by
    intro d1 d2 l l' hmem hget hna h1 h1'
    induction d1 with
    | nil => simp at hmem
    | cons p d ih =>
      obtain ⟨k, v⟩ := p
      simp only [vehEqualDicts]
      rcases List.mem_cons.1 hmem with e | hmem
      · cases e
        rw [hget]
        simp only [entryDiffers, reduceIte, String.reduceEq, listDiffers]
        by_cases hlen : l.length = l'.length
        · rw [if_pos hlen]
          have : ((List.zip l l').any fun p => offBy p.1 p.2) = true := by
            rw [zip_any_off l l' hlen]
            intro hall
            exact hna ⟨hlen, hall⟩
          simp [this]
        · rw [if_neg hlen]
          split
          · simp
          · rename_i hx
            exfalso
            revert hx
            split
            · simp at h1
            · simp at h1'
            · simp
      · split
        · simp
        · split
          · simp
          · split
            · simp
            · exact ih hmem
  refine key (vehToDict r) (vehToDict c) r.obj.fcEffMap c.obj.fcEffMap ?_ rfl ?_ hl ?_
  · exact PyDict.get?_mem (d := vehToDict r) rfl
  · rw [← e2]; exact hd
  · rw [← e2, m1]; decide

/-- **C39 refuted: a peak efficiency set by hand is lost.** A vehicle as in `C39_vehicle_copy`, without
overrides, whose engine peak was changed through the property: the copy has the old one. -/
theorem C39_copy_loses_peak {d : VehDict K} {v : VehObj K} (hd : vehFromDict d = .ok v)
    (h1 : d.fcEffMap = .notText) (h2 : d.fcPwrOutPerc = .notText) (h3 : d.mcPwrOutPerc = .notText)
    (h4 : d.mcEffMap = .notText) (ho : d.base.mcPeakEffOverride = none) {x : K} (hx : 0 < x)
    (hp : 0 < v.fcPeak) :
    (v.setFcPeak x).fcPeak = x ∧ copyVehicle ⟨v.setFcPeak x, d.effType⟩ = .ok ⟨v, d.effType⟩ := by
  obtain ⟨p1, -, p3⟩ := C38_engine_peak v hx hp
  refine ⟨p1, ?_⟩
  rw [← C39_vehicle_copy hd h1 h2 h3 h4 ho, p3]
  unfold copyVehicle
  rfl

end Field

/-! ### Concrete cases -/

/-- The demo hybrid as a dictionary without arrays of its own. -/
def Demo.hevDict : VehDict ℚ := ⟨Demo.hevObj, .atkinson, .notText, .notText, .notText, .notText⟩

/-- It can be built, with the hypotheses of `C39_vehicle_copy`, and its peak is positive. -/
theorem C39_demo_copy :
    (match vehFromDict Demo.hevDict with
      | .ok v => decide (0 < v.fcPeak ∧ v.fcPeak = 40 / 100)
      | .error _ => false) = true ∧ Demo.hevDict.base.mcPeakEffOverride = none := by decide +kernel

/-- The same with a map of its own: the copy has another one and does not compare equal. -/
theorem C39_demo_map_lost :
    (match vehFromDict { Demo.hevDict with fcEffMap := .text (List.replicate 12 (1 / 4)) } with
      | .ok v => (match copyVehicle ⟨v, .atkinson⟩ with
        | .ok c => decide (v.fcPeak = 1 / 4 ∧ c.obj.fcPeak = 40 / 100 ∧
            vehEqual ⟨v, .atkinson⟩ c = .ok false ∧
            vehEqualFull ⟨v, .atkinson⟩ c = .ok ["fc_eff_map"])
        | .error _ => false)
      | .error _ => false) = true := by decide +kernel

/-- A map with more points than the default breakpoints: comparing the copy raises `ValueError`. -/
theorem C39_demo_compare_raises :
    (match vehFromDict { Demo.hevDict with
        fcEffMap := .text (List.replicate 3 (1 / 4)), fcPwrOutPerc := .text [0, 1 / 2, 1] } with
      | .ok v => (match copyVehicle ⟨v, .atkinson⟩ with
        | .ok c => decide (vehEqual ⟨v, .atkinson⟩ c = .error .valueError)
        | .error _ => false)
      | .error _ => false) = true := by decide +kernel

/-- With an override of the motor's peak even the plain vehicle is not copied exactly: the copy's motor
needs other input powers. `veh_equal` does not notice, as it compares no derived attribute. -/
theorem C39_demo_motor_override :
    (match vehFromDict { Demo.hevDict with
        base := { Demo.hevObj with mcPeakEffOverride := some (3 / 5) } } with
      | .ok v => (match copyVehicle ⟨v, .atkinson⟩ with
        | .ok c => decide (c.obj.mcFullEffArray = v.mcFullEffArray ∧
            c.obj.mcKwInArray ≠ v.mcKwInArray ∧ vehEqual ⟨v, .atkinson⟩ c = .ok true)
        | .error _ => false)
      | .error _ => false) = true := by decide +kernel

/-- `veh_equal` is not transitive: three vehicles whose engine maps differ by 3/4 of the tolerance from
one to the next. -/
theorem C39_demo_not_transitive :
    let v : Nat → VehRec ℚ := fun k =>
      ⟨{ Demo.hevObj with fcEffMap := [1 / 4 + 3 * k / 4000000] }, .si⟩
    vehEqual (v 0) (v 1) = .ok true ∧ vehEqual (v 1) (v 2) = .ok true ∧
      vehEqual (v 0) (v 2) = .ok false := by decide +kernel

/-- The overrides differ, and so do the masses of the vehicles built; `veh_equal` says equal, the full
report names the override. -/
theorem C39_demo_override :
    (match vehFromDict Demo.hevDict, vehFromDict { Demo.hevDict with
        base := { Demo.hevObj with vehOverrideKg := some 3000 } } with
      | .ok v, .ok w => decide (v.vehKg < 2000 ∧ w.vehKg = 3000 ∧
          vehEqual ⟨v, .atkinson⟩ ⟨w, .atkinson⟩ = .ok true ∧
          vehEqualFull ⟨v, .atkinson⟩ ⟨w, .atkinson⟩ = .ok ["veh_override_kg"])
      | _, _ => false) = true := by decide +kernel

end Fastsim.Props
