import Verif.Model.RsLabel
import Verif.Props.LabelPhev
import Verif.Props.RustVeh

/-!
# C102: the label of the Rust core is the python label
-/
set_option linter.unusedSectionVars false

namespace Fastsim.Spec

/-- The last two entries of a table of shares have the same share. -/
def FlatEnd {K : Type*} (tbl : List (K × K)) : Prop :=
  ∃ (l : List (K × K)) (a b y : K), tbl = l ++ [(a, y), (b, y)]

/-- Names of the figures of the Rust label in the python dictionary that every powertrain has. -/
def labelNames {K : Type*} (r : RsLabelFe K) : List (String × K) :=
  [("labUddsMpgge", r.labUddsMpgge), ("labHwyMpgge", r.labHwyMpgge), ("labCombMpgge", r.labCombMpgge),
    ("labUddsKwhPerMile", r.labUddsKwhPerMi), ("labHwyKwhPerMile", r.labHwyKwhPerMi),
    ("labCombKwhPerMile", r.labCombKwhPerMi), ("adjUddsMpgge", r.adjUddsMpgge), ("adjHwyMpgge", r.adjHwyMpgge),
    ("adjCombMpgge", r.adjCombMpgge), ("adjUddsKwhPerMile", r.adjUddsKwhPerMi), ("adjHwyKwhPerMile", r.adjHwyKwhPerMi),
    ("adjCombKwhPerMile", r.adjCombKwhPerMi), ("adjUddsEssKwhPerMile", r.adjUddsEssKwhPerMi),
    ("adjHwyEssKwhPerMile", r.adjHwyEssKwhPerMi), ("UF", r.uf), ("netAccel", r.netAccel)]

/-- The names that only vehicles with a plug have. -/
def plugNames {K : Type*} (r : RsLabelFe K) : List (String × K) :=
  [("adjCombEssKwhPerMile", r.adjCombEssKwhPerMi), ("netRangeMiles", r.netRangeMiles)]

/-- The dictionary and the struct say the same: every common figure, for vehicles with a plug the combined battery energy and
the range, for plug-in hybrids the figures of the two modes; the struct has zeros for what python leaves out. -/
def SameLabel {K : Type*} [Zero K] (pt : PtType) (d : PyDict (LabelVal K)) (r : RsLabelFe K) : Prop :=
  (∀ e ∈ labelNames r, Reads d e.1 e.2) ∧
  (pt = .bev ∨ pt = .phev → ∀ e ∈ plugNames r, Reads d e.1 e.2) ∧
  (pt = .conv ∨ pt = .hev → r.adjCombEssKwhPerMi = 0 ∧ r.netRangeMiles = 0) ∧
  (pt = .phev → ∃ cs cd m, r.adjCsCombMpgge = some cs ∧ r.adjCdCombMpgge = some cd ∧ r.netPhevCdMiles = some m ∧
    Reads d "adjCsCombMpgge" cs ∧ Reads d "adjCdCombMpgge" cd ∧ Reads d "netPhevCDMiles" m) ∧
  (pt ≠ .phev → r.adjCsCombMpgge = none ∧ r.adjCdCombMpgge = none ∧ r.netPhevCdMiles = none)

end Fastsim.Spec

namespace Fastsim.Spec

/-- Speeds (with times) that rise strictly until they reach 60 for the first time and do not stay at exactly 60. -/
def RisesTo60 {K : Type*} [NatCast K] [LT K] [LE K] (l : List (K × K)) : Prop :=
  ∃ (pre : List (K × K)) (q : K × K) (post : List (K × K)), l = pre ++ q :: post ∧ pre ≠ [] ∧
    (pre.map Prod.fst).Pairwise (· < ·) ∧ (∀ p ∈ pre, p.1 < ((60 : ℕ) : K)) ∧ ((60 : ℕ) : K) ≤ q.1 ∧
    (q.1 = ((60 : ℕ) : K) → ∀ r, post.head? = some r → ((60 : ℕ) : K) < r.1)

end Fastsim.Spec

namespace Fastsim.Props
open Fastsim Spec

/-! ### Utility factors -/

section Order
variable {K : Type*} [Zero K] [One K] [NatCast K] [Add K] [Sub K] [Mul K] [Div K] [Neg K] [LinearOrder K]

theorem holdFrom_idx (x : K) : ∀ (tbl : List (K × K)) (d : K),
    (d :: tbl.map Prod.snd)[(tbl.map Prod.fst).findIdx fun y => decide (x < y)]? = some (holdFrom x d tbl)
  | [], d => by simp [holdFrom]
  | p :: r, d => by
    rw [holdFrom, List.map_cons, List.map_cons, List.findIdx_cons]
    by_cases h : p.1 ≤ x
    · rw [if_pos h]
      have : decide (x < p.1) = false := by simpa using h
      rw [this]
      exact holdFrom_idx x r p.2
    · rw [if_neg h]
      have : decide (x < p.1) = true := by simpa using h
      rw [this]
      rfl

theorem rsUf_below {tbl : List (K × K)} {x : K} (h0 : ∀ p, tbl.head? = some p → p.1 ≤ x) (h1 : ∃ p ∈ tbl, x < p.1) :
    rsUf tbl x = .ok (holdFrom x 0 tbl) := by
  have hne : tbl ≠ [] := by rintro rfl; simp at h1
  obtain ⟨p, r, rfl⟩ := List.exists_cons_of_ne_nil hne
  have hp : p.1 ≤ x := h0 p rfl
  have hlt : ((p :: r).map Prod.fst).findIdx (fun y => decide (x < y)) < ((p :: r).map Prod.fst).length := by
    rw [List.findIdx_lt_length]
    obtain ⟨q, hq, hqx⟩ := h1
    exact ⟨q.1, List.mem_map_of_mem hq, by simpa using hqx⟩
  have hi := holdFrom_idx x (p :: r) 0
  have hs : ((p :: r).map Prod.fst).findIdx? (fun y => decide (x < y)) =
      some (((p :: r).map Prod.fst).findIdx (fun y => decide (x < y))) := by
    rw [List.findIdx?_eq_some_iff_findIdx_eq]; exact ⟨hlt, rfl⟩
  unfold rsUf rsLookup0 rsBefore0 rsFirstGrtr
  rw [if_neg (by simp), hs, Option.getD_some]
  have hd : decide (x < p.1) = false := by simpa using hp
  simp only [List.map_cons, List.findIdx_cons, hd, cond_false] at hi ⊢
  unfold rsIdx
  rw [List.getElem?_cons_succ] at hi
  rw [hi]

theorem rsUf_beyond {l : List (K × K)} {a b : K × K} {x : K} (h : ∀ p ∈ l ++ [a, b], p.1 ≤ x) :
    rsUf (l ++ [a, b]) x = .ok a.2 := by
  have hs : ((l ++ [a, b]).map Prod.fst).findIdx? (fun y => decide (x < y)) = none := by
    rw [List.findIdx?_eq_none_iff]
    intro y hy
    obtain ⟨p, hp, rfl⟩ := List.mem_map.1 hy
    simpa using h p hp
  unfold rsUf rsLookup0 rsBefore0 rsFirstGrtr
  rw [if_neg (by simp), hs, Option.getD_none]
  simp only [List.length_map, List.length_append, List.length_cons, List.length_nil]
  have e : l.length + (0 + 1 + 1) - 1 = l.length + 1 := by omega
  rw [e]
  simp [rsIdx]

end Order

section Field
variable {K : Type*} [Field K] [LinearOrder K] [IsStrictOrderedRing K] [FloorRing K]

theorem holdFrom_last {x : K} : ∀ {l : List (K × K)} {p : K × K} (d : K), (∀ q ∈ l ++ [p], q.1 ≤ x) → holdFrom x d (l ++ [p]) = p.2
  | [], p, d, h => by simp [holdFrom, h p (by simp)]
  | q :: l, p, d, h => by
    rw [List.cons_append, holdFrom, if_pos (h q (by simp))]
    exact holdFrom_last q.2 fun r hr => h r (List.mem_cons_of_mem _ hr)

/-- Inside a table that ends flat the Rust lookup is the python one. -/
theorem rsUf_eq {tbl : List (K × K)} (hf : FlatEnd tbl) {x : K} (hx : inTable x tbl = true) :
    rsUf tbl x = .ok (holdFrom x 0 tbl) := by
  by_cases h1 : ∃ p ∈ tbl, x < p.1
  · apply rsUf_below _ h1
    intro p hp
    unfold inTable at hx
    rw [hp] at hx
    split at hx
    · rename_i a b e1 e2
      cases e1
      simp only [Bool.and_eq_true, decide_eq_true_eq] at hx
      exact hx.1
    · cases hx
  · push Not at h1
    obtain ⟨l, a, b, y, rfl⟩ := hf
    rw [rsUf_beyond h1]
    have e : l ++ [(a, y), (b, y)] = (l ++ [(a, y)]) ++ [(b, y)] := by simp
    rw [e] at h1 ⊢
    rw [holdFrom_last 0 h1]

theorem rsUfs_eq {tbl : List (K × K)} (hf : FlatEnd tbl) : ∀ {xs : List K}, (∀ x ∈ xs, inTable x tbl = true) →
    rsMapM (rsUf tbl) xs = .ok (xs.map fun x => holdFrom x 0 tbl)
  | [], _ => rfl
  | x :: l, h => by
    rw [rsMapM, rsUf_eq hf (h x (by simp)), rsUfs_eq hf fun y hy => h y (by simp [hy])]
    rfl

theorem holdAll_rs {tbl : List (K × K)} (hf : FlatEnd tbl) {xs us : List K} (h : holdAll xs tbl = .ok us) :
    rsMapM (rsUf tbl) xs = .ok us := by
  unfold holdAll at h
  split at h
  · rename_i ha
    rw [← Except.ok.inj h]
    exact rsUfs_eq hf (by simpa using ha)
  · cases h

theorem ufAt_rs {tbl : List (K × K)} (hf : FlatEnd tbl) {x u : K} (h : ufAt tbl x = .ok u) : rsUf tbl x = .ok u := by
  unfold ufAt at h
  split at h
  · rename_i ha
    rw [← Except.ok.inj h]
    exact rsUf_eq hf ha
  · cases h

/-- **C102 (utility factors).** On a table of shares both programs take the share of the last entry that is not beyond the
mileage, up to the end of the table. At and beyond the end the Rust core takes the last entry but one, at any mileage;
python takes the last entry at the end and fails beyond. A negative mileage fails in both. -/
theorem C102_share {l : List (K × K)} {a b : K × K} {L : K} (ht : ShareTable (l ++ [a, b]) L) (x : K) :
    (0 ≤ x → x < L → rsUf (l ++ [a, b]) x = .ok (shareAt (l ++ [a, b]) x) ∧
      ufAt (l ++ [a, b]) x = .ok (shareAt (l ++ [a, b]) x)) ∧
    (L ≤ x → rsUf (l ++ [a, b]) x = .ok a.2) ∧
    (x = L → ufAt (l ++ [a, b]) x = .ok b.2) ∧
    (L < x → ufAt (l ++ [a, b]) x = .error .valueError) ∧
    (x < 0 → rsUf (l ++ [a, b]) x = .error .panic ∧ ufAt (l ++ [a, b]) x = .error .valueError) := by
  have hb : b.1 = L := by
    have := ht.last
    rw [List.getLast?_append_cons] at this
    simpa using this
  have hle : ∀ p ∈ l ++ [a, b], p.1 ≤ L := by
    intro p hp
    have hs := ht.strict
    have e : l ++ [a, b] = (l ++ [a]) ++ [b] := by simp
    rw [e] at hp hs
    rcases List.mem_append.1 hp with hp | hp
    · rw [← hb]; exact ((List.pairwise_append.1 hs).2.2 p hp b (by simp)).le
    · rw [List.mem_singleton.1 hp, hb]
  have h0 : ∀ p, (l ++ [a, b]).head? = some p → p.1 = 0 := by
    intro p hp; rw [ht.first] at hp; rw [← Option.some.inj hp]
  have hL0 : 0 ≤ L := by
    have := hle (0, 0) (List.mem_of_mem_head? (by rw [ht.first]; rfl))
    exact this
  refine ⟨fun hx hl => ⟨?_, ufAt_share ht hx hl.le⟩, fun hl => ?_, ?_, fun hl => ?_, fun hx => ⟨?_, ?_⟩⟩
  · rw [rsUf_below (fun p hp => by rw [h0 p hp]; exact hx) ⟨b, by simp, by rw [hb]; exact hl⟩,
      holdFrom_eq x _ _ ht.strict.sorted]
    rfl
  · exact rsUf_beyond fun p hp => (hle p hp).trans hl
  · rintro rfl
    have e : l ++ [a, b] = (l ++ [a]) ++ [b] := by simp
    unfold ufAt
    rw [if_pos ((inTable_share ht).2 ⟨hL0, le_refl _⟩)]
    rw [e] at hle ⊢
    rw [holdFrom_last 0 hle]
  · unfold ufAt
    rw [if_neg]
    intro h
    exact absurd ((inTable_share ht).1 h).2 (not_le.2 hl)
  · unfold rsUf rsLookup0 rsBefore0 rsFirstGrtr
    rw [if_neg (by simp)]
    have hf := ht.first
    cases hc : l ++ [a, b] with
    | nil => simp at hc
    | cons p r =>
      rw [hc] at hf
      have : p = (0, 0) := by simpa using hf
      rw [this, List.map_cons, List.findIdx?_cons]
      simp [hx]
  · unfold ufAt
    rw [if_neg]
    intro h
    exact absurd ((inTable_share ht).1 h).1 (not_le.2 hx)

/-! ### Arrays -/

theorem fromEnd_rs {D : List K} {k : Nat} {x : K} (hk : 1 ≤ k) (h : fromEnd D k = .ok x) :
    rsFromEnd D k = .ok x ∧ rsFromEnd (0 :: D) k = .ok x := by
  unfold fromEnd pyGet? at h
  rw [if_neg (by omega)] at h
  by_cases hl : -(D.length : Int) ≤ -(k : Int)
  · rw [if_pos hl] at h
    have hl' : k ≤ D.length := by omega
    have e : ((D.length : Int) + -(k : Int)).toNat = D.length - k := by omega
    rw [e] at h
    unfold rsFromEnd rsIdx
    rw [if_neg (by omega), if_neg (by simp; omega)]
    have e2 : (0 :: D).length - k = (D.length - k) + 1 := by simp; omega
    rw [e2, List.getElem?_cons_succ]
    cases hd : D[D.length - k]? with
    | none => rw [hd] at h; cases h
    | some y => rw [hd] at h; simp only [Except.ok.injEq] at h; subst h; exact ⟨rfl, rfl⟩
  · rw [if_neg hl] at h; cases h

theorem rsDiff_eq {l : List K} (h : l ≠ []) : rsDiff l = .ok (0 :: diff l) := by
  obtain ⟨x, r, rfl⟩ := List.exists_cons_of_ne_nil h; rfl

theorem rsLabelMax_eq {l : List K} (h : l ≠ []) : rsLabelMax l = .ok (maxOf l) := by
  obtain ⟨x, r, rfl⟩ := List.exists_cons_of_ne_nil h; rfl

theorem npMul_rs {a b c : List K} (h : npMul a b = .ok c) : rsMulArr a b = .ok c := by
  unfold npMul at h
  unfold rsMulArr
  by_cases hl : a.length = b.length
  · rw [if_pos hl] at h ⊢; exact congrArg _ (Except.ok.inj h)
  · rw [if_neg hl] at h ⊢
    rcases a with _ | ⟨x, _ | ⟨x', a⟩⟩ <;> rcases b with _ | ⟨y, _ | ⟨y', b⟩⟩ <;> simp_all

theorem npMul_or {a b : List K} {c : List K} (h : rsMulArr a b = .ok c) : npMul a b = .ok c := by
  unfold rsMulArr at h
  unfold npMul
  by_cases hl : a.length = b.length
  · rw [if_pos hl] at h ⊢; exact congrArg _ (Except.ok.inj h)
  · rw [if_neg hl] at h ⊢
    rcases a with _ | ⟨x, _ | ⟨x', a⟩⟩ <;> rcases b with _ | ⟨y, _ | ⟨y', b⟩⟩ <;> simp_all

theorem cdMiles_rs (A : List K) (e t d : K) (n : Nat) : ∀ (k c : Nat) (prev : K), (∀ j, c = j + 1 → prev = rsCdMilesAt A e t d n j) →
    cdMilesLoop A e t d n k c prev = (List.range' c k).map (rsCdMilesAt A e t d n)
  | 0, _, _, _ => rfl
  | k + 1, c, prev, h => by
    rw [cdMilesLoop, List.range'_succ, List.map_cons]
    have hx : (if c = 0 then 0 else if c ≤ n then prev + e * d / A.getD c 0
        else if c = n + 1 then prev + t * d / A.getD c 0 else 0) = rsCdMilesAt A e t d n c := by
      cases c with
      | zero => rfl
      | succ j => rw [if_neg (Nat.succ_ne_zero j), rsCdMilesAt, h j rfl]
    simp only [hx]
    rw [cdMiles_rs A e t d n k (c + 1)]
    intro j hj
    have : c = j := by omega
    rw [this]

theorem rsRem_eq {q : K} {n : Int} (hn : 0 < n) (hq : (n : K) ≤ q) : rsRem q (n : K) = q - (n : K) * (⌊q / (n : K)⌋ : K) := by
  unfold rsRem
  have h : (0 : K) < n := by exact_mod_cast hn
  rw [if_pos (div_nonneg (h.le.trans hq) h.le)]

theorem rsSum_npSum (l : List K) : rsSum l = npSum l := rfl

/-! ### One cycle of a plug-in hybrid -/

theorem rsAdjIterKwh_eq (c : LabelConst K) (i s x : K) : rsAdjIterKwh c i s x = adjIterKwh c i s x := rfl

theorem rsAdjIterMpg_eq (c : LabelConst K) (i s d f : K) : rsAdjIterMpg c i s d f = adjIterMpg c i s d f := rfl

/-- **C102 (a cycle of a plug-in hybrid).** If python gets figures for a cycle, the Rust core gets the same figures from the same
runs. -/
theorem C102_cycle {c : LabelConst K} {tbl : List (K × K)} (hf : FlatEnd tbl) {veh : LabelVeh K} {i s buffer : K} {cd : LabelRun K}
    {run : K → Except PyErr (LabelRun K)} {rrun : K → Except RsErr (LabelRun K)}
    (hrun : ∀ soc x, run soc = .ok x → rrun soc = .ok x) (hcd : run veh.maxSoc = .ok cd) {r : PhevCalc K}
    (h : phevCalc c tbl veh i s buffer cd run = .ok r) : rsPhevCalc c tbl veh i s buffer rrun = .ok r := by
  unfold phevCalc at h
  unfold rsPhevCalc
  rw [hrun _ _ hcd]
  simp only [bind, Except.bind] at h ⊢
  set q := (veh.maxSoc - veh.minSoc) * veh.essMaxKwh / cd.kwhPerMi / cd.distMi with hq
  by_cases hn0 : ⌊q⌋ = 0
  · rw [if_pos hn0] at h; cases h
  rw [if_neg hn0] at h ⊢
  split at h
  · cases h
  rename_i labIterUf hlab
  split at h
  · cases h
  rename_i tr htr
  split at h
  · cases h
  rename_i cs hcs
  split at h
  · cases h
  rename_i dLast hdl
  split at h
  · cases h
  rename_i labUf huf
  split at h
  · cases h
  rename_i mid hmid
  by_cases hneg : ⌊q⌋ < 0
  · rw [if_pos hneg] at h; cases h
  rw [if_neg hneg] at h
  split at h
  · cases h
  rename_i adjUfs hufs
  split at h
  · cases h
  rename_i dTrans hdt
  split at h
  · cases h
  rename_i uTrans hut
  split at h
  · cases h
  rename_i ufKwh hkw
  split at h
  · cases h
  rename_i adjUf hauf
  have hn : 0 < ⌊q⌋ := by omega
  have hm : 0 ≤ ⌈q⌉ := (Int.floor_le_ceil q).trans' hn.le
  have hfr : rsRem q (⌊q⌋ : K) = q - (⌊q⌋ : K) * (⌊q / (⌊q⌋ : K)⌋ : K) := rsRem_eq hn (Int.floor_le q)
  have hm' : ¬ ⌈q⌉ + 1 < 0 := by omega
  have hne : labIterUf ≠ [] := by
    rintro rfl
    simp [fromEnd, pyGet?, diff] at hdl
  have hne2 : adjUfs ≠ [] := by
    rintro rfl
    simp [fromEnd, pyGet?, diff] at hdt
  have hmid' : ∀ (k : ℕ) (x y : K), (List.drop 1 (0 :: List.replicate k x ++ [y] ++ [0])).take
      ((0 :: List.replicate k x ++ [y] ++ [(0 : K)]).length - 2) = List.replicate k x ++ [y] := by
    intro k x y
    show ((List.replicate k x ++ [y]) ++ [0]).take _ = _
    exact List.take_left' (by simp)
  have hadj : ∀ (k : ℕ) (x y : K), (0 :: List.replicate k x ++ [y] ++ [0]).map (rsAdjIterKwh c i s) =
      (0 :: (List.replicate k x ++ [y]) ++ [0]).map (adjIterKwh c i s) := fun k x y => rfl
  have hmiles : ∀ (A : List K) (e t d : K), cdMilesLoop A e t d ⌊q⌋.toNat (⌈q⌉.toNat + 2) 0 0 =
      (List.range (⌈q⌉.toNat + 2)).map (rsCdMilesAt A e t d ⌊q⌋.toNat) := by
    intro A e t d
    rw [cdMiles_rs A e t d _ _ 0 0 (by intro j hj; omega), List.range_eq_range']
  simp only [hmiles] at hufs hauf h
  have hne3 : ∀ (g : ℕ → K), (List.range (⌈q⌉.toNat + 2)).map g ≠ [] := by
    intro g; simp
  simp only [if_neg hm', hfr, holdAll_rs hf hlab, hrun _ _ htr, hrun _ _ hcs, rsDiff_eq hne, (fromEnd_rs (le_refl 1) hdl).2,
    ufAt_rs hf huf, rsLabelMax_eq hne, hmid', List.drop_succ_cons, List.drop_zero, npMul_rs hmid, hadj, rsLabelMax_eq (hne3 _)]
  simp only [holdAll_rs hf hufs, rsDiff_eq hne2, (fromEnd_rs (by norm_num) hdt).2, (fromEnd_rs (by norm_num) hut).1,
    npMul_rs hkw, rsLabelMax_eq hne2, ufAt_rs hf hauf, rsAdjIterMpg_eq, rsSum_npSum]
  exact congrArg _ (Except.ok.inj h)

theorem rsMapM_length {A B : Type*} {f : A → Except RsErr B} : ∀ {l : List A} {us : List B}, rsMapM f l = .ok us → us.length = l.length
  | [], us, h => by rw [rsMapM] at h; rw [← Except.ok.inj h]; rfl
  | a :: l, us, h => by
    rw [rsMapM] at h
    split at h
    · cases h
    split at h
    · cases h
    · rename_i bs hbs
      rw [← Except.ok.inj h, List.length_cons, List.length_cons, rsMapM_length hbs]

theorem holdAll_or {tbl : List (K × K)} (hf : FlatEnd tbl) {xs us : List K} (h : rsMapM (rsUf tbl) xs = .ok us) :
    holdAll xs tbl = .ok us ∨ holdAll xs tbl = .error .valueError := by
  by_cases ha : xs.all (fun t => inTable t tbl) = true
  · left
    have : holdAll xs tbl = .ok (xs.map fun t => holdFrom t 0 tbl) := by unfold holdAll; rw [if_pos ha]
    rw [holdAll_rs hf this] at h
    rw [this, Except.ok.inj h]
  · right; unfold holdAll; rw [if_neg ha]

theorem ufAt_or {tbl : List (K × K)} (hf : FlatEnd tbl) {x u : K} (h : rsUf tbl x = .ok u) :
    ufAt tbl x = .ok u ∨ ufAt tbl x = .error .valueError := by
  by_cases ha : inTable x tbl = true
  · left
    have : ufAt tbl x = .ok (holdFrom x 0 tbl) := by unfold ufAt; rw [if_pos ha]
    rw [ufAt_rs hf this] at h
    rw [this, Except.ok.inj h]
  · right; unfold ufAt; rw [if_neg ha]

theorem fromEnd_back {D : List K} {k : Nat} {x : K} (hk : 1 ≤ k) (hl : k ≤ D.length)
    (h : rsFromEnd D k = .ok x ∨ rsFromEnd (0 :: D) k = .ok x) : fromEnd D k = .ok x := by
  have hex : ∃ y, fromEnd D k = .ok y := by
    unfold fromEnd pyGet?
    rw [if_neg (by omega), if_pos (by omega)]
    have e : ((D.length : Int) + -(k : Int)).toNat = D.length - k := by omega
    rw [e, List.getElem?_eq_getElem (by omega)]
    exact ⟨_, rfl⟩
  obtain ⟨y, hy⟩ := hex
  obtain ⟨h1, h2⟩ := fromEnd_rs hk hy
  rcases h with h | h
  · rw [h1] at h; rw [hy, Except.ok.inj h]
  · rw [h2] at h; rw [hy, Except.ok.inj h]

theorem labelDiff_length : ∀ l : List K, (diff l).length = l.length - 1
  | [] => rfl
  | [_] => rfl
  | a :: b :: l => by rw [diff, List.length_cons, labelDiff_length (b :: l)]; simp

/-- **C102 (no other figures).** If the Rust core gets figures for a cycle, python gets the same figures from the same runs or
raises `ValueError`. -/
theorem C102_cycle_back {c : LabelConst K} {tbl : List (K × K)} (hf : FlatEnd tbl) {veh : LabelVeh K} {i s buffer : K} {cd : LabelRun K}
    {run : K → Except PyErr (LabelRun K)} {rrun : K → Except RsErr (LabelRun K)}
    (hrun : ∀ soc x, rrun soc = .ok x → run soc = .ok x) (hcd : rrun veh.maxSoc = .ok cd) {r : PhevCalc K}
    (h : rsPhevCalc c tbl veh i s buffer rrun = .ok r) :
    phevCalc c tbl veh i s buffer cd run = .ok r ∨ phevCalc c tbl veh i s buffer cd run = .error .valueError := by
  unfold rsPhevCalc at h
  unfold phevCalc
  rw [hcd] at h
  simp only [bind, Except.bind] at h ⊢
  set q := (veh.maxSoc - veh.minSoc) * veh.essMaxKwh / cd.kwhPerMi / cd.distMi with hq
  by_cases hn0 : ⌊q⌋ = 0
  · rw [if_pos hn0] at h; cases h
  rw [if_neg hn0] at h ⊢
  by_cases hm' : ⌈q⌉ + 1 < 0
  · rw [if_pos hm'] at h; cases h
  rw [if_neg hm'] at h
  split at h
  · cases h
  rename_i labIterUf hlab
  split at h
  · cases h
  rename_i tr htr
  split at h
  · cases h
  rename_i cs hcs
  split at h
  · cases h
  rename_i labDiff hldiff
  split at h
  · cases h
  rename_i dLast hdl
  split at h
  · cases h
  rename_i labUf huf
  split at h
  · cases h
  rename_i labMax hlmax
  split at h
  · cases h
  rename_i mid hmid
  split at h
  · cases h
  rename_i most hmost
  split at h
  · cases h
  rename_i adjUfs hufs
  split at h
  · cases h
  rename_i adjDiff hadiff
  split at h
  · cases h
  rename_i dTrans hdt
  split at h
  · cases h
  rename_i uTrans hut
  split at h
  · cases h
  rename_i ufKwh hkw
  split at h
  · cases h
  rename_i adjMax hamax
  split at h
  · cases h
  rename_i adjUf hauf
  have l1 := rsMapM_length hlab
  have l2 := rsMapM_length hufs
  rw [List.length_map, List.length_range] at l1 l2
  have hne : labIterUf ≠ [] := by
    rintro rfl
    cases hldiff
  have hne2 : adjUfs ≠ [] := by
    rintro rfl
    cases hadiff
  rw [rsDiff_eq hne] at hldiff
  rw [rsDiff_eq hne2] at hadiff
  rw [rsLabelMax_eq hne] at hlmax
  rw [rsLabelMax_eq hne2] at hamax
  cases hldiff; cases hadiff; cases hlmax; cases hamax
  have hml : ∀ {a b d : List K}, rsMulArr a b = .ok d → a.length = b.length ∨ a.length = 1 ∨ b.length = 1 := by
    intro a b d hd
    by_contra hc
    push Not at hc
    unfold rsMulArr at hd
    rw [if_neg hc.1] at hd
    rcases a with _ | ⟨x, _ | ⟨x', a⟩⟩ <;> rcases b with _ | ⟨y, _ | ⟨y', b⟩⟩ <;> simp_all
  have hn : 0 < ⌊q⌋ := by
    by_contra hc
    have hm1 : ⌈q⌉ ≤ 0 := by
      have h1 : ⌊q⌋ ≤ -1 := by omega
      have h2 : ⌈q⌉ ≤ ⌊q⌋ + 1 := Int.ceil_le_floor_add_one q
      omega
    have l3 := List.length_pos_iff.2 hne
    have := hml hkw
    simp only [List.length_map, List.length_cons, List.length_append, List.length_replicate, List.length_nil, labelDiff_length] at this
    omega
  have hm : 1 ≤ ⌈q⌉ := by
    have := Int.floor_le_ceil q
    omega
  have hfr : rsRem q (⌊q⌋ : K) = q - (⌊q⌋ : K) * (⌊q / (⌊q⌋ : K)⌋ : K) := rsRem_eq hn (Int.floor_le q)
  have hmid' : ∀ (k : ℕ) (x y : K), (List.drop 1 (0 :: List.replicate k x ++ [y] ++ [0])).take
      ((0 :: List.replicate k x ++ [y] ++ [(0 : K)]).length - 2) = List.replicate k x ++ [y] := by
    intro k x y
    show ((List.replicate k x ++ [y]) ++ [0]).take _ = _
    exact List.take_left' (by simp)
  have hadj : ∀ (k : ℕ) (x y : K), (0 :: List.replicate k x ++ [y] ++ [0]).map (rsAdjIterKwh c i s) =
      (0 :: (List.replicate k x ++ [y]) ++ [0]).map (adjIterKwh c i s) := fun k x y => rfl
  have hmiles : ∀ (A : List K) (e t d : K), cdMilesLoop A e t d ⌊q⌋.toNat (⌈q⌉.toNat + 2) 0 0 =
      (List.range (⌈q⌉.toNat + 2)).map (rsCdMilesAt A e t d ⌊q⌋.toNat) := by
    intro A e t d
    rw [cdMiles_rs A e t d _ _ 0 0 (by intro j hj; omega), List.range_eq_range']
  have hne3 : ∀ (g : ℕ → K), (List.range (⌈q⌉.toNat + 2)).map g ≠ [] := by
    intro g; simp
  simp only [hfr, hmid', hadj, List.drop_succ_cons, List.drop_zero] at hmid hmost hufs hkw hauf h
  rw [rsLabelMax_eq (hne3 _)] at hmost
  cases hmost
  rcases holdAll_or hf hlab with e | e <;> simp only [e]
  · simp only [hrun _ _ htr, hrun _ _ hcs, fromEnd_back (le_refl 1) (by rw [labelDiff_length]; omega) (Or.inr hdl)]
    rcases ufAt_or hf huf with e | e <;> simp only [e]
    · simp only [npMul_or hmid, if_neg (not_lt.2 hn.le), hmiles]
      rcases holdAll_or hf hufs with e | e <;> simp only [e]
      · simp only [fromEnd_back (k := 2) (by norm_num) (by rw [labelDiff_length]; omega) (Or.inr hdt),
          fromEnd_back (k := 2) (by norm_num) (by omega) (Or.inl hut), npMul_or hkw]
        rcases ufAt_or hf hauf with e | e <;> simp only [e]
        · left
          exact congrArg _ (Except.ok.inj h)
        · right; trivial
      · right; trivial
    · right; trivial
  · right; trivial

/-! ### Time to 60 mph -/

theorem rsKept_above : ∀ (l : List (K × K)) (a : K), ∀ p ∈ rsKept a l, a < p.1
  | [], _, p, h => by simp [rsKept] at h
  | q :: l, a, p, h => by
    rw [rsKept] at h
    split at h
    · rename_i hq
      rcases List.mem_cons.1 h with rfl | h
      · exact hq
      · exact hq.trans (rsKept_above l q.1 p h)
    · exact rsKept_above l a p h

theorem rsKept_rises : ∀ (l : List (K × K)) (a : K), StrictX (rsKept a l)
  | [], _ => List.Pairwise.nil
  | q :: l, a => by
    rw [rsKept]
    split
    · exact List.pairwise_cons.2 ⟨fun p hp => rsKept_above l q.1 p hp, rsKept_rises l q.1⟩
    · exact rsKept_rises l a

/-- The Rust interpolation is `np.interp` on the samples that are above all before them. -/
theorem rsInterpolate_kept {xs ys : List K} (hl : xs.length = ys.length) {p : K × K} {l : List (K × K)} (hz : xs.zip ys = p :: l)
    (h2 : rsKept p.1 l ≠ []) (x : K) : rsInterpolate x xs ys = .ok (interp x (p :: rsKept p.1 l)) := by
  have hs : StrictX (p :: rsKept p.1 l) :=
    List.pairwise_cons.2 ⟨fun q hq => rsKept_above l p.1 q hq, rsKept_rises l p.1⟩
  have hlen : 2 ≤ (p :: rsKept p.1 l).length := by
    have := List.length_pos_iff.2 h2
    simp; omega
  have e := rsInterpolate_eq (xs := (p :: rsKept p.1 l).map Prod.fst) (ys := (p :: rsKept p.1 l).map Prod.snd)
    (List.pairwise_map.2 hs) (by simpa using hlen) (by simp) x
  have hzip : ((p :: rsKept p.1 l).map Prod.fst).zip ((p :: rsKept p.1 l).map Prod.snd) = p :: rsKept p.1 l := by
    rw [List.zip_map']; simp
  rw [hzip] at e
  rw [← e]
  unfold rsInterpolate
  rw [hzip, hz]
  simp only [hl, ne_eq, not_true_eq_false, if_false, List.length_map, rsKept_strict hs]

theorem interp_line {v : K} {p q : K × K} {post : List (K × K)} (hp : p.1 < v) (hq : v ≤ q.1)
    (hh : q.1 = v → ∀ r, post.head? = some r → v < r.1) : ∀ (pre : List (K × K)), (∀ a ∈ pre, a.1 < v) →
    interp v (pre ++ p :: q :: post) = (q.2 - p.2) / (q.1 - p.1) * (v - p.1) + p.2
  | [], _ => by
    rw [List.nil_append, interp]
    by_cases h : v < q.1
    · rw [if_pos h, if_neg (not_le.2 hp)]
    · rw [if_neg h]
      have e : q.1 = v := le_antisymm (not_lt.1 h) hq
      have hv : q.1 - p.1 ≠ 0 := by rw [e]; exact (sub_pos.2 hp).ne'
      rw [← e, div_mul_cancel₀ _ hv, sub_add_cancel]
      cases post with
      | nil => rfl
      | cons r post =>
        rw [interp, if_pos (by rw [e]; exact hh e r rfl), if_pos (le_refl _)]
  | [a], _ => by
    rw [List.cons_append, List.nil_append, interp, if_neg (not_lt.2 hp.le)]
    exact interp_line hp hq hh [] (by simp)
  | a :: b :: pre, h => by
    rw [List.cons_append, List.cons_append, interp, if_neg (not_lt.2 (h b (by simp)).le)]
    exact interp_line hp hq hh (b :: pre) fun x hx => h x (List.mem_cons_of_mem _ hx)

theorem rsKept_prefix {q : K × K} {post : List (K × K)} : ∀ (pre : List (K × K)) (a : K), (∀ p ∈ pre, a < p.1) → StrictX pre →
    (∀ p ∈ pre, p.1 < q.1) → a < q.1 → rsKept a (pre ++ q :: post) = pre ++ q :: rsKept q.1 post
  | [], a, _, _, _, h => by rw [List.nil_append, rsKept, if_pos h]; rfl
  | p :: pre, a, h1, h2, h3, _ => by
    obtain ⟨h4, h5⟩ := List.pairwise_cons.1 h2
    rw [List.cons_append, rsKept, if_pos (h1 p (by simp)),
      rsKept_prefix pre p.1 h4 h5 (fun r hr => h3 r (by simp [hr])) (h3 p (by simp))]
    rfl

/-- **C102 (time to 60 mph).** For speeds that rise strictly to 60 mph, or never get there, both programs find the same
time. -/
theorem C102_accel {mph times : List K} (hl : mph.length = times.length)
    (h : RisesTo60 (mph.zip times) ∨ ∀ x ∈ mph, x < ((60 : ℕ) : K)) :
    rsNetAccel mph times = .ok (netAccel (mph.zip times)) := by
  have hany : (mph.zip times).any (fun p => decide (((60 : ℕ) : K) ≤ p.1)) = mph.any (fun x => decide (((60 : ℕ) : K) ≤ x)) := by
    have e : mph = (mph.zip times).map Prod.fst := by rw [List.map_fst_zip hl.le]
    conv_rhs => rw [e]
    rw [List.any_map]
    rfl
  unfold rsNetAccel netAccel
  rw [hany]
  by_cases ha : mph.any (fun x => decide (((60 : ℕ) : K) ≤ x)) = true
  · rw [if_pos ha, if_pos ha]
    rcases h with h | h
    · obtain ⟨pre, q, post, hz, hne, hs, hb, hq, hh⟩ := h
      obtain ⟨pre', p, rfl⟩ : ∃ pre' p, pre = pre' ++ [p] := ⟨pre.dropLast, pre.getLast hne, (List.dropLast_append_getLast hne).symm⟩
      have hp : p.1 < ((60 : ℕ) : K) := hb p (by simp)
      have hb' : ∀ a ∈ pre', a.1 < ((60 : ℕ) : K) := fun a ha => hb a (by simp [ha])
      obtain ⟨a, r, har⟩ : ∃ a r, pre' ++ [p] = a :: r := List.exists_cons_of_ne_nil (by simp)
      have hz' : mph.zip times = a :: (r ++ q :: post) := by rw [hz, har]; rfl
      have hs' : StrictX (a :: r) := by rw [← har]; exact List.pairwise_map.1 hs
      have hlt : ∀ x ∈ a :: r, x.1 < q.1 := fun x hx => lt_of_lt_of_le (hb x (by rw [har]; exact hx)) hq
      have hk : rsKept a.1 (r ++ q :: post) = r ++ q :: rsKept q.1 post :=
        rsKept_prefix r a.1 (List.pairwise_cons.1 hs').1 (List.pairwise_cons.1 hs').2 (fun x hx => hlt x (by simp [hx]))
          (hlt a (by simp))
      rw [rsInterpolate_kept hl hz' (by rw [hk]; simp), hk]
      have e1 : a :: (r ++ q :: rsKept q.1 post) = pre' ++ p :: q :: rsKept q.1 post := by
        rw [← List.cons_append, ← har]; simp
      have e2 : mph.zip times = pre' ++ p :: q :: post := by rw [hz]; simp
      rw [e1, e2, interp_line hp hq _ pre' hb', interp_line hp hq hh pre' hb']
      intro e x hx
      rw [← e]
      exact rsKept_above post q.1 x (List.mem_of_mem_head? hx)
    · exfalso
      rw [List.any_eq_true] at ha
      obtain ⟨x, hx, hx'⟩ := ha
      exact absurd (h x hx) (not_lt.2 (by simpa using hx'))
  · rw [if_neg ha, if_neg ha]

/-! ### The label -/

theorem rsAdjParams_eq (y : Int) : (rsAdjParams y : AdjCoef K) = adjParams y := rfl

theorem rsRegenBuffer_eq (veh : LabelVeh K) : rsRegenBuffer veh = regenSocBuffer veh := rfl

/-- The coefficients, the constants and the table of the two programs are the same. -/
theorem C102_constants : (∀ y, (rsAdjParams y : AdjCoef K) = adjParams y) ∧ (rsLabelConst : LabelConst K) = labelConst ∧
    FlatEnd (ufTable : List (K × K)) := by
  refine ⟨rsAdjParams_eq, rfl, ufRaw.dropLast.dropLast.map (fun p => ((p.1 : K), (p.2 : K) / ((10 ^ 18 : ℕ) : K))),
    ((1199 : ℕ) : K), ((1201 : ℕ) : K), ((10 ^ 18 : ℕ) : K) / ((10 ^ 18 : ℕ) : K), ?_⟩
  have h : ufRaw = ufRaw.dropLast.dropLast ++ [(1199, 10 ^ 18), (1201, 10 ^ 18)] := by decide +kernel
  unfold ufTable
  conv_lhs => rw [h]
  rw [List.map_append]
  rfl

theorem rsHarm_eq {u h : K} (hu : u ≠ 0) (hh : h ≠ 0) : rsHarm u h = combMpg u h := by
  unfold rsHarm; rw [if_neg (by tauto)]; rfl

theorem rsAdjMpg_eq {i s x : K} (hx : x ≠ 0) : rsAdjMpg i s x = adjMpg i s x := by
  unfold rsAdjMpg; rw [if_neg hx]; rfl

/-- The worse of the deviations from the two traces. -/
theorem rsWorse_eq (a b : K) : rsWorse (rsWorse 0 a) b = max 0 (max a b) := by
  have h : ∀ x y : K, rsWorse x y = max x y := by
    intro x y
    unfold rsWorse
    split
    · rename_i h; rw [max_eq_right h.le]
    · rename_i h; rw [max_eq_left (not_lt.1 h)]
  rw [h, h, max_assoc]

/-- **C102 (label).** Given the same simulations, a label that python computes is the label of the Rust core: every figure that
both report is the same. Besides, the Rust core reports the larger deviation from the two traces in mph. -/
theorem C102_label {c : LabelConst K} {tbl : List (K × K)} (hf : FlatEnd tbl) {veh : LabelVeh K}
    {sim : LabelCyc → Option K → Except PyErr (LabelRun K)} {rsim : LabelCyc → Option K → Except RsErr (RsLabelRun K)}
    (hsim : ∀ k init x, sim k init = .ok x → ∃ m, rsim k init = .ok ⟨x, m⟩)
    (hpos : ∀ k x, sim k none = .ok x → 0 ≤ x.mpgge) {mph times : List K} (hl : mph.length = times.length)
    (hacc : RisesTo60 (mph.zip times) ∨ ∀ x ∈ mph, x < ((60 : ℕ) : K)) {d : PyDict (LabelVal K)}
    (h : getLabelFe c tbl veh sim (.ok (mph.zip times)) = .ok d) :
    ∃ r u w, rsGetLabelFe c tbl veh rsim (.ok (mph, times)) = .ok r ∧ SameLabel veh.ptType d r ∧
      rsim .udds none = .ok u ∧ rsim .hwy none = .ok w ∧
      r.traceMissSpeedMph = max 0 (max (u.missMps * mphPerMps) (w.missMps * mphPerMps)) := by
  have h' := h
  unfold getLabelFe at h
  obtain ⟨u, hu, h⟩ := bind_ok' h
  obtain ⟨w, hw, h⟩ := bind_ok' h
  obtain ⟨d', hd, h⟩ := bind_ok' h
  obtain ⟨mu, ru⟩ := hsim _ _ _ hu
  obtain ⟨mw, rw'⟩ := hsim _ _ _ hw
  have hacc' := C102_accel hl hacc
  unfold rsGetLabelFe
  simp only [ru, rw', bind, Except.bind, hacc', rsAdjParams_eq, rsRegenBuffer_eq]
  unfold labelBody at hd
  by_cases hp : veh.ptType = .phev
  · rw [if_pos hp] at hd
    unfold labelPhev at hd
    obtain ⟨cdU, hcdU, hd⟩ := bind_ok' hd
    obtain ⟨cdH, hcdH, hd⟩ := bind_ok' hd
    obtain ⟨pu, hpu, hd⟩ := bind_ok' hd
    obtain ⟨ph, hph, hd⟩ := bind_ok' hd
    unfold phevOut at hd
    obtain ⟨uf, huf, hd⟩ := bind_ok' hd
    have key : ∀ k soc x, sim k (some soc) = .ok x → (rsim k (some soc)).map RsLabelRun.run = .ok x := by
      intro k soc x hx
      obtain ⟨m, hm⟩ := hsim _ _ _ hx
      rw [hm]; rfl
    have cu := C102_cycle hf (rrun := fun s => (rsim .udds (some s)).map RsLabelRun.run) (fun soc x => key .udds soc x) hcdU hpu
    have ch := C102_cycle hf (rrun := fun s => (rsim .hwy (some s)).map RsLabelRun.run) (fun soc x => key .hwy soc x) hcdH hph
    rw [phev_out hp hu hw hcdU hcdH hpu hph huf] at h'
    have hd' := Except.ok.inj h'
    have uf' : rsUf tbl (rs55 * pu.adjCdMiles + rs45 * ph.adjCdMiles) = .ok uf := ufAt_rs hf huf
    simp only [hp, ne_eq, not_true_eq_false, if_false, cu, ch, rsPhevOut, uf', bind, Except.bind]
    refine ⟨_, _, _, rfl, ⟨?_, ?_, ?_, ?_, ?_⟩, rfl, rfl, ?_⟩
    · rw [← hd']
      simp only [labelNames, List.forall_mem_cons, Reads]
      refine ⟨rfl, rfl, rfl, rfl, rfl, rfl, rfl, rfl, rfl, rfl, rfl, rfl, rfl, rfl, rfl, rfl, by simp⟩
    · rw [← hd']
      intro _
      simp only [plugNames, List.forall_mem_cons, Reads]
      exact ⟨rfl, rfl, by simp⟩
    · rintro (h | h) <;> cases h
    · rw [← hd']
      intro _
      exact ⟨_, _, _, rfl, rfl, rfl, rfl, rfl, rfl⟩
    · simp
    · exact rsWorse_eq _ _
  · rw [if_neg hp] at hd
    by_cases hb : veh.ptType = .bev
    · rw [bev_out hb hu hw rfl rfl] at h'
      have hd' := Except.ok.inj h'
      simp only [hb, ne_eq, reduceCtorEq, not_false_eq_true, if_true, rsLabelNonPhev, not_true_eq_false, if_false]
      refine ⟨_, _, _, rfl, ⟨?_, ?_, ?_, ?_, ?_⟩, rfl, rfl, ?_⟩
      · rw [← hd']
        simp only [labelNames, List.forall_mem_cons, Reads]
        refine ⟨rfl, rfl, rfl, rfl, rfl, rfl, rfl, rfl, rfl, rfl, rfl, rfl, rfl, rfl, rfl, rfl, by simp⟩
      · rw [← hd']
        intro _
        simp only [plugNames, List.forall_mem_cons, Reads]
        exact ⟨rfl, rfl, by simp⟩
      · rintro (h | h) <;> cases h
      · intro h; cases h
      · intro _; exact ⟨rfl, rfl, rfl⟩
      · exact rsWorse_eq _ _
    · have hc : veh.ptType = .conv ∨ veh.ptType = .hev := by
        cases hv : veh.ptType <;> simp_all
      by_cases hz : u.mpgge = 0 ∨ w.mpgge = 0
      · rw [C40_no_fuel hc hu hw hz] at h'
        cases h'
      push Not at hz
      have pu : 0 < u.mpgge := lt_of_le_of_ne (hpos _ _ hu) (Ne.symm hz.1)
      have pw : 0 < w.mpgge := lt_of_le_of_ne (hpos _ _ hw) (Ne.symm hz.2)
      have hsum : wCity / u.mpgge + wHwy / w.mpgge ≠ (0 : K) := by
        have : (0 : K) < wCity := by unfold wCity; norm_num
        have : (0 : K) < wHwy := by unfold wHwy; norm_num
        positivity
      rw [conv_out hc hu hw hz.1 hz.2 hsum] at h'
      have hd' := Except.ok.inj h'
      obtain ⟨a1, a2, a3, a4⟩ := adjParams_pos (K := K) veh.vehYear
      have au := (adjMpg_lt a1 a2 pu).1.ne'
      have ah := (adjMpg_lt a3 a4 pw).1.ne'
      simp only [hp, hb, ne_eq, not_false_eq_true, if_true, rsLabelNonPhev, rsAdjMpg_eq hz.1, rsAdjMpg_eq hz.2,
        rsHarm_eq hz.1 hz.2, rsHarm_eq au ah]
      refine ⟨_, _, _, rfl, ⟨?_, ?_, ?_, ?_, ?_⟩, rfl, rfl, ?_⟩
      · rw [← hd']
        simp only [labelNames, List.forall_mem_cons, Reads]
        refine ⟨rfl, rfl, rfl, rfl, rfl, rfl, rfl, rfl, rfl, rfl, rfl, rfl, rfl, rfl, rfl, rfl, by simp⟩
      · rintro (h | h)
        · exact absurd h hb
        · exact absurd h hp
      · intro _; exact ⟨rfl, rfl⟩
      · intro h; exact absurd h hp
      · intro _; exact ⟨rfl, rfl, rfl⟩
      · exact rsWorse_eq _ _

/-- **C102 (nothing else).** A label that the Rust core computes is the label of python, unless python raises `ValueError` for a
plug-in hybrid (C102_beyond) or divides by the economy of a cycle without fuel (C102_no_fuel). -/
theorem C102_label_back {c : LabelConst K} {tbl : List (K × K)} (hf : FlatEnd tbl) {veh : LabelVeh K}
    {sim : LabelCyc → Option K → Except PyErr (LabelRun K)} {rsim : LabelCyc → Option K → Except RsErr (RsLabelRun K)}
    (hsim : ∀ k init x, sim k init = .ok x → ∃ m, rsim k init = .ok ⟨x, m⟩)
    (hback : ∀ k init x, rsim k init = .ok x → sim k init = .ok x.run)
    (hpos : ∀ k x, sim k none = .ok x → 0 ≤ x.mpgge) {mph times : List K} (hl : mph.length = times.length)
    (hacc : RisesTo60 (mph.zip times) ∨ ∀ x ∈ mph, x < ((60 : ℕ) : K)) {r : RsLabelFe K}
    (h : rsGetLabelFe c tbl veh rsim (.ok (mph, times)) = .ok r) :
    (∃ d, getLabelFe c tbl veh sim (.ok (mph.zip times)) = .ok d ∧ SameLabel veh.ptType d r) ∨
    (veh.ptType = .phev ∧ getLabelFe c tbl veh sim (.ok (mph.zip times)) = .error .valueError) ∨
    ((veh.ptType = .conv ∨ veh.ptType = .hev) ∧ (∃ k x, sim k none = .ok x ∧ x.mpgge = 0) ∧
      getLabelFe c tbl veh sim (.ok (mph.zip times)) = .error .zeroDivision) := by
  -- if python succeeds the labels are the same
  have fin : ∀ d, getLabelFe c tbl veh sim (.ok (mph.zip times)) = .ok d → SameLabel veh.ptType d r := by
    intro d hd
    obtain ⟨r', -, -, h1, h2, -⟩ := C102_label hf hsim hpos hl hacc hd
    rw [h] at h1
    rw [Except.ok.inj h1]
    exact h2
  unfold rsGetLabelFe at h
  simp only [bind, Except.bind] at h
  split at h
  · cases h
  rename_i u hu
  split at h
  · cases h
  rename_i w hw
  have pu := hback _ _ _ hu
  have pw := hback _ _ _ hw
  by_cases hp : veh.ptType = .phev
  · simp only [hp, ne_eq, not_true_eq_false, if_false] at h
    split at h
    · cases h
    rename_i cu hcu
    split at h
    · cases h
    rename_i ch hch
    split at h
    · cases h
    rename_i out hout
    have key : ∀ k soc x, (rsim k (some soc)).map RsLabelRun.run = .ok x → sim k (some soc) = .ok x := by
      intro k soc x hx
      cases hr : rsim k (some soc) with
      | error e => rw [hr] at hx; cases hx
      | ok y =>
        rw [hr] at hx
        rw [hback _ _ _ hr]
        exact congrArg _ (Except.ok.inj hx)
    have start : ∀ k b x s' i' , rsPhevCalc c tbl veh i' s' b (fun s => (rsim k (some s)).map RsLabelRun.run) = .ok x →
        ∃ cd, (rsim k (some veh.maxSoc)).map RsLabelRun.run = .ok cd := by
      intro k b x s' i' hx
      unfold rsPhevCalc at hx
      cases hr : (rsim k (some veh.maxSoc)).map RsLabelRun.run with
      | ok cd => exact ⟨cd, rfl⟩
      | error e => simp only [hr, bind, Except.bind] at hx; cases hx
    obtain ⟨cdU, hcdU⟩ := start _ _ _ _ _ hcu
    obtain ⟨cdH, hcdH⟩ := start _ _ _ _ _ hch
    have cu' := C102_cycle_back hf (cd := cdU) (run := fun s => sim .udds (some s)) (fun soc x => key .udds soc x) hcdU hcu
    have ch' := C102_cycle_back hf (cd := cdH) (run := fun s => sim .hwy (some s)) (fun soc x => key .hwy soc x) hcdH hch
    rw [rsAdjParams_eq, rsRegenBuffer_eq] at cu' ch'
    unfold rsPhevOut at hout
    simp only [bind, Except.bind] at hout
    split at hout
    · cases hout
    rename_i uf huf
    have uf' : ufAt tbl (combKwh cu.adjCdMiles ch.adjCdMiles) = .ok uf ∨
        ufAt tbl (combKwh cu.adjCdMiles ch.adjCdMiles) = .error .valueError := ufAt_or hf huf
    have full : getLabelFe c tbl veh sim (.ok (mph.zip times)) = .error .valueError ∨
        ∃ d, getLabelFe c tbl veh sim (.ok (mph.zip times)) = .ok d := by
      rcases cu' with cu' | cu'
      · rcases ch' with ch' | ch'
        · rcases uf' with uf' | uf'
          · exact .inr ⟨_, phev_out hp pu pw (key _ _ _ hcdU) (key _ _ _ hcdH) cu' ch' uf'⟩
          · left
            simp only [getLabelFe, labelBody, if_pos hp, labelPhev, pu, pw, key _ _ _ hcdU, key _ _ _ hcdH, cu', ch', phevOut,
              uf', bind, Except.bind]
        · left
          simp only [getLabelFe, labelBody, if_pos hp, labelPhev, pu, pw, key _ _ _ hcdU, key _ _ _ hcdH, cu', ch', bind,
            Except.bind]
      · left
        simp only [getLabelFe, labelBody, if_pos hp, labelPhev, pu, pw, key _ _ _ hcdU, key _ _ _ hcdH, cu', bind, Except.bind]
    rcases full with e | ⟨d, e⟩
    · exact .inr (.inl ⟨hp, e⟩)
    · exact .inl ⟨d, e, fin d e⟩
  · by_cases hb : veh.ptType = .bev
    · exact .inl ⟨_, bev_out hb pu pw rfl rfl, fin _ (bev_out hb pu pw rfl rfl)⟩
    · have hc : veh.ptType = .conv ∨ veh.ptType = .hev := by
        cases hv : veh.ptType <;> simp_all
      by_cases hz : u.run.mpgge = 0 ∨ w.run.mpgge = 0
      · refine .inr (.inr ⟨hc, ?_, C40_no_fuel hc pu pw hz⟩)
        rcases hz with hz | hz
        · exact ⟨_, _, pu, hz⟩
        · exact ⟨_, _, pw, hz⟩
      · push Not at hz
        have qu : 0 < u.run.mpgge := lt_of_le_of_ne (hpos _ _ pu) (Ne.symm hz.1)
        have qw : 0 < w.run.mpgge := lt_of_le_of_ne (hpos _ _ pw) (Ne.symm hz.2)
        have hsum : wCity / u.run.mpgge + wHwy / w.run.mpgge ≠ (0 : K) := by
          have : (0 : K) < wCity := by unfold wCity; norm_num
          have : (0 : K) < wHwy := by unfold wHwy; norm_num
          positivity
        exact .inl ⟨_, conv_out hc pu pw hz.1 hz.2 hsum, fin _ (conv_out hc pu pw hz.1 hz.2 hsum)⟩

/-- **C102 (no fuel).** For a conventional vehicle or hybrid that burns no fuel on one of the cycles python raises
`ZeroDivisionError`; the Rust core reports combined economies of zero. -/
theorem C102_no_fuel {c : LabelConst K} {tbl : List (K × K)} {veh : LabelVeh K}
    {sim : LabelCyc → Option K → Except PyErr (LabelRun K)} {rsim : LabelCyc → Option K → Except RsErr (RsLabelRun K)}
    {u w : RsLabelRun K} {mph times : List K} (hc : veh.ptType = .conv ∨ veh.ptType = .hev)
    (hu : sim .udds none = .ok u.run) (hw : sim .hwy none = .ok w.run) (hu' : rsim .udds none = .ok u) (hw' : rsim .hwy none = .ok w)
    (h0 : u.run.mpgge = 0 ∨ w.run.mpgge = 0) (hl : mph.length = times.length)
    (hacc : RisesTo60 (mph.zip times) ∨ ∀ x ∈ mph, x < ((60 : ℕ) : K)) :
    getLabelFe c tbl veh sim (.ok (mph.zip times)) = .error .zeroDivision ∧
    ∃ r, rsGetLabelFe c tbl veh rsim (.ok (mph, times)) = .ok r ∧ r.labUddsMpgge = u.run.mpgge ∧ r.labHwyMpgge = w.run.mpgge ∧
      r.labCombMpgge = 0 ∧ r.adjCombMpgge = 0 ∧ (u.run.mpgge = 0 → r.adjUddsMpgge = 0) ∧
      (w.run.mpgge = 0 → r.adjHwyMpgge = 0) := by
  refine ⟨C40_no_fuel hc hu hw h0, ?_⟩
  have hp : veh.ptType ≠ .phev := by rcases hc with h | h <;> rw [h] <;> decide
  have hb : veh.ptType ≠ .bev := by rcases hc with h | h <;> rw [h] <;> decide
  unfold rsGetLabelFe
  simp only [hu', hw', bind, Except.bind, hp, ne_eq, not_false_eq_true, if_true, C102_accel hl hacc]
  refine ⟨_, rfl, ?_⟩
  unfold rsLabelNonPhev
  rw [if_pos hb]
  refine ⟨rfl, rfl, ?_, ?_, fun h => ?_, fun h => ?_⟩
  · show rsHarm _ _ = 0
    unfold rsHarm; rw [if_pos h0]
  · show rsHarm (rsAdjMpg _ _ _) (rsAdjMpg _ _ _) = 0
    unfold rsHarm
    rw [if_pos]
    rcases h0 with h0 | h0
    · left; unfold rsAdjMpg; rw [if_pos h0]
    · right; unfold rsAdjMpg; rw [if_pos h0]
  · show rsAdjMpg _ _ _ = 0
    unfold rsAdjMpg; rw [if_pos h]
  · show rsAdjMpg _ _ _ = 0
    unfold rsAdjMpg; rw [if_pos h]

end Field
end Fastsim.Props
