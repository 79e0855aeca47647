import Verif.Props.RustThermalRuns
import Verif.Props.RustAir
import Mathlib.Tactic.Linarith
import Mathlib.Tactic.Positivity
import Mathlib.Tactic.FieldSimp

/-!
# C105: the heat of the thermal simulation
-/

set_option linter.unusedSectionVars false

namespace Fastsim.Spec
open Fastsim

section Lawless
variable {K : Type*} [Zero K] [One K] [NatCast K] [Add K] [Sub K] [Mul K] [Div K] [Neg K] [LinearOrder K]

/-- Step `i` of a walk from `h` to `f`: the history has the state `s` before and `s'` after it. -/
structure Steps (h f : Hot K) (i : Nat) (s s' : Thermal K) : Prop where
  pos : 0 < i
  lt : i < h.sd.cyc0.length
  before : f.history[h.history.length + (i - 1)]? = some s
  after : f.history[h.history.length + i]? = some s'

/-- The duration of step `i`. -/
def stepDt (f : Hot K) (i : Nat) : K := f.sd.cyc.times.getD i 0 - f.sd.cyc.times.getD (i - 1) 0

/-- The row before step `i`: the thermal calculations of a step use the engine and the speed of the step before. -/
def lastRow (f : Hot K) (i : Nat) : Row K := f.sd.rows.getD (i - 1) Row.zero

/-- Two states of one cabin model: the settings are the same. -/
structure SameHvac (a b : Hvac K) : Prop where
  teSet : a.teSet = b.teSet
  p : a.pPerDegC = b.pPerDegC
  i : a.iPerDegCSec = b.iPerDegCSec
  d : a.dPerDegC = b.dPerDegC
  most : a.cntrlMaxKw = b.cntrlMaxKw
  dead : a.deadband = b.deadband
  frac : a.fracOfIdealCop = b.fracOfIdealCop
  waste : a.useFcWasteHeat = b.useFcWasteHeat
  aux : a.maxAuxKw = b.maxAuxKw

end Lawless
end Fastsim.Spec

namespace Fastsim.Props
open Fastsim Spec

/-! ### Air -/

section Air
variable {K : Type*} [Field K] [LinearOrder K] [IsStrictOrderedRing K]

theorem interp_first_le {x : K} : ∀ {p : K × K} {l : List (K × K)}, (p :: l).Pairwise (fun a b => a.1 < b.1) →
    (p :: l).Pairwise (fun a b => a.2 ≤ b.2) → p.2 ≤ interp x (p :: l) := by
  intro p l h1 h2
  refine (interp_bounds x p.2 (((p :: l).map Prod.snd).foldr max p.2) (p :: l) (by simp) fun z hz => ⟨?_, ?_⟩).1
  · rcases List.mem_cons.1 hz with rfl | hz
    · exact le_rfl
    · exact (List.pairwise_cons.1 h2).1 z hz
  · have : z.2 ∈ (p :: l).map Prod.snd := List.mem_map_of_mem hz
    generalize (p :: l).map Prod.snd = m at this
    induction m with
    | nil => cases this
    | cons a m ih =>
      rcases List.mem_cons.1 this with rfl | q
      · exact le_max_left _ _
      · exact (ih q).trans (le_max_right _ _)

theorem interp_rises {x y : K} (hxy : x ≤ y) : ∀ {l : List (K × K)}, l.Pairwise (fun a b => a.1 < b.1) →
    l.Pairwise (fun a b => a.2 ≤ b.2) → interp x l ≤ interp y l
  | [], _, _ => le_rfl
  | [p], _, _ => le_rfl
  | p :: q :: r, h1, h2 => by
    have hp1 : p.1 < q.1 := (List.pairwise_cons.1 h1).1 q (by simp)
    have hp2 : p.2 ≤ q.2 := (List.pairwise_cons.1 h2).1 q (by simp)
    rcases lt_or_ge y q.1 with hy | hy
    · have hx := lt_of_le_of_lt hxy hy
      rw [interp, interp, if_pos hx, if_pos hy]
      have hk : 0 ≤ (q.2 - p.2) / (q.1 - p.1) := div_nonneg (by linarith) (by linarith)
      split
      · split
        · exact le_rfl
        · rename_i h
          have := mul_nonneg hk (sub_nonneg.2 (not_le.1 h).le)
          linarith
      · rename_i h
        rw [if_neg (not_le.2 (lt_of_lt_of_le (not_le.1 h) hxy))]
        have := mul_le_mul_of_nonneg_left (sub_le_sub_right hxy p.1) hk
        linarith
    · rw [show interp y (p :: q :: r) = interp y (q :: r) by rw [interp, if_neg (not_lt.2 hy)]]
      rcases lt_or_ge x q.1 with hx | hx
      · refine le_trans ?_ (interp_first_le (List.pairwise_cons.1 h1).2 (List.pairwise_cons.1 h2).2)
        rw [interp, if_pos hx]
        split
        · exact hp2
        · rename_i h
          have e : (q.2 - p.2) / (q.1 - p.1) * (q.1 - p.1) = q.2 - p.2 := div_mul_cancel₀ _ (by linarith [sub_pos.2 hp1])
          have hk : 0 ≤ (q.2 - p.2) / (q.1 - p.1) := div_nonneg (by linarith) (by linarith)
          have := mul_le_mul_of_nonneg_left (sub_le_sub_right hx.le p.1) hk
          linarith
      · rw [show interp x (p :: q :: r) = interp x (q :: r) by rw [interp, if_neg (not_lt.2 hx)]]
        exact interp_rises hxy (List.pairwise_cons.1 h1).2 (List.pairwise_cons.1 h2).2

theorem pairwise_zip {R S : K → K → Prop} : ∀ {xs ys : List K}, xs.Pairwise R → ys.Pairwise S →
    (xs.zip ys).Pairwise (fun a b => R a.1 b.1 ∧ S a.2 b.2)
  | [], _, _, _ => by simp
  | _ :: _, [], _, _ => by simp
  | a :: xs, b :: ys, h1, h2 => by
    rw [List.zip_cons_cons, List.pairwise_cons]
    rw [List.pairwise_cons] at h1 h2
    exact ⟨fun p hp => ⟨h1.1 _ (List.of_mem_zip hp).1, h2.1 _ (List.of_mem_zip hp).2⟩, pairwise_zip h1.2 h2.2⟩

theorem airTe_length : (airTe : List K).length = 25 := rfl
theorem airH_length : (airH : List K).length = 25 := rfl

/-- **C105 (air).** Hotter air has more enthalpy, and air with more enthalpy is hotter: both lookups are monotone. -/
theorem C105_air {x y : K} (h : x ≤ y) : airAt (airTe : List K) airH x ≤ airAt airTe airH y ∧
    airAt (airH : List K) airTe x ≤ airAt airH airTe y := by
  constructor
  · rw [(airAt_ok (ys := airH) (airTe_strict (K := K)) (by simp [airTe_length]) rfl x).2,
      (airAt_ok (ys := airH) (airTe_strict (K := K)) (by simp [airTe_length]) rfl y).2]
    have := pairwise_zip (airTe_strict (K := K)) (airH_strict (K := K))
    exact interp_rises h (this.imp fun q => q.1) (this.imp fun q => q.2.le)
  · rw [(airAt_ok (ys := airTe) (airH_strict (K := K)) (by simp [airH_length]) rfl x).2,
      (airAt_ok (ys := airTe) (airH_strict (K := K)) (by simp [airH_length]) rfl y).2]
    have := pairwise_zip (airH_strict (K := K)) (airTe_strict (K := K))
    exact interp_rises h (this.imp fun q => q.1) (this.imp fun q => q.2.le)

theorem airAt_nonneg {ys : List K} (hl : ys.length = 25) (hy : ∀ y ∈ ys, 0 ≤ y) (x : K) : 0 ≤ airAt airTe ys x := by
  rw [(airAt_ok (airTe_strict (K := K)) (by simp [airTe_length]) (by rw [airTe_length, hl]) x).2]
  refine (interp_bounds x 0 (ys.foldr max 0) _ ?_ fun z hz => ⟨hy _ (List.of_mem_zip hz).2, ?_⟩).1
  · intro h0
    have := congrArg List.length h0
    rw [List.length_zip, airTe_length, hl] at this
    simp at this
  · have : z.2 ∈ ys := (List.of_mem_zip hz).2
    clear hl hy
    induction ys with
    | nil => cases this
    | cons a m ih =>
      rcases List.mem_cons.1 this with q | q
      · rw [q]; exact le_max_left _ _
      · exact le_trans (by
          have h2 : ∀ (m : List K) (w : K), w ∈ m → w ≤ m.foldr max 0 := by
            intro m w hw
            induction m with
            | nil => cases hw
            | cons b m ih =>
              rcases List.mem_cons.1 hw with rfl | q
              · exact le_max_left _ _
              · exact (ih q).trans (le_max_right _ _)
          exact h2 m _ q) (le_max_right _ _)

theorem airMu_nonneg (x : K) : 0 ≤ airAt (airTe : List K) airMu x := by
  refine airAt_nonneg rfl ?_ x
  intro y hy
  simp only [airMu, List.mem_map] at hy
  obtain ⟨k, -, rfl⟩ := hy
  exact div_nonneg (Nat.cast_nonneg _) (Nat.cast_nonneg _)

theorem airK_nonneg (x : K) : 0 ≤ airAt (airTe : List K) airK x := by
  refine airAt_nonneg rfl ?_ x
  intro y hy
  simp only [airK, List.mem_map] at hy
  obtain ⟨k, -, rfl⟩ := hy
  exact div_nonneg (Nat.cast_nonneg _) (Nat.cast_nonneg _)

theorem airPr_nonneg (x : K) : 0 ≤ airAt (airTe : List K) airPr x := by
  refine airAt_nonneg rfl ?_ x
  have z : ∀ (l : List Nat) (d : Nat), ∀ y ∈ l.map (fun k => (dec k d : K)), 0 ≤ y := by
    intro l d y hy
    rw [List.mem_map] at hy
    obtain ⟨k, -, rfl⟩ := hy
    exact div_nonneg (Nat.cast_nonneg _) (Nat.cast_nonneg _)
  have w : ∀ (f : K → K → K), (∀ a b, 0 ≤ a → 0 ≤ b → 0 ≤ f a b) → ∀ l m : List K, (∀ y ∈ l, 0 ≤ y) → (∀ y ∈ m, 0 ≤ y) →
      ∀ y ∈ List.zipWith f l m, 0 ≤ y := by
    intro f hf l
    induction l with
    | nil => intro m _ _ y hy; simp at hy
    | cons a l ih =>
      intro m hl hm y hy
      cases m with
      | nil => simp at hy
      | cons b m =>
        rw [List.zipWith_cons_cons] at hy
        rcases List.mem_cons.1 hy with rfl | hy
        · exact hf _ _ (hl a (by simp)) (hm b (by simp))
        · exact ih m (fun y q => hl y (List.mem_cons_of_mem _ q)) (fun y q => hm y (List.mem_cons_of_mem _ q)) y hy
  exact w _ (fun a b => div_nonneg) _ _ (w _ (fun a b => mul_nonneg) _ _ (z _ _) (z _ _)) (z _ _)

theorem interp_back : ∀ {l : List (K × K)} {p : K × K}, (p :: l).Pairwise (fun a b => a.1 < b.1) →
    (p :: l).Pairwise (fun a b => a.2 < b.2) → ∀ {y : K}, p.2 ≤ y → y ≤ ((p :: l).getLast (by simp)).2 →
    interp (interp y ((p :: l).map fun q => (q.2, q.1))) (p :: l) = y
  | [], p, _, _, y, h1, h2 => by
    have : y = p.2 := le_antisymm h2 h1
    simp [interp, this]
  | q :: r, p, a, b, y, h1, h2 => by
    have hp1 : p.1 < q.1 := (List.pairwise_cons.1 a).1 q (by simp)
    have hp2 : p.2 < q.2 := (List.pairwise_cons.1 b).1 q (by simp)
    rw [List.map_cons, List.map_cons]
    rcases lt_or_ge y q.2 with hy | hy
    · rw [show interp y ((p.2, p.1) :: (q.2, q.1) :: r.map fun q => (q.2, q.1)) =
        if y ≤ p.2 then p.1 else (q.1 - p.1) / (q.2 - p.2) * (y - p.2) + p.1 by rw [interp, if_pos hy]]
      split
      · rename_i h
        rw [interp, if_pos hp1, if_pos le_rfl]
        exact le_antisymm h1 h
      · rename_i h
        have h' := not_le.1 h
        have d2 : 0 < q.2 - p.2 := sub_pos.2 hp2
        have d1 : 0 < q.1 - p.1 := sub_pos.2 hp1
        have k1 : 0 < (q.1 - p.1) / (q.2 - p.2) * (y - p.2) := mul_pos (div_pos d1 d2) (sub_pos.2 h')
        have k2 : (q.1 - p.1) / (q.2 - p.2) * (y - p.2) < q.1 - p.1 := by
          rw [div_mul_eq_mul_div, div_lt_iff₀ d2]
          exact mul_lt_mul_of_pos_left (by linarith) d1
        rw [interp, if_pos (by linarith), if_neg (by linarith)]
        have := d1.ne'
        have := d2.ne'
        rw [add_sub_cancel_right]
        field_simp
        ring
    · have ey : interp y ((p.2, p.1) :: (q.2, q.1) :: r.map fun q => (q.2, q.1)) = interp y ((q :: r).map fun q => (q.2, q.1)) := by
        rw [interp, if_neg (not_lt.2 hy), List.map_cons]
      have a' := (List.pairwise_cons.1 a).2
      have b' := (List.pairwise_cons.1 b).2
      rw [ey]
      have hx : q.1 ≤ interp y ((q :: r).map fun q => (q.2, q.1)) := by
        rw [List.map_cons]
        refine interp_first_le (p := (q.2, q.1)) ?_ ?_
        · have := List.pairwise_map (f := fun q : K × K => (q.2, q.1)) (R := fun a b : K × K => a.1 < b.1) |>.2 b'
          rwa [List.map_cons] at this
        · have := List.pairwise_map (f := fun q : K × K => (q.2, q.1)) (R := fun a b : K × K => a.2 ≤ b.2)
            |>.2 (a'.imp fun h => h.le)
          rwa [List.map_cons] at this
      rw [interp, if_neg (not_lt.2 hx)]
      rw [List.getLast_cons (by simp : q :: r ≠ [])] at h2
      exact interp_back a' b' hy h2

theorem zip_map_swap : ∀ xs ys : List K, (xs.zip ys).map (fun q => (q.2, q.1)) = ys.zip xs
  | [], ys => by simp
  | _ :: _, [] => by simp
  | a :: xs, b :: ys => by simp [zip_map_swap xs ys]

/-- Inside the table, the air with a given enthalpy has that enthalpy. -/
theorem air_back {y : K} (h1 : 338940 ≤ y) (h2 : y ≤ 6662000) : airAt (airTe : List K) airH (airAt airH airTe y) = y := by
  rw [(airAt_ok (ys := airH) (airTe_strict (K := K)) (by simp [airTe_length]) rfl _).2,
      (airAt_ok (ys := airTe) (airH_strict (K := K)) (by simp [airH_length]) rfl y).2, ← zip_map_swap airTe airH]
  have z := pairwise_zip (airTe_strict (K := K)) (airH_strict (K := K))
  obtain ⟨p, l, e⟩ : ∃ p l, (airTe : List K).zip (airH : List K) = p :: l := by
    cases q : (airTe : List K).zip (airH : List K) with
    | nil => cases q
    | cons p l => exact ⟨p, l, rfl⟩
  have f1 : p.2 = 338940 := by
    have : ((airTe : List K).zip (airH : List K))[0]? = some p := by rw [e]; rfl
    have h : ((airTe : List K).zip (airH : List K))[0]? = some ((-(dec 60 1) : K), (dec 338940 1 : K)) := rfl
    rw [h] at this
    cases this
    simp [dec]
  have f2 : ((p :: l).getLast (by simp)).2 = 6662000 := by
    have : ((airTe : List K).zip (airH : List K)).getLast? = some ((p :: l).getLast (by simp)) := by
      rw [e]; exact List.getLast?_eq_some_getLast (by simp)
    have h : ((airTe : List K).zip (airH : List K)).getLast? = some ((dec 500000000000 100000000 : K), (dec 6662000 1 : K)) := rfl
    rw [h] at this
    rw [← Option.some.inj this]
    simp [dec]
  rw [e] at z ⊢
  refine interp_back (z.imp fun q => q.1) (z.imp fun q => q.2) ?_ ?_
  · rw [f1]; exact h1
  · rw [f2]; exact h2

end Air

/-! ### The parts of a step -/

section Frames
variable {K : Type*} [Field K] [LinearOrder K]
variable {F : Fns K} {C : HotConsts K} {T : VehThrm K} {V : Veh K} {P : SimParams K}

theorem withAmb_frame (amb : Option K) (s : Thermal K) : withAmb amb s = { s with ambTe := (withAmb amb s).ambTe } := by
  cases amb <;> rfl

theorem afterEngine_frame {E : HotEnv K} {s s1 : Thermal K} (h : afterEngine F C T E s = .ok s1) :
    s1 = { s with
      fcTeAdiabatic := s1.fcTeAdiabatic, fcQdotPerNetHeat := s1.fcQdotPerNetHeat, fcQdotKw := s1.fcQdotKw
      fcHtcToAmb := s1.fcHtcToAmb, fcQdotToAmbKw := s1.fcQdotToAmbKw } := by
  unfold afterEngine setFcThermal at h
  split at h
  · simp only [bind, Except.bind, pure, Except.pure] at h
    split at h
    · cases h
    · cases h; rfl
  · cases h; rfl

theorem hvacControl_frame {E : HotEnv K} {s : Thermal K} {H : Hvac K} {r : Thermal K × Hvac K}
    (h : hvacControl T E s H = .ok r) :
    r.1 = { s with
      cabQdotFromHvacKw := r.1.cabQdotFromHvacKw, cabHvacPwrAuxKw := r.1.cabHvacPwrAuxKw, fcQdotToHtrKw := r.1.fcQdotToHtrKw } ∧
    SameHvac r.2 H := by
  unfold hvacControl at h
  split at h
  · cases h; exact ⟨rfl, rfl, rfl, rfl, rfl, rfl, rfl, rfl, rfl, rfl⟩
  · simp only at h
    split at h
    · split at h
      · cases h; exact ⟨rfl, rfl, rfl, rfl, rfl, rfl, rfl, rfl, rfl, rfl⟩
      · unfold hvacHeat at h
        simp only at h
        split at h
        · split at h
          · cases h
          · cases h; exact ⟨rfl, rfl, rfl, rfl, rfl, rfl, rfl, rfl, rfl, rfl⟩
        · cases h; exact ⟨rfl, rfl, rfl, rfl, rfl, rfl, rfl, rfl, rfl, rfl⟩
    · cases h

theorem setCabThermal_ok {E : HotEnv K} {s : Thermal K} {H : Hvac K} {r : Thermal K × Hvac K}
    (h : setCabThermal F T E s H = .ok r) :
    ∃ c, hvacControl T E { s with cabQdotToAmbKw := cabQdotToAmb F T E s } H = .ok c ∧
      r = ({ c.1 with
        cabPrevTe := c.1.cabTe
        cabTe := c.1.cabTe + (c.1.cabQdotFromHvacKw - c.1.cabQdotToAmbKw) / T.cabCKjK * E.dt }, c.2) := by
  unfold setCabThermal at h
  simp only [bind, Except.bind, pure, Except.pure] at h
  split at h
  · cases h
  · rename_i c hc
    cases h
    exact ⟨c, hc, rfl⟩

theorem afterCabin_some {E : HotEnv K} {s s2 : Thermal K} {H : Hvac K} {g : Option (Hvac K)}
    (h : afterCabin F T E s (some H) = .ok (s2, g)) : ∃ H', g = some H' ∧ setCabThermal F T E s H = .ok (s2, H') := by
  unfold afterCabin at h
  simp only at h
  split at h
  · cases h
  · rename_i r hr
    cases h
    exact ⟨r.2, rfl, hr⟩

theorem afterCabin_none {E : HotEnv K} {s s2 : Thermal K} {g : Option (Hvac K)}
    (h : afterCabin F T E s none = .ok (s2, g)) : s2 = s ∧ g = none := by
  unfold afterCabin at h
  cases h; exact ⟨rfl, rfl⟩

theorem afterCabin_frame {E : HotEnv K} {s s2 : Thermal K} {g g' : Option (Hvac K)} (h : afterCabin F T E s g = .ok (s2, g')) :
    s2 = { s with
      cabTe := s2.cabTe, cabPrevTe := s2.cabPrevTe, cabQdotToAmbKw := s2.cabQdotToAmbKw
      cabQdotFromHvacKw := s2.cabQdotFromHvacKw, cabHvacPwrAuxKw := s2.cabHvacPwrAuxKw, fcQdotToHtrKw := s2.fcQdotToHtrKw } ∧
    (g = none → g' = none) ∧ (∀ H, g = some H → ∃ H', g' = some H' ∧ SameHvac H' H) := by
  cases g with
  | none =>
    obtain ⟨rfl, rfl⟩ := afterCabin_none h
    exact ⟨rfl, fun _ => rfl, fun H e => by cases e⟩
  | some H =>
    obtain ⟨H', rfl, e⟩ := afterCabin_some h
    obtain ⟨c, hc, hr⟩ := setCabThermal_ok e
    obtain ⟨f1, f2⟩ := hvacControl_frame hc
    cases hr
    refine ⟨?_, (fun e => by cases e), (fun H e => by cases e; exact ⟨_, rfl, f2⟩)⟩
    obtain ⟨c1, c2⟩ := c
    simp only at f1 ⊢
    rw [f1]

theorem afterExhaust_frame (E : HotEnv K) (s : Thermal K) :
    ∃ s3, s3 = afterExhaust F C T E s ∧
    s3.fcTe = s.fcTe ∧ s3.fcEtaTempCoeff = s.fcEtaTempCoeff ∧ s3.fcQdotPerNetHeat = s.fcQdotPerNetHeat ∧
    s3.fcQdotKw = s.fcQdotKw ∧ s3.fcQdotToAmbKw = s.fcQdotToAmbKw ∧ s3.fcQdotToHtrKw = s.fcQdotToHtrKw ∧
    s3.fcLambda = s.fcLambda ∧ s3.fcTeAdiabatic = s.fcTeAdiabatic ∧ s3.cabTe = s.cabTe ∧ s3.cabPrevTe = s.cabPrevTe ∧
    s3.cabQdotToAmbKw = s.cabQdotToAmbKw ∧ s3.cabQdotFromHvacKw = s.cabQdotFromHvacKw ∧
    s3.cabHvacPwrAuxKw = s.cabHvacPwrAuxKw ∧ s3.ambTe = s.ambTe ∧
    (T.exhportInternal = false → s3.exhMdot = s.exhMdot ∧ s3.exhHdotKw = s.exhHdotKw ∧ s3.exhportExhTeIn = s.exhportExhTeIn ∧
      s3.exhportQdotToAmb = s.exhportQdotToAmb ∧ s3.exhportQdotFromExh = s.exhportQdotFromExh ∧
      s3.exhportQdotNet = s.exhportQdotNet ∧ s3.exhportTe = s.exhportTe) ∧
    (T.catInternal = false → s3.fcHtcToAmb = s.fcHtcToAmb ∧ s3.catTe = s.catTe ∧ s3.catHtcToAmb = s.catHtcToAmb ∧
      s3.catQdotToAmb = s.catQdotToAmb ∧ s3.catExhTeIn = s.catExhTeIn ∧ s3.catQdotFromExh = s.catQdotFromExh ∧
      s3.catQdot = s.catQdot ∧ s3.catQdotNet = s.catQdotNet ∧ s3.catReExt = s.catReExt) := by
  refine ⟨_, rfl, ?_⟩
  unfold afterExhaust setExhportThermal setCatThermal catHtc exhFlows
  cases T.exhportInternal <;> cases T.catInternal <;> by_cases hm : E.mps < 1 <;> simp [hm]

theorem fcBalance_frame (E : HotEnv K) (s : Thermal K) : fcBalance T E s = { s with fcTe := (fcBalance T E s).fcTe } := by
  unfold fcBalance
  split <;> rfl

theorem flatMap_some {α : Type*} {a : α} : ∀ {G : List (Option α)} {k : Nat}, (∀ x ∈ G, ∃ y, x = some y) → G[k]? = some (some a) →
    (G.flatMap Option.toList)[k]? = some a
  | [], _, _, h => by simp at h
  | x :: G, k, hs, h => by
    obtain ⟨y, rfl⟩ := hs x (by simp)
    cases k with
    | zero => simpa using h
    | succ k =>
      have := flatMap_some (k := k) (fun x hx => hs x (List.mem_cons_of_mem _ hx)) (by simpa using h)
      simpa using this

theorem SameHvac.trans' {a b c : Hvac K} (x : SameHvac a b) (y : SameHvac b c) : SameHvac a c :=
  ⟨x.teSet.trans y.teSet, x.p.trans y.p, x.i.trans y.i, x.d.trans y.d, x.most.trans y.most, x.dead.trans y.dead,
    x.frac.trans y.frac, x.waste.trans y.waste, x.aux.trans y.aux⟩

/-- The ambient temperatures do not change during a walk. -/
theorem hotWalk_amb {h f : Hot K} {soc : K} {aux : Option (List K)} (e : hotWalk F C T V P h soc aux = .ok f) : f.amb = h.amb := by
  unfold hotWalk hotInitForStep at e
  split at e
  · cases e
  · rename_i h1 h2
    split at h2
    · cases h2
    · cases h2
      exact (hotWalkLoop_frame _ e).1.amb

/-- Everything known about step `i` of a walk. -/
theorem Steps.rel {h f : Hot K} {soc : K} {aux : Option (List K)} {i : Nat} {s s' : Thermal K} (w : Walks F C T V P h soc aux f)
    (st : Steps h f i s s') : ∃ g g', HotStepRel F C T V P (aux.getD (List.replicate h.sd.cyc0.length 0)) f i s g s' g' ∧
      (h.hvac = none → g = none) ∧
      (∀ H, h.hvac = some H → ∃ a b, g = some a ∧ g' = some b ∧ SameHvac a H ∧ SameHvac b H ∧
        f.hvacHistory[h.hvacHistory.length + (i - 1)]? = some a ∧ f.hvacHistory[h.hvacHistory.length + i]? = some b) := by
  obtain ⟨-, S, G, s1, s2, s3, s4, s5, s6, -, -, s7, -⟩ := hotWalk_trace w.same w.load w.walk
  have hG : ∀ (k : Nat) g, G[k]? = some g → (h.hvac = none → g = none) ∧ ∀ H, h.hvac = some H → ∃ a, g = some a ∧ SameHvac a H := by
    intro k
    induction k with
    | zero =>
      intro g hg
      rw [s4] at hg
      cases hg
      exact ⟨id, fun H hH => ⟨H, hH, rfl, rfl, rfl, rfl, rfl, rfl, rfl, rfl, rfl⟩⟩
    | succ k ih =>
      intro g' hg
      have l2 : k + 1 < G.length := by
        by_contra hn
        rw [List.getElem?_eq_none (by omega)] at hg
        cases hg
      have l1 : k < G.length := by omega
      obtain ⟨amb, m, -, b2, -, -⟩ := (s7 k _ _ _ _ (List.getElem?_eq_getElem (by omega : k < S.length))
        (List.getElem?_eq_getElem l1) (List.getElem?_eq_getElem (by omega : k + 1 < S.length)) hg).thermal
      obtain ⟨t1, t2, -, c2, -⟩ := setThermal_ok b2
      obtain ⟨-, d1, d2⟩ := afterCabin_frame c2
      obtain ⟨e1, e2⟩ := ih _ (List.getElem?_eq_getElem l1)
      refine ⟨fun hn => d1 (e1 hn), fun H hH => ?_⟩
      obtain ⟨a, ha, sa⟩ := e2 H hH
      obtain ⟨b, hb, sb⟩ := d2 a ha
      exact ⟨b, hb, SameHvac.trans' sb sa⟩
  obtain ⟨k, rfl⟩ : ∃ k, i = k + 1 := ⟨i - 1, by have := st.pos; omega⟩
  have hlt := st.lt
  have l1 : k < G.length := by omega
  have l2 : k + 1 < G.length := by omega
  have hb := st.before
  have ha := st.after
  rw [s5, List.getElem?_append_right (by omega)] at ha hb
  rw [show h.history.length + (k + 1 - 1) - h.history.length = k by omega] at hb
  rw [show h.history.length + (k + 1) - h.history.length = k + 1 by omega] at ha
  refine ⟨G[k], G[k + 1], s7 k _ _ _ _ hb (List.getElem?_eq_getElem l1) ha (List.getElem?_eq_getElem l2),
    (hG k _ (List.getElem?_eq_getElem l1)).1, fun H hH => ?_⟩
  obtain ⟨a, ea, sa⟩ := (hG k _ (List.getElem?_eq_getElem l1)).2 H hH
  obtain ⟨b, eb, sb⟩ := (hG (k + 1) _ (List.getElem?_eq_getElem l2)).2 H hH
  have hall : ∀ x ∈ G, ∃ y, x = some y := by
    intro x hx
    obtain ⟨j, hj, rfl⟩ := List.getElem_of_mem hx
    obtain ⟨y, hy, -⟩ := (hG j _ (List.getElem?_eq_getElem hj)).2 H hH
    exact ⟨y, hy⟩
  refine ⟨a, b, ea, eb, sa, sb, ?_, ?_⟩
  · rw [s6, List.getElem?_append_right (by omega)]
    refine flatMap_some hall ?_
    rw [show h.hvacHistory.length + (k + 1 - 1) - h.hvacHistory.length = k by omega, ← ea]
    exact List.getElem?_eq_getElem l1
  · rw [s6, List.getElem?_append_right (by omega)]
    refine flatMap_some hall ?_
    rw [show h.hvacHistory.length + (k + 1) - h.hvacHistory.length = k + 1 by omega, ← eb]
    exact List.getElem?_eq_getElem l2

end Frames
end Fastsim.Props
