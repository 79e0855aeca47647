import Verif.Props.RoadGrade
import Mathlib.Analysis.SpecialFunctions.Trigonometric.Arctan

/-!
# C104: work against gravity is weight times height of the reference road
-/

set_option linter.unusedSectionVars false

namespace Fastsim.Spec
open Fastsim

section Field
variable {K : Type*} [Field K] [LinearOrder K] [IsStrictOrderedRing K]

/-- What sine, cosine and tangent of slope angles obey. -/
structure Trig (F : Fns K) : Prop where
  level : F.sinAtan 0 = 0
  inverse : ∀ y, |y| < 1 → F.sinAtan (F.tanAsin y) = y
  rise : ∀ g, |F.cosAtan g * g| < 1

end Field
end Fastsim.Spec

namespace Fastsim.Props
open Fastsim Spec

section Field
variable {K : Type*} [Field K] [LinearOrder K] [IsStrictOrderedRing K]
variable {F : Fns K} {H : Hooks K} {V : Veh K} {P : SimParams K} {c : Cyc K}

/-- A piece of road of length `d` rising by `e`: no rise without length, and less rise than length. -/
def Piece (d e : K) : Prop := (d = 0 ∧ e = 0) ∨ |e| < d

theorem Piece.add {d e d' e' : K} (h : Piece d e) (h' : Piece d' e') : Piece (d + d') (e + e') := by
  rcases h with ⟨rfl, rfl⟩ | h
  · rw [zero_add, zero_add]; exact h'
  · rcases h' with ⟨rfl, rfl⟩ | h'
    · rw [add_zero, add_zero]; exact Or.inr h
    · exact Or.inr (lt_of_le_of_lt (abs_add_le _ _) (by linarith))

theorem Piece.slope {σ d : K} (hσ : |σ| < 1) (hd : 0 ≤ d) : Piece d (σ * d) := by
  rcases eq_or_lt_of_le hd with rfl | hd
  · exact Or.inl ⟨rfl, by simp⟩
  · right
    rw [abs_mul, abs_of_pos hd]
    exact mul_lt_of_lt_one_left hd hσ

theorem Piece.zero {e : K} (h : Piece 0 e) : e = 0 := by
  rcases h with ⟨-, h⟩ | h
  · exact h
  · exact absurd h (not_lt.2 (abs_nonneg _))

theorem Piece.flat {d : K} (hd : 0 ≤ d) : Piece d 0 := by
  have := Piece.slope (σ := (0 : K)) (by simp) hd
  simpa using this

theorem piece_samples (hF : Trig F) (hv : SpeedsNonneg c) (ht : NonDecreasing c) {i j : Nat} (h : i ≤ j) :
    Piece (odometer c j - odometer c i) (elevationOf F c j - elevationOf F c i) := by
  induction j, h using Nat.le_induction with
  | base => left; simp
  | succ j h ih =>
    have hm := odometer_mono hv ht
    have := ih.add (Piece.slope (hF.rise (gradeAt c (j + 1))) (sub_nonneg.2 (hm (Nat.le_succ j))))
    have e1 : odometer c (j + 1) - odometer c i =
      (odometer c j - odometer c i) + (odometer c (j + 1) - odometer c j) := by ring
    have e2 : elevationOf F c (j + 1) - elevationOf F c i = (elevationOf F c j - elevationOf F c i)
        + F.cosAtan (gradeAt c (j + 1)) * gradeAt c (j + 1) * (odometer c (j + 1) - odometer c j) := by
      rw [elevationOf, riseAt]; ring
    rw [e1, e2]
    exact this

/-- From a sample up to a place at or behind it. -/
theorem piece_up (hF : Trig F) (hv : SpeedsNonneg c) (ht : NonDecreasing c) {x e : K} (h : HeightAt F c x e)
    {m : Nat} (hm : m < c.length) (hx : odometer c m ≤ x) :
    Piece (x - odometer c m) (e - elevationOf F c m) := by
  have mono := odometer_mono hv ht
  rcases h with ⟨i, i1, i2, i3, i4, rfl⟩ | ⟨n, hn, h1, rfl⟩
  · rcases Nat.lt_or_ge i m with hi | hi
    · have hx' : x = odometer c (i + 1) := le_antisymm i3 ((mono (by omega : i + 1 ≤ m)).trans hx)
      have hd : odometer c m = odometer c (i + 1) := le_antisymm (by rw [← hx']; exact hx) (mono (by omega))
      have p := piece_samples hF hv ht (by omega : i + 1 ≤ m)
      rw [hd, sub_self] at p
      have := p.zero
      rw [hx', hd, sub_self]
      left
      refine ⟨rfl, ?_⟩
      rw [elevationOf] at this
      linarith
    · have p := (piece_samples (F := F) hF hv ht hi).add
        (Piece.slope (hF.rise (gradeAt c (i + 1))) (sub_nonneg.2 i2))
      have e1 : x - odometer c m = (odometer c i - odometer c m) + (x - odometer c i) := by ring
      have e2 : elevationOf F c i + riseAt F c (i + 1) * (x - odometer c i) - elevationOf F c m =
        (elevationOf F c i - elevationOf F c m) + F.cosAtan (gradeAt c (i + 1)) * gradeAt c (i + 1)
          * (x - odometer c i) := by rw [riseAt]; ring
      rw [e1, e2]; exact p
  · have p := (piece_samples (F := F) hF hv ht (by omega : m ≤ n)).add (Piece.flat (sub_nonneg.2 h1))
    have e1 : x - odometer c m = (odometer c n - odometer c m) + (x - odometer c n) := by ring
    rw [e1, ← add_zero (elevationOf F c n - elevationOf F c m)]
    exact p

/-- From a place up to a sample at or behind it. -/
theorem piece_down (hF : Trig F) (hv : SpeedsNonneg c) (ht : NonDecreasing c) {x e : K} (h : HeightAt F c x e)
    {m : Nat} (hm : m < c.length) (hx : x ≤ odometer c m) :
    Piece (odometer c m - x) (elevationOf F c m - e) := by
  have mono := odometer_mono hv ht
  rcases eq_or_lt_of_le hx with hx | hx
  · have p := piece_up hF hv ht h hm (by rw [hx])
    rw [hx, sub_self] at p
    have := p.zero
    left
    exact ⟨by rw [hx]; ring, by linarith⟩
  rcases h with ⟨i, i1, i2, i3, i4, rfl⟩ | ⟨n, hn, h1, rfl⟩
  · have hi : i + 1 ≤ m := by
      by_contra hc
      exact absurd ((mono (by omega : m ≤ i)).trans i2) (not_le.2 hx)
    have p := (Piece.slope (hF.rise (gradeAt c (i + 1))) (sub_nonneg.2 i3)).add
      (piece_samples (F := F) hF hv ht hi)
    have e1 : odometer c m - x = (odometer c (i + 1) - x) + (odometer c m - odometer c (i + 1)) := by ring
    have e2 : elevationOf F c m - (elevationOf F c i + riseAt F c (i + 1) * (x - odometer c i)) =
        F.cosAtan (gradeAt c (i + 1)) * gradeAt c (i + 1) * (odometer c (i + 1) - x)
        + (elevationOf F c m - elevationOf F c (i + 1)) := by
      rw [show elevationOf F c (i + 1) = elevationOf F c i
        + riseAt F c (i + 1) * (odometer c (i + 1) - odometer c i) from rfl, riseAt]
      ring
    rw [e1, e2]; exact p
  · exact absurd ((mono (by omega : m ≤ n)).trans h1) (not_le.2 hx)

/-- Between two places on the road the rise is less than the way. -/
theorem piece_between (hF : Trig F) (hv : SpeedsNonneg c) (ht : NonDecreasing c) {x y e e' : K}
    (h : HeightAt F c x e) (h' : HeightAt F c y e') (hxy : x ≤ y) : Piece (y - x) (e' - e) := by
  have mono := odometer_mono hv ht
  have via : ∀ m, m < c.length → x ≤ odometer c m → odometer c m ≤ y → Piece (y - x) (e' - e) := by
    intro m hm h1 h2
    have p := (piece_down hF hv ht h hm h1).add (piece_up hF hv ht h' hm h2)
    have e1 : y - x = (odometer c m - x) + (y - odometer c m) := by ring
    have e2 : e' - e = (elevationOf F c m - e) + (e' - elevationOf F c m) := by ring
    rw [e1, e2]; exact p
  have h0 := h
  have h0' := h'
  rcases h with ⟨i, i1, i2, i3, i4, rfl⟩ | ⟨n, hn, h1, rfl⟩
  · rcases le_or_gt (odometer c (i + 1)) y with hy | hy
    · exact via (i + 1) i1 i3 hy
    · rcases h' with ⟨j, j1, j2, j3, j4, rfl⟩ | ⟨n, hn, h1, rfl⟩
      · rcases Nat.lt_trichotomy j i with hj | hj | hj
        · have : y ≤ odometer c i := j3.trans (mono (by omega))
          exact via i (by omega) (hxy.trans this) (i2.trans hxy)
        · subst hj
          have p := Piece.slope (hF.rise (gradeAt c (j + 1))) (sub_nonneg.2 hxy)
          have e2 : elevationOf F c j + riseAt F c (j + 1) * (y - odometer c j)
              - (elevationOf F c j + riseAt F c (j + 1) * (x - odometer c j)) =
            F.cosAtan (gradeAt c (j + 1)) * gradeAt c (j + 1) * (y - x) := by rw [riseAt]; ring
          rw [e2]; exact p
        · exact absurd ((mono (by omega : i + 1 ≤ j)).trans j2) (not_le.2 hy)
      · exact absurd ((mono (by omega : i + 1 ≤ n)).trans h1) (not_le.2 hy)
  · rcases eq_or_lt_of_le h1 with hx | hx
    · exact via n (by omega) (by rw [hx]) (h1.trans hxy)
    · rcases h' with ⟨j, j1, j2, j3, j4, rfl⟩ | ⟨n', hn', h1', rfl⟩
      · exact absurd (j3.trans (mono (by omega : j + 1 ≤ n))) (not_le.2 (lt_of_lt_of_le hx hxy))
      · have : n' = n := by omega
        subst this
        rw [sub_self]
        exact Piece.flat (sub_nonneg.2 hxy)

/-- **C104, heights.** The height of the reference road is determined by the distance from the start. -/
theorem C104_height_unique (hF : Trig F) (hv : SpeedsNonneg c) (ht : NonDecreasing c) {x e e' : K}
    (h : HeightAt F c x e) (h' : HeightAt F c x e') : e = e' := by
  have := piece_between hF hv ht h h' le_rfl
  rw [sub_self] at this
  have := this.zero
  linarith

/-- **C104, heights exist.** At every distance from the start the reference road has a height. -/
theorem C104_height_exists (F : Fns K) {c : Cyc K} (hne : c ≠ []) {x : K} (hx : 0 ≤ x) :
    ∃ e, HeightAt F c x e := by
  have key : ∀ n, n < c.length → x < odometer c n → ∃ e, ElevationAt F c x e := by
    intro n
    induction n with
    | zero => intro _ h; rw [odometer_zero] at h; exact absurd hx (not_le.2 h)
    | succ n ih =>
      intro hn h
      rcases lt_or_ge x (odometer c n) with h1 | h1
      · exact ih (by omega) h1
      · exact ⟨_, n, hn, h1, h.le, lt_of_le_of_lt h1 h, rfl⟩
  have hlen := List.length_pos_iff.2 hne
  obtain ⟨n, hn⟩ : ∃ n, c.length = n + 1 := ⟨c.length - 1, by omega⟩
  rcases lt_or_ge x (odometer c n) with h | h
  · obtain ⟨e, he⟩ := key n (by omega) h
    exact ⟨e, Or.inl he⟩
  · exact ⟨_, Or.inr ⟨n, hn, h, rfl⟩⟩

theorem height_start (hF : Trig F) (hv : SpeedsNonneg c) (ht : NonDecreasing c) (hne : c ≠ []) {e : K}
    (h : HeightAt F c 0 e) : e = 0 := by
  have p := piece_up hF hv ht h (List.length_pos_iff.2 hne) (by rw [odometer_zero])
  rw [odometer_zero, sub_self, elevationOf, sub_zero] at p
  exact p.zero

/-- The elevation that the grade lookup reads off its tables is the height of the road. -/
theorem interpElevation_height (hv : SpeedsNonneg c) (ht : NonDecreasing c) (hg : gradeAllZero c = false)
    {x e : K} (h : HeightAt F c x e) : interpElevation F c x = e := by
  have hm := odometer_mono hv ht
  rw [C12_elevation F hv ht hg, elevTable_eq]
  rcases h with ⟨i, i1, i2, i3, i4, rfl⟩ | ⟨n, hn, h1, rfl⟩
  · have hs : elevationOf F c (i + 1) = elevationOf F c i
        + riseAt F c (i + 1) * (odometer c (i + 1) - odometer c i) := rfl
    rcases eq_or_lt_of_le i3 with hy | hy
    · rw [hy, interp_range_at _ _ hm (elevationOf_flat F c) _ 0 (i + 1) (by omega) (by omega), hs]
    · rw [interp_range_mid _ _ hm i2 hy _ 0 (by omega) (by omega), hs, add_sub_cancel_left,
        mul_div_cancel_right₀ _ (ne_of_gt (sub_pos.2 i4)), add_comm]
  · have hne : (List.range' 0 c.length).map (fun i => (odometer c i, elevationOf F c i)) ≠ [] := by
      rw [hn]; simp
    have hsort : SortedX ((List.range' 0 c.length).map fun i => (odometer c i, elevationOf F c i)) := by
      unfold SortedX
      rw [List.pairwise_map]
      exact (List.pairwise_lt_range' (s := 0) (n := c.length)).imp fun h => hm h.le
    have hlast : ((List.range' 0 c.length).map fun i => (odometer c i, elevationOf F c i)).getLast hne =
        (odometer c n, elevationOf F c n) := by
      rw [List.getLast_map, List.getLast_range']
      simp [hn]
    rw [interp_right hsort hne (by rw [hlast]; exact h1), hlast]

/-- **C104, work against gravity of a step.** With car following or coasting on, the climbing power recorded for
a step over its duration is the weight times the rise of the reference road between the places where the
vehicle is before and after it. -/
theorem C104_rise (hF : Trig F) (hT : TracesRoad H P) (hm : P.missedTrace = false) {s : Sim K}
    (h : Reachable F H V P s) (hv : SpeedsNonneg s.cyc0) (ht : NonDecreasing s.cyc0) {i : Nat} {p r : Row K}
    {dt a : K} (hs : StepAt s i p r dt a) {e e' : K} (he : HeightAt F s.cyc0 (drivenTo s (i - 1)) e)
    (he' : HeightAt F s.cyc0 (drivenTo s i) e')
    (hd : drivenTo s i = drivenTo s (i - 1) ∨ 1 / 1000000 < drivenTo s i - drivenTo s (i - 1)) :
    r.pow.ascentKw * dt = V.vehKg * P.aGrav * (e' - e) / 1000 := by
  obtain ⟨-, hp⟩ := C104_climbs (V := V) (F := F) hT hm h hs
  have hcov := hT.covered h hs
  have hasc := hp.ascent
  generalize hg : averageGradeCached F s.cyc0 (drivenTo s (i - 1)) (drivenTo s i - drivenTo s (i - 1)) = g at *
  have key : r.pow.ascentKw * dt =
      V.vehKg * P.aGrav * (F.sinAtan g * (drivenTo s i - drivenTo s (i - 1))) / 1000 := by
    rw [hasc, hcov, climbKw, avgSpeed]; ring
  rw [key]
  congr 2
  rcases hd with hd | hd
  · rw [hd] at he'
    rw [hd, C104_height_unique hF hv ht he he']
    ring
  · have hd0 : (0 : K) < drivenTo s i - drivenTo s (i - 1) := lt_trans (by positivity) hd
    have hpc : |e' - e| < drivenTo s i - drivenTo s (i - 1) := by
      rcases piece_between hF hv ht he he' (by linarith) with ⟨h1, -⟩ | h1
      · rw [h1] at hd0; exact absurd hd0 (lt_irrefl _)
      · exact h1
    by_cases hz : gradeAllZero s.cyc0 = true
    · have hz' : ∀ k, elevationOf F s.cyc0 k = 0 := by
        intro k
        induction k with
        | zero => rfl
        | succ k ih => rw [elevationOf, ih, riseAt, gradeAllZero_at hz]; simp
      have all : ∀ {x y : K}, HeightAt F s.cyc0 x y → y = 0 := by
        rintro x y (⟨j, -, -, -, -, rfl⟩ | ⟨n, -, -, rfl⟩)
        · rw [hz', riseAt, gradeAllZero_at hz]; simp
        · exact hz' n
      rw [averageGradeCached, if_pos hz] at hg
      rw [← hg, hF.level, all he, all he']
      ring
    · have hz' : gradeAllZero s.cyc0 = false := by simpa using hz
      rw [averageGradeCached, if_neg hz, if_neg (not_le.2 hd),
        interpElevation_height hv ht hz' he,
        show drivenTo s (i - 1) + (drivenTo s i - drivenTo s (i - 1)) = drivenTo s i by ring,
        interpElevation_height hv ht hz' he'] at hg
      rw [← hg, hF.inverse _ (by rw [abs_div, abs_of_pos hd0, div_lt_one hd0]; exact hpc),
        div_mul_cancel₀ _ (ne_of_gt hd0)]

/-- **C104, work against gravity of a trip.** Summed over a trip in which no step covers less than 1e-6 m without
standing still, it is the weight times the height that the reference road has gained where the vehicle is. -/
theorem C104_total (hF : Trig F) (hT : TracesRoad H P) (hm : P.missedTrace = false) {s : Sim K}
    (h : Reachable F H V P s) (hne : s.cyc0 ≠ []) (hv : SpeedsNonneg s.cyc0) (ht : NonDecreasing s.cyc0)
    (hd : ∀ i, 1 ≤ i → i < s.i →
      drivenTo s i = drivenTo s (i - 1) ∨ 1 / 1000000 < drivenTo s i - drivenTo s (i - 1)) :
    ∀ n, n < s.i → ∀ e, HeightAt F s.cyc0 (drivenTo s n) e →
      climbedKj s n = V.vehKg * P.aGrav * e / 1000 := by
  have hnn : ∀ n, n < s.i → 0 ≤ drivenTo s n := by
    intro n
    induction n with
    | zero => intro _; rw [drivenTo, odometer_zero]
    | succ n ih =>
      intro hn
      have h0 := ih (by omega)
      rcases hd (n + 1) (by omega) hn with h1 | h1
      · rw [h1]; exact h0
      · rw [Nat.add_sub_cancel] at h1
        have : (0 : K) < 1 / 1000000 := by positivity
        linarith
  intro n
  induction n with
  | zero =>
    intro _ e he
    rw [drivenTo, odometer_zero] at he
    rw [height_start hF hv ht hne he]
    simp [climbedKj]
  | succ n ih =>
    intro hn e he
    obtain ⟨e0, he0⟩ := C104_height_exists F hne (hnn n (by omega))
    obtain ⟨p, r, dt, a, hs⟩ := stepAt_exists hT.loc h (by omega : 1 ≤ n + 1) hn
    have := C104_rise (V := V) hF hT hm h hv ht hs (by rw [Nat.add_sub_cancel]; exact he0) he (hd _ (by omega) hn)
    rw [climbedKj, ih (by omega) e0 he0, List.getD_eq_getElem?_getD, hs.row, Option.getD_some, ← hs.dt, this]
    ring

end Field

section Lawless
variable {K : Type*} [Zero K] [One K] [NatCast K] [Add K] [Sub K] [Mul K] [Div K] [Neg K]
  [LinearOrder K]
variable {F : Fns K} {P : SimParams K}

theorem idmHook_keepSamples : KeepSamples (idmHook F P (K := K)) := by
  intro s s' h j hj
  obtain ⟨_, _, v, -, -, -, rfl⟩ := C30_hook h
  have : s.i ≠ j := by omega
  simp only [setSpeed, List.getElem?_modify]
  simp [this]

end Lawless

section Floor
variable {K : Type*} [Field K] [LinearOrder K] [IsStrictOrderedRing K] [FloorRing K]
variable {F : Fns K} {V : Veh K} {P : SimParams K}

theorem coastHook_keepSamples : KeepSamples (coastHook F V P (K := K)) :=
  fun _ _ h j hj => (coastHook_edit h).before j hj

/-- Car following and coasting of the code meet the conditions. -/
theorem realHooks_tracesRoad (hm : P.coastAllow = true ∨ P.idmAllow = true) :
    TracesRoad (realHooks (K := K) F V P) P :=
  ⟨realHooks_local, realHooks_keepRows, fun _ => idmHook_keepSamples, fun _ => coastHook_keepSamples, hm⟩

/-- **C104 for the driving modes of the code.** Over a whole simulation with car following or coasting, the work
against gravity is the weight times the height of the reference road at the distance driven. -/
theorem C104_real (hF : Trig F) (hmode : P.coastAllow = true ∨ P.idmAllow = true) (hm : P.missedTrace = false)
    {c : Cyc K} {init : Option K} {aux : Option (List K)} {s : Sim K}
    (h : simDrive F (realHooks F V P) V P (Sim.new c) init aux = .ok s) (hv : SpeedsNonneg c)
    (ht : NonDecreasing c) (hd : ∀ i, 1 ≤ i → i < c.length →
      drivenTo s i = drivenTo s (i - 1) ∨ 1 / 1000000 < drivenTo s i - drivenTo s (i - 1))
    {n : Nat} (hn : n < c.length) {e : K} (he : HeightAt F c (drivenTo s n) e) :
    climbedKj s n = V.vehKg * P.aGrav * e / 1000 := by
  obtain ⟨soc, w⟩ := simDrive_done realHooks_local rfl h
  have hc : s.cyc0 = c := w.cyc0
  have hi : s.i = c.length := by rw [w.atEnd]; rfl
  refine C104_total hF (realHooks_tracesRoad hmode) hm (Reachable.simDrive realHooks_local rfl h) ?_ (by rw [hc]; exact hv)
    (by rw [hc]; exact ht) (fun i h1 h2 => hd i h1 (by rw [← hi]; exact h2)) n (by rw [hi]; exact hn) e
    (by rw [hc]; exact he)
  rw [hc]; intro e; rw [e] at hn; simp at hn

end Floor

/-! ### The functions of the code -/

/-- Sine and cosine of the arc tangent and tangent of the arc sine obey what is asked of them. -/
theorem C104_trig (F : Fns ℝ) :
    Trig { F with sinAtan := fun g => Real.sin (Real.arctan g), cosAtan := fun g => Real.cos (Real.arctan g),
                  tanAsin := fun y => Real.tan (Real.arcsin y) } := by
  refine ⟨by simp, fun y hy => ?_, fun g => ?_⟩
  · show Real.sin (Real.arctan (Real.tan (Real.arcsin y))) = y
    obtain ⟨h1, h2⟩ := abs_lt.1 hy
    rw [Real.arctan_tan (Real.neg_pi_div_two_lt_arcsin.2 h1) (Real.arcsin_lt_pi_div_two.2 h2),
      Real.sin_arcsin h1.le h2.le]
  · show |Real.cos (Real.arctan g) * g| < 1
    have e : Real.cos (Real.arctan g) * g = Real.sin (Real.arctan g) := by
      have := Real.tan_arctan g
      rw [Real.tan_eq_sin_div_cos, div_eq_iff (Real.cos_arctan_pos g).ne'] at this
      rw [this]; ring
    rw [e, Real.sin_arctan, abs_div, abs_of_pos (by positivity : (0:ℝ) < √(1 + g ^ 2)),
      div_lt_one (by positivity), ← Real.sqrt_sq_eq_abs]
    exact Real.sqrt_lt_sqrt (by positivity) (by linarith)

/-! ### Concrete cases -/
open Demo

/-- Rational stand-ins with the same laws. -/
def trigFns : Fns ℚ :=
  { fns with
    sinAtan := fun g => g / (1 + |g|)
    cosAtan := fun g => 1 / (1 + |g|)
    tanAsin := fun y => y / (1 - |y|) }

theorem trigFns_trig : Trig trigFns := by
  refine ⟨by simp [trigFns], fun y hy => ?_, fun g => ?_⟩
  · show y / (1 - |y|) / (1 + |y / (1 - |y|)|) = y
    have h1 : 0 < 1 - |y| := by linarith
    rw [abs_div, abs_of_pos h1]
    field_simp
    ring
  · show |1 / (1 + |g|) * g| < 1
    have h1 : 0 < 1 + |g| := by positivity
    rw [abs_mul, abs_of_pos (by positivity : 0 < 1 / (1 + |g|)), one_div, inv_mul_lt_one₀ h1]
    linarith

/-- A hill that gets steeper on the way. -/
def steepTrace : Cyc ℚ := [⟨0, 0, 0, 0⟩, ⟨1, 20, 1/20, 0⟩, ⟨2, 40, 1/2, 0⟩, ⟨3, 40, 1/4, 0⟩]

/-- Brisk car following. -/
def briskFollower : SimParams ℚ := { params with idmAllow := true, idmAccel := 20 }

/-- A follower on this hill falls behind and ends between two samples of the reference; the road it has climbed in
its last step has a grade that no sample has, and the trace was out of reach. -/
theorem C104_demo : Trig trigFns ∧ SpeedsNonneg steepTrace ∧ NonDecreasing steepTrace ∧
    ∃ s, simDrive trigFns (realHooks trigFns conv briskFollower) conv briskFollower (Sim.new steepTrace) none none
        = .ok s ∧
      (∀ i, 1 ≤ i → i < steepTrace.length →
        drivenTo s i = drivenTo s (i - 1) ∨ 1 / 1000000 < drivenTo s i - drivenTo s (i - 1)) ∧
      (s.rows.getD 3 Row.zero).pow.cycMet = false ∧ s.cyc.grades.getD 3 0 ∉ steepTrace.grades ∧
      ∃ e, HeightAt trigFns steepTrace (drivenTo s 3) e ∧ e ≠ 0 ∧
        climbedKj s 3 = conv.vehKg * briskFollower.aGrav * e / 1000 := by
  have hv : SpeedsNonneg steepTrace := by
    intro x hx
    simp only [steepTrace, List.mem_cons, List.not_mem_nil, or_false] at hx
    rcases hx with rfl | rfl | rfl | rfl <;> norm_num
  have ht : NonDecreasing steepTrace := by unfold NonDecreasing steepTrace; decide +kernel
  refine ⟨trigFns_trig, hv, ht, ?_⟩
  have hall : (match simDrive trigFns (realHooks trigFns conv briskFollower) conv briskFollower
        (Sim.new steepTrace) none none with
      | .ok s => decide ((∀ i ∈ List.range' 1 3,
          drivenTo s i = drivenTo s (i - 1) ∨ 1 / 1000000 < drivenTo s i - drivenTo s (i - 1)) ∧
          (s.rows.getD 3 Row.zero).pow.cycMet = false ∧ (∀ g ∈ steepTrace.grades, s.cyc.grades.getD 3 0 ≠ g) ∧
          0 ≤ drivenTo s 3 ∧ climbedKj s 3 ≠ 0)
      | .error _ => false) = true := by decide +kernel
  cases hr : simDrive trigFns (realHooks trigFns conv briskFollower) conv briskFollower (Sim.new steepTrace)
      none none with
  | error e => rw [hr] at hall; simp at hall
  | ok s =>
    rw [hr] at hall
    obtain ⟨h1, h2, h3, h4, h5⟩ := of_decide_eq_true hall
    have hd : ∀ i, 1 ≤ i → i < steepTrace.length →
        drivenTo s i = drivenTo s (i - 1) ∨ 1 / 1000000 < drivenTo s i - drivenTo s (i - 1) :=
      fun i a b => h1 i (by
        have : i < 4 := b
        rw [List.mem_range'_1]; omega)
    obtain ⟨e, he⟩ := C104_height_exists trigFns (c := steepTrace) (by simp [steepTrace]) h4
    have hc := C104_real trigFns_trig (Or.inr rfl) rfl hr hv ht hd (n := 3) (by decide) he
    refine ⟨s, rfl, hd, h2, fun hg => h3 _ hg rfl, e, he, ?_, hc⟩
    rintro rfl
    rw [hc] at h5
    simp at h5

end Fastsim.Props
