import Verif.Props.RustHeat
import Verif.Lemmas.Interp
import Verif.Model.RsCoastDown

/-!
# C114: the properties of air of the Rust core
-/

set_option linter.unusedSectionVars false

namespace Fastsim

namespace Spec
variable {K : Type*} [LinearOrder K]

/-- A number brought into an interval. -/
def into (a b x : K) : K := max a (min x b)

end Spec

namespace Props
open Fastsim Spec

section Tables
variable {K : Type*} [Field K] [LinearOrder K] [IsStrictOrderedRing K]

theorem air_front (ys : List K) (hl : ys.length = 25) :
    ∃ p l, (airTe : List K).zip ys = p :: l ∧ p.1 = -60 ∧ ys.head? = some p.2 ∧
      ((p :: l).getLast (by simp)).1 = 5000 ∧ ys.getLast? = some ((p :: l).getLast (by simp)).2 := by
  match ys, hl with
  | [a1, a2, a3, a4, a5, a6, a7, a8, a9, a10, a11, a12, a13, a14, a15, a16, a17, a18, a19, a20, a21, a22, a23, a24, a25], _ =>
    exact ⟨_, _, rfl, by norm_num [dec], rfl, by simp [dec]; norm_num, rfl⟩

/-- The lookups for a table of values `ys` do not panic and give the interpolant. -/
theorem air_eq {ys : List K} (hl : ys.length = 25) (x : K) :
    airAt airTe ys x = interp x ((airTe : List K).zip ys) :=
  (airAt_ok (airTe_strict (K := K)) (by simp [airTe_length]) (by rw [airTe_length, hl]) x).2

theorem air_strictX {ys : List K} : StrictX ((airTe : List K).zip ys) := by
  unfold StrictX
  have : ∀ (xs ys : List K), xs.Pairwise (· < ·) → (xs.zip ys).Pairwise fun a b => a.1 < b.1 := by
    intro xs
    induction xs with
    | nil => intro ys _; simp
    | cons a xs ih =>
      intro ys h
      cases ys with
      | nil => simp
      | cons b ys =>
        rw [List.zip_cons_cons, List.pairwise_cons]
        exact ⟨fun p hp => (List.pairwise_cons.1 h).1 _ (List.of_mem_zip hp).1, ih ys (List.pairwise_cons.1 h).2⟩
  exact this _ _ airTe_strict

theorem air_slope {ys : List K} (hl : ys.length = 25) {m M : K} (hs : SlopesIn m M ((airTe : List K).zip ys)) {x y : K}
    (h1 : -60 ≤ x) (h2 : x ≤ y) (h3 : y ≤ 5000) :
    m * (y - x) ≤ airAt airTe ys y - airAt airTe ys x ∧ airAt airTe ys y - airAt airTe ys x ≤ M * (y - x) := by
  rw [air_eq hl, air_eq hl]
  obtain ⟨p, l, e, e1, -, e2, -⟩ := air_front ys hl
  have h := air_strictX (K := K) (ys := ys)
  rw [e] at hs h ⊢
  exact interp_slope h hs (by rw [e1]; exact h1) h2 (by rw [e2]; exact h3)

theorem air_below {ys : List K} (hl : ys.length = 25) {x : K} (h : x ≤ -60) : some (airAt airTe ys x) = ys.head? := by
  rw [air_eq hl]
  obtain ⟨p, l, e, e1, e3, -, -⟩ := air_front ys hl
  have := air_strictX (K := K) (ys := ys)
  rw [e] at this ⊢
  rw [interp_left this (by rw [e1]; exact h), e3]

theorem air_above {ys : List K} (hl : ys.length = 25) {x : K} (h : 5000 ≤ x) : some (airAt airTe ys x) = ys.getLast? := by
  rw [air_eq hl]
  obtain ⟨p, l, e, -, -, e2, e3⟩ := air_front ys hl
  have := air_strictX (K := K) (ys := ys)
  rw [e3]
  rw [e] at this ⊢
  rw [interp_right (this.imp fun h => h.le) (by simp) (by rw [e2]; exact h)]

theorem air_between {ys : List K} (hl : ys.length = 25) {lo hi : K} (h : ∀ y ∈ ys, lo ≤ y ∧ y ≤ hi) (x : K) :
    lo ≤ airAt airTe ys x ∧ airAt airTe ys x ≤ hi := by
  rw [air_eq hl]
  refine interp_bounds x lo hi _ ?_ fun z hz => h _ (List.of_mem_zip hz).2
  intro h0
  have := congrArg List.length h0
  rw [List.length_zip, airTe_length, hl] at this
  simp at this

theorem airH_slopes : SlopesIn (10049 / 10 : K) (13361 / 10) ((airTe : List K).zip airH) := by
  simp only [airTe, airH, List.map, List.cons_append, List.nil_append, List.zip_cons_cons, SlopesIn, dec]
  norm_num [SlopesIn]

theorem airK_slopes : SlopesIn (439 / 10000000 : K) (824 / 10000000) ((airTe : List K).zip airK) := by
  simp only [airTe, airK, List.map, List.cons_append, List.nil_append, List.zip_cons_cons, SlopesIn, dec]
  norm_num [SlopesIn]

theorem airMu_slopes : SlopesIn (216 / 10000000000 : K) (551 / 10000000000) ((airTe : List K).zip airMu) := by
  simp only [airTe, airMu, List.map, List.cons_append, List.nil_append, List.zip_cons_cons, SlopesIn, dec]
  norm_num [SlopesIn]

/-- **C114 (enthalpy).** Between -60 °C and 5000 °C heating air by a degree raises `get_h` by 1004.9 to 1336.1 J/kg, whatever the
temperature, so the two other lookups of heat agree with it: `get_cp` is between 1005.5 and 1347 J/(kg K). -/
theorem C114_enthalpy {x y : K} (h1 : -60 ≤ x) (h2 : x ≤ y) (h3 : y ≤ 5000) :
    10049 / 10 * (y - x) ≤ airAt airTe airH y - airAt airTe airH x ∧
    airAt airTe airH y - airAt airTe airH x ≤ 13361 / 10 * (y - x) := air_slope rfl airH_slopes h1 h2 h3

/-- **C114 (range).** Whatever the temperature, the lookups give values of air: `get_cp`, `get_k`, `get_mu`, `get_pr` and `get_h`
between the least and the greatest of their tables, so never zero and never negative. -/
theorem C114_range (x : K) :
    (10055 / 10 ≤ airAt airTe airCp x ∧ airAt airTe airCp x ≤ 13470 / 10) ∧
    (19597 / 1000000 ≤ airAt airTe airK x ∧ airAt airTe airK x ≤ 260810 / 1000000) ∧
    (14067 / 1000000000 ≤ airAt airTe airMu x ∧ airAt airTe airMu x ≤ 140060 / 1000000000) ∧
    (698 / 1000 ≤ airAt airTe airPr x ∧ airAt airTe airPr x ≤ 744 / 1000) ∧
    (338940 ≤ airAt airTe airH x ∧ airAt airTe airH x ≤ (6662000 : K)) := by
  refine ⟨air_between rfl ?_ x, air_between rfl ?_ x, air_between rfl ?_ x, air_between rfl ?_ x, air_between rfl ?_ x⟩ <;>
    simp only [airCp, airK, airMu, airPr, airH, List.map, List.zipWith, dec, List.forall_mem_cons] <;> norm_num

/-- **C114 (order).** Inside the tables hotter air has strictly more enthalpy, conducts strictly better and is strictly more
viscous. -/
theorem C114_order {x y : K} (h1 : -60 ≤ x) (h2 : x < y) (h3 : y ≤ 5000) :
    airAt (airTe : List K) airH x < airAt airTe airH y ∧ airAt (airTe : List K) airK x < airAt airTe airK y ∧
    airAt (airTe : List K) airMu x < airAt airTe airMu y := by
  have d : 0 < y - x := sub_pos.2 h2
  have k1 := (air_slope (ys := airH) rfl airH_slopes h1 h2.le h3).1
  have k2 := (air_slope (ys := airK) rfl airK_slopes h1 h2.le h3).1
  have k3 := (air_slope (ys := airMu) rfl airMu_slopes h1 h2.le h3).1
  refine ⟨?_, ?_, ?_⟩ <;> nlinarith

/-- **C114 (outside).** Colder than -60 °C and hotter than 5000 °C nothing changes any more: every lookup gives the value of the
end of the table, which `get_rho` does not. -/
theorem C114_outside {ys : List K} (h : ys ∈ [airK, airCp, airH, airMu, airPr]) (x : K) :
    airAt airTe ys x = airAt airTe ys (into (-60) 5000 x) := by
  have hl : ys.length = 25 := by
    simp only [List.mem_cons, List.not_mem_nil, or_false] at h
    rcases h with rfl | rfl | rfl | rfl | rfl <;> rfl
  unfold into
  rcases le_total x (-60) with q | q
  · have : max (-60) (min x 5000) = (-60 : K) := max_eq_left ((min_le_left _ _).trans q)
    rw [this]
    exact Option.some.inj ((air_below hl q).trans (air_below hl le_rfl).symm)
  · rcases le_total x 5000 with q' | q'
    · rw [min_eq_left q', max_eq_right q]
    · rw [min_eq_right q', max_eq_right (by norm_num)]
      exact Option.some.inj ((air_above hl q').trans (air_above hl le_rfl).symm)

theorem air_forth {x : K} (h1 : -60 ≤ x) (h2 : x ≤ 5000) : airAt (airH : List K) airTe (airAt airTe airH x) = x := by
  rw [(airAt_ok (ys := airTe) (airH_strict (K := K)) (by simp [airH_length]) rfl _).2, air_eq rfl, ← zip_map_swap airH airTe]
  have z := pairwise_zip (airH_strict (K := K)) (airTe_strict (K := K))
  rw [zip_map_swap airH airTe]
  obtain ⟨p, l, e, e1, -, e2, -⟩ := air_front (airH : List K) rfl
  have e' : (airH : List K).zip airTe = (p.2, p.1) :: l.map fun q => (q.2, q.1) := by
    rw [← zip_map_swap airTe airH, e, List.map_cons]
  have e'' : (airTe : List K).zip airH = ((p.2, p.1) :: l.map fun q => (q.2, q.1)).map fun q => (q.2, q.1) := by
    rw [← e', zip_map_swap]
  rw [e'']
  rw [e'] at z ⊢
  refine interp_back (z.imp fun q => q.1) (z.imp fun q => q.2) ?_ ?_
  · rw [e1]; exact h1
  · have := List.getLast_map (f := fun q : K × K => (q.2, q.1)) (l := p :: l) (by simp)
    simp only [List.map_cons] at this
    rw [this, e2]; exact h2

/-- **C114 (inverse).** `get_te_from_h` and `get_h` undo each other over the whole table; outside they give its ends, so a flame
is never hotter than 5000 °C. -/
theorem C114_inverse (x : K) :
    airAt (airH : List K) airTe (airAt airTe airH x) = into (-60) 5000 x ∧
    airAt (airTe : List K) airH (airAt airH airTe x) = into 338940 6662000 x := by
  constructor
  · rw [C114_outside (by simp)]
    exact air_forth (le_max_left _ _) (max_le (by norm_num) (min_le_right _ _))
  · have r := fun y h1 h2 => air_back (K := K) (y := y) h1 h2
    unfold into
    rcases le_total x 338940 with q | q
    · have : max 338940 (min x 6662000) = (338940 : K) := max_eq_left ((min_le_left _ _).trans q)
      rw [this]
      refine le_antisymm ?_ (C114_range _).2.2.2.2.1
      have := (C105_air (K := K) (C105_air q).2).1
      rwa [r 338940 le_rfl (by norm_num)] at this
    · rcases le_total x 6662000 with q' | q'
      · rw [min_eq_left q', max_eq_right q, r x q q']
      · rw [min_eq_right q', max_eq_right (by norm_num)]
        refine le_antisymm (C114_range _).2.2.2.2.2 ?_
        have := (C105_air (K := K) (C105_air q').2).1
        rwa [r 6662000 (by norm_num) le_rfl] at this

/-- **C114 (total).** None of the six lookups panics, whatever number is looked up. -/
theorem C114_total (x : K) : (∀ ys ∈ [airK, airCp, airH, airMu, airPr], rsInterpolate x airTe ys = .ok (airAt (airTe : List K) ys x)) ∧
    rsInterpolate x airH airTe = .ok (airAt (airH : List K) airTe x) := by
  refine ⟨fun ys h => (airAt_ok airTe_strict (by simp [airTe_length]) ?_ x).1, (airAt_ok (ys := airTe) airH_strict (by simp [airH_length]) rfl x).1⟩
  simp only [List.mem_cons, List.not_mem_nil, or_false] at h
  rcases h with rfl | rfl | rfl | rfl | rfl <;> rfl

/-- At the `i`-th temperature of the table the lookup gives the `i`-th entry. -/
theorem air_at {ys : List K} (hl : ys.length = 25) {i : ℕ} (hi : i < 25) :
    airAt airTe ys ((airTe : List K)[i]'(by rw [airTe_length]; exact hi)) = ys[i]'(by rw [hl]; exact hi) := by
  rw [air_eq hl]
  have hz : i < ((airTe : List K).zip ys).length := by rw [List.length_zip, hl, airTe_length]; simpa using hi
  have := interp_knot (air_strictX (K := K) (ys := ys)) (List.getElem_mem hz)
  rwa [List.getElem_zip] at this

/-- **C114 (Prandtl number, at the table).** At each temperature of the table `get_pr` is viscosity times heat capacity by
conductivity. -/
theorem C114_prandtl {x : K} (h : x ∈ (airTe : List K)) :
    airAt airTe airPr x = airAt airTe airMu x * airAt airTe airCp x / airAt airTe airK x := by
  obtain ⟨i, hi, rfl⟩ := List.getElem_of_mem h
  rw [airTe_length] at hi
  rw [air_at (ys := airPr) rfl hi, air_at (ys := airMu) rfl hi, air_at (ys := airCp) rfl hi, air_at (ys := airK) rfl hi]
  simp only [airPr, List.getElem_zipWith]

theorem air_heat : ((airTe : List K).zip (airH.zip airCp)).Pairwise fun a b => -9 ≤ a.1 →
    a.2.2 * (b.1 - a.1) ≤ b.2.1 - a.2.1 ∧ b.2.1 - a.2.1 ≤ b.2.2 * (b.1 - a.1) := by
  simp only [airTe, airH, airCp, List.map, List.cons_append, List.nil_append, List.zip_cons_cons, dec, List.pairwise_cons,
    List.forall_mem_cons]
  norm_num

/-- **C114 (heat capacity).** From -9 °C on the tables of enthalpy and heat capacity fit: heating air from one temperature of
the table to a higher one takes at least the heat capacity at the lower and at most that at the higher, per degree. -/
theorem C114_heat_capacity {x y : K} (hx : x ∈ (airTe : List K)) (hy : y ∈ (airTe : List K)) (h : -9 ≤ x) (hxy : x < y) :
    airAt airTe airCp x * (y - x) ≤ airAt airTe airH y - airAt airTe airH x ∧
    airAt airTe airH y - airAt airTe airH x ≤ airAt airTe airCp y * (y - x) := by
  obtain ⟨i, hi, rfl⟩ := List.getElem_of_mem hx
  obtain ⟨j, hj, rfl⟩ := List.getElem_of_mem hy
  have hi' := hi
  have hj' := hj
  rw [airTe_length] at hi hj
  have hij : i < j := by
    by_contra hc
    rcases eq_or_lt_of_le (not_lt.1 hc) with rfl | hc
    · exact lt_irrefl _ hxy
    · exact lt_asymm hxy (List.pairwise_iff_getElem.1 (airTe_strict (K := K)) j i hj' hi' hc)
  have hz : ((airTe : List K).zip ((airH : List K).zip (airCp : List K))).length = 25 := rfl
  have := List.pairwise_iff_getElem.1 (air_heat (K := K)) i j (by rw [hz]; exact hi) (by rw [hz]; exact hj) hij
  simp only [List.getElem_zip] at this
  rw [air_at (ys := airH) rfl hi, air_at (ys := airH) rfl hj, air_at (ys := airCp) rfl hi, air_at (ys := airCp) rfl hj]
  exact this h

/-- **C114 (heat capacity, cold).** Below, the rounding of the enthalpies shows: from -60 °C to the next temperature heating takes
more than either heat capacity. -/
theorem C114_heat_capacity_cold : airAt (airTe : List ℚ) airCp (-60) * (60 - 5703690616 / 100000000) <
      airAt airTe airH (-5703690616 / 100000000) - airAt airTe airH (-60) ∧
    airAt (airTe : List ℚ) airCp (-5703690616 / 100000000) < airAt airTe airCp (-60) := by decide +kernel

theorem air_cp_shape : ((airTe : List K).zip (airCp : List K)).Pairwise fun a b =>
    (b.1 ≤ -22 → b.2 < a.2) ∧ (-23 ≤ a.1 → a.2 < b.2) := by
  simp only [airTe, airCp, List.map, List.cons_append, List.nil_append, List.zip_cons_cons, dec, List.pairwise_cons,
    List.forall_mem_cons]
  norm_num

/-- **C114 (heat capacity, shape).** The heat capacity falls from one temperature of the table to the next up to -22.5 °C and rises from
there on. -/
theorem C114_heat_capacity_shape {x y : K} (hx : x ∈ (airTe : List K)) (hy : y ∈ (airTe : List K)) (hxy : x < y) :
    (y ≤ -22 → airAt airTe airCp y < airAt airTe airCp x) ∧ (-23 ≤ x → airAt airTe airCp x < airAt airTe airCp y) := by
  obtain ⟨i, hi, rfl⟩ := List.getElem_of_mem hx
  obtain ⟨j, hj, rfl⟩ := List.getElem_of_mem hy
  have hi' := hi
  have hj' := hj
  rw [airTe_length] at hi hj
  have hij : i < j := by
    by_contra hc
    rcases eq_or_lt_of_le (not_lt.1 hc) with rfl | hc
    · exact lt_irrefl _ hxy
    · exact lt_asymm hxy (List.pairwise_iff_getElem.1 (airTe_strict (K := K)) j i hj' hi' hc)
  have hz : ((airTe : List K).zip (airCp : List K)).length = 25 := rfl
  have := List.pairwise_iff_getElem.1 (air_cp_shape (K := K)) i j (by rw [hz]; exact hi) (by rw [hz]; exact hj) hij
  simp only [List.getElem_zip] at this
  rw [air_at (ys := airCp) rfl hi, air_at (ys := airCp) rfl hj]
  exact this

/-- **C114 (viscosity and conductivity, shape).** From one temperature of the table to the next, viscosity and conductivity of air grow
less per degree than over the step before, up to 2948 °C. -/
theorem C114_flattening {i : Nat} (h : i + 2 < 23) {ys : List K} (hy : ys ∈ [airMu, airK]) :
    let x := (airTe : List K).getD i 0
    let y := (airTe : List K).getD (i + 1) 0
    let z := (airTe : List K).getD (i + 2) 0
    x < y ∧ y < z ∧ z ≤ 2948 ∧
    (airAt airTe ys z - airAt airTe ys y) / (z - y) < (airAt airTe ys y - airAt airTe ys x) / (y - x) := by
  have e : ∀ {zs : List K}, zs.length = 25 → ∀ j, j < 25 → airAt airTe zs ((airTe : List K).getD j 0) = zs.getD j 0 := by
    intro zs l j hj
    rw [List.getD_eq_getElem _ _ (by rw [airTe_length]; exact hj), List.getD_eq_getElem _ _ (by rw [l]; exact hj)]
    exact air_at l hj
  have l : ys.length = 25 := by
    simp only [List.mem_cons, List.not_mem_nil, or_false] at hy
    rcases hy with rfl | rfl <;> rfl
  simp only
  rw [e l _ (by omega), e l _ (by omega), e l _ (by omega)]
  simp only [List.mem_cons, List.not_mem_nil, or_false] at hy
  have h' : i < 21 := by omega
  rcases hy with rfl | rfl <;> interval_cases i <;>
    simp only [airTe, airMu, airK, List.map, List.cons_append, List.nil_append, List.getD_cons_succ, List.getD_cons_zero, dec] <;> norm_num

/-- **C114 (Prandtl number, between).** Between the temperatures of the table the three lookups do not fit together exactly: at
4420 °C the Prandtl number looked up is larger than that of the other three numbers, by less than one percent. -/
theorem C114_prandtl_between :
    (airAt (airTe : List ℚ) airMu 4420 * airAt airTe airCp 4420 / airAt airTe airK 4420 < airAt airTe airPr 4420) ∧
    airAt (airTe : List ℚ) airPr 4420 < 101 / 100 * (airAt airTe airMu 4420 * airAt airTe airCp 4420 / airAt airTe airK 4420) := by
  decide +kernel

/-- **C114 (density).** The thermal simulation takes the density `get_rho` at 180 m. At one height the density times the absolute
temperature is always the same, so, unlike the tables, it goes on falling beyond 5000 °C; at one temperature higher air is
thinner. -/
theorem C114_density {F : Fns K} {x y : K} (hx : -(27315 / 100) < x) (hxy : x < y) :
    airRho F x = rsGetRho F x none ∧
    (∀ h, rsGetRho F x h * (x + 27315 / 100) = rsGetRho F y h * (y + 27315 / 100)) ∧
    (∀ h, 0 < rsGetRho F x h → rsGetRho F y h < rsGetRho F x h) ∧
    ((∀ a b c : K, 0 ≤ a → a < b → 0 < c → F.pow a c < F.pow b c) → ∀ h h' : K, h < h' → h' ≤ 44000 →
      rsGetRho F x (some h') < rsGetRho F x (some h)) := by
  have d1 : 0 < x + 27315 / 100 := by linarith
  have d2 : 0 < y + 27315 / 100 := by linarith
  have e : ∀ h, rsGetRho F x h * (x + 27315 / 100) = rsGetRho F y h * (y + 27315 / 100) := by
    intro h
    have w : ∀ p t : K, t ≠ 0 → p / (287 * t) * t = p / 287 := fun p t ht => by field_simp
    simp only [rsGetRho]
    rw [w _ _ d1.ne', w _ _ d2.ne']
  refine ⟨?_, e, fun h hp => ?_, fun hm h h' hh hmax => ?_⟩
  · simp [airRho, rsGetRho, dec]
  · have := e h
    by_contra hc
    have hc := not_lt.1 hc
    nlinarith
  · simp only [rsGetRho, Option.getD_some]
    refine div_lt_div_of_pos_right ?_ (by linarith)
    refine mul_lt_mul_of_pos_left (hm _ _ _ ?_ ?_ (by norm_num)) (by norm_num)
    · exact div_nonneg (by linarith) (by norm_num)
    · exact div_lt_div_of_pos_right (by linarith) (by norm_num)

/-- **C114 (case).** Air of 20 °C: 419,407 J/kg, and back. -/
theorem C114_setting : 419000 < airAt (airTe : List ℚ) airH 20 ∧ airAt (airTe : List ℚ) airH 20 < 420000 ∧
    airAt (airH : List ℚ) airTe (airAt airTe airH 20) = 20 := by decide +kernel

end Tables
end Props
end Fastsim
