import Verif.Model.RsCli
import Verif.Lemmas.RsVeh
import Verif.Lemmas.Interp
import Verif.Props.RustRun
import Verif.Props.RustLabel
import Mathlib.Tactic.FieldSimp
import Mathlib.Tactic.Linarith

/-!
# C107: the command line program

Hydrogen and diesel, the rewriting of ADOPT vehicles, and what each option prints.
-/

set_option linter.unusedSectionVars false

namespace Fastsim.Spec

section
variable {K : Type*} [Field K] [LinearOrder K] [IsStrictOrderedRing K]

/-- `p` is read at `x` from the points `(xs i, ys i)`: on the straight line between two neighbours, and level outside. -/
def ReadAt (xs ys : List K) (x p : K) : Prop :=
  (∃ (i : ℕ) (a b ya yb : K), xs[i]? = some a ∧ xs[i + 1]? = some b ∧ ys[i]? = some ya ∧ ys[i + 1]? = some yb ∧
      a ≤ x ∧ x ≤ b ∧ p * (b - a) = ya * (b - x) + yb * (x - a))
    ∨ (∃ a ya, xs.head? = some a ∧ ys.head? = some ya ∧ x ≤ a ∧ p = ya)
    ∨ (∃ b yb, xs.getLast? = some b ∧ ys.getLast? = some yb ∧ b ≤ x ∧ p = yb)

end
end Fastsim.Spec

namespace Fastsim.Props
open Fastsim Fastsim.Spec

section Field
variable {K : Type*} [Field K] [LinearOrder K] [IsStrictOrderedRing K] [FloorRing K]

/-! ### Hydrogen and diesel -/

theorem h2Loop_spec (maxKw gge : K) (perc share : List K) : ∀ (l : List (K × K)) (t t' : H2Totals K),
    h2DieselLoop maxKw gge perc share t l = .ok t' →
    ∃ ps : List K, List.Forall₂ (fun s p => rsInterpolate (s.1 / maxKw) perc share = .ok p) l ps ∧
      t'.h2Kwh = t.h2Kwh + (List.zipWith (fun s p => p * s.2) l ps).sum ∧
      t'.dieselKwh = t.dieselKwh + ((l.map Prod.snd).sum - (List.zipWith (fun s p => p * s.2) l ps).sum) ∧
      t'.h2Gge = t.h2Gge + (t'.h2Kwh - t.h2Kwh) / gge ∧
      t'.dieselGge = t.dieselGge + (t'.dieselKwh - t.dieselKwh) / gge ∧
      t'.dieselGals = t.dieselGals + (t'.dieselKwh - t.dieselKwh) / dec 3795 100
  | [], t, t', h => by
    rw [h2DieselLoop, Except.ok.injEq] at h
    subst h
    exact ⟨[], .nil, by simp, by simp, by simp, by simp, by simp⟩
  | s :: l, t, t', h => by
    rw [h2DieselLoop, h2DieselStep] at h
    cases hp : rsInterpolate (s.1 / maxKw) perc share with
    | error e => rw [hp] at h; cases h
    | ok p =>
      rw [hp] at h
      obtain ⟨ps, h1, h2, h3, h4, h5, h6⟩ := h2Loop_spec maxKw gge perc share l _ _ h
      refine ⟨p :: ps, .cons hp h1, ?_, ?_, ?_, ?_, ?_⟩
      · rw [h2]; simp only [List.zipWith_cons_cons, List.sum_cons]; ring
      · rw [h3]; simp only [List.map_cons, List.zipWith_cons_cons, List.sum_cons]; ring
      · rw [h4, h2]; simp only; ring
      · rw [h5, h3]; simp only; ring
      · rw [h6, h3]; simp only; ring

theorem h2Diesel_ok {dist maxKw gge : K} {fc fs perc share : List K} {r : H2Diesel K}
    (h : h2Diesel dist maxKw gge fc fs perc share = .ok r) :
    fc.length = fs.length ∧ perc.length = share.length ∧
    ∃ ps : List K, List.Forall₂ (fun s p => rsInterpolate (s.1 / maxKw) perc share = .ok p) (fc.zip fs) ps ∧
      r.h2Kwh = (List.zipWith (fun s p => p * s.2) (fc.zip fs) ps).sum ∧
      r.dieselKwh = fs.sum - (List.zipWith (fun s p => p * s.2) (fc.zip fs) ps).sum ∧
      r.h2Gge = r.h2Kwh / gge ∧ r.dieselGge = r.dieselKwh / gge ∧ r.dieselGals = r.dieselKwh / dec 3795 100 ∧
      r.h2Mpgge = (if 0 < r.h2Gge then dist / r.h2Gge else 0) ∧
      r.dieselMpg = (if 0 < r.dieselGals then dist / r.dieselGals else 0) := by
  unfold h2Diesel at h
  split at h
  · cases h
  rename_i h1
  split at h
  · cases h
  rename_i h2
  push Not at h1 h2
  split at h
  · cases h
  rename_i t ht
  rw [Except.ok.injEq] at h
  obtain ⟨ps, a1, a2, a3, a4, a5, a6⟩ := h2Loop_spec maxKw gge perc share _ _ _ ht
  subst h
  have hm : (fc.zip fs).map Prod.snd = fs := by rw [List.map_snd_zip]; omega
  rw [hm] at a3
  refine ⟨h1, h2, ps, a1, ?_, ?_, ?_, ?_, ?_, rfl, rfl⟩
  · simpa using a2
  · simpa using a3
  · simpa using a4
  · simpa using a5
  · simpa using a6

/-- Hydrogen and diesel together are the fuel energy of the run, their gasoline equivalents that energy over the energy of a
gallon of gasoline, and gallons of diesel that of diesel over 37.95 kWh; the two economies are the distance over them, or zero. -/
theorem C107_split {dist maxKw gge : K} {fc fs perc share : List K} {r : H2Diesel K}
    (h : h2Diesel dist maxKw gge fc fs perc share = .ok r) :
    r.h2Kwh + r.dieselKwh = fs.sum ∧ r.h2Gge + r.dieselGge = fs.sum / gge ∧ r.h2Gge = r.h2Kwh / gge ∧
      r.dieselGals = r.dieselKwh / (3795 / 100) ∧
      r.h2Mpgge = (if 0 < r.h2Gge then dist / r.h2Gge else 0) ∧
      r.dieselMpg = (if 0 < r.dieselGals then dist / r.dieselGals else 0) := by
  obtain ⟨-, -, ps, -, e1, e2, e3, e4, e5, e6, e7⟩ := h2Diesel_ok h
  refine ⟨by rw [e1, e2]; ring, by rw [e3, e4, e1, e2]; ring, e3, ?_, e6, e7⟩
  rw [e5]; simp [dec]

theorem rsKept_mem : ∀ (l : List (K × K)) (a : K) (q : K × K), q ∈ rsKept a l → q ∈ l
  | [], _, _, h => by simp [rsKept] at h
  | p :: l, a, q, h => by
    rw [rsKept] at h
    split at h
    · rcases List.mem_cons.1 h with h | h
      · simp [h]
      · exact List.mem_cons_of_mem _ (rsKept_mem l _ q h)
    · exact List.mem_cons_of_mem _ (rsKept_mem l _ q h)

/-- Whatever the table, what is read from it is between its least and its greatest value. -/
theorem rsInterpolate_bounds {xs ys : List K} {x p lo hi : K} (h : rsInterpolate x xs ys = .ok p)
    (hb : ∀ y ∈ ys, lo ≤ y ∧ y ≤ hi) : lo ≤ p ∧ p ≤ hi := by
  have hl : xs.length = ys.length := by
    by_contra hn
    simp [rsInterpolate, hn] at h
  cases hz : xs.zip ys with
  | nil => simp [rsInterpolate, hl, hz] at h
  | cons q l =>
    by_cases h2 : rsKept q.1 l = []
    · simp [rsInterpolate, hl, hz, h2] at h
    · rw [rsInterpolate_kept hl hz h2, Except.ok.injEq] at h
      rw [← h]
      refine interp_bounds x lo hi _ (by simp) fun w hw => ?_
      have hw' : w ∈ xs.zip ys := by
        rw [hz]
        rcases List.mem_cons.1 hw with h | h
        · simp [h]
        · exact List.mem_cons_of_mem _ (rsKept_mem l _ _ h)
      exact hb _ (List.of_mem_zip (a := w.1) (b := w.2) hw').2

theorem sum_between {lo hi : K} : ∀ {l : List (K × K)} {ps : List K}, l.length = ps.length → (∀ s ∈ l, 0 ≤ s.2) →
    (∀ p ∈ ps, lo ≤ p ∧ p ≤ hi) →
    lo * (l.map Prod.snd).sum ≤ (List.zipWith (fun (s : K × K) p => p * s.2) l ps).sum ∧
      (List.zipWith (fun (s : K × K) p => p * s.2) l ps).sum ≤ hi * (l.map Prod.snd).sum
  | [], [], _, _, _ => by simp
  | [], _ :: _, h, _, _ => by simp at h
  | _ :: _, [], h, _, _ => by simp at h
  | s :: l, p :: ps, h, h0, hp => by
    obtain ⟨a, b⟩ := sum_between (l := l) (ps := ps) (by simpa using h) (fun s hs => h0 s (List.mem_cons_of_mem _ hs))
      (fun q hq => hp q (List.mem_cons_of_mem _ hq))
    have s0 := h0 s (by simp)
    obtain ⟨c, d⟩ := hp p (by simp)
    simp only [List.map_cons, List.sum_cons, List.zipWith_cons_cons]
    constructor
    · nlinarith [mul_le_mul_of_nonneg_right c s0]
    · nlinarith [mul_le_mul_of_nonneg_right d s0]

/-- Where all shares of the table are between `lo` and `hi`, so is the share of hydrogen in the fuel of the run. -/
theorem C107_share {dist maxKw gge : K} {fc fs perc share : List K} {r : H2Diesel K} {lo hi : K}
    (h : h2Diesel dist maxKw gge fc fs perc share = .ok r) (hfs : ∀ x ∈ fs, 0 ≤ x) (hb : ∀ y ∈ share, lo ≤ y ∧ y ≤ hi) :
    lo * fs.sum ≤ r.h2Kwh ∧ r.h2Kwh ≤ hi * fs.sum := by
  obtain ⟨hl, -, ps, hp, e1, -⟩ := h2Diesel_ok h
  have hm : (fc.zip fs).map Prod.snd = fs := by rw [List.map_snd_zip]; omega
  have key := sum_between (lo := lo) (hi := hi) hp.length_eq (fun s hs => hfs _ (List.of_mem_zip (a := s.1) (b := s.2) hs).2)
    fun p hq => ?_
  · rwa [hm, ← e1] at key
  · obtain ⟨i, hi', rfl⟩ := List.getElem_of_mem hq
    have := (List.forall₂_iff_get.1 hp).2 i (by rw [hp.length_eq]; exact hi') hi'
    exact rsInterpolate_bounds this hb

theorem readAt_interp {xs ys : List K} (hs : xs.Pairwise (· < ·)) (h2 : 2 ≤ xs.length) (hl : xs.length = ys.length) (x : K) :
    ReadAt xs ys x (interp x (xs.zip ys)) := by
  have hst := strictX_zip (ys := ys) hs
  obtain ⟨a, xs', rfl⟩ : ∃ a l, xs = a :: l := List.exists_cons_of_length_pos (by omega)
  obtain ⟨ya, ys', rfl⟩ : ∃ a l, ys = a :: l := List.exists_cons_of_length_pos (by omega)
  by_cases hx : x ≤ a
  · right; left
    refine ⟨a, ya, rfl, rfl, hx, ?_⟩
    rw [List.zip_cons_cons] at hst ⊢
    exact interp_left hst hx
  by_cases hx' : (a :: xs').getLast (by simp) ≤ x
  · right; right
    refine ⟨_, _, List.getLast?_eq_getLast_of_ne_nil (by simp), List.getLast?_eq_getLast_of_ne_nil (by simp), hx', ?_⟩
    have hne : (a :: xs').zip (ya :: ys') ≠ [] := by simp
    have hlast : ((a :: xs').zip (ya :: ys')).getLast hne = ((a :: xs').getLast (by simp), (ya :: ys').getLast (by simp)) := by
      rw [List.getLast_eq_getElem, List.getElem_zip, List.getLast_eq_getElem, List.getLast_eq_getElem]
      simp only [List.length_zip, List.length_cons] at hl ⊢
      have : xs'.length = ys'.length := by simpa using hl
      simp [this]
    have := interp_right hst.sorted hne (x := x) (by rw [hlast]; exact hx')
    rw [this, hlast]
  · left
    push Not at hx hx'
    -- the first sample at or right of `x`
    set j := (a :: xs').findIdx (fun y => decide (x ≤ y)) with hj
    have hjl : j < (a :: xs').length := List.findIdx_lt_length_of_exists ⟨_, List.getLast_mem (by simp), by simpa using hx'.le⟩
    have hjx : x ≤ (a :: xs')[j] := by
      have := List.findIdx_getElem (w := hjl)
      simpa using this
    have hj0 : j ≠ 0 := by
      intro h0
      simp only [h0, List.getElem_cons_zero] at hjx
      exact absurd hjx (not_le.2 hx)
    obtain ⟨i, hi⟩ := Nat.exists_eq_succ_of_ne_zero hj0
    have hil : i < (a :: xs').length := by omega
    have hlt : (a :: xs')[i] < x := by
      have := List.not_of_lt_findIdx (p := fun y => decide (x ≤ y)) (xs := a :: xs') (i := i) (by omega)
      simpa using this
    have hi1 : i + 1 < (a :: xs').length := by omega
    have hy : i < (ya :: ys').length := by omega
    have hy1 : i + 1 < (ya :: ys').length := by omega
    have hj1 : x ≤ (a :: xs')[i + 1] := by simpa [hi] using hjx
    refine ⟨i, _, _, _, _, List.getElem?_eq_getElem hil, List.getElem?_eq_getElem hi1, List.getElem?_eq_getElem hy,
      List.getElem?_eq_getElem hy1, hlt.le, hj1, ?_⟩
    set l := (a :: xs').zip (ya :: ys') with hL
    have hll : l.length = (a :: xs').length := by simp only [hL, List.length_zip]; omega
    have d1 := List.drop_eq_getElem_cons (l := l) (i := i) (by omega)
    have d2 := List.drop_eq_getElem_cons (l := l) (i := i + 1) (by omega)
    have e : l = l.take i ++ l[i] :: l[i + 1] :: l.drop (i + 2) := by
      conv_lhs => rw [← List.take_append_drop i l, d1, d2]
    have hpw := List.pairwise_iff_getElem.1 hst
    have g0 : (l[i]'(by omega)).1 = (a :: xs')[i] := by simp only [hL, List.getElem_zip]
    have g1 : (l[i + 1]'(by omega)).1 = (a :: xs')[i + 1] := by simp only [hL, List.getElem_zip]
    have hlt2 : (a :: xs')[i] < (a :: xs')[i + 1] := lt_of_lt_of_le hlt hj1
    have hne : (a :: xs')[i + 1] - (a :: xs')[i] ≠ 0 := (sub_pos.2 hlt2).ne'
    have key : interp x l = (l[i + 1].2 - l[i].2) / (l[i + 1].1 - l[i].1) * (x - l[i].1) + l[i].2 := by
      conv_lhs => rw [e]
      refine interp_line (g0 ▸ hlt) (g1 ▸ hj1) ?_ _ ?_
      · intro hq r hr
        rw [List.head?_drop] at hr
        obtain ⟨hr1, hr2⟩ := List.getElem?_eq_some_iff.1 hr
        have := hpw (i + 1) (i + 2) (by omega) hr1 (by omega)
        rw [hr2] at this
        exact lt_of_le_of_lt (le_of_eq hq.symm) this
      · intro b hb
        obtain ⟨k, hk, rfl⟩ := List.getElem_of_mem hb
        simp only [List.length_take] at hk
        rw [List.getElem_take]
        refine lt_trans (hpw k i (by omega) (by omega) (by omega)) ?_
        rw [g0]; exact hlt
    rw [key]
    simp only [hL, List.getElem_zip]
    field_simp
    ring

/-- With at least two points in order, the program succeeds, and the hydrogen of every step is the share read from the table at
the power of the engine over its greatest power. -/
theorem C107_table {dist maxKw gge : K} {fc fs perc share : List K} (hf : fc.length = fs.length)
    (hs : perc.Pairwise (· < ·)) (h2 : 2 ≤ perc.length) (hl : perc.length = share.length) :
    ∃ r ps, h2Diesel dist maxKw gge fc fs perc share = .ok r ∧
      List.Forall₂ (fun x p => ReadAt perc share (x / maxKw) p) fc ps ∧
      r.h2Kwh = (List.zipWith (fun p e => p * e) ps fs).sum := by
  have hok : ∀ (l : List (K × K)) (t : H2Totals K), ∃ t', h2DieselLoop maxKw gge perc share t l = .ok t' := by
    intro l
    induction l with
    | nil => exact fun t => ⟨t, rfl⟩
    | cons s l ih =>
      intro t
      rw [h2DieselLoop, h2DieselStep, rsInterpolate_eq hs h2 hl]
      exact ih _
  obtain ⟨t, ht⟩ := hok (fc.zip fs) ⟨0, 0, 0, 0, 0⟩
  have : ∃ r, h2Diesel dist maxKw gge fc fs perc share = .ok r := by
    unfold h2Diesel
    rw [if_neg (not_not.2 hf), if_neg (not_not.2 hl), ht]
    exact ⟨_, rfl⟩
  obtain ⟨r, hr⟩ := this
  obtain ⟨-, -, ps, hp, e1, -⟩ := h2Diesel_ok hr
  refine ⟨r, ps, hr, ?_, ?_⟩
  · have hfst : (fc.zip fs).map Prod.fst = fc := by rw [List.map_fst_zip]; omega
    rw [← hfst, List.forall₂_map_left_iff]
    refine hp.imp fun s p h => ?_
    rw [rsInterpolate_eq hs h2 hl, Except.ok.injEq] at h
    rw [← h]
    exact readAt_interp hs h2 hl _
  · rw [e1]
    have hlen := hp.length_eq
    clear hr e1 ht hp
    congr 1
    induction fc generalizing fs ps with
    | nil => cases fs with
      | nil => cases ps <;> simp_all
      | cons _ _ => simp at hf
    | cons x fc ih => cases fs with
      | nil => simp at hf
      | cons e fs => cases ps with
        | nil => simp at hlen
        | cons p ps =>
          simp only [List.zip_cons_cons, List.zipWith_cons_cons, List.cons.injEq, true_and]
          exact ih (by simpa using hf) ps (by simpa using hlen)

/-- Arrays of different lengths are an error. -/
theorem C107_lengths (dist maxKw gge : K) {fc fs perc share : List K} (h : fc.length ≠ fs.length ∨ perc.length ≠ share.length) :
    h2Diesel dist maxKw gge fc fs perc share = .error .err := by
  unfold h2Diesel
  rcases h with h | h
  · rw [if_pos h]
  · by_cases h' : fc.length ≠ fs.length
    · rw [if_pos h']
    · rw [if_neg h', if_pos h]

/-- A table of one point, or of points whose abscissa never rises, makes the program panic at the first step. -/
theorem C107_flat_table (dist maxKw gge : K) {fc fs perc share : List K} (hf : fc.length = fs.length)
    (hl : perc.length = share.length) (hne : fc ≠ []) {a : K} (ha : perc.head? = some a) (h : ∀ x ∈ perc, x ≤ a) :
    h2Diesel dist maxKw gge fc fs perc share = .error .panic := by
  obtain ⟨x, fc', rfl⟩ := List.exists_cons_of_ne_nil hne
  cases fs with
  | nil => simp at hf
  | cons e fs' =>
    have hk : ∀ l : List (K × K), (∀ q ∈ l, q.1 ≤ a) → rsKept a l = [] := by
      intro l
      induction l with
      | nil => intro _; rfl
      | cons q l ih =>
        intro hq
        rw [rsKept, if_neg (not_lt.2 (hq q (by simp)))]
        exact ih fun q hq' => hq q (List.mem_cons_of_mem _ hq')
    have hi : rsInterpolate (x / maxKw) perc share = .error .panic := by
      unfold rsInterpolate
      rw [if_neg (not_not.2 hl)]
      cases hz : perc.zip share with
      | nil => rfl
      | cons p l =>
        have hp : p.1 = a := by
          cases perc with
          | nil => simp at ha
          | cons b bs => cases share with
            | nil => simp at hz
            | cons y ys =>
              simp only [List.zip_cons_cons, List.cons.injEq] at hz
              rw [← hz.1]
              simpa using ha
        have : rsKept p.1 l = [] := by
          rw [hp]
          refine hk l fun q hq => h _ ?_
          exact (List.of_mem_zip (a := q.1) (b := q.2) (by rw [hz]; exact List.mem_cons_of_mem _ hq)).1
        simp only [this]
        rfl
    unfold h2Diesel
    rw [if_neg (not_not.2 hf), if_neg (not_not.2 hl), List.zip_cons_cons, h2DieselLoop, h2DieselStep, hi]

/-- Energy of every step: power times duration over 3600; arrays of different lengths are an error. -/
theorem C107_power (dts ps : List K) :
    (dts.length ≠ ps.length → powerToKwh dts ps = .error .err) ∧
    (dts.length = ps.length → ∃ es : List K, powerToKwh dts ps = .ok es ∧ es.length = ps.length ∧
      ∀ (i : ℕ) (d p : K), dts[i]? = some d → ps[i]? = some p → es[i]? = some (p * d / 3600)) := by
  unfold powerToKwh
  refine ⟨fun h => by rw [if_pos h], fun h => ?_⟩
  rw [if_neg (not_not.2 h)]
  refine ⟨_, rfl, by simp [h], fun i d p hd hp => ?_⟩
  rw [List.getElem?_zipWith, hd, hp]
  simp

end Field

end Fastsim.Props
