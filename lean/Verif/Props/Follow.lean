import Mathlib.Tactic.Linarith
import Mathlib.Tactic.Ring
import Mathlib.Tactic.Positivity
import Verif.Lemmas.Dist
import Verif.Lemmas.Nonneg
import Verif.Model.Idm
import Verif.Props.Dilation
import Verif.Props.Speed

/-!
# C30: car following
-/

set_option linter.unusedSectionVars false

namespace Fastsim.Spec

section
variable {K : Type*} [Field K] [LinearOrder K]

/-- The gap the driver wants (Treiber & Kesting, eq. 11.15): minimum gap plus headway distance plus
the term for closing in at speed difference `dv`. -/
def wantedGap (root headway s0 v dv : K) : K := s0 + max 0 (v * headway + v * dv / (2 * root))

/-- Acceleration of the intelligent driver model (Treiber & Kesting, eq. 11.14); `power` stands for
`(v / desired) ^ delta` and `root` for the geometric mean of acceleration and deceleration. -/
def idmAccel (accel root power headway s0 v dv gap : K) : K :=
  accel * (1 - power - (wantedGap root headway s0 v dv / gap) ^ 2)

end
end Fastsim.Spec

namespace Fastsim.Props
open Fastsim Spec

section Lawless
variable {K : Type*} [Zero K] [One K] [NatCast K] [Add K] [Sub K] [Mul K] [Div K] [Neg K]
  [LinearOrder K]
variable {F : Fns K} {P : SimParams K}

/-- The speed chosen by the driver model is never negative, and zero for a desired speed that is not
positive, whatever the arithmetic does. -/
theorem C30_nonneg (a b headway s0 vDesired delta v0 vLead gap dt : K) :
    0 ≤ idmSpeed F a b headway s0 vDesired delta v0 vLead gap dt ∧
      (vDesired ≤ 0 → idmSpeed F a b headway s0 vDesired delta v0 vLead gap dt = 0) := by
  unfold idmSpeed
  split
  · exact ⟨le_rfl, fun _ => rfl⟩
  · rename_i h
    exact ⟨le_max_right _ _, fun e => absurd e h⟩

theorem maxOf_ge (l : List K) (v : K) (h : v ∈ l) : v ≤ maxOf l := by
  cases l with
  | nil => simp at h
  | cons x l =>
    have key : ∀ (l : List K) (x : K), x ≤ l.foldl max x ∧ ∀ v ∈ l, v ≤ l.foldl max x := by
      intro l
      induction l with
      | nil => simp
      | cons y l ih =>
        intro x
        obtain ⟨a, b⟩ := ih (max x y)
        refine ⟨(le_max_left _ _).trans a, fun v hv => ?_⟩
        rcases List.mem_cons.1 hv with rfl | hv
        · exact (le_max_right _ _).trans a
        · exact b v hv
    rcases List.mem_cons.1 h with rfl | h
    · exact (key l _).1
    · exact (key l x).2 v h

theorem maxOf_mem (l : List K) (h : l ≠ []) : maxOf l ∈ l := by
  cases l with
  | nil => exact absurd rfl h
  | cons x l =>
    have key : ∀ (l : List K) (x : K), l.foldl max x = x ∨ l.foldl max x ∈ l := by
      intro l
      induction l with
      | nil => simp
      | cons y l ih =>
        intro x
        rcases ih (max x y) with e | e
        · rcases max_choice x y with m | m
          · left; simp only [List.foldl_cons]; rw [e, m]
          · right; simp only [List.foldl_cons]; rw [e, m]; simp
        · right; simp only [List.foldl_cons]; exact List.mem_cons_of_mem _ e
    rcases key l x with e | e
    · show l.foldl max x ∈ _
      rw [e]; simp
    · exact List.mem_cons_of_mem _ e

theorem lookupTarget_none (d found : K) : ∀ (tbl : List (K × K)),
    (∀ e, tbl.head? = some e → d < e.1) → lookupTarget d found tbl = found
  | [], _ => rfl
  | p :: r, h => by
    rw [lookupTarget, if_neg (not_le.2 (h p rfl))]

theorem lookupTarget_some (d : K) : ∀ (tbl : List (K × K)) (found : K) (k : Nat) (e : K × K),
    (∀ j x, j ≤ k → tbl[j]? = some x → x.1 ≤ d) → tbl[k]? = some e →
    (∀ x, tbl[k + 1]? = some x → d < x.1) → lookupTarget d found tbl = e.2
  | [], _, k, e, _, he, _ => by simp at he
  | p :: r, found, 0, e, hle, he, hn => by
    have hp : p = e := by simpa using he
    subst hp
    rw [lookupTarget, if_pos (hle 0 p le_rfl rfl)]
    exact lookupTarget_none d _ r fun x hx => hn x (by simpa [List.head?_eq_getElem?] using hx)
  | p :: r, found, k + 1, e, hle, he, hn => by
    rw [lookupTarget, if_pos (hle 0 p (by omega) rfl)]
    exact lookupTarget_some d r p.2 k e (fun j x hj hx => hle (j + 1) x (by omega) (by simpa using hx))
      (by simpa using he) (fun x hx => hn x (by simpa using hx))

/-- The desired speed with a table by distance: for a table in order of distance it is the entry of the
last distance not beyond the position travelled so far, and before the first distance it is the first
entry; an empty table raises `IndexError`; without a table it is the fixed desired speed. -/
theorem C30_lookup (s : Sim K) :
    (P.idmByDistance = none → idmTargetFor P s = .ok P.idmVDesired) ∧
    (P.idmByDistance = some [] → idmTargetFor P s = .error .indexError) ∧
    (∀ tbl k e, P.idmByDistance = some tbl → tbl.Pairwise (fun x y => x.1 ≤ y.1) →
      tbl[k]? = some e → e.1 ≤ npSum ((distM s.cyc).take s.i) →
      (∀ x, tbl[k + 1]? = some x → npSum ((distM s.cyc).take s.i) < x.1) →
      idmTargetFor P s = .ok e.2) ∧
    (∀ p r, P.idmByDistance = some (p :: r) → npSum ((distM s.cyc).take s.i) < p.1 →
      idmTargetFor P s = .ok p.2) := by
  refine ⟨fun h => ?_, fun h => ?_, fun tbl k e h hs he hd hn => ?_, fun p r h hd => ?_⟩
  · unfold idmTargetFor; rw [h]
  · unfold idmTargetFor; rw [h]
  · unfold idmTargetFor; rw [h]
    cases tbl with
    | nil => simp at he
    | cons p r =>
      simp only
      rw [lookupTarget_some _ _ _ k e (fun j x hj hx => ?_) he hn]
      rcases Nat.lt_or_ge j k with hlt | hge
      · obtain ⟨hk, rfl⟩ := List.getElem?_eq_some_iff.1 he
        obtain ⟨hj', rfl⟩ := List.getElem?_eq_some_iff.1 hx
        exact (List.pairwise_iff_getElem.1 hs j k hj' hk hlt).trans hd
      · have : j = k := by omega
        subst this
        rw [he] at hx
        rw [← Option.some.inj hx]; exact hd
  · unfold idmTargetFor; rw [h]
    simp only
    rw [lookupTarget_none]
    intro e he
    have : p = e := by simpa using he
    rw [← this]; exact hd

/-- What car following does to the object: it only records the desired speed of the current step and
sets the cycle speed of the current step; the desired speed used is the recorded one if positive, the
largest speed of the trace otherwise. -/
theorem C30_hook {s s' : Sim K} (h : idmHook F P s = .ok s') :
    ∃ tgt vDesired v, idmTargetFor P s = .ok tgt ∧
      (s.i < s.idmTarget.length → (0 < tgt → vDesired = tgt) ∧
        (tgt ≤ 0 → vDesired = maxOf s.cyc0.speeds)) ∧
      v = idmSpeed F P.idmAccel P.idmDecel P.idmDtHeadway P.idmMinimumGap vDesired P.idmDelta
        (s.rows.getD (s.i - 1) Row.zero).ach.mpsAch (s.cyc0.speeds.getD (s.i - 1) 0)
        ((trapzDistances s.cyc0).getD (s.i - 1) 0 + max 0 P.idmMinimumGap
          - trapzStepStartDistance s.cyc s.i)
        (dtAt s.cyc s.i) ∧
      s' = { s with idmTarget := s.idmTarget.set s.i tgt, cyc := setSpeed s.cyc s.i v } := by
  unfold idmHook at h
  split at h
  · simp at h
  · rename_i tgt ht
    simp only [Except.ok.injEq] at h
    refine ⟨tgt, _, _, ht, ?_, rfl, h.symm⟩
    intro hl
    have e : (s.idmTarget.set s.i tgt).getD s.i 0 = tgt := by
      rw [List.getD_eq_getElem?_getD, List.getElem?_set_self hl]; rfl
    simp only [e]
    exact ⟨fun hp => if_pos hp, fun hp => if_neg (not_lt.2 hp)⟩

theorem idmHook_local : HookLocal (idmHook (K := K) F P) := by
  intro s s' h
  obtain ⟨tgt, vd, v, -, -, -, rfl⟩ := C30_hook h
  exact ⟨⟨rfl, by simp [setSpeed], rfl, rfl, fun _ _ => rfl, fun _ _ => rfl,
    fun _ _ => by rw [times_setSpeed]⟩, rfl, times_setSpeed _ _ _⟩

theorem speeds_setSpeed_nonneg {c : Cyc K} (h : ∀ v ∈ Cyc.speeds c, 0 ≤ v) (i : Nat) {v : K} (hv : 0 ≤ v) :
    ∀ x ∈ Cyc.speeds (setSpeed c i v), 0 ≤ x := by
  intro x hx
  unfold Cyc.speeds setSpeed at hx
  obtain ⟨a, ha, rfl⟩ := List.mem_map.1 hx
  obtain ⟨j, hj⟩ := List.mem_iff_getElem?.1 ha
  rw [List.getElem?_modify] at hj
  cases hc : c[j]? with
  | none => rw [hc] at hj; simp at hj
  | some b =>
    rw [hc] at hj
    simp only [Option.map_eq_map, Option.map_some, Option.some.injEq] at hj
    rw [← hj]
    split
    · exact hv
    · exact h _ (List.mem_map.2 ⟨b, List.mem_of_getElem? hc, rfl⟩)

theorem idmHook_forward : HookForward (idmHook (K := K) F P) := by
  intro s s' hf h
  obtain ⟨tgt, vd, v, -, -, hv, rfl⟩ := C30_hook h
  exact ⟨hf.cyc0, speeds_setSpeed_nonneg hf.cyc _ (by rw [hv]; exact (C30_nonneg ..).1), hf.rows⟩

theorem idmHook_keepMiss : HookKeepMiss (idmHook (K := K) F P) := by
  intro s s' h
  obtain ⟨tgt, vd, v, -, -, -, rfl⟩ := C30_hook h
  rfl

/-- Car following leaves accessory load and result arrays alone. -/
theorem idmHook_keeps {s s' : Sim K} (h : idmHook (K := K) F P s = .ok s') :
    s'.aux = s.aux ∧ s'.rows = s.rows ∧ s'.cyc0 = s.cyc0 ∧ s'.i = s.i := by
  obtain ⟨tgt, vd, v, -, -, -, rfl⟩ := C30_hook h
  exact ⟨rfl, rfl, rfl, rfl⟩

end Lawless

section Field
variable {K : Type*} [Field K] [LinearOrder K] [IsStrictOrderedRing K]
variable {F : Fns K} {H : Hooks K} {V : Veh K} {P : SimParams K}

theorem pabs_eq_abs (x : K) : pabs x = |x| := by
  unfold pabs
  split
  · rename_i h; rw [abs_of_neg h]
  · rename_i h; rw [abs_of_nonneg (not_lt.1 h)]

/-- For positive parameters and a gap of at least a centimetre the chosen speed is the textbook one:
own speed plus intelligent-driver acceleration times step duration, cut off at standstill. -/
theorem C30_textbook {a b headway s0 vDesired delta v0 vLead gap dt : K} (ha : 0 < a) (hb : 0 < b)
    (hh : 0 ≤ headway) (hs : 0 ≤ s0) (hv : 0 < vDesired) (hg : 1 / 100 ≤ gap) :
    idmSpeed F a b headway s0 vDesired delta v0 vLead gap dt =
      max (v0 + idmAccel a (F.sqrt (a * b)) (F.pow (v0 / vDesired) delta) headway s0 v0 (v0 - vLead) gap
        * dt) 0 := by
  unfold idmSpeed idmAccel wantedGap
  rw [if_neg (not_le.2 hv)]
  simp only [pabs_eq_abs, abs_of_pos ha, abs_of_pos hb, max_eq_right hh, max_eq_right hs, max_eq_left hg]
  rw [pow_two]

theorem idm_core {a b headway s0 vDesired delta v0 vLead gap dt : K} (hv : 0 < vDesired) :
    ∃ q : K, idmSpeed F a b headway s0 vDesired delta v0 vLead gap dt =
        max (v0 + |a| * (1 - F.pow (v0 / vDesired) delta - q ^ 2) * dt) 0 ∧
      q = wantedGap (F.sqrt (|a| * |b|)) (max 0 headway) (max 0 s0) v0 (v0 - vLead) / max gap (1 / 100) := by
  refine ⟨_, ?_, rfl⟩
  unfold idmSpeed wantedGap
  rw [if_neg (not_le.2 hv)]
  simp only [pabs_eq_abs]
  rw [pow_two]

/-- The driver model never accelerates harder than `idm_accel`. -/
theorem C30_accel_bound {a b headway s0 vDesired delta v0 vLead gap dt : K} (hv0 : 0 ≤ v0) (hdt : 0 ≤ dt)
    (hp : 0 < vDesired → 0 ≤ F.pow (v0 / vDesired) delta) :
    idmSpeed F a b headway s0 vDesired delta v0 vLead gap dt ≤ v0 + |a| * dt := by
  rcases le_or_gt vDesired 0 with hv | hv
  · rw [(C30_nonneg ..).2 hv]
    have := mul_nonneg (abs_nonneg a) hdt
    linarith
  · obtain ⟨q, e, -⟩ := idm_core (F := F) (a := a) (b := b) (headway := headway) (s0 := s0)
      (delta := delta) (v0 := v0) (vLead := vLead) (gap := gap) (dt := dt) hv
    rw [e]
    have h1 : 1 - F.pow (v0 / vDesired) delta - q ^ 2 ≤ 1 := by
      have := sq_nonneg q
      have := hp hv
      linarith
    have h2 : |a| * (1 - F.pow (v0 / vDesired) delta - q ^ 2) * dt ≤ |a| * dt := by
      have := mul_le_mul_of_nonneg_left h1 (abs_nonneg a)
      have := mul_le_mul_of_nonneg_right this hdt
      linarith
    exact max_le (by linarith) (by have := mul_nonneg (abs_nonneg a) hdt; linarith)

/-- Speed never rises when the vehicle is already at or above the desired speed, nor when it is closer
to the lead vehicle than the gap it wants; closer in, it brakes no less. -/
theorem C30_no_acceleration {a b headway s0 vDesired delta v0 vLead gap dt : K} (hv0 : 0 ≤ v0)
    (hdt : 0 ≤ dt) (hv : 0 < vDesired) (hp : 0 ≤ F.pow (v0 / vDesired) delta)
    (h : (vDesired ≤ v0 ∧ 1 ≤ F.pow (v0 / vDesired) delta) ∨
      max gap (1 / 100) ≤
        wantedGap (F.sqrt (|a| * |b|)) (max 0 headway) (max 0 s0) v0 (v0 - vLead)) :
    idmSpeed F a b headway s0 vDesired delta v0 vLead gap dt ≤ v0 := by
  obtain ⟨q, e, hq⟩ := idm_core (F := F) (a := a) (b := b) (headway := headway) (s0 := s0)
    (delta := delta) (v0 := v0) (vLead := vLead) (gap := gap) (dt := dt) hv
  rw [e]
  have h1 : 1 - F.pow (v0 / vDesired) delta - q ^ 2 ≤ 0 := by
    rcases h with ⟨-, h⟩ | h
    · have := sq_nonneg q
      linarith
    · have hpos : 0 < max gap (1 / 100) := lt_of_lt_of_le (by norm_num) (le_max_right _ _)
      have : 1 ≤ q := by rw [hq, le_div_iff₀ hpos]; linarith
      nlinarith
  have h2 : |a| * (1 - F.pow (v0 / vDesired) delta - q ^ 2) * dt ≤ 0 :=
    mul_nonpos_of_nonpos_of_nonneg (mul_nonpos_of_nonneg_of_nonpos (abs_nonneg a) h1) hdt
  exact max_le (by linarith) hv0

/-- A closer lead vehicle never makes the driver go faster. -/
theorem C30_gap_monotone {a b headway s0 vDesired delta v0 vLead gap gap' dt : K} (hdt : 0 ≤ dt)
    (hg : gap ≤ gap') :
    idmSpeed F a b headway s0 vDesired delta v0 vLead gap dt ≤
      idmSpeed F a b headway s0 vDesired delta v0 vLead gap' dt := by
  rcases le_or_gt vDesired 0 with hv | hv
  · rw [(C30_nonneg ..).2 hv, (C30_nonneg ..).2 hv]
  · obtain ⟨q, e, hq⟩ := idm_core (F := F) (a := a) (b := b) (headway := headway) (s0 := s0)
      (delta := delta) (v0 := v0) (vLead := vLead) (gap := gap) (dt := dt) hv
    obtain ⟨q', e', hq'⟩ := idm_core (F := F) (a := a) (b := b) (headway := headway) (s0 := s0)
      (delta := delta) (v0 := v0) (vLead := vLead) (gap := gap') (dt := dt) hv
    rw [e, e']
    have hw : 0 ≤ wantedGap (F.sqrt (|a| * |b|)) (max 0 headway) (max 0 s0) v0 (v0 - vLead) := by
      unfold wantedGap
      exact add_nonneg (le_max_left _ _) (le_max_left _ _)
    have hpos : 0 < max gap (1 / 100) := lt_of_lt_of_le (by norm_num) (le_max_right _ _)
    have hle : max gap (1 / 100) ≤ max gap' (1 / 100) := max_le_max hg le_rfl
    have hqq : q' ≤ q := by
      rw [hq, hq']
      exact div_le_div_of_nonneg_left hw hpos hle
    have hq0 : 0 ≤ q' := by rw [hq']; exact div_nonneg hw (hpos.le.trans hle)
    have hsq : q' ^ 2 ≤ q ^ 2 := by nlinarith
    refine max_le_max ?_ le_rfl
    have : |a| * (1 - F.pow (v0 / vDesired) delta - q ^ 2) ≤
        |a| * (1 - F.pow (v0 / vDesired) delta - q' ^ 2) :=
      mul_le_mul_of_nonneg_left (by linarith) (abs_nonneg a)
    have := mul_le_mul_of_nonneg_right this hdt
    linarith

/-- **C30 (in a run).** In a run with car following (coasting and trace-miss correction off) on a trace
that never goes backwards, a step whose chosen speed could be driven (no iteration for the speed was
needed) accelerates by at most `idm_accel` times the step duration. -/
theorem C30_run (hH : H.Local) (hidm : P.idmAllow = true) (hh : H.idm = idmHook F P)
    (hc : P.coastAllow = false) (hm : P.missedTrace = false) {s s' : Sim K} (h : Reachable F H V P s)
    (h0 : SpeedsNonneg s.cyc0) (hlt : s.i < s.cyc.length) (hstep : simDriveStep F H V P s = .ok s')
    (hpow : ∀ x y : K, 0 ≤ x → 0 ≤ F.pow x y) (hdt : 0 ≤ dtAt s.cyc s.i) :
    ∃ p r, s.rows[s.i - 1]? = some p ∧ s'.rows[s.i]? = some r ∧
      (r.ach.newtonIters = 0 → 0 ≤ r.ach.mpsAch ∧
        r.ach.mpsAch ≤ p.ach.mpsAch + |P.idmAccel| * dtAt s.cyc s.i) := by
  have hnn := C25_speed_nonneg hH (fun _ => hh ▸ idmHook_forward) (fun e => by rw [hc] at e; simp at e) h
    h0 (fun e => by rw [hidm] at e; simp at e)
  have hI := (Reachable.inv hH h).1
  have hpos := hI.pos
  have hr : s.i < s.rows.length := by rw [hI.lenRows]; exact hlt
  unfold simDriveStep at hstep
  rw [hidm, hh, hc] at hstep
  simp only [if_true, Bool.false_eq_true, if_false] at hstep
  split at hstep
  · simp at hstep
  rename_i s1 h1
  simp only [Except.ok.injEq] at hstep
  obtain ⟨tgt, vd, v, -, -, hv, hs1⟩ := C30_hook h1
  have hp : s.rows[s.i - 1]? = some (s.rows.getD (s.i - 1) Row.zero) := by
    rw [List.getD_eq_getElem?_getD, List.getElem?_eq_getElem (by omega)]; rfl
  have hsol : solveAndCorrect F V P s1 = Sim.solve F V P s1 := by
    unfold solveAndCorrect; simp [hm]
  have hrows : s'.rows = (Sim.solve F V P s1).rows := by
    rw [← hstep, hsol]; unfold finishStep; simp only; split <;> rfl
  have hi1 : s1.i = s.i := by rw [hs1]
  have hrw1 : s1.rows = s.rows := by rw [hs1]
  refine ⟨_, solveStep F V P.toStepParams (stepEnv F V P s1) (s1.rows.getD (s1.i - 1) Row.zero)
    (s1.rows.getD s1.i Row.zero).stale, hp, ?_, ?_⟩
  · rw [hrows]
    simp only [Sim.solve]
    rw [hi1, hrw1, List.getElem?_set_self hr]
  · generalize hE : stepEnv F V P s1 = E
    generalize (s1.rows.getD (s1.i - 1) Row.zero) = q
    generalize (s1.rows.getD s1.i Row.zero).stale = st
    intro hit
    have hmps : E.mps = v := by
      rw [← hE]
      simp only [stepEnv]
      rw [hi1, hs1]
      simp only [Cyc.speeds, setSpeed]
      rw [List.getD_eq_getElem?_getD, List.getElem?_map, List.getElem?_modify,
        List.getElem?_eq_getElem hlt]
      simp
    have hach : (solveStep F V P.toStepParams E q st).ach.mpsAch = v := by
      by_cases hmet : (setPowerCalcs F V P.toStepParams E q
          (setCompLims F V P.toStepParams E q (setMisc V E q)) st).cycMet = true
      · simp only [solveStep, setAchSpeed, if_pos hmet]; exact hmps
      · exfalso
        obtain ⟨g, -, f', -, hN⟩ := achieved_newton (F := F) (V := V) (P := P) E q.ach.mpsAch
          (setCompLims F V P.toStepParams E q (setMisc V E q)).curMaxTransKwOut
          (st.newtonIters, st.mpsAch)
        have h2 := (C26_answer _ _ _ _ _ _ _ _ hN).2.1
        simp only [solveStep, setAchSpeed, if_neg hmet] at hit
        omega
    rw [hach, hv]
    exact ⟨(C30_nonneg ..).1, C30_accel_bound (row_getD_nonneg hnn _) hdt fun hvd =>
      hpow _ _ (div_nonneg (row_getD_nonneg hnn _) hvd.le)⟩

end Field

/-! ### Concrete cases -/

section Demo
open Demo

/-- Car following on, with no time headway asked for. -/
def followParams : SimParams ℚ := { params with idmAllow := true, idmDtHeadway := 0 }

/-- Car following alone. -/
def followHooks : Hooks ℚ := { idm := idmHook fns followParams, coast := fun s => .ok s }

/-- A lead vehicle cruising at 20 m/s that then stops within a second. -/
def hardStop : Cyc ℚ := [⟨0, 20, 0, 0⟩, ⟨1, 20, 0, 0⟩, ⟨2, 0, 0, 0⟩, ⟨3, 0, 0, 0⟩]

/-- `sim_drive` behind that vehicle. -/
def followRun : Except PyErr (Sim ℚ) :=
  simDrive fns followHooks conv followParams (Sim.new hardStop) (some (1 / 2)) none

/-- **C30 (what is not promised).** Car following does not prevent collisions: with no headway asked
for, behind a lead vehicle that stops hard the follower, which starts two metres behind, drives more
than fifteen metres past it. -/
theorem C30_passes_lead : ∃ s, followRun = .ok s ∧
    ((trapzDistances s.cyc0).getD 3 0 + followParams.idmMinimumGap) + 15 <
      (trapzDistances s.cyc).getD 3 0 := by
  have hall : (match followRun with
      | .ok s => decide (((trapzDistances s.cyc0).getD 3 0 + followParams.idmMinimumGap) + 15 <
      (trapzDistances s.cyc).getD 3 0)
      | .error _ => false) = true := by decide +kernel
  split at hall
  · rename_i s hs; exact ⟨s, hs, of_decide_eq_true hall⟩
  · simp at hall

theorem followHooks_local : followHooks.Local :=
  ⟨idmHook_local (F := fns) (P := followParams), fun s s' h => by
    cases h; exact ⟨⟨rfl, rfl, rfl, rfl, fun _ _ => rfl, fun _ _ => rfl, fun _ _ => rfl⟩, rfl, rfl⟩⟩

/-- The first step of that run. -/
def followFirst : Except PyErr (Sim ℚ × Sim ℚ) := do
  let s ← initForStep conv followParams (Sim.new hardStop) (1 / 2) none
  let s' ← simDriveStep fns followHooks conv followParams s
  pure (s, s')

/-- The hypotheses of `C30_run` are met by the first step of that run, in which the follower slows down
a little because it drives near its desired speed. -/
theorem C30_demo : ∃ s s', Reachable fns followHooks conv followParams s ∧ SpeedsNonneg s.cyc0 ∧
    s.i < s.cyc.length ∧ simDriveStep fns followHooks conv followParams s = .ok s' ∧
    0 ≤ dtAt s.cyc s.i ∧ ∃ r, s'.rows[s.i]? = some r ∧ r.ach.newtonIters = 0 ∧
      19 < r.ach.mpsAch ∧ r.ach.mpsAch < 20 := by
  cases h1 : initForStep conv followParams (Sim.new hardStop) (1 / 2) none with
  | error e =>
    have : (match initForStep conv followParams (Sim.new hardStop) (1 / 2) none with
      | .ok _ => true | .error _ => false) = true := by decide +kernel
    rw [h1] at this; simp at this
  | ok s =>
    have hall : (match initForStep conv followParams (Sim.new hardStop) (1 / 2) none with
      | .error _ => false
      | .ok s => match simDriveStep fns followHooks conv followParams s with
        | .error _ => false
        | .ok s' => decide ((∀ x ∈ s.cyc0, 0 ≤ x.v) ∧ s.i < s.cyc.length ∧ 0 ≤ dtAt s.cyc s.i ∧
          s.i < s'.rows.length ∧ (s'.rows.getD s.i Row.zero).ach.newtonIters = 0 ∧
          19 < (s'.rows.getD s.i Row.zero).ach.mpsAch ∧
          (s'.rows.getD s.i Row.zero).ach.mpsAch < 20)) = true := by decide +kernel
    rw [h1] at hall
    simp only at hall
    split at hall
    · simp at hall
    · rename_i s' h2
      obtain ⟨a, b, c, d, e, f, g⟩ := of_decide_eq_true hall
      refine ⟨s, s', Reachable.init rfl h1, a, b, h2, c, _, ?_, e, f, g⟩
      rw [List.getD_eq_getElem?_getD, List.getElem?_eq_getElem d]; rfl

/-- A table of desired speeds: 10 m/s, then 20 m/s from 5 m on, then 15 m/s from 40 m on. -/
def speedTable : List (ℚ × ℚ) := [(0, 10), (5, 20), (40, 15)]

/-- The object two steps into the demo cycle (2 + 4 m travelled by step-end speeds). -/
def tableSim : Sim ℚ := { Sim.new cyc with i := 3 }

/-- The hypotheses of `C30_lookup` are met: six metres on, the second entry holds. -/
theorem C30_lookup_demo :
    idmTargetFor { followParams with idmByDistance := some speedTable } tableSim = .ok 20 :=
  (C30_lookup (P := { followParams with idmByDistance := some speedTable }) tableSim).2.2.1 speedTable 1
    (5, 20) rfl (by decide +kernel) rfl (by decide +kernel) (by
      intro x hx
      have : x = (40, 15) := by simpa [speedTable] using hx.symm
      rw [this]; decide +kernel)

/-- The hypotheses of `C30_textbook`, `C30_accel_bound` and `C30_no_acceleration` are met with the default
parameters at 20 m/s, 10 m behind a lead vehicle at 15 m/s. -/
theorem C30_values : (0 : ℚ) ≤ fns.pow (20 / 30) 4 ∧
    max (10 : ℚ) (1 / 100) ≤ wantedGap (fns.sqrt (|1| * |3 / 2|)) (max 0 1) (max 0 2) 20 (20 - 15) ∧
    idmSpeed fns 1 (3 / 2) 1 2 30 4 20 15 10 (1 / 10) < 20 := by decide +kernel

end Demo
end Fastsim.Props
