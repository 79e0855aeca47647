import Verif.Props.Loops

/-!
# C32: minimum engine-on time
-/

set_option linter.unusedSectionVars false

namespace Fastsim.Props
open Fastsim Spec

section Lawless
variable {K : Type*} [Zero K] [One K] [NatCast K] [Add K] [Sub K] [Mul K] [Div K] [Neg K]
  [LinearOrder K]
variable {F : Fns K} {H : Hooks K} {V : Veh K} {P : SimParams K}

/-- **C32 (timer).** In every simulated step the engine-on timer is either reset to zero or advanced by
the step duration; the engine is forced on exactly when the timer is running and short of the minimum
on-time minus one step, and then the timer is advanced. A step that cannot be driven on electricity
alone advances the timer too. -/
theorem C32_timer (hH : H.Local) {s : Sim K} (h : Reachable F H V P s) {i : Nat} {p r : Row K}
    {dt a : K} (hs : StepAt s i p r dt a) :
    (r.dec.fcTimeOn = 0 ∨ r.dec.fcTimeOn = p.dec.fcTimeOn + dt) ∧
    (r.forced.fcForcedOn = true ↔ 0 < p.dec.fcTimeOn ∧ p.dec.fcTimeOn < V.minFcTimeOn - dt) ∧
    (0 < p.dec.fcTimeOn → p.dec.fcTimeOn < V.minFcTimeOn - dt →
      r.dec.fcTimeOn = p.dec.fcTimeOn + dt) ∧
    (r.hyb.canPwrAllElec = false → r.dec.fcTimeOn = p.dec.fcTimeOn + dt) := by
  obtain ⟨E, st, h1, -, -, rfl⟩ := StepAt.solve hH h hs
  subst h1
  have hf : (solveStep F V P.toStepParams E p st).forced.fcForcedOn = true ↔
      0 < p.dec.fcTimeOn ∧ p.dec.fcTimeOn < V.minFcTimeOn - E.dt := by
    have e : (solveStep F V P.toStepParams E p st).forced.fcForcedOn =
        if 0 < p.dec.fcTimeOn ∧ p.dec.fcTimeOn < V.minFcTimeOn - E.dt then true else false := rfl
    rw [e]
    by_cases hc : 0 < p.dec.fcTimeOn ∧ p.dec.fcTimeOn < V.minFcTimeOn - E.dt
    · rw [if_pos hc]; exact ⟨fun _ => hc, fun _ => rfl⟩
    · rw [if_neg hc]; exact ⟨fun e => by simp at e, fun e => absurd e hc⟩
  have ht : (solveStep F V P.toStepParams E p st).dec.fcTimeOn =
      if (solveStep F V P.toStepParams E p st).hyb.canPwrAllElec ∧
        (solveStep F V P.toStepParams E p st).forced.fcForcedOn = false ∧ st.fcKwOutAch = 0 then 0
      else p.dec.fcTimeOn + E.dt := rfl
  refine ⟨?_, hf, ?_, ?_⟩
  · rw [ht]; split
    · exact Or.inl rfl
    · exact Or.inr rfl
  · intro h1 h2
    rw [ht, if_neg]
    rintro ⟨-, h3, -⟩
    rw [hf.2 ⟨h1, h2⟩] at h3
    simp at h3
  · intro h1
    rw [ht, if_neg]
    rintro ⟨h2, -⟩
    rw [h1] at h2
    simp at h2

/-- **C32 (state number).** The recorded number of the forced state tells which duty the engine has: 1 not
held on (or needed anyway), 2 braking, 3 the demand is exactly the power of best efficiency, 4 idling below the
demand of a vehicle that does not slow down, 5 following the demand, 6 best efficiency with the motor adding
the rest. -/
theorem C32_state (hH : H.Local) {s : Sim K} (h : Reachable F H V P s) {i : Nat} {p r : Row K}
    {dt a : K} (hs : StepAt s i p r dt a) :
    (r.forced.fcForcedState = 1 ↔ r.forced.fcForcedOn = false ∨ r.hyb.canPwrAllElec = false) ∧
    (r.forced.fcForcedOn = true → r.hyb.canPwrAllElec = true →
      (r.forced.fcForcedState = 2 ↔ r.pow.transKwInAch < 0) ∧
      (r.forced.fcForcedState = 3 ↔ 0 ≤ r.pow.transKwInAch ∧ r.pow.transKwInAch = V.maxFcEffKw) ∧
      (r.forced.fcForcedState = 4 ↔ 0 ≤ r.pow.transKwInAch ∧ r.pow.transKwInAch ≠ V.maxFcEffKw ∧
        r.pow.transKwInAch < V.idleFcKw ∧ 0 ≤ r.pow.accelKw) ∧
      (r.forced.fcForcedState = 5 ↔ 0 ≤ r.pow.transKwInAch ∧ r.pow.transKwInAch < V.maxFcEffKw ∧
        (r.pow.transKwInAch < V.idleFcKw → r.pow.accelKw < 0)) ∧
      (r.forced.fcForcedState = 6 ↔ 0 ≤ r.pow.transKwInAch ∧ V.maxFcEffKw < r.pow.transKwInAch ∧
        (r.pow.transKwInAch < V.idleFcKw → r.pow.accelKw < 0))) := by
  obtain ⟨E, st, -, -, -, hr⟩ := StepAt.solve hH h hs
  have hforce : r.forced = setForced V E r.pow r.hyb := by rw [hr]; rfl
  rw [hforce]
  simp only [setForced]
  generalize fcForcedOn V E r.hyb = on
  generalize r.hyb.canPwrAllElec = el
  generalize r.pow.transKwInAch = x
  generalize r.pow.accelKw = ac
  constructor
  · by_cases c0 : on = false ∨ el = false
    · simp [c0]
    · rw [if_neg c0]
      refine iff_of_false ?_ c0
      split_ifs <;> simp
  · rintro rfl rfl
    rw [if_neg (by simp)]
    rcases lt_trichotomy x V.maxFcEffKw with c | c | c
    · have cn : ¬ V.maxFcEffKw < x := not_lt.2 c.le
      have ce : ¬ V.maxFcEffKw = x := ne_of_gt c
      by_cases c1 : x < 0 <;> by_cases c3 : x < V.idleFcKw <;> by_cases c4 : 0 ≤ ac <;>
        simp [c, cn, ce, c.ne, c1, c3, c4, not_lt.1, not_le.2, not_le.1, le_of_not_gt, lt_of_not_ge]
    · subst c
      by_cases c1 : V.maxFcEffKw < 0 <;> simp [c1, le_of_not_gt]
    · have cn : ¬ x < V.maxFcEffKw := not_lt.2 c.le
      have ce : ¬ V.maxFcEffKw = x := ne_of_lt c
      by_cases c1 : x < 0 <;> by_cases c3 : x < V.idleFcKw <;> by_cases c4 : 0 ≤ ac <;>
        simp [c, cn, ce, c.ne', c1, c3, c4, le_of_not_gt, lt_of_not_ge]

/-- Every run starts with the timer at zero. -/
theorem C32_start (hH : H.Local) {s : Sim K} (h : Reachable F H V P s) :
    ∃ r, s.rows[0]? = some r ∧ r.dec.fcTimeOn = 0 := by
  obtain ⟨-, -, soc, -, h0⟩ := Reachable.inv hH h
  exact ⟨_, h0, rfl⟩

/-- Power a forced engine is to deliver when the transmission takes in `x` (accessories apart):
nothing while braking, at least idle power unless decelerating, at most the power of best efficiency. -/
def forcedKw (V : Veh K) (x accel : K) : K :=
  if x < 0 then 0
  else if x < V.idleFcKw ∧ 0 ≤ accel ∧ x ≠ V.maxFcEffKw then V.idleFcKw
  else min x V.maxFcEffKw

end Lawless

section Field
variable {K : Type*} [Field K] [LinearOrder K] [IsStrictOrderedRing K]
variable {F : Fns K} {H : Hooks K} {V : Veh K} {P : SimParams K}

/-- **C32 (never negative).** -/
theorem C32_nonneg (hH : H.Local) {s : Sim K} (h : Reachable F H V P s) (hdt : DtNonneg s) :
    ∀ i r, i < s.i → s.rows[i]? = some r → 0 ≤ r.dec.fcTimeOn := by
  refine Reachable.row_inv hH h (fun r => 0 ≤ r.dec.fcTimeOn) ?_ ?_
  · intro soc mps aux _ _; exact le_rfl
  · intro i E st p h1 h2 hE _ _ hp
    have ht : (solveStep F V P.toStepParams E p st).dec.fcTimeOn =
        if (solveStep F V P.toStepParams E p st).hyb.canPwrAllElec ∧
          (solveStep F V P.toStepParams E p st).forced.fcForcedOn = false ∧ st.fcKwOutAch = 0 then 0
        else p.dec.fcTimeOn + E.dt := rfl
    rw [ht]
    split
    · exact le_rfl
    · rw [hE]; exact add_nonneg hp (hdt i h1 h2)

/-- **C32 (minimum on-time).** If the timer stands at zero at sample `a` and again at sample `b`, and
runs at every sample in between (of which there is at least one), then at least `min_fc_time_on`
passes between the two samples. -/
theorem C32_minimum_on_time (hH : H.Local) {s : Sim K} (h : Reachable F H V P s) (hdt : DtNonneg s)
    {a b : Nat} (hab : a + 1 < b) (hb : b < s.i) (ha0 : (s.row a).dec.fcTimeOn = 0)
    (hrun : ∀ j, a < j → j < b → 0 < (s.row j).dec.fcTimeOn) (hb0 : (s.row b).dec.fcTimeOn = 0) :
    V.minFcTimeOn ≤ (Cyc.times s.cyc).getD b 0 - (Cyc.times s.cyc).getD a 0 := by
  have hstep : ∀ j, 1 ≤ j → j < s.i → ∃ p r x, StepAt s j p r (dtAt s.cyc j) x ∧
      p = s.row (j - 1) ∧ r = s.row j := by
    intro j h1 h2
    obtain ⟨p, r, dt, x, hs⟩ := stepAt_exists hH h h1 h2
    refine ⟨p, r, x, ⟨hs.pos, hs.lt, hs.prev, hs.row, rfl, hs.aux⟩, ?_, ?_⟩
    · rw [Sim.row, List.getD_eq_getElem?_getD, hs.prev]; rfl
    · rw [Sim.row, List.getD_eq_getElem?_getD, hs.row]; rfl
  have hdtv : ∀ j, 1 ≤ j → dtAt s.cyc j = (Cyc.times s.cyc).getD j 0 - (Cyc.times s.cyc).getD (j - 1) 0 := by
    intro j hj
    unfold dtAt
    rw [if_neg (by omega)]
  -- the timer measures the time since sample `a`
  have hmeas : ∀ k, a + k < b → (s.row (a + k)).dec.fcTimeOn =
      (Cyc.times s.cyc).getD (a + k) 0 - (Cyc.times s.cyc).getD a 0 := by
    intro k
    induction k with
    | zero => intro _; rw [Nat.add_zero, ha0, sub_self]
    | succ k ih =>
      intro hk
      obtain ⟨p, r, x, hs, hp, hr⟩ := hstep (a + (k + 1)) (by omega) (by omega)
      have hrec := (C32_timer hH h hs).1
      have hpos := hrun (a + (k + 1)) (by omega) hk
      rw [hp, hr, hdtv _ (by omega), show a + (k + 1) - 1 = a + k from by omega, ih (by omega)] at hrec
      rcases hrec with e | e
      · rw [e] at hpos; exact absurd hpos (lt_irrefl _)
      · rw [e]; ring
  obtain ⟨p, r, x, hs, hp, hr⟩ := hstep b (by omega) hb
  have hT := C32_timer hH h hs
  rw [hp, hr] at hT
  have hprev := hrun (b - 1) (by omega) (by omega)
  have hm := hmeas (b - 1 - a) (by omega)
  rw [show a + (b - 1 - a) = b - 1 from by omega] at hm
  by_contra hc
  rw [not_le] at hc
  have hlt : (s.row (b - 1)).dec.fcTimeOn < V.minFcTimeOn - dtAt s.cyc b := by
    rw [hm, hdtv b (by omega)]; linarith
  have := hT.2.2.1 hprev hlt
  rw [hb0] at this
  have hd := hdt b (by omega) hb
  linarith

/-- **C32 (what forcing means).** While a hybrid's engine is forced on in a step that could be driven
electrically, it delivers the forced power (plus the accessory load if that hangs on the engine), up
to its momentary limit. -/
theorem C32_forced_power (hH : H.Local) (hV : V.ptType = .hev ∨ V.ptType = .phev)
    (hF : V.fcType ≠ .h2fc) (hmc : V.mcMaxKw ≠ 0) (hfc : V.fcMaxKw ≠ 0)
    (hmax : 0 ≤ V.maxFcEffKw) (hidle : 0 ≤ V.idleFcKw)
    {s : Sim K} (h : Reachable F H V P s) {i : Nat} {p r : Row K} {dt a : K} (hs : StepAt s i p r dt a)
    (ha : 0 ≤ a) (hon : r.forced.fcForcedOn = true) (hel : r.hyb.canPwrAllElec = true) :
    r.fc.fcKwOutAch = min r.lims.curMaxFcKwOut
      (forcedKw V r.pow.transKwInAch r.pow.accelKw +
        (if V.noElecSys || V.noElecAux || r.misc.highAccFcOnTag then a else 0)) := by
  obtain ⟨E, st, -, -, h3, hr⟩ := StepAt.solve hH h hs
  subst h3
  have hmech : r.dec.mcMechKwOutAch = r.forced.mcMechKw4forcedFc := by
    have e : r.dec.mcMechKwOutAch = mcMechKwOutAch V E r.lims r.pow r.hyb r.forced := by rw [hr]; rfl
    rw [e]
    unfold mcMechKwOutAch
    simp only
    rw [if_neg hmc, if_pos ⟨hon, hel, hV, hF⟩]
  have hout : r.fc.fcKwOutAch = fcKwOutAch V E r.misc r.lims r.pow r.dec := by rw [hr]; rfl
  have hforce : r.forced = setForced V E r.pow r.hyb := by rw [hr]; rfl
  have hon' : fcForcedOn V E r.hyb = true := by rw [hforce] at hon; exact hon
  have hdiff : max 0 (r.pow.transKwInAch - r.forced.mcMechKw4forcedFc) =
        forcedKw V r.pow.transKwInAch r.pow.accelKw ∧
      max 0 (r.pow.transKwInAch - r.forced.mcMechKw4forcedFc + E.auxIn) =
        forcedKw V r.pow.transKwInAch r.pow.accelKw + E.auxIn := by
    rw [hforce]
    simp only [setForced, hon', hel]
    rw [if_neg (by simp)]
    unfold forcedKw
    generalize r.pow.transKwInAch = x
    generalize r.pow.accelKw = ac
    by_cases c1 : x < 0
    · rw [if_pos c1, if_pos c1, sub_self]; simp [ha]
    rw [if_neg c1, if_neg c1]
    have c1' := not_lt.1 c1
    by_cases c2 : V.maxFcEffKw = x
    · rw [if_pos c2, if_neg (fun hc => hc.2.2 c2.symm), sub_zero, c2, min_self]
      exact ⟨max_eq_right c1', max_eq_right (by linarith)⟩
    rw [if_neg c2]
    by_cases c3 : x < V.idleFcKw ∧ 0 ≤ ac
    · rw [if_pos c3, if_pos ⟨c3.1, c3.2, fun e => c2 e.symm⟩]
      simp only [sub_sub_cancel]
      exact ⟨max_eq_right hidle, max_eq_right (by linarith)⟩
    have c3' : ¬ (x < V.idleFcKw ∧ 0 ≤ ac ∧ x ≠ V.maxFcEffKw) := fun hc => c3 ⟨hc.1, hc.2.1⟩
    rw [if_neg c3, if_neg c3']
    by_cases c4 : x < V.maxFcEffKw
    · rw [if_pos c4, sub_zero, min_eq_left c4.le]
      exact ⟨max_eq_right c1', max_eq_right (by linarith)⟩
    · rw [if_neg c4, min_eq_right (not_lt.1 c4)]
      simp only [sub_sub_cancel]
      exact ⟨max_eq_right hmax, max_eq_right (by linarith)⟩
  rw [hout]
  unfold fcKwOutAch
  rw [if_neg hfc, if_neg hF, hmech]
  split
  · rw [hdiff.2]
  · rw [hdiff.1, add_zero]

end Field

/-! ### Concrete cases -/

open Demo

/-- A drive during which the demo hybrid starts its engine. -/
def hillStart : Cyc ℚ :=
  [⟨0, 0, 0, 0⟩, ⟨1, 6, 0, 0⟩, ⟨2, 14, 0, 0⟩, ⟨3, 14, 0, 0⟩, ⟨4, 8, 0, 0⟩, ⟨5, 4, 0, 0⟩, ⟨6, 4, 0, 0⟩,
    ⟨7, 3, 0, 0⟩, ⟨8, 0, 0, 0⟩]

/-- Hypotheses of `C32_minimum_on_time` (samples 1 and 4 of the run) and of `C32_forced_power`
(sample 6) are met: the engine runs for two periods of exactly the minimum of three seconds. -/
theorem C32_demo : ∃ s, simDrive fns noHooks hev params (Sim.new hillStart) (some (3 / 5)) none = .ok s ∧
    Finished fns noHooks hev params s ∧ DtNonneg s ∧ hev.minFcTimeOn = 3 ∧
    s.rows.map (fun r => r.dec.fcTimeOn) = [0, 0, 1, 2, 0, 1, 2, 0, 0] ∧
    s.rows.map (fun r => r.forced.fcForcedOn && r.hyb.canPwrAllElec) =
      [false, false, false, false, false, false, true, false, false] ∧
    (s.row 6).fc.fcKwOutAch = 2 ∧ (s.row 6).forced.fcForcedState = 4 ∧ (s.row 5).forced.fcForcedState = 1 := by
  have hall : (match simDrive fns noHooks hev params (Sim.new hillStart) (some (3 / 5)) none with
      | .ok s => decide ((∀ i < s.i, 1 ≤ i → 0 ≤ dtAt s.cyc i) ∧ hev.minFcTimeOn = 3 ∧
          s.rows.map (fun r => r.dec.fcTimeOn) = [0, 0, 1, 2, 0, 1, 2, 0, 0] ∧
          s.rows.map (fun r => r.forced.fcForcedOn && r.hyb.canPwrAllElec) =
            [false, false, false, false, false, false, true, false, false] ∧
          (s.row 6).fc.fcKwOutAch = 2 ∧ (s.row 6).forced.fcForcedState = 4 ∧ (s.row 5).forced.fcForcedState = 1)
      | .error _ => false) = true := by decide +kernel
  split at hall
  · rename_i s hs
    obtain ⟨a, b⟩ := of_decide_eq_true hall
    exact ⟨s, hs, Finished.simDrive noHooks_local rfl hs, fun i h1 h2 => a i h2 h1, b⟩
  · simp at hall

/-- **C32, what the timer is not.** The timer is not a record of the engine running: it is reset
according to the engine power left from an *earlier solve of the same step*, which is zero in the
first. A hybrid whose accessories hang on the engine burns fuel in every step while the timer stays at
zero, so the minimum on-time never applies. -/
theorem C32_timer_misses_engine :
    ∃ s, simDrive fns noHooks { hev with noElecAux := true } params (Sim.new standStill) (some (3 / 5))
        none = .ok s ∧
      (∀ r ∈ s.rows.tail, 0 < r.fc.fcKwOutAch ∧ 0 < r.fc.fsKwOutAch ∧ r.dec.fcTimeOn = 0) ∧
      s.rows.length = 4 := by
  have hall : (match simDrive fns noHooks { hev with noElecAux := true } params (Sim.new standStill)
        (some (3 / 5)) none with
      | .ok s => decide ((∀ r ∈ s.rows.tail, 0 < r.fc.fcKwOutAch ∧ 0 < r.fc.fsKwOutAch ∧
          r.dec.fcTimeOn = 0) ∧ s.rows.length = 4)
      | .error _ => false) = true := by decide +kernel
  split at hall
  · rename_i s hs
    exact ⟨s, hs, of_decide_eq_true hall⟩
  · simp at hall

end Fastsim.Props
