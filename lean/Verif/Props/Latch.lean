import Verif.Props.Engine

/-!
# C67: the low-charge latch

When the battery runs low, the accessories of a hybrid are handed over to the engine, and they stay there
until the charge has recovered by a margin (`perc_high_acc_buf`).
-/

set_option linter.unusedSectionVars false

namespace Fastsim.Spec
section Lawless
variable {K : Type*} [Zero K] [One K] [NatCast K] [Add K] [Sub K] [Mul K] [Div K] [Neg K]
  [LinearOrder K]

/-- Before sample `i` the state of charge `soc` dropped below `low`, and since then it has stayed below
`high`. -/
def LowSince (soc : Nat → K) (low high : K) (i : Nat) : Prop :=
  ∃ j, j < i ∧ soc j < low ∧ ∀ k, j < k → k < i → soc k < high

end Lawless
end Fastsim.Spec

namespace Fastsim.Props
open Fastsim Spec

section Lawless
variable {K : Type*} [Zero K] [One K] [NatCast K] [Add K] [Sub K] [Mul K] [Div K] [Neg K]
  [LinearOrder K]
variable {F : Fns K} {H : Hooks K} {V : Veh K} {P : SimParams K}

/-- State of charge recorded at sample `j`. -/
abbrev socAt (s : Sim K) (j : Nat) : K := (s.rows.getD j Row.zero).dec.soc

theorem stepAt_rows {s : Sim K} {i : Nat} {p r : Row K} {dt a : K} (hs : StepAt s i p r dt a) :
    s.rows.getD (i - 1) Row.zero = p ∧ s.rows.getD i Row.zero = r := by
  rw [List.getD_eq_getElem?_getD, List.getD_eq_getElem?_getD, hs.prev, hs.row]
  exact ⟨rfl, rfl⟩

/-- **C67 (latch).** At every simulated sample the low-charge tag is set exactly if the state of charge
was below `min_soc` at some earlier sample and has stayed below `min_soc + perc_high_acc_buf` at every
sample since. -/
theorem C67_latch (hH : H.Local) {s : Sim K} (h : Reachable F H V P s) :
    ∀ i, i < s.i → ((s.rows.getD i Row.zero).misc.highAccFcOnTag = true ↔
      LowSince (socAt s) V.minSoc (V.minSoc + V.percHighAccBuf) i) := by
  intro i
  induction i with
  | zero =>
    intro _
    obtain ⟨-, -, soc, -, h0⟩ := Reachable.inv hH h
    rw [List.getD_eq_getElem?_getD, h0]
    exact ⟨fun e => by simp [Row.init, Row.zero] at e, fun ⟨j, hj, _⟩ => by omega⟩
  | succ i ih =>
    intro hi
    obtain ⟨p, r, dt, a, hs⟩ := stepAt_exists hH h (i := i + 1) (by omega) hi
    obtain ⟨hp, hr⟩ := stepAt_rows hs
    rw [Nat.add_sub_cancel] at hp
    obtain ⟨E, st, -, -, -, he⟩ := StepAt.solve hH h hs
    have ih := ih (by omega)
    rw [hp] at ih
    have hsoc : socAt s i = p.dec.soc := by rw [socAt, hp]
    have ht : r.misc.highAccFcOnTag = true ↔ p.dec.soc < V.minSoc ∨
        (p.misc.highAccFcOnTag = true ∧ p.dec.soc < V.minSoc + V.percHighAccBuf) := by
      rw [he]
      show (if p.dec.soc < V.minSoc ∨ (p.misc.highAccFcOnTag = true ∧
        (if p.dec.soc < V.minSoc + V.percHighAccBuf then false else true) = false) then true else false)
          = true ↔ _
      by_cases hb : p.dec.soc < V.minSoc + V.percHighAccBuf <;>
        by_cases hl : p.dec.soc < V.minSoc <;> simp [hb, hl]
    rw [hr, ht, ih]
    constructor
    · rintro (hl | ⟨⟨j, hj, hl, hk⟩, hb⟩)
      · exact ⟨i, by omega, by rw [hsoc]; exact hl, fun k a b => by omega⟩
      · refine ⟨j, by omega, hl, fun k a b => ?_⟩
        rcases Nat.lt_or_ge k i with c | c
        · exact hk k a c
        · have : k = i := by omega
          rw [this, hsoc]; exact hb
    · rintro ⟨j, hj, hl, hk⟩
      rcases Nat.lt_or_ge j i with c | c
      · exact Or.inr ⟨⟨j, c, hl, fun k a b => hk k a (by omega)⟩, by rw [← hsoc]; exact hk i c (by omega)⟩
      · have : j = i := by omega
        rw [this, hsoc] at hl; exact Or.inl hl

/-- **C67 (margin).** The recorded flag `reached_buff` says whether the charge before the step was at or
above the upper threshold. -/
theorem C67_margin (hH : H.Local) {s : Sim K} (h : Reachable F H V P s) {i : Nat} {p r : Row K} {dt a : K}
    (hs : StepAt s i p r dt a) :
    r.misc.reachedBuff = true ↔ V.minSoc + V.percHighAccBuf ≤ p.dec.soc := by
  obtain ⟨E, st, -, -, -, rfl⟩ := StepAt.solve hH h hs
  show (if p.dec.soc < V.minSoc + V.percHighAccBuf then false else true) = true ↔ _
  by_cases hb : p.dec.soc < V.minSoc + V.percHighAccBuf
  · simp [hb]
  · simp [hb, not_lt.1 hb]

end Lawless

section Field
variable {K : Type*} [Field K] [LinearOrder K] [IsStrictOrderedRing K]
variable {F : Fns K} {H : Hooks K} {V : Veh K} {P : SimParams K}

/-- Who carries the accessory load of step `i`: the engine if the vehicle's accessories are not electric
or the charge is low in the sense of the latch, the battery otherwise. -/
def EngineCarriesAux (V : Veh K) (s : Sim K) (i : Nat) : Prop :=
  V.noElecAux = true ∨ LowSince (socAt s) V.minSoc (V.minSoc + V.percHighAccBuf) i

/-- **C67 (accessories follow the latch).** For a vehicle with battery and combustion engine, the
accessory load of a step is drawn from the engine (within its limit) while the latch holds or the
accessories are not electric, and from the battery otherwise; never from both. -/
theorem C67_accessories (hH : H.Local) (hb : V.essMaxKw ≠ 0) (hb' : V.essMaxKwh ≠ 0)
    (hn : V.noElecSys = false) (hz : V.fcType ≠ .h2fc) (hf : V.fcMaxKw ≠ 0)
    {s : Sim K} (h : Reachable F H V P s) {i : Nat} {p r : Row K} {dt a : K}
    (hs : StepAt s i p r dt a) :
    (EngineCarriesAux V s i → r.dec.essKwOutAch = r.dec.mcElecKwInAch ∧
      r.fc.fcKwOutAch = min r.lims.curMaxFcKwOut
        (max 0 (r.pow.transKwInAch - r.dec.mcMechKwOutAch + a))) ∧
    (¬ EngineCarriesAux V s i → r.dec.essKwOutAch = r.dec.mcElecKwInAch + a ∧
      r.fc.fcKwOutAch = min r.lims.curMaxFcKwOut
        (max 0 (r.pow.transKwInAch - r.dec.mcMechKwOutAch))) := by
  have hl := C67_latch hH h i hs.lt
  rw [(stepAt_rows hs).2] at hl
  unfold EngineCarriesAux
  rw [← hl]
  clear hl
  obtain ⟨E, st, -, hroad, hE, rfl⟩ := StepAt.solve hH h hs
  have hr : ∀ L : Lims K, ∀ hy : Hyb K, ∀ x, roadwayChgKwOutAch V E L hy x = 0 := by
    intro L hy x; simp [roadwayChgKwOutAch, hroad]
  have hess : (solveStep F V P.toStepParams E p st).dec.essKwOutAch =
      essKwOutAch V E (solveStep F V P.toStepParams E p st).misc
        (solveStep F V P.toStepParams E p st).lims (solveStep F V P.toStepParams E p st).pow
        (solveStep F V P.toStepParams E p st).hyb
        (solveStep F V P.toStepParams E p st).dec.mcElecKwInAch 0 := by
    show essKwOutAch V E _ _ _ _ _ (roadwayChgKwOutAch V E _ _ _) = _
    rw [hr]; rfl
  have hfc : (solveStep F V P.toStepParams E p st).fc.fcKwOutAch =
      fcKwOutAch V E (solveStep F V P.toStepParams E p st).misc
        (solveStep F V P.toStepParams E p st).lims (solveStep F V P.toStepParams E p st).pow
        (solveStep F V P.toStepParams E p st).dec := rfl
  generalize solveStep F V P.toStepParams E p st = r at *
  unfold essKwOutAch at hess
  unfold fcKwOutAch at hfc
  rw [if_neg (by tauto), if_neg hz, hE] at hess
  rw [if_neg hf, if_neg hz, hn, Bool.false_or, hE] at hfc
  constructor
  · intro hc
    have h1 : (r.misc.highAccFcOnTag || V.noElecAux) = true := by rcases hc with hc | hc <;> simp [hc]
    have h2 : (V.noElecAux || r.misc.highAccFcOnTag) = true := by rcases hc with hc | hc <;> simp [hc]
    rw [if_pos h1, sub_zero] at hess
    rw [if_pos h2] at hfc
    exact ⟨hess, hfc⟩
  · intro hc
    have h1 : ¬ (r.misc.highAccFcOnTag || V.noElecAux) = true := by rw [Bool.or_eq_true]; tauto
    have h2 : ¬ (V.noElecAux || r.misc.highAccFcOnTag) = true := by rw [Bool.or_eq_true]; tauto
    rw [if_neg h1, sub_zero] at hess
    rw [if_neg h2] at hfc
    exact ⟨hess, hfc⟩

/-- **C24 (battery power, above the window).** As long as the state of charge has not been below `min_soc`, battery power
of a vehicle with electric accessories and no fuel cell is motor electric power plus accessory load. -/
theorem C24_above_window (hH : H.Local) (hz : V.fcType ≠ .h2fc) (hb : V.essMaxKw ≠ 0) (hb' : V.essMaxKwh ≠ 0)
    (ha : V.noElecAux = false) {s : Sim K} (h : Reachable F H V P s) {i : Nat} {p r : Row K} {dt a : K}
    (hs : StepAt s i p r dt a) (hsoc : ∀ j, j < i → V.minSoc ≤ socAt s j) :
    r.dec.essKwOutAch = r.dec.mcElecKwInAch + a := by
  refine (C24_battery_power hH hz hb hb' ha h hs).1 ?_
  have hl := C67_latch hH h i hs.lt
  rw [(stepAt_rows hs).2] at hl
  rw [← Bool.not_eq_true, hl]
  rintro ⟨j, hj, hlow, -⟩
  exact absurd hlow (not_lt.2 (hsoc j hj))

/-- **C67 (engine runs when charge is low).** If the state of charge before a step is below `min_soc`,
the step is not driven on electricity alone, so the engine-on timer advances. -/
theorem C67_low_charge (hH : H.Local) (hn : V.noElecSys = false) (hw : V.minSoc ≤ V.maxSoc)
    {s : Sim K} (h : Reachable F H V P s) {i : Nat} {p r : Row K} {dt a : K}
    (hs : StepAt s i p r dt a) (hsoc : p.dec.soc < V.minSoc) :
    r.hyb.canPwrAllElec = false ∧ r.dec.fcTimeOn = p.dec.fcTimeOn + dt := by
  obtain ⟨E, st, hE, -, -, rfl⟩ := StepAt.solve hH h hs
  have hbuf : V.minSoc ≤ accelBuffSoc V E := by
    unfold accelBuffSoc
    simp only [hn, Bool.false_eq_true, if_false]
    exact le_min (le_max_right _ _) hw
  have hc : (solveStep F V P.toStepParams E p st).hyb.canPwrAllElec = false := by
    show canPwrAllElec V E p.dec.soc _ _ = false
    have : ¬ accelBuffSoc V E < p.dec.soc := not_lt.2 (hsoc.le.trans hbuf)
    unfold canPwrAllElec
    simp [this]
  refine ⟨hc, ?_⟩
  show (if (solveStep F V P.toStepParams E p st).hyb.canPwrAllElec ∧
    (solveStep F V P.toStepParams E p st).forced.fcForcedOn = false ∧ st.fcKwOutAch = 0 then 0
      else p.dec.fcTimeOn + E.dt) = _
  rw [hc, hE]; simp

end Field

open Demo

/-- A hybrid with a small battery, a margin, a strong accessory load and a slow engine. -/
def latchHev : Veh ℚ :=
  { hev with essMaxKwh := 1 / 50, percHighAccBuf := 1 / 20, auxKw := 4, fcSecToPeakPwr := 50 }

/-- Standstill at low charge, then driving and braking. -/
def latchCyc : Cyc ℚ :=
  [⟨0, 0, 0, 0⟩, ⟨1, 0, 0, 0⟩, ⟨2, 0, 0, 0⟩, ⟨3, 4, 0, 0⟩, ⟨4, 8, 0, 0⟩, ⟨5, 6, 0, 0⟩, ⟨6, 2, 0, 0⟩,
    ⟨7, 0, 0, 0⟩, ⟨8, 0, 0, 0⟩]

/-- The latch at work: set by a dip below `min_soc` (2/5) at sample 1, kept while the charge is back above
`min_soc` but below 9/20, released once it has passed that, and not set again when the charge falls back
between the thresholds. -/
theorem C67_demo : ∃ s, simDrive fns noHooks latchHev params (Sim.new latchCyc) (some (41 / 100)) none = .ok s ∧
    Reachable fns noHooks latchHev params s ∧ s.i = 9 ∧ latchHev.essMaxKw ≠ 0 ∧ latchHev.essMaxKwh ≠ 0 ∧
    latchHev.noElecSys = false ∧ latchHev.fcType ≠ .h2fc ∧ latchHev.fcMaxKw ≠ 0 ∧
    latchHev.minSoc ≤ latchHev.maxSoc ∧ latchHev.noElecAux = false ∧
    s.rows.map (fun r => r.misc.highAccFcOnTag) =
      [false, false, true, true, true, true, true, false, false] ∧
    s.rows.map (fun r => decide (r.dec.soc < 2 / 5)) =
      [false, true, false, false, false, false, false, false, false] ∧
    s.rows.map (fun r => decide (r.dec.soc < 9 / 20)) =
      [true, true, true, true, true, true, false, false, true] := by
  have hL : noHooks.Local := noHooks_local
  have hall : (match simDrive fns noHooks latchHev params (Sim.new latchCyc) (some (41 / 100)) none with
      | .ok s => decide (s.i = 9 ∧ s.rows.map (fun r => r.misc.highAccFcOnTag) =
          [false, false, true, true, true, true, true, false, false] ∧
        s.rows.map (fun r => decide (r.dec.soc < 2 / 5)) =
          [false, true, false, false, false, false, false, false, false] ∧
        s.rows.map (fun r => decide (r.dec.soc < 9 / 20)) =
          [true, true, true, true, true, true, false, false, true])
      | .error _ => false) = true := by decide +kernel
  split at hall
  · rename_i s hs
    obtain ⟨h1, h2, h3, h4⟩ := of_decide_eq_true hall
    exact ⟨s, hs, Reachable.simDrive hL rfl hs, h1, by decide +kernel, by decide +kernel, rfl, by decide,
      by decide +kernel, by decide +kernel, rfl, h2, h3, h4⟩
  · simp at hall

end Fastsim.Props
