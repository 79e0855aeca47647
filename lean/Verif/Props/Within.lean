import Verif.Props.FuelTrace
import Verif.Props.Real

/-!
# C121: which traces a conventional vehicle meets

Whether a run meets its trace can be read off the trace and the vehicle, leg by leg: the engine has to reach the power of
the leg from what it gave in the leg before, and the tires have to pass the road load to the road.
-/

set_option linter.unusedSectionVars false

namespace Fastsim.Spec
open Fastsim
section Field
variable {K : Type*} [Field K] [LinearOrder K] [IsStrictOrderedRing K]

/-- Power (kW) the engine can reach within `dt` seconds from the output `w`: it rises in proportion to the time, up to its
rating. -/
def reachKw (V : Veh K) (w dt : K) : K := min V.fcMaxKw (w + V.fcMaxKw * dt / V.fcSecToPeakPwr)

/-- Power (kW) the drive axle can pass to the road in a leg: the friction force of the tires under the weight on the axle
times the highest speed friction lets the vehicle have at the end of the leg. -/
def gripKw (V : Veh K) (P : StepParams K) (l : Leg K) : K :=
  V.wheelCoefOfFric * (V.driveAxleWeightFrac * (V.vehKg * P.aGrav)) / (1 + V.vehCgM * V.wheelCoefOfFric / V.wheelBaseM)
    * (l.v0 + V.maxTracMps2 * l.dt) / 1000

/-- The leg can be driven after an engine output `w`: the engine reaches its power, and the road load stays within the
grip (the code divides the grip by the efficiency of the transmission). -/
def LegWithin (F : Fns K) (V : Veh K) (P : StepParams K) (a w : K) (l : Leg K) : Prop :=
  legWorkKw F V P a l ≤ reachKw V w l.dt ∧
    max 0 (roadLoadKw F V P l.dt l.grade l.v0 l.v) ≤ gripKw V P l / V.transEff

/-- The legs can be driven one after the other, beginning at the engine output `w`. -/
def LegsWithin (F : Fns K) (V : Veh K) (P : StepParams K) (a : K) : K → List (Leg K) → Prop
  | _, [] => True
  | w, l :: ls => LegWithin F V P a w l ∧ LegsWithin F V P a (legWorkKw F V P a l) ls

end Field
end Fastsim.Spec

namespace Fastsim.Props
open Fastsim Spec

section Field
variable {K : Type*} [Field K] [LinearOrder K] [IsStrictOrderedRing K]
variable {F : Fns K} {H : Hooks K} {V V' : Veh K} {P P' : SimParams K}

/-- Engine output before the leg `i`. -/
def outBefore (F : Fns K) (V : Veh K) (P : StepParams K) (a w : K) (ls : List (Leg K)) : Nat → K
  | 0 => w
  | i + 1 => match ls[i]? with
    | some l => legWorkKw F V P a l
    | none => w

theorem legsWithin_get {Q : StepParams K} {a : K} (ls : List (Leg K)) (w : K) :
    LegsWithin F V Q a w ls ↔ ∀ i l, ls[i]? = some l → LegWithin F V Q a (outBefore F V Q a w ls i) l := by
  induction ls generalizing w with
  | nil => simp [LegsWithin]
  | cons x ls ih =>
    rw [LegsWithin, ih]
    constructor
    · rintro ⟨h1, h2⟩ i l hl
      cases i with
      | zero =>
        simp only [List.getElem?_cons_zero, Option.some.injEq] at hl
        subst hl; exact h1
      | succ i =>
        have := h2 i l (by simpa using hl)
        have e : outBefore F V Q a w (x :: ls) (i + 1) = outBefore F V Q a (legWorkKw F V Q a x) ls i := by
          cases i with
          | zero => simp [outBefore]
          | succ j =>
            simp only [outBefore, List.getElem?_cons_succ]
            have hj : j < ls.length := by
              have := (List.getElem?_eq_some_iff.1 hl).1
              simp at this; omega
            rw [List.getElem?_eq_getElem hj]
        rw [e]; exact this
    · intro h
      refine ⟨h 0 x rfl, fun i l hl => ?_⟩
      have := h (i + 1) l (by simpa using hl)
      have e : outBefore F V Q a w (x :: ls) (i + 1) = outBefore F V Q a (legWorkKw F V Q a x) ls i := by
        cases i with
        | zero => simp [outBefore]
        | succ j =>
          simp only [outBefore, List.getElem?_cons_succ]
          have hj : j < ls.length := by
            have := (List.getElem?_eq_some_iff.1 hl).1
            omega
          rw [List.getElem?_eq_getElem hj]
      rw [← e]; exact this

/-- One step: the trace is met exactly if the leg is within the limits. -/
theorem step_met (hc : P.coastAllow = false) (hd : P.idmAllow = false) (hm : P.missedTrace = false)
    (hV : Conventional V) {s : Sim K} (h : Reachable F H V P s) {i : Nat} {p r : Row K} {dt a : K}
    (hs : StepAt s i p r dt a) :
    (r.ach.mpsAch = askedMps s i ∧ r.pow.cycTransKwOutReq ≤ r.lims.curMaxTransKwOut) ↔
      LegWithin F V P.toStepParams a p.fc.fcKwOutAch ⟨dt, p.ach.mpsAch, askedMps s i, recordedGrade s i⟩ := by
  obtain ⟨-, hR⟩ := Reachable.recInv hc hd h
  obtain ⟨st, hst, hrow⟩ := hR.solved i hs.pos hs.lt
  obtain rfl := hst hm
  rw [hs.row, List.getD_eq_getElem?_getD (i := i - 1), hs.prev] at hrow
  have hr := Option.some.inj hrow
  simp only [Option.getD_some] at hr
  have hdt : (recordedEnv s i).dt = dt := hs.dt.symm
  have hg : ∀ v, (recordedEnv s i).gradeOf v = recordedGrade s i := fun _ => rfl
  have hmps : (recordedEnv s i).mps = askedMps s i := rfl
  have haux : (recordedEnv s i).auxIn = a := by
    show s.aux.getD i 0 = a
    rw [List.getD_eq_getElem?_getD, hs.aux]; rfl
  have hco : (recordedEnv s i).coast = false := rfl
  generalize recordedEnv s i = E at *
  have hmech : (setCompLims F V P.toStepParams E p (setMisc V E p)).curMaxMechMcKwIn = 0 := by
    show curMaxMechMcKwIn F V E p = 0
    have hchg : curMaxEssChgKw F V E p = 0 := by
      simp [curMaxEssChgKw, essCapLimChgKw, hV.kwh, hV.kw]
    simp [curMaxMechMcKwIn, hchg]
  have hreg : ∀ v, (powerAt F V P.toStepParams E p (setCompLims F V P.toStepParams E p (setMisc V E p)) v).cycRegenBrakeKw
      = 0 := by
    intro v
    show regenBrakeKw V (setCompLims F V P.toStepParams E p (setMisc V E p)).curMaxMechMcKwIn _ _ = 0
    rw [hmech, regenBrakeKw, zero_mul, max_eq_right (min_le_left _ _)]
  have hreq : ∀ v, (powerAt F V P.toStepParams E p (setCompLims F V P.toStepParams E p (setMisc V E p)) v).cycTransKwOutReq
      = max 0 (roadLoadKw F V P.toStepParams dt (recordedGrade s i) p.ach.mpsAch v) := by
    intro v
    rw [outReq_eq, hreg, neg_zero, max_comm, hg, hdt]
  have hmc : curMaxMcKwOut F V E p = 0 := by
    unfold curMaxMcKwOut
    rw [hV.motor, mul_zero, neg_zero]
    exact max_eq_right (min_le_right _ _)
  have hlim : curMaxTransKwOut F V P.toStepParams E p (setMisc V E p) =
      min ((reachKw V p.fc.fcKwOutAch dt - a) * V.transEff)
        (gripKw V P.toStepParams ⟨dt, p.ach.mpsAch, askedMps s i, recordedGrade s i⟩ / V.transEff) := by
    unfold curMaxTransKwOut
    simp only [hco, hV.noElecSys, hV.notH2, Bool.true_or, if_true, if_false, Bool.false_eq_true]
    rw [hmc, haux, zero_add]
    have e1 : curMaxFcKwOut V E p = reachKw V p.fc.fcKwOutAch dt := by
      unfold curMaxFcKwOut reachKw fcTransLimKw
      rw [hdt]
      congr 2
      ring
    have e2 : curMaxTracKw V P.toStepParams (setMisc V E p) =
        gripKw V P.toStepParams ⟨dt, p.ach.mpsAch, askedMps s i, recordedGrade s i⟩ := by
      unfold curMaxTracKw gripKw setMisc
      simp only [hdt]
      ring
    rw [e1, e2]
  have hwithin : max 0 (roadLoadKw F V P.toStepParams dt (recordedGrade s i) p.ach.mpsAch (askedMps s i)) ≤
      curMaxTransKwOut F V P.toStepParams E p (setMisc V E p) ↔
      LegWithin F V P.toStepParams a p.fc.fcKwOutAch ⟨dt, p.ach.mpsAch, askedMps s i, recordedGrade s i⟩ := by
    rw [hlim, le_min_iff]
    unfold LegWithin legWorkKw
    refine and_congr ?_ Iff.rfl
    simp only
    rw [← div_le_iff₀ hV.eff]
    exact le_sub_iff_add_le
  have hrl : r.lims.curMaxTransKwOut = curMaxTransKwOut F V P.toStepParams E p (setMisc V E p) := by rw [hr]; rfl
  have e := solveStep_pow_fresh (F := F) (V := V) P.toStepParams E p Stale.fresh rfl
  rw [← hr] at e
  rw [← hwithin, hrl]
  constructor
  · rintro ⟨h1, h2⟩
    rw [e, hreq, h1] at h2
    exact h2
  · intro hle
    have hmet : (setPowerCalcs F V P.toStepParams E p
        (setCompLims F V P.toStepParams E p (setMisc V E p)) Stale.fresh).cycMet = true := by
      show decide ((powerAt F V P.toStepParams E p
        (setCompLims F V P.toStepParams E p (setMisc V E p)) E.mps).cycTransKwOutReq ≤
          curMaxTransKwOut F V P.toStepParams E p (setMisc V E p)) = true
      rw [hreq, hmps]
      exact decide_eq_true hle
    have hv : r.ach.mpsAch = askedMps s i := by
      rw [hr]
      simp only [solveStep, setAchSpeed, if_pos hmet]
      exact hmps
    refine ⟨hv, ?_⟩
    rw [e, hreq, hv]
    exact hle

/-- **C121 (which traces are met).** A run of a conventional vehicle meets its trace exactly if the legs of the trace are,
one after the other, within what engine and tires can do, beginning with the engine at rest. -/
theorem C121_meets (hc : P.coastAllow = false) (hd : P.idmAllow = false) (hm : P.missedTrace = false)
    (hV : Conventional V) (ha : 0 ≤ ownAux V) (hH : H.Local) (hA : Hooks.KeepAux H V) {c : Cyc K} {init : Option K}
    {s : Sim K} (h : simDrive F H V P (Sim.new c) init none = .ok s) :
    MeetsTrace s ↔ LegsWithin F V P.toStepParams (ownAux V) 0 (legs c) := by
  have hk := simDrive_keeps hH (s := Sim.new c) rfl h
  have hcyc : s.cyc = c := hk.cyc (by unfold Resets; simp [hc, hd, hm])
  have hcyc0 : s.cyc0 = c := hk.cyc0
  have fin := Finished.simDrive hH (s := Sim.new c) rfl h
  have hlen := fin.lenRows hH
  obtain ⟨-, -, soc, -, t0⟩ := Reachable.inv hH fin.reachable
  have r0 : s.row 0 = Row.init V soc (s.cyc0.speeds.getD 0 0) (s.aux.getD 0 0) := by
    rw [Sim.row, List.getD_eq_getElem?_getD, t0]; rfl
  have haux : ∀ i, 1 ≤ i → i < c.length → s.aux[i]? = some (ownAux V) := by
    intro i h1 h2
    have := (C33_load hH hA (s := Sim.new c) rfl h).2 i
    rw [this]
    unfold loadAt
    rw [if_pos]
    refine ⟨h1, by rw [show (Sim.new c).cyc0 = c from rfl]; simpa [prescribed] using h2, fun j _ x hx => ?_⟩
    have := List.mem_of_getElem? hx
    exact List.eq_of_mem_replicate this
  have hgrade : ∀ i, recordedGrade s i = c.grades.getD i 0 := by
    intro i
    unfold recordedGrade
    rw [hcyc, hcyc0]
    split
    · rename_i hz
      rw [List.getD_eq_getElem?_getD]
      cases hx : c.grades[i]? with
      | none => rfl
      | some g =>
        have := List.all_eq_true.1 hz g (List.mem_of_getElem? hx)
        exact (of_decide_eq_true this).symm
    · rfl
  have step : ∀ i, i + 1 < c.length → StepAt s (i + 1) (s.row i) (s.row (i + 1)) (dtAt c (i + 1)) (ownAux V) := by
    intro i hi
    obtain ⟨p, r, dt, a, hs⟩ := stepAt_exists hH fin.reachable (i := i + 1) (by omega)
      (by rw [fin.atEnd, hcyc]; omega)
    have e1 : s.row (i + 1) = r := by rw [Sim.row, List.getD_eq_getElem?_getD, hs.row]; rfl
    have e3 : s.row i = p := by
      have := hs.prev
      rw [Nat.add_sub_cancel] at this
      rw [Sim.row, List.getD_eq_getElem?_getD, this]; rfl
    have ea : a = ownAux V := by
      have := hs.aux
      rw [haux _ (by omega) (by omega)] at this
      exact (Option.some.inj this).symm
    have edt : dt = dtAt c (i + 1) := by rw [hs.dt, hcyc]
    rw [e1, e3, ← ea, ← edt]; exact hs
  have asked : ∀ i, askedMps s i = c.speeds.getD i 0 := fun i => by rw [askedMps, hcyc]
  have one : ∀ i, i + 1 < c.length → (s.row i).ach.mpsAch = c.speeds.getD i 0 →
      (s.row i).fc.fcKwOutAch = outBefore F V P.toStepParams (ownAux V) 0 (legs c) i →
      (((s.row (i + 1)).ach.mpsAch = askedMps s (i + 1) ∧
        (s.row (i + 1)).pow.cycTransKwOutReq ≤ (s.row (i + 1)).lims.curMaxTransKwOut) ↔
        LegWithin F V P.toStepParams (ownAux V) (outBefore F V P.toStepParams (ownAux V) 0 (legs c) i)
          ⟨dtAt c (i + 1), c.speeds.getD i 0, c.speeds.getD (i + 1) 0, c.grades.getD (i + 1) 0⟩) := by
    intro i hi h1 h2
    rw [step_met hc hd hm hV fin.reachable (step i hi), h1, h2, asked, hgrade]
  have next : ∀ i, i + 1 < c.length → (s.row i).ach.mpsAch = c.speeds.getD i 0 →
      (s.row (i + 1)).ach.mpsAch = askedMps s (i + 1) ∧
        (s.row (i + 1)).pow.cycTransKwOutReq ≤ (s.row (i + 1)).lims.curMaxTransKwOut →
      (s.row (i + 1)).ach.mpsAch = c.speeds.getD (i + 1) 0 ∧
      (s.row (i + 1)).fc.fcKwOutAch = outBefore F V P.toStepParams (ownAux V) 0 (legs c) (i + 1) := by
    intro i hi h1 hmet
    have w := C80_engine_work hH hc hd hm hV fin.reachable (step i hi) ha hmet.2
    rw [asked] at hmet
    refine ⟨hmet.1, ?_⟩
    rw [w, outBefore, legs_get c i hi, h1, hmet.1, hgrade]
    rfl
  have first : (s.row 0).ach.mpsAch = c.speeds.getD 0 0 ∧
      (s.row 0).fc.fcKwOutAch = outBefore F V P.toStepParams (ownAux V) 0 (legs c) 0 := by
    rw [r0, hcyc0]; exact ⟨rfl, rfl⟩
  rw [legsWithin_get]
  constructor
  · intro hmet
    have met : ∀ i, i + 1 < c.length → (s.row (i + 1)).ach.mpsAch = askedMps s (i + 1) ∧
        (s.row (i + 1)).pow.cycTransKwOutReq ≤ (s.row (i + 1)).lims.curMaxTransKwOut :=
      fun i hi => hmet _ _ _ _ _ (step i hi)
    have all : ∀ i, i < c.length → (s.row i).ach.mpsAch = c.speeds.getD i 0 ∧
        (s.row i).fc.fcKwOutAch = outBefore F V P.toStepParams (ownAux V) 0 (legs c) i := by
      intro i
      induction i with
      | zero => exact fun _ => first
      | succ i ih => exact fun hi => next i hi (ih (by omega)).1 (met i hi)
    intro i l hl
    have hi : i + 1 < c.length := by
      have := (List.getElem?_eq_some_iff.1 hl).1
      rw [legs_length] at this; omega
    rw [legs_get c i hi] at hl
    rw [← Option.some.inj hl]
    exact (one i hi (all i (by omega)).1 (all i (by omega)).2).1 (met i hi)
  · intro hw
    have all : ∀ i, i < c.length → ((s.row i).ach.mpsAch = c.speeds.getD i 0 ∧
        (s.row i).fc.fcKwOutAch = outBefore F V P.toStepParams (ownAux V) 0 (legs c) i) ∧
        (1 ≤ i → (s.row i).ach.mpsAch = askedMps s i ∧
          (s.row i).pow.cycTransKwOutReq ≤ (s.row i).lims.curMaxTransKwOut) := by
      intro i
      induction i with
      | zero => exact fun _ => ⟨first, fun h => absurd h (by omega)⟩
      | succ i ih =>
        intro hi
        have a1 := (ih (by omega)).1
        have m := (one i hi a1.1 a1.2).2 (hw i _ (legs_get c i hi))
        exact ⟨next i hi a1.1 m, fun _ => m⟩
    intro i p r dt a hs
    have hi : i < c.length := by have := hs.lt; rw [fin.atEnd, hcyc] at this; exact this
    have e : s.row i = r := by rw [Sim.row, List.getD_eq_getElem?_getD, hs.row]; rfl
    have := (all i hi).2 hs.pos
    rw [e] at this
    exact this

/-- **C121 (runs exist).** `sim_drive` completes for every trace within the limits, meets it, and the fuel is the sum over
the legs: nothing about the run has to be assumed. -/
theorem C121_run [FloorRing K] (hc : P.coastAllow = false) (hd : P.idmAllow = false) (hm : P.missedTrace = false)
    (hV : Conventional V) (ht : V.ptType = .conv) (hwin : V.minSoc ≤ V.maxSoc) (ha : 0 ≤ ownAux V) :
    ∃ rate : K → K, (∀ x, EffOk V → ∃ e ∈ V.fcEffArray, rate x * e = x) ∧
      ∀ (c : Cyc K) (init : Option K), c ≠ [] → LegsWithin F V P.toStepParams (ownAux V) 0 (legs c) →
        ∃ s, simDrive F (realHooks F V P) V P (Sim.new c) init none = .ok s ∧ MeetsTrace s ∧
          fuelKj s = traceFuelKj F V P.toStepParams rate (ownAux V) c ∧
          sumDt s (fun r => r.fc.fcKwOutAch) =
            ((legs c).map fun l => legWorkKw F V P.toStepParams (ownAux V) l * l.dt).sum := by
  obtain ⟨rate, hrate, hR⟩ := C92_fuel (F := F) hc hd hm hV ha
  refine ⟨rate, hrate, fun c init hne hw => ?_⟩
  obtain ⟨s, h, -, -⟩ := C51_run (F := F) (V := V) (P := P) (Sim.new c) rfl
    (show 0 < c.length from List.length_pos_iff.2 hne) init none hwin (fun _ _ => Or.inl ht) (fun _ => by rw [ht]; decide)
    ⟨fun e => absurd e (by simp [hd]), fun e => absurd e (by simp [hc]), fun e => absurd e (by simp [hc]),
      fun e => absurd e (by simp [hc])⟩
  have hmet := (C121_meets hc hd hm hV ha realHooks_local realHooks_keepAux h).2 hw
  exact ⟨s, h, hmet, hR _ _ _ _ realHooks_local realHooks_keepAux h hmet,
    C92_work hc hd hm hV ha realHooks_local realHooks_keepAux h hmet⟩

theorem legWork_nonneg (hV : Conventional V) {a : K} (ha : 0 ≤ a) (Q : StepParams K) (l : Leg K) :
    0 ≤ legWorkKw F V Q a l :=
  add_nonneg (div_nonneg (le_max_left _ _) hV.eff.le) ha

/-- A higher output to begin with does no harm. -/
theorem legsWithin_mono {Q : StepParams K} {a w w' : K} (hw : w ≤ w') {ls : List (Leg K)}
    (h : LegsWithin F V Q a w ls) : LegsWithin F V Q a w' ls := by
  cases ls with
  | nil => trivial
  | cons l ls =>
    obtain ⟨⟨h1, h2⟩, h3⟩ := h
    exact ⟨⟨h1.trans (min_le_min_left _ (add_le_add_left hw _)), h2⟩, h3⟩

theorem legsWithin_append (hV : Conventional V) {Q : StepParams K} {a : K} (ha : 0 ≤ a) (ls ls' : List (Leg K)) {w : K}
    (hw : 0 ≤ w) (h : LegsWithin F V Q a w ls) (h' : LegsWithin F V Q a 0 ls') : LegsWithin F V Q a w (ls ++ ls') := by
  induction ls generalizing w with
  | nil => exact legsWithin_mono hw h'
  | cons l ls ih => exact ⟨h.1, ih (legWork_nonneg hV ha Q l) h.2⟩

/-- **C121 (trips).** A conventional vehicle that meets each of several trips meets the trip they make when they are joined
by `concat`, and uses the sum of their fuel. -/
theorem C121_trips (hc : P.coastAllow = false) (hd : P.idmAllow = false) (hm : P.missedTrace = false)
    (hV : Conventional V) (ha : 0 ≤ ownAux V) (hH : H.Local) (hA : Hooks.KeepAux H V)
    {c : Cyc K} {cs : List (Cyc K)} {all : Cyc K} (hall : concat (c :: cs) = .ok all)
    (h0 : ∀ d ∈ cs, startTime d = 0) (hv : SpeedsMeet c cs) {init : Option K} {s : Sim K}
    (h : simDrive F H V P (Sim.new all) init none = .ok s) (init' : Cyc K → Option K)
    (run : Cyc K → Sim K)
    (hrun : ∀ d ∈ c :: cs, simDrive F H V P (Sim.new d) (init' d) none = .ok (run d) ∧ MeetsTrace (run d)) :
    MeetsTrace s ∧ fuelKj s = ((c :: cs).map fun d => fuelKj (run d)).sum := by
  have hw : ∀ d ∈ c :: cs, LegsWithin F V P.toStepParams (ownAux V) 0 (legs d) := fun d hd' =>
    (C121_meets hc hd hm hV ha hH hA (hrun d hd').1).1 (hrun d hd').2
  have hl := legs_concatFrom cs c c all hall h0 hv rfl
  have key : ∀ ds : List (Cyc K), (∀ d ∈ ds, LegsWithin F V P.toStepParams (ownAux V) 0 (legs d)) →
      LegsWithin F V P.toStepParams (ownAux V) 0 (ds.map legs).flatten := by
    intro ds
    induction ds with
    | nil => intro _; trivial
    | cons d ds ih =>
      intro h
      rw [List.map_cons, List.flatten_cons]
      exact legsWithin_append hV ha _ _ le_rfl (h d (by simp)) (ih fun e he => h e (by simp [he]))
  have hmet : MeetsTrace s := by
    refine (C121_meets hc hd hm hV ha hH hA h).2 ?_
    rw [hl]
    exact key (c :: cs) hw
  exact ⟨hmet, C92_trips hc hd hm hV ha hH hA hall h0 hv h hmet init' run hrun⟩

/-- Comparison of two vehicles leg by leg. -/
theorem legsWithin_trans {Q Q' : StepParams K} {a a' : K} {R : K → K → Prop} (ls : List (Leg K))
    (hstep : ∀ l ∈ ls, R (legWorkKw F V Q a l) (legWorkKw F V' Q' a' l))
    (hleg : ∀ l ∈ ls, ∀ w w', R w w' → LegWithin F V Q a w l → LegWithin F V' Q' a' w' l) {w w' : K} (hw : R w w')
    (h : LegsWithin F V Q a w ls) : LegsWithin F V' Q' a' w' ls := by
  induction ls generalizing w w' with
  | nil => trivial
  | cons l ls ih =>
    exact ⟨hleg l (by simp) _ _ hw h.1, ih (fun x hx => hstep x (by simp [hx])) (fun x hx => hleg x (by simp [hx]))
      (hstep l (by simp)) h.2⟩

/-- **C121 (stronger engine).** A vehicle whose engine is at least as strong and rises at least as fast, all else being
equal, meets every trace the other one meets, and the two engines do the same work. -/
theorem C121_engine (hc : P.coastAllow = false) (hd : P.idmAllow = false) (hm : P.missedTrace = false)
    (hV : Conventional V) (ha : 0 ≤ ownAux V) {kw sec : K} (hkw : V.fcMaxKw ≤ kw) (hsec : 0 < sec)
    (hs : sec ≤ V.fcSecToPeakPwr) {H' : Hooks K} (hH : H.Local) (hH' : H'.Local) (hA : Hooks.KeepAux H V)
    (hA' : Hooks.KeepAux H' { V with fcMaxKw := kw, fcSecToPeakPwr := sec })
    {c : Cyc K} (hdt : ∀ l ∈ legs c, 0 ≤ l.dt) {init init' : Option K} {s s' : Sim K}
    (h : simDrive F H V P (Sim.new c) init none = .ok s)
    (h' : simDrive F H' { V with fcMaxKw := kw, fcSecToPeakPwr := sec } P (Sim.new c) init' none = .ok s')
    (hmet : MeetsTrace s) :
    MeetsTrace s' ∧ sumDt s' (fun r => r.fc.fcKwOutAch) = sumDt s (fun r => r.fc.fcKwOutAch) := by
  have hV' : Conventional { V with fcMaxKw := kw, fcSecToPeakPwr := sec } :=
    ⟨hV.1, hV.2, hV.3, hV.4, hV.5, lt_of_lt_of_le hV.engine hkw, hV.eff⟩
  have hmet' : MeetsTrace s' := by
    refine (C121_meets hc hd hm hV' ha hH' hA' h').2 ?_
    refine legsWithin_trans (V := V) (Q := P.toStepParams) (a := ownAux V) (R := fun w w' => w = w') (legs c)
      (fun l _ => ?_) ?_ (rfl : (0 : K) = 0)
      ((C121_meets hc hd hm hV ha hH hA h).1 hmet)
    · rfl
    rintro l hl w w' rfl ⟨h1, h2⟩
    refine ⟨h1.trans ?_, h2⟩
    refine min_le_min hkw (add_le_add_right ?_ _)
    exact div_le_div₀ (mul_nonneg (hV.engine.le.trans hkw) (hdt l hl)) (mul_le_mul_of_nonneg_right hkw (hdt l hl)) hsec hs
  refine ⟨hmet', ?_⟩
  rw [C92_work hc hd hm hV ha hH hA h hmet, C92_work hc hd hm hV' ha hH' hA' h' hmet']
  rfl

/-- **C121 (fewer accessories).** A smaller accessory load never makes a conventional vehicle miss a trace. -/
theorem C121_accessories (hc : P.coastAllow = false) (hd : P.idmAllow = false) (hm : P.missedTrace = false)
    (hV : Conventional V) {b : K} (hb0 : 0 ≤ ownAux { V with auxKw := b }) (hb : ownAux { V with auxKw := b } ≤ ownAux V)
    {H' : Hooks K} (hH : H.Local) (hH' : H'.Local) (hA : Hooks.KeepAux H V) (hA' : Hooks.KeepAux H' { V with auxKw := b })
    {c : Cyc K} {init init' : Option K} {s s' : Sim K} (h : simDrive F H V P (Sim.new c) init none = .ok s)
    (h' : simDrive F H' { V with auxKw := b } P (Sim.new c) init' none = .ok s') (hmet : MeetsTrace s) :
    MeetsTrace s' := by
  have hV' : Conventional { V with auxKw := b } := ⟨hV.1, hV.2, hV.3, hV.4, hV.5, hV.6, hV.7⟩
  refine (C121_meets hc hd hm hV' hb0 hH' hA' h').2 ?_
  refine legsWithin_trans (V := V) (Q := P.toStepParams) (a := ownAux V)
    (R := fun w w' => w - ownAux V ≤ w' - ownAux { V with auxKw := b }) (legs c) ?_ ?_ ?_
    ((C121_meets hc hd hm hV (hb0.trans hb) hH hA h).1 hmet)
  · intro l _
    unfold legWorkKw
    simp only [add_sub_cancel_right]
    exact le_rfl
  · rintro l hl w w' hw ⟨h1, h2⟩
    refine ⟨?_, h2⟩
    have e : legWorkKw F { V with auxKw := b } P.toStepParams (ownAux { V with auxKw := b }) l =
        legWorkKw F V P.toStepParams (ownAux V) l - ownAux V + ownAux { V with auxKw := b } := by
      show max 0 (roadLoadKw F V P.toStepParams l.dt l.grade l.v0 l.v) / V.transEff + _ =
        max 0 (roadLoadKw F V P.toStepParams l.dt l.grade l.v0 l.v) / V.transEff + _ - _ + _
      ring
    rw [e]
    unfold reachKw at h1 ⊢
    obtain ⟨i1, i2⟩ := le_min_iff.1 h1
    refine le_min ?_ ?_
    · show _ ≤ V.fcMaxKw
      linarith
    · show _ ≤ w' + V.fcMaxKw * l.dt / V.fcSecToPeakPwr
      linarith
  · linarith

theorem reach_full (hV : Conventional V) (hsec : 0 < V.fcSecToPeakPwr) {w dt : K} (hw : 0 ≤ w)
    (hdt : V.fcSecToPeakPwr ≤ dt) : reachKw V w dt = V.fcMaxKw := by
  refine min_eq_left ?_
  have : V.fcMaxKw ≤ V.fcMaxKw * dt / V.fcSecToPeakPwr := by
    rw [le_div_iff₀ hsec]
    exact mul_le_mul_of_nonneg_left hdt hV.engine.le
  linarith

/-- **C121 (less resistance).** If every leg is long enough for the engine to come from rest to its rating, a vehicle with
less resistance meets every trace one with more meets. -/
theorem C121_resistance (hc : P.coastAllow = false) (hd : P.idmAllow = false) (hm : P.missedTrace = false)
    (hV : Conventional V) (hM : MoreResistance V V' P P') (hcos : ∀ g, 0 ≤ F.cosAtan g) (ha : 0 ≤ ownAux V)
    (haux : ownAux V ≤ ownAux V') (hsec : 0 < V.fcSecToPeakPwr)
    {H' : Hooks K} (hH : H.Local) (hH' : H'.Local) (hA : Hooks.KeepAux H V) (hA' : Hooks.KeepAux H' V') {c : Cyc K}
    (hdt : ∀ l ∈ legs c, V.fcSecToPeakPwr ≤ l.dt ∧ 0 ≤ l.v0 ∧ 0 ≤ l.v) {init init' : Option K} {s s' : Sim K}
    (h : simDrive F H V P (Sim.new c) init none = .ok s) (h' : simDrive F H' V' P' (Sim.new c) init' none = .ok s')
    (hmet' : MeetsTrace s') : MeetsTrace s := by
  have hV' : Conventional V' := by
    rw [hM.vehicle]
    exact ⟨hV.1, hV.2, hV.3, hV.4, hV.5, hV.6, hV.7⟩
  have pc : P'.coastAllow = false := by rw [hM.surroundings]; exact hc
  have pd : P'.idmAllow = false := by rw [hM.surroundings]; exact hd
  have pm : P'.missedTrace = false := by rw [hM.surroundings]; exact hm
  have e1 : V'.fcMaxKw = V.fcMaxKw := by rw [hM.vehicle]
  have e2 : V'.fcSecToPeakPwr = V.fcSecToPeakPwr := by rw [hM.vehicle]
  have e3 : V'.transEff = V.transEff := by rw [hM.vehicle]
  have e4 : ∀ l, gripKw V' P'.toStepParams l = gripKw V P.toStepParams l := by
    intro l; rw [hM.vehicle, hM.surroundings]; rfl
  refine (C121_meets hc hd hm hV ha hH hA h).2 ?_
  refine legsWithin_trans (R := fun w w' => 0 ≤ w ∧ 0 ≤ w') (legs c) ?_ ?_ ⟨le_rfl, le_rfl⟩
    ((C121_meets pc pd pm hV' (ha.trans haux) hH' hA' h').1 hmet')
  · exact fun l _ => ⟨legWork_nonneg hV' (ha.trans haux) _ l, legWork_nonneg hV ha _ l⟩
  · rintro l hl w w' ⟨hw, hw'⟩ ⟨h1, h2⟩
    obtain ⟨d1, d2, d3⟩ := hdt l hl
    have mono := roadLoad_mono hM hcos d2 d3 l.dt l.grade
    have mono' := max_le_max_left 0 mono
    rw [reach_full hV' (by rw [e2]; exact hsec) hw (by rw [e2]; exact d1), e1] at h1
    refine ⟨?_, ?_⟩
    · rw [reach_full hV hsec hw' d1]
      refine le_trans ?_ h1
      unfold legWorkKw
      rw [e3]
      exact add_le_add (div_le_div_of_nonneg_right mono' hV.eff.le) haux
    · rw [e4, e3] at h2
      exact mono'.trans h2

end Field

/-! ### Concrete cases -/

open Demo

instance (F : Fns ℚ) (V : Veh ℚ) (Q : StepParams ℚ) (a w : ℚ) (l : Leg ℚ) : Decidable (LegWithin F V Q a w l) := by
  unfold LegWithin; infer_instance

instance decLegsWithin (F : Fns ℚ) (V : Veh ℚ) (Q : StepParams ℚ) (a : ℚ) : (w : ℚ) → (ls : List (Leg ℚ)) →
    Decidable (LegsWithin F V Q a w ls)
  | _, [] => isTrue trivial
  | w, l :: ls =>
    have := decLegsWithin F V Q a (legWorkKw F V Q a l) ls
    (inferInstance : Decidable (LegWithin F V Q a w l ∧ LegsWithin F V Q a (legWorkKw F V Q a l) ls))

/-- A hard start: more than the demo car can do. -/
def hardStart : Cyc ℚ := [⟨0, 0, 0, 0⟩, ⟨1, 8, 0, 0⟩, ⟨4, 0, 0, 0⟩]

/-- The demo car meets the hypotheses of `C121_meets` and `C121_run`; some of the trips are within its limits, another
is not, in each case for a run that exists. -/
theorem C121_demo : Conventional conv ∧ conv.ptType = .conv ∧ conv.minSoc ≤ conv.maxSoc ∧ 0 ≤ ownAux conv ∧
    noHooks.Local ∧ Hooks.KeepAux noHooks conv ∧
    (∀ c ∈ [hop, hopFine, skip, hopSkip, skipHop], c ≠ [] ∧
      LegsWithin fns conv params.toStepParams (ownAux conv) 0 (legs c) ∧
      ∃ s, simDrive fns noHooks conv params (Sim.new c) none none = .ok s) ∧
    ¬ LegsWithin fns conv params.toStepParams (ownAux conv) 0 (legs hardStart) ∧
    ∃ s, simDrive fns noHooks conv params (Sim.new hardStart) none none = .ok s := by
  obtain ⟨h1, h2, -, h4, h5, -, -, -, -, -, -, -, h⟩ := C92_demo
  refine ⟨h1, rfl, by decide +kernel, h2, h4, h5, ?_, by decide +kernel, ?_⟩
  · have key : ∀ c ∈ [hop, hopFine, skip, hopSkip, skipHop], c ≠ [] ∧
        LegsWithin fns conv params.toStepParams (ownAux conv) 0 (legs c) := by decide +kernel
    intro c hc
    obtain ⟨s, hs, -⟩ := h c hc
    exact ⟨(key c hc).1, (key c hc).2, s, hs⟩
  · have : (match simDrive fns noHooks conv params (Sim.new hardStart) none none with
      | .ok _ => true | .error _ => false) = true := by decide +kernel
    cases hs : simDrive fns noHooks conv params (Sim.new hardStart) none none with
    | ok s => exact ⟨s, rfl⟩
    | error e => rw [hs] at this; simp at this

/-- Trips with legs long enough for the engine of the demo car. -/
def longLegs : Cyc ℚ := [⟨0, 0, 0, 0⟩, ⟨5, 9, 0, 0⟩, ⟨12, 15, 1 / 50, 0⟩, ⟨20, 0, 0, 0⟩]

/-- The hypotheses of `C121_engine`, `C121_accessories` and `C121_resistance` are met by demo cars that differ in the
engine, the accessories and the resistance. -/
theorem C121_demo_compare : conv.fcMaxKw ≤ 120 ∧ (4 : ℚ) ≤ conv.fcSecToPeakPwr ∧
    0 ≤ ownAux { conv with auxKw := 1 / 4 } ∧ ownAux { conv with auxKw := 1 / 4 } ≤ ownAux conv ∧
    (∀ l ∈ legs hop, 0 ≤ l.dt) ∧
    (∀ V ∈ [{ conv with fcMaxKw := 120, fcSecToPeakPwr := 4 }, { conv with auxKw := 1 / 4 }],
      Hooks.KeepAux noHooks V ∧ ∃ s, simDrive fns noHooks V params (Sim.new hop) none none = .ok s) ∧
    MoreResistance conv { conv with dragCoef := 2 / 5 } params params ∧ (∀ g, 0 ≤ fns.cosAtan g) ∧
    (∀ l ∈ legs longLegs, conv.fcSecToPeakPwr ≤ l.dt ∧ 0 ≤ l.v0 ∧ 0 ≤ l.v) ∧
    (∃ s, simDrive fns noHooks conv params (Sim.new longLegs) none none = .ok s) ∧
    ∃ s, simDrive fns noHooks { conv with dragCoef := 2 / 5 } params (Sim.new longLegs) none none = .ok s ∧
      MeetsTrace s := by
  have run : ∀ {V : Veh ℚ} {c : Cyc ℚ}, metRun (simDrive fns noHooks V params (Sim.new c) none none) = true →
      ∃ s, simDrive fns noHooks V params (Sim.new c) none none = .ok s := fun h => by
    obtain ⟨s, hs, -⟩ := metRun_spec h
    exact ⟨s, hs⟩
  refine ⟨by decide +kernel, by decide +kernel, by decide +kernel, by decide +kernel, by decide +kernel, ?_, ?_, ?_,
    by decide +kernel, run (by decide +kernel), metRun_spec (by decide +kernel)⟩
  · intro V hV
    refine ⟨noHooks_keepAux V, ?_⟩
    have key : ∀ V ∈ [{ conv with fcMaxKw := 120, fcSecToPeakPwr := 4 }, { conv with auxKw := 1 / 4 }],
        metRun (simDrive fns noHooks V params (Sim.new hop) none none) = true := by decide +kernel
    exact run (key V hV)
  · exact ⟨rfl, rfl, by decide +kernel, by decide +kernel, le_rfl, by decide +kernel, le_rfl, by decide +kernel, le_rfl,
      by decide +kernel, by decide +kernel⟩
  · intro g; exact zero_le_one

/-- A fast cruise, then a steep climb. -/
def climb : Cyc ℚ := [⟨0, 40, 0, 0⟩, ⟨5, 40, 0, 0⟩, ⟨6, 39, 17 / 125, 0⟩]

/-- **C121 (less resistance can miss a trace).** Where legs are shorter than the engine takes to its rating,
`C121_resistance` fails: on this trace the car with less drag misses the climb the one with more drag masters, since its
engine gave less in the cruise before and may rise only so far from there. -/
theorem C121_less_drag_misses : MoreResistance { conv with dragCoef := 1 / 10 } conv params params ∧
    (∃ s, simDrive fns noHooks conv params (Sim.new climb) none none = .ok s ∧ MeetsTrace s) ∧
    ∃ s, simDrive fns noHooks { conv with dragCoef := 1 / 10 } params (Sim.new climb) none none = .ok s ∧
      ¬ MeetsTrace s := by
  refine ⟨⟨rfl, rfl, by decide +kernel, by decide +kernel, le_rfl, by decide +kernel, le_rfl, by decide +kernel, le_rfl,
    by decide +kernel, by decide +kernel⟩, metRun_spec (by decide +kernel), ?_⟩
  have : (match simDrive fns noHooks { conv with dragCoef := 1 / 10 } params (Sim.new climb) none none with
      | .ok _ => true | .error _ => false) = true := by decide +kernel
  cases hs : simDrive fns noHooks { conv with dragCoef := 1 / 10 } params (Sim.new climb) none none with
  | error e => rw [hs] at this; simp at this
  | ok s =>
    refine ⟨s, rfl, fun hmet => ?_⟩
    have hV : Conventional { conv with dragCoef := 1 / 10 } := by
      have h := C92_demo.1
      exact ⟨h.1, h.2, h.3, h.4, h.5, h.6, h.7⟩
    have hw := (C121_meets rfl rfl rfl hV C92_demo.2.1 noHooks_local (noHooks_keepAux _) hs).1 hmet
    exact absurd hw (by decide +kernel)

/-- A start with an engine that rises at once. -/
def slip : Cyc ℚ := [⟨0, 0, 0, 0⟩, ⟨1, 11 / 2, 0, 0⟩]

/-- **C121 (grip exceeded).** The grip is divided by the efficiency of the transmission before it is compared with the road
load, so a trace can be met although its road load is more than the tires can pass to the road. -/
theorem C121_grip_exceeded : (∃ s, simDrive fns noHooks { conv with fcSecToPeakPwr := 1 } params (Sim.new slip) none none
      = .ok s ∧ MeetsTrace s) ∧
    ∃ l ∈ legs slip, gripKw { conv with fcSecToPeakPwr := 1 } params.toStepParams l <
      roadLoadKw fns { conv with fcSecToPeakPwr := 1 } params.toStepParams l.dt l.grade l.v0 l.v :=
  ⟨metRun_spec (by decide +kernel), by decide +kernel⟩

end Fastsim.Props
