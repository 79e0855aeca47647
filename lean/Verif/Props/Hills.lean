import Verif.Props.Steady

/-!
# C142: what hills cost

Two trips with the same times and speeds over roads of different slopes: the engine's work differs by the height climbed, by
the rolling resistance, and by what the friction brakes take. Over a road that comes back to its height, hills cost only what
is braked away.
-/

set_option linter.unusedSectionVars false

namespace Fastsim.Spec
open Fastsim
section Field
variable {K : Type*} [Field K] [LinearOrder K] [IsStrictOrderedRing K]

/-- The same times and speeds; slopes may differ. -/
def SamePace (c c' : Cyc K) : Prop := c.map (fun x => (x.t, x.v)) = c'.map (fun x => (x.t, x.v))

/-- Height gained over a trace, m: the sine of the slope over the distance of each leg. -/
def heightM (F : Fns K) (c : Cyc K) : K := ((legs c).map fun l => F.sinAtan l.grade * (avgSpeed l.v0 l.v * l.dt)).sum

/-- Level extent of a trace, m: the cosine of the slope over the distance of each leg. -/
def extentM (F : Fns K) (c : Cyc K) : K := ((legs c).map fun l => F.cosAtan l.grade * (avgSpeed l.v0 l.v * l.dt)).sum

/-- What friction brakes must take over a trace, kJ: the road load of the legs where it is negative. -/
def brakedKj (F : Fns K) (V : Veh K) (P : StepParams K) (c : Cyc K) : K :=
  ((legs c).map fun l => max 0 (-roadLoadKw F V P l.dt l.grade l.v0 l.v) * l.dt).sum

/-- Road load without slope: drag, kinetic energy of the vehicle and of its wheels. -/
def flatKw (V : Veh K) (P : StepParams K) (dt v0 v : K) : K :=
  aeroKw V P v0 v + kineticKw V dt v0 v + (wheelKj V v - wheelKj V v0) / dt

/-- Energy the friction brakes take over a run, kJ. -/
def frictionKj (s : Sim K) : K := sumDt s (fun r => r.pow.cycFricBrakeKw)

/-- Energy regenerated at the wheels over a run, kJ. -/
def regenKj (s : Sim K) : K := sumDt s (fun r => r.pow.cycRegenBrakeKw)

/-- Energy into the transmission over a run, less what comes back, kJ. -/
def shaftKj (s : Sim K) : K := sumDt s (fun r => r.pow.transKwInAch)

/-- Energy the engine puts out over a run, kJ. -/
def engineKj (s : Sim K) : K := sumDt s (fun r => r.fc.fcKwOutAch)

end Field
end Fastsim.Spec

namespace Fastsim.Props
open Fastsim Spec

section Field
variable {K : Type*} [Field K] [LinearOrder K] [IsStrictOrderedRing K]
variable {F : Fns K} {H : Hooks K} {V : Veh K} {P : SimParams K}

/-- Friction braking in a step. -/
theorem friction_row (hH : H.Local) (hc : P.coastAllow = false) (hd : P.idmAllow = false)
    (hm : P.missedTrace = false) (hV : Conventional V) {s : Sim K} (h : Reachable F H V P s) {i : Nat}
    {p r : Row K} {dt a : K} (hs : StepAt s i p r dt a) :
    r.pow.cycFricBrakeKw =
      max 0 (-roadLoadKw F V P.toStepParams dt (recordedGrade s i) p.ach.mpsAch r.ach.mpsAch) := by
  obtain ⟨-, -, hsum⟩ := C18_regen_bound hH h hs
  obtain ⟨-, hR⟩ := Reachable.recInv hc hd h
  obtain ⟨st, hst, hrow⟩ := hR.solved i hs.pos hs.lt
  obtain rfl := hst hm
  rw [hs.row, List.getD_eq_getElem?_getD (i := i - 1), hs.prev] at hrow
  have hr := Option.some.inj hrow
  simp only [Option.getD_some] at hr
  have hdt : (recordedEnv s i).dt = dt := hs.dt.symm
  have hg : ∀ v, (recordedEnv s i).gradeOf v = recordedGrade s i := fun _ => rfl
  generalize recordedEnv s i = E at *
  have e := solveStep_pow_fresh (F := F) (V := V) P.toStepParams E p Stale.fresh rfl
  rw [← hr] at e
  have hmech : (setCompLims F V P.toStepParams E p (setMisc V E p)).curMaxMechMcKwIn = 0 := by
    show curMaxMechMcKwIn F V E p = 0
    have hchg : curMaxEssChgKw F V E p = 0 := by
      simp [curMaxEssChgKw, essCapLimChgKw, hV.kwh, hV.kw]
    simp [curMaxMechMcKwIn, hchg]
  have hreg : r.pow.cycRegenBrakeKw = 0 := by
    have : r.pow.cycRegenBrakeKw = regenBrakeKw V 0 r.pow.regenContrlLimKwPerc r.pow.cycWhlKwReq := by
      rw [e, ← hmech]; rfl
    rw [this, regenBrakeKw, zero_mul, max_eq_right (min_le_left _ _)]
  have hreq := outReq_eq (F := F) (V := V) (P := P) E p (setCompLims F V P.toStepParams E p (setMisc V E p))
    r.ach.mpsAch
  have hw := whlReq_eq (F := F) (V := V) (P := P) E p (setCompLims F V P.toStepParams E p (setMisc V E p))
    r.ach.mpsAch
  rw [← e, hreg, neg_zero, hg, hdt] at hreq
  rw [← e, hg, hdt] at hw
  rw [hreq, hw] at hsum
  generalize roadLoadKw F V P.toStepParams dt (recordedGrade s i) p.ach.mpsAch r.ach.mpsAch = L at *
  rcases le_total L 0 with h0 | h0
  · rw [max_eq_right h0] at hsum
    rw [max_eq_right (by linarith)]; linarith
  · rw [max_eq_left h0] at hsum
    rw [max_eq_left (by linarith)]; linarith

/-- The steps of a run that meets its trace, with grade and speeds read off the trace. -/
theorem trace_steps (hc : P.coastAllow = false) (hd : P.idmAllow = false)
    (hm : P.missedTrace = false) (hH : H.Local)
    {c : Cyc K} {init : Option K} {s : Sim K} (h : simDrive F H V P (Sim.new c) init none = .ok s)
    (hmet : MeetsTrace s) :
    Reachable F H V P s ∧ s.cyc = c ∧ s.rows.length = s.cyc.length ∧ (∃ soc v x, s.row 0 = Row.init V soc v x) ∧
      ∀ i, i + 1 < c.length → ∃ p a, StepAt s (i + 1) p (s.row (i + 1)) (dtAt c (i + 1)) a ∧
        recordedGrade s (i + 1) = c.grades.getD (i + 1) 0 ∧ p.ach.mpsAch = c.speeds.getD i 0 ∧
        (s.row (i + 1)).ach.mpsAch = c.speeds.getD (i + 1) 0 := by
  have hk := simDrive_keeps hH (s := Sim.new c) rfl h
  have hcyc : s.cyc = c := hk.cyc (by unfold Resets; simp [hc, hd, hm])
  have hcyc0 : s.cyc0 = c := hk.cyc0
  have fin := Finished.simDrive hH (s := Sim.new c) rfl h
  have hlen := fin.lenRows hH
  obtain ⟨-, -, soc, -, t0⟩ := Reachable.inv hH fin.reachable
  have r0 : s.row 0 = Row.init V soc (s.cyc0.speeds.getD 0 0) (s.aux.getD 0 0) := by
    rw [Sim.row, List.getD_eq_getElem?_getD, t0]; rfl
  have hgrade : ∀ i, recordedGrade s i = c.grades.getD i 0 := by
    intro i
    unfold recordedGrade
    rw [hcyc, hcyc0]
    split
    · rename_i hz
      rw [List.getD_eq_getElem?_getD]
      cases hx : c.grades[i]? with
      | none => rfl
      | some g =>
        have := List.all_eq_true.1 hz g (List.mem_of_getElem? hx)
        exact (of_decide_eq_true this).symm
    · rfl
  have speed : ∀ i, i < c.length → (s.row i).ach.mpsAch = c.speeds.getD i 0 := by
    intro i hi
    rcases Nat.eq_zero_or_pos i with rfl | hpos
    · rw [r0, hcyc0]; rfl
    · obtain ⟨p, r, dt, a, hs⟩ := stepAt_exists hH fin.reachable hpos (by rw [fin.atEnd, hcyc]; exact hi)
      have e1 : s.row i = r := by rw [Sim.row, List.getD_eq_getElem?_getD, hs.row]; rfl
      rw [e1, (hmet _ _ _ _ _ hs).1, askedMps, hcyc]
  refine ⟨fin.reachable, hcyc, hlen, ⟨_, _, _, r0⟩, fun i hi => ?_⟩
  obtain ⟨p, r, dt, a, hs⟩ := stepAt_exists hH fin.reachable (i := i + 1) (by omega)
    (by rw [fin.atEnd, hcyc]; omega)
  have e1 : s.row (i + 1) = r := by rw [Sim.row, List.getD_eq_getElem?_getD, hs.row]; rfl
  have e3 : s.row i = p := by
    have := hs.prev
    rw [Nat.add_sub_cancel] at this
    rw [Sim.row, List.getD_eq_getElem?_getD, this]; rfl
  have edt : dt = dtAt c (i + 1) := by rw [hs.dt, hcyc]
  refine ⟨p, a, ?_, hgrade _, by rw [← e3, speed _ (by omega)], speed _ hi⟩
  rw [e1, ← edt]; exact hs

/-- **C142 (brakes).** The friction brakes of a conventional vehicle that meets its trace take, over the run, the negative road
load of the legs of the trace. -/
theorem C142_brakes (hc : P.coastAllow = false) (hd : P.idmAllow = false)
    (hm : P.missedTrace = false) (hV : Conventional V) (hH : H.Local)
    {c : Cyc K} {init : Option K} {s : Sim K} (h : simDrive F H V P (Sim.new c) init none = .ok s)
    (hmet : MeetsTrace s) : frictionKj s = brakedKj F V P.toStepParams c := by
  obtain ⟨hR, hcyc, hlen, ⟨_, _, _, r0⟩, hl⟩ := trace_steps hc hd hm hH h hmet
  unfold frictionKj brakedKj
  rw [sumDt_steps s _ hlen (by rw [r0]; rfl), legs_sum, hcyc]
  refine Finset.sum_congr rfl fun i hi => ?_
  obtain ⟨p, a, hs, hg, h0, h1⟩ := hl i (by have := Finset.mem_range.1 hi; omega)
  rw [friction_row hH hc hd hm hV hR hs, hg, h0, h1]

/-- **C142 (one trip).** What the engine puts out over a trip, less the accessories, goes through the transmission into drag,
kinetic energy, height, rolling resistance and the friction brakes. -/
theorem C142_trip (hc : P.coastAllow = false) (hd : P.idmAllow = false) (hm : P.missedTrace = false)
    (hV : Conventional V) (ha : 0 ≤ ownAux V) (hH : H.Local) (hA : Hooks.KeepAux H V) {c : Cyc K} {init : Option K}
    {s : Sim K} (h : simDrive F H V P (Sim.new c) init none = .ok s) (hmet : MeetsTrace s) :
    V.transEff * (engineKj s - ownAux V * tripTime c) =
      ((legs c).map fun l => flatKw V P.toStepParams l.dt l.v0 l.v * l.dt).sum
        + V.vehKg * P.aGrav / 1000 * (heightM F c + V.wheelRrCoef * extentM F c) + frictionKj s := by
  rw [C142_brakes hc hd hm hV hH h hmet]
  unfold engineKj
  rw [C92_work hc hd hm hV ha hH hA h hmet]
  unfold tripTime heightM extentM brakedKj
  have he : V.transEff ≠ 0 := hV.eff.ne'
  generalize legs c = ls
  induction ls with
  | nil => simp
  | cons l ls ih =>
    simp only [List.map_cons, List.sum_cons]
    have hl : V.transEff * (legWorkKw F V P.toStepParams (ownAux V) l * l.dt - ownAux V * l.dt) =
        flatKw V P.toStepParams l.dt l.v0 l.v * l.dt + V.vehKg * P.aGrav / 1000 *
          (F.sinAtan l.grade * (avgSpeed l.v0 l.v * l.dt) +
            V.wheelRrCoef * (F.cosAtan l.grade * (avgSpeed l.v0 l.v * l.dt)))
          + max 0 (-roadLoadKw F V P.toStepParams l.dt l.grade l.v0 l.v) * l.dt := by
      have e1 : max 0 (roadLoadKw F V P.toStepParams l.dt l.grade l.v0 l.v) =
          roadLoadKw F V P.toStepParams l.dt l.grade l.v0 l.v
            + max 0 (-roadLoadKw F V P.toStepParams l.dt l.grade l.v0 l.v) := by
        generalize roadLoadKw F V P.toStepParams l.dt l.grade l.v0 l.v = L
        rcases le_total L 0 with h0 | h0
        · rw [max_eq_left h0, max_eq_right (by linarith)]; ring
        · rw [max_eq_right h0, max_eq_left (by linarith)]; ring
      have e2 : roadLoadKw F V P.toStepParams l.dt l.grade l.v0 l.v = flatKw V P.toStepParams l.dt l.v0 l.v
          + V.vehKg * P.aGrav / 1000 * (F.sinAtan l.grade * avgSpeed l.v0 l.v
            + V.wheelRrCoef * (F.cosAtan l.grade * avgSpeed l.v0 l.v)) := by
        unfold roadLoadKw flatKw climbKw rollKw; ring
      have e3 : V.transEff * (legWorkKw F V P.toStepParams (ownAux V) l * l.dt - ownAux V * l.dt) =
          max 0 (roadLoadKw F V P.toStepParams l.dt l.grade l.v0 l.v) * l.dt := by
        unfold legWorkKw; field_simp; ring
      rw [e3, e1]
      generalize max 0 (-roadLoadKw F V P.toStepParams l.dt l.grade l.v0 l.v) = b
      rw [e2]; ring
    linear_combination hl + ih

/-- Legs of the same drive. -/
theorem samePace_legs {c c' : Cyc K} (h : SamePace c c') :
    (Spec.legs c).map (fun l => (l.dt, l.v0, l.v)) = (Spec.legs c').map (fun l => (l.dt, l.v0, l.v)) := by
  unfold SamePace at h
  induction c generalizing c' with
  | nil => cases c' with
    | nil => rfl
    | cons y l => simp at h
  | cons x l ih =>
    cases c' with
    | nil => simp at h
    | cons y m =>
      have h2 := h
      simp only [List.map_cons, List.cons.injEq, Prod.mk.injEq] at h
      obtain ⟨⟨ht, hv⟩, hl⟩ := h
      cases l with
      | nil => cases m with
        | nil => rfl
        | cons z m => simp at hl
      | cons z l => cases m with
        | nil => simp at hl
        | cons w m =>
          have := ih hl
          simp only [List.map_cons, List.cons.injEq, Prod.mk.injEq] at hl
          simp only [Spec.legs, List.map_cons, this, ht, hv, hl.1.1, hl.1.2]

theorem samePace_sum {c c' : Cyc K} (h : SamePace c c') (f : K → K → K → K) :
    ((Spec.legs c).map fun l => f l.dt l.v0 l.v).sum = ((Spec.legs c').map fun l => f l.dt l.v0 l.v).sum := by
  have := congrArg (fun x => (x.map fun q : K × K × K => f q.1 q.2.1 q.2.2).sum) (samePace_legs h)
  simpa only [List.map_map, Function.comp_def] using this

/-- **C142 (hills).** Two runs of a conventional vehicle over roads of different slopes, with the same times and speeds and both
meeting their traces: the difference of the engine's work, taken through the transmission, is the difference of the height
gained and of the rolling resistance, plus the difference of what the friction brakes record. -/
theorem C142_hills (hc : P.coastAllow = false) (hd : P.idmAllow = false) (hm : P.missedTrace = false)
    (hV : Conventional V) (ha : 0 ≤ ownAux V) {H' : Hooks K} (hH : H.Local) (hH' : H'.Local) (hA : Hooks.KeepAux H V)
    (hA' : Hooks.KeepAux H' V) {c c' : Cyc K} (hsame : SamePace c c') {init init' : Option K} {s s' : Sim K}
    (h : simDrive F H V P (Sim.new c) init none = .ok s) (h' : simDrive F H' V P (Sim.new c') init' none = .ok s')
    (hmet : MeetsTrace s) (hmet' : MeetsTrace s') :
    V.transEff * (engineKj s - engineKj s') =
      V.vehKg * P.aGrav / 1000 * (heightM F c - heightM F c')
        + V.vehKg * P.aGrav * V.wheelRrCoef / 1000 * (extentM F c - extentM F c')
        + (frictionKj s - frictionKj s') := by
  have k := C142_trip hc hd hm hV ha hH hA h hmet
  have k' := C142_trip hc hd hm hV ha hH' hA' h' hmet'
  have e1 := samePace_sum hsame (fun dt v0 v => flatKw V P.toStepParams dt v0 v * dt)
  have e2 : tripTime c = tripTime c' := samePace_sum hsame (fun dt _ _ => dt)
  rw [e1] at k
  rw [e2] at k
  linear_combination k - k'

theorem friction_run_nonneg (hc : P.coastAllow = false) (hd : P.idmAllow = false) (hm : P.missedTrace = false)
    (hV : Conventional V) (hH : H.Local) {c : Cyc K} (hf : DrivenForward c) {init : Option K} {s : Sim K}
    (h : simDrive F H V P (Sim.new c) init none = .ok s) (hmet : MeetsTrace s) : 0 ≤ frictionKj s := by
  rw [C142_brakes hc hd hm hV hH h hmet]
  refine List.sum_nonneg fun x hx => ?_
  obtain ⟨l, hl, rfl⟩ := List.mem_map.1 hx
  exact mul_nonneg (le_max_left _ _) (hf l hl).1.le

/-- Height and extent of a level road, and extent of any road. -/
theorem level_road {c c' : Cyc K} (hsame : SamePace c c') (hf : DrivenForward c)
    (hflat : ∀ l ∈ legs c', l.grade = 0) (hs0 : F.sinAtan 0 = 0) (hc0 : F.cosAtan 0 = 1) (hc1 : ∀ g, F.cosAtan g ≤ 1) :
    heightM F c' = 0 ∧ extentM F c' = tripDist c ∧ extentM F c ≤ tripDist c := by
  refine ⟨?_, ?_, ?_⟩
  · unfold heightM
    refine List.sum_eq_zero fun x hx => ?_
    obtain ⟨l, hl, rfl⟩ := List.mem_map.1 hx
    rw [hflat l hl, hs0, zero_mul]
  · rw [show tripDist c = tripDist c' from samePace_sum hsame (fun dt v0 v => avgSpeed v0 v * dt)]
    unfold extentM tripDist
    congr 1
    refine List.map_congr_left fun l hl => ?_
    rw [hflat l hl, hc0, one_mul]
  · refine List.sum_le_sum fun l hl => ?_
    refine mul_le_of_le_one_left ?_ (hc1 _)
    exact mul_nonneg (hf l hl).2 (hf l hl).1.le

/-- **C142 (there and back).** Over a road that comes back to its height, compared with a level road at the same times and
speeds: hills cost at most what the friction brakes take on them, and save at most the rolling resistance of the distance that
is longer than its level extent plus what is braked on the level. If neither trip brakes, that rolling resistance is exactly
what the hills *save*: the hilly road never takes more work. -/
theorem C142_return (hc : P.coastAllow = false) (hd : P.idmAllow = false) (hm : P.missedTrace = false)
    (hV : Conventional V) (ha : 0 ≤ ownAux V) {H' : Hooks K} (hH : H.Local) (hH' : H'.Local) (hA : Hooks.KeepAux H V)
    (hA' : Hooks.KeepAux H' V) {c c' : Cyc K} (hsame : SamePace c c') (hf : DrivenForward c) (hf' : DrivenForward c')
    (hflat : ∀ l ∈ legs c', l.grade = 0) (hs0 : F.sinAtan 0 = 0) (hc0 : F.cosAtan 0 = 1) (hc1 : ∀ g, F.cosAtan g ≤ 1)
    (hback : heightM F c = 0) (hg : 0 ≤ V.vehKg * P.aGrav * V.wheelRrCoef) {init init' : Option K} {s s' : Sim K}
    (h : simDrive F H V P (Sim.new c) init none = .ok s) (h' : simDrive F H' V P (Sim.new c') init' none = .ok s')
    (hmet : MeetsTrace s) (hmet' : MeetsTrace s') :
    extentM F c ≤ tripDist c ∧
    engineKj s ≤ engineKj s' + frictionKj s / V.transEff ∧
    engineKj s' ≤ engineKj s + (V.vehKg * P.aGrav * V.wheelRrCoef / 1000 * (tripDist c - extentM F c)
      + frictionKj s') / V.transEff ∧
    (frictionKj s = 0 → frictionKj s' = 0 → engineKj s =
      engineKj s' - V.vehKg * P.aGrav * V.wheelRrCoef / 1000 * (tripDist c - extentM F c) / V.transEff) := by
  have k := C142_hills hc hd hm hV ha hH hH' hA hA' hsame h h' hmet hmet'
  have b := friction_run_nonneg hc hd hm hV hH hf h hmet
  have b' := friction_run_nonneg hc hd hm hV hH' hf' h' hmet'
  obtain ⟨e1, e2, e3⟩ := level_road hsame hf hflat hs0 hc0 hc1
  rw [e1, e2, hback, sub_zero, mul_zero, zero_add] at k
  have hη := hV.eff
  have hsave : 0 ≤ V.vehKg * P.aGrav * V.wheelRrCoef / 1000 * (tripDist c - extentM F c) :=
    mul_nonneg (div_nonneg hg (by norm_num)) (sub_nonneg.2 e3)
  refine ⟨e3, ?_, ?_, fun z z' => ?_⟩
  · rw [← sub_le_iff_le_add', le_div_iff₀ hη]; nlinarith
  · rw [← sub_le_iff_le_add', le_div_iff₀ hη]; nlinarith
  · rw [z, z'] at k
    have e : engineKj s - engineKj s' =
        -(V.vehKg * P.aGrav * V.wheelRrCoef / 1000 * (tripDist c - extentM F c)) / V.transEff := by
      rw [eq_div_iff hη.ne']; linear_combination k
    rw [neg_div] at e
    linarith

/-! ### Any powertrain -/

/-- Power into the transmission in a step. -/
theorem shaft_row (hH : H.Local) (hc : P.coastAllow = false) (hd : P.idmAllow = false)
    (hm : P.missedTrace = false) (hB : RegenOk F V) (he : 0 < V.transEff) {s : Sim K} (h : Reachable F H V P s) {i : Nat}
    {p r : Row K} {dt a : K} (hs : StepAt s i p r dt a) (hmet : r.pow.cycTransKwOutReq ≤ r.lims.curMaxTransKwOut) :
    r.pow.transKwInAch =
      (roadLoadKw F V P.toStepParams dt (recordedGrade s i) p.ach.mpsAch r.ach.mpsAch + r.pow.cycFricBrakeKw) / V.transEff
        + (1 / V.transEff - V.transEff) * r.pow.cycRegenBrakeKw := by
  obtain ⟨-, -, hsum⟩ := C18_regen_bound hH h hs
  obtain ⟨hg0, hf0, hpos, hneg⟩ := C18_brakes_share hH hB h hs
  obtain ⟨-, hR⟩ := Reachable.recInv hc hd h
  obtain ⟨st, hst, hrow⟩ := hR.solved i hs.pos hs.lt
  obtain rfl := hst hm
  rw [hs.row, List.getD_eq_getElem?_getD (i := i - 1), hs.prev] at hrow
  have hr := Option.some.inj hrow
  simp only [Option.getD_some] at hr
  have hdt : (recordedEnv s i).dt = dt := hs.dt.symm
  have hg : ∀ v, (recordedEnv s i).gradeOf v = recordedGrade s i := fun _ => rfl
  generalize recordedEnv s i = E at *
  have e := solveStep_pow_fresh (F := F) (V := V) P.toStepParams E p Stale.fresh rfl
  rw [← hr] at e
  have hw := whlReq_eq (F := F) (V := V) (P := P) E p (setCompLims F V P.toStepParams E p (setMisc V E p))
    r.ach.mpsAch
  rw [← e, hg, hdt] at hw
  have hout : r.pow.transKwOutAch = r.pow.cycTransKwOutReq := by
    have k := solveStep_out F V P.toStepParams E p Stale.fresh
    rw [← hr] at k
    rw [k, min_eq_left hmet]
  have hin : r.pow.transKwInAch = transKwIn V r.pow.cycTransKwOutReq := by
    have : r.pow.transKwInAch = transKwIn V r.pow.transKwOutAch := by rw [hr, solveStep_in]
    rw [this, hout]
  rw [hin, ← hw]
  unfold transKwIn
  rcases lt_or_ge r.pow.cycWhlKwReq 0 with h0 | h0
  · obtain ⟨b1, b2, -⟩ := hneg h0
    rw [if_neg (by rw [b2]; linarith), b2]
    have : r.pow.cycWhlKwReq + r.pow.cycFricBrakeKw = -r.pow.cycRegenBrakeKw := by linarith
    rw [this]; field_simp; ring
  · obtain ⟨b1, b2, b3⟩ := hpos h0
    rw [b3, b2, b1]
    split
    · ring
    · rename_i hn
      have : r.pow.cycWhlKwReq = 0 := le_antisymm (not_lt.1 hn) h0
      rw [this]; ring

/-- **C142 (one trip, any powertrain).** The energy that goes into the transmission over a trip is drag, kinetic energy, height,
rolling resistance and what the friction brakes record, over the efficiency, plus what the transmission loses of the energy
regenerated, out and back. -/
theorem C142_trip_any (hc : P.coastAllow = false) (hd : P.idmAllow = false) (hm : P.missedTrace = false)
    (hB : RegenOk F V) (he : 0 < V.transEff) (hH : H.Local) {c : Cyc K} {init : Option K}
    {s : Sim K} (h : simDrive F H V P (Sim.new c) init none = .ok s) (hmet : MeetsTrace s) :
    shaftKj s = (((legs c).map fun l => flatKw V P.toStepParams l.dt l.v0 l.v * l.dt).sum
        + V.vehKg * P.aGrav / 1000 * (heightM F c + V.wheelRrCoef * extentM F c) + frictionKj s) / V.transEff
      + (1 / V.transEff - V.transEff) * regenKj s := by
  obtain ⟨hR, hcyc, hlen, ⟨_, _, _, r0⟩, hl⟩ := trace_steps hc hd hm hH h hmet
  have e1 : ((legs c).map fun l => flatKw V P.toStepParams l.dt l.v0 l.v * l.dt).sum
        + V.vehKg * P.aGrav / 1000 * (heightM F c + V.wheelRrCoef * extentM F c) =
      ((legs c).map fun l => roadLoadKw F V P.toStepParams l.dt l.grade l.v0 l.v * l.dt).sum := by
    unfold heightM extentM
    generalize legs c = ls
    induction ls with
    | nil => simp
    | cons l ls ih =>
      simp only [List.map_cons, List.sum_cons]
      rw [← ih]
      unfold roadLoadKw flatKw climbKw rollKw
      ring
  rw [e1]
  unfold shaftKj frictionKj regenKj
  rw [sumDt_steps s _ hlen (by rw [r0]; rfl), sumDt_steps s _ hlen (by rw [r0]; rfl),
    sumDt_steps s _ hlen (by rw [r0]; rfl), legs_sum, hcyc, ← Finset.sum_add_distrib, div_eq_mul_inv, Finset.sum_mul, Finset.mul_sum,
    ← Finset.sum_add_distrib]
  refine Finset.sum_congr rfl fun i hi => ?_
  obtain ⟨p, a, hs, hg, h0, h1⟩ := hl i (by have := Finset.mem_range.1 hi; omega)
  rw [shaft_row hH hc hd hm hB he hR hs (hmet _ _ _ _ _ hs).2, hg, h0, h1]
  ring

/-- **C142 (hills, any powertrain).** Two runs of a vehicle of any kind over roads of different slopes, with the same times and
speeds and both meeting their traces: the energy into the transmission differs by height, rolling resistance and friction
braking over the efficiency, and by the loss of what is regenerated. -/
theorem C142_hills_any (hc : P.coastAllow = false) (hd : P.idmAllow = false) (hm : P.missedTrace = false)
    (hB : RegenOk F V) (he : 0 < V.transEff) {H' : Hooks K} (hH : H.Local) (hH' : H'.Local) {c c' : Cyc K}
    (hsame : SamePace c c') {init init' : Option K} {s s' : Sim K}
    (h : simDrive F H V P (Sim.new c) init none = .ok s) (h' : simDrive F H' V P (Sim.new c') init' none = .ok s')
    (hmet : MeetsTrace s) (hmet' : MeetsTrace s') :
    shaftKj s - shaftKj s' =
      (V.vehKg * P.aGrav / 1000 * (heightM F c - heightM F c')
        + V.vehKg * P.aGrav * V.wheelRrCoef / 1000 * (extentM F c - extentM F c')
        + (frictionKj s - frictionKj s')) / V.transEff
      + (1 / V.transEff - V.transEff) * (regenKj s - regenKj s') := by
  rw [C142_trip_any hc hd hm hB he hH h hmet, C142_trip_any hc hd hm hB he hH' h' hmet',
    samePace_sum hsame (fun dt v0 v => flatKw V P.toStepParams dt v0 v * dt)]
  ring

/-- **C142 (there and back, any powertrain).** Over a road that comes back to its height, against a level one at the same times
and speeds on which the vehicle does not brake: hills cost at most what the friction brakes take, over the efficiency, and what
the transmission loses of the energy regenerated. A lossless transmission and regeneration of all braking make hills free. -/
theorem C142_return_any (hc : P.coastAllow = false) (hd : P.idmAllow = false) (hm : P.missedTrace = false)
    (hB : RegenOk F V) (he : 0 < V.transEff) {H' : Hooks K} (hH : H.Local) (hH' : H'.Local) {c c' : Cyc K}
    (hsame : SamePace c c') (hf : DrivenForward c)
    (hflat : ∀ l ∈ legs c', l.grade = 0) (hs0 : F.sinAtan 0 = 0) (hc0 : F.cosAtan 0 = 1) (hc1 : ∀ g, F.cosAtan g ≤ 1)
    (hback : heightM F c = 0) (hg : 0 ≤ V.vehKg * P.aGrav * V.wheelRrCoef) {init init' : Option K} {s s' : Sim K}
    (h : simDrive F H V P (Sim.new c) init none = .ok s) (h' : simDrive F H' V P (Sim.new c') init' none = .ok s')
    (hmet : MeetsTrace s) (hmet' : MeetsTrace s') (hb : frictionKj s' = 0) (hr : regenKj s' = 0) :
    shaftKj s ≤ shaftKj s' + frictionKj s / V.transEff + (1 / V.transEff - V.transEff) * regenKj s ∧
    shaftKj s' = shaftKj s + V.vehKg * P.aGrav * V.wheelRrCoef / 1000 * (tripDist c - extentM F c) / V.transEff
      - frictionKj s / V.transEff - (1 / V.transEff - V.transEff) * regenKj s := by
  have k := C142_hills_any hc hd hm hB he hH hH' hsame h h' hmet hmet'
  obtain ⟨e1, e2, e3⟩ := level_road hsame hf hflat hs0 hc0 hc1
  rw [e1, e2, hback, hb, hr] at k
  have hsave : 0 ≤ V.vehKg * P.aGrav * V.wheelRrCoef / 1000 * (tripDist c - extentM F c) / V.transEff :=
    div_nonneg (mul_nonneg (div_nonneg hg (by norm_num)) (sub_nonneg.2 e3)) he.le
  have k2 : shaftKj s' = shaftKj s + V.vehKg * P.aGrav * V.wheelRrCoef / 1000 * (tripDist c - extentM F c) / V.transEff
      - frictionKj s / V.transEff - (1 / V.transEff - V.transEff) * regenKj s := by
    linear_combination -k
  exact ⟨by linarith, k2⟩

end Field

/-! ### Concrete cases -/

namespace HillsDemo
open Demo

/-- Sine and cosine of two slopes, exact: one of 7 in 24 and one of 500 in 62499 (0.8 %). -/
def slopes : Fns ℚ :=
  { fns with
    sinAtan := fun g => if g = 7 / 24 then 7 / 25 else if g = -(7 / 24) then -(7 / 25) else
      if g = 500 / 62499 then 500 / 62501 else if g = -(500 / 62499) then -(500 / 62501) else 0
    cosAtan := fun g => if g = 7 / 24 ∨ g = -(7 / 24) then 24 / 25 else
      if g = 500 / 62499 ∨ g = -(500 / 62499) then 62499 / 62501 else 1 }

/-- Up and down a slope of `g` at 4 m/s. -/
def hill (g : ℚ) : Cyc ℚ := [⟨0, 4, 0, 0⟩, ⟨2, 4, g, 0⟩, ⟨4, 4, -g, 0⟩]

theorem slopes_cos (g : ℚ) : slopes.cosAtan g ≤ 1 := by
  show (if g = 7 / 24 ∨ g = -(7 / 24) then (24 / 25 : ℚ) else
    if g = 500 / 62499 ∨ g = -(500 / 62499) then 62499 / 62501 else 1) ≤ 1
  split
  · norm_num
  · split <;> norm_num

/-- The demo car on the steep hill, on the gentle hill and on the level meets the hypotheses of `C142_return`. On the steep
hill it brakes and takes more work than on the level; on the gentle one it does not brake and takes *less*. -/
theorem C142_demo : Conventional conv ∧ 0 ≤ ownAux conv ∧ noHooks.Local ∧ Hooks.KeepAux noHooks conv ∧
    slopes.sinAtan 0 = 0 ∧ slopes.cosAtan 0 = 1 ∧ (∀ g, slopes.cosAtan g ≤ 1) ∧
    0 ≤ conv.vehKg * params.aGrav * conv.wheelRrCoef ∧
    (∀ g ∈ [(7 / 24 : ℚ), 500 / 62499], SamePace (hill g) (hill 0) ∧ DrivenForward (hill g) ∧ heightM slopes (hill g) = 0) ∧
    DrivenForward (hill 0) ∧ (∀ l ∈ legs (hill 0), l.grade = 0) ∧
    ∃ s s' s0, simDrive slopes noHooks conv params (Sim.new (hill (7 / 24))) none none = .ok s ∧
      simDrive slopes noHooks conv params (Sim.new (hill (500 / 62499))) none none = .ok s' ∧
      simDrive slopes noHooks conv params (Sim.new (hill 0)) none none = .ok s0 ∧
      MeetsTrace s ∧ MeetsTrace s' ∧ MeetsTrace s0 ∧
      0 < frictionKj s ∧ frictionKj s' = 0 ∧ frictionKj s0 = 0 ∧
      engineKj s' < engineKj s0 ∧ engineKj s0 < engineKj s := by
  refine ⟨C119_demo.1, by decide +kernel, noHooks_local, noHooks_keepAux _, by decide +kernel, by decide +kernel, slopes_cos,
    by decide +kernel, ?_, ?_, by decide +kernel, ?_⟩
  · unfold SamePace DrivenForward; decide +kernel
  · unfold DrivenForward; decide +kernel
  · obtain ⟨s, hs, hm⟩ := metRun_spec
      (r := simDrive slopes noHooks conv params (Sim.new (hill (7 / 24))) none none) (by decide +kernel)
    obtain ⟨s', hs', hm'⟩ := metRun_spec
      (r := simDrive slopes noHooks conv params (Sim.new (hill (500 / 62499))) none none) (by decide +kernel)
    obtain ⟨s0, hs0, hm0⟩ := metRun_spec
      (r := simDrive slopes noHooks conv params (Sim.new (hill 0)) none none) (by decide +kernel)
    have key : (match simDrive slopes noHooks conv params (Sim.new (hill (7 / 24))) none none,
        simDrive slopes noHooks conv params (Sim.new (hill (500 / 62499))) none none,
        simDrive slopes noHooks conv params (Sim.new (hill 0)) none none with
        | .ok s, .ok s', .ok s0 => decide (0 < frictionKj s ∧ frictionKj s' = 0 ∧ frictionKj s0 = 0 ∧
            engineKj s' < engineKj s0 ∧ engineKj s0 < engineKj s)
        | _, _, _ => false) = true := by decide +kernel
    rw [hs, hs', hs0] at key
    exact ⟨s, s', s0, hs, hs', hs0, hm, hm', hm0, of_decide_eq_true key⟩

/-- A hybrid and a battery-electric car meet the hypotheses of `C142_return_any`; on the hill both brake and regenerate. -/
theorem C142_demo_any : ∀ V ∈ [hev, bev], RegenOk slopes V ∧ 0 < V.transEff ∧
    0 ≤ V.vehKg * params.aGrav * V.wheelRrCoef ∧
    ∃ s s0, simDrive slopes noHooks V params (Sim.new (hill (7 / 24))) (some (3 / 5)) none = .ok s ∧
      simDrive slopes noHooks V params (Sim.new (hill 0)) (some (3 / 5)) none = .ok s0 ∧ MeetsTrace s ∧ MeetsTrace s0 ∧
      0 < frictionKj s ∧ 0 < regenKj s ∧ frictionKj s0 = 0 ∧ regenKj s0 = 0 ∧ shaftKj s0 < shaftKj s := by
  have hexp : ∀ x, 0 ≤ slopes.exp x := by
    intro x
    show (0:ℚ) ≤ if x < 0 then 1 / (1 - x) else 1 + x
    split
    · exact div_nonneg zero_le_one (by linarith)
    · linarith
  have key : ∀ V ∈ [hev, bev], (0 ≤ V.maxRegen ∧ V.maxRegen ≤ 1 ∧ 0 ≤ V.regenA) ∧ 0 < V.transEff ∧
      0 ≤ V.vehKg * params.aGrav * V.wheelRrCoef ∧
      metRun (simDrive slopes noHooks V params (Sim.new (hill (7 / 24))) (some (3 / 5)) none) = true ∧
      metRun (simDrive slopes noHooks V params (Sim.new (hill 0)) (some (3 / 5)) none) = true ∧
      (match simDrive slopes noHooks V params (Sim.new (hill (7 / 24))) (some (3 / 5)) none,
        simDrive slopes noHooks V params (Sim.new (hill 0)) (some (3 / 5)) none with
        | .ok s, .ok s0 => decide (0 < frictionKj s ∧ 0 < regenKj s ∧ frictionKj s0 = 0 ∧ regenKj s0 = 0 ∧
            shaftKj s0 < shaftKj s)
        | _, _ => false) = true := by decide +kernel
  intro V hV
  obtain ⟨⟨k1, k2, k3⟩, k4, k5, k6, k7, k8⟩ := key V hV
  obtain ⟨s, hs, hm⟩ := metRun_spec k6
  obtain ⟨s0, hs0, hm0⟩ := metRun_spec k7
  rw [hs, hs0] at k8
  exact ⟨⟨k1, k2, k3, hexp⟩, k4, k5, s, s0, hs, hs0, hm, hm0, of_decide_eq_true k8⟩

end HillsDemo

end Fastsim.Props
