import Verif.Props.Harder
import Verif.Props.Accessory
import Verif.Props.Concat
import Verif.Props.Loops

/-!
# C92: the fuel a conventional vehicle uses is the sum over the legs of its trace

A leg is what lies between two neighbouring samples: its duration, the speeds at its ends and the grade. If a
conventional vehicle meets its trace, each leg costs what it costs, whatever came before. So the fuel of trips driven
one after the other adds up in any order, and it does not matter how finely a cruise is sampled.
-/

set_option linter.unusedSectionVars false

namespace Fastsim.Spec
open Fastsim

/-- What lies between two neighbouring samples of a trace. -/
structure Leg (K : Type*) where
  dt : K
  v0 : K
  v : K
  grade : K
  deriving DecidableEq

section Field
variable {K : Type*} [Field K] [LinearOrder K] [IsStrictOrderedRing K]

/-- The legs of a trace. -/
def legs : Cyc K → List (Leg K)
  | x :: y :: l => ⟨y.t - x.t, x.v, y.v, y.g⟩ :: legs (y :: l)
  | _ => []

/-- Engine power (kW) in a leg: the road load, if positive, goes through the transmission, the accessories `a` are
added. -/
def legWorkKw (F : Fns K) (V : Veh K) (P : StepParams K) (a : K) (l : Leg K) : K :=
  max 0 (roadLoadKw F V P l.dt l.grade l.v0 l.v) / V.transEff + a

/-- Fuel energy (kJ) of a leg: `rate` gives the fuel power for the engine output. -/
def legFuelKj (F : Fns K) (V : Veh K) (P : StepParams K) (rate : K → K) (a : K) (l : Leg K) : K :=
  rate (legWorkKw F V P a l) * l.dt

/-- Fuel energy (kJ) of a trace, leg by leg. -/
def traceFuelKj (F : Fns K) (V : Veh K) (P : StepParams K) (rate : K → K) (a : K) (c : Cyc K) : K :=
  ((legs c).map (legFuelKj F V P rate a)).sum

/-- The trip starts and ends at a standstill. -/
def StandingEnds (c : Cyc K) : Prop := (∀ x, c.head? = some x → x.v = 0) ∧ ∀ x, c.getLast? = some x → x.v = 0

end Field
end Fastsim.Spec

namespace Fastsim.Props
open Fastsim Spec

section Field
variable {K : Type*} [Field K] [LinearOrder K] [IsStrictOrderedRing K]
variable {F : Fns K} {H : Hooks K} {V : Veh K} {P : SimParams K}

theorem legs_length (c : Cyc K) : (legs c).length = c.length - 1 := by
  induction c with
  | nil => rfl
  | cons x l ih =>
    cases l with
    | nil => rfl
    | cons y l => simp only [legs, List.length_cons] at ih ⊢; omega

theorem legs_get (c : Cyc K) (i : Nat) (hi : i + 1 < c.length) :
    (legs c)[i]? = some ⟨dtAt c (i + 1), c.speeds.getD i 0, c.speeds.getD (i + 1) 0, c.grades.getD (i + 1) 0⟩ := by
  induction c generalizing i with
  | nil => simp at hi
  | cons x l ih =>
    cases l with
    | nil => simp at hi
    | cons y l =>
      cases i with
      | zero => simp [legs, dtAt, Cyc.times, Cyc.speeds, Cyc.grades]
      | succ i =>
        have := ih i (by simpa using hi)
        simp only [legs, List.getElem?_cons_succ]
        rw [this]
        simp [dtAt, Cyc.times, Cyc.speeds, Cyc.grades]

theorem legs_sum (c : Cyc K) (f : Leg K → K) :
    ((legs c).map f).sum = ∑ i ∈ Finset.range (c.length - 1),
      f ⟨dtAt c (i + 1), c.speeds.getD i 0, c.speeds.getD (i + 1) 0, c.grades.getD (i + 1) 0⟩ := by
  induction c with
  | nil => simp [legs]
  | cons x l ih =>
    cases l with
    | nil => simp [legs]
    | cons y l =>
      have hn : (x :: y :: l).length - 1 = ((y :: l).length - 1) + 1 := by simp
      rw [legs, List.map_cons, List.sum_cons, ih, hn, Finset.sum_range_succ', add_comm]
      congr 1

/-- Legs of a joined trace. -/
theorem legs_append (l : Cyc K) (x : Sample K) (r : Cyc K) :
    legs (l ++ x :: r) = legs (l ++ [x]) ++ legs (x :: r) := by
  induction l with
  | nil => cases r <;> simp [legs]
  | cons y l ih =>
    cases l with
    | nil => simp [legs]
    | cons z l =>
      simp only [List.cons_append, legs] at ih ⊢
      rw [ih]

/-- Only time differences count. -/
theorem legs_shift (c : Cyc K) (d : K) : legs (c.map fun x => { x with t := x.t + d }) = legs c := by
  induction c with
  | nil => rfl
  | cons x l ih =>
    cases l with
    | nil => rfl
    | cons y l =>
      simp only [List.map_cons, legs] at ih ⊢
      rw [ih]
      simp

theorem traceFuel_shift (rate : K → K) (a d : K) (c : Cyc K) :
    traceFuelKj F V P.toStepParams rate a (c.map fun x => { x with t := x.t + d }) =
      traceFuelKj F V P.toStepParams rate a c := by
  unfold traceFuelKj; rw [legs_shift]

/-- The legs of an appended trip do not depend on what its first sample says about the grade. -/
theorem legs_head (x y : Sample K) (r : Cyc K) (ht : x.t = y.t) (hv : x.v = y.v) : legs (x :: r) = legs (y :: r) := by
  cases r with
  | nil => rfl
  | cons z r => simp [legs, ht, hv]

/-- Engine output and fuel power in the steps of a run that meets its trace. -/
theorem leg_outputs (hc : P.coastAllow = false) (hd : P.idmAllow = false)
    (hm : P.missedTrace = false) (hV : Conventional V) (ha : 0 ≤ ownAux V) (hH : H.Local) (hA : Hooks.KeepAux H V)
    {c : Cyc K} {init : Option K} {s : Sim K} (h : simDrive F H V P (Sim.new c) init none = .ok s)
    (hmet : MeetsTrace s) :
    s.cyc = c ∧ s.rows.length = s.cyc.length ∧ (s.row 0).fc = (Row.zero : Row K).fc ∧
      ∀ i, i + 1 < c.length →
        (s.row (i + 1)).fc.fcKwOutAch = legWorkKw F V P.toStepParams (ownAux V) ⟨dtAt c (i + 1), c.speeds.getD i 0,
          c.speeds.getD (i + 1) 0, c.grades.getD (i + 1) 0⟩ ∧
        (s.row (i + 1)).fc.fsKwOutAch = fcKwInAch V (s.row (i + 1)).fc.fcKwOutAch := by
  have hk := simDrive_keeps hH (s := Sim.new c) rfl h
  have hcyc : s.cyc = c := hk.cyc (by unfold Resets; simp [hc, hd, hm])
  have hcyc0 : s.cyc0 = c := hk.cyc0
  have fin := Finished.simDrive hH (s := Sim.new c) rfl h
  have hlen := fin.lenRows hH
  obtain ⟨-, -, soc, -, t0⟩ := Reachable.inv hH fin.reachable
  have r0 : s.row 0 = Row.init V soc (s.cyc0.speeds.getD 0 0) (s.aux.getD 0 0) := by
    rw [Sim.row, List.getD_eq_getElem?_getD, t0]; rfl
  have haux : ∀ i, 1 ≤ i → i < c.length → s.aux[i]? = some (ownAux V) := by
    intro i h1 h2
    have := (C33_load hH hA (s := Sim.new c) rfl h).2 i
    rw [this]
    unfold loadAt
    rw [if_pos]
    refine ⟨h1, by rw [show (Sim.new c).cyc0 = c from rfl]; simpa [prescribed] using h2, fun j _ x hx => ?_⟩
    have := List.mem_of_getElem? hx
    exact List.eq_of_mem_replicate this
  have hgrade : ∀ i, recordedGrade s i = c.grades.getD i 0 := by
    intro i
    unfold recordedGrade
    rw [hcyc, hcyc0]
    split
    · rename_i hz
      rw [List.getD_eq_getElem?_getD]
      cases hx : c.grades[i]? with
      | none => rfl
      | some g =>
        have := List.all_eq_true.1 hz g (List.mem_of_getElem? hx)
        exact (of_decide_eq_true this).symm
    · rfl
  have speed : ∀ i, i < c.length → (s.row i).ach.mpsAch = c.speeds.getD i 0 := by
    intro i hi
    rcases Nat.eq_zero_or_pos i with rfl | hpos
    · rw [r0, hcyc0]; rfl
    · obtain ⟨p, r, dt, a, hs⟩ := stepAt_exists hH fin.reachable hpos (by rw [fin.atEnd, hcyc]; exact hi)
      have e1 : s.row i = r := by rw [Sim.row, List.getD_eq_getElem?_getD, hs.row]; rfl
      rw [e1, (hmet _ _ _ _ _ hs).1, askedMps, hcyc]
  refine ⟨hcyc, hlen, by rw [r0]; rfl, fun i hi' => ?_⟩
  obtain ⟨p, r, dt, a, hs⟩ := stepAt_exists hH fin.reachable (i := i + 1) (by omega)
    (by rw [fin.atEnd, hcyc]; omega)
  have e1 : s.row (i + 1) = r := by rw [Sim.row, List.getD_eq_getElem?_getD, hs.row]; rfl
  have e3 : s.row i = p := by
    have := hs.prev
    rw [Nat.add_sub_cancel] at this
    rw [Sim.row, List.getD_eq_getElem?_getD, this]; rfl
  have ea : a = ownAux V := by
    have := hs.aux
    rw [haux _ (by omega) (by omega)] at this
    exact (Option.some.inj this).symm
  have edt : dt = dtAt c (i + 1) := by rw [hs.dt, hcyc]
  have w := C80_engine_work hH hc hd hm hV fin.reachable hs (by rw [ea]; exact ha) (hmet _ _ _ _ _ hs).2
  have f : r.fc.fsKwOutAch = fcKwInAch V r.fc.fcKwOutAch := by
    obtain ⟨E, st, -, -, -, hr⟩ := StepAt.solve hH fin.reachable hs
    rw [hr]; rfl
  rw [e1]
  refine ⟨?_, f⟩
  rw [w, hgrade, ea, edt, ← e1, ← e3, speed _ (by omega), speed _ (by omega)]
  rfl

/-- **C92 (fuel is a sum over legs).** There is one table of fuel powers for the engine, with the efficiencies of its
map, such that every finished run of a conventional vehicle that meets its trace uses, over the whole run, the sum of
the fuel of the legs of the trace. The starting charge, the hooks and the samples before a leg play no part. -/
theorem C92_fuel (hc : P.coastAllow = false) (hd : P.idmAllow = false)
    (hm : P.missedTrace = false) (hV : Conventional V) (ha : 0 ≤ ownAux V) :
    ∃ rate : K → K, (∀ x, EffOk V → ∃ e ∈ V.fcEffArray, rate x * e = x) ∧
      ∀ (H : Hooks K) (c : Cyc K) (init : Option K) (s : Sim K), H.Local → Hooks.KeepAux H V →
        simDrive F H V P (Sim.new c) init none = .ok s → MeetsTrace s →
        fuelKj s = traceFuelKj F V P.toStepParams rate (ownAux V) c := by
  refine ⟨fcKwInAch V, fun x hE => fuel_eff hE x, fun H c init s hH hA h hmet => ?_⟩
  obtain ⟨hcyc, hlen, r0, hl⟩ := leg_outputs hc hd hm hV ha hH hA h hmet
  unfold traceFuelKj fuelKj
  rw [sumDt_steps s _ hlen (by rw [r0]; rfl), legs_sum, hcyc]
  refine Finset.sum_congr rfl fun i hi => ?_
  have hi' := Finset.mem_range.1 hi
  obtain ⟨h1, h2⟩ := hl i (by omega)
  rw [h2, h1]
  rfl

/-- **C92 (engine work).** The work of the engine over such a run is the sum of its work in the legs of the trace. -/
theorem C92_work (hc : P.coastAllow = false) (hd : P.idmAllow = false)
    (hm : P.missedTrace = false) (hV : Conventional V) (ha : 0 ≤ ownAux V) (hH : H.Local) (hA : Hooks.KeepAux H V)
    {c : Cyc K} {init : Option K} {s : Sim K} (h : simDrive F H V P (Sim.new c) init none = .ok s)
    (hmet : MeetsTrace s) :
    sumDt s (fun r => r.fc.fcKwOutAch) =
      ((legs c).map fun l => legWorkKw F V P.toStepParams (ownAux V) l * l.dt).sum := by
  obtain ⟨hcyc, hlen, r0, hl⟩ := leg_outputs hc hd hm hV ha hH hA h hmet
  rw [sumDt_steps s _ hlen (by rw [r0]; rfl), legs_sum, hcyc]
  refine Finset.sum_congr rfl fun i hi => ?_
  have hi' := Finset.mem_range.1 hi
  rw [(hl i (by omega)).1]

/-- **C92 (better transmission).** Of two conventional vehicles that differ in the efficiency of the transmission
only, the one with the better transmission needs no more engine work on a trace both meet, and less if some leg asks for
power. -/
theorem C92_transmission (hc : P.coastAllow = false) (hd : P.idmAllow = false)
    (hm : P.missedTrace = false) (hV : Conventional V) (ha : 0 ≤ ownAux V) {t : K} (ht : V.transEff < t)
    {H' : Hooks K} (hH : H.Local) (hH' : H'.Local) (hA : Hooks.KeepAux H V) (hA' : Hooks.KeepAux H' { V with transEff := t })
    {c : Cyc K} (hdt : ∀ l ∈ legs c, 0 ≤ l.dt) {init init' : Option K} {s s' : Sim K}
    (h : simDrive F H V P (Sim.new c) init none = .ok s)
    (h' : simDrive F H' { V with transEff := t } P (Sim.new c) init' none = .ok s') (hmet : MeetsTrace s)
    (hmet' : MeetsTrace s') :
    sumDt s' (fun r => r.fc.fcKwOutAch) ≤ sumDt s (fun r => r.fc.fcKwOutAch) ∧
    ((∃ l ∈ legs c, 0 < l.dt ∧ 0 < roadLoadKw F V P.toStepParams l.dt l.grade l.v0 l.v) →
      sumDt s' (fun r => r.fc.fcKwOutAch) < sumDt s (fun r => r.fc.fcKwOutAch)) := by
  have hV' : Conventional { V with transEff := t } :=
    ⟨hV.1, hV.2, hV.3, hV.4, hV.5, hV.6, hV.eff.trans ht⟩
  rw [C92_work hc hd hm hV ha hH hA h hmet, C92_work hc hd hm hV' ha hH' hA' h' hmet']
  have le : ∀ l ∈ legs c, legWorkKw F { V with transEff := t } P.toStepParams (ownAux { V with transEff := t }) l * l.dt
      ≤ legWorkKw F V P.toStepParams (ownAux V) l * l.dt := by
    intro l hl
    refine mul_le_mul_of_nonneg_right ?_ (hdt l hl)
    show max 0 (roadLoadKw F V P.toStepParams l.dt l.grade l.v0 l.v) / t + ownAux V ≤
      max 0 (roadLoadKw F V P.toStepParams l.dt l.grade l.v0 l.v) / V.transEff + ownAux V
    have := div_le_div_of_nonneg_left (le_max_left 0 (roadLoadKw F V P.toStepParams l.dt l.grade l.v0 l.v)) hV.eff
      ht.le
    linarith
  refine ⟨List.sum_le_sum le, ?_⟩
  rintro ⟨l, hl, hd0, hp⟩
  refine List.sum_lt_sum _ _ le ⟨l, hl, mul_lt_mul_of_pos_right ?_ hd0⟩
  show max 0 (roadLoadKw F V P.toStepParams l.dt l.grade l.v0 l.v) / t + ownAux V <
    max 0 (roadLoadKw F V P.toStepParams l.dt l.grade l.v0 l.v) / V.transEff + ownAux V
  have := div_lt_div_of_pos_left (lt_of_lt_of_le hp (le_max_right 0 _)) hV.eff ht
  linarith

/-- A leg at constant speed costs in proportion to its duration. -/
theorem cruise_leg (rate : K → K) (a dt v g : K) :
    legFuelKj F V P.toStepParams rate a ⟨dt, v, v, g⟩ = legFuelKj F V P.toStepParams rate a ⟨1, v, v, g⟩ * dt := by
  have : ∀ d, roadLoadKw F V P.toStepParams d g v v = roadLoadKw F V P.toStepParams 1 g v v := by
    intro d
    unfold roadLoadKw kineticKw
    simp
  unfold legFuelKj legWorkKw
  simp only
  rw [this dt]
  ring

/-- **C92 (sampling of a cruise).** A further sample inside a stretch of constant speed and grade does not change the
fuel of a trip. -/
theorem C92_cruise (hc : P.coastAllow = false) (hd : P.idmAllow = false)
    (hm : P.missedTrace = false) (hV : Conventional V) (ha : 0 ≤ ownAux V) (hH : H.Local) (hA : Hooks.KeepAux H V)
    {l r : Cyc K} {x y z : Sample K} (hx : x.v = y.v) (hz : z.v = y.v) (hg : z.g = y.g) {init init' : Option K}
    {s s' : Sim K} (h : simDrive F H V P (Sim.new (l ++ x :: y :: r)) init none = .ok s)
    (h' : simDrive F H V P (Sim.new (l ++ x :: z :: y :: r)) init' none = .ok s') (hmet : MeetsTrace s)
    (hmet' : MeetsTrace s') : fuelKj s' = fuelKj s := by
  obtain ⟨rate, -, hR⟩ := C92_fuel (F := F) hc hd hm hV ha
  rw [hR H _ _ _ hH hA h hmet, hR H _ _ _ hH hA h' hmet']
  unfold traceFuelKj
  rw [legs_append l x (z :: y :: r), legs_append l x (y :: r)]
  simp only [legs, List.map_append, List.map_cons, List.sum_append, List.sum_cons]
  rw [hx, hz, hg, cruise_leg _ _ (z.t - x.t), cruise_leg _ _ (y.t - z.t), cruise_leg _ _ (y.t - x.t)]
  ring

theorem legs_concatFrom (cs : List (Cyc K)) (acc prev r : Cyc K) (h : concatFrom acc cs = .ok r)
    (h0 : ∀ d ∈ cs, startTime d = 0) (hv : SpeedsMeet prev cs)
    (hl : acc.getLast?.map (·.v) = prev.getLast?.map (·.v)) : legs r = legs acc ++ (cs.map legs).flatten := by
  induction cs generalizing acc prev with
  | nil =>
    simp only [concatFrom, Except.ok.injEq] at h
    simp [h]
  | cons d ds ih =>
    obtain ⟨⟨l, x, hpl, hdx, hlx⟩, hv'⟩ := hv
    simp only [concatFrom] at h
    obtain ⟨q, hq⟩ : ∃ q, acc.getLast? = some q := by
      cases hq : acc.getLast? with
      | none => rw [hq, hpl] at hl; simp at hl
      | some q => exact ⟨q, rfl⟩
    have hqv : q.v = x.v := by
      rw [hq, hpl] at hl
      simp only [Option.map_some, Option.some.injEq] at hl
      rw [hl, hlx]
    obtain ⟨tl, rfl⟩ : ∃ tl, d = x :: tl := by
      cases d with
      | nil => simp at hdx
      | cons y tl => simp only [List.head?_cons, Option.some.injEq] at hdx; exact ⟨tl, by rw [hdx]⟩
    have hx0 : x.t = 0 := h0 (x :: tl) (by simp)
    simp only [concatStep, hq, List.tail_cons] at h
    have hacc : acc = acc.dropLast ++ [q] := by
      rw [← List.dropLast_append_getLast? q hq]; simp
    have step : legs (acc ++ tl.map fun y => { y with t := y.t + q.t }) = legs acc ++ legs (x :: tl) := by
      conv_lhs => rw [hacc, List.append_assoc, List.singleton_append]
      rw [legs_append, ← hacc]
      congr 1
      rw [← legs_shift (x :: tl) q.t, List.map_cons]
      exact legs_head _ _ _ (by simp [hx0]) hqv
    have := ih _ (x :: tl) h (fun e he => h0 e (by simp [he])) hv' ?_
    · rw [this, step, List.map_cons, List.flatten_cons, List.append_assoc]
    · cases tl with
      | nil => simp [hq, hqv]
      | cons y tl =>
        rw [List.getLast?_append, List.getLast?_map]
        cases hy : (y :: tl).getLast? with
        | none => simp at hy
        | some w => simp [List.getLast?_cons_cons, hy]

/-- **C92 (trips add up).** If trips, each beginning at time zero with the speed its predecessor ended at, are joined by
`concat`, the fuel of the joined trip is the sum of the fuel of the trips. -/
theorem C92_trips (hc : P.coastAllow = false) (hd : P.idmAllow = false)
    (hm : P.missedTrace = false) (hV : Conventional V) (ha : 0 ≤ ownAux V) (hH : H.Local) (hA : Hooks.KeepAux H V)
    {c : Cyc K} {cs : List (Cyc K)} {all : Cyc K} (hall : concat (c :: cs) = .ok all)
    (h0 : ∀ d ∈ cs, startTime d = 0) (hv : SpeedsMeet c cs) {init : Option K} {s : Sim K}
    (h : simDrive F H V P (Sim.new all) init none = .ok s) (hmet : MeetsTrace s) (init' : Cyc K → Option K)
    (run : Cyc K → Sim K) (hrun : ∀ d ∈ c :: cs, simDrive F H V P (Sim.new d) (init' d) none = .ok (run d) ∧ MeetsTrace (run d)) :
    fuelKj s = ((c :: cs).map fun d => fuelKj (run d)).sum := by
  obtain ⟨rate, -, hR⟩ := C92_fuel (F := F) hc hd hm hV ha
  rw [hR H _ _ _ hH hA h hmet]
  have hl := legs_concatFrom cs c c all hall h0 hv rfl
  have hmap : ((c :: cs).map fun d => fuelKj (run d)) =
      (c :: cs).map (traceFuelKj F V P.toStepParams rate (ownAux V)) := by
    apply List.map_congr_left
    intro d hd'
    exact hR H _ _ _ hH hA (hrun d hd').1 (hrun d hd').2
  rw [hmap]
  unfold traceFuelKj
  rw [hl]
  simp only [List.map_append, List.sum_append, List.map_cons, List.sum_cons, List.map_flatten, List.sum_flatten,
    List.map_map, Function.comp_def]

/-- **C92 (order of trips).** Trips between standstills can be driven in any order: the fuel is the same. -/
theorem C92_order (hc : P.coastAllow = false) (hd : P.idmAllow = false)
    (hm : P.missedTrace = false) (hV : Conventional V) (ha : 0 ≤ ownAux V) (hH : H.Local) (hA : Hooks.KeepAux H V)
    {cs cs' : List (Cyc K)} (hp : cs.Perm cs') (hne : ∀ d ∈ cs, d ≠ []) (h0 : ∀ d ∈ cs, startTime d = 0)
    (hst : ∀ d ∈ cs, StandingEnds d) {all all' : Cyc K} (hall : concat cs = .ok all)
    (hall' : concat cs' = .ok all') {init init' : Option K} {s s' : Sim K}
    (h : simDrive F H V P (Sim.new all) init none = .ok s) (h' : simDrive F H V P (Sim.new all') init' none = .ok s')
    (hmet : MeetsTrace s) (hmet' : MeetsTrace s') : fuelKj s' = fuelKj s := by
  obtain ⟨rate, -, hR⟩ := C92_fuel (F := F) hc hd hm hV ha
  rw [hR H _ _ _ hH hA h hmet, hR H _ _ _ hH hA h' hmet']
  have meet : ∀ (ds : List (Cyc K)) (c : Cyc K), (∀ d ∈ c :: ds, d ≠ []) → (∀ d ∈ c :: ds, StandingEnds d) →
      SpeedsMeet c ds := by
    intro ds
    induction ds with
    | nil => intro c _ _; trivial
    | cons d ds ih =>
      intro c h1 h2
      refine ⟨?_, ih d (fun e he => h1 e (List.mem_cons_of_mem _ he)) (fun e he => h2 e (List.mem_cons_of_mem _ he))⟩
      have hc' := h1 c (by simp)
      have hd' := h1 d (by simp)
      refine ⟨c.getLast hc', d.head hd', List.getLast?_eq_some_getLast hc', List.head?_eq_some_head hd', ?_⟩
      rw [(h2 c (by simp)).2 _ (List.getLast?_eq_some_getLast hc'), (h2 d (by simp)).1 _ (List.head?_eq_some_head hd')]
  have total : ∀ (ds : List (Cyc K)) (a : Cyc K), (∀ d ∈ ds, d ≠ []) → (∀ d ∈ ds, startTime d = 0) →
      (∀ d ∈ ds, StandingEnds d) → concat ds = .ok a → legs a = (ds.map legs).flatten := by
    intro ds a h1 h2 h3 h4
    cases ds with
    | nil => simp only [concat, Except.ok.injEq] at h4; simp [← h4, legs]
    | cons d ds =>
      have := legs_concatFrom ds d d a h4 (fun e he => h2 e (by simp [he])) (meet ds d h1 h3) rfl
      rw [this]; rfl
  unfold traceFuelKj
  rw [total cs all hne h0 hst hall, total cs' all' (fun d hd' => hne d (hp.mem_iff.2 hd'))
    (fun d hd' => h0 d (hp.mem_iff.2 hd')) (fun d hd' => hst d (hp.mem_iff.2 hd')) hall']
  exact ((((hp.map legs).flatten).map _).sum_eq).symm

end Field

/-! ### Concrete cases -/

open Demo

/-- Decidable form of the run conditions of `C92_fuel`. -/
def metRun (r : Except PyErr (Sim ℚ)) : Bool :=
  match r with
  | .ok s => decide (∀ j < s.rows.length, 1 ≤ j → (s.row j).ach.mpsAch = askedMps s j ∧
        (s.row j).pow.cycTransKwOutReq ≤ (s.row j).lims.curMaxTransKwOut)
  | .error _ => false

theorem metRun_spec {r : Except PyErr (Sim ℚ)} (h : metRun r = true) : ∃ s, r = .ok s ∧ MeetsTrace s := by
  cases hs : r with
  | error e => rw [hs] at h; exact absurd h (by simp [metRun])
  | ok s =>
    rw [hs] at h
    simp only [metRun, decide_eq_true_eq] at h
    refine ⟨s, rfl, ?_⟩
    intro i p r dt a hst
    have hlt := (List.getElem?_eq_some_iff.1 hst.row).1
    have := h i hlt hst.pos
    have e : s.row i = r := by rw [Sim.row, List.getD_eq_getElem?_getD, hst.row]; rfl
    rw [e] at this
    exact this

/-- A trip with a cruise uphill. -/
def hop : Cyc ℚ := [⟨0, 0, 0, 0⟩, ⟨2, 3, 0, 0⟩, ⟨5, 3, 1 / 50, 0⟩, ⟨8, 0, 0, 0⟩]

/-- The trip with another sample in the cruise. -/
def hopFine : Cyc ℚ := [⟨0, 0, 0, 0⟩, ⟨2, 3, 0, 0⟩, ⟨4, 3, 1 / 50, 0⟩, ⟨5, 3, 1 / 50, 0⟩, ⟨8, 0, 0, 0⟩]

/-- Another trip. -/
def skip : Cyc ℚ := [⟨0, 0, 1 / 10, 0⟩, ⟨3, 5, 1 / 100, 0⟩, ⟨6, 0, 0, 0⟩, ⟨10, 0, 0, 0⟩]

/-- Both trips, one after the other. -/
def hopSkip : Cyc ℚ := hop ++ [⟨11, 5, 1 / 100, 0⟩, ⟨14, 0, 0, 0⟩, ⟨18, 0, 0, 0⟩]

/-- Both trips in the other order. -/
def skipHop : Cyc ℚ := skip ++ [⟨12, 3, 0, 0⟩, ⟨15, 3, 1 / 50, 0⟩, ⟨18, 0, 0, 0⟩]

/-- The conventional demo car meets the hypotheses of `C92_fuel`, `C92_cruise`, `C92_trips` and `C92_order` on these
trips, and the fuel is not zero. -/
theorem C92_demo : Conventional conv ∧ 0 ≤ ownAux conv ∧ EffOk conv ∧ noHooks.Local ∧ Hooks.KeepAux noHooks conv ∧
    concat [hop, skip] = .ok hopSkip ∧ concat [skip, hop] = .ok skipHop ∧ SpeedsMeet hop [skip] ∧
    startTime hop = 0 ∧ startTime skip = 0 ∧ StandingEnds hop ∧ StandingEnds skip ∧
    ∀ c ∈ [hop, hopFine, skip, hopSkip, skipHop],
      ∃ s, simDrive fns noHooks conv params (Sim.new c) none none = .ok s ∧ MeetsTrace s ∧ 0 < fuelKj s := by
  refine ⟨⟨rfl, by decide, by decide +kernel, by decide +kernel, by decide +kernel, by decide +kernel,
    by decide +kernel⟩, by decide +kernel, ⟨by decide, by decide, by decide +kernel⟩, noHooks_local, ?_,
    by decide +kernel, by decide +kernel, ⟨⟨⟨8, 0, 0, 0⟩, ⟨0, 0, 1 / 10, 0⟩, rfl, rfl, rfl⟩, trivial⟩, rfl, rfl, ?_, ?_, ?_⟩
  · exact noHooks_keepAux conv
  · exact ⟨by decide +kernel, by decide +kernel⟩
  · exact ⟨by decide +kernel, by decide +kernel⟩
  · have key : ∀ c ∈ [hop, hopFine, skip, hopSkip, skipHop],
        metRun (simDrive fns noHooks conv params (Sim.new c) none none) = true ∧ 0 < fuelOf conv c := by
      decide +kernel
    intro c hc
    obtain ⟨s, hs, hm⟩ := metRun_spec (key c hc).1
    refine ⟨s, hs, hm, ?_⟩
    have := (key c hc).2
    rwa [fuelOf, hs] at this

/-- The car with a better transmission meets the hypotheses of `C92_transmission`. -/
theorem C92_demo_transmission : conv.transEff < 19 / 20 ∧ (∀ l ∈ legs hop, 0 ≤ l.dt) ∧
    (∃ l ∈ legs hop, 0 < l.dt ∧ 0 < roadLoadKw fns conv params.toStepParams l.dt l.grade l.v0 l.v) ∧
    Hooks.KeepAux noHooks { conv with transEff := 19 / 20 } ∧
    ∃ s, simDrive fns noHooks { conv with transEff := 19 / 20 } params (Sim.new hop) none none = .ok s ∧
      MeetsTrace s := by
  exact ⟨by decide +kernel, by decide +kernel, by decide +kernel, noHooks_keepAux _, metRun_spec (by decide +kernel)⟩

/-- Fuel energy of a run from a given charge. -/
def fuelFrom (V : Veh ℚ) (soc : ℚ) (c : Cyc ℚ) : ℚ :=
  match simDrive fns noHooks V params (Sim.new c) (some soc) none with
  | .ok s => fuelKj s
  | .error _ => 0

/-- **C92 fails for hybrids.** The charge a trip leaves decides what the next one costs: a hybrid uses different
amounts of fuel for the two orders. -/
theorem C92_hybrid_order : fuelFrom hev (2 / 5) skipHop < fuelFrom hev (2 / 5) hopSkip := by
  decide +kernel

end Fastsim.Props
