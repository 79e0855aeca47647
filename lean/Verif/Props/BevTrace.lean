import Verif.Props.BevTrip
import Verif.Props.FuelTrace
import Verif.Props.Motor

/-!
# C118: the charge a battery-electric vehicle draws is the sum over the legs of its trace

As C92 for the fuel of a conventional vehicle: while no limit of battery and motor is felt, each leg of a trace takes its
own charge, whatever came before. So the charge of trips adds up in any order, a trip driven `n` times takes `n` times its
charge, and it does not matter how finely a cruise is sampled.
-/

set_option linter.unusedSectionVars false

namespace Fastsim.Spec
open Fastsim
section Field
variable {K : Type*} [Field K] [LinearOrder K] [IsStrictOrderedRing K]

/-- Energy (kJ) a leg takes out of the cells of the battery: `elec` gives the electric power of the motor for its
mechanical power, `a` is the accessory load. -/
def legCellKj (F : Fns K) (V : Veh K) (P : StepParams K) (elec : K → K) (a : K) (l : Leg K) : K :=
  cellKw F V (elec (motorDutyKw F V P l.dt l.grade l.v0 l.v) + a) * l.dt

/-- Energy (kJ) a trace takes out of the cells, leg by leg. -/
def traceCellKj (F : Fns K) (V : Veh K) (P : StepParams K) (elec : K → K) (a : K) (c : Cyc K) : K :=
  ((legs c).map (legCellKj F V P elec a)).sum

/-- `elec` is an electric power for every mechanical power of the motor, with the efficiencies of its map: more than the
mechanical power when driving, less is recovered when braking, nothing for nothing. -/
structure MotorTable (V : Veh K) (elec : K → K) : Prop where
  drive : ∀ m, 0 < m → ∃ e ∈ V.mcFullEffArray.tail, elec m * e = m
  brake : ∀ m, m < 0 → ∃ e ∈ V.mcFullEffArray.tail, elec m = m * e
  rest : elec 0 = 0

end Field
end Fastsim.Spec

namespace Fastsim.Props
open Fastsim Spec

section Field
variable {K : Type*} [Field K] [LinearOrder K] [IsStrictOrderedRing K]
variable {F : Fns K} {H : Hooks K} {V : Veh K} {P : SimParams K}

theorem motorTable (hM : MotorOk V) : MotorTable V (mcElecKwInAch V) := by
  refine ⟨fun m hp => ?_, fun m hn => ?_, by unfold mcElecKwInAch; rw [if_pos rfl]⟩
  · unfold mcElecKwInAch
    rw [if_neg hp.ne', if_neg (not_lt.2 hp.le)]
    split
    · exact ⟨_, hM.last_mem, div_mul_cancel₀ _ (hM.pos _ hM.last_mem).ne'⟩
    · exact ⟨_, hM.out_mem _, div_mul_cancel₀ _ (hM.pos _ (hM.out_mem _)).ne'⟩
  · unfold mcElecKwInAch
    rw [if_neg hn.ne, if_pos hn]
    split
    · exact ⟨_, hM.last_mem, rfl⟩
    · exact ⟨_, hM.in_mem _, rfl⟩

/-- Charge drawn up to an index of a run in which no limit is felt. -/
theorem leg_charge (hc : P.coastAllow = false) (hd : P.idmAllow = false) (hm : P.missedTrace = false) (hV : BevData V)
    (hH : H.Local) (hA : Hooks.KeepAux H V) {c : Cyc K} {init : Option K} {s : Sim K}
    (h : simDrive F H V P (Sim.new c) init none = .ok s) (hu : Unlimited V s) :
    s.rows.length = c.length ∧ 0 < c.length ∧ ∀ k, k < c.length →
      ((s.row 0).dec.soc - (s.row k).dec.soc) * V.essMaxKwh * 3600 =
        ∑ i ∈ Finset.range k, legCellKj F V P.toStepParams (mcElecKwInAch V) V.auxKw
          ⟨dtAt c (i + 1), c.speeds.getD i 0, c.speeds.getD (i + 1) 0, c.grades.getD (i + 1) 0⟩ := by
  have hk := simDrive_keeps hH (s := Sim.new c) rfl h
  have hcyc : s.cyc = c := hk.cyc (by unfold Resets; simp [hc, hd, hm])
  have hcyc0 : s.cyc0 = c := hk.cyc0
  have fin := Finished.simDrive hH (s := Sim.new c) rfl h
  have hlen := fin.lenRows hH
  obtain ⟨-, -, soc, -, t0⟩ := Reachable.inv hH fin.reachable
  have r0 : s.row 0 = Row.init V soc (s.cyc0.speeds.getD 0 0) (s.aux.getD 0 0) := by
    rw [Sim.row, List.getD_eq_getElem?_getD, t0]; rfl
  have hown : ownAux V = V.auxKw := by unfold ownAux; rw [hV.aux]; rfl
  have haux : ∀ i, 1 ≤ i → i < c.length → s.aux[i]? = some V.auxKw := by
    intro i h1 h2
    have := (C33_load hH hA (s := Sim.new c) rfl h).2 i
    rw [this, ← hown]
    unfold loadAt
    rw [if_pos]
    refine ⟨h1, by rw [show (Sim.new c).cyc0 = c from rfl]; simpa [prescribed] using h2, fun j _ x hx => ?_⟩
    have := List.mem_of_getElem? hx
    exact List.eq_of_mem_replicate this
  have hgrade : ∀ i, recordedGrade s i = c.grades.getD i 0 := by
    intro i
    unfold recordedGrade
    rw [hcyc, hcyc0]
    split
    · rename_i hz
      rw [List.getD_eq_getElem?_getD]
      cases hx : c.grades[i]? with
      | none => rfl
      | some g =>
        have := List.all_eq_true.1 hz g (List.mem_of_getElem? hx)
        exact (of_decide_eq_true this).symm
    · rfl
  have speed : ∀ i, i < c.length → (s.row i).ach.mpsAch = c.speeds.getD i 0 := by
    intro i hi
    rcases Nat.eq_zero_or_pos i with rfl | hpos
    · rw [r0, hcyc0]; rfl
    · obtain ⟨p, r, dt, a, hs⟩ := stepAt_exists hH fin.reachable hpos (by rw [fin.atEnd, hcyc]; exact hi)
      have e1 : s.row i = r := by rw [Sim.row, List.getD_eq_getElem?_getD, hs.row]; rfl
      rw [e1, (hu.met _ _ _ _ _ hs).1, askedMps, hcyc]
  refine ⟨by rw [hlen, hcyc], by have := fin.pos hH; rwa [hcyc] at this, fun k => ?_⟩
  induction k with
  | zero => intro _; simp
  | succ i ih =>
    intro hi
    obtain ⟨p, r, dt, a, hs⟩ := stepAt_exists hH fin.reachable (i := i + 1) (by omega)
      (by rw [fin.atEnd, hcyc]; omega)
    have e1 : s.row (i + 1) = r := by rw [Sim.row, List.getD_eq_getElem?_getD, hs.row]; rfl
    have e3 : s.row i = p := by
      have := hs.prev
      rw [Nat.add_sub_cancel] at this
      rw [Sim.row, List.getD_eq_getElem?_getD, this]; rfl
    have ea : a = V.auxKw := by
      have := hs.aux
      rw [haux _ (by omega) (by omega)] at this
      exact (Option.some.inj this).symm
    have edt : dt = dtAt c (i + 1) := by rw [hs.dt, hcyc]
    obtain ⟨w1, w2, w3⟩ := C91_motor_duty hH hc hd hm hV fin.reachable hu hs
    have cs := cell_step hH hV fin.reachable hs
    rw [w2, w3, w1, hgrade, ea, edt, ← e1, ← e3, speed _ (by omega), speed _ (by omega)] at cs
    rw [Finset.sum_range_succ, ← ih (by omega)]
    unfold legCellKj
    rw [← cs]
    ring

/-- **C118 (charge is a sum over legs).** There is one table of electric powers for the motor, with the efficiencies of its
map, such that every run of a battery-electric vehicle in which no limit is felt has taken out of its battery, at every
sample, the sum over the legs driven so far of what motor and accessories need in that leg. The starting charge, the hooks
and the samples before a leg play no part. -/
theorem C118_charge (hc : P.coastAllow = false) (hd : P.idmAllow = false) (hm : P.missedTrace = false)
    (hV : BevData V) :
    ∃ elec : K → K, (MotorOk V → MotorTable V elec) ∧
      ∀ (H : Hooks K) (c : Cyc K) (init : Option K) (s : Sim K), H.Local → Hooks.KeepAux H V →
        simDrive F H V P (Sim.new c) init none = .ok s → Unlimited V s →
        essDischgKj V s = traceCellKj F V P.toStepParams elec V.auxKw c ∧
        ∀ k, k < c.length → ((s.row 0).dec.soc - (s.row k).dec.soc) * V.essMaxKwh * 3600 =
          traceCellKj F V P.toStepParams elec V.auxKw (c.take (k + 1)) := by
  refine ⟨mcElecKwInAch V, motorTable, fun H c init s hH hA h hu => ?_⟩
  obtain ⟨hlen, hpos, hl⟩ := leg_charge hc hd hm hV hH hA h hu
  have part : ∀ k, k < c.length → ((s.row 0).dec.soc - (s.row k).dec.soc) * V.essMaxKwh * 3600 =
      traceCellKj F V P.toStepParams (mcElecKwInAch V) V.auxKw (c.take (k + 1)) := by
    intro k hk
    rw [hl k hk]
    unfold traceCellKj
    rw [legs_sum, List.length_take, Nat.min_eq_left (by omega), Nat.add_sub_cancel]
    refine Finset.sum_congr rfl fun i hi => ?_
    have hi' := Finset.mem_range.1 hi
    have g : ∀ (l : List K) (j : Nat), j < k + 1 → (l.take (k + 1)).getD j 0 = l.getD j 0 := by
      intro l j hj
      rw [List.getD_eq_getElem?_getD, List.getElem?_take_of_lt hj, List.getD_eq_getElem?_getD]
    have gt : (Cyc.times (c.take (k + 1))) = c.times.take (k + 1) := by unfold Cyc.times; rw [List.map_take]
    have gv : (Cyc.speeds (c.take (k + 1))) = c.speeds.take (k + 1) := by unfold Cyc.speeds; rw [List.map_take]
    have gg : (Cyc.grades (c.take (k + 1))) = c.grades.take (k + 1) := by unfold Cyc.grades; rw [List.map_take]
    have gd : dtAt (c.take (k + 1)) (i + 1) = dtAt c (i + 1) := by
      unfold dtAt
      rw [gt]
      simp [g, hi', Nat.lt_succ_of_lt hi']
    rw [gd, gv, gg, g _ _ (by omega), g _ _ (by omega), g _ _ (by omega)]
  refine ⟨?_, part⟩
  have := part (c.length - 1) (by omega)
  rw [Nat.sub_add_cancel hpos, List.take_length] at this
  rw [← this]
  unfold essDischgKj
  have last : s.lastRow = s.row (c.length - 1) := by
    unfold Sim.lastRow Sim.row
    rw [List.getLast?_eq_getElem?, hlen, List.getD_eq_getElem?_getD]
  rw [last, show s.firstRow = s.row 0 from rfl]
  ring

/-- At constant speed a leg takes charge in proportion to its duration. -/
theorem cruise_cell (elec : K → K) (a dt v g : K) :
    legCellKj F V P.toStepParams elec a ⟨dt, v, v, g⟩ = legCellKj F V P.toStepParams elec a ⟨1, v, v, g⟩ * dt := by
  have : ∀ d, roadLoadKw F V P.toStepParams d g v v = roadLoadKw F V P.toStepParams 1 g v v := by
    intro d
    unfold roadLoadKw kineticKw
    simp
  unfold legCellKj motorDutyKw
  simp only
  rw [this dt]
  ring

/-- **C118 (sampling of a cruise).** A further sample inside a stretch of constant speed and grade does not change the
charge a trip takes. -/
theorem C118_cruise (hc : P.coastAllow = false) (hd : P.idmAllow = false) (hm : P.missedTrace = false)
    (hV : BevData V) (hH : H.Local) (hA : Hooks.KeepAux H V)
    {l r : Cyc K} {x y z : Sample K} (hx : x.v = y.v) (hz : z.v = y.v) (hg : z.g = y.g) {init init' : Option K}
    {s s' : Sim K} (h : simDrive F H V P (Sim.new (l ++ x :: y :: r)) init none = .ok s)
    (h' : simDrive F H V P (Sim.new (l ++ x :: z :: y :: r)) init' none = .ok s') (hu : Unlimited V s)
    (hu' : Unlimited V s') : essDischgKj V s' = essDischgKj V s := by
  obtain ⟨elec, -, hR⟩ := C118_charge (F := F) hc hd hm hV
  rw [(hR H _ _ _ hH hA h hu).1, (hR H _ _ _ hH hA h' hu').1]
  unfold traceCellKj
  rw [legs_append l x (z :: y :: r), legs_append l x (y :: r)]
  simp only [legs, List.map_append, List.map_cons, List.sum_append, List.sum_cons]
  rw [hx, hz, hg, cruise_cell _ _ (z.t - x.t), cruise_cell _ _ (y.t - z.t), cruise_cell _ _ (y.t - x.t)]
  ring

/-- **C118 (trips add up).** If trips, each beginning at time zero with the speed its predecessor ended at, are joined by
`concat`, the charge of the joined trip is the sum of the charges of the trips, whatever the charge each starts with. -/
theorem C118_trips (hc : P.coastAllow = false) (hd : P.idmAllow = false) (hm : P.missedTrace = false)
    (hV : BevData V) (hH : H.Local) (hA : Hooks.KeepAux H V)
    {c : Cyc K} {cs : List (Cyc K)} {all : Cyc K} (hall : concat (c :: cs) = .ok all)
    (h0 : ∀ d ∈ cs, startTime d = 0) (hv : SpeedsMeet c cs) {init : Option K} {s : Sim K}
    (h : simDrive F H V P (Sim.new all) init none = .ok s) (hu : Unlimited V s) (init' : Cyc K → Option K)
    (run : Cyc K → Sim K)
    (hrun : ∀ d ∈ c :: cs, simDrive F H V P (Sim.new d) (init' d) none = .ok (run d) ∧ Unlimited V (run d)) :
    essDischgKj V s = ((c :: cs).map fun d => essDischgKj V (run d)).sum := by
  obtain ⟨elec, -, hR⟩ := C118_charge (F := F) hc hd hm hV
  rw [(hR H _ _ _ hH hA h hu).1]
  have hl := legs_concatFrom cs c c all hall h0 hv rfl
  have hmap : ((c :: cs).map fun d => essDischgKj V (run d)) =
      (c :: cs).map (traceCellKj F V P.toStepParams elec V.auxKw) := by
    apply List.map_congr_left
    intro d hd'
    exact (hR H _ _ _ hH hA (hrun d hd').1 (hrun d hd').2).1
  rw [hmap]
  unfold traceCellKj
  rw [hl]
  simp only [List.map_append, List.sum_append, List.map_cons, List.sum_cons, List.map_flatten, List.sum_flatten,
    List.map_map, Function.comp_def]

/-- Legs of trips between standstills. -/
theorem legs_concat_standing (ds : List (Cyc K)) (a : Cyc K) (h1 : ∀ d ∈ ds, d ≠ [])
    (h2 : ∀ d ∈ ds, startTime d = 0) (h3 : ∀ d ∈ ds, StandingEnds d) (h4 : concat ds = .ok a) :
    legs a = (ds.map legs).flatten := by
  have meet : ∀ (ds : List (Cyc K)) (c : Cyc K), (∀ d ∈ c :: ds, d ≠ []) → (∀ d ∈ c :: ds, StandingEnds d) →
      SpeedsMeet c ds := by
    intro ds
    induction ds with
    | nil => intro c _ _; trivial
    | cons d ds ih =>
      intro c h1 h2
      refine ⟨?_, ih d (fun e he => h1 e (List.mem_cons_of_mem _ he)) (fun e he => h2 e (List.mem_cons_of_mem _ he))⟩
      have hc' := h1 c (by simp)
      have hd' := h1 d (by simp)
      refine ⟨c.getLast hc', d.head hd', List.getLast?_eq_some_getLast hc', List.head?_eq_some_head hd', ?_⟩
      rw [(h2 c (by simp)).2 _ (List.getLast?_eq_some_getLast hc'), (h2 d (by simp)).1 _ (List.head?_eq_some_head hd')]
  cases ds with
  | nil => simp only [concat, Except.ok.injEq] at h4; simp [← h4, legs]
  | cons d ds =>
    have := legs_concatFrom ds d d a h4 (fun e he => h2 e (by simp [he])) (meet ds d h1 h3) rfl
    rw [this]; rfl

/-- **C118 (order of trips).** Trips between standstills can be driven in any order: the charge is the same. -/
theorem C118_order (hc : P.coastAllow = false) (hd : P.idmAllow = false) (hm : P.missedTrace = false)
    (hV : BevData V) (hH : H.Local) (hA : Hooks.KeepAux H V)
    {cs cs' : List (Cyc K)} (hp : cs.Perm cs') (hne : ∀ d ∈ cs, d ≠ []) (h0 : ∀ d ∈ cs, startTime d = 0)
    (hst : ∀ d ∈ cs, StandingEnds d) {all all' : Cyc K} (hall : concat cs = .ok all)
    (hall' : concat cs' = .ok all') {init init' : Option K} {s s' : Sim K}
    (h : simDrive F H V P (Sim.new all) init none = .ok s) (h' : simDrive F H V P (Sim.new all') init' none = .ok s')
    (hu : Unlimited V s) (hu' : Unlimited V s') : essDischgKj V s' = essDischgKj V s := by
  obtain ⟨elec, -, hR⟩ := C118_charge (F := F) hc hd hm hV
  rw [(hR H _ _ _ hH hA h hu).1, (hR H _ _ _ hH hA h' hu').1]
  unfold traceCellKj
  rw [legs_concat_standing cs all hne h0 hst hall, legs_concat_standing cs' all' (fun d hd' => hne d (hp.mem_iff.2 hd'))
    (fun d hd' => h0 d (hp.mem_iff.2 hd')) (fun d hd' => hst d (hp.mem_iff.2 hd')) hall']
  exact ((((hp.map legs).flatten).map _).sum_eq).symm

/-- **C118 (the same trip again and again).** A trip between standstills driven `n` times takes `n` times the charge of
the single trip: the number of trips a charge suffices for can be told from one of them. -/
theorem C118_repeat (hc : P.coastAllow = false) (hd : P.idmAllow = false) (hm : P.missedTrace = false)
    (hV : BevData V) (hH : H.Local) (hA : Hooks.KeepAux H V)
    {c : Cyc K} {n : Nat} (hne : c ≠ []) (h0 : startTime c = 0) (hst : StandingEnds c) {all : Cyc K}
    (hall : concat (List.replicate n c) = .ok all) {init init' : Option K} {s s' : Sim K}
    (h : simDrive F H V P (Sim.new c) init none = .ok s) (h' : simDrive F H V P (Sim.new all) init' none = .ok s')
    (hu : Unlimited V s) (hu' : Unlimited V s') :
    essDischgKj V s' = n * essDischgKj V s ∧
    (s'.row 0).dec.soc - (s'.row (all.length - 1)).dec.soc =
      n * ((s.row 0).dec.soc - (s.row (c.length - 1)).dec.soc) := by
  obtain ⟨elec, -, hR⟩ := C118_charge (F := F) hc hd hm hV
  obtain ⟨a1, a2⟩ := hR H _ _ _ hH hA h hu
  obtain ⟨b1, b2⟩ := hR H _ _ _ hH hA h' hu'
  have p1 := (leg_charge hc hd hm hV hH hA h hu).2.1
  have p2 := (leg_charge hc hd hm hV hH hA h' hu').2.1
  have tot : traceCellKj F V P.toStepParams elec V.auxKw all = n * traceCellKj F V P.toStepParams elec V.auxKw c := by
    unfold traceCellKj
    rw [legs_concat_standing _ all (fun d hd' => by rw [List.eq_of_mem_replicate hd']; exact hne)
      (fun d hd' => by rw [List.eq_of_mem_replicate hd']; exact h0)
      (fun d hd' => by rw [List.eq_of_mem_replicate hd']; exact hst) hall]
    rw [List.map_replicate, List.map_flatten, List.sum_flatten, List.map_replicate, List.map_replicate,
      List.sum_replicate, nsmul_eq_mul]
  refine ⟨by rw [a1, b1, tot], ?_⟩
  have e1 := a2 (c.length - 1) (by omega)
  have e2 := b2 (all.length - 1) (by omega)
  rw [Nat.sub_add_cancel p1, List.take_length] at e1
  rw [Nat.sub_add_cancel p2, List.take_length, tot, ← e1] at e2
  have hcap : V.essMaxKwh * 3600 ≠ 0 := (mul_pos hV.capacity (by norm_num)).ne'
  apply mul_right_cancel₀ hcap
  rw [← mul_assoc, e2]
  ring

end Field

/-! ### Concrete cases -/

open Demo

/-- Twice the same trip. -/
def hopHop : Cyc ℚ := hop ++ [⟨10, 3, 0, 0⟩, ⟨13, 3, 1 / 50, 0⟩, ⟨16, 0, 0, 0⟩]

/-- The battery-electric demo car meets the hypotheses on these trips; charge is taken on each of them, and the motor
brakes. -/
theorem C118_demo : BevData bev ∧ MotorOk bev ∧ noHooks.Local ∧ Hooks.KeepAux noHooks bev ∧
    concat [hop, skip] = .ok hopSkip ∧ concat [skip, hop] = .ok skipHop ∧ SpeedsMeet hop [skip] ∧
    concat (List.replicate 2 hop) = .ok hopHop ∧
    startTime hop = 0 ∧ startTime skip = 0 ∧ StandingEnds hop ∧ StandingEnds skip ∧
    ∀ c ∈ [hop, hopFine, skip, hopSkip, skipHop, hopHop],
      ∃ s, simDrive fns noHooks bev params (Sim.new c) (some (3 / 5)) none = .ok s ∧ Unlimited bev s ∧
        0 < essDischgKj bev s ∧ ∃ r ∈ s.rows, r.dec.mcElecKwInAch < 0 := by
  refine ⟨C91_demo.1, ⟨by decide, by decide, by decide, by decide +kernel, by decide +kernel⟩, noHooks_local,
    noHooks_keepAux bev, by decide +kernel, by decide +kernel, ⟨⟨⟨8, 0, 0, 0⟩, ⟨0, 0, 1 / 10, 0⟩, rfl, rfl, rfl⟩, trivial⟩,
    by decide +kernel, rfl, rfl, ⟨by decide +kernel, by decide +kernel⟩, ⟨by decide +kernel, by decide +kernel⟩, ?_⟩
  have key : ∀ c ∈ [hop, hopFine, skip, hopSkip, skipHop, hopHop],
      (match simDrive fns noHooks bev params (Sim.new c) (some (3 / 5)) none with
        | .ok s => bevRunOk c s && decide (0 < essDischgKj bev s) &&
            s.rows.any fun r => decide (r.dec.mcElecKwInAch < 0)
        | .error _ => false) = true := by
    decide +kernel
  intro c hc
  have := key c hc
  split at this
  · rename_i s hs
    rw [Bool.and_eq_true, Bool.and_eq_true, decide_eq_true_eq, List.any_eq_true] at this
    obtain ⟨⟨h1, h2⟩, r, hr, h3⟩ := this
    exact ⟨s, hs, (bevRunOk_spec h1).2.2.2.2, h2, r, hr, of_decide_eq_true h3⟩
  · simp at this

/-- Charge of a trip from a given state of charge. -/
def cellsFrom (soc : ℚ) (c : Cyc ℚ) : ℚ :=
  match simDrive fns noHooks bev params (Sim.new c) (some soc) none with
  | .ok s => essDischgKj bev s
  | .error _ => 0

/-- A trip down a hill. -/
def downHill : Cyc ℚ := [⟨0, 0, 0, 0⟩, ⟨2, 3, -1 / 2, 0⟩, ⟨20, 5, -1 / 2, 0⟩, ⟨28, 0, 0, 0⟩]

/-- A trip up a hill. -/
def upHill : Cyc ℚ := [⟨0, 0, 0, 0⟩, ⟨2, 3, 1 / 10, 0⟩, ⟨5, 3, 1 / 5, 0⟩, ⟨8, 0, 0, 0⟩]

/-- **C118 needs the limits.** With a full battery at the top of a hill it is better to go up first: the other order
takes more charge, since the battery has no room for what braking downhill gives. With room in the battery the orders cost
the same. -/
theorem C118_full_battery :
    (match concat [downHill, upHill], concat [upHill, downHill] with
      | .ok du, .ok ud => decide (cellsFrom (19 / 20) ud < cellsFrom (19 / 20) du ∧
          cellsFrom (3 / 5) ud = cellsFrom (3 / 5) du)
      | _, _ => false) = true := by
  decide +kernel

end Fastsim.Props
