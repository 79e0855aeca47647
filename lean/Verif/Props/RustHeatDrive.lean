import Verif.Props.RustCabinDrive
import Verif.Props.RustExhaust

/-!
# C144: where the heat of the fuel goes in a thermal drive
-/

set_option linter.unusedSectionVars false

namespace Fastsim.Spec
open Fastsim

section Field
variable {K : Type*} [Field K] [LinearOrder K] [IsStrictOrderedRing K]

/-- The sum of a quantity over the steps of a drive of `n` samples. -/
def sumSteps (n : Nat) (g : Nat → K) : K := ((List.range (n - 1)).map fun i => g (i + 1)).sum

/-- What the engine burns beyond its work in row `i`. -/
def lossKw (f : Hot K) (i : Nat) : K := (f.sd.rows.getD i Row.zero).fc.fcKwInAch - (f.sd.rows.getD i Row.zero).fc.fcKwOutAch

/-- The heat recorded to leave the engine in step `i`: to the air, to the heater and with the exhaust. -/
def gaveOffKj (h f : Hot K) (i : Nat) : K :=
  match f.history[h.history.length + i]? with
  | some s => (s.fcQdotToAmbKw + s.fcQdotToHtrKw + s.exhHdotKw) * stepDt f i
  | none => 0

/-- The exhaust recorded in step `i`, in kg. -/
def exhaustKg (h f : Hot K) (i : Nat) : K :=
  match f.history[h.history.length + i]? with
  | some s => s.exhMdot * stepDt f i
  | none => 0

/-- All steps of the drive take the time `d`. -/
def EvenSteps (h f : Hot K) (d : K) : Prop := ∀ i, 0 < i → i < h.sd.cyc0.length → stepDt f i = d

end Field
end Fastsim.Spec

namespace Fastsim.Props
open Fastsim Spec

section Field
variable {K : Type*} [Field K] [LinearOrder K] [IsStrictOrderedRing K]
variable {F : Fns K} {C : HotConsts K} {T : VehThrm K} {V : Veh K} {P : SimParams K}

theorem sumSteps_congr {n : Nat} {g k : Nat → K} (h : ∀ i, 0 < i → i < n → g i = k i) : sumSteps n g = sumSteps n k := by
  unfold sumSteps
  congr 1
  refine List.map_congr_left fun i hi => ?_
  have := List.mem_range.1 hi
  exact h _ (by omega) (by omega)

theorem sumSteps_sub (n : Nat) (g k : Nat → K) : sumSteps n (fun i => g i - k i) = sumSteps n g - sumSteps n k := by
  unfold sumSteps
  induction List.range (n - 1) with
  | nil => simp
  | cons a l ih =>
    simp only [List.map_cons, List.sum_cons] at ih ⊢
    rw [ih]
    ring

theorem sumSteps_mul (n : Nat) (g : Nat → K) (c : K) : sumSteps n (fun i => g i * c) = sumSteps n g * c := by
  unfold sumSteps
  induction List.range (n - 1) with
  | nil => simp
  | cons a l ih =>
    simp only [List.map_cons, List.sum_cons] at ih ⊢
    rw [ih]
    ring

/-- Values taken a step late: the first is counted and the last is not. -/
theorem sumSteps_late {n : Nat} (hn : 0 < n) (g : Nat → K) :
    sumSteps n (fun i => g (i - 1)) + g (n - 1) = g 0 + sumSteps n g := by
  obtain ⟨m, rfl⟩ : ∃ m, n = m + 1 := ⟨n - 1, by omega⟩
  unfold sumSteps
  simp only [Nat.add_sub_cancel]
  induction m with
  | zero => simp
  | succ m ih =>
    have ih := ih (by omega)
    rw [List.range_succ, List.map_append, List.map_append, List.sum_append, List.sum_append]
    simp only [List.map_cons, List.map_nil, List.sum_cons, List.sum_nil, add_zero]
    rw [ih, add_assoc]

/-- The step of a drive with a given number. -/
theorem step_at {h f : Hot K} {soc : K} {aux : Option (List K)} (w : Walks F C T V P h soc aux f) {i : Nat} (hi : 0 < i)
    (hn : i < h.sd.cyc0.length) : ∃ s s', Steps h f i s s' := by
  obtain ⟨s, g, s', g', a, b, -⟩ := hot_at w.same w.load w.walk hi hn
  exact ⟨s, s', hi, hn, a, b⟩

/-- Before the first step nothing burns. -/
theorem first_row {h f : Hot K} {soc : K} {aux : Option (List K)} (w : Walks F C T V P h soc aux f) :
    lossKw f 0 = 0 ∧ (f.sd.rows.getD 0 Row.zero).fc.fsKwOutAch = 0 := by
  obtain ⟨-, S, G, -, -, -, -, -, -, -, -, -, -, -, -, -, -, -, r, -⟩ := hotWalk_trace w.same w.load w.walk
  unfold lossKw
  rw [r]
  exact ⟨sub_self _, rfl⟩

/-- **C144 (heat of a drive).** Over a drive with models of engine and exhaust, the heat stored in the engine and the heat recorded to
leave it to the air, the heater and the exhaust are what the engine burnt beyond its work, each row with the duration of the step
that follows it. -/
theorem C144_heat {h f : Hot K} {soc : K} {aux : Option (List K)} (w : Walks F C T V P h soc aux f) (hT : T.fcModel ≠ none)
    (hx : T.exhportInternal = true) (hc : T.fcCKjK ≠ 0) :
    T.fcCKjK * (f.state.fcTe - h.state.fcTe) + sumSteps h.sd.cyc0.length (gaveOffKj h f) =
      sumSteps h.sd.cyc0.length fun i => lossKw f (i - 1) * stepDt f i := by
  have e := telescope w Thermal.fcTe (fun i => lossKw f (i - 1) * stepDt f i - gaveOffKj h f i) T.fcCKjK fun i s s' st => by
    rw [(C105_engine w st hc).1 hT]
    have k := (C105_exhaust w st hx).2.1 hT
    have l : lossKw f (i - 1) = s'.fcQdotKw + s'.exhHdotKw := by rw [k]; rfl
    unfold gaveOffKj
    rw [st.after, l]
    ring
  have e' : T.fcCKjK * (f.state.fcTe - h.state.fcTe) =
      sumSteps h.sd.cyc0.length fun i => lossKw f (i - 1) * stepDt f i - gaveOffKj h f i := e
  rw [e', sumSteps_sub]
  ring

/-- **C144 (even steps).** With steps of one duration all the heat of the drive is accounted for, but that of the last step: it is
nowhere. -/
theorem C144_even {h f : Hot K} {soc d : K} {aux : Option (List K)} (w : Walks F C T V P h soc aux f) (hT : T.fcModel ≠ none)
    (hx : T.exhportInternal = true) (hc : T.fcCKjK ≠ 0) (hd : EvenSteps h f d) :
    T.fcCKjK * (f.state.fcTe - h.state.fcTe) + sumSteps h.sd.cyc0.length (gaveOffKj h f) +
        lossKw f (h.sd.cyc0.length - 1) * d =
      sumSteps h.sd.cyc0.length fun i => lossKw f i * stepDt f i := by
  rw [C144_heat w hT hx hc, sumSteps_congr (k := fun i => lossKw f (i - 1) * d) fun i a b => by rw [hd i a b],
    sumSteps_congr (g := fun i => lossKw f i * stepDt f i) (k := fun i => lossKw f i * d) fun i a b => by rw [hd i a b]]
  have k := sumSteps_late (hotWalk_trace w.same w.load w.walk).1 fun i => lossKw f i * d
  simp only [(first_row w).1, zero_mul, zero_add] at k
  exact k

/-- **C144 (exhaust of a drive).** With steps of one duration, the exhaust of a drive is the mass of fuel and air of all the fuel of the
drive, but that of the last step. -/
theorem C144_mass {h f : Hot K} {soc d : K} {aux : Option (List K)} (w : Walks F C T V P h soc aux f)
    (hx : T.exhportInternal = true) (hd : EvenSteps h f d) :
    sumSteps h.sd.cyc0.length (exhaustKg h f) =
      (sumSteps h.sd.cyc0.length (fun i => (f.sd.rows.getD i Row.zero).fc.fsKwOutAch * stepDt f i) -
        (f.sd.rows.getD (h.sd.cyc0.length - 1) Row.zero).fc.fsKwOutAch * d) / fuelLhv C *
        (1 + C.fuelAfrStoich * h.state.fcLambda) := by
  have lam := walk_invariant w (fun s => s.fcLambda = h.state.fcLambda) rfl fun i s s' st e => (Steps.engine w st).1.trans e
  have k := sumSteps_late (hotWalk_trace w.same w.load w.walk).1 fun i => (f.sd.rows.getD i Row.zero).fc.fsKwOutAch * d
  simp only [(first_row w).2, zero_mul, zero_add] at k
  rw [sumSteps_congr (g := fun i => (f.sd.rows.getD i Row.zero).fc.fsKwOutAch * stepDt f i)
    (k := fun i => (f.sd.rows.getD i Row.zero).fc.fsKwOutAch * d) fun i a b => by rw [hd i a b], ← k, add_sub_cancel_right,
    div_eq_mul_inv, mul_assoc, ← sumSteps_mul]
  refine sumSteps_congr fun i a b => ?_
  obtain ⟨s, s', st⟩ := step_at w a b
  have e := (C105_exhaust w st hx).1
  rw [lam (i - 1) s (by omega) st.before] at e
  unfold exhaustKg
  rw [st.after]
  show s'.exhMdot * stepDt f i = _
  rw [e, hd i a b]
  unfold lastRow
  ring

end Field

namespace HeatDemo
open Fastsim.Demo

/-- A thermal simulation of a drive of three steps of one second. -/
def evenStart : Hot ℚ :=
  { warmStart false 24 with sd := Sim.new (cyc.take 4) }

/-- Whether all steps of a drive take a second. -/
def even (f : Hot ℚ) : Bool := decide (∀ i ∈ List.range' 1 3, stepDt f i = 1)

/-- **C144 (case).** The settings of `C144_even` and `C144_mass` are met by a drive that burns fuel in its last step. -/
theorem C144_demo : ∃ f, Walks hotFns hotConsts fullCar conv params evenStart (1 / 2) none f ∧ EvenSteps evenStart f 1 ∧
    0 < lossKw f 3 ∧ 0 < sumSteps 4 (exhaustKg evenStart f) ∧
    sumSteps 4 (fun i => lossKw f i * stepDt f i) = fullCar.fcCKjK * (f.state.fcTe - evenStart.state.fcTe) +
      sumSteps 4 (gaveOffKj evenStart f) + lossKw f 3 := by
  have e : (match hotWalk hotFns hotConsts fullCar conv params evenStart (1 / 2) none with
      | .ok f => even f && decide (0 < lossKw f 3 ∧ 0 < sumSteps 4 (exhaustKg evenStart f))
      | .error _ => false) = true := by decide +kernel
  split at e
  · rename_i f w
    rw [Bool.and_eq_true, decide_eq_true_eq] at e
    obtain ⟨t, t1, t2⟩ := e
    have ws : Walks hotFns hotConsts fullCar conv params evenStart (1 / 2) none f := ⟨rfl, fun x e => (nomatch e), w⟩
    have n : evenStart.sd.cyc0.length = 4 := rfl
    have hd : EvenSteps evenStart f 1 := by
      intro i a b
      rw [n] at b
      exact of_decide_eq_true t i (List.mem_range'_1.2 ⟨a, by omega⟩)
    have k := C144_even ws (by decide) rfl (by decide +kernel) hd
    rw [n, mul_one] at k
    exact ⟨f, ws, hd, t1, t2, k.symm⟩
  · cases e

/-- **C144 (found: uneven steps).** Each row's heat is counted with the duration of the next step: in a drive with a longer step, more
heat is accounted for than was burnt. -/
theorem C144_uneven :
    (match hotWalk hotFns hotConsts fullCar conv params (warmStart false 24) (1 / 2) none with
      | .ok f => decide (sumSteps 6 (fun i => lossKw f i * stepDt f i) <
          fullCar.fcCKjK * (f.state.fcTe - (warmStart false 24).state.fcTe) + sumSteps 6 (gaveOffKj (warmStart false 24) f))
      | .error _ => false) = true := by
  decide +kernel

end HeatDemo
end Fastsim.Props
