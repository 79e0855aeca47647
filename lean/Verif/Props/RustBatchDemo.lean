import Verif.Props.RustBatch
import Verif.Props.RustCliDemo

/-!
# C110: a concrete case
-/

namespace Fastsim.Props
open Fastsim Fastsim.Spec Demo

/-- A simulation that can be driven, and one whose cycle has a single sample, which fails. -/
def batchCar (T : MissTols ℚ) (c : Cyc ℚ) : RsSimDrive ℚ := ⟨rsNoHooks, rocket, rsNewParams, T, 337 / 10, Sim.new c, none, Sim.new c⟩

/-- Batches of both kinds exist: two cars that go well in any order of the threads, and one in which the second fails. -/
theorem C110_demo (T : MissTols ℚ) :
    (∃ l', List.Forall₂ (OwnRun fns) [batchCar T cyc, batchCar T cyc] l' ∧
      batchParallel fns [1, 0] [batchCar T cyc, batchCar T cyc] = (l', none)) ∧
    (∃ e, FailsAlone fns (batchCar T emptyCyc) e ∧ ∃ l', batchSerial fns [batchCar T cyc, batchCar T emptyCyc] = (l', some e)) := by
  obtain ⟨t, p, hp, -⟩ := rocket_run T
  have h1 : OwnRun fns (batchCar T cyc) { batchCar T cyc with sim := t, post := some p } := ⟨t, p, hp, rfl⟩
  constructor
  · have hf := List.Forall₂.cons h1 (.cons h1 .nil)
    exact ⟨_, hf, (C110_parallel (show [1, 0].Perm (List.range 2) by decide) _).2 hf⟩
  · cases h : rsSimDrive fns rsNoHooks rocket rsNewParams T (337 / 10) (Sim.new emptyCyc) none none with
    | ok r => exact absurd h (run_single _ _ _)
    | error e =>
      have hf : FailsAlone fns (batchCar T emptyCyc) e := h
      exact ⟨e, hf, _, (C110_serial_error _ _ _).2 ⟨[_], [_], _, [], rfl, rfl, .cons h1 .nil, hf⟩⟩

end Fastsim.Props
