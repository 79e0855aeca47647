import Verif.Model.Log
import Mathlib.Tactic.Linarith

/-!
# C42: log levels
-/

namespace Fastsim.Spec
end Fastsim.Spec

namespace Fastsim.Props
open Fastsim Spec

/-- The levels the documentation lists, and the one that means "nothing". -/
def _root_.Fastsim.Spec.KnownLevel (n : Int) : Prop :=
  n = 0 ∨ n = 10 ∨ n = 20 ∨ n = 30 ∨ n = 40 ∨ n = 50 ∨ n = 51

theorem known_iff (n : Int) : n ∈ allowedArgs.map Prod.snd ↔ KnownLevel n := by
  simp [allowedArgs, KnownLevel]; tauto

/-- A known number sets both loggers and returns the old level of the first; any other is refused and nothing
changes. -/
theorem C42_set_number (n : Int) (st : LogState) :
    (KnownLevel n ∧ setLogLevel (.int n) st = .ok (st.fs, ⟨n, n, st.root⟩)) ∨
    (¬ KnownLevel n ∧ setLogLevel (.int n) st = .error .assertionError) := by
  by_cases h : KnownLevel n
  · left; refine ⟨h, ?_⟩
    have := (known_iff n).2 h
    simp only [setLogLevel, levelNumber, if_pos this]
  · right; refine ⟨h, ?_⟩
    have := fun h' => h ((known_iff n).1 h')
    simp only [setLogLevel, levelNumber, if_neg this]

/-- Each documented name, in any mixture of upper and lower case, means its number. -/
theorem C42_set_name (s : String) (st : LogState) :
    (s.toUpper = "CRITICAL" → setLogLevel (.str s) st = .ok (st.fs, ⟨50, 50, st.root⟩)) ∧
    (s.toUpper = "ERROR" → setLogLevel (.str s) st = .ok (st.fs, ⟨40, 40, st.root⟩)) ∧
    (s.toUpper = "WARNING" → setLogLevel (.str s) st = .ok (st.fs, ⟨30, 30, st.root⟩)) ∧
    (s.toUpper = "INFO" → setLogLevel (.str s) st = .ok (st.fs, ⟨20, 20, st.root⟩)) ∧
    (s.toUpper = "DEBUG" → setLogLevel (.str s) st = .ok (st.fs, ⟨10, 10, st.root⟩)) ∧
    (s.toUpper = "NOTSET" → setLogLevel (.str s) st = .ok (st.fs, ⟨0, 0, st.root⟩)) := by
  refine ⟨?_, ?_, ?_, ?_, ?_, ?_⟩ <;>
  · intro h
    simp only [setLogLevel, levelNumber, h]
    rfl

/-- Disagreement: the name `NONE` passes the check and then raises `KeyError`; `WARN` and `FATAL`, which the
standard library knows, are refused. -/
theorem C42_name_none (s : String) (st : LogState) :
    (s.toUpper = "NONE" → setLogLevel (.str s) st = .error .keyError) ∧
    (s.toUpper = "WARN" ∨ s.toUpper = "FATAL" → setLogLevel (.str s) st = .error .assertionError) := by
  refine ⟨fun h => ?_, fun h => ?_⟩
  · simp only [setLogLevel, levelNumber, h]; rfl
  · rcases h with h | h <;> (simp only [setLogLevel, levelNumber, h]; rfl)

theorem demo_name : (match setLogLevel (.str "Debug") ⟨30, 30, 30⟩ with
    | .ok r => decide (r = (30, ⟨10, 10, 30⟩)) | .error _ => false) = true := by decide +kernel

theorem disable_eq (st : LogState) : disableLogging st = .ok (st.fs, ⟨51, 51, st.root⟩) := by
  rcases C42_set_number 51 st with ⟨_, h⟩ | ⟨h, _⟩
  · exact h
  · exact absurd (by unfold KnownLevel; omega) h

theorem enable_known {n : Int} (h : KnownLevel n) (st : LogState) :
    enableLogging (some (.int n)) st = .ok ⟨n, n, st.root⟩ := by
  rcases C42_set_number n st with ⟨_, h'⟩ | ⟨h', _⟩
  · show (setLogLevel (.int n) st >>= _) = _
    rw [h']; rfl
  · exact absurd h h'

/-- `enable_logging()` without a level means `WARNING`. -/
theorem C42_enable_default (st : LogState) : enableLogging none st = .ok ⟨30, 30, st.root⟩ := by
  have := enable_known (n := 30) (by unfold KnownLevel; omega) st
  exact this

/-- No code changes the root logger's level. -/
theorem run_root : ∀ (p : LogProg) (st : LogState), (p.run st).st.root = st.root := by
  intro p
  induction p with
  | skip => intro st; rfl
  | seq p q ihp ihq =>
    intro st
    simp only [LogProg.run]
    split
    · exact ihp st
    · simp only; rw [ihq, ihp]
  | log core level => intro st; rfl
  | setLevel a =>
    intro st
    simp only [LogProg.run]
    split
    · rename_i r h
      simp only [setLogLevel] at h
      split at h
      · cases h
      · cases h; rfl
    · rfl
  | direct core n => intro st; simp only [LogProg.run]; cases core <;> rfl
  | throw e => intro st; rfl
  | catching p q ihp ihq =>
    intro st
    simp only [LogProg.run]
    split
    · exact ihp st
    · simp only; rw [ihq, ihp]
  | suppress p ih =>
    intro st
    simp only [LogProg.run, disable_eq]
    split
    · rename_i st2 h
      rcases C42_set_number st.fs (p.run ⟨51, 51, st.root⟩).st with ⟨_, h'⟩ | ⟨_, h'⟩
      · have h2 : (setLogLevel (.int st.fs) (p.run ⟨51, 51, st.root⟩).st >>= fun r => .ok r.2) = .ok st2 := h
        rw [h'] at h2; cases h2; exact ih _
      · have h2 : (setLogLevel (.int st.fs) (p.run ⟨51, 51, st.root⟩).st >>= fun r => .ok r.2) = .ok st2 := h
        rw [h'] at h2; cases h2
    · exact ih _

/-- Whatever the body does (nested suppressions, level changes, exceptions), after the block the level of
`fastsim` is what it was, if that was a known level; the body starts with both loggers off and its exception, if
any, is passed on unchanged. -/
theorem C42_restored (p : LogProg) (st : LogState) (h : KnownLevel st.fs) :
    ((LogProg.suppress p).run st).st = ⟨st.fs, st.fs, st.root⟩ ∧
    ((LogProg.suppress p).run st).exc = (p.run ⟨51, 51, st.root⟩).exc ∧
    ((LogProg.suppress p).run st).shown = (p.run ⟨51, 51, st.root⟩).shown := by
  simp only [LogProg.run, disable_eq, enable_known h]
  rw [run_root]
  exact ⟨rfl, trivial, trivial⟩

/-- Code that never sets a level itself. -/
def _root_.Fastsim.Spec.LeavesLevels : LogProg → Prop
  | .setLevel _ => False
  | .direct _ _ => False
  | .seq p q => Fastsim.Spec.LeavesLevels p ∧ Fastsim.Spec.LeavesLevels q
  | .catching p q => Fastsim.Spec.LeavesLevels p ∧ Fastsim.Spec.LeavesLevels q
  | .suppress p => Fastsim.Spec.LeavesLevels p
  | _ => True

/-- Code that leaves levels alone runs with both loggers off if they were off, shows no message up to
`CRITICAL`, and leaves them off. -/
theorem quiet (p : LogProg) (hp : LeavesLevels p) (root : Int) :
    (p.run ⟨51, 51, root⟩).st = ⟨51, 51, root⟩ ∧ ∀ m ∈ (p.run ⟨51, 51, root⟩).shown, 50 < m := by
  induction p with
  | skip => exact ⟨rfl, by simp [LogProg.run]⟩
  | seq p q ihp ihq =>
    obtain ⟨h1, h2⟩ := ihp hp.1
    obtain ⟨h3, h4⟩ := ihq hp.2
    simp only [LogProg.run]
    split
    · exact ⟨h1, h2⟩
    · simp only [h1]
      refine ⟨h3, fun m hm => ?_⟩
      rcases List.mem_append.1 hm with hm | hm
      · exact h2 m hm
      · exact h4 m hm
  | log core level =>
    refine ⟨rfl, fun m hm => ?_⟩
    simp only [LogProg.run, LogState.enabled, ite_self] at hm
    simp at hm
    omega
  | setLevel a => exact hp.elim
  | direct c n => exact hp.elim
  | throw e => exact ⟨rfl, by simp [LogProg.run]⟩
  | catching p q ihp ihq =>
    obtain ⟨h1, h2⟩ := ihp hp.1
    obtain ⟨h3, h4⟩ := ihq hp.2
    simp only [LogProg.run]
    split
    · exact ⟨h1, h2⟩
    · simp only [h1]
      refine ⟨h3, fun m hm => ?_⟩
      rcases List.mem_append.1 hm with hm | hm
      · exact h2 m hm
      · exact h4 m hm
  | suppress p ih =>
    have h := C42_restored p ⟨51, 51, root⟩ (by unfold KnownLevel; simp)
    refine ⟨h.1, ?_⟩
    rw [h.2.2]
    exact (ih hp).2

/-- A suppressed block that leaves levels alone shows no message up to `CRITICAL`, however it is nested and
whatever the level outside. -/
theorem C42_silent (p : LogProg) (hp : LeavesLevels p) (st : LogState) :
    ∀ m ∈ ((LogProg.suppress p).run st).shown, 50 < m := by
  have h := (quiet p hp st.root).2
  simp only [LogProg.run, disable_eq]
  split <;> exact h

/-- Without a suppressed block the same code shows a warning at the default level: silence is due to the block. -/
theorem C42_heard (root : Int) (core : Bool) :
    ((LogProg.log core 30).run ⟨30, 30, root⟩).shown = [30] := by
  cases core <;> rfl

/-- Two nested suppressions with an error in the inner one, caught between them. -/
def _root_.Fastsim.Spec.nested : LogProg :=
  .suppress (.seq (.catching (.suppress (.seq (.log false 40) (.throw .valueError))) .skip) (.log true 50))

theorem demo_nested : (nested.run ⟨20, 20, 30⟩).st = ⟨20, 20, 30⟩ ∧ (nested.run ⟨20, 20, 30⟩).shown = [] ∧
    (nested.run ⟨20, 20, 30⟩).exc = none ∧ LeavesLevels nested := by
  refine ⟨by decide +kernel, by decide +kernel, by decide +kernel, ?_⟩
  simp [nested, LeavesLevels]

/-- Disagreement: if the level outside is not a known one (for example 15, set with the standard library), restoring it
raises `AssertionError`, which hides an exception of the body, and the loggers keep the levels of the body: off,
if the body does not set them. -/
theorem C42_not_restored (p : LogProg) (st : LogState) (h : ¬ KnownLevel st.fs) :
    ((LogProg.suppress p).run st).exc = some .assertionError ∧
    (LeavesLevels p → ((LogProg.suppress p).run st).st = ⟨51, 51, st.root⟩) := by
  have he : ∀ st', enableLogging (some (.int st.fs)) st' = .error .assertionError := by
    intro st'
    rcases C42_set_number st.fs st' with ⟨h', _⟩ | ⟨_, h'⟩
    · exact absurd h' h
    · show (setLogLevel (.int st.fs) st' >>= _) = _
      rw [h']; rfl
  simp only [LogProg.run, disable_eq, he]
  exact ⟨trivial, fun hp => (quiet p hp st.root).1⟩

theorem demo_not_known : ¬ KnownLevel 15 := by unfold KnownLevel; omega

/-- Disagreement: the level of `fastsim_core` is not restored but set to that of `fastsim`. -/
theorem C42_core_not_restored (p : LogProg) (st : LogState) (h : KnownLevel st.fs) (hne : st.core ≠ st.fs) :
    ((LogProg.suppress p).run st).st.core ≠ st.core := by
  rw [(C42_restored p st h).1]; exact Ne.symm hne

theorem demo_core : KnownLevel (⟨30, 10, 30⟩ : LogState).fs ∧ (10 : Int) ≠ 30 := by
  unfold KnownLevel; decide

end Fastsim.Props
