import Verif.Lemmas.Microtrip
import Mathlib.Algebra.Order.Field.Rat
import Mathlib.Data.List.Infix

/-!
# C04: clipping a cycle to a time window
-/

set_option linter.unusedSectionVars false

namespace Fastsim.Props
open Fastsim Spec

variable {K : Type*} [Field K] [LinearOrder K] [IsStrictOrderedRing K]

/-- The samples of `c` inside the window. -/
def inWindow (lo hi : K) (c : Cyc K) : Cyc K := c.filter fun s => decide (lo ≤ s.t ∧ s.t ≤ hi)

/-- **C04 (result).** `clip_by_times` returns exactly the samples inside the window, in order,
with times measured from the first kept sample; it raises `IndexError` iff no sample is inside. -/
theorem C04_clip (c : Cyc K) (hi lo : K) :
    (∀ r, clipByTimes c hi lo = .ok r ↔
      inWindow lo hi c ≠ [] ∧ r = shift (-(startTime (inWindow lo hi c))) (inWindow lo hi c)) ∧
    (∀ e, clipByTimes c hi lo = .error e ↔
      (∀ s ∈ c, ¬ (lo ≤ s.t ∧ s.t ≤ hi)) ∧ e = .indexError) := by
  unfold clipByTimes
  show (∀ r, (match inWindow lo hi c with
    | [] => Except.error PyErr.indexError
    | _ => Except.ok (rebase (inWindow lo hi c))) = Except.ok r ↔ _) ∧
    (∀ e, (match inWindow lo hi c with
    | [] => Except.error PyErr.indexError
    | _ => Except.ok (rebase (inWindow lo hi c))) = Except.error e ↔ _)
  have hnil : inWindow lo hi c = [] ↔ ∀ s ∈ c, ¬ (lo ≤ s.t ∧ s.t ≤ hi) := by
    simp [inWindow, List.filter_eq_nil_iff]
  cases h : inWindow lo hi c with
  | nil => exact ⟨by simp, fun e => by
      simp only [Except.error.injEq]
      exact ⟨fun he => ⟨hnil.1 h, he.symm⟩, fun he => he.2.symm⟩⟩
  | cons a l =>
    rw [h] at hnil
    simp only [reduceCtorEq, false_iff] at hnil
    refine ⟨fun r => ?_, fun e => ?_⟩
    · simp only [Except.ok.injEq, ne_eq, reduceCtorEq, not_false_eq_true, true_and, rebase_eq, fromZero]
      exact eq_comm
    · simp only [reduceCtorEq, false_iff]
      rintro ⟨hc, _⟩
      exact hnil hc

theorem nondecreasing_window {c : Cyc K} (h : NonDecreasing c) (lo hi : K) :
    inWindow lo hi c <:+: c := by
  induction c with
  | nil => simp [inWindow]
  | cons a c ih =>
    obtain ⟨ha, hc⟩ := List.pairwise_cons.1 h
    by_cases hin : lo ≤ a.t ∧ a.t ≤ hi
    · -- everything in the window now forms a prefix
      have hpre : ∀ (c : Cyc K), NonDecreasing c → (∀ s ∈ c, a.t ≤ s.t) →
          inWindow lo hi c <+: c := by
        intro c
        induction c with
        | nil => intro _ _; simp [inWindow]
        | cons b c ih2 =>
          intro hnd hal
          obtain ⟨hb, hcc⟩ := List.pairwise_cons.1 hnd
          by_cases hbi : lo ≤ b.t ∧ b.t ≤ hi
          · have : inWindow lo hi (b :: c) = b :: inWindow lo hi c := by
              simp [inWindow, hbi]
            rw [this]
            exact List.cons_prefix_cons.2 ⟨rfl, ih2 hcc (fun s hs => hal s (by simp [hs]))⟩
          · have hgt : hi < b.t := by
              by_contra hcon
              exact hbi ⟨hin.1.trans (hal b (by simp)), not_lt.1 hcon⟩
            have : inWindow lo hi (b :: c) = [] := by
              unfold inWindow
              rw [List.filter_eq_nil_iff]
              intro s hs
              have : b.t ≤ s.t := by
                rcases List.mem_cons.1 hs with rfl | hs
                · exact le_rfl
                · exact hb s hs
              simp only [decide_eq_true_eq, not_and, not_le]
              exact fun _ => lt_of_lt_of_le hgt this
            rw [this]; exact List.nil_prefix
      have : inWindow lo hi (a :: c) = a :: inWindow lo hi c := by simp [inWindow, hin]
      rw [this]
      exact (List.cons_prefix_cons.2 ⟨rfl, hpre c hc ha⟩).isInfix
    · have : inWindow lo hi (a :: c) = inWindow lo hi c := by simp [inWindow, hin]
      rw [this]
      exact (ih hc).trans (List.suffix_cons a c).isInfix

/-- **C04 (contiguity).** With non-decreasing times the kept samples are a contiguous piece of the
cycle, so no step is merged or split: after undoing the time shift the result is an infix. -/
theorem C04_contiguous (c : Cyc K) (hi lo : K) (r : Cyc K) (hc : NonDecreasing c)
    (h : clipByTimes c hi lo = .ok r) : ∃ d, shift d r <:+: c ∧ startTime r = 0 := by
  obtain ⟨hne, rfl⟩ := ((C04_clip c hi lo).1 r).1 h
  refine ⟨startTime (inWindow lo hi c), ?_, ?_⟩
  · have : shift (startTime (inWindow lo hi c))
        (shift (-(startTime (inWindow lo hi c))) (inWindow lo hi c)) = inWindow lo hi c := by
      simp [shift, Function.comp_def]
    rw [this]
    exact nondecreasing_window hc lo hi
  · exact startTime_fromZero _

/-- **C04 (idempotence).** Clipping the result to the same window, seen from its new origin, changes
nothing. -/
theorem C04_idempotent (c : Cyc K) (hi lo : K) (r : Cyc K) (hc : NonDecreasing c)
    (h : clipByTimes c hi lo = .ok r) :
    clipByTimes r (hi - startTime (inWindow lo hi c)) 0 = .ok r := by
  obtain ⟨hne, rfl⟩ := ((C04_clip c hi lo).1 r).1 h
  set w := inWindow lo hi c with hw
  have hwnd : NonDecreasing w := hc.sublist List.filter_sublist
  have hall : inWindow 0 (hi - startTime w) (shift (-(startTime w)) w) = shift (-(startTime w)) w := by
    unfold inWindow
    rw [List.filter_eq_self]
    intro s hs
    simp only [shift, List.mem_map] at hs
    obtain ⟨x, hx, rfl⟩ := hs
    have hxhi : x.t ≤ hi := by
      have := (List.mem_filter.1 hx).2
      simp only [decide_eq_true_eq] at this
      exact this.2
    have hxlo : startTime w ≤ x.t := by
      cases hcw : w with
      | nil => exact absurd hcw hne
      | cons a l =>
        rw [hcw] at hx hwnd
        rcases List.mem_cons.1 hx with rfl | hx
        · exact le_rfl
        · exact (List.pairwise_cons.1 hwnd).1 x hx
    simp only [decide_eq_true_eq]
    exact ⟨by linarith, by linarith⟩
  rw [(C04_clip _ _ _).1, hall]
  refine ⟨by simpa [shift] using hne, ?_⟩
  have h0 : startTime (shift (-(startTime w)) w) = 0 := startTime_fromZero w
  rw [h0]
  simp [shift]

/-! Concrete cases. -/
def exClip : Cyc ℚ := [⟨0, 0, 0, 0⟩, ⟨1, 2, 0, 0⟩, ⟨3, 4, 1, 0⟩, ⟨4, 1, 0, 0⟩, ⟨7, 0, 0, 0⟩]
example : clipByTimes exClip 4 1 = .ok [⟨0, 2, 0, 0⟩, ⟨2, 4, 1, 0⟩, ⟨3, 1, 0, 0⟩] := by decide +kernel
example : clipByTimes exClip 6 5 = .error .indexError := by decide +kernel
example : NonDecreasing exClip := by unfold NonDecreasing; decide +kernel

end Fastsim.Props
