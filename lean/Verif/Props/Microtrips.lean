import Verif.Lemmas.Microtrip
import Mathlib.Data.List.Chain
import Mathlib.Algebra.Order.Field.Rat

/-!
# C01, C02: microtrips
-/

set_option linter.unusedSectionVars false

namespace Fastsim.Props
open Fastsim Spec

variable {K : Type*} [Field K] [LinearOrder K] [IsStrictOrderedRing K]

/-- **C01.** For every cycle and every stop threshold, splitting into microtrips and
concatenating them succeeds and gives back every sample, with times measured from the first
sample of the cycle. -/
theorem C01_concat_toMicrotrips (stop : K) (c : Cyc K) :
    concat (toMicrotrips stop c) = .ok (c.map fun s => ⟨s.t - startTime c, s.v, s.g, s.r⟩) := by
  have key : (c.map fun s => (⟨s.t - startTime c, s.v, s.g, s.r⟩ : Sample K)) = fromZero c := by
    simp [fromZero, shift, sub_eq_add_neg]
  rw [key]
  have hinv : MtInv c (c.foldl (mtStep stop) { done := [], mt := [], moving := false }) := by
    have := foldl_inv (I := MtInv) (f := mtStep stop) (fun p s x h => mtInv_step stop h x)
      c [] { done := [], mt := [], moving := false } (Or.inl ⟨rfl, rfl⟩)
    simpa using this
  unfold toMicrotrips
  simp only
  split
  case isTrue h =>
    exact mtInv_close hinv (by intro h0; simp [h0] at h)
  case isFalse h =>
    have hm : (c.foldl (mtStep stop) { done := [], mt := [], moving := false }).mt = [] := by
      simpa using h
    rcases hinv with ⟨hd, hmt⟩ | ⟨_, q, l, rest, _, hmt, _⟩
    · rw [hd]; rw [hm] at hmt; subst hmt; rfl
    · simp [hm] at hmt

/-- A cycle whose clock starts at zero is reproduced literally. -/
theorem C01_concat_toMicrotrips_zero (stop : K) (c : Cyc K) (h0 : startTime c = 0) :
    concat (toMicrotrips stop c) = .ok c := by
  rw [C01_concat_toMicrotrips, h0]
  simp

/-- A concrete cycle with idle time at the start, two trips and a late clock. -/
def exC01 : Cyc ℚ :=
  [⟨5, 0, 1, 0⟩, ⟨6, 0, 2, 0⟩, ⟨7, 3, 3, 1⟩, ⟨9, 0, 4, 0⟩, ⟨10, 0, 5, 0⟩, ⟨11, 2, 6, 0⟩, ⟨12, 0, 7, 0⟩]

example : (toMicrotrips (1/1000000) exC01).length = 3 := by decide +kernel
example : startTime (exC01.map fun s => { s with t := s.t - 5 }) = 0 := by decide +kernel

/-- **C02.** Shape of the result of `to_microtrips`, for every cycle and threshold:
every microtrip is non-empty and starts at time zero; it never goes from a stopped sample
(other than its first one) to a moving one; every microtrip but the first consists of one
stopped sample followed by a moving one; consecutive microtrips share their boundary sample. -/
theorem C02_microtrip_shape (stop : K) (c : Cyc K) :
    (∀ m ∈ toMicrotrips stop c, m ≠ [] ∧ startTime m = 0) ∧
    (∀ m ∈ toMicrotrips stop c, ∀ j, 1 ≤ j → ∀ a b, m[j]? = some a → m[j+1]? = some b →
      a.v ≤ stop → b.v ≤ stop) ∧
    (∀ m ∈ (toMicrotrips stop c).tail, ∃ a b rest, m = a :: b :: rest ∧ a.v ≤ stop ∧ stop < b.v) ∧
    List.IsChain (fun m n : Cyc K => ∃ a b, m.getLast? = some a ∧ n.head? = some b ∧
      a.v = b.v ∧ a.g = b.g ∧ a.r = b.r) (toMicrotrips stop c) := by
  have hs := mtShape_foldl stop c _ (mtShape_init stop)
  set s := c.foldl (mtStep stop) { done := [], mt := [], moving := false } with hsdef
  have hdef : toMicrotrips stop c = if 0 < s.mt.length then s.done ++ [rebase s.mt] else s.done := rfl
  rw [hdef]
  by_cases h : 0 < s.mt.length
  · have hne : s.mt ≠ [] := by intro h0; simp [h0] at h
    rw [if_pos h, rebase_eq]
    refine ⟨?_, ?_, ?_, ?_⟩
    · intro m hm
      rcases List.mem_append.1 hm with hm | hm
      · exact hs.doneNonempty m hm
      · obtain rfl := List.mem_singleton.1 hm
        exact ⟨by simp [fromZero, shift, hne], startTime_fromZero _⟩
    · intro m hm
      rcases List.mem_append.1 hm with hm | hm
      · exact hs.doneNoRestart m hm
      · obtain rfl := List.mem_singleton.1 hm
        exact noRestart_shift hs.noRestart
    · intro m hm
      have key : StartsTrip stop m := by
        cases hd : s.done with
        | nil => simp [hd] at hm
        | cons a l =>
          simp only [hd, List.cons_append, List.tail_cons, List.mem_append,
            List.mem_singleton] at hm
          rcases hm with hm | rfl
          · exact hs.doneStarts m (by simpa [hd] using hm)
          · exact startsTrip_shift (hs.starts (by simp [hd]))
      obtain ⟨a, b, rest, he, h1, h2⟩ := key
      exact ⟨a, b, rest, he, h1, by simpa [Stopped] using h2⟩
    · exact chain_map_last (fun n hn => joins_shift_right hn) _ hs.doneJoins
  · rw [if_neg h]
    refine ⟨hs.doneNonempty, hs.doneNoRestart, ?_, ?_⟩
    · intro m hm
      obtain ⟨a, b, rest, he, h1, h2⟩ := hs.doneStarts m hm
      exact ⟨a, b, rest, he, h1, by simpa [Stopped] using h2⟩
    · exact (List.isChain_append.1 hs.doneJoins).1

/-- Consequence in the words of the documentation ("a start to subsequent stop plus any idle"):
inside one microtrip the vehicle never moves, stops and moves again. -/
theorem C02_single_trip (stop : K) (c : Cyc K) (m : Cyc K) (hm : m ∈ toMicrotrips stop c)
    (i j k : Nat) (hij : i < j) (hjk : j < k) (a b d : Sample K)
    (ha : m[i]? = some a) (hb : m[j]? = some b) (hd : m[k]? = some d)
    (hmove : stop < a.v) (hstop : b.v ≤ stop) : d.v ≤ stop := by
  have h := (C02_microtrip_shape stop c).2.1 m hm
  obtain ⟨n, rfl⟩ : ∃ n, k = j + 1 + n := ⟨k - (j + 1), by omega⟩
  clear hjk
  induction n generalizing d with
  | zero => exact h j (by omega) b d hb hd hstop
  | succ n ih =>
    have hlt : j + 1 + n < m.length := by
      have := (List.getElem?_eq_some_iff.1 hd).1
      omega
    exact h (j + 1 + n) (by omega) m[j + 1 + n] d (by simp [hlt]) hd
      (ih _ (by simp [hlt]))

/-- A cycle of any length is covered: the number of microtrips is zero only for the empty cycle. -/
theorem C02_nonempty (stop : K) (c : Cyc K) (h : c ≠ []) : toMicrotrips stop c ≠ [] := by
  intro h0
  have := C01_concat_toMicrotrips stop c
  rw [h0] at this
  simp only [concat, Except.ok.injEq] at this
  exact h (by simpa using this.symm)

/-- Non-vacuity for `C02_single_trip`: the second microtrip of `exC01` moves and then stops. -/
example : ∃ m ∈ toMicrotrips (1/1000000) exC01, ∃ a b d, m[1]? = some a ∧ m[2]? = some b ∧
    m[3]? = some d ∧ (1/1000000 : ℚ) < a.v ∧ b.v ≤ 1/1000000 :=
  ⟨[⟨0,0,2,0⟩, ⟨1,3,3,1⟩, ⟨3,0,4,0⟩, ⟨4,0,5,0⟩], by decide +kernel, _, _, _, rfl, rfl, rfl,
    by decide +kernel, by decide +kernel⟩

end Fastsim.Props
