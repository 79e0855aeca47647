import Verif.Lemmas.Microtrip
import Mathlib.Algebra.Order.Field.Rat

/-!
# C03: concatenation
-/

set_option linter.unusedSectionVars false
set_option linter.unusedVariables false

namespace Fastsim.Props
open Fastsim Spec

variable {K : Type*} [Field K] [LinearOrder K] [IsStrictOrderedRing K]

theorem endTime_append_singleton (c : Cyc K) (s : Sample K) : endTime (c ++ [s]) = s.t := by
  induction c with
  | nil => rfl
  | cons a c ih => cases c with
    | nil => rfl
    | cons b c => simpa [endTime] using ih

theorem getLast?_endTime {c : Cyc K} {l : Sample K} (h : c.getLast? = some l) :
    endTime c = l.t := by
  obtain ⟨f, rfl⟩ := List.getLast?_eq_some_iff.1 h
  exact endTime_append_singleton f l

/-- What appending one more cycle must produce. -/
def Appended (acc c res : Cyc K) : Prop :=
  res = acc ++ c.tail.map fun x => ⟨x.t + endTime acc, x.v, x.g, x.r⟩

theorem concatStep_ok {acc c res : Cyc K} (h : concatStep acc c = .ok res) :
    acc ≠ [] ∧ Appended acc c res := by
  unfold concatStep at h
  split at h
  · simp at h
  case h_2 l hl =>
    simp only [Except.ok.injEq] at h
    refine ⟨by rintro rfl; simp at hl, ?_⟩
    rw [Appended, getLast?_endTime hl, ← h]

theorem concatStep_of_ne {acc : Cyc K} (h : acc ≠ []) (c : Cyc K) :
    concatStep acc c = .ok (acc ++ c.tail.map fun x => ⟨x.t + endTime acc, x.v, x.g, x.r⟩) := by
  cases hl : concatStep acc c with
  | error e =>
    unfold concatStep at hl
    split at hl
    case h_1 h0 => simp at h0; exact absurd h0 h
    case h_2 => simp at hl
  | ok r => rw [(concatStep_ok hl).2]

/-- Generic induction principle for the loop of `concat`. -/
theorem concatFrom_induct {P : Cyc K → List (Cyc K) → Prop}
    (step : ∀ acc c pre, acc ≠ [] → P acc pre →
      P (acc ++ c.tail.map fun x => ⟨x.t + endTime acc, x.v, x.g, x.r⟩) (pre ++ [c])) :
    ∀ (cs : List (Cyc K)) (acc : Cyc K) (pre : List (Cyc K)) (res : Cyc K), P acc pre →
      concatFrom acc cs = .ok res → P res (pre ++ cs) := by
  intro cs
  induction cs with
  | nil => intro acc pre res h hr; simp only [concatFrom, Except.ok.injEq] at hr; subst hr; simpa
  | cons c cs ih =>
    intro acc pre res h hr
    simp only [concatFrom] at hr
    cases hs : concatStep acc c with
    | error e => simp [hs] at hr
    | ok a =>
      rw [hs] at hr
      obtain ⟨hne, rfl⟩ := concatStep_ok hs
      have := ih _ (pre ++ [c]) res (step acc c pre hne h) hr
      simpa using this

/-- **C03 (success).** Concatenation fails only when the first cycle is empty and another
follows. -/
theorem C03_success (c : Cyc K) (cs : List (Cyc K)) :
    (∃ r, concat (c :: cs) = .ok r) ↔ (c ≠ [] ∨ cs = []) := by
  constructor
  · rintro ⟨r, h⟩
    by_contra hcon
    push Not at hcon
    obtain ⟨rfl, hcs⟩ := hcon
    obtain ⟨d, ds, rfl⟩ := List.exists_cons_of_ne_nil hcs
    simp [concat, concatFrom, concatStep] at h
  · intro h
    have gen : ∀ (cs : List (Cyc K)) (acc : Cyc K), acc ≠ [] → ∃ r, concatFrom acc cs = .ok r := by
      intro cs
      induction cs with
      | nil => intro acc _; exact ⟨acc, rfl⟩
      | cons d cs ih =>
        intro acc hne
        rw [concatFrom, concatStep_of_ne hne]
        exact ih _ (by simp [hne])
    rcases h with h | rfl
    · exact gen cs c h
    · exact ⟨c, rfl⟩

/-- Errors are only ever `IndexError` on an empty first cycle. -/
theorem C03_error (c : Cyc K) (cs : List (Cyc K)) (e : PyErr) (h : concat (c :: cs) = .error e) :
    c = [] ∧ cs ≠ [] ∧ e = .indexError := by
  have hs := C03_success c cs
  have hno : ¬ ∃ r, concat (c :: cs) = .ok r := by rintro ⟨r, hr⟩; simp [hr] at h
  rw [hs] at hno
  push Not at hno
  obtain ⟨rfl, hcs⟩ := hno
  obtain ⟨d, ds, rfl⟩ := List.exists_cons_of_ne_nil hcs
  simp [concat, concatFrom, concatStep] at h
  exact ⟨rfl, by simp, h.symm⟩

/-- **C03 (samples).** The result starts with the first cycle unchanged; speed, grade and road
type of what follows are those of the later cycles without their first samples; the number of
samples adds up accordingly. -/
theorem C03_samples (c : Cyc K) (cs : List (Cyc K)) (r : Cyc K) (h : concat (c :: cs) = .ok r) :
    c <+: r ∧
    r.map (fun s => (s.v, s.g, s.r)) =
      c.map (fun s => (s.v, s.g, s.r)) ++ cs.flatMap (fun d => d.tail.map fun s => (s.v, s.g, s.r)) ∧
    r.length = c.length + (cs.map fun d => d.length - 1).sum := by
  have := concatFrom_induct (P := fun r pre =>
    c <+: r ∧
    r.map (fun s => (s.v, s.g, s.r)) =
      c.map (fun s => (s.v, s.g, s.r)) ++ pre.flatMap (fun d => d.tail.map fun s => (s.v, s.g, s.r)) ∧
    r.length = c.length + (pre.map fun d => d.length - 1).sum)
    (by
      rintro acc d pre - ⟨h1, h2, h3⟩
      refine ⟨h1.trans (List.prefix_append _ _), ?_, ?_⟩
      · rw [List.map_append, h2, List.flatMap_append, List.append_assoc]
        congr 2
        simp [Function.comp_def]
      · rw [List.length_append, h3]
        simp [Nat.add_assoc])
    cs c [] r (by simp) h
  simpa using this

/-- **C03 (times).** If every later cycle starts at time zero, the result ends at the sum of the
end times: elapsed times add up. -/
theorem C03_end_time (c : Cyc K) (cs : List (Cyc K)) (r : Cyc K) (h : concat (c :: cs) = .ok r)
    (h0 : ∀ d ∈ cs, startTime d = 0) :
    endTime r = endTime c + (cs.map endTime).sum := by
  have := concatFrom_induct (P := fun r pre => (∀ d ∈ pre, startTime d = 0) →
      endTime r = endTime c + (pre.map endTime).sum)
    (by
      intro acc d pre hne ih h0
      have h1 := ih (fun x hx => h0 x (by simp [hx]))
      have hd0 : startTime d = 0 := h0 d (by simp)
      rw [List.map_append, List.sum_append, ← add_assoc, ← h1]
      simp only [List.map_cons, List.map_nil, List.sum_cons, List.sum_nil, add_zero]
      cases d with
      | nil => simp [endTime]
      | cons s tl =>
        rcases List.eq_nil_or_concat tl with rfl | ⟨tl, l, rfl⟩
        · simp only [startTime] at hd0
          simp [endTime, hd0]
        · simp only [List.concat_eq_append, List.tail_cons, List.map_append, List.map_cons, List.map_nil, ← List.append_assoc]
          rw [endTime_append_singleton]
          rw [← List.cons_append, endTime_append_singleton]
          ring)
    cs c [] r (by simp [endTime]) h
  exact this (by simpa using h0)

theorem increasing_append {a b : Cyc K} (ha : Increasing a) (hb : Increasing b)
    (hab : ∀ x ∈ a, ∀ y ∈ b, x.t < y.t) : Increasing (a ++ b) :=
  List.pairwise_append.2 ⟨ha, hb, hab⟩

theorem mem_le_endTime {c : Cyc K} (h : Increasing c) {x : Sample K} (hx : x ∈ c) :
    x.t ≤ endTime c := by
  rcases List.eq_nil_or_concat c with rfl | ⟨f, l, rfl⟩
  · simp at hx
  · simp only [List.concat_eq_append] at hx h ⊢
    rw [endTime_append_singleton]
    rcases List.mem_append.1 hx with hx | hx
    · exact le_of_lt ((List.pairwise_append.1 h).2.2 x hx l (by simp))
    · rw [List.mem_singleton.1 hx]

/-- **C03 (clock).** Concatenating cycles with strictly increasing clocks that start at zero gives
a strictly increasing clock. -/
theorem C03_increasing (c : Cyc K) (cs : List (Cyc K)) (r : Cyc K) (h : concat (c :: cs) = .ok r)
    (hc : Increasing c) (hcs : ∀ d ∈ cs, startTime d = 0 ∧ Increasing d) : Increasing r := by
  have := concatFrom_induct (P := fun r pre => (∀ d ∈ pre, startTime d = 0 ∧ Increasing d) →
      Increasing r)
    (by
      intro acc d pre hne ih h0
      have h1 := ih (fun x hx => h0 x (by simp [hx]))
      obtain ⟨hd0, hd⟩ := h0 d (by simp)
      cases d with
      | nil => simpa using h1
      | cons s tl =>
        obtain ⟨hs, htl⟩ := List.pairwise_cons.1 hd
        apply increasing_append h1
        · simp only [List.tail_cons, Increasing, List.pairwise_map]
          exact htl.imp (fun hab => by simpa using hab)
        · intro x hx y hy
          simp only [List.tail_cons, List.mem_map] at hy
          obtain ⟨z, hz, rfl⟩ := hy
          have h2 := mem_le_endTime h1 hx
          have h3 := hs z hz
          simp only [startTime] at hd0
          rw [hd0] at h3
          show x.t < z.t + endTime acc
          linarith)
    cs c [] r (by simpa using hc) h
  exact this (by simpa using hcs)

theorem distance_snoc_append (f : Cyc K) (l : Sample K) (b : Cyc K) :
    distance (f ++ l :: b) = distance (f ++ [l]) + distance (l :: b) := by
  induction f with
  | nil => simp [distance]
  | cons a f ih =>
    cases f with
    | nil => simp [distance]
    | cons a' f =>
      simp only [List.cons_append, distance] at ih ⊢
      rw [ih]; ring

theorem distance_shift (d : K) (c : Cyc K) : distance (shift d c) = distance c := by
  induction c with
  | nil => rfl
  | cons a c ih =>
    cases c with
    | nil => rfl
    | cons b c =>
      simp only [shift, List.map_cons, distance] at ih ⊢
      rw [ih]; ring

theorem distance_head_congr {a b : Sample K} (hv : a.v = b.v) (ht : a.t = b.t) (l : Cyc K) :
    distance (a :: l) = distance (b :: l) := by
  cases l with
  | nil => rfl
  | cons x l => simp [distance, hv, ht]

/-- Each trace ends at the speed at which the next one starts. -/
def SpeedsMeet : Cyc K → List (Cyc K) → Prop
  | _, [] => True
  | c, d :: ds => (∃ l s, c.getLast? = some l ∧ d.head? = some s ∧ l.v = s.v) ∧ SpeedsMeet d ds

/-- **C03 (distance).** If every later cycle starts at time zero with the speed its predecessor ended at, travelled
distances (trapezoidal) add up. -/
theorem C03_distance (c : Cyc K) (cs : List (Cyc K)) (r : Cyc K) (h : concat (c :: cs) = .ok r)
    (h0 : ∀ d ∈ cs, startTime d = 0) (hv : SpeedsMeet c cs) :
    distance r = distance c + (cs.map distance).sum := by
  have gen : ∀ (cs : List (Cyc K)) (acc r prev : Cyc K), concatFrom acc cs = .ok r →
      (∀ d ∈ cs, startTime d = 0) → SpeedsMeet prev cs →
      (acc.getLast?.map (·.v) = prev.getLast?.map (·.v)) →
      distance r = distance acc + (cs.map distance).sum := by
    intro cs
    induction cs with
    | nil =>
      intro acc r prev hr _ _ _
      simp only [concatFrom, Except.ok.injEq] at hr
      simp [hr]
    | cons d ds ih =>
      intro acc r prev hr h0 hm hl
      obtain ⟨⟨l, s, hpl, hds, hls⟩, hm'⟩ := hm
      rw [hpl] at hl
      simp only [Option.map_some, Option.map_eq_some_iff] at hl
      obtain ⟨al, hal, halv⟩ := hl
      have hne : acc ≠ [] := by rintro rfl; simp at hal
      rw [concatFrom, concatStep_of_ne hne] at hr
      cases d with
      | nil => simp at hds
      | cons s' tl =>
        simp only [List.head?_cons, Option.some.injEq] at hds
        subst hds
        obtain ⟨f, rfl⟩ := List.getLast?_eq_some_iff.1 hal
        have hend := endTime_append_singleton f al
        have hst : s'.t = 0 := h0 (s' :: tl) (by simp)
        have hstep : distance (f ++ [al] ++ (s' :: tl).tail.map
            (fun x => (⟨x.t + endTime (f ++ [al]), x.v, x.g, x.r⟩ : Sample K))) =
            distance (f ++ [al]) + distance (s' :: tl) := by
          rw [List.append_assoc, List.singleton_append, distance_snoc_append]
          congr 1
          rw [← distance_shift (endTime (f ++ [al])) (s' :: tl)]
          simp only [List.tail_cons, shift, List.map_cons]
          apply distance_head_congr
          · show al.v = s'.v
            rw [halv, hls]
          · show al.t = s'.t + _
            rw [hst, hend, zero_add]
        have := ih _ r (s' :: tl) hr (fun d hd => h0 d (by simp [hd])) hm' ?_
        · rw [this, hstep]; simp only [List.map_cons, List.sum_cons]; ring
        · rcases List.eq_nil_or_concat tl with rfl | ⟨tl', q, rfl⟩
          · simp [halv, hls]
          · have e1 : (s' :: tl'.concat q).getLast? = some q := by
              rw [List.concat_eq_append, ← List.cons_append]; exact List.getLast?_concat
            rw [e1]
            simp only [List.tail_cons, List.concat_eq_append, List.map_append, List.map_cons, List.map_nil,
              ← List.append_assoc, List.getLast?_concat, Option.map_some]
  exact gen cs c r c h h0 hv rfl

/-- **C03 (associativity).** Concatenating a first group and then the rest is the same as
concatenating everything. -/
theorem C03_assoc (xs ys : List (Cyc K)) (hx : xs ≠ []) (ab : Cyc K) (h : concat xs = .ok ab) :
    concat (ab :: ys) = concat (xs ++ ys) := by
  cases xs with
  | nil => exact absurd rfl hx
  | cons c cs =>
    simp only [List.cons_append, concat] at h ⊢
    induction cs generalizing c with
    | nil => simp only [concatFrom, Except.ok.injEq] at h; simp [h]
    | cons d cs ih =>
      simp only [concatFrom, List.cons_append] at h ⊢
      cases hs : concatStep c d with
      | error e => simp [hs] at h
      | ok a => rw [hs] at h; exact ih a (by simp) h

/-- One cycle is left alone; no cycle gives the empty cycle. -/
theorem C03_unit (c : Cyc K) : concat [c] = .ok c ∧ concat ([] : List (Cyc K)) = .ok [] :=
  ⟨rfl, rfl⟩

/-! Concrete cases meeting the hypotheses. -/
def exA : Cyc ℚ := [⟨0, 0, 0, 0⟩, ⟨1, 2, 0, 0⟩, ⟨3, 4, 0, 1⟩]
def exB : Cyc ℚ := [⟨0, 4, 0, 0⟩, ⟨2, 2, 1, 0⟩, ⟨3, 0, 0, 0⟩]
def exAB : Cyc ℚ := [⟨0, 0, 0, 0⟩, ⟨1, 2, 0, 0⟩, ⟨3, 4, 0, 1⟩, ⟨5, 2, 1, 0⟩, ⟨6, 0, 0, 0⟩]

example : concat [exA, exB] = .ok exAB := by decide +kernel
example : startTime exB = 0 ∧ Increasing exA ∧ Increasing exB := by
  refine ⟨by decide +kernel, ?_, ?_⟩ <;> (unfold Increasing; decide +kernel)
example : SpeedsMeet exA [exB] := ⟨⟨_, _, rfl, rfl, rfl⟩, trivial⟩
example : distance exAB = distance exA + distance exB := by decide +kernel

end Fastsim.Props
