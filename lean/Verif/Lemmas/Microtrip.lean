import Verif.Spec.Cycle
import Mathlib.Tactic.Ring
import Mathlib.Tactic.Linarith
import Mathlib.Tactic.Abel

set_option linter.unusedSectionVars false
set_option linter.unusedVariables false
set_option linter.unusedSimpArgs false

namespace Fastsim
open Spec

section
variable {K : Type*} [Field K] [LinearOrder K]

theorem rebase_eq (c : Cyc K) : rebase c = fromZero c := by
  cases c with
  | nil => rfl
  | cons s l => simp [rebase, fromZero, shift, startTime, sub_eq_add_neg]

theorem concatFrom_append (acc : Cyc K) (cs : List (Cyc K)) (d : Cyc K) :
    concatFrom acc (cs ++ [d]) =
      match concatFrom acc cs with
      | .error e => .error e
      | .ok a => concatStep a d := by
  induction cs generalizing acc with
  | nil => simp only [List.nil_append, concatFrom]; cases concatStep acc d <;> rfl
  | cons c cs ih =>
    simp only [List.cons_append, concatFrom]
    cases concatStep acc c with
    | error e => rfl
    | ok a => exact ih a

theorem concat_append {cs : List (Cyc K)} (h : cs ≠ []) (d : Cyc K) :
    concat (cs ++ [d]) =
      match concat cs with
      | .error e => .error e
      | .ok a => concatStep a d := by
  cases cs with
  | nil => exact absurd rfl h
  | cons c cs => simp only [List.cons_append, concat, concatFrom_append]

/-- Joining the rebased tail of a trace to its rebased front. -/
theorem concatStep_rebase (q : Cyc K) (l : Sample K) (rest : Cyc K) :
    concatStep (fromZero (q ++ [l])) (fromZero (l :: rest)) =
      .ok (fromZero (q ++ l :: rest)) := by
  have h0 : startTime (q ++ [l]) = startTime (q ++ l :: rest) := by cases q <;> rfl
  have hl : (fromZero (q ++ [l])).getLast? =
      some ⟨l.t + -(startTime (q ++ l :: rest)), l.v, l.g, l.r⟩ := by
    simp [fromZero, shift, h0]
  rw [concatStep, hl]
  have hs : startTime (l :: rest) = l.t := rfl
  simp only [fromZero, shift, h0, hs]
  simp only [List.map_append, List.map_cons, List.map_nil, List.tail_cons, List.map_map,
    List.append_assoc, List.singleton_append]
  congr 3
  congr 1
  funext a
  simp only [Function.comp_apply, Sample.mk.injEq, and_true]
  ring

/-- Loop invariant of `to_microtrips` on the processed prefix `p` for C01. -/
def MtInv (p : Cyc K) (s : MtState K) : Prop :=
  (s.done = [] ∧ s.mt = p) ∨
  (s.done ≠ [] ∧ ∃ q l rest, p = q ++ l :: rest ∧ s.mt = l :: rest ∧
    concat s.done = .ok (fromZero (q ++ [l])))

theorem mtInv_close {p : Cyc K} {s : MtState K} (h : MtInv p s) (hm : s.mt ≠ []) :
    concat (s.done ++ [rebase s.mt]) = .ok (fromZero p) := by
  rcases h with ⟨hd, hmt⟩ | ⟨hd, q, l, rest, rfl, hmt, hc⟩
  · simp [hd, hmt, concat, concatFrom, rebase_eq]
  · rw [concat_append hd, hc, hmt, rebase_eq]
    exact concatStep_rebase q l rest

theorem mtInv_step (stop : K) {p : Cyc K} {s : MtState K} (h : MtInv p s) (x : Sample K) :
    MtInv (p ++ [x]) (mtStep stop s x) := by
  unfold mtStep
  split
  case isTrue hc =>
    have hne : s.mt ≠ [] := by intro h0; simp [h0] at hc
    have hclose := mtInv_close h hne
    obtain ⟨front, last, hfl⟩ : ∃ f l, s.mt = f ++ [l] :=
      ⟨s.mt.dropLast, s.mt.getLast hne, (List.dropLast_append_getLast hne).symm⟩
    have hp : ∃ q, p = q ++ [last] := by
      rcases h with ⟨_, hmt⟩ | ⟨_, q, l, rest, rfl, hmt, _⟩
      · exact ⟨front, by rw [← hmt, hfl]⟩
      · exact ⟨q ++ front, by rw [← hmt, hfl, List.append_assoc]⟩
    obtain ⟨q, rfl⟩ := hp
    refine Or.inr ⟨by simp, q, last, [x], by simp, by simp [hfl], ?_⟩
    simpa using hclose
  case isFalse =>
    rcases h with ⟨hd, hmt⟩ | ⟨hd, q, l, rest, rfl, hmt, hc⟩
    · exact Or.inl ⟨hd, by simp [hmt]⟩
    · exact Or.inr ⟨hd, q, l, rest ++ [x], by simp, by simp [hmt], hc⟩

theorem mtStep_mt_ne (stop : K) (s : MtState K) (x : Sample K) : (mtStep stop s x).mt ≠ [] := by
  unfold mtStep; simp

theorem foldl_inv {α β : Type*} {I : List α → β → Prop} {f : β → α → β}
    (hstep : ∀ p s x, I p s → I (p ++ [x]) (f s x)) :
    ∀ (l p : List α) (s : β), I p s → I (p ++ l) (l.foldl f s) := by
  intro l
  induction l with
  | nil => intro p s h; simpa using h
  | cons x l ih =>
    intro p s h
    have := ih (p ++ [x]) (f s x) (hstep p s x h)
    simpa using this

end

section shape
variable {K : Type*} [Field K] [LinearOrder K]

/-- No restart from a stop except out of the very first sample. -/
def NoRestart (stop : K) (m : Cyc K) : Prop :=
  ∀ j, 1 ≤ j → ∀ a b, m[j]? = some a → m[j+1]? = some b → Stopped stop a → Stopped stop b

/-- Second sample moves, first does not. -/
def StartsTrip (stop : K) (m : Cyc K) : Prop :=
  ∃ a b rest, m = a :: b :: rest ∧ Stopped stop a ∧ ¬ Stopped stop b

def Joins (m n : Cyc K) : Prop :=
  ∃ a b, m.getLast? = some a ∧ n.head? = some b ∧ a.v = b.v ∧ a.g = b.g ∧ a.r = b.r

/-- Shape invariant on all finished microtrips and the current one. -/
structure MtShape (stop : K) (s : MtState K) : Prop where
  moving : s.moving = true ↔ ∃ l, s.mt.getLast? = some l ∧ ¬ Stopped stop l
  noRestart : NoRestart stop s.mt
  starts : s.done ≠ [] → StartsTrip stop s.mt
  doneNoRestart : ∀ m ∈ s.done, NoRestart stop m
  doneNonempty : ∀ m ∈ s.done, m ≠ [] ∧ startTime m = 0
  doneStarts : ∀ m ∈ s.done.tail, StartsTrip stop m
  doneJoins : List.IsChain Joins (s.done ++ [s.mt])

theorem noRestart_shift {stop d : K} {m : Cyc K} (h : NoRestart stop m) :
    NoRestart stop (shift d m) := by
  intro j hj a b ha hb hs
  simp only [shift, List.getElem?_map, Option.map_eq_some_iff] at ha hb
  obtain ⟨a', ha', rfl⟩ := ha
  obtain ⟨b', hb', rfl⟩ := hb
  exact h j hj a' b' ha' hb' hs

theorem startsTrip_shift {stop d : K} {m : Cyc K} (h : StartsTrip stop m) :
    StartsTrip stop (shift d m) := by
  obtain ⟨a, b, rest, rfl, ha, hb⟩ := h
  exact ⟨_, _, _, rfl, ha, hb⟩

theorem startTime_fromZero (m : Cyc K) : startTime (fromZero m) = 0 := by
  cases m with
  | nil => rfl
  | cons s l => simp [fromZero, shift, startTime]

theorem joins_shift_left {d : K} {m n : Cyc K} (h : Joins m n) : Joins (shift d m) n := by
  obtain ⟨a, b, ha, hb, h1, h2, h3⟩ := h
  exact ⟨⟨a.t + d, a.v, a.g, a.r⟩, b, by simp [shift, ha], hb, h1, h2, h3⟩

theorem joins_shift_right {d : K} {m n : Cyc K} (h : Joins m n) : Joins m (shift d n) := by
  obtain ⟨a, b, ha, hb, h1, h2, h3⟩ := h
  exact ⟨a, ⟨b.t + d, b.v, b.g, b.r⟩, ha, by simp [shift, hb], h1, h2, h3⟩

theorem joins_append_right {m n : Cyc K} {x : Sample K} (h : Joins m n) : Joins m (n ++ [x]) := by
  obtain ⟨a, b, ha, hb, h⟩ := h
  refine ⟨a, b, ha, ?_, h⟩
  cases n with
  | nil => simp at hb
  | cons c n => simpa using hb

theorem chain_map_last {m m' : Cyc K} (himp : ∀ n, Joins n m → Joins n m') :
    ∀ (l : List (Cyc K)), List.IsChain Joins (l ++ [m]) → List.IsChain Joins (l ++ [m'])
  | [], _ => List.IsChain.singleton _
  | [a], h => by
    simp only [List.cons_append, List.nil_append, List.isChain_cons_cons] at h ⊢
    exact ⟨himp _ h.1, List.IsChain.singleton _⟩
  | a :: b :: l, h => by
    simp only [List.cons_append, List.isChain_cons_cons] at h ⊢
    exact ⟨h.1, chain_map_last himp (b :: l) h.2⟩

theorem chain_snoc {m n : Cyc K} (hj : Joins m n) :
    ∀ (l : List (Cyc K)), List.IsChain Joins (l ++ [m]) → List.IsChain Joins (l ++ [m] ++ [n])
  | [], _ => by simpa using hj
  | [a], h => by
    simp only [List.cons_append, List.nil_append, List.isChain_cons_cons] at h ⊢
    exact ⟨h.1, hj, List.IsChain.singleton _⟩
  | a :: b :: l, h => by
    simp only [List.cons_append, List.isChain_cons_cons] at h ⊢
    exact ⟨h.1, chain_snoc hj (b :: l) h.2⟩

theorem mtShape_step (stop : K) {s : MtState K} (h : MtShape stop s) (x : Sample K) :
    MtShape stop (mtStep stop s x) := by
  unfold mtStep
  split
  case isTrue hc =>
    obtain ⟨hx, hm, hlen⟩ := hc
    have hne : s.mt ≠ [] := by intro h0; simp [h0] at hlen
    have hlast : s.mt.getLast? = some (s.mt.getLast hne) := List.getLast?_eq_getLast_of_ne_nil hne
    have hstopped : Stopped stop (s.mt.getLast hne) := by
      by_contra hcon
      have := h.moving.2 ⟨_, hlast, hcon⟩
      simp [hm] at this
    have hxm : ¬ Stopped stop x := by simpa [Stopped] using hx
    refine ⟨?_, ?_, ?_, ?_, ?_, ?_, ?_⟩
    · simp [hlast, hx, Stopped]
    · intro j hj a b ha hb
      rcases j with _ | _ | j
      · omega
      · simp [hlast] at hb
      · simp [hlast] at hb
    · intro _
      exact ⟨s.mt.getLast hne, x, [], by simp [hlast], hstopped, hxm⟩
    · intro m hmem
      simp only [List.mem_append, List.mem_singleton] at hmem
      rcases hmem with hmem | rfl
      · exact h.doneNoRestart m hmem
      · rw [rebase_eq]; exact noRestart_shift h.noRestart
    · intro m hmem
      simp only [List.mem_append, List.mem_singleton] at hmem
      rcases hmem with hmem | rfl
      · exact h.doneNonempty m hmem
      · rw [rebase_eq]
        exact ⟨by simp [fromZero, shift, hne], startTime_fromZero _⟩
    · intro m hmem
      cases hd : s.done with
      | nil => simp [hd] at hmem
      | cons a l =>
        simp only [hd, List.cons_append, List.tail_cons, List.mem_append, List.mem_singleton] at hmem
        rcases hmem with hmem | rfl
        · exact h.doneStarts m (by simpa [hd] using hmem)
        · rw [rebase_eq]; exact startsTrip_shift (h.starts (by simp [hd]))
    · simp only [hlast, Option.toList_some, rebase_eq]
      apply chain_snoc
      · exact joins_shift_left ⟨_, _, hlast, rfl, rfl, rfl, rfl⟩
      · exact chain_map_last (fun n hn => joins_shift_right hn) _ h.doneJoins
  case isFalse hc =>
    refine ⟨?_, ?_, ?_, h.doneNoRestart, h.doneNonempty, h.doneStarts,
      chain_map_last (fun n hn => joins_append_right hn) _ h.doneJoins⟩
    · simp [Stopped]
    · intro j hj a b ha hb hs
      rw [List.getElem?_append] at ha hb
      split at hb
      case isTrue hj1 =>
        rw [if_pos (by omega)] at ha
        exact h.noRestart j hj a b ha hb hs
      case isFalse hj1 =>
        have hjlen : j + 1 = s.mt.length := by
          by_contra hne
          have : j + 1 - s.mt.length ≠ 0 := by omega
          obtain ⟨k, hk⟩ := Nat.exists_eq_succ_of_ne_zero this
          simp [hk] at hb
        rw [if_pos (by omega)] at ha
        simp only [hjlen, Nat.sub_self, List.getElem?_cons_zero, Option.some.injEq] at hb
        subst hb
        have hne : s.mt ≠ [] := by intro h0; simp [h0] at hjlen
        have hl : s.mt.getLast? = some a := by
          rw [List.getLast?_eq_getElem?, ← hjlen]; simpa using ha
        have hmv : s.moving = false := by
          cases hb' : s.moving with
          | false => rfl
          | true =>
            obtain ⟨l, hl', hns⟩ := h.moving.1 hb'
            rw [hl] at hl'; cases hl'
            exact absurd hs hns
        by_contra hxs
        exact hc ⟨by simpa [Stopped] using hxs, hmv, by omega⟩
    · intro hd
      obtain ⟨a, b, rest, he, h1, h2⟩ := h.starts hd
      exact ⟨a, b, rest ++ [x], by simp [he], h1, h2⟩

theorem mtShape_foldl (stop : K) (c : Cyc K) (s : MtState K) (h : MtShape stop s) :
    MtShape stop (c.foldl (mtStep stop) s) := by
  induction c generalizing s with
  | nil => exact h
  | cons x c ih => exact ih _ (mtShape_step stop h x)

theorem mtShape_init (stop : K) :
    MtShape stop ({ done := [], mt := [], moving := false } : MtState K) :=
  ⟨by simp, by intro j _ a b ha; simp at ha, by simp, by simp, by simp, by simp,
    List.IsChain.singleton _⟩

end shape
end Fastsim
