import Verif.Model.RsBatch
import Verif.Props.RustRun
import Mathlib.Data.List.Nodup
import Mathlib.Data.List.Perm.Basic

/-!
# C110: lists of simulations
-/
set_option linter.unusedSectionVars false

namespace Fastsim.Spec
section
variable {K : Type*} [Zero K] [One K] [NatCast K] [Add K] [Sub K] [Mul K] [Div K] [Neg K] [LinearOrder K]

/-- `y` is `x` after a run of its own: the state and the figures of that run, everything else as it was. -/
def OwnRun (F : Fns K) (x y : RsSimDrive K) : Prop :=
  ∃ s p, rsSimDrive F x.hooks x.veh x.params x.tols x.gge x.sim none none = .ok (s, p) ∧
    y = { x with sim := s, post := some p }

/-- Its run fails. -/
def FailsAlone (F : Fns K) (x : RsSimDrive K) (e : RsErr) : Prop :=
  rsSimDrive F x.hooks x.veh x.params x.tols x.gge x.sim none none = .error e

end
end Fastsim.Spec

namespace Fastsim.Props
open Fastsim Fastsim.Spec

section
variable {K : Type*} [Zero K] [One K] [NatCast K] [Add K] [Sub K] [Mul K] [Div K] [Neg K] [LinearOrder K]
variable {F : Fns K}

theorem drive_ok {x : RsSimDrive K} : (x.drive F).2 = none ↔ OwnRun F x (x.drive F).1 := by
  unfold RsSimDrive.drive OwnRun
  cases h : rsSimDrive F x.hooks x.veh x.params x.tols x.gge x.sim none none with
  | ok r => exact ⟨fun _ => ⟨r.1, r.2, rfl, rfl⟩, fun _ => rfl⟩
  | error e => simp

theorem drive_err {x : RsSimDrive K} {e : RsErr} : (x.drive F).2 = some e ↔ FailsAlone F x e := by
  unfold RsSimDrive.drive FailsAlone
  cases h : rsSimDrive F x.hooks x.veh x.params x.tols x.gge x.sim none none with
  | ok r => simp
  | error e => simp

theorem ownRun_unique {x y z : RsSimDrive K} (h : OwnRun F x y) (h' : OwnRun F x z) : y = z := by
  obtain ⟨s, p, h1, rfl⟩ := h
  obtain ⟨s', p', h2, rfl⟩ := h'
  rw [h1, Except.ok.injEq, Prod.mk.injEq] at h2
  rw [h2.1, h2.2]

theorem ownRun_drive {x y : RsSimDrive K} (h : OwnRun F x y) : x.drive F = (y, none) := by
  obtain ⟨s, p, h1, rfl⟩ := h
  unfold RsSimDrive.drive
  rw [h1]

/-- One after the other: it goes well exactly if every run goes well, and then every entry has a run of its own. -/
theorem C110_serial (l l' : List (RsSimDrive K)) :
    batchSerial F l = (l', none) ↔ List.Forall₂ (OwnRun F) l l' := by
  induction l generalizing l' with
  | nil => simp [batchSerial, eq_comm]
  | cons x l ih =>
    rw [batchSerial]
    cases hd : x.drive F with
    | mk d e =>
      cases e with
      | some e =>
        simp only [Prod.mk.injEq, reduceCtorEq, and_false, false_iff]
        rintro (_ | ⟨h, -⟩)
        rw [ownRun_drive h] at hd
        cases hd
      | none =>
        have hx : OwnRun F x d := by have := (drive_ok (F := F) (x := x)).1 (by rw [hd]); rwa [hd] at this
        simp only [Prod.mk.injEq]
        constructor
        · rintro ⟨rfl, h⟩
          exact .cons hx ((ih _).1 (Prod.ext rfl h))
        · rintro (_ | ⟨h, ht⟩)
          have e := (ih _).2 ht
          rw [ownRun_unique hx h, e]
          exact ⟨rfl, rfl⟩

/-- One after the other, with a failure: everything before it has its run, it fails, and everything behind it is as it was. -/
theorem C110_serial_error (l l' : List (RsSimDrive K)) (e : RsErr) : batchSerial F l = (l', some e) ↔
    ∃ a a' x b, l = a ++ x :: b ∧ l' = a' ++ { x with sim := x.broken } :: b ∧ List.Forall₂ (OwnRun F) a a' ∧ FailsAlone F x e := by
  induction l generalizing l' with
  | nil => simp [batchSerial]
  | cons x l ih =>
    rw [batchSerial]
    cases hd : x.drive F with
    | mk d e' =>
      cases e' with
      | some e' =>
        have hx : FailsAlone F x e' := drive_err.1 (by rw [hd])
        have hd' : d = { x with sim := x.broken } := by
          have := hd
          unfold RsSimDrive.drive at this
          rw [show rsSimDrive F x.hooks x.veh x.params x.tols x.gge x.sim none none = .error e' from hx] at this
          exact (Prod.mk.inj this).1.symm
        simp only [Prod.mk.injEq, Option.some.injEq]
        constructor
        · rintro ⟨rfl, rfl⟩
          exact ⟨[], [], x, l, rfl, by rw [hd']; rfl, .nil, hx⟩
        · rintro ⟨a, a', y, b, h1, h2, h3, h4⟩
          cases h3 with
          | nil =>
            simp only [List.nil_append, List.cons.injEq] at h1 h2
            obtain ⟨rfl, rfl⟩ := h1
            rw [h2, ← hd']
            unfold FailsAlone at hx h4
            rw [hx] at h4
            exact ⟨rfl, by simpa using h4⟩
          | cons h _ =>
            simp only [List.cons_append, List.cons.injEq] at h1
            obtain ⟨rfl, -⟩ := h1
            rw [ownRun_drive h] at hd
            cases hd
      | none =>
        have hx : OwnRun F x d := by have := (drive_ok (F := F) (x := x)).1 (by rw [hd]); rwa [hd] at this
        simp only [Prod.mk.injEq]
        constructor
        · rintro ⟨rfl, h⟩
          obtain ⟨a, a', y, b, h1, h2, h3, h4⟩ := (ih _).1 (Prod.ext rfl h)
          exact ⟨x :: a, d :: a', y, b, by rw [h1]; rfl, congrArg (d :: ·) h2, .cons hx h3, h4⟩
        · rintro ⟨a, a', y, b, h1, h2, h3, h4⟩
          cases h3 with
          | nil =>
            simp only [List.nil_append, List.cons.injEq] at h1
            obtain ⟨rfl, -⟩ := h1
            have := drive_err.2 h4
            rw [hd] at this
            cases this
          | @cons _ z a a' h h3 =>
            simp only [List.cons_append, List.cons.injEq] at h1 h2
            obtain ⟨rfl, h1⟩ := h1
            have e' := (ih (a' ++ { y with sim := y.broken } :: b)).2 ⟨a, a', y, b, h1, rfl, h3, h4⟩
            rw [e', h2, ownRun_unique hx h]
            exact ⟨rfl, rfl⟩

/-- Where the threads are after having taken the entries `sched`. -/
theorem parallel_spec (sched : List ℕ) (hn : sched.Nodup) (l : List (RsSimDrive K)) (hl : ∀ i ∈ sched, i < l.length) :
    (batchParallel F sched l).1.length = l.length ∧
    (∀ i x, l[i]? = some x → i ∉ sched → (batchParallel F sched l).1[i]? = some x) ∧
    ((batchParallel F sched l).2 = none → ∀ i x, l[i]? = some x → i ∈ sched →
      ∃ y, OwnRun F x y ∧ (batchParallel F sched l).1[i]? = some y) ∧
    (∀ e, (batchParallel F sched l).2 = some e → ∃ i x, i ∈ sched ∧ l[i]? = some x ∧ FailsAlone F x e) ∧
    (∀ i x, l[i]? = some x → i ∈ sched →
      ∃ y, (batchParallel F sched l).1[i]? = some y ∧ (y = x ∨ OwnRun F x y ∨
        (∃ e, (batchParallel F sched l).2 = some e ∧ FailsAlone F x e ∧ y = { x with sim := x.broken }))) := by
  induction sched using List.reverseRecOn with
  | nil => simp [batchParallel]
  | append_singleton sched k ih =>
    have hn' : sched.Nodup ∧ k ∉ sched := by
      rw [List.nodup_append] at hn
      exact ⟨hn.1, fun h => hn.2.2 k h k (by simp) rfl⟩
    obtain ⟨i1, i2, i3, i4, i5⟩ := ih hn'.1 fun i hi => hl i (by simp [hi])
    have hk : k < l.length := hl k (by simp)
    have hx : l[k]? = some l[k] := List.getElem?_eq_getElem hk
    have hcur := i2 k _ hx hn'.2
    have hstep : batchParallel F (sched ++ [k]) l = batchTake F (batchParallel F sched l) k := by
      rw [batchParallel, List.foldl_append]; rfl
    rw [hstep]
    generalize batchParallel F sched l = st at *
    obtain ⟨cur, err⟩ := st
    dsimp only at i1 i2 i3 i4 i5 hcur
    cases err with
    | some e =>
      have : batchTake F (cur, some e) k = (cur, some e) := rfl
      rw [this]
      refine ⟨i1, fun i x hi hni => i2 i x hi (fun h => hni (by simp [h])), nofun, ?_, ?_⟩
      · intro e' he'
        obtain ⟨i, x, a, b, c⟩ := i4 e' he'
        exact ⟨i, x, by simp [a], b, c⟩
      · intro i x hi hm
        by_cases hik : i ∈ sched
        · exact i5 i x hi hik
        · exact ⟨x, i2 i x hi hik, .inl rfl⟩
    | none =>
      have ht : batchTake F (cur, none) k = (cur.set k (l[k].drive F).1, (l[k].drive F).2) := by
        unfold batchTake
        simp only [hcur]
      rw [ht]
      dsimp only
      have hset : ∀ i, i ≠ k → (cur.set k (l[k].drive F).1)[i]? = cur[i]? := fun i h => by
        rw [List.getElem?_set_ne (Ne.symm h)]
      have hsetk : (cur.set k (l[k].drive F).1)[k]? = some (l[k].drive F).1 := by
        rw [List.getElem?_set_self (by omega)]
      have hold : ∀ i x, l[i]? = some x → i ∈ sched → ∃ y, OwnRun F x y ∧ cur[i]? = some y := i3 rfl
      refine ⟨by rw [List.length_set, i1], ?_, ?_, ?_, ?_⟩
      · intro i x hi hni
        simp only [List.mem_append, List.mem_singleton, not_or] at hni
        rw [hset i hni.2]
        exact i2 i x hi hni.1
      · intro he i x hi hm
        by_cases hik : i = k
        · subst hik
          rw [hx, Option.some.injEq] at hi
          subst hi
          exact ⟨_, drive_ok.1 he, hsetk⟩
        · rw [hset i hik]
          exact hold i x hi (by simpa [hik] using hm)
      · intro e he
        exact ⟨k, l[k], by simp, hx, drive_err.1 he⟩
      · intro i x hi hm
        by_cases hik : i = k
        · subst hik
          rw [hx, Option.some.injEq] at hi
          subst hi
          refine ⟨_, hsetk, ?_⟩
          cases hd : l[i].drive F with
          | mk d e =>
            cases e with
            | none =>
              have := (drive_ok (F := F) (x := l[i])).1 (by rw [hd])
              rw [hd] at this
              exact .inr (.inl this)
            | some e =>
              have hf : FailsAlone F l[i] e := drive_err.1 (by rw [hd])
              refine .inr (.inr ⟨e, rfl, hf, ?_⟩)
              unfold RsSimDrive.drive at hd
              rw [show rsSimDrive F _ _ _ _ _ _ none none = .error e from hf] at hd
              exact (Prod.mk.inj hd).1.symm
        · rw [hset i hik]
          obtain ⟨y, h1, h2⟩ := hold i x hi (by simpa [hik] using hm)
          exact ⟨y, h2, .inr (.inl h1)⟩

theorem sched_facts {sched : List ℕ} {n : ℕ} (h : sched.Perm (List.range n)) :
    sched.Nodup ∧ (∀ i ∈ sched, i < n) ∧ ∀ i, i < n → i ∈ sched :=
  ⟨h.nodup_iff.2 List.nodup_range, fun i hi => List.mem_range.1 (h.mem_iff.1 hi), fun i hi => h.mem_iff.2 (List.mem_range.2 hi)⟩

/-- In parallel, whatever the order of the threads: it goes well exactly if every run goes well, and then every entry has a run of
its own, in its own place. -/
theorem C110_parallel {sched : List ℕ} {l : List (RsSimDrive K)} (h : sched.Perm (List.range l.length)) (l' : List (RsSimDrive K)) :
    batchParallel F sched l = (l', none) ↔ List.Forall₂ (OwnRun F) l l' := by
  obtain ⟨hn, hlt, hall⟩ := sched_facts h
  obtain ⟨p1, p2, p3, p4, p5⟩ := parallel_spec (F := F) sched hn l hlt
  have fwd : (batchParallel F sched l).2 = none → List.Forall₂ (OwnRun F) l (batchParallel F sched l).1 := by
    intro he
    rw [List.forall₂_iff_get]
    refine ⟨p1.symm, fun i h1 h2 => ?_⟩
    obtain ⟨y, hy, hi⟩ := p3 he i l[i] (List.getElem?_eq_getElem h1) (hall i h1)
    have := (List.getElem?_eq_some_iff.1 hi).2
    simp only [List.get_eq_getElem]
    rw [this]
    exact hy
  constructor
  · intro he
    have := fwd (by rw [he])
    rwa [he] at this
  · intro hf
    have hne : (batchParallel F sched l).2 = none := by
      cases he : (batchParallel F sched l).2 with
      | none => rfl
      | some e =>
        obtain ⟨i, x, -, hx, hfail⟩ := p4 e he
        obtain ⟨hi, rfl⟩ := List.getElem?_eq_some_iff.1 hx
        obtain ⟨s, p, hok, -⟩ := (List.forall₂_iff_get.1 hf).2 i hi (by rw [← hf.length_eq]; exact hi)
        unfold FailsAlone at hfail
        simp only [List.get_eq_getElem] at hok
        rw [hfail] at hok
        cases hok
    have hf' := fwd hne
    have : l' = (batchParallel F sched l).1 := by
      have : ∀ (l a b : List (RsSimDrive K)), List.Forall₂ (OwnRun F) l a → List.Forall₂ (OwnRun F) l b → a = b := by
        intro l a b ha
        induction ha generalizing b with
        | nil => intro hb; cases hb; rfl
        | cons h _ ih =>
          intro hb
          cases hb with
          | cons h' hb => rw [ownRun_unique h h', ih _ hb]
      exact this l _ _ hf hf'
    exact Prod.ext this.symm hne

/-- In parallel, with a failure: the error is that of an entry that fails by itself, every entry is as it was, or has its own run,
or is one that fails by itself, and none has moved. -/
theorem C110_parallel_error {sched : List ℕ} {l l' : List (RsSimDrive K)} (h : sched.Perm (List.range l.length)) {e : RsErr}
    (he : batchParallel F sched l = (l', some e)) :
    (∃ x ∈ l, FailsAlone F x e) ∧
    List.Forall₂ (fun x y => y = x ∨ OwnRun F x y ∨ ∃ e, FailsAlone F x e ∧ y = { x with sim := x.broken }) l l' := by
  obtain ⟨hn, hlt, hall⟩ := sched_facts h
  obtain ⟨p1, p2, p3, p4, p5⟩ := parallel_spec (F := F) sched hn l hlt
  rw [he] at p1 p4 p5
  constructor
  · obtain ⟨i, x, -, hx, hf⟩ := p4 e rfl
    exact ⟨x, List.mem_of_getElem? hx, hf⟩
  · rw [List.forall₂_iff_get]
    refine ⟨p1.symm, fun i h1 h2 => ?_⟩
    obtain ⟨y, hy, hc⟩ := p5 i l[i] (List.getElem?_eq_getElem h1) (hall i h1)
    have := (List.getElem?_eq_some_iff.1 hy).2
    simp only [List.get_eq_getElem]
    rw [this]
    rcases hc with hc | hc | ⟨e', -, hc⟩
    · exact .inl hc
    · exact .inr (.inl hc)
    · exact .inr (.inr ⟨e', hc⟩)

/-- So the way in which it is asked for, and the order of the threads, cannot be told from a batch that went well, and a batch
goes well in one way exactly if it does in every other. -/
theorem C110_any_way {sched sched' : List ℕ} {l : List (RsSimDrive K)} (h : sched.Perm (List.range l.length))
    (h' : sched'.Perm (List.range l.length)) (p p' : Option Bool) (l' : List (RsSimDrive K)) :
    batchDrive F p sched l = (l', none) ↔ batchDrive F p' sched' l = (l', none) := by
  have key : ∀ (q : Option Bool) (s : List ℕ), s.Perm (List.range l.length) →
      (batchDrive F q s l = (l', none) ↔ List.Forall₂ (OwnRun F) l l') := by
    intro q s hs
    unfold batchDrive
    split
    · exact C110_parallel hs l'
    · exact C110_serial l l'
  rw [key p sched h, key p' sched' h']

/-- Without the argument it is parallel. -/
theorem C110_default (sched : List ℕ) (l : List (RsSimDrive K)) : batchDrive F none sched l = batchDrive F (some true) sched l := rfl

/-- The list is a list: what is pushed is popped, what is inserted is there and is removed again, and nothing else moves. -/
theorem C110_list (l : List (RsSimDrive K)) (x : RsSimDrive K) (i : ℕ) :
    batchPop (batchPush l x) = (some x, l) ∧ (batchPop ([] : List (RsSimDrive K)) = (none, [])) ∧
    (i ≤ l.length → ∃ m, batchInsert l i x = .ok m ∧ batchRemove m i = .ok l ∧ m[i]? = some x ∧
      (∀ j < i, m[j]? = l[j]?) ∧ ∀ j, i ≤ j → m[j + 1]? = l[j]?) ∧
    (l.length < i → batchInsert l i x = .error .panic) ∧ (l.length ≤ i → batchRemove l i = .error .panic) := by
  refine ⟨by simp [batchPop, batchPush], rfl, ?_, ?_, ?_⟩
  · intro h
    refine ⟨l.insertIdx i x, by rw [batchInsert, if_pos h], ?_, ?_, ?_, ?_⟩
    · rw [batchRemove, if_pos (by rw [List.length_insertIdx, if_pos h]; omega), List.eraseIdx_insertIdx_self]
    · rw [List.getElem?_insertIdx_self, if_pos h]
    · intro j hj
      rw [List.getElem?_insertIdx_of_lt hj]
    · intro j hj
      rw [List.getElem?_insertIdx_of_gt (by omega)]
      simp
  · intro h
    rw [batchInsert, if_neg (by omega)]
  · intro h
    rw [batchRemove, if_neg (by omega)]

end
end Fastsim.Props
