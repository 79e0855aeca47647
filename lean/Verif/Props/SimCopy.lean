import Verif.Model.SimHeap
import Verif.Lemmas.Run
import Verif.Lemmas.Basic
import Verif.Props.Real
import Verif.Spec.Demo

/-!
# C59: copies of a simulation are independent
-/

set_option linter.unusedSectionVars false

namespace Fastsim.Spec

section Lawless
variable {K : Type*} [Zero K] [One K] [NatCast K] [Add K] [Sub K] [Mul K] [Div K] [Neg K]
  [LinearOrder K]

/-- Actions on one simulation alone, without any memory. -/
def alone (F : Fns K) (H : Hooks K) (V : Veh K) (P : SimParams K) : List (SimAct K) → Sim K → Except PyErr (Sim K)
  | [], s => .ok s
  | .step :: l, s =>
    if s.i < s.cyc.length then
      match simDriveStep F H V P s with
      | .error e => .error e
      | .ok s => alone F H V P l s
    else .error .indexError
  | .init soc :: l, s =>
    match initForStep V P s soc none with
    | .error e => .error e
    | .ok s => alone F H V P l s

/-- The actions of a program on the first (`true`) or the second object. -/
def actionsOn (b : Bool) (p : List (Bool × SimAct K)) : List (SimAct K) :=
  (p.filter fun x => x.1 == b).map Prod.snd

end Lawless

variable {K : Type*}

/-- The addresses of an object are in use and its own cells are distinct. -/
structure Own (h : SimHeap K) (o : SimObj K) : Prop where
  cyc0 : o.cyc0 < h.next
  cyc : o.cyc < h.next
  rows : o.rows < h.next
  aux : o.aux < h.next
  impose : o.impose < h.next
  coastDelay : o.coastDelay < h.next
  idmTarget : o.idmTarget < h.next
  missIters : o.missIters < h.next
  cycs : o.cyc ≠ o.cyc0
  nums : o.aux ≠ o.idmTarget

/-- Two objects share no cell. -/
structure Apart (o p : SimObj K) : Prop where
  cc : o.cyc ≠ p.cyc
  c0 : o.cyc ≠ p.cyc0
  oc : o.cyc0 ≠ p.cyc
  rows : o.rows ≠ p.rows
  aa : o.aux ≠ p.aux
  ai : o.aux ≠ p.idmTarget
  ia : o.idmTarget ≠ p.aux
  ii : o.idmTarget ≠ p.idmTarget
  impose : o.impose ≠ p.impose
  coastDelay : o.coastDelay ≠ p.coastDelay
  missIters : o.missIters ≠ p.missIters

end Fastsim.Spec

namespace Fastsim.Props
open Fastsim Spec Function

theorem _root_.Fastsim.Spec.Apart.symm {K : Type*} {o p : SimObj K} (h : Apart o p) : Apart p o :=
  ⟨h.cc.symm, h.oc.symm, h.c0.symm, h.rows.symm, h.aa.symm, h.ia.symm, h.ai.symm, h.ii.symm, h.impose.symm,
    h.coastDelay.symm, h.missIters.symm⟩

section Lawless
variable {K : Type*} [Zero K] [One K] [NatCast K] [Add K] [Sub K] [Mul K] [Div K] [Neg K]
  [LinearOrder K]
variable {F : Fns K} {H : Veh K → SimParams K → Hooks K} {V : Veh K} {P : SimParams K}

theorem read_write {h : SimHeap K} {o : SimObj K} (ho : Own h o) {s : Sim K} (hs : s.cyc0 = h.cyc o.cyc0) :
    (o.write h s).2.read (o.write h s).1 = s := by
  have h1 := ho.cycs
  have h2 := ho.nums
  obtain ⟨a, b, c, d, e, f, g, i, j, k⟩ := s
  simp only at hs
  simp [SimObj.read, SimObj.write, Function.update_self, Function.update_of_ne h1.symm,
    Function.update_of_ne h2, hs]

theorem read_write_other {h : SimHeap K} {o p : SimObj K} (hp : Apart o p) (s : Sim K) :
    p.read (o.write h s).1 = p.read h := by
  simp [SimObj.read, SimObj.write, Function.update_of_ne hp.cc.symm, Function.update_of_ne hp.c0.symm,
    Function.update_of_ne hp.rows.symm, Function.update_of_ne hp.aa.symm, Function.update_of_ne hp.ai.symm,
    Function.update_of_ne hp.ia.symm, Function.update_of_ne hp.ii.symm, Function.update_of_ne hp.impose.symm,
    Function.update_of_ne hp.coastDelay.symm, Function.update_of_ne hp.missIters.symm]

theorem own_write {h : SimHeap K} {o p : SimObj K} (hp : Own h p) (s : Sim K) : Own (o.write h s).1 p :=
  ⟨hp.cyc0, hp.cyc, hp.rows, hp.aux, hp.impose, hp.coastDelay, hp.idmTarget, hp.missIters, hp.cycs, hp.nums⟩

theorem own_write_self {h : SimHeap K} {o : SimObj K} (hp : Own h o) (s : Sim K) :
    Own (o.write h s).1 (o.write h s).2 :=
  ⟨hp.cyc0, hp.cyc, hp.rows, hp.aux, hp.impose, hp.coastDelay, hp.idmTarget, hp.missIters, hp.cycs, hp.nums⟩

theorem apart_write {h : SimHeap K} {o p : SimObj K} (hp : Apart o p) (s : Sim K) : Apart (o.write h s).2 p :=
  ⟨hp.cc, hp.c0, hp.oc, hp.rows, hp.aa, hp.ai, hp.ia, hp.ii, hp.impose, hp.coastDelay, hp.missIters⟩

theorem read_fresh {h : SimHeap K} {o : SimObj K} {s : Sim K} (h0 : s.cyc0 = h.cyc o.cyc0)
    (hc : s.cyc = h.cyc o.cyc) : (o.fresh h s).2.read (o.fresh h s).1 = s := by
  obtain ⟨a, b, c, d, e, f, g, i, j, k⟩ := s
  simp only at h0 hc
  simp [SimObj.read, SimObj.fresh, h0, hc]

theorem read_fresh_other {h : SimHeap K} {o p : SimObj K} (hp : Own h p) (s : Sim K) :
    p.read (o.fresh h s).1 = p.read h := by
  have := hp.rows; have := hp.aux; have := hp.impose; have := hp.coastDelay; have := hp.idmTarget
  have := hp.missIters
  simp only [SimObj.read, SimObj.fresh]
  rw [update_of_ne (by omega), update_of_ne (by omega), update_of_ne (by omega), update_of_ne (by omega),
    update_of_ne (by omega), update_of_ne (by omega), update_of_ne (by omega), update_of_ne (by omega)]

theorem own_fresh {h : SimHeap K} {o p : SimObj K} (hp : Own h p) (s : Sim K) : Own (o.fresh h s).1 p := by
  have hn : (o.fresh h s).1.next = h.next + 2 := rfl
  exact ⟨by have := hp.cyc0; omega, by have := hp.cyc; omega, by have := hp.rows; omega, by have := hp.aux; omega,
    by have := hp.impose; omega, by have := hp.coastDelay; omega, by have := hp.idmTarget; omega,
    by have := hp.missIters; omega, hp.cycs, hp.nums⟩

theorem own_fresh_self {h : SimHeap K} {o : SimObj K} (h0 : o.cyc0 < h.next) (h1 : o.cyc < h.next)
    (h2 : o.cyc ≠ o.cyc0) (s : Sim K) : Own (o.fresh h s).1 (o.fresh h s).2 := by
  refine ⟨?_, ?_, ?_, ?_, ?_, ?_, ?_, ?_, h2, ?_⟩ <;> simp only [SimObj.fresh] <;> omega

theorem apart_fresh {h : SimHeap K} {o p : SimObj K} (hp : Own h p) (h1 : o.cyc ≠ p.cyc) (h2 : o.cyc ≠ p.cyc0)
    (h3 : o.cyc0 ≠ p.cyc) (s : Sim K) : Apart (o.fresh h s).2 p := by
  have := hp.rows; have := hp.aux; have := hp.impose; have := hp.coastDelay; have := hp.idmTarget
  have := hp.missIters
  refine ⟨h1, h2, h3, ?_, ?_, ?_, ?_, ?_, ?_, ?_, ?_⟩ <;> simp only [SimObj.fresh] <;> omega

theorem read_freshCyc {h : SimHeap K} {o : SimObj K} (ho : Own h o) (c : Cyc K) :
    (o.freshCyc h c).2.read (o.freshCyc h c).1 = { o.read h with cyc := c } := by
  have := ho.cyc0
  simp only [SimObj.read, SimObj.freshCyc, update_self]
  rw [update_of_ne (by omega)]

theorem read_freshCyc_other {h : SimHeap K} {o p : SimObj K} (hp : Own h p) (c : Cyc K) :
    p.read (o.freshCyc h c).1 = p.read h := by
  have := hp.cyc0; have := hp.cyc
  simp only [SimObj.read, SimObj.freshCyc]
  rw [update_of_ne (by omega), update_of_ne (by omega)]

theorem own_freshCyc {h : SimHeap K} {o p : SimObj K} (hp : Own h p) (c : Cyc K) : Own (o.freshCyc h c).1 p := by
  have hn : (o.freshCyc h c).1.next = h.next + 1 := rfl
  exact ⟨by have := hp.cyc0; omega, by have := hp.cyc; omega, by have := hp.rows; omega, by have := hp.aux; omega,
    by have := hp.impose; omega, by have := hp.coastDelay; omega, by have := hp.idmTarget; omega,
    by have := hp.missIters; omega, hp.cycs, hp.nums⟩

theorem own_freshCyc_self {h : SimHeap K} {o : SimObj K} (hp : Own h o) (c : Cyc K) :
    Own (o.freshCyc h c).1 (o.freshCyc h c).2 := by
  have q := own_freshCyc (o := o) hp c
  have := hp.cyc0
  exact ⟨q.cyc0, by simp only [SimObj.freshCyc]; omega, q.rows, q.aux, q.impose, q.coastDelay, q.idmTarget,
    q.missIters, by simp only [SimObj.freshCyc]; omega, hp.nums⟩

theorem apart_freshCyc {h : SimHeap K} {o p : SimObj K} (hp : Own h p) (ha : Apart o p) (c : Cyc K) :
    Apart (o.freshCyc h c).2 p := by
  have := hp.cyc0; have := hp.cyc
  exact ⟨by simp only [SimObj.freshCyc]; omega, by simp only [SimObj.freshCyc]; omega, ha.oc, ha.rows, ha.aa, ha.ai,
    ha.ia, ha.ii, ha.impose, ha.coastDelay, ha.missIters⟩

theorem simDriveStep_cyc0 {H : Hooks K} (hH : H.Local) {s s' : Sim K} (h : simDriveStep F H V P s = .ok s') :
    s'.cyc0 = s.cyc0 := by
  unfold simDriveStep at h
  split at h
  · simp at h
  · rename_i s1 h1
    have e1 : s1.cyc0 = s.cyc0 := by
      split at h1
      · exact (hH.idm _ _ h1).1.cyc0
      · cases h1; rfl
    split at h
    · simp at h
    · rename_i s2 h2
      have e2 : s2.cyc0 = s1.cyc0 := by
        split at h2
        · exact (hH.coast _ _ h2).1.cyc0
        · cases h2; rfl
      simp only [Except.ok.injEq] at h
      rw [← h, (finishStep_agree F P 0 _).cyc0, (solveAndCorrect_corrects (F := F) (V := V) (P := P) s2).cyc0, e2, e1]

/-- One action on an object does to it what it does to the simulation alone, and nothing to another that
shares no cell with it. -/
theorem act_spec (hH : ∀ V P, (H V P).Local) {h : SimHeap K} {o p : SimObj K} (ho : Own h o) (hp : Own h p)
    (ha : Apart o p) (x : SimAct K) :
    (∃ e, o.act F H h x = .error e ∧
      ∀ l, alone F (H o.veh o.params) o.veh o.params (x :: l) (o.read h) = .error e) ∨
    ∃ h' o', o.act F H h x = .ok (h', o') ∧ Own h' o' ∧ Own h' p ∧ Apart o' p ∧ p.read h' = p.read h ∧
      o'.veh = o.veh ∧ o'.params = o.params ∧
      ∀ l, alone F (H o.veh o.params) o.veh o.params (x :: l) (o.read h)
        = alone F (H o.veh o.params) o.veh o.params l (o'.read h') := by
  cases x with
  | step =>
    unfold SimObj.act
    by_cases hlt : (o.read h).i < (o.read h).cyc.length
    · simp only [hlt, if_true, alone]
      cases hs : simDriveStep F (H o.veh o.params) o.veh o.params (o.read h) with
      | error e => left; exact ⟨e, rfl, fun _ => rfl⟩
      | ok s =>
        right
        have hc : s.cyc0 = h.cyc o.cyc0 := simDriveStep_cyc0 (hH _ _) hs
        refine ⟨(o.write h s).1, (o.write h s).2, rfl, own_write_self ho s, own_write hp s, apart_write ha s,
          read_write_other ha s, rfl, rfl, fun l => ?_⟩
        rw [read_write ho hc]
    · simp only [hlt, if_false, alone]
      left; exact ⟨_, rfl, fun _ => rfl⟩
  | init soc =>
    unfold SimObj.act
    simp only [alone]
    cases hs : initForStep o.veh o.params (o.read h) soc none with
    | error e => left; exact ⟨e, rfl, fun _ => rfl⟩
    | ok s =>
      right
      have hs' : s = initState o.veh o.params (o.read h) soc none := by
        unfold initForStep at hs
        split at hs
        · simp at hs
        split at hs
        · simp at hs
        · cases hs; rfl
      have hc0 : s.cyc0 = h.cyc o.cyc0 := by rw [hs']; rfl
      have f1 := own_fresh_self ho.cyc0 ho.cyc ho.cycs s
      have f2 := own_fresh (o := o) hp s
      have f3 := apart_fresh hp ha.cc ha.c0 ha.oc s
      have f4 := read_fresh_other (o := o) hp s
      cases hm : (o.params.missedTrace || o.params.idmAllow || o.params.coastAllow) with
      | false =>
        simp only [Bool.false_eq_true, if_false]
        have hc : s.cyc = h.cyc o.cyc := by
          rw [hs']
          show (if _ then (o.read h).cyc0 else (o.read h).cyc) = _
          rw [if_neg (by rw [hm]; simp)]
          rfl
        exact ⟨(o.fresh h s).1, (o.fresh h s).2, rfl, f1, f2, f3, f4, rfl, rfl, fun l => by rw [read_fresh hc0 hc]⟩
      | true =>
        simp only [if_true]
        refine ⟨((o.fresh h s).2.freshCyc (o.fresh h s).1 s.cyc).1,
          ((o.fresh h s).2.freshCyc (o.fresh h s).1 s.cyc).2, rfl, own_freshCyc_self f1 _, own_freshCyc f2 _, apart_freshCyc f2 f3 _, ?_, rfl, rfl,
          fun l => ?_⟩
        · rw [read_freshCyc_other f2, f4]
        · rw [read_freshCyc f1]
          congr 1
          obtain ⟨a, b, c, d, e, f, g, i, j, k⟩ := s
          simp only at hc0
          simp [SimObj.read, SimObj.fresh, hc0]

theorem actionsOn_same (b : Bool) (x : SimAct K) (p : List (Bool × SimAct K)) :
    actionsOn b ((b, x) :: p) = x :: actionsOn b p := by simp [actionsOn]

theorem actionsOn_diff (b : Bool) (x : SimAct K) (p : List (Bool × SimAct K)) :
    actionsOn b ((!b, x) :: p) = actionsOn b p := by simp [actionsOn]

/-- **C59 (objects without common arrays).** Two simulations that share no array, driven in any order by any
program, end in the states they reach when each is driven alone; the program fails only if one of them
fails alone. -/
theorem C59_apart (hH : ∀ V P, (H V P).Local) (p : List (Bool × SimAct K)) :
    ∀ {h : SimHeap K} {a b : SimObj K}, Own h a → Own h b → Apart a b →
    (∃ h' a' b', runBoth F H p h a b = .ok (h', a', b') ∧
      alone F (H a.veh a.params) a.veh a.params (actionsOn true p) (a.read h) = .ok (a'.read h') ∧
      alone F (H b.veh b.params) b.veh b.params (actionsOn false p) (b.read h) = .ok (b'.read h')) ∨
    ∃ e, runBoth F H p h a b = .error e ∧
      (alone F (H a.veh a.params) a.veh a.params (actionsOn true p) (a.read h) = .error e ∨
       alone F (H b.veh b.params) b.veh b.params (actionsOn false p) (b.read h) = .error e) := by
  induction p with
  | nil =>
    intro h a b _ _ _
    exact .inl ⟨h, a, b, rfl, rfl, rfl⟩
  | cons x p ih =>
    intro h a b oa ob ab
    obtain ⟨w, x⟩ := x
    cases w with
    | true =>
      rw [actionsOn_same, show actionsOn false ((true, x) :: p) = actionsOn false p from actionsOn_diff false x p]
      rcases act_spec (F := F) hH oa ob ab x with ⟨e, h1, h2⟩ | ⟨h', a', h1, oa', ob', ab', hr, hv, hp, h2⟩
      · exact .inr ⟨e, by simp only [runBoth, h1], .inl (h2 _)⟩
      · have q := ih oa' ob' ab'
        rw [hr, hv, hp] at q
        simp only [runBoth, h1, h2]
        exact q
    | false =>
      rw [actionsOn_same, show actionsOn true ((false, x) :: p) = actionsOn true p from actionsOn_diff true x p]
      rcases act_spec (F := F) hH ob oa ab.symm x with ⟨e, h1, h2⟩ | ⟨h', b', h1, ob', oa', ab', hr, hv, hp, h2⟩
      · exact .inr ⟨e, by simp only [runBoth, h1], .inr (h2 _)⟩
      · have q := ih oa' ob' ab'.symm
        rw [hr, hv, hp] at q
        simp only [runBoth, h1, h2]
        exact q

/-- What any copy looks like: the original is untouched, the copy shows the same state, and its cycles are its own. -/
theorem C59_copy_reads (cv : Veh K → Veh K) (deep : Bool) {h : SimHeap K} {o : SimObj K} (ho : Own h o) :
    let r := copySimDrive cv deep h o
    r.2.read r.1 = o.read h ∧ o.read r.1 = o.read h ∧ r.2.veh = cv o.veh ∧ r.2.params = o.params ∧
      r.2.cyc ≠ o.cyc ∧ r.2.cyc0 ≠ o.cyc0 := by
  have := ho.cyc0; have := ho.cyc; have := ho.rows; have := ho.aux; have := ho.impose
  have := ho.coastDelay; have := ho.idmTarget; have := ho.missIters
  cases deep <;>
    simp only [copySimDrive, SimObj.freshCyc0, SimObj.freshCyc, SimObj.fresh, SimObj.read, Bool.false_eq_true,
      if_false, if_true, true_and] <;>
    refine ⟨?_, ?_, ?_, ?_⟩ <;> first | omega | skip
  all_goals
    congr 1 <;> simp [Function.update_apply] <;> first | done | omega

/-- A deep copy shares nothing with the original. -/
theorem deep_apart (cv : Veh K → Veh K) {h : SimHeap K} {o : SimObj K} (ho : Own h o) :
    let r := copySimDrive cv true h o
    Own r.1 o ∧ Own r.1 r.2 ∧ Apart o r.2 := by
  have := ho.cyc0; have := ho.cyc; have := ho.rows; have := ho.aux; have := ho.impose
  have := ho.coastDelay; have := ho.idmTarget; have := ho.missIters
  simp only [copySimDrive, SimObj.freshCyc0, SimObj.freshCyc, SimObj.fresh, if_true]
  refine ⟨⟨?_, ?_, ?_, ?_, ?_, ?_, ?_, ?_, ho.cycs, ho.nums⟩, ⟨?_, ?_, ?_, ?_, ?_, ?_, ?_, ?_, ?_, ?_⟩,
    ⟨?_, ?_, ?_, ?_, ?_, ?_, ?_, ?_, ?_, ?_, ?_⟩⟩ <;> simp only [] <;> omega

/-- **C59 (deep copies are independent).** Copy a simulation at any moment; then step and restart the original
and the copy in any order. Each shows at the end exactly what it would show had it been driven alone from the
moment of the copy. (The copied vehicle must be the vehicle: see C39 for when it is.) -/
theorem C59_deep_independent (hH : ∀ V P, (H V P).Local) (cv : Veh K → Veh K) {h : SimHeap K} {o : SimObj K}
    (ho : Own h o) (hv : cv o.veh = o.veh) (p : List (Bool × SimAct K)) {h' : SimHeap K} {a' b' : SimObj K}
    (hr : runBoth F H p (copySimDrive cv true h o).1 o (copySimDrive cv true h o).2 = .ok (h', a', b')) :
    alone F (H o.veh o.params) o.veh o.params (actionsOn true p) (o.read h) = .ok (a'.read h') ∧
    alone F (H o.veh o.params) o.veh o.params (actionsOn false p) (o.read h) = .ok (b'.read h') := by
  obtain ⟨o1, o2, ap⟩ := deep_apart cv ho
  obtain ⟨r1, r2, r3, r4, -, -⟩ := C59_copy_reads cv true ho
  rcases C59_apart (F := F) hH p o1 o2 ap with ⟨h1, a1, b1, e, ea, eb⟩ | ⟨e, e', -⟩
  · rw [hr] at e
    cases e
    rw [r2] at ea
    rw [r1, r3, r4, hv] at eb
    exact ⟨ea, eb⟩
  · rw [hr] at e'; cases e'

end Lawless

section Floor
variable {K : Type*} [Field K] [LinearOrder K] [IsStrictOrderedRing K] [FloorRing K]

/-- **C59 for the driving modes of the code.** -/
theorem C59_real {F : Fns K} (cv : Veh K → Veh K) {h : SimHeap K} {o : SimObj K} (ho : Own h o)
    (hv : cv o.veh = o.veh) (p : List (Bool × SimAct K)) {h' : SimHeap K} {a' b' : SimObj K}
    (hr : runBoth F (realHooks F) p (copySimDrive cv true h o).1 o (copySimDrive cv true h o).2 = .ok (h', a', b')) :
    alone F (realHooks F o.veh o.params) o.veh o.params (actionsOn true p) (o.read h) = .ok (a'.read h') ∧
    alone F (realHooks F o.veh o.params) o.veh o.params (actionsOn false p) (o.read h) = .ok (b'.read h') :=
  C59_deep_independent (H := realHooks F) (fun _ _ => realHooks_local) cv ho hv p hr

end Floor

/-! ### Concrete cases -/
open Demo

/-- A heap with one simulation of the demo cycle, ready to be started. -/
def demoHeap : SimHeap ℚ :=
  { next := 2, cyc := fun _ => cyc, rows := fun _ => List.replicate 6 Row.zero
    nums := fun _ => List.replicate 6 0, flags := fun _ => List.replicate 6 false
    ints := fun _ => List.replicate 6 0, nats := fun _ => List.replicate 6 0 }

def demoObj : SimObj ℚ :=
  { cyc0 := 0, cyc := 1, rows := 0, aux := 0, impose := 0, coastDelay := 0, idmTarget := 1, missIters := 0
    i := 1, hevCount := 0, veh := conv, params := params }

theorem demo_own : Own demoHeap demoObj := by constructor <;> decide

/-- Stored speeds of both objects after a program, the second a copy of the first. -/
def demoSpeeds (deep : Bool) (p : List (Bool × SimAct ℚ)) : Option (List ℚ × List ℚ) :=
  let r := copySimDrive id deep demoHeap demoObj
  match runBoth fns (fun _ _ => noHooks) p r.1 demoObj r.2 with
  | .ok (h, a, b) => some ((a.read h).rows.map (·.ach.mpsAch), (b.read h).rows.map (·.ach.mpsAch))
  | .error _ => none

/-- Two steps of a deep copy and one of the original, interleaved. -/
theorem C59_demo : demoSpeeds true [(false, .step), (true, .step), (false, .step)] =
    some ([0, 2, 0, 0, 0, 0], [0, 2, 4, 0, 0, 0]) := by decide +kernel

/-- **C59 (shallow copies are not).** Steps of a copy made with `deep=False` appear in the records of the
original, whose step counter does not move. -/
theorem C59_shallow_shares : demoSpeeds false [(false, .step), (false, .step)] =
    some ([0, 2, 4, 0, 0, 0], [0, 2, 4, 0, 0, 0]) := by decide +kernel

/-- Restarting the shallow copy gives it arrays of its own. -/
theorem C59_shallow_restart : demoSpeeds false [(false, .init 0), (false, .step)] =
    some ([0, 0, 0, 0, 0, 0], [0, 2, 0, 0, 0, 0]) := by decide +kernel

end Fastsim.Props
