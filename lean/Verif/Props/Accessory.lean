import Verif.Props.Timer

/-!
# C33: the accessory load override
-/

set_option linter.unusedSectionVars false

namespace Fastsim.Spec

variable {K : Type*} [Zero K] [Div K] [LinearOrder K]

/-- Accessory load of a vehicle when none is prescribed: electric accessories directly, belt-driven
ones through the alternator. -/
def ownAux (V : Veh K) : K := if V.noElecAux then V.auxKw / V.altEff else V.auxKw

/-- The prescribed loads from index `i` on are all zero. -/
def Silent (a : List K) (i : Nat) : Prop := ∀ j, i ≤ j → ∀ x, a[j]? = some x → x = 0

open Classical in
/-- The load simulated at index `i` when `a` is prescribed: the vehicle's own load in the silent tail
of the prescription (the first entry apart), the prescribed one elsewhere. -/
noncomputable def loadAt (V : Veh K) (a : List K) (i : Nat) : Option K :=
  if 1 ≤ i ∧ i < a.length ∧ Silent a i then some (ownAux V) else a[i]?

end Fastsim.Spec

namespace Fastsim.Props
open Fastsim Spec

section Lawless
variable {K : Type*} [Zero K] [One K] [NatCast K] [Add K] [Sub K] [Mul K] [Div K] [Neg K]
  [LinearOrder K]
variable {F : Fns K} {H : Hooks K} {V : Veh K} {P : SimParams K}

/-- Car following does not touch the accessory load; coasting at most solves the current step. -/
structure Hooks.KeepAux (H : Hooks K) (V : Veh K) : Prop where
  idm : ∀ s s', H.idm s = .ok s' → s'.aux = s.aux
  coast : ∀ s s', H.coast s = .ok s' → s'.aux = s.aux ∨ s'.aux = auxStep V s.aux s.i

theorem silent_iff (a : List K) (i : Nat) :
    ((a.drop i).all fun x => decide (x = 0)) = true ↔ Silent a i := by
  rw [List.all_eq_true]
  constructor
  · intro h j hj x hx
    refine of_decide_eq_true (h x ?_)
    rw [List.mem_iff_getElem?]
    exact ⟨j - i, by rw [List.getElem?_drop, show i + (j - i) = j from by omega]; exact hx⟩
  · intro h x hx
    rw [List.mem_iff_getElem?] at hx
    obtain ⟨j, hj⟩ := hx
    rw [List.getElem?_drop] at hj
    exact decide_eq_true (h (i + j) (by omega) x hj)

/-- Array during a walk over prescription `a`: indices below `k` are final, the others untouched. -/
def AuxInv (V : Veh K) (a : List K) (k : Nat) (b : List K) : Prop :=
  b.length = a.length ∧ (∀ j, j < k → b[j]? = loadAt V a j) ∧ ∀ j, k ≤ j → b[j]? = a[j]?

theorem auxInv_step {a b : List K} {k : Nat} (h1 : 1 ≤ k) (hk : k < a.length) (h : AuxInv V a k b) :
    AuxInv V a (k + 1) (auxStep V b k) := by
  obtain ⟨hl, hlo, hhi⟩ := h
  have hsil : Silent b k ↔ Silent a k :=
    ⟨fun h j hj x hx => h j hj x (by rw [hhi j hj]; exact hx),
      fun h j hj x hx => h j hj x (by rw [← hhi j hj]; exact hx)⟩
  refine ⟨by rw [auxStep_length, hl], fun j hj => ?_, fun j hj => ?_⟩
  · by_cases hjk : j = k
    · subst hjk
      by_cases hs : Silent a j
      · have e : auxStep V b j = b.set j (ownAux V) := by
          unfold auxStep ownAux
          rw [if_pos ((silent_iff b j).2 (hsil.2 hs))]
        have hc : 1 ≤ j ∧ j < a.length ∧ Silent a j := ⟨h1, hk, hs⟩
        rw [e, loadAt, if_pos hc, List.getElem?_set_self (by omega)]
      · have e : auxStep V b j = b := by
          unfold auxStep
          rw [if_neg (fun e => hs (hsil.1 ((silent_iff b j).1 e)))]
        rw [e, loadAt, if_neg (fun e => hs e.2.2), hhi j le_rfl]
    · rw [auxStep_before _ _ _ _ (by omega)]
      exact hlo j (by omega)
  · unfold auxStep
    split
    · rw [List.getElem?_set_ne (by omega)]; exact hhi j (by omega)
    · exact hhi j (by omega)

theorem auxStep_idem (V : Veh K) (b : List K) (k : Nat) :
    auxStep V (auxStep V b k) k = auxStep V b k := by
  by_cases hs : ((b.drop k).all fun x => decide (x = 0)) = true
  · have e : auxStep V b k = b.set k (if V.noElecAux then V.auxKw / V.altEff else V.auxKw) := by
      unfold auxStep; rw [if_pos hs]
    rw [e]
    generalize (if V.noElecAux = true then V.auxKw / V.altEff else V.auxKw) = y at e
    have e2 : ∀ c : List K, auxStep V c k = c.set k (ownAux V) ∨ auxStep V c k = c := by
      intro c
      unfold auxStep ownAux
      by_cases hc : ((c.drop k).all fun x => decide (x = 0)) = true
      · exact Or.inl (by rw [if_pos hc])
      · exact Or.inr (by rw [if_neg hc])
    have e3 : auxStep V b k = b.set k (ownAux V) := by
      unfold auxStep ownAux; rw [if_pos hs]
    rw [e3] at e
    rw [← e]
    rcases e2 (b.set k (ownAux V)) with h | h
    · rw [h, List.set_set]
    · exact h
  · have e : auxStep V b k = b := by unfold auxStep; rw [if_neg hs]
    rw [e, e]

theorem corrects_aux {s s' : Sim K} (h : Corrects F V P s s') : s'.aux = auxStep V s.aux s.i := by
  induction h with
  | solve => rfl
  | again x h ih =>
    show auxStep V _ _ = _
    rw [ih, h.i, auxStep_idem]
  | bump h ih => exact ih

theorem finishStep_aux (F : Fns K) (P : SimParams K) (s : Sim K) : (finishStep F P s).aux = s.aux := by
  unfold finishStep; simp only; split <;> rfl

theorem simDriveStep_aux (hH : H.Local) (hA : Hooks.KeepAux H V) {s s' : Sim K}
    (h : simDriveStep F H V P s = .ok s') : s'.aux = auxStep V s.aux s.i := by
  unfold simDriveStep at h
  split at h
  · simp at h
  · rename_i s1 h1
    have e1 : s1.aux = s.aux ∧ s1.i = s.i := by
      split at h1
      · exact ⟨hA.idm _ _ h1, (hH.idm _ _ h1).2.1⟩
      · cases h1; exact ⟨rfl, rfl⟩
    split at h
    · simp at h
    · rename_i s2 h2
      have e2 : (s2.aux = s1.aux ∨ s2.aux = auxStep V s1.aux s1.i) ∧ s2.i = s1.i := by
        split at h2
        · exact ⟨hA.coast _ _ h2, (hH.coast _ _ h2).2.1⟩
        · cases h2; exact ⟨Or.inl rfl, rfl⟩
      cases h
      rw [finishStep_aux, corrects_aux (solveAndCorrect_corrects s2), e2.2, e1.2]
      rcases e2.1 with e | e
      · rw [e, e1.1]
      · rw [e, e1.1, e1.2, auxStep_idem]

theorem walkLoop_aux (hH : H.Local) (hA : Hooks.KeepAux H V) {a : List K} : ∀ (n : Nat) {s s' : Sim K},
    WalkInv F V P s → AuxInv V a s.i s.aux → walkLoop F H V P n s = .ok s' → AuxInv V a s'.i s'.aux
  | 0, s, s', hI, h, hw => by
    unfold walkLoop at hw
    split at hw
    · simp at hw
    · cases hw; exact h
  | n + 1, s, s', hI, h, hw => by
    unfold walkLoop at hw
    split at hw
    · rename_i hlt
      split at hw
      · simp at hw
      · rename_i s1 h1
        obtain ⟨hI1, hi1, -⟩ := simDriveStep_inv hH hI hlt h1
        refine walkLoop_aux hH hA n hI1 ?_ hw
        rw [hi1, simDriveStep_aux hH hA h1]
        exact auxInv_step hI.pos (by rw [← h.1, hI.lenAux]; exact hlt) h
    · cases hw; exact h

/-- The prescription a run over `n` samples works with: the override if it has the right length,
otherwise zeros (an override of another length is ignored). -/
def prescribed (n : Nat) (aux : Option (List K)) : List K :=
  match aux with
  | some a => if a.length = n then a else List.replicate n 0
  | none => List.replicate n 0

theorem walk_aux (hH : H.Local) (hA : Hooks.KeepAux H V) {s s' : Sim K} {soc : K}
    {aux : Option (List K)} (hlen : s.cyc.length = s.cyc0.length)
    (h : walk F H V P s soc aux = .ok s') :
    s'.aux.length = s.cyc0.length ∧
      ∀ i, s'.aux[i]? = loadAt V (prescribed s.cyc0.length aux) i := by
  have w := walk_done hH hlen h
  refine ⟨w.lenAux, ?_⟩
  have hpl : (prescribed s.cyc0.length aux).length = s.cyc0.length := by
    unfold prescribed; split
    · split <;> simp [*]
    · simp
  unfold walk at h
  split at h
  · simp at h
  · rename_i s1 h1
    have q := initForStep_spec hlen h1
    have hi := q.i
    have hp := q.pos
    have hI : WalkInv F V P s1 := ⟨by omega, by rw [q.lenCyc]; omega,
      by rw [q.lenRows, q.lenCyc], by rw [q.lenAux, q.lenCyc], fun j a b => by omega⟩
    have hpre : s1.aux = prescribed s.cyc0.length aux := by
      rw [q.aux]; unfold initAux prescribed; cases aux <;> rfl
    have h0 : AuxInv V (prescribed s.cyc0.length aux) s1.i s1.aux := by
      rw [hi, hpre]
      refine ⟨rfl, fun j hj => ?_, fun j _ => rfl⟩
      unfold loadAt
      rw [if_neg (by omega)]
    have hfin := walkLoop_aux hH hA _ hI h0 h
    rw [w.atEnd] at hfin
    intro i
    by_cases hi : i < s.cyc0.length
    · exact hfin.2.1 i hi
    · rw [List.getElem?_eq_none (by rw [w.lenAux]; omega)]
      unfold loadAt
      rw [if_neg (by rw [hpl]; omega), List.getElem?_eq_none (by rw [hpl]; omega)]

theorem loadAt_idem {a b : List K} (hl : b.length = a.length) (h : ∀ i, b[i]? = loadAt V a i) (i : Nat) :
    loadAt V b i = b[i]? := by
  unfold loadAt
  split
  · rename_i hc
    obtain ⟨h1, h2, h3⟩ := hc
    -- the last entry of `b` is zero, hence so is that of `a` or the own load
    have hlast : b[b.length - 1]? = some (b[b.length - 1]'(by omega)) := List.getElem?_eq_getElem _
    have hz : b[b.length - 1]'(by omega) = 0 := h3 _ (by omega) _ hlast
    by_cases hs : Silent a (a.length - 1)
    · have : b[b.length - 1]? = some (ownAux V) := by
        rw [h, hl, loadAt, if_pos ⟨by omega, by omega, hs⟩]
      rw [hlast, hz] at this
      have own : ownAux V = 0 := (Option.some.inj this).symm
      have hbi : b[i]? = some (b[i]'h2) := List.getElem?_eq_getElem _
      rw [hbi, h3 i le_rfl _ hbi, own]
    · have : b[b.length - 1]? = a[b.length - 1]? := by
        rw [h, loadAt, if_neg (by rw [hl]; exact fun e => hs e.2.2)]
      refine absurd ?_ hs
      intro j hj x hx
      have hjl : j < a.length := by
        by_contra hc
        rw [List.getElem?_eq_none (by omega)] at hx
        simp at hx
      have hje : j = b.length - 1 := by omega
      rw [hje, ← this, hlast, hz] at hx
      exact (Option.some.inj hx).symm
  · rfl

/-- Charge balancing passes the array on from walk to walk; that changes nothing more. -/
theorem balancing_aux (hH : H.Local) (hA : Hooks.KeepAux H V) {s0 s : Sim K} {aux0 aux : Option (List K)}
    {n : Nat} {e soc : K} (hlen : s0.cyc.length = s0.cyc0.length)
    (h : Balancing F H V P s0 aux0 n e soc aux s) :
    (s.cyc.length = s0.cyc0.length ∧ s.cyc0 = s0.cyc0) ∧
    ∀ i, loadAt V (prescribed s0.cyc0.length aux) i = loadAt V (prescribed s0.cyc0.length aux0) i := by
  induction h with
  | start => exact ⟨⟨hlen, rfl⟩, fun _ => rfl⟩
  | @round n e soc aux s s' h he hn hw ih =>
    have hlen' : s.cyc.length = s.cyc0.length := by rw [ih.1.1, ih.1.2]
    have w := walk_done hH (s := { s with hevCount := n + 1 }) hlen' hw
    have hx := walk_aux hH hA (s := { s with hevCount := n + 1 }) hlen' hw
    have hc0 : ({ s with hevCount := n + 1 } : Sim K).cyc0 = s0.cyc0 := ih.1.2
    rw [hc0] at hx w
    refine ⟨⟨w.lenCyc, w.cyc0⟩, ?_⟩
    intro i
    cases aux with
    | none => exact ih.2 i
    | some b =>
      unfold auxAfter
      by_cases hb : b.length = s'.aux.length
      · simp only [hb, if_true]
        have e1 : prescribed s0.cyc0.length (some s'.aux) = s'.aux := by
          unfold prescribed; simp [hx.1]
        have e2 : prescribed s0.cyc0.length (some b) = b := by
          unfold prescribed; simp [hb, hx.1]
        rw [e1]
        rw [e2] at hx
        have hi := ih.2 i
        rw [e2] at hi
        rw [loadAt_idem hb.symm hx.2, hx.2, hi]
      · simp only [hb, if_false]
        exact ih.2 i

/-- **C33.** After a run (of any kind, charge balancing included) the accessory load recorded for
sample `i` is the override's value there, except that from the point on where all further override
values are zero it is the vehicle's own load; without an override, or with one of the wrong length,
the vehicle's own load is used throughout (and zero for the first sample). For any rounding. -/
theorem C33_load (hH : H.Local) (hA : Hooks.KeepAux H V) {s s' : Sim K} {init : Option K}
    {aux : Option (List K)} (hlen : s.cyc.length = s.cyc0.length)
    (h : simDrive F H V P s init aux = .ok s') :
    s'.aux.length = s.cyc0.length ∧
      ∀ i, s'.aux[i]? = loadAt V (prescribed s.cyc0.length aux) i := by
  by_cases hv : init = none ∧ V.ptType = .hev
  · obtain ⟨rfl, hv⟩ := hv
    obtain ⟨m, e, soc, aux', s1, hb, -, -, hw⟩ := C27_balancing hv h
    have hk := balancing_aux hH hA hlen hb
    have hx := walk_aux hH hA (by rw [hk.1.1, hk.1.2]) hw
    rw [hk.1.2] at hx
    exact ⟨hx.1, fun i => by rw [hx.2, hk.2]⟩
  · rw [C27_single_walk _ _ _ (fun e => fun e' => hv ⟨e, e'⟩)] at h
    exact walk_aux hH hA (s := { s with hevCount := 0 }) hlen h

/-- **C33 (honoured).** If the last override value is not zero, the recorded loads are the override,
entry by entry, so the caller's array (which the run writes to) is left as it was; and the load used
in each step is the recorded one. -/
theorem C33_honoured (hH : H.Local) (hA : Hooks.KeepAux H V) {s s' : Sim K} {init : Option K}
    {a : List K} (hlen : s.cyc.length = s.cyc0.length) (ha : a.length = s.cyc0.length) {x : K}
    (hlast : a.getLast? = some x) (hx : x ≠ 0) (h : simDrive F H V P s init (some a) = .ok s') :
    s'.aux = a ∧ auxAfter s' (some a) = some a ∧
      ∀ i r, 1 ≤ i → i < s.cyc0.length → s'.rows[i]? = some r → a[i]? = some r.auxInKw := by
  have hL := C33_load hH hA hlen h
  have hpre : prescribed s.cyc0.length (some a) = a := by unfold prescribed; simp [ha]
  have haux : s'.aux = a := by
    apply List.ext_getElem?
    intro i
    rw [hL.2, hpre, loadAt, if_neg]
    rintro ⟨-, h2, h3⟩
    refine hx (h3 (a.length - 1) (by omega) x ?_)
    rw [← List.getLast?_eq_getElem?, hlast]
  refine ⟨haux, by unfold auxAfter; simp [haux], ?_⟩
  intro i r h1 h2 hr
  have hfin := Finished.simDrive hH hlen h
  have hlen' := hfin.lenRows hH
  have hpos : i < s'.rows.length := by
    by_contra hc
    rw [List.getElem?_eq_none (by omega)] at hr
    simp at hr
  obtain ⟨p, r', dt, b, hs⟩ := stepAt_exists hH hfin.reachable h1 (by rw [hfin.atEnd, ← hlen']; exact hpos)
  obtain ⟨E, st, -, -, h3, h4⟩ := StepAt.solve hH hfin.reachable hs
  have : r = r' := by have := hs.row; rw [hr] at this; exact Option.some.inj this
  rw [this, h4, ← haux, hs.aux, ← h3]
  rfl

end Lawless

/-! ### Concrete cases -/

open Demo

theorem noHooks_keepAux (V : Veh ℚ) : Hooks.KeepAux noHooks V :=
  ⟨fun s s' h => by cases h; rfl, fun s s' h => by cases h; exact Or.inl rfl⟩

/-- Hypotheses of `C33_honoured` are met by a charge-balanced run. -/
example : ∃ s, simDrive fns noHooks smallHev params (Sim.new cyc) none (some [0, 1, 2, 0, 0, 1 / 4]) =
    .ok s ∧ s.aux = [0, 1, 2, 0, 0, 1 / 4] ∧ 0 < s.hevCount := by
  have hall : (match simDrive fns noHooks smallHev params (Sim.new cyc) none
        (some [0, 1, 2, 0, 0, 1 / 4]) with
      | .ok s => decide (s.aux = [0, 1, 2, 0, 0, 1 / 4] ∧ 0 < s.hevCount)
      | .error _ => false) = true := by decide +kernel
  split at hall
  · rename_i s hs
    exact ⟨s, hs, of_decide_eq_true hall⟩
  · simp at hall

/-- **C33 refuted in general.** An override that switches the accessories off after two steps is not
honoured: in its tail the vehicle's own half kilowatt is simulated, and the caller's array then
contains it. -/
theorem C33_trailing_zeros_replaced :
    ∃ s, simDrive fns noHooks conv params (Sim.new cyc) none (some [1, 1, 2, 0, 0, 0]) = .ok s ∧
      s.aux = [1, 1, 2, 1 / 2, 1 / 2, 1 / 2] ∧
      auxAfter s (some [1, 1, 2, 0, 0, 0]) = some [1, 1, 2, 1 / 2, 1 / 2, 1 / 2] := by
  have hall : (match simDrive fns noHooks conv params (Sim.new cyc) none
        (some [1, 1, 2, 0, 0, 0]) with
      | .ok s => decide (s.aux = [1, 1, 2, 1 / 2, 1 / 2, 1 / 2] ∧
          auxAfter s (some [1, 1, 2, 0, 0, 0]) = some [1, 1, 2, 1 / 2, 1 / 2, 1 / 2])
      | .error _ => false) = true := by decide +kernel
  split at hall
  · rename_i s hs
    exact ⟨s, hs, of_decide_eq_true hall⟩
  · simp at hall

/-- An override of the wrong length is ignored (the code only logs a warning). -/
theorem C33_wrong_length_ignored :
    ∃ s, simDrive fns noHooks conv params (Sim.new cyc) none (some [1, 1]) = .ok s ∧
      s.aux = [0, 1 / 2, 1 / 2, 1 / 2, 1 / 2, 1 / 2] := by
  have hall : (match simDrive fns noHooks conv params (Sim.new cyc) none (some [1, 1]) with
      | .ok s => decide (s.aux = [0, 1 / 2, 1 / 2, 1 / 2, 1 / 2, 1 / 2])
      | .error _ => false) = true := by decide +kernel
  split at hall
  · rename_i s hs
    exact ⟨s, hs, of_decide_eq_true hall⟩
  · simp at hall

end Fastsim.Props
