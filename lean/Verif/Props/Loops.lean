import Verif.Props.Speed

/-!
# C27, C28, C47: simulation loops, repeated runs, initial state of charge
-/

set_option linter.unusedSectionVars false

namespace Fastsim.Spec

section Lawless
variable {K : Type*} [Zero K] [One K] [NatCast K] [Add K] [Sub K] [Mul K] [Div K] [Neg K]
  [LinearOrder K]

/-- `n` steps in a row; the first exception ends it. -/
def stepTimes (step : Sim K → Except PyErr (Sim K)) : Nat → Sim K → Except PyErr (Sim K)
  | 0, s => .ok s
  | n + 1, s =>
    match step s with
    | .error e => .error e
    | .ok s' => stepTimes step n s'

/-- The rounds of charge balancing: `rounds` walks made, the last with imbalance `e`, ending in object
`s` (`1` before the first); `soc` is where the next walk will start, `aux` the override as left by the
walks so far. A round is made only if the imbalance is above tolerance and rounds are left. -/
inductive Balancing (F : Fns K) (H : Hooks K) (V : Veh K) (P : SimParams K) (s0 : Sim K)
    (aux0 : Option (List K)) : Nat → K → K → Option (List K) → Sim K → Prop
  | start : Balancing F H V P s0 aux0 0 1 ((V.maxSoc + V.minSoc) / 2) aux0 { s0 with hevCount := 0 }
  | round {n : Nat} {e soc : K} {aux : Option (List K)} {s s' : Sim K}
      (h : Balancing F H V P s0 aux0 n e soc aux s) (he : V.essToFuelOkError < e)
      (hn : n < P.simCountMax) (hw : walk F H V P { s with hevCount := n + 1 } soc aux = .ok s') :
      Balancing F H V P s0 aux0 (n + 1) (ess2Fuel V s')
        (min 1 (max 0 (s'.rows.getLast?.getD Row.zero).dec.soc)) (auxAfter s' aux) s'

end Lawless
end Fastsim.Spec

namespace Fastsim.Props
open Fastsim Spec

section Lawless
variable {K : Type*} [Zero K] [One K] [NatCast K] [Add K] [Sub K] [Mul K] [Div K] [Neg K]
  [LinearOrder K]
variable {F : Fns K} {H : Hooks K} {V : Veh K} {P : SimParams K}

theorem walkLoop_eq_stepTimes (hH : H.Local) : ∀ (k n : Nat) (s : Sim K), WalkInv F V P s →
    s.i + k = s.cyc.length → k ≤ n → walkLoop F H V P n s = stepTimes (simDriveStep F H V P) k s
  | 0, n, s, hI, hk, hn => by
    have hnot : ¬ s.i < s.cyc.length := by omega
    cases n <;> simp [walkLoop, hnot, stepTimes]
  | k + 1, 0, s, hI, hk, hn => by omega
  | k + 1, n + 1, s, hI, hk, hn => by
    have hlt : s.i < s.cyc.length := by omega
    rw [walkLoop, if_pos hlt, stepTimes]
    cases h : simDriveStep F H V P s with
    | error e => rfl
    | ok s' =>
      obtain ⟨hI', hi, ha⟩ := simDriveStep_inv hH hI hlt h
      simp only
      exact walkLoop_eq_stepTimes hH k n s' hI' (by rw [hi, ha.lenCyc]; omega) (by omega)

/-- **C27 (walk).** `sim_drive_walk` is initialisation followed by exactly `n - 1` steps for a cycle
of `n` samples, whatever happens in them (any exception of a step is the exception of the walk), and
if it succeeds the step counter has run through all samples. -/
theorem C27_walk_is_steps (hH : H.Local) (s : Sim K) (hlen : s.cyc.length = s.cyc0.length) (soc : K)
    (aux : Option (List K)) :
    walk F H V P s soc aux =
      (match initForStep V P s soc aux with
       | .error e => .error e
       | .ok s1 => stepTimes (simDriveStep F H V P) (s.cyc0.length - 1) s1) ∧
    ∀ s', walk F H V P s soc aux = .ok s' → s'.i = s.cyc0.length ∧ s'.cyc0 = s.cyc0 ∧
      s'.cyc.length = s.cyc0.length ∧ s'.rows.length = s.cyc0.length := by
  constructor
  · unfold walk
    cases h : initForStep V P s soc aux with
    | error e => rfl
    | ok s1 =>
      have q := initForStep_spec hlen h
      have hi := q.i
      have hp := q.pos
      have hI : WalkInv F V P s1 := ⟨by omega, by rw [q.lenCyc]; omega,
        by rw [q.lenRows, q.lenCyc], by rw [q.lenAux, q.lenCyc], fun j a b => by omega⟩
      simp only
      exact walkLoop_eq_stepTimes hH _ _ s1 hI (by rw [hi, q.lenCyc]; omega) (by rw [q.lenCyc]; omega)
  · intro s' h
    have w := walk_done hH hlen h
    exact ⟨w.atEnd, w.cyc0, w.lenCyc, w.lenRows⟩

/-- **C27 (each step once, in order).** Each of the `n - 1` steps of a walk advances the step counter
by one and leaves all results and times of earlier steps alone. -/
theorem C27_step_advances (hH : H.Local) {s s' : Sim K} (h : Reachable F H V P s)
    (hlt : s.i < s.cyc.length) (hstep : simDriveStep F H V P s = .ok s') :
    s'.i = s.i + 1 ∧ s'.cyc0 = s.cyc0 ∧ s'.cyc.length = s.cyc.length ∧
    (∀ j, j < s.i → s'.rows[j]? = s.rows[j]? ∧ (Cyc.times s'.cyc)[j]? = (Cyc.times s.cyc)[j]?) := by
  obtain ⟨-, hi, ha⟩ := simDriveStep_inv hH (Reachable.inv hH h).1 hlt hstep
  exact ⟨hi, ha.cyc0, ha.lenCyc, fun j hj => ⟨ha.rows j hj, ha.times j hj⟩⟩

/-- **C27 (length 0 and 1).** A cycle without samples makes `init_for_step` raise `IndexError` for any
state of charge it does not reject; a cycle with one sample is initialised and makes no step. -/
theorem C27_short_cycles (hH : H.Local) (s : Sim K) (hlen : s.cyc.length = s.cyc0.length) (soc : K)
    (aux : Option (List K)) (hsoc : V.ptType = .conv ∨ (V.minSoc ≤ soc ∧ soc ≤ V.maxSoc)) :
    (s.cyc0.length = 0 → walk F H V P s soc aux = .error .indexError) ∧
    (s.cyc0.length = 1 → ∃ s', initForStep V P s soc aux = .ok s' ∧
      walk F H V P s soc aux = .ok s' ∧ s'.i = 1) := by
  have hno : ¬ (V.ptType ≠ .conv ∧ (V.maxSoc < soc ∨ soc < V.minSoc)) := by
    rintro ⟨a, b⟩
    rcases hsoc with h | h
    · exact a h
    · rcases b with b | b
      · exact absurd h.2 (not_le.2 b)
      · exact absurd h.1 (not_le.2 b)
  constructor
  · intro h0
    unfold walk initForStep
    rw [if_neg hno, if_pos (Or.inr h0)]
  · intro h1
    have hi : initForStep V P s soc aux = .ok (initState V P s soc aux) := by
      unfold initForStep
      rw [if_neg hno, if_neg (by omega)]
    refine ⟨_, hi, ?_, rfl⟩
    rw [(C27_walk_is_steps hH s hlen soc aux).1, hi, h1]
    rfl

theorem hevLoop_balancing {s0 : Sim K} {aux0 : Option (List K)} (aux : Option (List K)) (n : Nat)
    (e soc : K) (s : Sim K) {r : Sim K × K × Option (List K)} (hn : n ≤ P.simCountMax)
    (hb : Balancing F H V P s0 aux0 n e soc aux s) (h : hevLoop F H V P aux n e soc s = .ok r) :
    ∃ m e', Balancing F H V P s0 aux0 m e' r.2.1 r.2.2 r.1 ∧ m ≤ P.simCountMax ∧
      (e' ≤ V.essToFuelOkError ∨ m = P.simCountMax) := by
  fun_induction hevLoop F H V P aux n e soc s with
  | case1 aux n e soc s hc err hw => simp at h
  | case2 aux n e soc s hc s1 hw ih => exact ih (by omega) (.round hb hc.1 hc.2 hw) h
  | case3 aux n e soc s hc =>
    cases h
    refine ⟨n, e, hb, hn, ?_⟩
    by_cases he : V.essToFuelOkError < e
    · exact Or.inr (by have : ¬ n < P.simCountMax := fun hlt => hc ⟨he, hlt⟩; omega)
    · exact Or.inl (not_lt.1 he)

/-- **C27 (charge balancing).** Without a given initial state of charge, a hybrid makes `m` balancing
walks, at most `sim_count_max`, and one more; if fewer than `sim_count_max` were made, the imbalance of
the last one is within tolerance; each balancing walk starts where the previous one ended (clipped to
`[0,1]`), the first in the middle of the window. -/
theorem C27_balancing (hv : V.ptType = .hev) {s s' : Sim K} {aux : Option (List K)}
    (h : simDrive F H V P s none aux = .ok s') :
    ∃ m e soc aux' s1, Balancing F H V P s aux m e soc aux' s1 ∧ m ≤ P.simCountMax ∧
      (m < P.simCountMax → e ≤ V.essToFuelOkError) ∧ walk F H V P s1 soc aux' = .ok s' := by
  unfold simDrive at h
  simp only [hv] at h
  split at h
  · simp at h
  · rename_i r hr
    obtain ⟨m, e', h1, h2, h3⟩ := hevLoop_balancing aux 0 1 _ _ (Nat.zero_le _)
      (Balancing.start (F := F) (H := H) (V := V) (P := P) (s0 := s) (aux0 := aux)) hr
    exact ⟨m, e', _, _, _, h1, h2, fun hlt => h3.resolve_right (by omega), h⟩

/-- The state of charge a run without balancing starts at. -/
def startSoc (V : Veh K) (init : Option K) (pt : PtType) : K :=
  match init, pt with
  | some soc, _ => soc
  | none, .conv => (V.maxSoc + V.minSoc) / 2
  | none, _ => V.maxSoc

/-- Other powertrains, and any powertrain with a given state of charge, make exactly one walk. -/
theorem C27_single_walk (s : Sim K) (init : Option K) (aux : Option (List K))
    (hv : init = none → V.ptType ≠ .hev) :
    simDrive F H V P s init aux = walk F H V P { s with hevCount := 0 }
      (startSoc V init V.ptType) aux := by
  unfold simDrive
  cases init with
  | some soc => rfl
  | none =>
    have := hv rfl
    cases hp : V.ptType with
    | hev => exact absurd hp this
    | conv => simp only [hp]; rfl
    | phev => simp only [hp]; rfl
    | bev => simp only [hp]; rfl

/-! ### C28 -/

/-- Some option that makes a run start from a copy of the original cycle is on. -/
def Resets (P : SimParams K) : Prop :=
  P.missedTrace = true ∨ P.idmAllow = true ∨ P.coastAllow = true

/-- Two objects start a run from the same inputs: same original cycle and, when the run does not reset
the cycle, the same cycle. -/
structure SameInputs (P : SimParams K) (s s' : Sim K) : Prop where
  cyc0 : s'.cyc0 = s.cyc0
  len : s'.cyc.length = s.cyc.length
  cyc : ¬ Resets P → s'.cyc = s.cyc

theorem initState_same {s s' : Sim K} (h : SameInputs P s s') (hh : s'.hevCount = s.hevCount) (soc : K)
    (aux : Option (List K)) : initState V P s' soc aux = initState V P s soc aux := by
  have hc : (initState V P s' soc aux).cyc = (initState V P s soc aux).cyc := by
    unfold initState
    simp only
    by_cases hr : (P.missedTrace || P.idmAllow || P.coastAllow) = true
    · rw [if_pos hr, if_pos hr, h.cyc0]
    · rw [if_neg hr, if_neg hr]
      refine h.cyc ?_
      rintro (e | e | e) <;> simp [e] at hr
  unfold initState initArrays at hc ⊢
  simp only [h.cyc0] at hc
  simp only [h.cyc0, h.len, hh, hc]

theorem walk_same {s s' : Sim K} (h : SameInputs P s s') (hh : s'.hevCount = s.hevCount) (soc : K)
    (aux : Option (List K)) : walk F H V P s' soc aux = walk F H V P s soc aux := by
  unfold walk initForStep
  rw [initState_same h hh, h.len, h.cyc0]

theorem walkLoop_cyc (hP : ¬ Resets P) : ∀ (n : Nat) {s s' : Sim K},
    walkLoop F H V P n s = .ok s' → s'.cyc = s.cyc
  | 0, s, s', h => by
    unfold walkLoop at h
    split at h
    · simp at h
    · cases h; rfl
  | n + 1, s, s', h => by
    unfold walkLoop at h
    split at h
    · split at h
      · simp at h
      · rename_i s1 h1
        have e1 := walkLoop_cyc hP n h
        have hi : P.idmAllow = false := by
          cases he : P.idmAllow with
          | false => rfl
          | true => exact absurd (Or.inr (Or.inl he)) hP
        have hc : P.coastAllow = false := by
          cases he : P.coastAllow with
          | false => rfl
          | true => exact absurd (Or.inr (Or.inr he)) hP
        have hm : P.missedTrace = false := by
          cases he : P.missedTrace with
          | false => rfl
          | true => exact absurd (Or.inl he) hP
        rw [simDriveStep_eq hc hi, solveAndCorrect_off hm] at h1
        cases h1
        exact e1
    · cases h; rfl

theorem walk_keeps (hH : H.Local) {s s' : Sim K} {soc : K} {aux : Option (List K)}
    (hlen : s.cyc.length = s.cyc0.length) (h : walk F H V P s soc aux = .ok s') :
    SameInputs P s s' := by
  have w := walk_done hH hlen h
  refine ⟨w.cyc0, by rw [w.lenCyc, hlen], fun hr => ?_⟩
  unfold walk at h
  split at h
  · simp at h
  · rename_i s1 h1
    rw [walkLoop_cyc hr _ h, (initForStep_spec hlen h1).eq]
    unfold initState
    simp only
    rw [if_neg]
    intro hc
    apply hr
    unfold Resets
    simp only [Bool.or_eq_true] at hc
    tauto

theorem SameInputs.trans {s s' s'' : Sim K} (h : SameInputs P s s') (h' : SameInputs P s' s'') :
    SameInputs P s s'' :=
  ⟨h'.cyc0.trans h.cyc0, h'.len.trans h.len, fun hr => (h'.cyc hr).trans (h.cyc hr)⟩

theorem hevLoop_same {aux : Option (List K)} {n : Nat} {e soc : K} {s s' : Sim K}
    (h : SameInputs P s s') (hh : s'.hevCount = s.hevCount) :
    (∃ err, hevLoop F H V P aux n e soc s' = .error err ∧ hevLoop F H V P aux n e soc s = .error err) ∨
    (∃ r, hevLoop F H V P aux n e soc s' = .ok r ∧ hevLoop F H V P aux n e soc s = .ok r) ∨
    (hevLoop F H V P aux n e soc s' = .ok (s', soc, aux) ∧
      hevLoop F H V P aux n e soc s = .ok (s, soc, aux)) := by
  rw [hevLoop, hevLoop]
  by_cases hc : V.essToFuelOkError < e ∧ n < P.simCountMax
  · rw [dif_pos hc, dif_pos hc,
      walk_same (s := { s with hevCount := n + 1 }) (s' := { s' with hevCount := n + 1 })
        ⟨h.cyc0, h.len, h.cyc⟩ rfl]
    cases walk F H V P { s with hevCount := n + 1 } soc aux with
    | error err => exact Or.inl ⟨err, rfl, rfl⟩
    | ok s1 =>
      simp only
      cases hevLoop F H V P (auxAfter s1 aux) (n + 1) (ess2Fuel V s1)
        (min 1 (max 0 (s1.rows.getLast?.getD Row.zero).dec.soc)) s1 with
      | error err => exact Or.inl ⟨err, rfl, rfl⟩
      | ok r => exact Or.inr (Or.inl ⟨r, rfl, rfl⟩)
  · rw [dif_neg hc, dif_neg hc]
    exact Or.inr (Or.inr ⟨rfl, rfl⟩)

theorem simDrive_same {s s' : Sim K} (h : SameInputs P s s') (init : Option K) (aux : Option (List K)) :
    simDrive F H V P s' init aux = simDrive F H V P s init aux := by
  have h0 : SameInputs P { s with hevCount := 0 } { s' with hevCount := 0 } := ⟨h.cyc0, h.len, h.cyc⟩
  unfold simDrive
  cases init with
  | some soc => exact walk_same h0 rfl _ _
  | none =>
    cases V.ptType with
    | conv => exact walk_same h0 rfl _ _
    | phev => exact walk_same h0 rfl _ _
    | bev => exact walk_same h0 rfl _ _
    | hev =>
      simp only
      rcases hevLoop_same (F := F) (H := H) (V := V) (aux := aux) (n := 0) (e := 1)
        (soc := (V.maxSoc + V.minSoc) / 2) h0 rfl with ⟨err, e1, e2⟩ | ⟨r, e1, e2⟩ | ⟨e1, e2⟩
      · rw [e1, e2]
      · rw [e1, e2]
      · rw [e1, e2]; exact walk_same h0 rfl _ _

theorem hevLoop_inputs (hH : H.Local) (aux : Option (List K)) (count : Nat) (e soc : K) (s : Sim K)
    {r : Sim K × K × Option (List K)} (hlen : s.cyc.length = s.cyc0.length)
    (h : hevLoop F H V P aux count e soc s = .ok r) : SameInputs P s r.1 := by
  fun_induction hevLoop F H V P aux count e soc s with
  | case1 aux count e soc s hc err hw => simp at h
  | case2 aux count e soc s hc s1 hw ih =>
    have hk := walk_keeps hH (s := { s with hevCount := count + 1 }) hlen hw
    refine SameInputs.trans (s' := s1) ⟨hk.cyc0, hk.len, hk.cyc⟩ (ih ?_ h)
    rw [hk.len, hk.cyc0]; exact hlen
  | case3 aux count e soc s hc => cases h; exact ⟨rfl, rfl, fun _ => rfl⟩

theorem simDrive_keeps (hH : H.Local) {s s' : Sim K} {init : Option K} {aux : Option (List K)}
    (hlen : s.cyc.length = s.cyc0.length) (h : simDrive F H V P s init aux = .ok s') :
    SameInputs P s s' := by
  have fix : ∀ {n : Nat} {s1 : Sim K}, SameInputs P { s with hevCount := n } s1 → SameInputs P s s1 :=
    fun hk => ⟨hk.cyc0, hk.len, hk.cyc⟩
  unfold simDrive at h
  cases init with
  | some soc => exact fix (walk_keeps hH (s := { s with hevCount := 0 }) hlen h)
  | none =>
    simp only at h
    cases hv : V.ptType with
    | conv => rw [hv] at h; exact fix (walk_keeps hH (s := { s with hevCount := 0 }) hlen h)
    | phev => rw [hv] at h; exact fix (walk_keeps hH (s := { s with hevCount := 0 }) hlen h)
    | bev => rw [hv] at h; exact fix (walk_keeps hH (s := { s with hevCount := 0 }) hlen h)
    | hev =>
      rw [hv] at h
      simp only at h
      split at h
      · simp at h
      · rename_i r hr
        have hk := hevLoop_inputs hH aux 0 _ _ { s with hevCount := 0 } hlen hr
        exact (fix hk).trans (walk_keeps hH (by rw [hk.len, hk.cyc0]; exact hlen) h)

/-- Objects obtained from a freshly constructed one by any sequence of completed runs, each with its
own vehicle, initial state of charge and override, and with options `P` throughout. -/
inductive History (F : Fns K) (H : Hooks K) (P : SimParams K) (c : Cyc K) : Sim K → Prop
  | new : History F H P c (Sim.new c)
  | run {s s' : Sim K} {V : Veh K} {init : Option K} {aux : Option (List K)} (h : History F H P c s)
      (hr : simDrive F H V P s init aux = .ok s') : History F H P c s'

/-- **C28.** Whatever was simulated before on the object with the same options, a run gives exactly
the result (or the exception) it gives on a freshly constructed object, and the original cycle is never
modified. Holds for any rounding of the arithmetic. -/
theorem C28_rerun (hH : H.Local) {c : Cyc K} {s : Sim K} (h : History F H P c s) (init : Option K)
    (aux : Option (List K)) :
    s.cyc0 = c ∧ simDrive F H V P s init aux = simDrive F H V P (Sim.new c) init aux := by
  have hs : SameInputs P (Sim.new c) s := by
    induction h with
    | new => exact ⟨rfl, rfl, fun _ => rfl⟩
    | run h hr ih =>
      refine ih.trans (simDrive_keeps hH ?_ hr)
      rw [ih.len, ih.cyc0]; rfl
  exact ⟨hs.cyc0, simDrive_same hs init aux⟩

/-! ### C47 -/

/-- **C47 (acceptance).** `init_for_step` (and so every walk) raises `ValueError` exactly for a vehicle
that is not conventional and a state of charge outside `[min_soc, max_soc]`; otherwise, for a cycle
with at least one sample, it succeeds and the run starts at exactly the state of charge given. -/
theorem C47_init (s : Sim K) (hlen : s.cyc.length = s.cyc0.length) (hpos : 0 < s.cyc0.length) (soc : K)
    (aux : Option (List K)) :
    (initForStep V P s soc aux = .error .valueError ↔
      V.ptType ≠ .conv ∧ ¬ (V.minSoc ≤ soc ∧ soc ≤ V.maxSoc)) ∧
    ((V.ptType = .conv ∨ (V.minSoc ≤ soc ∧ soc ≤ V.maxSoc)) →
      ∃ s', initForStep V P s soc aux = .ok s' ∧
        (s'.rows.getD 0 Row.zero).dec.soc = soc ∧
        (s'.rows.getD 0 Row.zero).dec.essCurKwh = soc * V.essMaxKwh ∧
        (s'.rows.getD 0 Row.zero).ach.mpsAch = s.cyc0.speeds.getD 0 0) := by
  have hl : ¬ (s.cyc.length = 0 ∨ s.cyc0.length = 0) := by omega
  constructor
  · unfold initForStep
    rw [if_neg hl]
    constructor
    · intro h
      split at h
      · rename_i hc
        refine ⟨hc.1, fun hw => ?_⟩
        rcases hc.2 with e | e
        · exact absurd hw.2 (not_le.2 e)
        · exact absurd hw.1 (not_le.2 e)
      · simp at h
    · rintro ⟨h1, h2⟩
      rw [if_pos]
      refine ⟨h1, ?_⟩
      by_contra hc
      rw [not_or] at hc
      exact h2 ⟨not_lt.1 hc.2, not_lt.1 hc.1⟩
  · intro hok
    have hno : ¬ (V.ptType ≠ .conv ∧ (V.maxSoc < soc ∨ soc < V.minSoc)) := by
      rintro ⟨a, b⟩
      rcases hok with h | h
      · exact a h
      · rcases b with b | b
        · exact absurd h.2 (not_le.2 b)
        · exact absurd h.1 (not_le.2 b)
    have hi : initForStep V P s soc aux = .ok (initState V P s soc aux) := by
      unfold initForStep
      rw [if_neg hno, if_neg hl]
    have q := initForStep_spec hlen hi
    refine ⟨_, hi, ?_⟩
    rw [List.getD_eq_getElem?_getD, q.row0]
    exact ⟨rfl, rfl, rfl⟩

/-- **C47 (whole run).** A completed run of a vehicle that is not conventional started inside the
window; with a given state of charge, exactly there; plug-in and electric vehicles without one start
full, conventional ones in the middle of the window. -/
theorem C47_run_start (hH : H.Local) {s s' : Sim K} (hlen : s.cyc.length = s.cyc0.length)
    {init : Option K} {aux : Option (List K)} (h : simDrive F H V P s init aux = .ok s') :
    (V.ptType ≠ .conv → V.minSoc ≤ (s'.rows.getD 0 Row.zero).dec.soc ∧
      (s'.rows.getD 0 Row.zero).dec.soc ≤ V.maxSoc) ∧
    (∀ soc, init = some soc → (s'.rows.getD 0 Row.zero).dec.soc = soc) ∧
    (init = none → V.ptType = .phev ∨ V.ptType = .bev →
      (s'.rows.getD 0 Row.zero).dec.soc = V.maxSoc) ∧
    (init = none → V.ptType = .conv →
      (s'.rows.getD 0 Row.zero).dec.soc = (V.maxSoc + V.minSoc) / 2) := by
  have start : ∀ soc aux, walk F H V P { s with hevCount := 0 } soc aux = .ok s' →
      (s'.rows.getD 0 Row.zero).dec.soc = soc := by
    intro soc aux hw
    have w := walk_done hH (s := { s with hevCount := 0 }) hlen hw
    rw [List.getD_eq_getElem?_getD, w.row0]; rfl
  refine ⟨fun hne => ?_, ?_, ?_, ?_⟩
  · obtain ⟨soc, h1, h2⟩ := Reachable.row0 hH (Reachable.simDrive hH hlen h)
    rw [h2]
    exact h1.resolve_left hne
  · rintro soc rfl
    rw [C27_single_walk _ _ _ (by simp)] at h
    exact start _ _ h
  · rintro rfl hv
    rw [C27_single_walk _ _ _ (by rcases hv with e | e <;> simp [e])] at h
    rcases hv with e | e <;> rw [e] at h <;> exact start _ _ h
  · rintro rfl hv
    rw [C27_single_walk _ _ _ (by simp [hv]), hv] at h
    exact start _ _ h

end Lawless

section Field
variable {K : Type*} [Field K] [LinearOrder K] [IsStrictOrderedRing K]
variable {F : Fns K} {H : Hooks K} {V : Veh K} {P : SimParams K}

/-- **C27 (meaning of the imbalance).** The imbalance a balancing walk is judged by is the energy taken
from the battery relative to the fuel energy burnt (zero if none was burnt). -/
theorem C27_imbalance (hH : H.Local) {s : Sim K} (h : Finished F H V P s) :
    ess2Fuel V s =
      let fuel := ∑ i ∈ Finset.range (s.cyc.length - 1), (s.row (i + 1)).fc.fsKwOutAch * dtAt s.cyc (i + 1)
      if 0 < fuel then |(s.firstRow.dec.soc - s.lastRow.dec.soc) * V.essMaxKwh * 3600 / fuel| else 0 := by
  obtain ⟨soc, -, hrow0⟩ := Reachable.row0 hH h.reachable
  have hlen := h.lenRows hH
  have e1 : sumDt s (fun r => r.dec.roadwayChgKwOutAch) = 0 := by
    rw [sumDt_steps s _ hlen (by rw [Sim.row, hrow0]; rfl)]
    refine Finset.sum_eq_zero fun i hi => ?_
    have hi' := Finset.mem_range.1 hi
    obtain ⟨E, st, -, hroad, -, hr⟩ := Reachable.rowS hH h.reachable (i + 1) (by omega)
      (by rw [h.atEnd]; omega)
    rw [Sim.row, hr]
    have : (solveStep F V P.toStepParams E (s.rows.getD (i + 1 - 1) Row.zero) st).dec.roadwayChgKwOutAch
        = 0 := by
      show roadwayChgKwOutAch V E _ _ _ = 0
      simp [roadwayChgKwOutAch, hroad]
    rw [this, zero_mul]
  unfold ess2Fuel
  rw [e1, add_zero, sumDt_steps s _ hlen (by rw [Sim.row, hrow0]; rfl)]
  simp only
  split
  · unfold pabs
    split
    · rename_i hneg; exact (abs_of_neg hneg).symm
    · rename_i hneg; exact (abs_of_nonneg (not_lt.1 hneg)).symm
  · rfl

/-- **C47 (defaults).** For a non-empty window, the default initial state of charge of every powertrain
lies inside it. -/
theorem C47_default_in_window (h : V.minSoc ≤ V.maxSoc) :
    V.minSoc ≤ (V.maxSoc + V.minSoc) / 2 ∧ (V.maxSoc + V.minSoc) / 2 ≤ V.maxSoc ∧
    V.minSoc ≤ V.maxSoc ∧ V.maxSoc ≤ V.maxSoc := by
  refine ⟨?_, ?_, h, le_rfl⟩
  · rw [le_div_iff₀ (by norm_num)]; linarith
  · rw [div_le_iff₀ (by norm_num)]; linarith

end Field
/-! ### Concrete cases -/

open Demo

/-- A hybrid with a very small battery. -/
def smallHev : Veh ℚ := { hev with essMaxKwh := 1 / 40 }

/-- The charge balancing of the small hybrid makes eight walks of at most thirty before the last one;
with `sim_count_max = 2` it makes two. -/
theorem C27_demo : smallHev.ptType = .hev ∧ noHooks.Local ∧
    (∃ s, simDrive fns noHooks smallHev params (Sim.new cyc) none none = .ok s ∧ s.hevCount = 8 ∧
      s.i = 6) ∧
    (∃ s, simDrive fns noHooks smallHev { params with simCountMax := 2 } (Sim.new cyc) none none = .ok s ∧
      s.hevCount = 2 ∧ s.i = 6) := by
  refine ⟨rfl, noHooks_local, ?_, ?_⟩
  · have hall : (match simDrive fns noHooks smallHev params (Sim.new cyc) none none with
        | .ok s => decide (s.hevCount = 8 ∧ s.i = 6)
        | .error _ => false) = true := by decide +kernel
    split at hall
    · rename_i s hs; exact ⟨s, hs, of_decide_eq_true hall⟩
    · simp at hall
  · have hall : (match simDrive fns noHooks smallHev { params with simCountMax := 2 } (Sim.new cyc)
          none none with
        | .ok s => decide (s.hevCount = 2 ∧ s.i = 6)
        | .error _ => false) = true := by decide +kernel
    split at hall
    · rename_i s hs; exact ⟨s, hs, of_decide_eq_true hall⟩
    · simp at hall

/-- **C27, what the tolerance does not promise.** A hybrid that drives the cycle on its battery burns
no fuel, so the imbalance counts as zero and balancing ends after one walk although the battery ends
lower than it started. -/
theorem C27_electric_counts_as_balanced :
    ∃ s, simDrive fns noHooks hev params (Sim.new cyc) none none = .ok s ∧ s.hevCount = 1 ∧
      fuelKj s = 0 ∧ ess2Fuel hev s = 0 ∧ s.lastRow.dec.soc < s.firstRow.dec.soc := by
  have hall : (match simDrive fns noHooks hev params (Sim.new cyc) none none with
      | .ok s => decide (s.hevCount = 1 ∧ fuelKj s = 0 ∧ ess2Fuel hev s = 0 ∧
          s.lastRow.dec.soc < s.firstRow.dec.soc)
      | .error _ => false) = true := by decide +kernel
  split at hall
  · rename_i s hs; exact ⟨s, hs, of_decide_eq_true hall⟩
  · simp at hall

/-- **C27, the walk that is reported.** The walk made after balancing is not checked: with
`sim_count_max = 0` it is the only one and its imbalance is above tolerance. -/
theorem C27_last_walk_unchecked :
    ∃ s, simDrive fns noHooks smallHev { params with simCountMax := 0 } (Sim.new cyc) none none = .ok s ∧
      s.hevCount = 0 ∧ smallHev.essToFuelOkError < ess2Fuel smallHev s := by
  have hall : (match simDrive fns noHooks smallHev { params with simCountMax := 0 } (Sim.new cyc)
        none none with
      | .ok s => decide (s.hevCount = 0 ∧ smallHev.essToFuelOkError < ess2Fuel smallHev s)
      | .error _ => false) = true := by decide +kernel
  split at hall
  · rename_i s hs; exact ⟨s, hs, of_decide_eq_true hall⟩
  · simp at hall

/-- A history of two runs with different vehicles, one of them with trace-miss correction acting. -/
theorem C28_demo : ∃ s s', simDrive fns noHooks conv { params with missedTrace := true }
      (Sim.new sprint) none none = .ok s ∧
    simDrive fns noHooks hev { params with missedTrace := true } s (some (1 / 2)) none = .ok s' ∧
    History fns noHooks { params with missedTrace := true } sprint s' ∧ s.cyc ≠ s.cyc0 := by
  have hall : (match simDrive fns noHooks conv { params with missedTrace := true } (Sim.new sprint)
        none none with
      | .ok s => decide (s.cyc ≠ s.cyc0) &&
        (match simDrive fns noHooks hev { params with missedTrace := true } s (some (1 / 2)) none with
         | .ok _ => true
         | .error _ => false)
      | .error _ => false) = true := by decide +kernel
  split at hall
  · rename_i s hs
    rw [Bool.and_eq_true] at hall
    obtain ⟨h1, h2⟩ := hall
    split at h2
    · rename_i s' hs'
      exact ⟨s, s', hs, hs', .run (.run .new hs) hs', of_decide_eq_true h1⟩
    · simp at h2
  · simp at hall

/-- **C28 refuted when options change between runs.** A run with trace-miss correction lengthens the
cycle; if the correction is then switched off, the next run on the same object uses the lengthened
cycle and reports a longer distance than the same run on a new object. -/
theorem C28_options_switched_off :
    ∃ s a b, simDrive fns noHooks conv { params with missedTrace := true, maxTimeDilation := 1 / 10 }
        (Sim.new sprint) none none = .ok s ∧
      simDrive fns noHooks conv params s none none = .ok a ∧
      simDrive fns noHooks conv params (Sim.new sprint) none none = .ok b ∧
      Cyc.times a.cyc = [0, 1, 21 / 10] ∧ Cyc.times b.cyc = [0, 1, 2] ∧ totalMiles b < totalMiles a := by
  have hall : (match simDrive fns noHooks conv
        { params with missedTrace := true, maxTimeDilation := 1 / 10 } (Sim.new sprint) none none with
      | .ok s =>
        (match simDrive fns noHooks conv params s none none with
         | .ok a =>
           (match simDrive fns noHooks conv params (Sim.new sprint) none none with
            | .ok b => decide (Cyc.times a.cyc = [0, 1, 21 / 10] ∧ Cyc.times b.cyc = [0, 1, 2] ∧
                totalMiles b < totalMiles a)
            | .error _ => false)
         | .error _ => false)
      | .error _ => false) = true := by decide +kernel
  split at hall
  · rename_i s hs
    split at hall
    · rename_i a ha
      split at hall
      · rename_i b hb
        exact ⟨s, a, b, hs, ha, hb, of_decide_eq_true hall⟩
      · simp at hall
    · simp at hall
  · simp at hall

/-- The hypothesis of `C47_run_start` is met by the demo hybrid, at both ends of its window. -/
example : (∃ s, simDrive fns noHooks hev params (Sim.new cyc) (some (2 / 5)) none = .ok s) ∧
    (∃ s, simDrive fns noHooks hev params (Sim.new cyc) (some (4 / 5)) none = .ok s) ∧
    simDrive fns noHooks hev params (Sim.new cyc) (some (3 / 10)) none = .error .valueError := by
  refine ⟨?_, ?_, ?_⟩
  · have hall : (match simDrive fns noHooks hev params (Sim.new cyc) (some (2 / 5)) none with
        | .ok _ => true | .error _ => false) = true := by decide +kernel
    split at hall
    · rename_i s hs; exact ⟨s, hs⟩
    · simp at hall
  · have hall : (match simDrive fns noHooks hev params (Sim.new cyc) (some (4 / 5)) none with
        | .ok _ => true | .error _ => false) = true := by decide +kernel
    split at hall
    · rename_i s hs; exact ⟨s, hs⟩
    · simp at hall
  · have hall : (match simDrive fns noHooks hev params (Sim.new cyc) (some (3 / 10)) none with
        | .ok _ => false | .error e => decide (e = .valueError)) = true := by decide +kernel
    split at hall
    · simp at hall
    · rename_i e he
      rw [he, of_decide_eq_true hall]

/-- A pull-away at the end of a cycle. -/
def pullAway : Cyc ℚ := [⟨0, 0, 0, 0⟩, ⟨1, 0, 0, 0⟩, ⟨2, 3, 0, 0⟩]
/-- A hybrid with a tiny battery and a large accessory load. -/
def tinyHev : Veh ℚ := { hev with essMaxKwh := 1 / 400, auxKw := 4 }

/-- **C47 refuted for charge balancing.** Without an initial state of charge the library chooses the
next guess itself, clipped to `[0,1]` and not to the window: here its own guess makes its own
initialisation raise `ValueError`, although the first walk, from mid-window, succeeds. -/
theorem C47_balancing_raises :
    simDrive fns noHooks tinyHev params (Sim.new pullAway) none none = .error .valueError ∧
    tinyHev.minSoc < tinyHev.maxSoc ∧
    ∃ s, walk fns noHooks tinyHev params (Sim.new pullAway) ((tinyHev.maxSoc + tinyHev.minSoc) / 2) none
      = .ok s ∧ s.lastRow.dec.soc < tinyHev.minSoc := by
  refine ⟨?_, by decide +kernel, ?_⟩
  · have hall : (match simDrive fns noHooks tinyHev params (Sim.new pullAway) none none with
        | .ok _ => false | .error e => decide (e = .valueError)) = true := by decide +kernel
    split at hall
    · simp at hall
    · rename_i e he
      rw [he, of_decide_eq_true hall]
  · have hall : (match walk fns noHooks tinyHev params (Sim.new pullAway)
          ((tinyHev.maxSoc + tinyHev.minSoc) / 2) none with
        | .ok s => decide (s.lastRow.dec.soc < tinyHev.minSoc) | .error _ => false) = true := by
      decide +kernel
    split at hall
    · rename_i s hs; exact ⟨s, hs, of_decide_eq_true hall⟩
    · simp at hall

end Fastsim.Props
