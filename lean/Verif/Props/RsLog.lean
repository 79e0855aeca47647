import Verif.Model.RsLog
import Verif.Props.RustDilation

/-!
# C135: what the messages at the end of a run of the Rust core do to the run
-/

set_option linter.unusedSectionVars false

namespace Fastsim.Spec
variable {K : Type*} [LinearOrder K]

/-- The order of the floats that are numbers or infinities. -/
inductive NoMore : Flt K → Flt K → Prop
  | low {b : Flt K} : b ≠ .nan → NoMore .ninf b
  | high {a : Flt K} : a ≠ .nan → NoMore a .pinf
  | mid {x y : K} : x ≤ y → NoMore (.fin x) (.fin y)

/-- The cycle has a step of more than five seconds. -/
def LongStep [Zero K] [Sub K] [NatCast K] (c : Cyc K) : Prop :=
  ∃ i a b, c.times[i]? = some a ∧ c.times[i + 1]? = some b ∧ ((5 : ℕ) : K) < b - a

end Fastsim.Spec

namespace Fastsim.Props
open Spec

section Order
variable {K : Type*} [LinearOrder K]

theorem fltCmp_none {a b : Flt K} : fltCmp a b = none ↔ a = .nan ∨ b = .nan := by
  cases a <;> cases b <;> simp [fltCmp]

theorem NoMore.refl {a : Flt K} (h : a ≠ .nan) : NoMore a a := by
  cases a with
  | nan => exact absurd rfl h
  | ninf => exact .low h
  | fin x => exact .mid le_rfl
  | pinf => exact .high h

theorem NoMore.trans {a b c : Flt K} (h : NoMore a b) (h' : NoMore b c) : NoMore a c := by
  cases h with
  | low hb =>
    cases h' with
    | low hc => exact .low hc
    | high _ => exact .low (by simp)
    | mid _ => exact .low (by simp)
  | high ha =>
    cases h' with
    | high _ => exact .high ha
  | mid hx =>
    cases h' with
    | high _ => exact .high (by simp)
    | mid hy => exact .mid (hx.trans hy)

theorem fltCmp_gt {a b : Flt K} (h : fltCmp a b = some .gt) : NoMore b a := by
  cases a <;> cases b <;> simp [fltCmp] at h
  · exact .low (by simp)
  · rename_i x y
    split_ifs at h with h1 h2
    exact .mid (not_lt.1 h1)
  · exact .high (by simp)
  · exact .high (by simp)

theorem fltCmp_le {a b : Flt K} {c : Ordering} (h : fltCmp a b = some c) (hc : c ≠ .gt) : NoMore a b := by
  cases a <;> cases b <;> simp [fltCmp] at h
  · exact .low (by simp)
  · exact .low (by simp)
  · exact .low (by simp)
  · exact absurd h.symm hc
  · rename_i x y
    split_ifs at h with h1 h2
    · exact .mid h1.le
    · exact .mid h2.le
    · exact absurd h.symm hc
  · exact .high (by simp)
  · exact absurd h.symm hc
  · exact absurd h.symm hc
  · exact .high (by simp)

theorem fltCmp_lt {a b : Flt K} (h : fltCmp a b = some .lt) : NoMore a b := fltCmp_le h (by decide)

theorem fltCmp_ge {a b : Flt K} {c : Ordering} (h : fltCmp a b = some c) (hc : c ≠ .lt) : NoMore b a := by
  cases a <;> cases b <;> simp [fltCmp] at h
  · exact .low (by simp)
  · exact absurd h.symm hc
  · exact absurd h.symm hc
  · exact .low (by simp)
  · rename_i x y
    split_ifs at h with h1 h2
    · exact absurd h.symm hc
    · exact .mid h2.ge
    · exact .mid (not_lt.1 h1)
  · exact absurd h.symm hc
  · exact .low (by simp)
  · exact .high (by simp)
  · exact .high (by simp)

theorem extreme_error (o : Ordering) (l : List (Flt K)) (e : RsErr) : l.foldl (extremeStep o) (.error e) = .error e := by
  induction l with
  | nil => rfl
  | cons x l ih => simpa [List.foldl_cons, extremeStep] using ih

theorem extreme_nan (o : Ordering) : ∀ (l : List (Flt K)) (a : Flt K), .nan ∈ l → l.foldl (extremeStep o) (.ok a) = .error .err
  | x :: l, a, h => by
    rw [List.foldl_cons]
    rcases List.mem_cons.1 h with rfl | h
    · have : fltCmp (.nan : Flt K) a = none := fltCmp_none.2 (.inl rfl)
      simp only [extremeStep, this]
      exact extreme_error o l _
    · cases hc : fltCmp x a with
      | none => simp only [extremeStep, hc]; exact extreme_error o l _
      | some c =>
        simp only [extremeStep, hc]
        split_ifs
        · exact extreme_nan o l x h
        · exact extreme_nan o l a h

theorem extreme_ok (R : Flt K → Flt K → Prop) (o : Ordering) (hr : ∀ a, a ≠ .nan → R a a) (ht : ∀ a b c, R a b → R b c → R a c)
    (h1 : ∀ a b, fltCmp a b = some o → R b a) (h2 : ∀ a b c, fltCmp a b = some c → c ≠ o → R a b) :
    ∀ (l : List (Flt K)) (a : Flt K), a ≠ .nan → .nan ∉ l →
      ∃ m, l.foldl (extremeStep o) (.ok a) = .ok m ∧ (m = a ∨ m ∈ l) ∧ R a m ∧ ∀ x ∈ l, R x m
  | [], a, ha, _ => ⟨a, rfl, .inl rfl, hr a ha, by simp⟩
  | x :: l, a, ha, hl => by
    have hx : x ≠ .nan := fun h => hl (by simp [h])
    have hl' : .nan ∉ l := fun h => hl (by simp [h])
    rw [List.foldl_cons]
    cases hc : fltCmp x a with
    | none => rcases fltCmp_none.1 hc with h | h <;> contradiction
    | some c =>
      by_cases hco : c = o
      · subst hco
        obtain ⟨m, q1, q2, q3, q4⟩ := extreme_ok R c hr ht h1 h2 l x hx hl'
        refine ⟨m, by simpa [extremeStep, hc] using q1, ?_, ht _ _ _ (h1 _ _ hc) q3, ?_⟩
        · rcases q2 with rfl | q2
          · exact .inr (by simp)
          · exact .inr (by simp [q2])
        · intro y hy
          rcases List.mem_cons.1 hy with rfl | hy
          · exact q3
          · exact q4 y hy
      · obtain ⟨m, q1, q2, q3, q4⟩ := extreme_ok R o hr ht h1 h2 l a ha hl'
        refine ⟨m, by simpa [extremeStep, hc, hco] using q1, ?_, q3, ?_⟩
        · rcases q2 with rfl | q2
          · exact .inl rfl
          · exact .inr (by simp [q2])
        · intro y hy
          rcases List.mem_cons.1 hy with rfl | hy
          · exact ht _ _ _ (h2 _ _ _ hc hco) q3
          · exact q4 y hy

/-- C135. The largest and the smallest entry of an array: an error, never a panic, exactly if the array is empty or has an entry that
is not a number; otherwise an entry that no entry exceeds, or that exceeds no entry. -/
theorem C135_extremes (l : List (Flt K)) :
    ((l = [] ∨ .nan ∈ l) → rsMax l = .error .err ∧ rsMin l = .error .err) ∧
    (l ≠ [] → .nan ∉ l → (∃ m, rsMax l = .ok m ∧ m ∈ l ∧ ∀ x ∈ l, NoMore x m) ∧
      ∃ m, rsMin l = .ok m ∧ m ∈ l ∧ ∀ x ∈ l, NoMore m x) := by
  constructor
  · rintro (rfl | h)
    · exact ⟨rfl, rfl⟩
    · cases l with
      | nil => simp at h
      | cons x l => exact ⟨extreme_nan .gt _ _ h, extreme_nan .lt _ _ h⟩
  · intro hl hn
    cases l with
    | nil => exact absurd rfl hl
    | cons x l =>
      have hx : x ≠ .nan := fun h => hn (by simp [h])
      obtain ⟨m, q1, q2, -, q4⟩ := extreme_ok NoMore .gt (fun a => NoMore.refl) (fun a b c => NoMore.trans)
        (fun a b => fltCmp_gt) (fun a b c => fltCmp_le) (x :: l) x hx hn
      obtain ⟨n, r1, r2, -, r4⟩ := extreme_ok (fun a b => NoMore b a) .lt (fun a => NoMore.refl)
        (fun a b c h h' => NoMore.trans h' h) (fun a b => fltCmp_lt) (fun a b c => fltCmp_ge) (x :: l) x hx hn
      refine ⟨⟨m, q1, ?_, q4⟩, n, r1, ?_, r4⟩
      · rcases q2 with rfl | q2
        · simp
        · exact q2
      · rcases r2 with rfl | r2
        · simp
        · exact r2

end Order

section Field
variable {K : Type*} [Field K] [LinearOrder K] [IsStrictOrderedRing K]
variable {F : Fns K} {H : RsHooks K} {V : Veh K} {P : SimParams K} {L : LogLevel}

theorem zip_steps : ∀ (l : List K) (d : K), d ∈ List.zipWith (fun b a => b - a) l.tail l.dropLast ↔
    ∃ i a b, l[i]? = some a ∧ l[i + 1]? = some b ∧ d = b - a
  | [], d => by simp
  | [x], d => by
    simp
  | x :: y :: l, d => by
    have ih := zip_steps (y :: l) d
    simp only [List.tail_cons] at ih
    have hd : (x :: y :: l).dropLast = x :: (y :: l).dropLast := rfl
    rw [List.tail_cons, hd, List.zipWith_cons_cons, List.mem_cons, ih]
    constructor
    · rintro (rfl | ⟨i, a, b, h1, h2, h3⟩)
      · exact ⟨0, x, y, rfl, rfl, rfl⟩
      · exact ⟨i + 1, a, b, by simpa using h1, by simpa using h2, h3⟩
    · rintro ⟨i, a, b, h1, h2, h3⟩
      cases i with
      | zero =>
        simp at h1 h2
        left; rw [h3, h1, h2]
      | succ i => exact .inr ⟨i, a, b, by simpa using h1, by simpa using h2, h3⟩

theorem longStep_iff (c : Cyc K) : ((rsDt c).any fun d => decide (((5 : ℕ) : K) < d)) = true ↔ LongStep c := by
  rw [List.any_eq_true]
  simp only [rsDt, List.mem_cons, decide_eq_true_eq, LongStep]
  constructor
  · rintro ⟨d, rfl | hd, h⟩
    · exact absurd h (not_lt.2 (Nat.cast_nonneg 5))
    · obtain ⟨i, a, b, h1, h2, rfl⟩ := (zip_steps _ _).1 hd
      exact ⟨i, a, b, h1, h2, h⟩
  · rintro ⟨i, a, b, h1, h2, h⟩
    exact ⟨b - a, .inr ((zip_steps _ _).2 ⟨i, a, b, h1, h2, rfl⟩), h⟩

theorem warn_fine (s : Sim K) : rsWarnFails s = none := by
  obtain ⟨m, h, -⟩ := ((C135_extremes ((rsDt s.cyc).map Flt.fin)).2 (by simp [rsDt]) (by simp)).1
  simp [rsWarnFails, h]

theorem info_fails (s : Sim K) : ∃ e, rsInfoFails s = some e ∧ (s.cyc.length = s.cyc0.length → e = .err) ∧
    (s.cyc.length ≠ s.cyc0.length → 2 ≤ s.cyc.length → e = .panic) := by
  unfold rsInfoFails rsRatios
  split_ifs with h
  · have : rsMax (List.zipWith fltDiv (rsDt s.cyc) (rsDt s.cyc0)) = .error .err :=
      ((C135_extremes _).1 (.inr (by simp [rsDt, fltDiv]))).1
    simp only [this]
    refine ⟨_, rfl, fun _ => rfl, fun h1 h2 => absurd ?_ h1⟩
    simp only [rsDt, Cyc.times, List.length_cons, List.length_zipWith, List.length_tail, List.length_dropLast,
      List.length_map] at h
    omega
  · refine ⟨_, rfl, fun h' => absurd ?_ h, fun _ _ => rfl⟩
    simp [rsDt, Cyc.times, h']

theorem messages_none (s : Sim K) (h : ¬ (LongStep s.cyc ∧ P.missedTrace = true ∧ L.info = true)) : rsMessages L P s = none := by
  unfold rsMessages
  split_ifs with h1 h2 h3 h3 <;> first | rfl | skip
  · exact absurd ⟨(longStep_iff _).1 h1, h2⟩ h
  · exact absurd ⟨(longStep_iff _).1 h1, h2⟩ h
  · exact warn_fine s

theorem messages_some (s : Sim K) (h : LongStep s.cyc ∧ P.missedTrace = true ∧ L.info = true) :
    ∃ e, rsMessages L P s = some e ∧ (s.cyc.length = s.cyc0.length → e = .err) ∧
      (s.cyc.length ≠ s.cyc0.length → e = .panic) := by
  obtain ⟨e, he, hl, hl'⟩ := info_fails s
  have h2 : 2 ≤ s.cyc.length := by
    obtain ⟨i, a, b, -, hb, -⟩ := h.1
    have := (List.getElem?_eq_some_iff.1 hb).1
    simp only [Cyc.times, List.length_map] at this
    omega
  refine ⟨e, ?_, hl, fun hn => hl' hn h2⟩
  unfold rsMessages
  rw [if_pos ((longStep_iff _).2 h.1), if_pos h.2, he]

/-- C135. The messages change neither the results of a run nor a failure. A run that would be completed is lost exactly if corrections
of missed traces are asked for, the information level is on, and the cycle has, after the run, a step of more than five seconds:
the first message divides the first step of zero seconds by the first step of zero seconds, and asks for the largest quotient. The
warning never fails. The failure is an error, or a panic if the two cycles have different lengths. -/
theorem C135_walk (s : Sim K) (soc : K) (aux : Option (List K)) :
    (∀ e, rsWalk F H V P s soc aux = .error e → rsWalkLog L F H V P s soc aux = .error e) ∧
    ∀ t, rsWalk F H V P s soc aux = .ok t →
      (¬ (LongStep t.cyc ∧ P.missedTrace = true ∧ L.info = true) → rsWalkLog L F H V P s soc aux = .ok t) ∧
      (LongStep t.cyc → P.missedTrace = true → L.info = true →
        ∃ e, rsWalkLog L F H V P s soc aux = .error e ∧ (t.cyc.length = t.cyc0.length → e = .err) ∧
          (t.cyc.length ≠ t.cyc0.length → e = .panic)) := by
  refine ⟨fun e h => by simp [rsWalkLog, h], fun t h => ⟨fun hn => ?_, fun h1 h2 h3 => ?_⟩⟩
  · simp [rsWalkLog, h, messages_none (L := L) t hn]
  · obtain ⟨e, he, hl⟩ := messages_some (L := L) (P := P) t ⟨h1, h2, h3⟩
    exact ⟨e, by simp [rsWalkLog, h, he], hl⟩

theorem walkLog_quiet (h : ¬ (P.missedTrace = true ∧ L.info = true)) (s : Sim K) (soc : K) (aux : Option (List K)) :
    rsWalkLog L F H V P s soc aux = rsWalk F H V P s soc aux := by
  cases hw : rsWalk F H V P s soc aux with
  | error e => exact (C135_walk s soc aux).1 e hw
  | ok t => exact ((C135_walk s soc aux).2 t hw).1 fun h' => h h'.2

theorem walkLog_ok {s : Sim K} {soc : K} {aux : Option (List K)} {t : Sim K} (h : rsWalkLog L F H V P s soc aux = .ok t) :
    rsWalk F H V P s soc aux = .ok t ∧ ¬ (LongStep t.cyc ∧ P.missedTrace = true ∧ L.info = true) := by
  cases hw : rsWalk F H V P s soc aux with
  | error e => rw [(C135_walk s soc aux).1 e hw] at h; simp at h
  | ok u =>
    by_cases hc : LongStep u.cyc ∧ P.missedTrace = true ∧ L.info = true
    · obtain ⟨e, he, -⟩ := ((C135_walk (L := L) s soc aux).2 u hw).2 hc.1 hc.2.1 hc.2.2
      rw [he] at h; simp at h
    · rw [((C135_walk (L := L) s soc aux).2 u hw).1 hc] at h
      cases h
      exact ⟨rfl, hc⟩

theorem hevLog_quiet (h : ¬ (P.missedTrace = true ∧ L.info = true)) (aux : Option (List K)) :
    ∀ (n count : Nat), P.simCountMax - count = n → ∀ (e soc : K) (s : Sim K),
      rsHevLoopLog L F H V P aux count e soc s = rsHevLoop F H V P aux count e soc s := by
  intro n
  induction n with
  | zero =>
    intro count hn e soc s
    rw [rsHevLoopLog, rsHevLoop]
    have : ¬ (V.essToFuelOkError < e ∧ count < P.simCountMax) := fun h => by omega
    rw [dif_neg this, dif_neg this]
  | succ n ih =>
    intro count hn e soc s
    rw [rsHevLoopLog, rsHevLoop, walkLog_quiet h]
    by_cases hc : V.essToFuelOkError < e ∧ count < P.simCountMax
    · rw [dif_pos hc, dif_pos hc]
      cases rsWalk F H V P { s with hevCount := count + 1 } soc aux with
      | error e => rfl
      | ok s' =>
        simp only
        rw [ih (count + 1) (by omega)]
    · rw [dif_neg hc, dif_neg hc]

theorem hevLog_ok (aux : Option (List K)) :
    ∀ (n count : Nat), P.simCountMax - count = n → ∀ (e soc : K) (s : Sim K) (r : Sim K × K),
      rsHevLoopLog L F H V P aux count e soc s = .ok r → rsHevLoop F H V P aux count e soc s = .ok r := by
  intro n
  induction n with
  | zero =>
    intro count hn e soc s r hr
    rw [rsHevLoopLog] at hr
    rw [rsHevLoop]
    have : ¬ (V.essToFuelOkError < e ∧ count < P.simCountMax) := fun h => by omega
    rw [dif_neg this] at hr ⊢
    exact hr
  | succ n ih =>
    intro count hn e soc s r hr
    rw [rsHevLoopLog] at hr
    rw [rsHevLoop]
    by_cases hc : V.essToFuelOkError < e ∧ count < P.simCountMax
    · rw [dif_pos hc] at hr ⊢
      cases hw : rsWalkLog L F H V P { s with hevCount := count + 1 } soc aux with
      | error e => rw [hw] at hr; simp at hr
      | ok s' =>
        rw [hw] at hr
        rw [(walkLog_ok hw).1]
        simp only at hr ⊢
        split_ifs at hr ⊢
        exact ih (count + 1) (by omega) _ _ _ _ hr
    · rw [dif_neg hc] at hr ⊢
      exact hr

/-- C135. A simulation without corrections of missed traces, or with the information level off, ends as it would without messages. -/
theorem C135_quiet (h : ¬ (P.missedTrace = true ∧ L.info = true)) (s : Sim K) (init : Option K) (aux : Option (List K)) :
    rsDriveLog L F H V P s init aux = rsDrive F H V P s init aux ∧
    rsDriveAccelLog L F H V P s init aux = rsDriveAccel F H V P s init aux := by
  refine ⟨?_, by simp only [rsDriveAccelLog, rsDriveAccel, walkLog_quiet h]; rfl⟩
  unfold rsDriveLog rsDrive
  simp only [walkLog_quiet h, hevLog_quiet h aux _ 0 rfl]
  rfl

/-- C135. Whatever the levels, a simulation that is completed has the results it would have without messages; with corrections and the
information level on, no step of its cycle is longer than five seconds. -/
theorem C135_drive (s : Sim K) (init : Option K) (aux : Option (List K)) {t : Sim K} :
    (rsDriveLog L F H V P s init aux = .ok t → rsDrive F H V P s init aux = .ok t ∧
      (P.missedTrace = true → L.info = true → ¬ LongStep t.cyc)) ∧
    (rsDriveAccelLog L F H V P s init aux = .ok t → rsDriveAccel F H V P s init aux = .ok t ∧
      (P.missedTrace = true → L.info = true → ¬ LongStep t.cyc)) := by
  constructor
  · intro ht
    unfold rsDriveLog at ht
    unfold rsDrive
    simp only at ht ⊢
    cases init with
    | some soc => exact ⟨(walkLog_ok ht).1, fun h1 h2 h3 => (walkLog_ok ht).2 ⟨h3, h1, h2⟩⟩
    | none =>
      cases hp : V.ptType with
      | conv =>
        simp only [hp] at ht ⊢
        exact ⟨(walkLog_ok ht).1, fun h1 h2 h3 => (walkLog_ok ht).2 ⟨h3, h1, h2⟩⟩
      | phev =>
        simp only [hp] at ht ⊢
        exact ⟨(walkLog_ok ht).1, fun h1 h2 h3 => (walkLog_ok ht).2 ⟨h3, h1, h2⟩⟩
      | bev =>
        simp only [hp] at ht ⊢
        exact ⟨(walkLog_ok ht).1, fun h1 h2 h3 => (walkLog_ok ht).2 ⟨h3, h1, h2⟩⟩
      | hev =>
        simp only [hp] at ht ⊢
        split at ht
        · simp at ht
        · rename_i r hr
          rw [hevLog_ok aux _ 0 rfl _ _ _ _ hr]
          exact ⟨(walkLog_ok ht).1, fun h1 h2 h3 => (walkLog_ok ht).2 ⟨h3, h1, h2⟩⟩
  · intro ht
    unfold rsDriveAccelLog at ht
    unfold rsDriveAccel
    exact ⟨(walkLog_ok ht).1, fun h1 h2 h3 => (walkLog_ok ht).2 ⟨h3, h1, h2⟩⟩

/-- C135, finding. Any vehicle, simulated with corrections of missed traces and the information level on:
if the simulation without messages ends with a step of more than five seconds, the simulation with messages fails. -/
theorem C135_found (hm : P.missedTrace = true) (hi : L.info = true) (s : Sim K) (init : Option K)
    (aux : Option (List K)) {t : Sim K} (ht : rsDrive F H V P s init aux = .ok t) (hl : LongStep t.cyc) :
    ∃ e, rsDriveLog L F H V P s init aux = .error e := by
  cases h : rsDriveLog L F H V P s init aux with
  | error e => exact ⟨e, rfl⟩
  | ok u =>
    have := (C135_drive s init aux).1 h
    rw [this.1] at ht
    cases ht
    exact absurd hl (this.2 hm hi)

/-- C135. Quotients of floats: not a number for zero over zero, an infinity of the sign of the dividend for other numbers over zero, and
the quotient otherwise. -/
theorem C135_quotient (a b : K) : (b ≠ 0 → fltDiv a b = .fin (a / b)) ∧ fltDiv (0 : K) 0 = .nan ∧
    (0 < a → fltDiv a 0 = .pinf) ∧ (a < 0 → fltDiv a 0 = .ninf) := by
  refine ⟨fun h => if_neg h, by simp [fltDiv], fun h => by simp [fltDiv, h, h.ne'], fun h => by simp [fltDiv, h.not_gt, h.ne]⟩

end Field

namespace LogDemo
open Demo

/-- A start with steps of six seconds. -/
def slow : Cyc ℚ := [⟨0, 0, 0, 0⟩, ⟨6, 3, 0, 0⟩, ⟨12, 4, 0, 0⟩]

/-- The car completes the trip with steps of six seconds; the same call with the information level on is an error; with the level of
warnings, or with no correction asked for, it is completed. -/
theorem C135_demo :
    (match rsDrive fns rsNoHooks conv dilParams (Sim.new slow) none none with
      | .ok t => decide (t.cyc.times = [0, 6, 12] ∧ t.rows.length = 3)
      | .error _ => false) = true ∧
    (match rsDriveLog ⟨true, true⟩ fns rsNoHooks conv dilParams (Sim.new slow) none none with
      | .ok _ => false
      | .error e => decide (e = .err)) = true ∧
    (match rsDriveLog ⟨false, true⟩ fns rsNoHooks conv dilParams (Sim.new slow) none none with
      | .ok t => decide (t.cyc.times = [0, 6, 12] ∧ t.rows.length = 3)
      | .error _ => false) = true ∧
    (match rsDriveLog ⟨true, true⟩ fns rsNoHooks conv { dilParams with missedTrace := false } (Sim.new slow) none none with
      | .ok t => decide (t.cyc.times = [0, 6, 12] ∧ t.rows.length = 3)
      | .error _ => false) = true := by
  decide +kernel

/-- The hypothesis on the steps is met. -/
theorem C135_demo_long : LongStep slow := ⟨0, 0, 6, rfl, rfl, by norm_num⟩

/-- The largest and the smallest of four floats. -/
theorem C135_demo_extremes : rsMax [.fin (1 : ℚ), .pinf, .ninf, .fin 3] = .ok .pinf ∧
    rsMin [.fin (1 : ℚ), .pinf, .fin (-3)] = .ok (.fin (-3)) ∧ rsMax [.fin (1 : ℚ), .nan] = .error .err := by
  decide +kernel

end LogDemo
end Fastsim.Props
