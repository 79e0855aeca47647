import Verif.Model.Report
import Verif.Props.Coherent
import Verif.Props.Post
import Verif.Lemmas.Dict

/-!
# C34, C36, C85: names of the reported energies, battery wear, acceleration power of a finished run
-/

set_option linter.unusedSectionVars false

namespace Fastsim.Spec

/-- `w` occurs somewhere in `l`. -/
def Occurs (w l : List Char) : Prop := ∃ a b, l = a ++ w ++ b

/-- `var` is the name of a power: it contains `_kw` with no `h` after it, and `a`, `b` are what stands before and after the
last such place. -/
def PowerName (var a b : List Char) : Prop :=
  var = a ++ ['_', 'k', 'w'] ++ b ∧ b.head? ≠ some 'h' ∧
  ∀ a' b', var = a' ++ ['_', 'k', 'w'] ++ b' → b'.head? ≠ some 'h' → a'.length ≤ a.length

end Fastsim.Spec

namespace Fastsim.Props
open Fastsim Spec

/-! ### C34: no energy of the report overwrites another -/

theorem splitKw_none : ∀ {var : List Char}, splitKw var = none →
    ∀ a b, var = a ++ ['_', 'k', 'w'] ++ b → b.head? = some 'h'
  | [], _, a, b, e => by simp at e
  | c :: cs, h, a, b, e => by
    rw [splitKw] at h
    cases hs : splitKw cs with
    | some p => rw [hs] at h; simp at h
    | none =>
      rw [hs] at h
      rcases a with _ | ⟨x, a⟩
      · rw [List.nil_append] at e
        simp only [List.cons_append, List.nil_append] at e
        rw [e] at h
        rcases b with _ | ⟨y, b⟩
        · simp at h
        · by_cases hy : y = 'h'
          · rw [hy]; rfl
          · simp only at h
            split at h
            · rename_i heq
              simp only [List.cons.injEq, true_and] at heq
              exact absurd heq.1 hy
            · simp at h
            · rename_i h1 h2
              exact absurd rfl (h2 _)
      · simp only [List.cons_append, List.cons.injEq] at e
        exact splitKw_none hs a b e.2

theorem splitKw_some : ∀ {var a b : List Char}, splitKw var = some (a, b) → PowerName var a b
  | [], a, b, h => by simp [splitKw] at h
  | c :: cs, a, b, h => by
    rw [splitKw] at h
    cases hs : splitKw cs with
    | some p =>
      obtain ⟨a', b'⟩ := p
      rw [hs] at h
      simp only [Option.some.injEq, Prod.mk.injEq] at h
      obtain ⟨rfl, rfl⟩ := h
      obtain ⟨h1, h2, h3⟩ := splitKw_some hs
      refine ⟨by rw [h1]; simp, h2, fun x y hx hy => ?_⟩
      rcases x with _ | ⟨x0, x⟩
      · simp
      · simp only [List.cons_append, List.cons.injEq] at hx
        have := h3 x y (by simpa using hx.2) hy
        simp only [List.length_cons]
        omega
    | none =>
      rw [hs] at h
      simp only at h
      split at h
      · simp at h
      · rename_i b0 hn heq
        simp only [Option.some.injEq, Prod.mk.injEq] at h
        obtain ⟨rfl, rfl⟩ := h
        refine ⟨by simpa using heq, ?_, fun x y hx hy => ?_⟩
        · rcases b0 with _ | ⟨y, b0⟩
          · simp
          · intro hh
            simp only [List.head?_cons, Option.some.injEq] at hh
            subst hh
            exact hn _ rfl
        · rcases x with _ | ⟨x0, x⟩
          · simp
          · simp only [List.cons_append, List.cons.injEq] at hx
            exact absurd (splitKw_none hs x y (by simpa using hx.2)) hy
      · simp at h

/-- A name is split at the last `_kw` that no `h` follows, and at no other place. -/
theorem splitKw_iff (var a b : List Char) : splitKw var = some (a, b) ↔ PowerName var a b := by
  refine ⟨splitKw_some, fun h => ?_⟩
  cases hs : splitKw var with
  | none => exact absurd (splitKw_none hs a b h.1) h.2.1
  | some p =>
    obtain ⟨a', b'⟩ := p
    have h' := splitKw_some hs
    have l1 := h.2.2 a' b' h'.1 h'.2.1
    have l2 := h'.2.2 a b h.1 h.2.1
    have e := h.1.symm.trans h'.1
    rw [List.append_assoc, List.append_assoc] at e
    obtain ⟨rfl, e2⟩ := List.append_inj e (by omega)
    simp only [List.cons_append, List.nil_append, List.cons.injEq, true_and] at e2
    rw [e2]

/-- The place of `_kj` in a name is unique if neither side contains it. -/
theorem kj_unique {a b a' b' : List Char} (ha : ¬ Occurs ['_', 'k', 'j'] a') (hl : a.length < a'.length)
    (h : a ++ ['_', 'k', 'j'] ++ b = a' ++ ['_', 'k', 'j'] ++ b') : False := by
  rw [List.append_assoc, List.append_assoc] at h
  obtain ⟨c, rfl⟩ : ∃ c, a' = a ++ c := by
    refine ⟨a'.drop a.length, ?_⟩
    have h1 := congrArg (List.take a.length) h
    rw [List.take_left, List.take_append_of_le_length (by omega)] at h1
    conv_lhs => rw [← List.take_append_drop a.length a', ← h1]
  rw [List.append_assoc, List.append_cancel_left_eq] at h
  rcases c with _ | ⟨c1, _ | ⟨c2, _ | ⟨c3, c⟩⟩⟩
  · simp at hl
  · simp at h
  · simp at h
  · simp only [List.cons_append, List.nil_append, List.cons.injEq] at h
    obtain ⟨rfl, rfl, rfl, -⟩ := h
    exact ha ⟨a, c, by simp⟩

theorem energyKey_inj {v w k : List Char} (hv : ¬ Occurs ['_', 'k', 'j'] v) (hw : ¬ Occurs ['_', 'k', 'j'] w)
    (h1 : energyKey v = some k) (h2 : energyKey w = some k) : v = w := by
  unfold energyKey at h1 h2
  obtain ⟨⟨a, b⟩, ha, hk⟩ := Option.map_eq_some_iff.1 h1
  obtain ⟨⟨a', b'⟩, ha', hk'⟩ := Option.map_eq_some_iff.1 h2
  have pv := (splitKw_some ha).1
  have pw := (splitKw_some ha').1
  have na : ¬ Occurs ['_', 'k', 'j'] a := fun ⟨x, y, e⟩ => hv ⟨x, y ++ ['_', 'k', 'w'] ++ b, by rw [pv, e]; simp⟩
  have na' : ¬ Occurs ['_', 'k', 'j'] a' := fun ⟨x, y, e⟩ => hw ⟨x, y ++ ['_', 'k', 'w'] ++ b', by rw [pw, e]; simp⟩
  simp only at hk hk'
  have e := hk.trans hk'.symm
  rcases Nat.lt_trichotomy a.length a'.length with l | l | l
  · exact (kj_unique na' l e).elim
  · rw [List.append_assoc, List.append_assoc] at e
    obtain ⟨rfl, e2⟩ := List.append_inj e l
    have : b = b' := by simpa using e2
    rw [pv, pw, this]
  · exact (kj_unique na l e.symm).elim

/-- Keys written for a channel. -/
def posKey (k : List Char) : String := String.ofList (k ++ ['_', 'p', 'o', 's'])
def negKey (k : List Char) : String := String.ofList (k ++ ['_', 'n', 'e', 'g'])

theorem ofList_ne {a b : List Char} (h : a.getLast? ≠ b.getLast?) : String.ofList a ≠ String.ofList b :=
  fun e => h (by rw [String.ofList_inj.1 e])

theorem posKey_inj {k l : List Char} (h : posKey k = posKey l) : k = l :=
  List.append_cancel_right (String.ofList_inj.1 h)

theorem negKey_inj {k l : List Char} (h : negKey k = negKey l) : k = l :=
  List.append_cancel_right (String.ofList_inj.1 h)

theorem posKey_ne_negKey (k l : List Char) : posKey k ≠ negKey l :=
  ofList_ne (by rw [List.getLast?_append, List.getLast?_append]; simp)

section Lawless
variable {K : Type*} [Zero K] [One K] [NatCast K] [Add K] [Sub K] [Mul K] [Div K] [Neg K]
  [LinearOrder K]

/-- One pass of the loop. -/
def diagStep (times : List K) (out : PyDict K) (c : List Char × List K) : PyDict K :=
  match energyKey c.1 with
  | none => out
  | some key => PyDict.set (PyDict.set out (posKey key) (diagEnergies times c.2).1) (negKey key) (diagEnergies times c.2).2

theorem diagStep_other (times : List K) (out : PyDict K) (c : List Char × List K) (k : String)
    (h : ∀ key, energyKey c.1 = some key → k ≠ posKey key ∧ k ≠ negKey key) :
    PyDict.get? (diagStep times out c) k = PyDict.get? out k := by
  unfold diagStep
  cases hk : energyKey c.1 with
  | none => rfl
  | some key => simp only; rw [PyDict.get?_set, PyDict.get?_set, if_neg (h key hk).2, if_neg (h key hk).1]

theorem diagFold_other (times : List K) : ∀ (l : List (List Char × List K)) (out : PyDict K) (k : String),
    (∀ c ∈ l, ∀ key, energyKey c.1 = some key → k ≠ posKey key ∧ k ≠ negKey key) →
    PyDict.get? (l.foldl (diagStep times) out) k = PyDict.get? out k
  | [], _, _, _ => rfl
  | c :: l, out, k, h => by
    rw [List.foldl_cons, diagFold_other times l _ k fun c' hc' => h c' (List.mem_cons_of_mem _ hc'),
      diagStep_other times out c k (h c List.mem_cons_self)]

theorem diagFold_own (times : List K) : ∀ (l : List (List Char × List K)) (out : PyDict K),
    (l.map Prod.fst).Nodup → (∀ c ∈ l, (energyKey c.1).isSome → ¬ Occurs ['_', 'k', 'j'] c.1) →
    ∀ c ∈ l, ∀ key, energyKey c.1 = some key →
      PyDict.get? (l.foldl (diagStep times) out) (posKey key) = some (diagEnergies times c.2).1 ∧
      PyDict.get? (l.foldl (diagStep times) out) (negKey key) = some (diagEnergies times c.2).2
  | [], _, _, _, c, hc, _, _ => by simp at hc
  | d :: l, out, hn, hj, c, hc, key, hk => by
    rw [List.map_cons, List.nodup_cons] at hn
    rw [List.foldl_cons]
    rcases List.mem_cons.1 hc with rfl | hc
    · have hne : ∀ c' ∈ l, ∀ key', energyKey c'.1 = some key' → key ≠ key' := by
        rintro c' hc' key' hk' rfl
        have := energyKey_inj (hj c List.mem_cons_self (by rw [hk]; rfl))
          (hj c' (List.mem_cons_of_mem _ hc') (by rw [hk']; rfl)) hk hk'
        exact hn.1 (this ▸ List.mem_map_of_mem hc')
      rw [diagFold_other times l _ (posKey key) fun c' hc' key' hk' =>
          ⟨fun e => hne c' hc' key' hk' (posKey_inj e), posKey_ne_negKey _ _⟩,
        diagFold_other times l _ (negKey key) fun c' hc' key' hk' =>
          ⟨(posKey_ne_negKey _ _).symm, fun e => hne c' hc' key' hk' (negKey_inj e)⟩]
      unfold diagStep
      rw [hk]
      simp only
      rw [PyDict.get?_set, PyDict.get?_set, PyDict.get?_set, if_neg (posKey_ne_negKey _ _), if_pos rfl, if_pos rfl]
      exact ⟨rfl, rfl⟩
    · exact diagFold_own times l _ hn.2 (fun c' hc' => hj c' (List.mem_cons_of_mem _ hc')) c hc key hk

/-- **C34 (the report).** For every attribute whose name says it is a power — `_kw` without `h`, the last such place — the
diagnostics hold its positive and negative energy under that name with `_kj` in place of `_kw`, as long as no power has
`_kj` in its own name already: no energy overwrites another. Distance and fuel economy keep their own keys, and there are no
other keys. -/
theorem C34_report (kwhPerGge : K) (s : Sim K) (chans : List (List Char × List K)) (hn : (chans.map Prod.fst).Nodup)
    (hj : ∀ c ∈ chans, ∀ a b, PowerName c.1 a b → ¬ Occurs ['_', 'k', 'j'] c.1) :
    (∀ c ∈ chans, ∀ a b, PowerName c.1 a b →
      PyDict.get? (diagnostics kwhPerGge s chans) (String.ofList (a ++ ['_', 'k', 'j'] ++ b ++ ['_', 'p', 'o', 's']))
        = some (diagEnergies s.cyc.times c.2).1 ∧
      PyDict.get? (diagnostics kwhPerGge s chans) (String.ofList (a ++ ['_', 'k', 'j'] ++ b ++ ['_', 'n', 'e', 'g']))
        = some (diagEnergies s.cyc.times c.2).2) ∧
    PyDict.get? (diagnostics kwhPerGge s chans) "dist_miles_final" = some (totalMiles s) ∧
    PyDict.get? (diagnostics kwhPerGge s chans) "mpgge" = some (diagMpgge kwhPerGge s) ∧
    (∀ k, PyDict.get? (diagnostics kwhPerGge s chans) k ≠ none → k = "dist_miles_final" ∨ k = "mpgge" ∨
      ∃ c ∈ chans, ∃ a b, PowerName c.1 a b ∧
        (k = String.ofList (a ++ ['_', 'k', 'j'] ++ b ++ ['_', 'p', 'o', 's']) ∨
         k = String.ofList (a ++ ['_', 'k', 'j'] ++ b ++ ['_', 'n', 'e', 'g']))) := by
  have eLoop : diagLoop s.cyc.times chans = chans.foldl (diagStep s.cyc.times) [] := rfl
  have hd : ("dist_miles_final" : String) = String.ofList "dist_miles_final".toList := String.ofList_toList.symm
  have hm : ("mpgge" : String) = String.ofList "mpgge".toList := String.ofList_toList.symm
  have ld : "dist_miles_final".toList.getLast? = some 'l' := by decide
  have lm : "mpgge".toList.getLast? = some 'e' := by decide
  have np : ∀ k : List Char, String.ofList (k ++ ['_', 'p', 'o', 's']) ≠ "dist_miles_final" ∧
      String.ofList (k ++ ['_', 'p', 'o', 's']) ≠ "mpgge" := fun k => by
    constructor
    · rw [hd]; exact ofList_ne (by rw [List.getLast?_append, ld]; simp)
    · rw [hm]; exact ofList_ne (by rw [List.getLast?_append, lm]; simp)
  have nn : ∀ k : List Char, String.ofList (k ++ ['_', 'n', 'e', 'g']) ≠ "dist_miles_final" ∧
      String.ofList (k ++ ['_', 'n', 'e', 'g']) ≠ "mpgge" := fun k => by
    constructor
    · rw [hd]; exact ofList_ne (by rw [List.getLast?_append, ld]; simp)
    · rw [hm]; exact ofList_ne (by rw [List.getLast?_append, lm]; simp)
  have key : ∀ {v a b : List Char}, PowerName v a b → energyKey v = some (a ++ ['_', 'k', 'j'] ++ b) := fun h => by
    unfold energyKey; rw [(splitKw_iff _ _ _).2 h]; rfl
  have unkey : ∀ {v k : List Char}, energyKey v = some k → ∃ a b, PowerName v a b ∧ k = a ++ ['_', 'k', 'j'] ++ b := by
    intro v k h
    unfold energyKey at h
    obtain ⟨⟨a, b⟩, h1, h2⟩ := Option.map_eq_some_iff.1 h
    exact ⟨a, b, splitKw_some h1, h2.symm⟩
  refine ⟨fun c hc a b hp => ?_, ?_, ?_, fun k hk => ?_⟩
  · have := diagFold_own s.cyc.times chans [] hn (fun c' hc' h' => by
      obtain ⟨k', hk'⟩ := Option.isSome_iff_exists.1 h'
      obtain ⟨a', b', hp', -⟩ := unkey hk'
      exact hj c' hc' a' b' hp') c hc _ (key hp)
    unfold diagnostics
    rw [PyDict.get?_set, PyDict.get?_set, PyDict.get?_set, PyDict.get?_set, if_neg (np _).2, if_neg (np _).1,
      if_neg (nn _).2, if_neg (nn _).1, eLoop]
    exact this
  · unfold diagnostics
    rw [PyDict.get?_set, PyDict.get?_set, if_neg (by decide), if_pos rfl]
  · unfold diagnostics
    rw [PyDict.get?_set, if_pos rfl]
  · unfold diagnostics at hk
    rw [PyDict.get?_set, PyDict.get?_set] at hk
    by_cases h1 : k = "mpgge"
    · exact Or.inr (Or.inl h1)
    · by_cases h2 : k = "dist_miles_final"
      · exact Or.inl h2
      · rw [if_neg h1, if_neg h2, eLoop] at hk
        right; right
        by_contra hcon
        apply hk
        rw [diagFold_other s.cyc.times chans [] k]
        · rfl
        · intro c hc key' hk'
          obtain ⟨a, b, hp, rfl⟩ := unkey hk'
          exact ⟨fun e => hcon ⟨c, hc, a, b, hp, Or.inl e⟩, fun e => hcon ⟨c, hc, a, b, hp, Or.inr e⟩⟩

end Lawless

/-! ### C36: depth of the cycles and battery life -/

section Field
variable {K : Type*} [Field K] [LinearOrder K] [IsStrictOrderedRing K]
variable {F : Fns K} {H : Hooks K} {V : Veh K} {P : SimParams K}

theorem wearDodTail_length (m : K) : ∀ add : List K, (wearDodTail m add).length = add.length - 1
  | [] => rfl
  | [_] => rfl
  | a0 :: a1 :: add => by
    rw [wearDodTail, List.length_cons, wearDodTail_length m (a1 :: add)]
    simp

/-- **C36 (the first entry).** A call leaves the depth of index 0 as it was, whatever it was, and both results have one entry for
every sample. -/
theorem C36_first (m old a b : K) (kwh : List K) (n : Nat) (hne : kwh ≠ []) :
    (wearReport F a b m old (wearCalls kwh n)).1.head? = some old ∧
    (wearReport F a b m old (wearCalls kwh n)).1.length = kwh.length ∧
    (wearReport F a b m old (wearCalls kwh n)).2.length = kwh.length := by
  have hl := List.length_pos_iff.2 hne
  unfold wearReport
  simp only [List.head?_cons, List.length_map, List.length_cons, wearDodTail_length, wearCalls_length, true_and]
  omega

theorem wearDodTail_get (m : K) : ∀ (add : List K) (i : Nat), i + 1 < add.length →
    (wearDodTail m add)[i]? = some (if m = 0 then 0 else if add.getD (i + 1) 0 = 0 then add.getD i 0 / m else 0)
  | [], i, hi => by simp at hi
  | [_], i, hi => by simp at hi
  | a0 :: a1 :: add, 0, _ => by simp [wearDodTail]
  | a0 :: a1 :: add, i + 1, hi => by
    rw [wearDodTail, List.getElem?_cons_succ, wearDodTail_get m (a1 :: add) i (by simpa using hi)]
    simp only [List.getD_cons_succ]

/-- **C36 (depth).** After `n` calls, at the sample where charging stops, the depth of the cycle is the energy charged over
the last `n` steps of the streak as a share of the capacity; while charging goes on it is zero. -/
theorem C36_depth (m old : K) (hm : m ≠ 0) (a b : K) (kwh : List K) (n : Nat) {s i : Nat} (h : Streak kwh s i)
    (hi : i + 1 < kwh.length) :
    (kwh.getD (i + 1) 0 ≤ kwh.getD i 0 →
      (wearReport F a b m old (wearCalls kwh n)).1.getD (i + 1) 0
        = (kwh.getD i 0 - kwh.getD (max s (i - n)) 0) / m) ∧
    (kwh.getD i 0 < kwh.getD (i + 1) 0 → 1 ≤ n → (wearReport F a b m old (wearCalls kwh n)).1.getD (i + 1) 0 = 0) := by
  have e : (wearReport F a b m old (wearCalls kwh n)).1.getD (i + 1) 0 =
      if (wearCalls kwh n).getD (i + 1) 0 = 0 then (wearCalls kwh n).getD i 0 / m else 0 := by
    unfold wearReport
    simp only
    rw [List.getD_cons_succ, List.getD_eq_getElem?_getD,
      wearDodTail_get m _ i (by rw [wearCalls_length]; exact hi), if_neg hm]
    rfl
  rw [e]
  refine ⟨fun hstop => ?_, fun hup hn => ?_⟩
  · have h' : Streak kwh (i + 1) (i + 1) :=
      ⟨le_rfl, hi, fun j h1 h2 => by omega, Or.inr (by rw [Nat.add_sub_cancel]; exact hstop)⟩
    have e0 : (wearCalls kwh n).getD (i + 1) 0 = 0 := by
      rw [C36_calls kwh n _ _ h', max_eq_left (by omega), sub_self]
    rw [if_pos e0, C36_calls kwh n s i h]
  · have hle := h.le
    have h' : Streak kwh s (i + 1) :=
      ⟨by omega, hi, fun j h1 h2 => by
        rcases Nat.lt_or_ge j i with hj | hj
        · exact h.up j h1 hj
        · obtain rfl : j = i := by omega
          exact hup, h.start⟩
    have hup' : ∀ j, s ≤ j → j ≤ i → kwh.getD j 0 < kwh.getD (i + 1) 0 := by
      intro j h1 h2
      obtain ⟨d, rfl⟩ : ∃ d, i = j + d := ⟨i - j, by omega⟩
      clear h2 e hup hle
      have : ∀ e, e ≤ d → kwh.getD j 0 < kwh.getD (j + e + 1) 0 := by
        intro e he
        induction e with
        | zero => exact h'.up j h1 (by omega)
        | succ e ih => exact lt_trans (ih (by omega)) (h'.up (j + e + 1) (by omega) (by omega))
      exact this d le_rfl
    rw [if_neg]
    rw [C36_calls kwh n s (i + 1) h']
    have := hup' (max s (i + 1 - n)) (le_max_left _ _) (max_le hle (by omega))
    exact (sub_pos.2 this).ne'

/-- **C36 (battery life).** A sample at which no charging streak ends uses up no battery life. For life coefficients with which
a deeper cycle can be repeated less often — the power function falls with the depth, as with the negative exponents of
`ess_life_coef_b` — a deeper cycle never uses up less. -/
theorem C36_life (a b : K) : percDead F a b 0 = 0 ∧
    ((∀ x, 0 < x → 0 < F.pow x (1 / b)) → (∀ x y, 0 < x → x ≤ y → F.pow y (1 / b) ≤ F.pow x (1 / b)) → 0 < a →
      ∀ x y, 0 < x → x ≤ y → 0 < percDead F a b x ∧ percDead F a b x ≤ percDead F a b y) := by
  refine ⟨by simp [percDead], fun hpos hanti ha x y hx hxy => ?_⟩
  have hy : 0 < y := lt_of_lt_of_le hx hxy
  unfold percDead
  rw [if_pos hx.ne', if_pos hy.ne']
  exact ⟨div_pos (hpos a ha) (hpos x hx), div_le_div_of_nonneg_left (hpos a ha).le (hpos y hy) (hanti x y hx hxy)⟩

/-! ### C85 -/

theorem accelTail_get (V : Veh K) : ∀ (rows : List (Row K)) (dts : List K) (i : Nat), i + 1 < rows.length →
    i < dts.length → (accelTail V rows dts)[i]? =
      some (V.vehKg / (2 * dts.getD i 0) * ((rows.getD (i + 1) Row.zero).ach.mpsAch * (rows.getD (i + 1) Row.zero).ach.mpsAch
        - (rows.getD i Row.zero).ach.mpsAch * (rows.getD i Row.zero).ach.mpsAch) / 1000)
  | [], _, i, h, _ => by simp at h
  | [_], _, i, h, _ => by simp at h
  | _ :: _ :: _, [], i, _, h => by simp at h
  | r0 :: r1 :: rows, dt :: dts, 0, _, _ => by simp [accelTail]
  | r0 :: r1 :: rows, dt :: dts, i + 1, h, h' => by
    rw [accelTail, List.getElem?_cons_succ, accelTail_get V (r1 :: rows) dts i (by simpa using h) (by simpa using h')]
    simp only [List.getD_cons_succ]

theorem accelTail_length (V : Veh K) : ∀ (rows : List (Row K)) (dts : List K), rows.length ≤ dts.length + 1 →
    (accelTail V rows dts).length = rows.length - 1
  | [], _, _ => by simp [accelTail]
  | [_], _, _ => by simp [accelTail]
  | _ :: _ :: _, [], h => by simp at h
  | r0 :: r1 :: rows, dt :: dts, h => by
    have := accelTail_length V (r1 :: rows) dts (by simpa using h)
    rw [accelTail, List.length_cons, this]
    simp

/-- **C85 (power).** The acceleration power a finished run reports for a step is the change of the vehicle's kinetic energy
between the two achieved speeds, per second of the step; before the first step it is zero. -/
theorem C85_power (hH : H.Local) {s : Sim K} (h : Finished F H V P s) :
    (accelAfter V s).length = s.cyc.length ∧ (accelAfter V s).getD 0 0 = 0 ∧
    ∀ i, 1 ≤ i → i < s.cyc.length → (accelAfter V s).getD i 0 =
      kineticKw V (dtAt s.cyc i) (s.row (i - 1)).ach.mpsAch (s.row i).ach.mpsAch := by
  have hlen := h.lenRows hH
  have hpos := h.pos hH
  have hl1 : ((s.rows.take 1).map fun r => r.pow.accelKw).length = 1 := by
    rw [List.length_map, List.length_take]; omega
  refine ⟨?_, ?_, fun i h1 h2 => ?_⟩
  · unfold accelAfter
    rw [List.length_append, hl1, accelTail_length _ _ _ (by rw [List.length_tail, dtS_length]; omega)]
    omega
  · obtain ⟨soc, -, hrow0⟩ := Reachable.row0 hH h.reachable
    unfold accelAfter
    rw [List.getD_eq_getElem?_getD, List.getElem?_append_left (by omega), List.getElem?_map, List.getElem?_take]
    rw [List.getD_eq_getElem?_getD, List.getElem?_eq_getElem (by omega)] at hrow0
    rw [if_pos (by omega), List.getElem?_eq_getElem (by omega)]
    simp only [Option.getD_some] at hrow0
    rw [hrow0]
    rfl
  · obtain ⟨k, rfl⟩ : ∃ k, i = k + 1 := ⟨i - 1, by omega⟩
    unfold accelAfter
    rw [List.getD_eq_getElem?_getD, List.getElem?_append_right (by omega), hl1, Nat.add_sub_cancel,
      accelTail_get V _ _ k (by omega) (by rw [List.length_tail, dtS_length]; omega)]
    have hd : (dtS s.cyc).tail.getD k 0 = dtAt s.cyc (k + 1) := by
      rw [← dtS_get s.cyc (k + 1) (by omega) h2]
      simp [List.getD_eq_getElem?_getD]
    rw [hd, Option.getD_some]
    unfold kineticKw Sim.row
    by_cases h0 : dtAt s.cyc (k + 1) = 0
    · rw [h0]; simp
    · field_simp

/-- **C85 (energy).** Summed over any stretch of steps, the reported acceleration power is the kinetic energy gained over the
stretch; over the whole run it is the opposite of the reported `ke_kj`, and nothing for a vehicle that ends as fast as it
started. -/
theorem C85_energy (hH : H.Local) {s : Sim K} (h : Finished F H V P s) (hdt : DtPos s) :
    (∀ i j, i ≤ j → j < s.cyc.length →
      ∑ k ∈ Finset.Ico i j, (accelAfter V s).getD (k + 1) 0 * dtAt s.cyc (k + 1)
        = vehicleKj V (s.row j).ach.mpsAch - vehicleKj V (s.row i).ach.mpsAch) ∧
    npSum (List.zipWith (· * ·) (accelAfter V s) (dtS s.cyc)) = -keKj V s ∧
    (s.lastRow.ach.mpsAch = s.firstRow.ach.mpsAch →
      npSum (List.zipWith (· * ·) (accelAfter V s) (dtS s.cyc)) = 0) := by
  obtain ⟨hl, h0, hp⟩ := C85_power hH h
  have hpos := h.pos hH
  have hstretch : ∀ i j, i ≤ j → j < s.cyc.length →
      ∑ k ∈ Finset.Ico i j, (accelAfter V s).getD (k + 1) 0 * dtAt s.cyc (k + 1)
        = vehicleKj V (s.row j).ach.mpsAch - vehicleKj V (s.row i).ach.mpsAch := by
    intro i j hij hj
    rw [← Finset.sum_Ico_sub (fun k => vehicleKj V (s.row k).ach.mpsAch) hij]
    refine Finset.sum_congr rfl fun k hk => ?_
    have hk' := Finset.mem_Ico.1 hk
    rw [hp (k + 1) (by omega) (by omega), Nat.add_sub_cancel]
    have hd : dtAt s.cyc (k + 1) ≠ 0 := (hdt (k + 1) (by omega) (by rw [h.atEnd]; omega)).ne'
    unfold kineticKw vehicleKj
    field_simp
  have htotal : npSum (List.zipWith (· * ·) (accelAfter V s) (dtS s.cyc)) = -keKj V s := by
    rw [npSum_eq, zipWith_sum _ 0 0 _ _ (by rw [hl, dtS_length]), hl]
    obtain ⟨n, hn⟩ : ∃ n, s.cyc.length = n + 1 := ⟨s.cyc.length - 1, by omega⟩
    have hs := hstretch 0 n (by omega) (by omega)
    rw [Nat.Ico_zero_eq_range] at hs
    rw [hn, Finset.sum_range_succ', h0, zero_mul, add_zero]
    rw [Finset.sum_congr rfl fun k hk => by
      rw [dtS_get _ (k + 1) (by omega) (by have := Finset.mem_range.1 hk; omega)], hs]
    have hlast : s.lastRow = s.row n := by rw [Finished.last hH h, hn, Nat.add_sub_cancel]
    unfold keKj vehicleKj
    rw [hlast]
    show _ = -(1 / 2 * V.vehKg * ((s.row 0).ach.mpsAch * (s.row 0).ach.mpsAch - _) / 1000)
    ring
  refine ⟨hstretch, htotal, fun he => ?_⟩
  rw [htotal]
  unfold keKj
  rw [he]
  simp

/-- **C85 (unchanged).** Without missed-trace correction the report equals what the steps themselves used. -/
theorem C85_same (hH : H.Local) (hK : H.KeepRows) (hm : P.missedTrace = false) {s : Sim K} (h : Finished F H V P s) :
    accelAfter V s = s.rows.map fun r => r.pow.accelKw := by
  obtain ⟨hl, h0, hp⟩ := C85_power hH h
  have hlen := h.lenRows hH
  refine List.ext_getElem (by rw [hl, List.length_map, hlen]) fun i hi hi' => ?_
  have e1 : (accelAfter V s)[i] = (accelAfter V s).getD i 0 := by
    rw [List.getD_eq_getElem?_getD, List.getElem?_eq_getElem hi]; rfl
  rw [List.length_map] at hi'
  rw [e1, List.getElem_map]
  rcases Nat.eq_zero_or_pos i with rfl | h1
  · obtain ⟨soc, -, hrow0⟩ := Reachable.row0 hH h.reachable
    rw [List.getD_eq_getElem?_getD, List.getElem?_eq_getElem hi', Option.getD_some] at hrow0
    rw [h0, hrow0]
    rfl
  · have h2 : i < s.cyc.length := by omega
    obtain ⟨p, r, dt, a, hs⟩ := stepAt_exists hH h.reachable h1 (by rw [h.atEnd]; exact h2)
    obtain ⟨g, hpw⟩ := C49_coherent hH hK hm h.reachable hs
    have er : s.row i = r := by
      unfold Sim.row; rw [List.getD_eq_getElem?_getD, hs.row]; rfl
    have ep : s.row (i - 1) = p := by
      unfold Sim.row; rw [List.getD_eq_getElem?_getD, hs.prev]; rfl
    have er' : s.rows[i] = r := by
      have := hs.row
      rw [List.getElem?_eq_getElem hi'] at this
      exact Option.some.inj this
    rw [hp i h1 h2, er, ep, er', ← hs.dt, hpw.accel]

end Field

/-! ### Concrete cases -/
open Demo

/-- Two powers and two attributes that are none: `fc_kwh_out` is an energy, `soc` neither. -/
def demoChans : List (List Char × List ℚ) :=
  [("fc_kw_out".toList, [0, 2, 4, -2]), ("fc_kwh_out".toList, [1, 1, 1, 1]), ("soc".toList, [1, 1, 1, 1]),
   ("accel_kw".toList, [0, 1, -1, 0])]

/-- The hypotheses of the report hold for them, and `fc_kw_out` is split as expected. -/
theorem C34_report_demo : (demoChans.map Prod.fst).Nodup ∧
    (∀ c ∈ demoChans, ∀ a b, PowerName c.1 a b → ¬ Occurs ['_', 'k', 'j'] c.1) ∧
    PowerName "fc_kw_out".toList "fc".toList "_out".toList ∧ ¬ ∃ a b, PowerName "fc_kwh_out".toList a b := by
  refine ⟨by decide, fun c hc a b hp ho => ?_, splitKw_some (by decide), ?_⟩
  · obtain ⟨x, y, e⟩ := ho
    have hj : 'j' ∈ c.1 := by rw [e]; simp
    have hno : ∀ c ∈ demoChans, 'j' ∉ c.1 := by decide
    exact hno c hc hj
  · rintro ⟨a, b, h⟩
    have := (splitKw_iff _ _ _).2 h
    revert this
    simp [splitKw]

/-- Charging from 1 to 2 to 4 kWh, then standing still: the cycle that ends there is 3 of 10 kWh deep, after two calls. -/
theorem C36_depth_demo : Streak [1, 2, 4, (4 : ℚ)] 0 2 ∧
    (wearReport fns 1 1 10 0 (wearCalls [1, 2, 4, (4 : ℚ)] 2)).1 = [0, 0, 0, 3 / 10] ∧
    (wearReport fns 1 1 10 0 (wearCalls [1, 2, 4, (4 : ℚ)] 1)).1 = [0, 0, 0, 2 / 10] := by
  refine ⟨⟨by decide, by decide, ?_, Or.inl rfl⟩, by decide +kernel, by decide +kernel⟩
  intro j h1 h2
  interval_cases j <;> decide

/-- Coefficients as `C36_life` asks for: `pow x y = 1 / x`. -/
theorem C36_life_demo : ∃ F : Fns ℚ, (∀ x, 0 < x → 0 < F.pow x (1 / (-1))) ∧
    (∀ x y, 0 < x → x ≤ y → F.pow y (1 / (-1)) ≤ F.pow x (1 / (-1))) ∧
    percDead F 2 (-1) (1 / 2) = 1 / 4 ∧ percDead F 2 (-1) 1 = 1 / 2 :=
  ⟨{ fns with pow := fun x _ => 1 / x }, fun x hx => by simpa using hx,
    fun x y hx hxy => one_div_le_one_div_of_le hx hxy, by decide +kernel, by decide +kernel⟩

/-- The run of `C49_free_energy`: during it the acceleration power of the corrected step was that of a lower speed; once it is
finished the report shows that of the achieved speeds, so the reported energies of the step no longer belong together. -/
theorem C85_demo : ∃ s, simDrive fns noHooks conv dilParams (Sim.new jump) none none = .ok s ∧
    Finished fns noHooks conv dilParams s ∧ DtPos s ∧
    (accelAfter conv s).getD 2 0 = kineticKw conv (dtAt s.cyc 2) 4 20 ∧
    ¬ (accelAfter conv s).getD 2 0 = (s.row 2).pow.accelKw ∧
    npSum (List.zipWith (· * ·) (accelAfter conv s) (dtS s.cyc)) = 300 := by
  have hall : (match simDrive fns noHooks conv dilParams (Sim.new jump) none none with
      | .ok s => decide ((∀ i ∈ List.range s.i, 1 ≤ i → 0 < dtAt s.cyc i) ∧
        (accelAfter conv s).getD 2 0 = kineticKw conv (dtAt s.cyc 2) 4 20 ∧
        ¬ (accelAfter conv s).getD 2 0 = (s.row 2).pow.accelKw ∧
        npSum (List.zipWith (· * ·) (accelAfter conv s) (dtS s.cyc)) = 300)
      | .error _ => false) = true := by decide +kernel
  split at hall
  · rename_i s hs
    obtain ⟨a, b⟩ := of_decide_eq_true hall
    exact ⟨s, hs, Finished.simDrive noHooks_local rfl hs, fun i h1 h2 => a i (List.mem_range.2 h2) h1, b⟩
  · simp at hall

end Fastsim.Props
