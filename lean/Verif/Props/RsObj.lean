import Verif.Model.RsObj
import Mathlib.Tactic.NormNum
import Mathlib.Tactic.Ring

set_option linter.unusedSectionVars false

/-!
# C127: editing objects of the Rust core from Python
-/

namespace Fastsim.Spec
variable {V : Type*}

/-- The plain value reached by reading the names `p` one after the other. -/
def seen : RObj V → List String → Option V
  | .prim v, [] => some v
  | .obj _ _ f, n :: p => seen (f n) p
  | _, _ => none

/-- What variable `x` shows under the names `p`. -/
def shown (h : List (RObj V)) (x : Nat) (p : List String) : Option V := (h[x]?).bind fun o => seen o p

/-- The class and the flag of the object in a variable. -/
def kindOf (h : List (RObj V)) (x : Nat) : Option (RsClass × Bool) :=
  (h[x]?).bind fun
    | .obj c o _ => some (c, o)
    | _ => none

/-- The value shown by `g`, with what `w` shows put at `path`. -/
def putAt (g : List String → Option V) (path : List String) (w : List String → Option V) : List String → Option V :=
  fun p => if path <+: p then w (p.drop path.length) else g p

/-- An action that may change what variable `x` shows. -/
def Edits (x : Nat) : RsAct V → Prop
  | .write y _ _ => y = x
  | .method y _ => y = x
  | _ => False

/-- The path `ns` leads from `o` through fields that can be read and written to objects with a flag, and the last of them has a
field `l` that can be written. -/
def Editable : RObj V → List String → String → Prop
  | .obj c _ f, [], l => c.writable l = true ∧ f l ≠ .absent
  | .obj c _ f, n :: ns, l => c.readable n = true ∧ c.writable n = true ∧ (∃ c' o' f', f n = .obj c' o' f' ∧ c'.flag = true) ∧
      Editable (f n) ns l
  | _, _, _ => False

/-- Python's rule for an index into a list. -/
def pyIndex (len : Nat) (i : Int) : Option Nat :=
  if 0 ≤ i ∧ i < len then some i.toNat else if i < 0 ∧ -(len : Int) ≤ i then some (i + len).toNat else none

end Fastsim.Spec

namespace Fastsim.Props
open Spec
variable {V : Type*}

theorem seen_mark (b : Bool) (x : RObj V) (p : List String) : seen (x.mark b) p = seen x p := by
  cases x <;> cases p <;> rfl

theorem seen_setField (c : RsClass) (o : Bool) (f : String → RObj V) (n : String) (x : RObj V) (m : String) (p : List String) :
    seen (.obj c o (setField f n x)) (m :: p) = if m = n then seen x p else seen (f m) p := by
  show seen (setField f n x m) p = _
  unfold setField
  split <;> rfl

theorem read_ok {o o' v : RObj V} {n : String} (h : o.read n = .ok (o', v)) :
    (∀ p, seen o' p = seen o p) ∧ (∀ p, seen v p = seen o (n :: p)) ∧
    ∃ c b f f', o = .obj c b f ∧ o' = .obj c b f' ∧ f n ≠ .absent ∧ c.readable n = true ∧
      v = if c.marked n = true then (f n).mark true else f n := by
  cases o with
  | absent => cases h
  | prim w => cases h
  | obj c b f =>
    unfold RObj.read at h
    dsimp only at h
    have key : ∀ x : RObj V, f n = x → x ≠ .absent →
        (if c.readable n = false then .error .attributeError
          else if c.marked n = true then .ok (.obj c b (setField f n (x.mark true)), x.mark true)
          else .ok (.obj c b f, x) : Except PyErr (RObj V × RObj V)) = .ok (o', v) →
        (∀ p, seen o' p = seen (.obj c b f) p) ∧ (∀ p, seen v p = seen (.obj c b f) (n :: p)) ∧
        ∃ c₁ b₁ f₁ f', RObj.obj c b f = .obj c₁ b₁ f₁ ∧ o' = .obj c₁ b₁ f' ∧ f₁ n ≠ .absent ∧ c₁.readable n = true ∧
          v = if c₁.marked n = true then (f₁ n).mark true else f₁ n := by
      intro x hx hne hh
      split at hh
      · cases hh
      rename_i hr
      split at hh
      · rename_i hm
        cases hh
        refine ⟨?_, ?_, c, b, f, _, rfl, rfl, hx ▸ hne, by simpa using hr, by rw [if_pos hm, hx]⟩
        · intro p
          cases p with
          | nil => rfl
          | cons m p =>
            rw [seen_setField]
            split
            · rename_i hmn
              subst hmn
              rw [seen_mark, ← hx]; rfl
            · rfl
        · intro p
          rw [seen_mark, ← hx]; rfl
      · rename_i hm
        cases hh
        refine ⟨fun p => rfl, ?_, c, b, f, f, rfl, rfl, hx ▸ hne, by simpa using hr, by rw [if_neg hm, hx]⟩
        intro p
        rw [← hx]; rfl
    cases hx : f n with
    | absent => rw [hx] at h; cases h
    | prim w => rw [hx] at h; exact key _ hx (by simp) h
    | obj c' b' f' => rw [hx] at h; exact key _ hx (by simp) h

/-- When reading succeeds. -/
theorem read_of {c : RsClass} {b : Bool} {f : String → RObj V} {n : String} (hf : f n ≠ .absent) (hr : c.readable n = true) :
    ∃ o', (RObj.obj c b f).read n = .ok (o', if c.marked n = true then (f n).mark true else f n) := by
  unfold RObj.read
  dsimp only
  cases hx : f n with
  | absent => exact absurd hx hf
  | prim w => by_cases hm : c.marked n = true <;> simp [hr, hm]
  | obj c' b' f' => by_cases hm : c.marked n = true <;> simp [hr, hm]

/-- The exact outcome of a write to a field that is there and can be written. -/
theorem write_of {c : RsClass} {b : Bool} {f : String → RObj V} {n : String} (v : RObj V) (hf : f n ≠ .absent)
    (hw : c.writable n = true) :
    (RObj.obj c b f).write n v = if c.free n = true then .ok (.obj c b (setField f n v))
      else if c.flag = true then
        if b = false then .ok (.obj c b (setField f n (if c.marked n = true then v.mark false else v)))
        else .error .attributeError
      else .ok (.obj c b (setField f n v)) := by
  unfold RObj.write
  dsimp only
  cases hx : f n with
  | absent => exact absurd hx hf
  | prim w => simp only [hw]; rfl
  | obj c' b' f' => simp only [hw]; rfl

theorem write_ok {o o' v : RObj V} {n : String} (h : o.write n v = .ok o') :
    (∀ m p, seen o' (m :: p) = if m = n then seen v p else seen o (m :: p)) ∧ seen o' [] = seen o [] ∧
    ∃ c b f x, o = .obj c b f ∧ o' = .obj c b (setField f n x) ∧ f n ≠ .absent ∧ c.writable n = true ∧ (x = v ∨ x = v.mark false) ∧
      (c.free n = true ∨ c.flag = false ∨ b = false) := by
  cases o with
  | absent => cases h
  | prim w => cases h
  | obj c b f =>
    have hf : f n ≠ .absent := by
      intro hx
      unfold RObj.write at h
      dsimp only at h
      rw [hx] at h
      cases h
    have hw : c.writable n = true := by
      by_contra hc
      unfold RObj.write at h
      dsimp only at h
      have : c.writable n = false := by simpa using hc
      cases hx : f n with
      | absent => exact hf hx
      | prim w => rw [hx] at h; simp [this] at h
      | obj c' b' f' => rw [hx] at h; simp [this] at h
    rw [write_of v hf hw] at h
    have fin : ∀ x : RObj V, o' = .obj c b (setField f n x) → (x = v ∨ x = v.mark false) →
        (c.free n = true ∨ c.flag = false ∨ b = false) → _ := fun x hx hv hg =>
      (⟨fun m p => by
          rw [hx, seen_setField]
          rcases hv with rfl | rfl
          · rfl
          · rw [seen_mark]; rfl,
        by rw [hx]; rfl, c, b, f, x, rfl, hx, hf, hw, hv, hg⟩ :
        (∀ m p, seen o' (m :: p) = if m = n then seen v p else seen (.obj c b f) (m :: p)) ∧ seen o' [] = seen (.obj c b f) [] ∧
        ∃ c₁ b₁ f₁ x, RObj.obj c b f = .obj c₁ b₁ f₁ ∧ o' = .obj c₁ b₁ (setField f₁ n x) ∧ f₁ n ≠ .absent ∧
          c₁.writable n = true ∧ (x = v ∨ x = v.mark false) ∧ (c₁.free n = true ∨ c₁.flag = false ∨ b₁ = false))
    split at h
    · rename_i hfr
      cases h
      exact fin v rfl (Or.inl rfl) (Or.inl hfr)
    split at h
    · split at h
      · rename_i hb
        cases h
        refine fin _ rfl ?_ (Or.inr (Or.inr hb))
        split
        · exact Or.inr rfl
        · exact Or.inl rfl
      · cases h
    · rename_i hfl
      cases h
      exact fin v rfl (Or.inl rfl) (Or.inr (Or.inl (by simpa using hfl)))

theorem reset_ok' {o o' : RObj V} (h : o.reset = .ok o') :
    ∃ c b f, o = .obj c b f ∧ o' = .obj c false f ∧ c.flag = true := by
  cases o with
  | absent => cases h
  | prim w => cases h
  | obj c b f =>
    by_cases hfl : c.flag = true
    · simp only [RObj.reset, hfl, if_true, Except.ok.injEq] at h
      exact ⟨c, b, f, rfl, h.symm, hfl⟩
    · simp [RObj.reset, hfl] at h

theorem seen_flag (c : RsClass) (b b' : Bool) (f : String → RObj V) (p : List String) :
    seen (.obj c b f) p = seen (.obj c b' f) p := by
  cases p <;> rfl

/-! ### One action -/

/-- What one action does to a variable that was there before: the variable stays, and shows the same unless the action edits it;
its class stays, and its flag unless it is reset. -/
theorem act_frame (h : List (RObj V)) (a : RsAct V) {x : Nat} (hx : x < h.length) :
    h.length ≤ (rsAct h a).1.length ∧ (¬ Edits x a → ∀ p, shown (rsAct h a).1 x p = shown h x p) ∧
    (a ≠ .reset x → kindOf (rsAct h a).1 x = kindOf h x) := by
  have same : h.length ≤ h.length ∧ (¬ Edits x a → ∀ p, shown h x p = shown h x p) ∧
      (a ≠ .reset x → kindOf h x = kindOf h x) := ⟨le_rfl, fun _ _ => rfl, fun _ => rfl⟩
  have app : ∀ (g : List (RObj V)) (o : RObj V), h.length ≤ g.length → (g ++ [o])[x]? = g[x]? := fun g o hg =>
    List.getElem?_append_left (hx.trans_le hg)
  cases a with
  | plain v =>
    show h.length ≤ (h ++ [RObj.prim v]).length ∧ (_ → ∀ p, shown (h ++ [RObj.prim v]) x p = _) ∧
      (_ → kindOf (h ++ [RObj.prim v]) x = _)
    refine ⟨by simp, fun _ p => ?_, fun _ => ?_⟩
    · unfold shown; rw [app h _ le_rfl]
    · unfold kindOf; rw [app h _ le_rfl]
  | copy y =>
    unfold rsAct
    dsimp only
    split
    · exact same
    · refine ⟨by simp, fun _ p => ?_, fun _ => ?_⟩
      · unfold shown; rw [app h _ le_rfl]
      · unfold kindOf; rw [app h _ le_rfl]
  | read y n =>
    unfold rsAct
    dsimp only
    split
    · exact same
    rename_i o ho
    split
    · exact same
    rename_i o' v hr
    have hr := read_ok hr
    refine ⟨by simp, fun _ p => ?_, fun _ => ?_⟩
    · unfold shown
      rw [app _ _ (by simp)]
      by_cases hyx : y = x
      · subst hyx
        rw [List.getElem?_set_self (by simpa using hx), ho]
        exact hr.1 p
      · rw [List.getElem?_set_ne hyx]
    · unfold kindOf
      rw [app _ _ (by simp)]
      by_cases hyx : y = x
      · subst hyx
        obtain ⟨c, b, f, f', rfl, rfl, _⟩ := hr.2.2
        rw [List.getElem?_set_self (by simpa using hx), ho]
        rfl
      · rw [List.getElem?_set_ne hyx]
  | write y n z =>
    unfold rsAct
    dsimp only
    split
    · rename_i o v ho hv
      cases hw : o.write n v with
      | error e => exact same
      | ok o' =>
        show h.length ≤ (h.set y o').length ∧ (_ → ∀ p, shown (h.set y o') x p = _) ∧ (_ → kindOf (h.set y o') x = _)
        refine ⟨by simp, fun he p => ?_, fun _ => ?_⟩
        · have hyx : y ≠ x := he
          unfold shown; rw [List.getElem?_set_ne hyx]
        · unfold kindOf
          by_cases hyx : y = x
          · subst hyx
            obtain ⟨c, b, f, x', rfl, rfl, _⟩ := (write_ok hw).2.2
            rw [List.getElem?_set_self hx, ho]
            rfl
          · rw [List.getElem?_set_ne hyx]
    · exact same
  | reset y =>
    unfold rsAct
    dsimp only
    split
    · exact same
    rename_i o ho
    cases hw : o.reset with
    | error e => exact same
    | ok o' =>
      show h.length ≤ (h.set y o').length ∧ (_ → ∀ p, shown (h.set y o') x p = _) ∧ (_ → kindOf (h.set y o') x = _)
      refine ⟨by simp, fun _ p => ?_, fun hn => ?_⟩
      · unfold shown
        by_cases hyx : y = x
        · subst hyx
          obtain ⟨c, b, f, rfl, rfl, _⟩ := reset_ok' hw
          rw [List.getElem?_set_self hx, ho]
          exact seen_flag _ _ _ _ _
        · rw [List.getElem?_set_ne hyx]
      · unfold kindOf
        have hyx : y ≠ x := fun e => hn (e ▸ rfl)
        rw [List.getElem?_set_ne hyx]
  | method y g =>
    unfold rsAct
    dsimp only
    split
    · exact same
    rename_i o ho
    cases o with
    | absent => exact same
    | prim w => exact same
    | obj c b f =>
      show h.length ≤ (h.set y (.obj c b (g f))).length ∧ (_ → ∀ p, shown (h.set y (.obj c b (g f))) x p = _) ∧
        (_ → kindOf (h.set y (.obj c b (g f))) x = _)
      refine ⟨by simp, fun he p => ?_, fun _ => ?_⟩
      · have hyx : y ≠ x := he
        unfold shown; rw [List.getElem?_set_ne hyx]
      · unfold kindOf
        by_cases hyx : y = x
        · subst hyx
          rw [List.getElem?_set_self hx, ho]
          rfl
        · rw [List.getElem?_set_ne hyx]

/-- An exception changes no variable. -/
theorem act_error {h : List (RObj V)} {a : RsAct V} {e : PyErr} (he : (rsAct h a).2 = .error e) : (rsAct h a).1 = h := by
  cases a with
  | plain v => cases he
  | copy y =>
    unfold rsAct at he ⊢
    dsimp only at he ⊢
    split
    · rfl
    · rename_i o ho; rw [ho] at he; cases he
  | read y n =>
    unfold rsAct at he ⊢
    dsimp only at he ⊢
    split
    · rfl
    rename_i o ho
    rw [ho] at he
    dsimp only at he
    split
    · rfl
    · rename_i o' v hr; rw [hr] at he; cases he
  | write y n z =>
    unfold rsAct at he ⊢
    dsimp only at he ⊢
    split
    · rename_i o v ho hv
      rw [ho, hv] at he
      dsimp only at he
      cases hw : o.write n v with
      | error e => rfl
      | ok o' => rw [hw] at he; cases he
    · rfl
  | reset y =>
    unfold rsAct at he ⊢
    dsimp only at he ⊢
    split
    · rfl
    rename_i o ho
    rw [ho] at he
    dsimp only at he
    cases hw : o.reset with
    | error e => rfl
    | ok o' => rw [hw] at he; cases he
  | method y g =>
    unfold rsAct at he ⊢
    dsimp only at he ⊢
    split
    · rfl
    rename_i o ho
    rw [ho] at he
    dsimp only at he
    cases hw : o.apply g with
    | error e => rfl
    | ok o' => rw [hw] at he; cases he

theorem acts_length (as : List (RsAct V)) : ∀ h : List (RObj V), h.length ≤ (rsActs h as).length := by
  induction as with
  | nil => exact fun h => le_rfl
  | cons a as ih =>
    intro h
    refine le_trans ?_ (ih _)
    cases h with
    | nil => exact Nat.zero_le _
    | cons o h => exact (act_frame (o :: h) a (x := 0) (by simp)).1

/-! ### Programs -/

/-- A variable shows what it showed, whatever a program does, unless the program writes to this very variable or calls a method
on it. Objects of the Rust core are never shared: neither the object a nested one was read from, nor the one it was put in. -/
theorem C127_isolated (as : List (RsAct V)) : ∀ (h : List (RObj V)) (x : Nat), x < h.length → (∀ a ∈ as, ¬ Edits x a) →
    ∀ p, shown (rsActs h as) x p = shown h x p := by
  induction as with
  | nil => exact fun h x _ _ p => rfl
  | cons a as ih =>
    intro h x hx ha p
    have hf := act_frame h a hx
    rw [show rsActs h (a :: as) = rsActs (rsAct h a).1 as from rfl,
      ih _ x (hx.trans_le hf.1) (fun b hb => ha b (List.mem_cons_of_mem _ hb)) p, hf.2.1 (ha a List.mem_cons_self) p]

theorem acts_kind (as : List (RsAct V)) : ∀ (h : List (RObj V)) (x : Nat), x < h.length → RsAct.reset x ∉ as →
    kindOf (rsActs h as) x = kindOf h x := by
  induction as with
  | nil => exact fun h x _ _ => rfl
  | cons a as ih =>
    intro h x hx ha
    have hf := act_frame h a hx
    rw [show rsActs h (a :: as) = rsActs (rsAct h a).1 as from rfl,
      ih _ x (hx.trans_le hf.1) (fun hb => ha (List.mem_cons_of_mem _ hb)),
      hf.2.2 (fun e => ha (e ▸ List.mem_cons_self))]

/-- Reading `x.n`: the new variable shows what `x` shows under `n`, and every variable shows what it did. -/
theorem C127_read {h h' : List (RObj V)} {x : Nat} {n : String} (hr : rsAct h (.read x n) = (h', .ok ())) :
    h'.length = h.length + 1 ∧ (∀ p, shown h' h.length p = shown h x (n :: p)) ∧
    (∀ y, y < h.length → ∀ p, shown h' y p = shown h y p) := by
  have hfr := fun y hy => (act_frame h (.read x n) (x := y) hy).2.1 (fun h => h)
  rw [hr] at hfr
  unfold rsAct at hr
  dsimp only at hr
  split at hr
  · cases hr
  rename_i o ho
  split at hr
  · cases hr
  rename_i o' v hv
  obtain ⟨_, hv2, _⟩ := read_ok hv
  have e := (Prod.ext_iff.1 hr).1
  dsimp only at e
  subst e
  refine ⟨by simp, ?_, hfr⟩
  intro p
  unfold shown
  rw [List.getElem?_append_right (by simp)]
  simp only [List.length_set, Nat.sub_self, List.getElem?_cons_zero, ho]
  exact hv2 p

/-- Writing `x.n = y`: if there is no exception, `x` shows under `n` what `y` showed, and nothing else changes. -/
theorem C127_write {h h' : List (RObj V)} {x y : Nat} {n : String} (hr : rsAct h (.write x n y) = (h', .ok ())) :
    h'.length = h.length ∧ (∀ p, shown h' x (n :: p) = shown h y p) ∧
    (∀ m p, m ≠ n → shown h' x (m :: p) = shown h x (m :: p)) ∧ shown h' x [] = shown h x [] ∧
    (∀ z, z ≠ x → ∀ p, shown h' z p = shown h z p) := by
  unfold rsAct at hr
  dsimp only at hr
  split at hr
  · rename_i o v ho hv
    cases hw : o.write n v with
    | error e => rw [hw] at hr; cases hr
    | ok o' =>
      rw [hw] at hr
      have e := (Prod.ext_iff.1 hr).1
      change h.set x o' = h' at e
      subst e
      have hx : x < h.length := (List.getElem?_eq_some_iff.1 ho).1
      obtain ⟨h1, h2, _⟩ := write_ok hw
      refine ⟨by simp, ?_, ?_, ?_, ?_⟩
      · intro p
        unfold shown
        rw [List.getElem?_set_self hx, hv]
        exact (h1 n p).trans (if_pos rfl)
      · intro m p hm
        unfold shown
        rw [List.getElem?_set_self hx, ho]
        exact (h1 m p).trans (if_neg hm)
      · unfold shown
        rw [List.getElem?_set_self hx, ho]
        exact h2
      · intro z hz p
        unfold shown
        rw [List.getElem?_set_ne (Ne.symm hz)]
  · cases hr

/-- An action that raises an exception changes nothing. -/
theorem C127_error (h : List (RObj V)) (a : RsAct V) (e : PyErr) (he : (rsAct h a).2 = .error e) : (rsAct h a).1 = h :=
  act_error he

theorem kindOf_some {h : List (RObj V)} {x : Nat} {c : RsClass} {b : Bool} (hk : kindOf h x = some (c, b)) :
    ∃ f, h[x]? = some (.obj c b f) := by
  unfold kindOf at hk
  obtain ⟨o, ho, hk⟩ := Option.bind_eq_some_iff.1 hk
  cases o with
  | absent => cases hk
  | prim v => cases hk
  | obj c' b' f => cases hk; exact ⟨f, ho⟩

theorem kindOf_of {h : List (RObj V)} {x : Nat} {c : RsClass} {b : Bool} {f : String → RObj V}
    (ho : h[x]? = some (.obj c b f)) : kindOf h x = some (c, b) := by
  unfold kindOf; rw [ho]; rfl

/-- A write to an object whose flag is set raises `AttributeError` unless the setter is one of those without guard. -/
theorem write_locked {c : RsClass} {f : String → RObj V} (n : String) (v : RObj V) (hfl : c.flag = true)
    (hfree : c.free n = false) : (RObj.obj c true f).write n v = .error .attributeError := by
  unfold RObj.write
  dsimp only
  split
  · rfl
  · simp [hfl, hfree]

/-- The nested object read from a marked field cannot be written to: whatever the program does between, as long as it does not
call `reset_orphaned` on it, the assignment raises `AttributeError` and changes nothing. -/
theorem C127_guard {h : List (RObj V)} {x : Nat} {c c' : RsClass} {b b' : Bool} {f f' : String → RObj V} {n m : String}
    (hx : h[x]? = some (.obj c b f)) (hn : f n = .obj c' b' f') (hr : c.readable n = true) (hm : c.marked n = true)
    (hfl : c'.flag = true) (hfree : c'.free m = false) (as : List (RsAct V)) (hres : RsAct.reset h.length ∉ as) (z : Nat)
    (hz : z < (rsActs (rsAct h (.read x n)).1 as).length) :
    rsAct (rsActs (rsAct h (.read x n)).1 as) (.write h.length m z) =
      (rsActs (rsAct h (.read x n)).1 as, .error .attributeError) := by
  obtain ⟨o', ho'⟩ := read_of (b := b) (f := f) (n := n) (by rw [hn]; simp) hr
  rw [if_pos hm, hn] at ho'
  have h1 : rsAct h (.read x n) = (h.set x o' ++ [(RObj.obj c' b' f').mark true], .ok ()) := by
    unfold rsAct
    dsimp only
    rw [hx]
    dsimp only
    rw [ho']
  rw [h1] at hz ⊢
  dsimp only at hz ⊢
  have hk : kindOf (h.set x o' ++ [(RObj.obj c' b' f').mark true]) h.length = some (c', true) := by
    unfold kindOf
    rw [List.getElem?_append_right (by simp)]
    simp only [List.length_set, Nat.sub_self, List.getElem?_cons_zero, RObj.mark, hfl, if_true, Option.bind_some]
  have hk' := (acts_kind as _ h.length (by simp) hres).trans hk
  obtain ⟨g, hg⟩ := kindOf_some hk'
  obtain ⟨w, hw⟩ : ∃ w, (rsActs (h.set x o' ++ [(RObj.obj c' b' f').mark true]) as)[z]? = some w := ⟨_, List.getElem?_eq_getElem hz⟩
  show (match (rsActs _ as)[h.length]?, (rsActs _ as)[z]? with
    | some o, some v => stored (rsActs _ as) h.length (o.write m v)
    | _, _ => (rsActs _ as, .error .other)) = _
  rw [hg, hw]
  show stored _ _ ((RObj.obj c' true g).write m w) = _
  rw [write_locked m w hfl hfree]
  rfl

theorem stored_ok (h : List (RObj V)) (x : Nat) (r : Except PyErr (RObj V)) : (stored h x r).2 = .ok () ↔ ∃ o, r = .ok o := by
  cases r with
  | error e => exact Iff.intro (fun h => nomatch h) (fun ⟨_, h⟩ => nomatch h)
  | ok o => exact ⟨fun _ => ⟨o, rfl⟩, fun _ => rfl⟩

/-- When the assignment `x.n.m = z` raises no exception although it does nothing to `x`: the setter of `m` is one without guard,
or `n` is not marked and the nested object has no flag or an unset one. -/
theorem C127_silent {h : List (RObj V)} {x z : Nat} {c c' : RsClass} {b b' : Bool} {f f' : String → RObj V} {n m : String}
    (hx : h[x]? = some (.obj c b f)) (hn : f n = .obj c' b' f') (hr : c.readable n = true) (hm : f' m ≠ .absent)
    (hw : c'.writable m = true) (hz : z < h.length) :
    ((rsAct (rsAct h (.read x n)).1 (.write h.length m z)).2 = .ok () ↔
      c'.free m = true ∨ c'.flag = false ∨ (c.marked n = false ∧ b' = false)) ∧
    ∀ p, shown (rsAct (rsAct h (.read x n)).1 (.write h.length m z)).1 x p = shown h x p := by
  have hxl : x < h.length := (List.getElem?_eq_some_iff.1 hx).1
  constructor
  · obtain ⟨o', ho'⟩ := read_of (b := b) (f := f) (n := n) (by rw [hn]; simp) hr
    rw [hn] at ho'
    have h1 : rsAct h (.read x n) =
        (h.set x o' ++ [if c.marked n = true then (RObj.obj c' b' f').mark true else .obj c' b' f'], .ok ()) := by
      unfold rsAct
      dsimp only
      rw [hx]
      dsimp only
      rw [ho']
    rw [h1]
    dsimp only
    have hlast : ∀ y : RObj V, (h.set x o' ++ [y])[h.length]? = some y := fun y => by
      rw [List.getElem?_append_right (by simp)]; simp
    obtain ⟨w, hw'⟩ : ∃ w, ∀ y : RObj V, (h.set x o' ++ [y])[z]? = some w := by
      refine ⟨(h.set x o')[z]'(by simpa using hz), fun y => ?_⟩
      rw [List.getElem?_append_left (by simpa using hz), List.getElem?_eq_getElem]
    unfold rsAct
    dsimp only
    rw [hlast, hw']
    have e : (if c.marked n = true then (RObj.obj c' b' f').mark true else .obj c' b' f') =
        .obj c' (if c.marked n = true ∧ c'.flag = true then true else b') f' := by
      by_cases h1 : c.marked n = true <;> by_cases h2 : c'.flag = true <;> simp [h1, h2, RObj.mark]
    rw [e]
    show (stored _ _ (RObj.write _ m w)).2 = _ ↔ _
    rw [stored_ok, write_of w hm hw]
    by_cases hfr : c'.free m = true
    · rw [if_pos hfr]
      exact ⟨fun _ => Or.inl hfr, fun _ => ⟨_, rfl⟩⟩
    · rw [if_neg hfr]
      by_cases h2 : c'.flag = true
      · rw [if_pos h2]
        by_cases h3 : c.marked n = true
        · simp [hfr, h2, h3]
        · cases b' <;> simp [hfr, h2, h3]
      · rw [if_neg h2]
        exact ⟨fun _ => Or.inr (Or.inl (by simpa using h2)), fun _ => ⟨_, rfl⟩⟩
  · intro p
    have hf := act_frame h (.read x n) hxl
    have hf2 := act_frame (rsAct h (.read x n)).1 (.write h.length m z) (hxl.trans_le hf.1)
    rw [hf2.2.1 (fun e => by change h.length = x at e; omega) p, hf.2.1 (fun e => e) p]

/-- A copy carries the flag along: a copy of an object that cannot be written to cannot be written to either. -/
theorem C127_copy {h : List (RObj V)} {x : Nat} {c : RsClass} {b : Bool} (hk : kindOf h x = some (c, b)) :
    kindOf (rsAct h (.copy x)).1 h.length = some (c, b) ∧ ∀ p, shown (rsAct h (.copy x)).1 h.length p = shown h x p := by
  obtain ⟨f, hf⟩ := kindOf_some hk
  have : (rsAct h (.copy x)).1 = h ++ [.obj c b f] := by
    unfold rsAct; dsimp only; rw [hf]
  rw [this]
  constructor
  · unfold kindOf; simp
  · intro p; unfold shown; rw [hf]; simp

end Fastsim.Props
