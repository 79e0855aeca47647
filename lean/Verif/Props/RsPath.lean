import Verif.Props.RsObj
import Mathlib.Data.List.Basic

set_option linter.unusedSectionVars false

/-!
# C127, continued: access by path, several values at once, arrays
-/

namespace Fastsim.Spec
variable {V : Type*}

/-- An assignment to field `n` of the object is not refused because of its flag. -/
def Unlocked : RObj V → String → Prop
  | .obj c b _, n => c.free n = true ∨ c.flag = false ∨ b = false
  | _, _ => False

end Fastsim.Spec

namespace Fastsim.Props
open Spec
variable {V : Type*}

/-- Variable `x` holds an object with the path. -/
def EditableAt (h : List (RObj V)) (x : Nat) (ns : List String) (l : String) : Prop := ∃ o, h[x]? = some o ∧ Editable o ns l

/-- The old variables show the same, have the same kind and the same paths. -/
def Keeps (h h' : List (RObj V)) : Prop :=
  h.length ≤ h'.length ∧ ∀ y, y < h.length → (∀ p, shown h' y p = shown h y p) ∧ kindOf h' y = kindOf h y ∧
    ∀ ns l, EditableAt h y ns l → EditableAt h' y ns l

theorem Keeps.refl (h : List (RObj V)) : Keeps h h := ⟨le_rfl, fun _ _ => ⟨fun _ => rfl, rfl, fun _ _ e => e⟩⟩

theorem Keeps.trans {h g k : List (RObj V)} (a : Keeps h g) (b : Keeps g k) : Keeps h k :=
  ⟨a.1.trans b.1, fun y hy =>
    ⟨fun p => ((b.2 y (hy.trans_le a.1)).1 p).trans ((a.2 y hy).1 p), (b.2 y (hy.trans_le a.1)).2.1.trans (a.2 y hy).2.1,
      fun ns l e => (b.2 y (hy.trans_le a.1)).2.2 ns l ((a.2 y hy).2.2 ns l e)⟩⟩

theorem editable_mark {b : Bool} {x : RObj V} {ns : List String} {l : String} (h : Editable x ns l) :
    Editable (x.mark b) ns l := by
  cases x with
  | absent => exact h
  | prim v => exact h
  | obj c o f => cases ns <;> exact h

theorem editable_read {o o' v : RObj V} {n : String} (hr : o.read n = .ok (o', v)) {ns : List String} {l : String}
    (h : Editable o ns l) : Editable o' ns l := by
  cases o with
  | absent => cases hr
  | prim w => cases hr
  | obj c b f =>
    obtain ⟨_, _, c₁, b₁, f₁, f', e, rfl, hne, hread, hv⟩ := read_ok hr
    cases e
    obtain ⟨o'', ho''⟩ := read_of (b := b) hne hread
    -- the fields afterwards
    have hf' : f' = f ∨ f' = setField f n ((f n).mark true) := by
      unfold RObj.read at hr
      dsimp only at hr
      cases hx : f n with
      | absent => exact absurd hx hne
      | prim w =>
        rw [hx] at hr
        by_cases hm : c.marked n = true
        · simp [hread, hm] at hr; exact Or.inr hr.1.symm
        · simp [hread, hm] at hr; exact Or.inl hr.1.symm
      | obj c' b' g =>
        rw [hx] at hr
        by_cases hm : c.marked n = true
        · simp [hread, hm] at hr; exact Or.inr hr.1.symm
        · simp [hread, hm] at hr; exact Or.inl hr.1.symm
    rcases hf' with rfl | rfl
    · exact h
    · cases ns with
      | nil =>
        refine ⟨h.1, ?_⟩
        unfold setField
        split
        · rename_i hl
          subst hl
          intro he
          cases hx : f l with
          | absent => exact hne hx
          | prim w => rw [hx] at he; cases he
          | obj c' b' g => rw [hx] at he; cases he
        · exact h.2
      | cons m ns =>
        obtain ⟨h1, h2, ⟨c', o', g, hg, hfl⟩, h4⟩ := h
        refine ⟨h1, h2, ?_, ?_⟩
        · unfold setField
          split
          · rename_i hm
            subst hm
            exact ⟨c', _, g, by rw [hg]; rfl, hfl⟩
          · exact ⟨c', o', g, hg, hfl⟩
        · unfold setField
          split
          · rename_i hm
            subst hm
            exact editable_mark h4
          · exact h4

/-- Reading keeps all that is there. -/
theorem read_keeps (h : List (RObj V)) (x : Nat) (n : String) : Keeps h (rsAct h (.read x n)).1 := by
  refine ⟨?_, fun y hy => ⟨(act_frame h (.read x n) hy).2.1 (fun e => e), (act_frame h (.read x n) hy).2.2 (fun e => nomatch e), ?_⟩⟩
  · cases h with
    | nil => exact Nat.zero_le _
    | cons o h => exact (act_frame (o :: h) (.read x n) (x := 0) (by simp)).1
  · rintro ns l ⟨o, ho, he⟩
    unfold rsAct
    dsimp only
    split
    · exact ⟨o, ho, he⟩
    rename_i o₁ ho₁
    split
    · exact ⟨o, ho, he⟩
    rename_i o' v hr
    by_cases hxy : x = y
    · subst hxy
      have e : o₁ = o := Option.some.inj (ho₁.symm.trans ho)
      subst e
      exact ⟨o', by rw [List.getElem?_append_left (by simpa using hy), List.getElem?_set_self hy], editable_read hr he⟩
    · exact ⟨o, by rw [List.getElem?_append_left (by simpa using hy), List.getElem?_set_ne hxy, ho], he⟩

theorem readVar_keeps (h : List (RObj V)) (x : Nat) (n : String) : Keeps h (readVar h x n).1 := by
  have := read_keeps h x n
  unfold readVar
  generalize rsAct h (.read x n) = r at *
  obtain ⟨g, r⟩ := r
  cases r <;> exact this

theorem readVar_ok {h h' : List (RObj V)} {x c : Nat} {n : String} (hr : readVar h x n = (h', .ok c)) :
    rsAct h (.read x n) = (h', .ok ()) ∧ c = h.length ∧ h'.length = h.length + 1 := by
  unfold readVar at hr
  generalize ha : rsAct h (.read x n) = r at hr
  obtain ⟨g, r⟩ := r
  cases r with
  | error e => cases hr
  | ok u =>
    simp only [Prod.mk.injEq, Except.ok.injEq] at hr
    obtain ⟨rfl, rfl⟩ := hr
    have hl := (C127_read ha).1
    exact ⟨rfl, by omega, hl⟩

theorem loop_keeps (ns : List String) : ∀ (h : List (RObj V)) (x : Nat), Keeps h (rsContainersLoop h x ns).1 := by
  induction ns with
  | nil => exact fun h x => Keeps.refl h
  | cons n ns ih =>
    intro h x
    have h1 := readVar_keeps h x n
    unfold rsContainersLoop
    generalize readVar h x n = r at *
    obtain ⟨g, r⟩ := r
    cases r with
    | error e => exact h1
    | ok c =>
      have h2 := ih g c
      dsimp only
      generalize rsContainersLoop g c ns = q at *
      obtain ⟨k, q⟩ := q
      cases q <;> exact h1.trans h2

/-- What a successful walk gives: new variables, the last of which shows what lies at the end of the path. -/
theorem loop_ok (ns : List String) : ∀ {h h' : List (RObj V)} {x : Nat} {cs : List Nat}, x < h.length →
    rsContainersLoop h x ns = (h', .ok cs) → cs.length = ns.length ∧ (∀ c ∈ cs, h.length ≤ c ∧ c < h'.length) ∧
      ∀ p, shown h' (cs.getLastD x) p = shown h x (ns ++ p) := by
  induction ns with
  | nil =>
    intro h h' x cs hx hr
    cases hr
    exact ⟨rfl, (by simp), fun p => rfl⟩
  | cons n ns ih =>
    intro h h' x cs hx hr
    unfold rsContainersLoop at hr
    generalize hv : readVar h x n = r at hr
    obtain ⟨g, r⟩ := r
    cases r with
    | error e => cases hr
    | ok c =>
      dsimp only at hr
      generalize hq : rsContainersLoop g c ns = q at hr
      obtain ⟨k, q⟩ := q
      cases q with
      | error e => cases hr
      | ok cs' =>
        simp only [Prod.mk.injEq, Except.ok.injEq] at hr
        obtain ⟨rfl, rfl⟩ := hr
        obtain ⟨hr1, rfl, hl⟩ := readVar_ok hv
        have hc : h.length < g.length := by omega
        obtain ⟨i1, i2, i3⟩ := ih hc hq
        have hk := loop_keeps ns g h.length
        rw [hq] at hk
        refine ⟨by simp [i1], ?_, ?_⟩
        · intro c hcm
          rcases List.mem_cons.1 hcm with rfl | hcm
          · exact ⟨le_rfl, hc.trans_le hk.1⟩
          · exact ⟨(by omega : h.length ≤ g.length).trans (i2 c hcm).1, (i2 c hcm).2⟩
        · intro p
          rw [List.getLastD_cons, i3 p, (C127_read hr1).2.1]
          rfl

theorem containers_eq (h : List (RObj V)) (s : Nat) (n : String) (ns : List String) (l : String) :
    rsContainers h s (n :: ns ++ [l]) = rsContainersLoop h s (n :: ns) := by
  have e : rsContainers h s (n :: (ns ++ [l])) = rsContainersLoop h s (n :: (ns ++ [l]).dropLast) := rfl
  rw [List.dropLast_concat] at e
  exact e

/-- `get_attr_with_path`: the value read is what lies at the end of the path, and every variable shows what it did. -/
theorem C127_get_path {h h' : List (RObj V)} {s x : Nat} {path : List String} (hs : s < h.length)
    (hr : rsGetPath h s path = (h', .ok x)) :
    (∀ p, shown h' x p = shown h s (path ++ p)) ∧ ∀ y, y < h.length → ∀ p, shown h' y p = shown h y p := by
  rcases List.eq_nil_or_concat path with rfl | ⟨ns, l, rfl⟩
  · cases hr
  rw [List.concat_eq_append] at hr ⊢
  cases ns with
  | nil =>
    have hr' : readVar h s l = (h', .ok x) := hr
    obtain ⟨h1, rfl, h2⟩ := readVar_ok hr'
    exact ⟨(C127_read h1).2.1, (C127_read h1).2.2⟩
  | cons n ns =>
    unfold rsGetPath at hr
    rw [if_neg (by simp), containers_eq] at hr
    generalize hq : rsContainersLoop h s (n :: ns) = q at hr
    obtain ⟨k, q⟩ := q
    cases q with
    | error e => cases hr
    | ok cs =>
      dsimp only at hr
      have hl : (n :: ns ++ [l]).getLastD "" = l := by
        rw [List.getLastD_eq_getLast?, List.getLast?_concat]; rfl
      rw [hl] at hr
      obtain ⟨h1, rfl, h2⟩ := readVar_ok hr
      obtain ⟨i1, i2, i3⟩ := loop_ok (n :: ns) hs hq
      have hk := loop_keeps (n :: ns) h s
      rw [hq] at hk
      refine ⟨fun p => ?_, fun y hy p => ?_⟩
      · rw [(C127_read h1).2.1, i3, List.append_assoc]; rfl
      · rw [(C127_read h1).2.2 y (hy.trans_le hk.1), (hk.2 y hy).1]

/-! ### Writing by path -/

theorem act_reset_of {h : List (RObj V)} {x : Nat} {c : RsClass} {b : Bool} {f : String → RObj V}
    (hx : h[x]? = some (.obj c b f)) (hfl : c.flag = true) : rsAct h (.reset x) = (h.set x (.obj c false f), .ok ()) := by
  unfold rsAct
  dsimp only
  rw [hx]
  simp [RObj.reset, hfl, stored]

theorem act_write_of {h : List (RObj V)} {x y : Nat} {c : RsClass} {b : Bool} {f : String → RObj V} {n : String} {v : RObj V}
    (hx : h[x]? = some (.obj c b f)) (hy : h[y]? = some v) (hf : f n ≠ .absent) (hw : c.writable n = true)
    (hu : c.free n = true ∨ c.flag = false ∨ b = false) :
    ∃ o, rsAct h (.write x n y) = (h.set x o, .ok ()) := by
  have : ∃ o, (RObj.obj c b f).write n v = .ok o := by
    rw [write_of v hf hw]
    by_cases h1 : c.free n = true
    · exact ⟨_, if_pos h1⟩
    rw [if_neg h1]
    by_cases h2 : c.flag = true
    · rw [if_pos h2]
      rcases hu with hu | hu | hu
      · exact absurd hu h1
      · rw [h2] at hu; cases hu
      · exact ⟨_, if_pos hu⟩
    · exact ⟨_, if_neg h2⟩
  obtain ⟨o, ho⟩ := this
  refine ⟨o, ?_⟩
  unfold rsAct
  dsimp only
  rw [hx, hy]
  show stored h x ((RObj.obj c b f).write n v) = _
  rw [ho]
  rfl

theorem writeBack_cons (s : Nat) (h : List (RObj V)) (j c : Nat) (n : String) (L : List (Nat × String)) :
    rsWriteBack s h j ((c, n) :: L) = match (if c = s then (h, .ok ()) else rsAct h (.reset c)) with
      | (h, .error e) => (h, .error e)
      | (h, .ok ()) => match rsAct h (.write c n j) with
        | (h, .error e) => (h, .error e)
        | (h, .ok ()) => rsWriteBack s h c L := by
  rw [rsWriteBack]
  rfl

theorem writeBack_append (s : Nat) (L M : List (Nat × String)) : ∀ (h : List (RObj V)) (j : Nat),
    rsWriteBack s h j (L ++ M) = match rsWriteBack s h j L with
      | (g, .error e) => (g, .error e)
      | (g, .ok k) => rsWriteBack s g k M := by
  induction L with
  | nil => exact fun h j => rfl
  | cons a L ih =>
    intro h j
    obtain ⟨c, n⟩ := a
    rw [show (c, n) :: L ++ M = (c, n) :: (L ++ M) from rfl, writeBack_cons, writeBack_cons]
    generalize (if c = s then (h, .ok ()) else rsAct h (.reset c)) = r
    obtain ⟨g, r⟩ := r
    cases r with
    | error e => rfl
    | ok u =>
      dsimp only
      generalize rsAct g (.write c n j) = q
      obtain ⟨k, q⟩ := q
      cases q with
      | error e => rfl
      | ok u => exact ih k c

/-- The variables `x :: cs` hold the objects met on the way along `ns`, all but the first with a flag. -/
def Chain (h : List (RObj V)) (l : String) : Nat → List String → List Nat → Prop
  | x, [], [] => EditableAt h x [] l
  | x, n :: ns, c :: cs => EditableAt h x (n :: ns) l ∧ (∀ p, shown h c p = shown h x (n :: p)) ∧
      (∃ k b, kindOf h c = some (k, b) ∧ k.flag = true) ∧ x < c ∧ (∀ d ∈ cs, c < d) ∧ Chain h l c ns cs
  | _, _, _ => False

theorem Chain.keeps {h h' : List (RObj V)} (hk : Keeps h h') {l : String} : ∀ {ns : List String} {x : Nat} {cs : List Nat},
    x < h.length → (∀ c ∈ cs, c < h.length) → Chain h l x ns cs → Chain h' l x ns cs
  | [], x, [], hx, _, hc => (hk.2 x hx).2.2 _ _ hc
  | [], x, _ :: _, _, _, hc => nomatch hc
  | _ :: _, x, [], _, _, hc => nomatch hc
  | n :: ns, x, c :: cs, hx, hcs, hc => by
    obtain ⟨h1, h2, ⟨k, b, h3, h3'⟩, h4, h5, h6⟩ := hc
    have hcl : c < h.length := hcs c List.mem_cons_self
    refine ⟨(hk.2 x hx).2.2 _ _ h1, fun p => ?_, ⟨k, b, ?_, h3'⟩, h4, h5,
      Chain.keeps hk hcl (fun d hd => hcs d (List.mem_cons_of_mem _ hd)) h6⟩
    · rw [(hk.2 c hcl).1, (hk.2 x hx).1, h2]
    · rw [(hk.2 c hcl).2.1, h3]

/-- Walking along a path that can be edited succeeds and gives such a chain. -/
theorem loop_chain (l : String) (ns : List String) : ∀ (h : List (RObj V)) (x : Nat), EditableAt h x ns l →
    ∃ h' cs, rsContainersLoop h x ns = (h', .ok cs) ∧ Chain h' l x ns cs ∧ (∀ c ∈ cs, h.length ≤ c ∧ c < h'.length) := by
  induction ns with
  | nil => exact fun h x hx => ⟨h, [], rfl, hx, by simp⟩
  | cons n ns ih =>
    intro h x hx
    obtain ⟨o, ho, he⟩ := hx
    have hxl : x < h.length := (List.getElem?_eq_some_iff.1 ho).1
    cases o with
    | absent => cases he
    | prim w => cases he
    | obj c b f =>
      obtain ⟨h1, h2, ⟨c', b', f', hf, hfl⟩, h4⟩ := he
      obtain ⟨o', ho'⟩ := read_of (b := b) (f := f) (n := n) (by rw [hf]; simp) h1
      have hact : rsAct h (.read x n) = (h.set x o' ++ [if c.marked n = true then (f n).mark true else f n], .ok ()) := by
        unfold rsAct
        dsimp only
        rw [ho]
        dsimp only
        rw [ho']
      obtain ⟨g, hg⟩ : ∃ g, g = h.set x o' ++ [if c.marked n = true then (f n).mark true else f n] := ⟨_, rfl⟩
      rw [← hg] at hact
      have hgl : g.length = h.length + 1 := by rw [hg]; simp
      have hrv : readVar h x n = (g, .ok h.length) := by
        unfold readVar
        rw [hact]
        simp [hgl]
      have hgc : g[h.length]? = some (if c.marked n = true then (f n).mark true else f n) := by
        rw [hg, List.getElem?_append_right (by simp)]; simp
      have hed : EditableAt g h.length ns l := by
        refine ⟨_, hgc, ?_⟩
        split
        · exact editable_mark h4
        · exact h4
      obtain ⟨h', cs, i1, i2, i3⟩ := ih g h.length hed
      have hk := loop_keeps ns g h.length
      rw [i1] at hk
      have hk0 : Keeps h g := by have := read_keeps h x n; rw [hact] at this; exact this
      refine ⟨h', h.length :: cs, ?_, ⟨?_, ?_, ?_, hxl, ?_, i2⟩, ?_⟩
      · unfold rsContainersLoop
        rw [hrv]
        dsimp only
        rw [i1]
      · exact ((hk0.trans hk).2 x hxl).2.2 _ _ ⟨_, ho, ⟨h1, h2, ⟨c', b', f', hf, hfl⟩, h4⟩⟩
      · intro p
        rw [(hk.2 h.length (by omega)).1, (C127_read hact).2.1, ((hk0.trans hk).2 x hxl).1]
      · refine ⟨c', _, ((hk.2 h.length (by omega)).2.1).trans (kindOf_of (b := if c.marked n = true then true else b') (f := f') ?_), hfl⟩
        rw [hgc, hf]
        split
        · simp [RObj.mark, hfl]
        · rfl
      · intro d hd
        have := (i3 d hd).1
        omega
      · intro d hd
        rcases List.mem_cons.1 hd with rfl | hd
        · exact ⟨le_rfl, lt_of_lt_of_le (by omega) hk.1⟩
        · exact ⟨by have := (i3 d hd).1; omega, (i3 d hd).2⟩

theorem shown_congr {h h' : List (RObj V)} {x : Nat} (e : h'[x]? = h[x]?) (p : List String) : shown h' x p = shown h x p := by
  unfold shown; rw [e]

/-- The innermost object is reset and written, then put back into the one around it, and so on up to `x`. -/
def putBack (s : Nat) (h : List (RObj V)) (x : Nat) (ns : List String) (cs : List Nat) (l : String) (v : Nat) :
    List (RObj V) × Except PyErr Nat :=
  match rsAct h (.reset (cs.getLastD x)) with
  | (h, .error e) => (h, .error e)
  | (h, .ok ()) => match rsAct h (.write (cs.getLastD x) l v) with
    | (h, .error e) => (h, .error e)
    | (h, .ok ()) => rsWriteBack s h (cs.getLastD x) ((x :: cs).dropLast.reverse.zip ns.reverse)

theorem putAt_step (g g' w : List String → Option V) (n l : String) (ns : List String) (p : List String)
    (hh : ∀ q, g' q = g (n :: q)) : putAt g' (ns ++ [l]) w p = putAt g (n :: ns ++ [l]) w (n :: p) := by
  unfold putAt
  have : (n :: ns ++ [l] <+: n :: p) ↔ (ns ++ [l] <+: p) := by
    rw [List.cons_append, List.cons_prefix_cons]; simp
  by_cases h : ns ++ [l] <+: p
  · rw [if_pos h, if_pos (this.2 h)]; rfl
  · rw [if_neg h, if_neg (fun e => h (this.1 e)), hh]

theorem chain_length {h : List (RObj V)} {l : String} : ∀ {ns : List String} {x : Nat} {cs : List Nat}, Chain h l x ns cs →
    cs.length = ns.length
  | [], _, [], _ => rfl
  | [], _, _ :: _, hc => nomatch hc
  | _ :: _, _, [], hc => nomatch hc
  | _ :: _, _, _ :: _, hc => by simp [chain_length hc.2.2.2.2.2]

theorem putBack_cons (s : Nat) (h : List (RObj V)) (x : Nat) (n : String) (ns : List String) (c : Nat) (cs : List Nat) (l : String)
    (v : Nat) (hl : cs.length = ns.length) :
    putBack s h x (n :: ns) (c :: cs) l v = match putBack s h c ns cs l v with
      | (g, .error e) => (g, .error e)
      | (g, .ok k) => rsWriteBack s g k [(x, n)] := by
  unfold putBack
  rw [List.getLastD_cons]
  generalize rsAct h (.reset (cs.getLastD c)) = r
  obtain ⟨g, r⟩ := r
  cases r with
  | error e => rfl
  | ok u =>
    dsimp only
    generalize rsAct g (.write (cs.getLastD c) l v) = q
    obtain ⟨k, q⟩ := q
    cases q with
    | error e => rfl
    | ok u =>
      dsimp only
      have e : ((x :: c :: cs).dropLast.reverse.zip (n :: ns).reverse) =
          ((c :: cs).dropLast.reverse.zip ns.reverse) ++ [(x, n)] := by
        rw [show (x :: c :: cs).dropLast = x :: (c :: cs).dropLast from rfl, List.reverse_cons, List.reverse_cons,
          List.zip_append (by simp [hl])]
        rfl
      rw [e, writeBack_append]

/-- Putting back along a chain below the outermost object. -/
theorem putBack_spec (s v : Nat) (l : String) : ∀ (ns : List String) (cs : List Nat) (h : List (RObj V)) (x : Nat),
    Chain h l x ns cs → (∃ k b, kindOf h x = some (k, b) ∧ k.flag = true) → s < x → (∀ c ∈ cs, s < c) → v < x →
    (∀ c ∈ cs, v < c) → (∃ o, h[v]? = some o) →
    ∃ h', putBack s h x ns cs l v = (h', .ok x) ∧ h'.length = h.length ∧ (∀ y, y ∉ x :: cs → h'[y]? = h[y]?) ∧
      ∀ p, shown h' x p = putAt (shown h x) (ns ++ [l]) (shown h v) p
  | [], _ :: _, h, x, hc, _, _, _, _, _, _ => nomatch hc
  | _ :: _, [], h, x, hc, _, _, _, _, _, _ => nomatch hc
  | [], [], h, x, hc, hk, hs, _, hv, _, hvo => by
    obtain ⟨o, ho, he⟩ := hc
    obtain ⟨k, b, hk, hfl⟩ := hk
    obtain ⟨f, hf⟩ := kindOf_some hk
    have e : o = .obj k b f := Option.some.inj (ho.symm.trans hf)
    subst e
    have hxl : x < h.length := (List.getElem?_eq_some_iff.1 ho).1
    have hr := act_reset_of ho hfl
    obtain ⟨w, hw⟩ := hvo
    have hset : (h.set x (.obj k false f))[v]? = some w := by rw [List.getElem?_set_ne (by omega), hw]
    obtain ⟨o', ho'⟩ := act_write_of (h := h.set x (.obj k false f)) (y := v) (n := l)
      (List.getElem?_set_self hxl) hset he.2 he.1 (Or.inr (Or.inr rfl))
    refine ⟨(h.set x (.obj k false f)).set x o', ?_, by simp, ?_, ?_⟩
    · unfold putBack
      rw [show ([] : List Nat).getLastD x = x from rfl, hr]
      dsimp only
      rw [ho']
      rfl
    · intro y hy
      have hy : y ≠ x := fun e => hy (e ▸ List.mem_cons_self)
      rw [List.getElem?_set_ne hy.symm, List.getElem?_set_ne hy.symm]
    · obtain ⟨_, w1, w2, w3, _⟩ := C127_write ho'
      have hsame : ∀ p, shown (h.set x (.obj k false f)) x p = shown h x p := fun p => by
        unfold shown
        rw [List.getElem?_set_self hxl, ho]
        exact seen_flag _ _ _ _ _
      have hvs : ∀ p, shown (h.set x (.obj k false f)) v p = shown h v p := fun p =>
        shown_congr (List.getElem?_set_ne (by omega)) p
      intro p
      unfold putAt
      cases p with
      | nil => rw [if_neg (by simp), w3, hsame]
      | cons m p =>
        by_cases hm : m = l
        · subst hm
          rw [if_pos (by simp), w1, hvs]
          rfl
        · rw [if_neg (by simp [Ne.symm hm]), w2 m p hm, hsame]
  | n :: ns, c :: cs, h, x, hc, hk, hs, hss, hv, hvs, hvo => by
    obtain ⟨h1, h2, h3, h4, h5, h6⟩ := hc
    have hcl := chain_length h6
    obtain ⟨h', i1, i0, i2, i3⟩ := putBack_spec s v l ns cs h c h6 h3 (hss c List.mem_cons_self)
      (fun d hd => hss d (List.mem_cons_of_mem _ hd)) (hvs c List.mem_cons_self) (fun d hd => hvs d (List.mem_cons_of_mem _ hd)) hvo
    obtain ⟨o, ho, he⟩ := h1
    obtain ⟨k, b, hk, hfl⟩ := hk
    obtain ⟨f, hf⟩ := kindOf_some hk
    have e : o = .obj k b f := Option.some.inj (ho.symm.trans hf)
    subst e
    have hxn : x ∉ c :: cs := by
      intro hx
      rcases List.mem_cons.1 hx with rfl | hx
      · omega
      · have := h5 x hx; omega
    have hx' : h'[x]? = some (.obj k b f) := (i2 x hxn).trans ho
    have hxl : x < h'.length := (List.getElem?_eq_some_iff.1 hx').1
    have hr := act_reset_of hx' hfl
    have hcl' : c < h'.length := by
      obtain ⟨_, _, hkc, _⟩ := h3
      obtain ⟨fc, hfc⟩ := kindOf_some hkc
      have := (List.getElem?_eq_some_iff.1 hfc).1
      omega
    obtain ⟨w, hw⟩ : ∃ w, (h'.set x (.obj k false f))[c]? = some w :=
      ⟨(h'.set x (.obj k false f))[c]'(by simpa using hcl'), List.getElem?_eq_getElem _⟩
    have hfn : f n ≠ .absent := by
      obtain ⟨c', o', f', hg, _⟩ := he.2.2.1
      rw [hg]; simp
    obtain ⟨o', ho'⟩ := act_write_of (h := h'.set x (.obj k false f)) (y := c) (n := n)
      (List.getElem?_set_self hxl) hw hfn he.2.1 (Or.inr (Or.inr rfl))
    refine ⟨(h'.set x (.obj k false f)).set x o', ?_, by simp [i0], ?_, ?_⟩
    · rw [putBack_cons s h x n ns c cs l v hcl, i1]
      dsimp only
      rw [writeBack_cons, if_neg (by omega), hr]
      dsimp only
      rw [ho']
      rfl
    · intro y hy
      have hy1 : y ≠ x := fun e => hy (e ▸ List.mem_cons_self)
      rw [List.getElem?_set_ne hy1.symm, List.getElem?_set_ne hy1.symm]
      exact i2 y (fun e => hy (List.mem_cons_of_mem _ e))
    · obtain ⟨_, w1, w2, w3, _⟩ := C127_write ho'
      have hsame : ∀ p, shown (h'.set x (.obj k false f)) x p = shown h x p := fun p => by
        unfold shown
        rw [List.getElem?_set_self hxl, ho]
        exact seen_flag _ _ _ _ _
      have hcs : ∀ p, shown (h'.set x (.obj k false f)) c p = shown h' c p := fun p =>
        shown_congr (List.getElem?_set_ne (by omega)) p
      intro p
      cases p with
      | nil => rw [w3, hsame]; unfold putAt; rw [if_neg (by simp)]
      | cons m p =>
        by_cases hm : m = n
        · subst hm
          rw [w1, hcs, i3, putAt_step _ _ _ _ _ _ _ h2]
        · rw [w2 m p hm, hsame]
          unfold putAt
          rw [if_neg (by simp [Ne.symm hm])]

theorem setPath_eq (h : List (RObj V)) (s v : Nat) (n : String) (ns : List String) (l : String) :
    rsSetPath h s (n :: ns ++ [l]) v = match rsContainersLoop h s (n :: ns) with
      | (h, .error e) => (h, .error e)
      | (h, .ok cs) => putBack s h s (n :: ns) cs l v := by
  unfold rsSetPath
  rw [if_neg (by simp), containers_eq]
  have hl : (n :: ns ++ [l]).getLastD "" = l := by
    rw [List.getLastD_eq_getLast?, List.getLast?_concat]; rfl
  rw [hl, List.dropLast_concat]
  rfl

/-- `set_attr_with_path` on objects of the Rust core: along fields that can be read and written, through objects that have the
flag, from an outermost object that is not itself locked, it succeeds, the outermost object shows the new value at the path and
otherwise what it showed, and no other variable changes. -/
theorem C127_set_path {h : List (RObj V)} {s v : Nat} {ns : List String} {l : String} {o : RObj V} (hs : h[s]? = some o)
    (hed : Editable o ns l) (hu : Unlocked o ((ns ++ [l]).headD "")) (hv : v < h.length) :
    ∃ h', rsSetPath h s (ns ++ [l]) v = (h', .ok s) ∧
      (∀ p, shown h' s p = putAt (shown h s) (ns ++ [l]) (shown h v) p) ∧
      ∀ y, y < h.length → y ≠ s → ∀ p, shown h' y p = shown h y p := by
  have hsl : s < h.length := (List.getElem?_eq_some_iff.1 hs).1
  obtain ⟨w, hw⟩ : ∃ w, h[v]? = some w := ⟨_, List.getElem?_eq_getElem hv⟩
  cases o with
  | absent => cases ns <;> cases hed
  | prim q => cases ns <;> cases hed
  | obj k b f =>
    cases ns with
    | nil =>
      obtain ⟨o', ho'⟩ := act_write_of (n := l) hs hw hed.2 hed.1 hu
      refine ⟨h.set s o', ?_, ?_, ?_⟩
      · unfold rsSetPath
        rw [if_pos (by simp), show (([] : List String) ++ [l]).headD "" = l from rfl, ho']
      · obtain ⟨_, w1, w2, w3, _⟩ := C127_write ho'
        intro p
        unfold putAt
        cases p with
        | nil => rw [if_neg (by simp), w3]
        | cons m p =>
          by_cases hm : m = l
          · subst hm
            rw [if_pos (by simp), w1]
            rfl
          · rw [if_neg (by simp [Ne.symm hm]), w2 m p hm]
      · intro y _ hy p
        exact (C127_write ho').2.2.2.2 y hy p
    | cons n ns =>
      obtain ⟨h1, cs, e1, hch, hcs⟩ := loop_chain l (n :: ns) h s ⟨_, hs, hed⟩
      have hk := loop_keeps (n :: ns) h s
      rw [e1] at hk
      cases cs with
      | nil => cases hch
      | cons c cs =>
        obtain ⟨hea, hsh, hkc, hlt, hord, hch'⟩ := hch
        have hcl := chain_length hch'
        have hge : ∀ d ∈ c :: cs, h.length ≤ d := fun d hd => (hcs d hd).1
        obtain ⟨h2, i1, i0, i2, i3⟩ := putBack_spec s v l ns cs h1 c hch' hkc hlt
          (fun d hd => lt_of_lt_of_le hsl (hge d (List.mem_cons_of_mem _ hd)))
          (lt_of_lt_of_le hv (hge c List.mem_cons_self))
          (fun d hd => lt_of_lt_of_le hv (hge d (List.mem_cons_of_mem _ hd)))
          ⟨h1[v]'(hv.trans_le hk.1), List.getElem?_eq_getElem _⟩
        have old : ∀ y, y < h.length → h2[y]? = h1[y]? := fun y hy => i2 y (fun hm => by have := hge y hm; omega)
        obtain ⟨o1, ho1, hed1⟩ := hea
        have hk1 : kindOf h1 s = some (k, b) := ((hk.2 s hsl).2.1).trans (kindOf_of hs)
        obtain ⟨f1, hf1⟩ := kindOf_some hk1
        have e : o1 = .obj k b f1 := Option.some.inj (ho1.symm.trans hf1)
        subst e
        have hs2 : h2[s]? = some (.obj k b f1) := (old s hsl).trans ho1
        have hc2 : c < h2.length := by have := (hcs c List.mem_cons_self).2; omega
        have hfn : f1 n ≠ .absent := by
          obtain ⟨c', o', f', hg, _⟩ := hed1.2.2.1
          rw [hg]; simp
        obtain ⟨o', ho'⟩ := act_write_of (n := n) hs2 (List.getElem?_eq_getElem hc2) hfn hed1.2.1 hu
        refine ⟨h2.set s o', ?_, ?_, ?_⟩
        · rw [setPath_eq, e1]
          dsimp only
          rw [putBack_cons s h1 s n ns c cs l v hcl, i1]
          dsimp only
          rw [writeBack_cons, if_pos rfl]
          dsimp only
          rw [ho']
          rfl
        · obtain ⟨_, w1, w2, w3, _⟩ := C127_write ho'
          have hsame : ∀ p, shown h2 s p = shown h s p := fun p => (shown_congr (old s hsl) p).trans ((hk.2 s hsl).1 p)
          have hvs : shown h1 v = shown h v := funext fun p => (hk.2 v hv).1 p
          intro p
          cases p with
          | nil => rw [w3, hsame]; unfold putAt; rw [if_neg (by simp)]
          | cons m p =>
            by_cases hm : m = n
            · subst hm
              rw [w1, i3, hvs]
              exact putAt_step _ _ _ _ _ _ _ (fun q => (hsh q).trans ((hk.2 s hsl).1 _))
            · rw [w2 m p hm, hsame]
              unfold putAt
              rw [if_neg (by simp [Ne.symm hm])]
        · intro y hy hys p
          rw [(C127_write ho').2.2.2.2 y hys p, shown_congr (old y hy) p, (hk.2 y hy).1]

/-- Reading by path after writing by path gives the value written. -/
theorem C127_roundtrip {h h' h'' : List (RObj V)} {s v x : Nat} {ns : List String} {l : String} {o : RObj V} (hs : h[s]? = some o)
    (hed : Editable o ns l) (hu : Unlocked o ((ns ++ [l]).headD "")) (hv : v < h.length)
    (hset : rsSetPath h s (ns ++ [l]) v = (h', .ok s)) (hget : rsGetPath h' s (ns ++ [l]) = (h'', .ok x)) (p : List String) :
    shown h'' x p = shown h v p := by
  obtain ⟨g, e, h1, _⟩ := C127_set_path hs hed hu hv
  rw [hset] at e
  cases (Prod.ext_iff.1 e).1
  have hs' : s < h'.length := by
    by_contra hlt
    unfold rsGetPath at hget
    have hn : h'[s]? = none := List.getElem?_eq_none (by omega)
    have hrv : ∀ n, readVar h' s n = (h', .error .other) := fun n => by
      unfold readVar rsAct
      dsimp only
      rw [hn]
    cases ns with
    | nil =>
      rw [if_pos (by simp), hrv] at hget
      cases (Prod.ext_iff.1 hget).2
    | cons n ns =>
      rw [if_neg (by simp), containers_eq] at hget
      have : rsContainersLoop h' s (n :: ns) = (h', .error .other) := by
        rw [rsContainersLoop, hrv]
      rw [this] at hget
      cases (Prod.ext_iff.1 hget).2
  rw [(C127_get_path hs' hget).1, h1]
  unfold putAt
  rw [if_pos (List.prefix_append _ _), List.drop_left]

/-! ### Failures -/

/-- The variables below `N` show the same. -/
def Below (N : Nat) (h h' : List (RObj V)) : Prop := N ≤ h'.length ∧ ∀ y, y < N → ∀ p, shown h' y p = shown h y p

theorem act_below {N : Nat} {h : List (RObj V)} (hN : N ≤ h.length) (a : RsAct V) (ha : ∀ y, y < N → ¬ Edits y a) :
    Below N h (rsAct h a).1 := by
  refine ⟨?_, fun y hy p => (act_frame h a (hy.trans_le hN)).2.1 (ha y hy) p⟩
  cases h with
  | nil => exact hN.trans (Nat.zero_le _)
  | cons o h => exact hN.trans (act_frame (o :: h) a (x := 0) (by simp)).1

theorem Below.trans {N : Nat} {h g k : List (RObj V)} (a : Below N h g) (b : Below N g k) : Below N h k :=
  ⟨b.1, fun y hy p => (b.2 y hy p).trans (a.2 y hy p)⟩

theorem writeBack_below {N s : Nat} (L : List (Nat × String)) : ∀ (h : List (RObj V)) (j : Nat), N ≤ h.length →
    (∀ a ∈ L, N ≤ a.1) → Below N h (rsWriteBack s h j L).1 := by
  induction L with
  | nil => exact fun h j hN _ => ⟨hN, fun _ _ _ => rfl⟩
  | cons a L ih =>
    intro h j hN hL
    obtain ⟨c, n⟩ := a
    have hc : N ≤ c := hL _ List.mem_cons_self
    rw [writeBack_cons]
    have h1 : Below N h (if c = s then (h, .ok ()) else rsAct h (.reset c) : List (RObj V) × Except PyErr Unit).1 := by
      split
      · exact ⟨hN, fun _ _ _ => rfl⟩
      · exact act_below hN _ (fun _ _ e => e)
    generalize (if c = s then (h, .ok ()) else rsAct h (.reset c) : List (RObj V) × Except PyErr Unit) = r at *
    obtain ⟨g, r⟩ := r
    cases r with
    | error e => exact h1
    | ok u =>
      have h2 := act_below h1.1 (.write c n j) (fun y hy e => by change c = y at e; omega)
      dsimp only at h1 h2 ⊢
      generalize rsAct g (.write c n j) = q at *
      obtain ⟨k, q⟩ := q
      cases q with
      | error e => exact h1.trans h2
      | ok u => exact h1.trans (h2.trans (ih k c h2.1 (fun a ha => hL a (List.mem_cons_of_mem _ ha))))

theorem getLastD_mem {A : Type*} (l : List A) : ∀ a : A, l.getLastD a ∈ a :: l := by
  induction l with
  | nil => exact fun a => List.mem_cons_self
  | cons b l ih => exact fun a => List.mem_cons_of_mem _ (by rw [List.getLastD_cons]; exact ih b)

/-- When `set_attr_with_path` raises an exception, no variable shows anything new: the objects on the way are copies, and the
outermost one is written last. -/
theorem C127_path_error {h h' : List (RObj V)} {s v : Nat} {path : List String} {e : PyErr} (hs : s < h.length)
    (hr : rsSetPath h s path v = (h', .error e)) : ∀ y, y < h.length → ∀ p, shown h' y p = shown h y p := by
  rcases List.eq_nil_or_concat path with rfl | ⟨ns, l, rfl⟩
  · cases (Prod.ext_iff.1 hr).1
    exact fun _ _ _ => rfl
  rw [List.concat_eq_append] at hr
  cases ns with
  | nil =>
    unfold rsSetPath at hr
    rw [if_pos (by simp)] at hr
    generalize ha : rsAct h (.write s (([] ++ [l] : List String).headD "") v) = r at hr
    obtain ⟨g, r⟩ := r
    cases r with
    | error e' =>
      cases (Prod.ext_iff.1 hr).1
      have := act_error (h := h) (a := .write s (([] ++ [l] : List String).headD "") v) (e := e') (by rw [ha])
      rw [ha] at this
      dsimp only at this
      subst this
      exact fun _ _ _ => rfl
    | ok u => cases (Prod.ext_iff.1 hr).2
  | cons n ns =>
    rw [setPath_eq] at hr
    have hk := loop_keeps (n :: ns) h s
    generalize hq : rsContainersLoop h s (n :: ns) = q at hr hk
    obtain ⟨g, q⟩ := q
    have hb : Below h.length h g := ⟨hk.1, fun y hy p => (hk.2 y hy).1 p⟩
    suffices hsuf : Below h.length h h' from hsuf.2
    cases q with
    | error e' => cases (Prod.ext_iff.1 hr).1; exact hb
    | ok cs =>
      dsimp only at hr
      obtain ⟨i1, i2, _⟩ := loop_ok (n :: ns) hs hq
      cases cs with
      | nil => cases i1
      | cons c cs =>
        have hlen : cs.length = ns.length := by simpa using i1
        rw [putBack_cons s g s n ns c cs l v hlen] at hr
        -- up to the outermost object
        have inner : Below h.length g (putBack s g c ns cs l v).1 := by
          have hlast : h.length ≤ cs.getLastD c := by
            have : cs.getLastD c ∈ c :: cs := getLastD_mem cs c
            exact (i2 _ this).1
          unfold putBack
          have h1 := act_below hb.1 (.reset (cs.getLastD c)) (fun _ _ e => e)
          generalize rsAct g (.reset (cs.getLastD c)) = r at *
          obtain ⟨g1, r⟩ := r
          cases r with
          | error e => exact h1
          | ok u =>
            have h2 := act_below h1.1 (.write (cs.getLastD c) l v) (fun y hy e => by change cs.getLastD c = y at e; omega)
            dsimp only at h1 h2 ⊢
            generalize rsAct g1 (.write (cs.getLastD c) l v) = q at *
            obtain ⟨g2, q⟩ := q
            cases q with
            | error e => exact h1.trans h2
            | ok u =>
              refine h1.trans (h2.trans (writeBack_below _ g2 _ h2.1 ?_))
              intro a ha
              have := (List.of_mem_zip (a := a.1) (b := a.2) ha).1
              exact (i2 _ (List.dropLast_subset _ (List.mem_reverse.1 this))).1
        generalize putBack s g c ns cs l v = r at hr inner
        obtain ⟨g1, r⟩ := r
        cases r with
        | error e' => cases (Prod.ext_iff.1 hr).1; exact hb.trans inner
        | ok j =>
          dsimp only at hr
          rw [writeBack_cons, if_pos rfl] at hr
          dsimp only at hr
          generalize ha : rsAct g1 (.write s n j) = q at hr
          obtain ⟨g2, q⟩ := q
          cases q with
          | error e' =>
            have := act_error (h := g1) (a := .write s n j) (e := e') (by rw [ha])
            rw [ha] at this
            dsimp only at this
            subst this
            cases (Prod.ext_iff.1 hr).1
            exact hb.trans inner
          | ok u => cases (Prod.ext_iff.1 hr).2

/-! ### Several values at once -/

/-- `set_nested_values`: with fields of different names that can be written, all of them are set, also on an object that could not be
written to before, and nothing else changes. -/
theorem C127_nested {h : List (RObj V)} {x : Nat} {c : RsClass} {b : Bool} {f : String → RObj V} (hx : h[x]? = some (.obj c b f))
    (hfl : c.flag = true) (kw : List (String × Nat)) (hnd : (kw.map Prod.fst).Nodup)
    (hkw : ∀ a ∈ kw, c.writable a.1 = true ∧ f a.1 ≠ .absent ∧ a.2 < h.length ∧ a.2 ≠ x) :
    ∃ h', rsSetNested h x kw = (h', .ok ()) ∧ (∀ a ∈ kw, ∀ p, shown h' x (a.1 :: p) = shown h a.2 p) ∧
      (∀ m, m ∉ kw.map Prod.fst → ∀ p, shown h' x (m :: p) = shown h x (m :: p)) ∧
      ∀ y, y ≠ x → h'[y]? = h[y]? := by
  have hxl : x < h.length := (List.getElem?_eq_some_iff.1 hx).1
  have go : ∀ (kw : List (String × Nat)) (g : List (RObj V)) (f' : String → RObj V), (kw.map Prod.fst).Nodup →
      g[x]? = some (.obj c false f') → (∀ a ∈ kw, c.writable a.1 = true ∧ f' a.1 ≠ .absent ∧ a.2 < g.length ∧ a.2 ≠ x) →
      ∃ h', rsSetNested.go x g kw = (h', .ok ()) ∧ (∀ a ∈ kw, ∀ p, shown h' x (a.1 :: p) = shown g a.2 p) ∧
        (∀ m, m ∉ kw.map Prod.fst → ∀ p, shown h' x (m :: p) = shown g x (m :: p)) ∧ ∀ y, y ≠ x → h'[y]? = g[y]? := by
    intro kw
    induction kw with
    | nil => exact fun g f' _ _ _ => ⟨g, rfl, by simp, fun _ _ _ => rfl, fun _ _ => rfl⟩
    | cons a kw ih =>
      intro g f' hnd hg hkw
      obtain ⟨n, v⟩ := a
      obtain ⟨h1, h2, h3, h4⟩ := hkw _ List.mem_cons_self
      rw [List.map_cons, List.nodup_cons] at hnd
      have hgl : x < g.length := (List.getElem?_eq_some_iff.1 hg).1
      obtain ⟨w, hw⟩ : ∃ w, g[v]? = some w := ⟨_, List.getElem?_eq_getElem h3⟩
      obtain ⟨o, ho⟩ := act_write_of (n := n) hg hw h2 h1 (Or.inr (Or.inr rfl))
      obtain ⟨_, w1, w2, w3, w4⟩ := C127_write ho
      -- the object afterwards
      have hob : ∃ z, o = .obj c false (setField f' n z) := by
        unfold rsAct at ho
        dsimp only at ho
        rw [hg, hw] at ho
        dsimp only at ho
        cases hwr : (RObj.obj c false f').write n w with
        | error e => rw [hwr] at ho; cases (Prod.ext_iff.1 ho).2
        | ok o' =>
          rw [hwr] at ho
          have he := (Prod.ext_iff.1 ho).1
          change g.set x o' = g.set x o at he
          have hoo : o' = o := by
            have := congrArg (fun q => q[x]?) he
            simpa [hgl] using this
          subst hoo
          obtain ⟨_, _, c₁, b₁, f₁, z, e, rfl, _⟩ := write_ok hwr
          cases e
          exact ⟨z, rfl⟩
      obtain ⟨z, rfl⟩ := hob
      obtain ⟨h', j1, j2, j3, j4⟩ := ih (g.set x (.obj c false (setField f' n z))) (setField f' n z) hnd.2
        (List.getElem?_set_self hgl) (by
          intro a ha
          obtain ⟨k1, k2, k3, k4⟩ := hkw a (List.mem_cons_of_mem _ ha)
          have hne : a.1 ≠ n := fun e => hnd.1 (List.mem_map.2 ⟨a, ha, e⟩)
          refine ⟨k1, ?_, by simpa using k3, k4⟩
          unfold setField
          rw [if_neg hne]
          exact k2)
      refine ⟨h', ?_, ?_, ?_, ?_⟩
      · rw [rsSetNested.go, ho]
        exact j1
      · intro a ha p
        rcases List.mem_cons.1 ha with rfl | ha
        · rw [j3 n hnd.1 p, w1]
        · rw [j2 a ha p]
          exact shown_congr (List.getElem?_set_ne (Ne.symm (hkw a (List.mem_cons_of_mem _ ha)).2.2.2)) p
      · intro m hm p
        rw [List.map_cons, List.mem_cons, not_or] at hm
        rw [j3 m hm.2 p, w2 m p hm.1]
      · intro y hy
        rw [j4 y hy, List.getElem?_set_ne hy.symm]
  obtain ⟨h', j1, j2, j3, j4⟩ := go kw (h.set x (.obj c false f)) f hnd (List.getElem?_set_self hxl)
    (fun a ha => ⟨(hkw a ha).1, (hkw a ha).2.1, by simpa using (hkw a ha).2.2.1, (hkw a ha).2.2.2⟩)
  refine ⟨h', ?_, ?_, ?_, ?_⟩
  · unfold rsSetNested
    rw [act_reset_of hx hfl]
    exact j1
  · intro a ha p
    rw [j2 a ha p]
    exact shown_congr (List.getElem?_set_ne (Ne.symm (hkw a ha).2.2.2)) p
  · intro m hm p
    rw [j3 m hm p]
    unfold shown
    rw [List.getElem?_set_self hxl, hx]
    rfl
  · intro y hy
    rw [j4 y hy, List.getElem?_set_ne hy.symm]

/-! ### Arrays -/

/-- An element of an array of the Rust core is the one Python's rule for indices selects; an index at or beyond the end is an
`IndexError`. -/
theorem C127_item {A : Type*} (l : List A) (i : Int) (hl : l.length < 2 ^ 31) (hi : -2 ^ 31 ≤ i) :
    rsGetItem 64 l i = match (pyIndex l.length i).bind fun k => l[k]? with
      | some a => .ok a
      | none => .error (if 0 ≤ i then some .indexError else none) := by
  unfold rsGetItem pyIndex
  by_cases h1 : (l.length : Int) ≤ i
  · have h0 : (0 : Int) ≤ i := by omega
    rw [if_pos h1, if_neg (by omega), if_neg (by omega), if_pos h0]
    rfl
  rw [if_neg h1]
  dsimp only
  by_cases h0 : 0 ≤ i
  · rw [if_pos h0, if_pos ⟨h0, by omega⟩, if_pos h0]
    have hk : i.toNat < l.length := by omega
    show (match l[i.toNat]? with | some a => _ | none => _) = match l[i.toNat]? with | some a => _ | none => _
    rw [List.getElem?_eq_getElem hk]
  · rw [if_neg h0, if_neg (fun h => h0 h.1), if_neg h0]
    have hmod : i % 2 ^ 64 = i + 2 ^ 64 := by
      rw [← Int.add_emod_right, Int.emod_eq_of_lt] <;> omega
    rw [hmod]
    by_cases h2 : -(l.length : Int) ≤ i
    · rw [if_pos ⟨by omega, h2⟩]
      have hk : ((l.length : Int) + (i + 2 ^ 64)).toNat % 2 ^ 64 = (i + l.length).toNat := by omega
      rw [hk]
      have hlt : (i + l.length).toNat < l.length := by omega
      show (match l[(i + l.length).toNat]? with | some a => _ | none => _) =
        match l[(i + (l.length : Int)).toNat]? with | some a => _ | none => _
      rw [List.getElem?_eq_getElem hlt]
    · rw [if_neg (fun h => h2 h.2)]
      have hk : l.length ≤ ((l.length : Int) + (i + 2 ^ 64)).toNat % 2 ^ 64 := by omega
      rw [List.getElem?_eq_none hk]
      rfl

/-- Assigning to an element of an array raises an exception and changes nothing. -/
theorem C127_set_item {A : Type*} (l : List A) (i : Nat) (a : A) : ∃ e, rsSetItem l i a = (l, .error e) := ⟨_, rfl⟩

/-- The parts of a simulation with their classes (simdrive.rs:396-601). -/
def simParts : List (String × RsClass) :=
  [("veh", clsVehicle), ("cyc", clsCycle), ("cyc0", clsCycle), ("sim_params", clsParams), ("props", clsProps)]

/-- **C127 (parts of a simulation).** `sd.veh.m = …`, `sd.cyc.m = …` and the same for `cyc0`, `sim_params` and `props` raise
`AttributeError` and change nothing, whatever the fields of the simulation and whatever the program does between, unless it calls
`reset_orphaned`; only `fc_peak_eff` and `mc_peak_eff` of a vehicle and `mph` of a cycle are not guarded. -/
theorem C127_parts {V : Type*} {h : List (RObj V)} {x : Nat} {b b' : Bool} {f f' : String → RObj V} {n m : String} {c : RsClass}
    (hp : (n, c) ∈ simParts) (hx : h[x]? = some (.obj clsSimDrive b f)) (hn : f n = .obj c b' f')
    (hm : m ∉ ["fc_peak_eff", "mc_peak_eff", "mph"]) (as : List (RsAct V)) (hres : RsAct.reset h.length ∉ as) (z : Nat)
    (hz : z < (rsActs (rsAct h (.read x n)).1 as).length) :
    rsAct (rsActs (rsAct h (.read x n)).1 as) (.write h.length m z) =
      (rsActs (rsAct h (.read x n)).1 as, .error .attributeError) := by
  simp only [List.mem_cons, List.not_mem_nil, or_false, not_or] at hm
  simp only [simParts, List.mem_cons, Prod.mk.injEq, List.not_mem_nil, or_false] at hp
  have k : clsSimDrive.readable n = true ∧ clsSimDrive.marked n = true ∧ c.flag = true ∧ c.free m = false := by
    rcases hp with ⟨rfl, rfl⟩ | ⟨rfl, rfl⟩ | ⟨rfl, rfl⟩ | ⟨rfl, rfl⟩ | ⟨rfl, rfl⟩ <;>
      refine ⟨by decide, by decide, rfl, ?_⟩ <;>
      simp [clsVehicle, clsCycle, clsParams, clsProps, plainClass, hm]
  exact C127_guard hx hn k.1 k.2.1 k.2.2.1 k.2.2.2 as hres z hz

/-! ### Concrete cases -/

/-- Fields given as a list. -/
def fieldsOf (l : List (String × RObj Nat)) : String → RObj Nat := fun n => ((l.find? fun a => a.1 = n).map Prod.snd).getD .absent

/-- A thermal simulation with its plain simulation, in it a vehicle, and a history; a label with a vehicle; a number. -/
def demoVars : List (RObj Nat) :=
  let veh : RObj Nat := .obj clsVehicle false (fieldsOf [("veh_kg", .prim 1500), ("fc_peak_eff", .prim 36)])
  let sd : RObj Nat := .obj clsSimDrive false (fieldsOf [("veh", veh), ("i", .prim 1)])
  [.obj clsSimDriveHot false (fieldsOf [("sd", sd), ("history", .obj clsHistory false (fieldsOf [("fc_te_deg_c", .prim 20)]))]),
    .obj clsLabel false (fieldsOf [("veh", veh)]), .prim 1600, sd]

/-- Whether a statement raised no exception. -/
def fine : List (RObj Nat) × Except PyErr Unit → Bool
  | (_, .ok _) => true
  | _ => false

/-- `sd.veh.veh_kg = 1600` raises an exception (`C127_guard`). -/
theorem C127_guard_demo : fine (rsAct (rsAct demoVars (.read 3 "veh")).1 (.write 4 "veh_kg" 2)) = false ∧
    (rsAct (rsAct demoVars (.read 3 "veh")).1 (.write 4 "veh_kg" 2)).2 = .error .attributeError := by
  decide +kernel

/-- The settings of `C127_parts` are met: a simulation with a cycle, `cyc = sd.cyc`, then `x = sd.i`, then `cyc.mps = …`. -/
theorem C127_parts_demo :
    let h : List (RObj Nat) := [.obj clsSimDrive false (fieldsOf
      [("cyc", .obj clsCycle false (fieldsOf [("mps", .prim 7)])), ("i", .prim 1)]), .prim 9]
    (rsAct (rsActs (rsAct h (.read 0 "cyc")).1 [.read 0 "i"]) (.write 2 "mps" 1)).2 = .error .attributeError ∧
    fine (rsAct (rsActs (rsAct h (.read 0 "cyc")).1 [.read 0 "i", .reset 2]) (.write 2 "mps" 1)) = true := by
  intro h
  refine ⟨?_, by decide +kernel⟩
  exact congrArg Prod.snd (C127_parts (h := h) (x := 0) (n := "cyc") (m := "mps") (c := clsCycle) (by simp [simParts]) rfl rfl
    (by simp) [.read 0 "i"] (by simp) 1 (by decide +kernel))

/-- The documented way: `veh = sd.veh; veh.reset_orphaned(); veh.veh_kg = 1600; sd.veh = veh`. -/
theorem C127_way : shown (rsActs demoVars [.read 3 "veh", .reset 4, .write 4 "veh_kg" 2, .write 3 "veh" 4]) 3 ["veh", "veh_kg"] =
    some 1600 := by
  decide +kernel

/-- Finding: `sd.veh.fc_peak_eff = …` raises no exception and is lost, since this setter, and those of `mc_peak_eff` and of `mph`
of a cycle, do not look at the flag. -/
theorem C127_lost_peak : fine (rsAct (rsAct demoVars (.read 3 "veh")).1 (.write 4 "fc_peak_eff" 2)) = true ∧
    shown (rsAct (rsAct demoVars (.read 3 "veh")).1 (.write 4 "fc_peak_eff" 2)).1 3 ["veh", "fc_peak_eff"] = some 36 := by
  decide +kernel

/-- Finding: so are assignments to the vehicle of a label and to the history of a thermal simulation, fields that are not
marked. -/
theorem C127_lost_unmarked : fine (rsAct (rsAct demoVars (.read 1 "veh")).1 (.write 4 "veh_kg" 2)) = true ∧
    shown (rsAct (rsAct demoVars (.read 1 "veh")).1 (.write 4 "veh_kg" 2)).1 1 ["veh", "veh_kg"] = some 1500 ∧
    fine (rsAct (rsAct demoVars (.read 0 "history")).1 (.write 4 "fc_te_deg_c" 2)) = true ∧
    shown (rsAct (rsAct demoVars (.read 0 "history")).1 (.write 4 "fc_te_deg_c" 2)).1 0 ["history", "fc_te_deg_c"] = some 20 := by
  decide +kernel

/-- Finding: so is a method called on a nested object, such as `sd.veh.set_veh_mass()`. -/
theorem C127_lost_method :
    let g : (String → RObj Nat) → String → RObj Nat := fun f n => if n = "veh_kg" then .prim 1600 else f n
    fine (rsAct (rsAct demoVars (.read 3 "veh")).1 (.method 4 g)) = true ∧
    shown (rsAct (rsAct demoVars (.read 3 "veh")).1 (.method 4 g)).1 3 ["veh", "veh_kg"] = some 1500 := by
  decide +kernel

/-- Finding: a copy of a nested object still refuses assignments. -/
theorem C127_copy_demo :
    (rsAct (rsActs demoVars [.read 3 "veh", .copy 4]) (.write 5 "veh_kg" 2)).2 = .error .attributeError := by
  decide +kernel

/-- The conditions of `C127_set_path` are met by `sd.veh.veh_kg` of the thermal simulation. -/
theorem C127_path_demo : (∃ o, demoVars[0]? = some o ∧ Editable o ["sd", "veh"] "veh_kg" ∧ Unlocked o "sd") ∧
    shown (rsSetPath demoVars 0 ["sd", "veh", "veh_kg"] 2).1 0 ["sd", "veh", "veh_kg"] = some 1600 ∧
    shown (rsSetPath demoVars 0 ["sd", "veh", "veh_kg"] 2).1 0 ["sd", "i"] = some 1 := by
  refine ⟨⟨_, rfl, ⟨by decide +kernel, by decide +kernel, ⟨_, _, _, rfl, rfl⟩, by decide +kernel, by decide +kernel,
    ⟨_, _, _, rfl, rfl⟩, by decide +kernel, ?_⟩, ?_⟩, by decide +kernel, by decide +kernel⟩
  · intro h; nomatch h
  · exact Or.inr (Or.inl rfl)

/-- Finding: an index before the first element is a panic of the Rust core instead of Python's `IndexError`. -/
theorem C127_item_panic : rsGetItem 64 [1, 2, 3] (-4) = .error none ∧ rsGetItem 64 [1, 2, 3] (-1) = .ok 3 := by
  constructor <;> decide +kernel

end Fastsim.Props
