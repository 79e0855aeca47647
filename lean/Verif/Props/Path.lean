import Verif.Model.Path
import Verif.Lemmas.Dict

/-!
# C43: attribute access by path
-/
set_option linter.unusedSectionVars false

namespace Fastsim.Spec
end Fastsim.Spec

namespace Fastsim.Props
open Fastsim Spec

variable {V : Type*} [DecidableEq V]

/-- `Walk h x names r y`: starting at `x` and reading the attributes `names` one after the other ends at `y`; `r` lists
the objects passed, each with the attribute read there. -/
inductive _root_.Fastsim.Spec.Walk (h : Heap V) : HVal V → List String → List (Nat × String) → HVal V → Prop
  | nil (x : HVal V) : Walk h x [] [] x
  | cons {a : Nat} {o : HObj V} {n : String} {w y : HVal V} {ns : List String} {r : List (Nat × String)} :
      h[a]? = some o → PyDict.get? o.attrs n = some w → Walk h w ns r y → Walk h (.ref a) (n :: ns) ((a, n) :: r) y

/-- The attribute `n` of the object at `a`. -/
def _root_.Fastsim.Spec.attrAt (h : Heap V) (a : Nat) (n : String) : Option (HVal V) :=
  h[a]?.bind fun o => PyDict.get? o.attrs n

/-- The object at `a` has the method `reset_orphaned`. -/
def _root_.Fastsim.Spec.HasReset (h : Heap V) (a : Nat) : Prop := ∃ o, h[a]? = some o ∧ o.canReset = true

/-- The heap with one attribute of one object replaced. -/
def _root_.Fastsim.Spec.assign (h : Heap V) (a : Nat) (n : String) (v : HVal V) : Heap V :=
  h.modify a fun o => { o with attrs := PyDict.set o.attrs n v }

/-! ### Basic facts -/

theorem getattr_ok {h : Heap V} {x : HVal V} {n : String} {w : HVal V} :
    getattr h x n = .ok w ↔ ∃ a, x = .ref a ∧ attrAt h a n = some w := by
  unfold getattr attrAt
  cases x with
  | prim v => simp
  | ref a =>
    cases ho : h[a]? with
    | none => simp [ho]
    | some o => cases hg : PyDict.get? o.attrs n <;> simp [ho, hg]

theorem getattr_error {h : Heap V} {x : HVal V} {n : String} :
    (∃ w, getattr h x n = .ok w) ∨ getattr h x n = .error .attributeError := by
  unfold getattr
  cases x with
  | prim v => simp
  | ref a =>
    cases ho : h[a]? with
    | none => simp [ho]
    | some o => cases hg : PyDict.get? o.attrs n <;> simp [ho, hg]

theorem setattr_ref {h : Heap V} {a : Nat} {o : HObj V} (ho : h[a]? = some o) (n : String) (v : HVal V) :
    setattr h (.ref a) n v = .ok (assign h a n v) := by
  have : a < h.length := by
    by_contra hc
    rw [List.getElem?_eq_none (by omega)] at ho; cases ho
  simp only [setattr, ho, assign, Except.ok.injEq]
  apply List.ext_getElem?
  intro i
  rw [List.getElem?_set, List.getElem?_modify]
  by_cases hi : a = i
  · subst hi
    simp only [if_pos rfl, if_pos this, ho]; rfl
  · simp [hi]

theorem set_same {d : PyDict (HVal V)} {n : String} {w : HVal V} (h : PyDict.get? d n = some w) :
    PyDict.set d n w = d := by
  induction d with
  | nil => cases h
  | cons p d ih =>
    obtain ⟨k, v⟩ := p
    rw [PyDict.get?_cons] at h
    unfold PyDict.set
    by_cases hk : n = k
    · subst hk; simp at h; simp [h]
    · rw [if_neg (fun e => hk e.symm)]
      rw [if_neg hk] at h
      rw [ih h]

theorem set_set {d : PyDict (HVal V)} {n : String} {v w : HVal V} :
    PyDict.set (PyDict.set d n v) n w = PyDict.set d n w := by
  induction d with
  | nil => simp [PyDict.set]
  | cons p d ih =>
    obtain ⟨k, u⟩ := p
    by_cases hk : k = n
    · subst hk; simp [PyDict.set]
    · simp [PyDict.set, hk, ih]

theorem attrAt_assign (h : Heap V) (a b : Nat) (n m : String) (v : HVal V) (ha : a < h.length) :
    attrAt (assign h a n v) b m = if (b, m) = (a, n) then some v else attrAt h b m := by
  unfold attrAt assign
  rw [List.getElem?_modify]
  by_cases hb : a = b
  · subst hb
    have : h[a]? = some h[a] := List.getElem?_eq_getElem ha
    simp only [this, if_true, Option.map_eq_map, Option.map_some, Option.bind_some, PyDict.get?_set,
      Prod.mk.injEq, true_and]
  · have : ¬ (b, m) = (a, n) := fun e => hb (Prod.mk.inj e).1.symm
    simp [hb, this]

theorem assign_same {h : Heap V} {a : Nat} {n : String} {w : HVal V} (hw : attrAt h a n = some w) :
    assign h a n w = h := by
  unfold assign
  apply List.ext_getElem?
  intro i
  rw [List.getElem?_modify]
  by_cases hi : a = i
  · subst hi
    unfold attrAt at hw
    cases ho : h[a]? with
    | none => rfl
    | some o =>
      rw [ho] at hw
      have hw : PyDict.get? o.attrs n = some w := hw
      simp [set_same hw]
  · simp [hi]

theorem assign_assign (h : Heap V) (a : Nat) (n : String) (v w : HVal V) :
    assign (assign h a n v) a n w = assign h a n w := by
  unfold assign
  apply List.ext_getElem?
  intro i
  rw [List.getElem?_modify, List.getElem?_modify, List.getElem?_modify]
  by_cases hi : a = i
  · subst hi; cases h[a]? <;> simp [set_set]
  · simp [hi]

theorem assign_length (h : Heap V) (a : Nat) (n : String) (v : HVal V) : (assign h a n v).length = h.length := by
  simp [assign]

theorem hasReset_assign (h : Heap V) (a b : Nat) (n : String) (v : HVal V) :
    HasReset (assign h a n v) b ↔ HasReset h b := by
  unfold HasReset assign
  rw [List.getElem?_modify]
  by_cases hb : a = b
  · subst hb; cases h[a]? <;> simp
  · simp [hb]

theorem reset_ok {h : Heap V} {a : Nat} (hr : HasReset h a) : resetOrphaned h (.ref a) = .ok () := by
  obtain ⟨o, ho, hc⟩ := hr
  simp [resetOrphaned, ho, hc]

theorem reset_err {h : Heap V} {x : HVal V} (hr : ∀ a, x = .ref a → ¬ HasReset h a) :
    resetOrphaned h x = .error .attributeError := by
  cases x with
  | prim v => rfl
  | ref a =>
    have := hr a rfl
    unfold HasReset at this
    cases ho : h[a]? with
    | none => simp [resetOrphaned, ho]
    | some o =>
      have hc : ¬ o.canReset = true := fun hc => this ⟨o, ho, hc⟩
      simp [resetOrphaned, ho, hc]

/-! ### Walks -/

theorem Walk.unique' {h : Heap V} {x y z : HVal V} {ns : List String} {r q : List (Nat × String)}
    (h1 : Walk h x ns r y) (h2 : Walk h x ns q z) : y = z ∧ r = q := by
  induction h1 generalizing z q with
  | nil x => cases h2; exact ⟨rfl, rfl⟩
  | cons ho hg _ ih =>
    cases h2 with
    | cons ho' hg' hw' =>
      rw [ho] at ho'; cases ho'
      rw [hg] at hg'; cases hg'
      obtain ⟨h3, h4⟩ := ih hw'
      exact ⟨h3, by rw [h4]⟩

theorem walk_snoc {h : Heap V} {x z : HVal V} {ns : List String} {n : String} {q : List (Nat × String)} :
    Walk h x (ns ++ [n]) q z ↔
      ∃ b r, Walk h x ns r (.ref b) ∧ attrAt h b n = some z ∧ q = r ++ [(b, n)] := by
  constructor
  · intro hw
    induction ns generalizing x q with
    | nil =>
      cases hw with
      | cons ho hg hw' =>
        cases hw'
        rename_i a o
        exact ⟨a, [], .nil _, by simp [attrAt, ho, hg], rfl⟩
    | cons m ns ih =>
      cases hw with
      | cons ho hg hw' =>
        obtain ⟨b, r, h1, h2, h3⟩ := ih hw'
        exact ⟨b, _, .cons ho hg h1, h2, by rw [h3]; rfl⟩
  · rintro ⟨b, r, hw, hat, rfl⟩
    generalize hx : HVal.ref b = y at hw
    induction hw with
    | nil x =>
      subst hx
      unfold attrAt at hat
      cases ho : h[b]? with
      | none => rw [ho] at hat; cases hat
      | some o => rw [ho] at hat; exact .cons ho hat (.nil _)
    | cons ho hg _ ih => exact .cons ho hg (ih hx)

theorem walk_cons_iff {h : Heap V} {x z : HVal V} {ns : List String} {n : String} {q : List (Nat × String)} :
    Walk h x (n :: ns) q z ↔ ∃ a w r, x = .ref a ∧ attrAt h a n = some w ∧ Walk h w ns r z ∧ q = (a, n) :: r := by
  constructor
  · intro hw
    cases hw with
    | cons ho hg hw' => exact ⟨_, _, _, rfl, by simp [attrAt, ho, hg], hw', rfl⟩
  · rintro ⟨a, w, r, rfl, hat, hw, rfl⟩
    unfold attrAt at hat
    cases ho : h[a]? with
    | none => rw [ho] at hat; cases hat
    | some o => rw [ho] at hat; exact .cons ho hat hw

/-- Objects passed exist. -/
theorem walk_mem {h : Heap V} {x y : HVal V} {ns : List String} {r : List (Nat × String)} (hw : Walk h x ns r y)
    {p : Nat × String} (hp : p ∈ r) : p.1 < h.length := by
  induction hw with
  | nil x => cases hp
  | cons ho _ _ ih =>
    rcases List.mem_cons.1 hp with rfl | hp
    · by_contra hc
      rw [List.getElem?_eq_none (by simpa using hc)] at ho; cases ho
    · exact ih hp

/-- Changing an attribute that is not read on the way leaves the walk as it is. -/
theorem walk_assign {h : Heap V} {x y : HVal V} {ns : List String} {r : List (Nat × String)} (hw : Walk h x ns r y)
    {b : Nat} {n : String} (v : HVal V) (hb : b < h.length) (hn : (b, n) ∉ r) : Walk (assign h b n v) x ns r y := by
  induction hw with
  | nil x => exact .nil x
  | @cons a o m w y ns r ho hg hw ih =>
    rw [walk_cons_iff]
    refine ⟨a, w, r, rfl, ?_, ih (fun hm => hn (by simp [hm])), rfl⟩
    rw [attrAt_assign h b a n m v hb, if_neg (fun e => hn (by simp [e]))]
    simp [attrAt, ho, hg]

theorem loop_of_walk {h : Heap V} {x y : HVal V} {ns : List String} {r : List (Nat × String)}
    (hw : Walk h x ns r y) : ∃ cs, containersLoop h x ns = .ok cs ∧ cs.length = ns.length ∧
      (x :: cs).getLastD x = y ∧ (x :: cs).dropLast.zip ns = r.map (fun p => (.ref p.1, p.2)) := by
  induction hw with
  | nil x => exact ⟨[], rfl, rfl, rfl, rfl⟩
  | @cons a o n w y ns r ho hg hw ih =>
    obtain ⟨cs, h1, h2, h3, h4⟩ := ih
    have hget : getattr h (.ref a) n = .ok w := getattr_ok.2 ⟨a, rfl, by simp [attrAt, ho, hg]⟩
    refine ⟨w :: cs, ?_, by simp [h2], ?_, ?_⟩
    · rw [containersLoop, hget]
      show (containersLoop h w ns >>= _) = _
      rw [h1]; rfl
    · have : (HVal.ref a :: w :: cs).getLastD (HVal.ref a) = (w :: cs).getLastD w := by
        cases h : (w :: cs).getLast? with
        | none => simp at h
        | some z => simp [h]
      rw [this, h3]
    · have : (HVal.ref a :: w :: cs).dropLast = HVal.ref a :: (w :: cs).dropLast := rfl
      rw [this, List.zip_cons_cons, h4]; rfl

theorem loop_no_walk {h : Heap V} : ∀ {ns : List String} {x : HVal V}, (∀ r y, ¬ Walk h x ns r y) →
    containersLoop h x ns = .error .attributeError
  | [], x, hno => absurd (.nil x) (hno [] x)
  | n :: ns, x, hno => by
    rw [containersLoop]
    rcases getattr_error (h := h) (x := x) (n := n) with ⟨w, hw⟩ | he
    · rw [hw]
      show (containersLoop h w ns >>= _) = _
      rw [loop_no_walk (fun r y hw' => ?_)]
      · rfl
      · obtain ⟨a, rfl, hat⟩ := getattr_ok.1 hw
        exact hno _ _ (walk_cons_iff.2 ⟨a, w, r, rfl, hat, hw', rfl⟩)
    · rw [he]; rfl

theorem getContainers_snoc {h : Heap V} {x : HVal V} {ns : List String} (hne : ns ≠ []) (l : String) :
    getContainers h x (ns ++ [l]) = containersLoop h x ns := by
  cases ns with
  | nil => exact absurd rfl hne
  | cons n ns => rw [List.cons_append, getContainers, List.dropLast_concat]; rfl

/-! ### Dotted paths -/

theorem splitDots_word : ∀ {w : List Char}, '.' ∉ w → splitDots w = [w]
  | [], _ => rfl
  | c :: s, h => by
    have hc : c ≠ '.' := fun e => h (by simp [e])
    rw [splitDots, if_neg hc, splitDots_word (fun hm => h (by simp [hm]))]

theorem splitDots_dot : ∀ {w : List Char}, '.' ∉ w → ∀ s : List Char, splitDots (w ++ '.' :: s) = w :: splitDots s
  | [], _, s => by rw [List.nil_append, splitDots, if_pos rfl]
  | c :: w, h, s => by
    have hc : c ≠ '.' := fun e => h (by simp [e])
    rw [List.cons_append, splitDots, if_neg hc, splitDots_dot (fun hm => h (by simp [hm]))]

/-- The dotted string made of names without dots means the list of these names. -/
theorem C43_dotted (n : String) (ns : List String) (hdots : ∀ m ∈ n :: ns, '.' ∉ m.toList) :
    (PathArg.str (String.ofList (ns.foldl (fun acc m => acc ++ '.' :: m.toList) n.toList))).toNames = n :: ns := by
  have key : ∀ (ns : List String) (n : String), (∀ m ∈ n :: ns, '.' ∉ m.toList) →
      ns.foldl (fun acc m => acc ++ '.' :: m.toList) n.toList =
        n.toList ++ (ns.flatMap fun m => '.' :: m.toList) := by
    intro ns n _
    have : ∀ (ns : List String) (acc : List Char), ns.foldl (fun acc m => acc ++ '.' :: m.toList) acc =
        acc ++ (ns.flatMap fun m => '.' :: m.toList) := by
      intro ns
      induction ns with
      | nil => intro acc; simp
      | cons m ns ih => intro acc; rw [List.foldl_cons, ih]; simp
    exact this ns n.toList
  have split : ∀ (ns : List String) (n : String), (∀ m ∈ n :: ns, '.' ∉ m.toList) →
      splitDots (n.toList ++ (ns.flatMap fun m => '.' :: m.toList)) = (n :: ns).map String.toList := by
    intro ns
    induction ns with
    | nil => intro n h; simpa using splitDots_word (h n (by simp))
    | cons m ns ih =>
      intro n h
      rw [List.flatMap_cons, List.cons_append, splitDots_dot (h n (by simp)), ih m (fun x hx => h x (by simp [hx]))]
      rfl
  simp only [PathArg.toNames, String.toList_ofList, key ns n hdots, split ns n hdots, List.map_map]
  have : (String.ofList ∘ String.toList) = id := by funext s; simp
  rw [this]; simp

/-! ### Reading -/

theorem path_cases (p : PathArg) : p.toNames = [] ∨ ∃ ns n, p.toNames = ns ++ [n] := by
  rcases List.eq_nil_or_concat p.toNames with h | ⟨l, b, h⟩
  · exact Or.inl h
  · exact Or.inr ⟨l, b, by simpa using h⟩

/-- `get_attr_with_path` returns what reading the attributes one after the other reaches, and raises `AttributeError`
if one is missing. -/
theorem C43_get (h : Heap V) (s : HVal V) (p : PathArg) (hne : p.toNames ≠ []) :
    (∃ r y, Walk h s p.toNames r y ∧ getAttrWithPath h s p = .ok y) ∨
    ((∀ r y, ¬ Walk h s p.toNames r y) ∧ getAttrWithPath h s p = .error .attributeError) := by
  obtain he | ⟨ns, n, he⟩ := path_cases p
  · exact absurd he hne
  by_cases hns : ns = []
  · subst hns
    have e : getAttrWithPath h s p = getattr h s n := by
      simp only [getAttrWithPath, he]; rfl
    rw [e, he]
    rcases getattr_error (h := h) (x := s) (n := n) with ⟨w, hw⟩ | herr
    · left
      obtain ⟨a, rfl, hat⟩ := getattr_ok.1 hw
      exact ⟨_, w, walk_cons_iff.2 ⟨a, w, [], rfl, hat, .nil w, rfl⟩, hw⟩
    · right
      refine ⟨fun r y hw => ?_, herr⟩
      obtain ⟨a, w, r', rfl, hat, hw', _⟩ := walk_cons_iff.1 hw
      rw [getattr_ok.2 ⟨a, rfl, hat⟩] at herr; cases herr
  · have e : getAttrWithPath h s p = (containersLoop h s ns >>= fun cs => getattr h (cs.getLastD s) n) := by
      have hl : ¬ (ns ++ [n]).length = 1 := by
        simpa using hns
      simp only [getAttrWithPath, he, if_neg hl, getContainers_snoc hns]
      congr 1; funext cs; simp
    rw [e, he]
    by_cases hwalk : ∃ r y, Walk h s ns r y
    · obtain ⟨r, y, hw⟩ := hwalk
      obtain ⟨cs, h1, h2, h3, h4⟩ := loop_of_walk hw
      have hcs : cs ≠ [] := by
        intro hc; subst hc; exact hns (List.eq_nil_of_length_eq_zero h2.symm)
      have hlast : cs.getLastD s = y := by
        rw [← h3]
        cases cs with
        | nil => exact absurd rfl hcs
        | cons c cs => simp [List.getLastD_cons]
      have e2 : (containersLoop h s ns >>= fun cs => getattr h (cs.getLastD s) n) = getattr h y n := by
        rw [h1]; show getattr h (cs.getLastD s) n = _; rw [hlast]
      rw [e2]
      rcases getattr_error (h := h) (x := y) (n := n) with ⟨w, hw'⟩ | herr
      · left
        obtain ⟨b, rfl, hat⟩ := getattr_ok.1 hw'
        exact ⟨_, w, walk_snoc.2 ⟨b, r, hw, hat, rfl⟩, hw'⟩
      · right
        refine ⟨fun r' z hw' => ?_, herr⟩
        obtain ⟨b, r'', hw'', hat, _⟩ := walk_snoc.1 hw'
        have := (Walk.unique' hw hw'').1
        subst this
        rw [getattr_ok.2 ⟨b, rfl, hat⟩] at herr; cases herr
    · right
      refine ⟨fun r y hw => ?_, ?_⟩
      · obtain ⟨b, r'', hw'', _, _⟩ := walk_snoc.1 hw
        exact hwalk ⟨r'', _, hw''⟩
      · rw [loop_no_walk (fun r y hw => hwalk ⟨r, y, hw⟩)]; rfl

theorem get_of_walk {h : Heap V} {s y : HVal V} {p : PathArg} {r : List (Nat × String)} (hne : p.toNames ≠ [])
    (hw : Walk h s p.toNames r y) : getAttrWithPath h s p = .ok y := by
  rcases C43_get h s p hne with ⟨r', y', hw', hg⟩ | ⟨hno, _⟩
  · rw [hg, (Walk.unique' hw hw').1]
  · exact absurd hw (hno r y)

/-! ### Writing -/

/-- The objects on the way other than the outermost one can be reset. -/
def _root_.Fastsim.Spec.WayResets (h : Heap V) (s : HVal V) (r : List (Nat × String)) : Prop :=
  ∀ p ∈ r, HVal.ref p.1 ≠ s → HasReset h p.1

/-- The write-back loop on a heap `g` that is `h` with or without the new value. -/
theorem writeBack_spec {h : Heap V} {s : HVal V} {b : Nat} {l : String} {v : HVal V} (hb : b < h.length)
    (r : List (Nat × String)) (hwr : WayResets h s r) :
    ∀ {x y : HVal V} {ns : List String}, Walk h x ns r y →
    ∀ g, g = h ∨ g = assign h b l v →
    writeBack s g y ((r.map fun p => (HVal.ref p.1, p.2)).reverse) =
      (if (b, l) ∈ r then h else g, .ok x) := by
  intro x y ns hw
  induction hw with
  | nil x => intro g _; simp [writeBack]
  | @cons a o n w y ns r ho hg hw ih =>
    intro g hgg
    have ih := ih (fun p hp => hwr p (by simp [hp])) g hgg
    have hat : attrAt h a n = some w := by simp [attrAt, ho, hg]
    -- the last write: the outermost one of this walk
    have app : ∀ (l1 : List (HVal V × String)) (g : Heap V) (y : HVal V) (c : HVal V) (m : String) (g' : Heap V) (x' : HVal V),
        writeBack s g y l1 = (g', .ok x') →
        writeBack s g y (l1 ++ [(c, m)]) = writeBack s g' x' [(c, m)] := by
      intro l1
      induction l1 with
      | nil =>
        intro g y c m g' x' he
        simp only [writeBack, Prod.mk.injEq, Except.ok.injEq] at he
        rw [List.nil_append, he.1, he.2]
      | cons q l1 ihl =>
        intro g y c m g' x' he
        obtain ⟨c0, m0⟩ := q
        rw [List.cons_append]
        rw [writeBack] at he ⊢
        split
        · rename_i e hx; rw [hx] at he; simp at he
        · rename_i hx
          rw [hx] at he
          simp only at he
          split
          · rename_i e hx2; rw [hx2] at he; simp at he
          · rename_i h' hx2
            rw [hx2] at he
            simp only at he
            exact ihl _ _ _ _ _ _ he
    rw [List.map_cons, List.reverse_cons, app _ _ _ _ _ _ _ ih]
    have hreset : ∀ g, (g = h ∨ g = assign h b l v) →
        (if HVal.ref a = s then (Except.ok () : Except PyErr Unit) else resetOrphaned g (.ref a)) = .ok () := by
      intro g hgg
      split
      · rfl
      · rename_i hne
        apply reset_ok
        have := hwr (a, n) (by simp) hne
        rcases hgg with rfl | rfl
        · exact this
        · exact (hasReset_assign h b a l v).2 this
    have hset : ∀ g, (g = h ∨ g = assign h b l v) →
        setattr g (.ref a) n w = .ok (if (b, l) = (a, n) then h else g) := by
      intro g hgg
      rcases hgg with rfl | rfl
      · rw [setattr_ref ho, assign_same hat]; simp
      · obtain ⟨o', ho'⟩ : ∃ o', (assign h b l v)[a]? = some o' := by
          unfold assign; rw [List.getElem?_modify, ho]; exact ⟨_, rfl⟩
        rw [setattr_ref ho']
        by_cases hc : (b, l) = (a, n)
        · have e1 : b = a := (Prod.mk.inj hc).1
          have e2 : l = n := (Prod.mk.inj hc).2
          subst e1; subst e2
          rw [assign_assign, assign_same hat, if_pos rfl]
        · rw [if_neg hc, assign_same]
          rw [attrAt_assign h b a l n v hb, if_neg (fun e => hc e.symm), hat]
    have hcase : ∀ g, (g = h ∨ g = assign h b l v) →
        writeBack s g w [(HVal.ref a, n)] = (if (b, l) = (a, n) then h else g, .ok (.ref a)) := by
      intro g hgg
      simp only [writeBack, hreset g hgg, hset g hgg]
    by_cases hr : (b, l) ∈ r
    · rw [if_pos hr]
      rw [hcase h (Or.inl rfl)]
      simp [hr]
    · rw [if_neg hr, hcase g hgg]
      by_cases hc : (b, l) = (a, n)
      · rw [if_pos hc, if_pos (by simp [hc])]
      · rw [if_neg hc, if_neg (by simp only [List.mem_cons, not_or]; exact ⟨hc, hr⟩)]

/-- What `set_attr_with_path` does when the path up to the last name leads to an object and the objects on the way can be
reset: it replaces that one attribute and returns the outermost object. Only if that very attribute of that very object
was itself read on the way is nothing changed. -/
theorem C43_set {h : Heap V} {s : HVal V} {p : PathArg} {ns : List String} {l : String} {r : List (Nat × String)}
    {b : Nat} (v : HVal V) (hp : p.toNames = ns ++ [l]) (hw : Walk h s ns r (.ref b)) (hb : b < h.length)
    (hreset : ns ≠ [] → HasReset h b) (hway : WayResets h s r) :
    setAttrWithPath h s p v = (if (b, l) ∈ r then h else assign h b l v, .ok s) := by
  have ho : h[b]? = some h[b] := List.getElem?_eq_getElem hb
  by_cases hns : ns = []
  · subst hns
    cases hw
    simp only [setAttrWithPath, hp, List.nil_append, List.length_singleton, if_true, List.headD_cons, setattr_ref ho,
      List.not_mem_nil, if_false]
  · have hl : ¬ (ns ++ [l]).length = 1 := by simpa using hns
    obtain ⟨cs, h1, h2, h3, h4⟩ := loop_of_walk hw
    have hlast : (ns ++ [l]).getLastD "" = l := by simp
    have hdrop : (ns ++ [l]).dropLast = ns := by simp
    have hrev : ((s :: cs).dropLast.reverse.zip ns.reverse) = (r.map fun p => (HVal.ref p.1, p.2)).reverse := by
      rw [← h4]
      have hlen : (s :: cs).dropLast.length = ns.length := by simp [h2]
      have zr : ∀ (l : List (HVal V)) (m : List String), l.length = m.length → l.reverse.zip m.reverse = (l.zip m).reverse := by
        intro l
        induction l with
        | nil => intro m hm; simp
        | cons a l ih =>
          intro m hm
          cases m with
          | nil => simp at hm
          | cons b m =>
            have hm' : l.length = m.length := by simpa using hm
            rw [List.reverse_cons, List.reverse_cons, List.zip_append (by simpa using hm'), ih m hm']
            simp
      exact zr _ _ hlen
    simp only [setAttrWithPath, hp, if_neg hl, getContainers_snoc hns, h1, h3, reset_ok (hreset hns), hlast,
      setattr_ref ho, hdrop, hrev]
    rw [writeBack_spec hb r hway hw (assign h b l v) (Or.inr rfl)]

/-- Reading after writing gives the value written. -/
theorem C43_get_set {h : Heap V} {s : HVal V} {p : PathArg} {ns : List String} {l : String} {r : List (Nat × String)}
    {b : Nat} (v : HVal V) (hp : p.toNames = ns ++ [l]) (hw : Walk h s ns r (.ref b)) (hb : b < h.length)
    (hreset : ns ≠ [] → HasReset h b) (hway : WayResets h s r) (hfree : (b, l) ∉ r) :
    ∃ h', setAttrWithPath h s p v = (h', .ok s) ∧ getAttrWithPath h' s p = .ok v := by
  refine ⟨assign h b l v, by rw [C43_set v hp hw hb hreset hway, if_neg hfree], ?_⟩
  apply get_of_walk (by rw [hp]; simp) (r := r ++ [(b, l)])
  rw [hp, walk_snoc]
  exact ⟨b, r, walk_assign hw v hb hfree, by rw [attrAt_assign h b b l l v hb, if_pos rfl], rfl⟩

/-- Writing what is already there changes nothing. -/
theorem C43_set_get {h : Heap V} {s : HVal V} {p : PathArg} {ns : List String} {l : String} {r : List (Nat × String)}
    {b : Nat} {v : HVal V} (hp : p.toNames = ns ++ [l]) (hw : Walk h s ns r (.ref b)) (hb : b < h.length)
    (hreset : ns ≠ [] → HasReset h b) (hway : WayResets h s r) (hget : getAttrWithPath h s p = .ok v) :
    setAttrWithPath h s p v = (h, .ok s) := by
  rw [C43_set v hp hw hb hreset hway]
  split
  · rfl
  · have : attrAt h b l = some v := by
      rcases C43_get h s p (by rw [hp]; simp) with ⟨q, y, hw', hg⟩ | ⟨_, hg⟩
      · rw [hget] at hg; cases hg
        rw [hp, walk_snoc] at hw'
        obtain ⟨b', r', hw'', hat, _⟩ := hw'
        have := (Walk.unique' hw hw'').1
        cases this
        exact hat
      · rw [hget] at hg; cases hg
    rw [assign_same this]

/-- The second of two writes to a path wins. -/
theorem C43_set_set {h : Heap V} {s : HVal V} {p : PathArg} {ns : List String} {l : String} {r : List (Nat × String)}
    {b : Nat} (v w : HVal V) (hp : p.toNames = ns ++ [l]) (hw : Walk h s ns r (.ref b)) (hb : b < h.length)
    (hreset : ns ≠ [] → HasReset h b) (hway : WayResets h s r) (hfree : (b, l) ∉ r) :
    ∃ h', setAttrWithPath h s p v = (h', .ok s) ∧ setAttrWithPath h' s p w = setAttrWithPath h s p w := by
  refine ⟨assign h b l v, by rw [C43_set v hp hw hb hreset hway, if_neg hfree], ?_⟩
  rw [C43_set w hp hw hb hreset hway,
    C43_set w hp (walk_assign hw v hb hfree) (by rwa [assign_length]) (fun hn => (hasReset_assign h b b l v).2 (hreset hn))
      (fun q hq hne => (hasReset_assign h b q.1 l v).2 (hway q hq hne)), if_neg hfree, if_neg hfree, assign_assign]

/-- No other attribute of any object changes. -/
theorem C43_frame {h h' : Heap V} {s y : HVal V} {p : PathArg} {ns : List String} {l : String} {r : List (Nat × String)}
    {b : Nat} {v : HVal V} (hp : p.toNames = ns ++ [l]) (hw : Walk h s ns r (.ref b)) (hb : b < h.length)
    (hreset : ns ≠ [] → HasReset h b) (hway : WayResets h s r) (hset : setAttrWithPath h s p v = (h', .ok y)) :
    y = s ∧ (∀ a n, (a, n) ≠ (b, l) → attrAt h' a n = attrAt h a n) ∧
    (∀ x names q z, Walk h x names q z → (b, l) ∉ q → Walk h' x names q z) ∧ ∀ a, HasReset h' a ↔ HasReset h a := by
  rw [C43_set v hp hw hb hreset hway] at hset
  simp only [Prod.mk.injEq, Except.ok.injEq] at hset
  obtain ⟨rfl, rfl⟩ := hset
  split
  · exact ⟨rfl, fun _ _ _ => rfl, fun _ _ _ _ hw _ => hw, fun _ => Iff.rfl⟩
  · refine ⟨rfl, fun a n hne => ?_, fun x names q z hq hn => walk_assign hq v hb hn, fun a => hasReset_assign h b a l v⟩
    rw [attrAt_assign h b a l n v hb, if_neg hne]

/-- A path that leads nowhere raises `AttributeError` and changes nothing. -/
theorem C43_missing {h : Heap V} {s : HVal V} {p : PathArg} {ns : List String} {l : String} (v : HVal V)
    (hp : p.toNames = ns ++ [l]) (hno : ∀ r b, b < h.length → ¬ Walk h s ns r (.ref b)) :
    setAttrWithPath h s p v = (h, .error .attributeError) := by
  have hset : ∀ x : HVal V, (∀ b, x = .ref b → ¬ b < h.length) → setattr h x l v = .error .attributeError := by
    intro x hx
    cases x with
    | prim _ => rfl
    | ref b =>
      have := hx b rfl
      simp [setattr, List.getElem?_eq_none (by simpa using this)]
  by_cases hns : ns = []
  · subst hns
    have := hset s (fun b e hb => hno [] b hb (by rw [e]; exact .nil _))
    simp only [setAttrWithPath, hp, List.nil_append, List.length_singleton, if_true, List.headD_cons, this]
  · have hl : ¬ (ns ++ [l]).length = 1 := by simpa using hns
    simp only [setAttrWithPath, hp, if_neg hl, getContainers_snoc hns]
    by_cases hwalk : ∃ r y, Walk h s ns r y
    · obtain ⟨r, y, hw⟩ := hwalk
      obtain ⟨cs, h1, h2, h3, h4⟩ := loop_of_walk hw
      have : resetOrphaned h y = .error .attributeError := by
        apply reset_err
        rintro a rfl ⟨o, ho, _⟩
        refine hno r a ?_ hw
        by_contra hc
        rw [List.getElem?_eq_none (by simpa using hc)] at ho; cases ho
      simp only [h1, h3, this]
    · rw [loop_no_walk (fun r y hw => hwalk ⟨r, y, hw⟩)]

/-- Disagreement: an object without `reset_orphaned`, such as a Python `PhysicalProperties`, cannot be written to by path
unless it is the outermost one: `AttributeError`, nothing changes. -/
theorem C43_no_reset {h : Heap V} {s : HVal V} {p : PathArg} {ns : List String} {l : String} {r : List (Nat × String)}
    {b : Nat} (v : HVal V) (hp : p.toNames = ns ++ [l]) (hw : Walk h s ns r (.ref b)) (hns : ns ≠ [])
    (hno : ¬ HasReset h b) : setAttrWithPath h s p v = (h, .error .attributeError) := by
  have hl : ¬ (ns ++ [l]).length = 1 := by simpa using hns
  obtain ⟨cs, h1, h2, h3, h4⟩ := loop_of_walk hw
  have : resetOrphaned h (.ref b) = .error .attributeError := by
    apply reset_err; intro a e; cases e; exact hno
  simp only [setAttrWithPath, hp, if_neg hl, getContainers_snoc hns, h1, h3, this]

/-! ### Several paths -/

/-- The path `p` leads, from `s` in `h`, to attribute `l` of object `b`, reading `r` on the way, and may be written. -/
structure _root_.Fastsim.Spec.Writable (h : Heap V) (s : HVal V) (p : String) (b : Nat) (l : String)
    (r : List (Nat × String)) : Prop where
  walk : ∃ ns, (PathArg.str p).toNames = ns ++ [l] ∧ Walk h s ns r (.ref b) ∧ (ns ≠ [] → HasReset h b)
  there : b < h.length
  way : WayResets h s r

theorem Writable.assign' {h : Heap V} {s : HVal V} {p : String} {b : Nat} {l : String} {r : List (Nat × String)}
    (hw : Writable h s p b l r) {b' : Nat} {l' : String} (v : HVal V) (hb : b' < h.length) (hn : (b', l') ∉ r) :
    Writable (assign h b' l' v) s p b l r := by
  obtain ⟨⟨ns, h1, h2, h3⟩, h4, h5⟩ := hw
  exact ⟨⟨ns, h1, walk_assign h2 v hb hn, fun hne => (hasReset_assign h b' b l' v).2 (h3 hne)⟩, by rwa [assign_length],
    fun q hq hne => (hasReset_assign h b' q.1 l' v).2 (h5 q hq hne)⟩

/-- One entry of a dictionary of paths, with what its path leads to. -/
structure _root_.Fastsim.Spec.Entry (V : Type*) where
  path : String
  value : HVal V
  obj : Nat
  attr : String
  way : List (Nat × String)

/-- `set_attrs_with_path` with paths that lead to different attributes, none of which is passed on the way of another:
each path then reads the value given for it, and nothing else changes. -/
theorem C43_many (s : HVal V) : ∀ (es : List (Entry V)) (h : Heap V),
    (∀ e ∈ es, Writable h s e.path e.obj e.attr e.way) →
    (∀ e ∈ es, ∀ e' ∈ es, (e.obj, e.attr) ∉ e'.way) →
    (es.map fun e => (e.obj, e.attr)).Nodup →
    ∃ h', setAttrsWithPath h s (es.map fun e => (e.path, e.value)) = (h', .ok s) ∧
      (∀ e ∈ es, getAttrWithPath h' s (.str e.path) = .ok e.value) ∧
      ∀ a n, (∀ e ∈ es, (a, n) ≠ (e.obj, e.attr)) → attrAt h' a n = attrAt h a n := by
  -- a stronger form: the written attributes hold their values and every other walk stays
  have key : ∀ (es : List (Entry V)) (h : Heap V),
      (∀ e ∈ es, Writable h s e.path e.obj e.attr e.way) →
      (∀ e ∈ es, ∀ e' ∈ es, (e.obj, e.attr) ∉ e'.way) →
      (es.map fun e => (e.obj, e.attr)).Nodup →
      ∃ h', setAttrsWithPath h s (es.map fun e => (e.path, e.value)) = (h', .ok s) ∧
        (∀ e ∈ es, attrAt h' e.obj e.attr = some e.value) ∧
        (∀ a n, (∀ e ∈ es, (a, n) ≠ (e.obj, e.attr)) → attrAt h' a n = attrAt h a n) ∧
        ∀ x names q z, (∀ e ∈ es, (e.obj, e.attr) ∉ q) → Walk h x names q z → Walk h' x names q z := by
    intro es
    induction es with
    | nil => intro h _ _ _; exact ⟨h, rfl, by simp, fun _ _ _ => rfl, fun _ _ _ _ _ hw => hw⟩
    | cons e es ih =>
      intro h hwr hfree hnd
      have he := hwr e (by simp)
      obtain ⟨⟨ns, hp, hw, hreset⟩, hb, hway⟩ := he
      have hself : (e.obj, e.attr) ∉ e.way := hfree e (by simp) e (by simp)
      have hset := C43_set (p := .str e.path) e.value hp hw hb hreset hway
      rw [if_neg hself] at hset
      rw [List.map_cons, List.nodup_cons] at hnd
      obtain ⟨h', h1, h2, h3, h4⟩ := ih (assign h e.obj e.attr e.value)
        (fun e' he' => Writable.assign' (hwr e' (by simp [he'])) e.value hb (hfree e (by simp) e' (by simp [he'])))
        (fun a ha b hb' => hfree a (by simp [ha]) b (by simp [hb'])) hnd.2
      have hne : ∀ e' ∈ es, (e.obj, e.attr) ≠ (e'.obj, e'.attr) := by
        intro e' he' heq
        exact hnd.1 (List.mem_map.2 ⟨e', he', heq.symm⟩)
      refine ⟨h', ?_, ?_, ?_, ?_⟩
      · rw [List.map_cons, setAttrsWithPath, hset]; exact h1
      · intro e' he'
        rcases List.mem_cons.1 he' with rfl | he'
        · rw [h3 _ _ hne, attrAt_assign h _ _ _ _ _ hb, if_pos rfl]
        · exact h2 e' he'
      · intro a n hn
        rw [h3 a n (fun e' he' => hn e' (by simp [he'])), attrAt_assign h _ _ _ _ _ hb, if_neg (hn e (by simp))]
      · intro x names q z hq hwq
        exact h4 x names q z (fun e' he' => hq e' (by simp [he']))
          (walk_assign hwq e.value hb (hq e (by simp)))
  intro es h hwr hfree hnd
  obtain ⟨h', h1, h2, h3, h4⟩ := key es h hwr hfree hnd
  refine ⟨h', h1, fun e he => ?_, h3⟩
  obtain ⟨⟨ns, hp, hw, _⟩, _, _⟩ := hwr e he
  apply get_of_walk (by rw [hp]; simp) (r := e.way ++ [(e.obj, e.attr)])
  rw [hp, walk_snoc]
  exact ⟨e.obj, e.way, h4 _ _ _ _ (fun e' he' => hfree e' he' e he) hw, h2 e he, rfl⟩

/-- A dictionary is applied in order: first one part, then, if that succeeds, the rest. -/
theorem C43_in_order (h : Heap V) (s : HVal V) (d d' : PyDict (HVal V)) :
    setAttrsWithPath h s (d ++ d') =
      match setAttrsWithPath h s d with
      | (h', .error e) => (h', .error e)
      | (h', .ok s') => setAttrsWithPath h' s' d' := by
  induction d generalizing h s with
  | nil => rfl
  | cons q d ih =>
    obtain ⟨p, v⟩ := q
    rw [List.cons_append, setAttrsWithPath, setAttrsWithPath]
    split
    · rename_i h' e hx; simp [hx]
    · rename_i h' s' hx; simp [hx, ih]

/-! ### Concrete objects -/

/-- A simulation at address 0 with a vehicle (1), physical properties (2) and simulation parameters (3). -/
def _root_.Fastsim.Spec.demoHeap : Heap Nat :=
  [⟨[("veh", .ref 1), ("props", .ref 2), ("sim_params", .ref 3)], false⟩, ⟨[("veh_kg", .prim 1500), ("mirror", .ref 1)], true⟩,
    ⟨[("a_grav_mps2", .prim 981)], false⟩, ⟨[("verbose", .prim 0)], true⟩]

/-- The conditions of `C43_set` and its consequences are met by `veh.veh_kg`. -/
theorem demo_path : (PathArg.names ["veh", "veh_kg"]).toNames = ["veh"] ++ ["veh_kg"] ∧
    Walk demoHeap (.ref 0) ["veh"] [(0, "veh")] (.ref 1) ∧ 1 < demoHeap.length ∧ HasReset demoHeap 1 ∧
    WayResets demoHeap (.ref 0) [(0, "veh")] ∧ (1, "veh_kg") ∉ [(0, "veh")] := by
  refine ⟨rfl, .cons (o := demoHeap[0]) rfl (by decide +kernel) (.nil _), by decide, ⟨_, rfl, rfl⟩, ?_, by decide⟩
  intro p hp hne
  simp only [List.mem_singleton] at hp
  subst hp; exact absurd rfl hne

/-- Writing then reading by dotted path. -/
theorem demo_set : (let r := setAttrWithPath demoHeap (.ref 0) (.str "veh.veh_kg") (.prim 1600)
    (r.2, getAttrWithPath r.1 (.ref 0) (.str "veh.veh_kg"), getAttrWithPath r.1 (.ref 0) (.str "sim_params.verbose"))) =
    (.ok (.ref 0), .ok (.prim 1600), .ok (.prim 0)) := by decide +kernel

/-- The conditions of `C43_many` are met by two paths into different objects. -/
theorem demo_many :
    (∀ e ∈ [(⟨"veh.veh_kg", .prim 1600, 1, "veh_kg", [(0, "veh")]⟩ : Entry Nat),
        ⟨"sim_params.verbose", .prim 1, 3, "verbose", [(0, "sim_params")]⟩],
      Writable demoHeap (.ref 0) e.path e.obj e.attr e.way) := by
  intro e he
  simp only [List.mem_cons, List.not_mem_nil, or_false] at he
  rcases he with rfl | rfl
  · exact ⟨⟨["veh"], by decide +kernel, .cons (o := demoHeap[0]) rfl (by decide +kernel) (.nil _), fun _ => ⟨_, rfl, rfl⟩⟩,
      by decide, fun p hp hne => absurd (by simp at hp; rw [hp]) hne⟩
  · exact ⟨⟨["sim_params"], by decide +kernel, .cons (o := demoHeap[0]) rfl (by decide +kernel) (.nil _),
      fun _ => ⟨_, rfl, rfl⟩⟩, by decide, fun p hp hne => absurd (by simp at hp; rw [hp]) hne⟩

/-- Physical properties cannot be written by path. -/
theorem demo_props : setAttrWithPath demoHeap (.ref 0) (.str "props.a_grav_mps2") (.prim 10) =
    (demoHeap, .error .attributeError) := by decide +kernel

/-- Disagreement: when an object between the outermost and the innermost has no `reset_orphaned`, the value is stored
although `AttributeError` is raised. -/
theorem C43_stored_despite_error :
    (let h : Heap Nat := [⟨[("sd", .ref 1)], false⟩, ⟨[("veh", .ref 2)], false⟩, ⟨[("veh_kg", .prim 1500)], true⟩]
     let r := setAttrWithPath h (.ref 0) (.str "sd.veh.veh_kg") (.prim 1600)
     (r.2, getAttrWithPath r.1 (.ref 0) (.str "sd.veh.veh_kg"))) = (.error .attributeError, .ok (.prim 1600)) := by
  decide +kernel

/-- Disagreement: on an object that refers to itself, writing over the attribute that was passed on the way is
undone by the write-back. -/
theorem C43_self_reference :
    setAttrWithPath demoHeap (.ref 0) (.str "veh.mirror.mirror") (.prim 7) = (demoHeap, .ok (.ref 0)) := by
  decide +kernel

end Fastsim.Props
