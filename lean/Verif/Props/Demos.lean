import Verif.Model.Demos
import Mathlib.Data.List.Nodup

/-!
# C94: copied demos
-/

namespace Fastsim.Spec

/-- The name of a Python file with the word `w` in it. -/
def PyWith (w : String) (name : Txt) : Prop := ∃ a b, name = a ++ w.toList ++ b ++ ".py".toList

/-- The files that are to be copied: demos that are not tests. -/
def IsDemo (name : Txt) : Prop := PyWith "demo" name ∧ ¬ PyWith "test" name

/-- The first line of a copy. -/
def Warning (version : String) : Txt :=
  ("# %% Copied from FASTSim version 'v" ++ version ++ "'. Guaranteed compatibility with this version only.\n").toList

end Fastsim.Spec

namespace Fastsim.Props
open Spec

theorem globbed_iff (w : String) (name : Txt) : globbed w name = true ↔ PyWith w name := by
  unfold globbed PyWith
  rw [Bool.and_eq_true, decide_eq_true_iff, decide_eq_true_iff]
  constructor
  · rintro ⟨⟨p, hp⟩, a, b, hab⟩
    refine ⟨a, b, ?_⟩
    have h3 : (".py".toList).length = 3 := by decide
    have hl : name.length - 3 = p.length := by rw [← hp, List.length_append, h3]; omega
    rw [hl, ← hp, List.take_left'] at hab
    · rw [hab, hp]
    · rfl
  · rintro ⟨a, b, rfl⟩
    refine ⟨⟨a ++ w.toList ++ b, rfl⟩, a, b, ?_⟩
    have h3 : (".py".toList).length = 3 := by decide
    have hl : (a ++ w.toList ++ b ++ ".py".toList).length - 3 = (a ++ w.toList ++ b).length := by
      rw [List.length_append, h3]; omega
    rw [hl, List.take_left']
    rfl

/-- What is left when all tests are removed. -/
theorem removeAll_spec (tests demos : List (Txt × Txt)) (hn : demos.Nodup) (ht : tests.Nodup) :
    ((∀ t ∈ tests, t ∈ demos) → removeAll tests demos = .ok (demos.filter fun d => d ∉ tests)) ∧
    ((∃ t ∈ tests, t ∉ demos) → removeAll tests demos = .error .valueError) := by
  induction tests generalizing demos with
  | nil => simp [removeAll]
  | cons t tests ih =>
    rw [List.nodup_cons] at ht
    unfold removeAll
    by_cases hm : t ∈ demos
    · rw [if_pos hm]
      obtain ⟨i1, i2⟩ := ih (demos.erase t) (hn.erase t) ht.2
      constructor
      · intro h
        rw [i1 fun u hu => (List.mem_erase_of_ne (fun e : u = t => ht.1 (e ▸ hu))).2 (h u (by simp [hu]))]
        congr 1
        rw [hn.erase_eq_filter, List.filter_filter]
        apply List.filter_congr
        intro d _
        by_cases h1 : d = t <;> by_cases h2 : d ∈ tests <;> simp [h1, h2]
      · rintro ⟨u, hu, hud⟩
        apply i2
        rcases List.mem_cons.1 hu with rfl | hu
        · exact absurd hm hud
        · exact ⟨u, hu, fun h => hud (List.mem_of_mem_erase h)⟩
    · rw [if_neg hm]
      exact ⟨fun h => absurd (h t (by simp)) hm, fun _ => rfl⟩

theorem copied_fold (version : Txt) (l : List (Txt × Txt)) (hn : (l.map Prod.fst).Nodup) (target : Option Dir) :
    (l = [] → l.foldl (copyDemo version) target = target) ∧
    (l ≠ [] → ∃ d, l.foldl (copyDemo version) target = some d ∧
      (∀ f ∈ l, d f.1 = some (demoHeader version ++ f.2)) ∧
      ∀ name, name ∉ l.map Prod.fst → d name = target.bind fun t => t name) := by
  induction l generalizing target with
  | nil => simp
  | cons f l ih =>
    rw [List.map_cons, List.nodup_cons] at hn
    refine ⟨by simp, fun _ => ?_⟩
    rw [List.foldl_cons]
    obtain ⟨i1, i2⟩ := ih hn.2 (copyDemo version target f)
    have hold : ∀ name, name ≠ f.1 → (copyDemo version target f).bind (fun t => t name) =
        target.bind fun t => t name := by
      intro name hne
      unfold copyDemo
      cases target <;> simp [hne]
    have hnew : (copyDemo version target f).bind (fun t => t f.1) = some (demoHeader version ++ f.2) := by
      unfold copyDemo
      simp
    by_cases hl : l = []
    · subst hl
      refine ⟨_, rfl, ?_, ?_⟩
      · intro g hg
        rw [List.mem_singleton] at hg
        subst hg
        simp
      · intro name hname
        have : name ≠ f.1 := by simpa using hname
        have := hold name this
        simpa [copyDemo] using this
    · obtain ⟨d, e, h1, h2⟩ := i2 hl
      refine ⟨d, e, ?_, ?_⟩
      · intro g hg
        rcases List.mem_cons.1 hg with rfl | hg
        · rw [h2 _ hn.1, hnew]
        · exact h1 g hg
      · intro name hname
        rw [List.map_cons, List.mem_cons, not_or] at hname
        rw [h2 _ hname.2, hold _ hname.1]

theorem kept_iff {files : List (Txt × Txt)} (f : Txt × Txt) :
    f ∈ ((files.filter fun f => globbed "demo" f.1).filter
      fun d => d ∉ files.filter fun f => globbed "test" f.1) ↔ f ∈ files ∧ IsDemo f.1 := by
  unfold IsDemo
  rw [← globbed_iff, ← globbed_iff]
  simp only [List.mem_filter, decide_eq_true_eq, not_and, Bool.not_eq_true]
  constructor
  · rintro ⟨⟨h1, h2⟩, h3⟩; exact ⟨h1, h2, h3 h1⟩
  · rintro ⟨h1, h2, h3⟩; exact ⟨⟨h1, h2⟩, fun _ => h3⟩

theorem copyDemos_ok {version : String} {files : List (Txt × Txt)} (hn : (files.map Prod.fst).Nodup)
    (ht : ∀ f ∈ files, PyWith "test" f.1 → PyWith "demo" f.1) (target : Option Dir) :
    copyDemos version.toList false files target = (.ok (), ((files.filter fun f => globbed "demo" f.1).filter
      fun d => d ∉ files.filter fun f => globbed "test" f.1).foldl (copyDemo version.toList) target) := by
  unfold copyDemos
  simp only [Bool.false_eq_true, if_false]
  rw [(removeAll_spec _ _ (hn.of_map _ |>.filter _) (hn.of_map _ |>.filter _)).1]
  intro t hm
  rw [List.mem_filter] at hm ⊢
  exact ⟨hm.1, (globbed_iff _ _).2 (ht t hm.1 ((globbed_iff _ _).1 hm.2))⟩

theorem demoHeader_eq (version : String) : demoHeader version.toList = Warning version := by
  unfold demoHeader Warning
  simp

/-- Every demo that is not a test is in the target directory afterwards, with the warning in front of its contents, and
nothing else in that directory has changed. -/
theorem C94_copies {version : String} {files : List (Txt × Txt)} (hn : (files.map Prod.fst).Nodup)
    (ht : ∀ f ∈ files, PyWith "test" f.1 → PyWith "demo" f.1) (target : Option Dir)
    (hd : ∃ f ∈ files, IsDemo f.1) :
    ∃ d, copyDemos version.toList false files target = (.ok (), some d) ∧
      (∀ f ∈ files, IsDemo f.1 → d f.1 = some (Warning version ++ f.2)) ∧
      ∀ name, (∀ f ∈ files, IsDemo f.1 → f.1 ≠ name) → d name = target.bind fun t => t name := by
  rw [copyDemos_ok hn ht]
  set l := (files.filter fun f => globbed "demo" f.1).filter
      fun d => d ∉ files.filter fun f => globbed "test" f.1 with hl
  have hln : (l.map Prod.fst).Nodup :=
    hn.sublist ((List.filter_sublist.trans List.filter_sublist).map Prod.fst)
  have hne : l ≠ [] := by
    obtain ⟨f, hf, hi⟩ := hd
    exact List.ne_nil_of_mem ((kept_iff f).2 ⟨hf, hi⟩)
  obtain ⟨d, e, h1, h2⟩ := (copied_fold version.toList l hln target).2 hne
  refine ⟨d, by rw [e], ?_, ?_⟩
  · intro f hf hi
    rw [h1 f ((kept_iff f).2 ⟨hf, hi⟩), demoHeader_eq]
  · intro name hname
    apply h2
    intro hm
    obtain ⟨f, hf, rfl⟩ := List.mem_map.1 hm
    obtain ⟨h3, h4⟩ := (kept_iff f).1 hf
    exact hname f h3 h4 rfl

/-- If nothing is to be copied, nothing happens: not even the directory is made. -/
theorem C94_no_demos {version : String} {files : List (Txt × Txt)} (hn : (files.map Prod.fst).Nodup)
    (ht : ∀ f ∈ files, PyWith "test" f.1 → PyWith "demo" f.1) (target : Option Dir)
    (hd : ¬ ∃ f ∈ files, IsDemo f.1) : copyDemos version.toList false files target = (.ok (), target) := by
  rw [copyDemos_ok hn ht]
  have : ((files.filter fun f => globbed "demo" f.1).filter
      fun d => d ∉ files.filter fun f => globbed "test" f.1) = [] := by
    rw [List.eq_nil_iff_forall_not_mem]
    intro f hf
    obtain ⟨h1, h2⟩ := (kept_iff f).1 hf
    exact hd ⟨f, h1, h2⟩
  rw [this]
  rfl

/-- Copying a second time changes nothing: the warning is not doubled. -/
theorem C94_twice {version : String} {files : List (Txt × Txt)} (hn : (files.map Prod.fst).Nodup)
    (ht : ∀ f ∈ files, PyWith "test" f.1 → PyWith "demo" f.1) (target : Option Dir) :
    copyDemos version.toList false files (copyDemos version.toList false files target).2 =
      copyDemos version.toList false files target := by
  by_cases hd : ∃ f ∈ files, IsDemo f.1
  · obtain ⟨d, e, h1, h2⟩ := C94_copies (version := version) hn ht target hd
    obtain ⟨d', e', h1', h2'⟩ := C94_copies (version := version) hn ht (some d) hd
    rw [e, e']
    congr 2
    funext name
    by_cases hname : ∃ f ∈ files, IsDemo f.1 ∧ f.1 = name
    · obtain ⟨f, hf, hi, rfl⟩ := hname
      rw [h1' f hf hi, h1 f hf hi]
    · have hall : ∀ f ∈ files, IsDemo f.1 → f.1 ≠ name := fun f hf hi e => hname ⟨f, hf, hi, e⟩
      rw [h2' name hall]
      rfl
  · rw [C94_no_demos hn ht target hd, C94_no_demos hn ht target hd]

/-- Copying into the package itself is refused, and so is a package with a test that is no demo; nothing is changed
then. -/
theorem C94_refused {version : String} {files : List (Txt × Txt)} (hn : (files.map Prod.fst).Nodup)
    (target : Option Dir) :
    copyDemos version.toList true files target = (.error .assertionError, target) ∧
    ((∃ f ∈ files, PyWith "test" f.1 ∧ ¬ PyWith "demo" f.1) →
      copyDemos version.toList false files target = (.error .valueError, target)) := by
  refine ⟨rfl, ?_⟩
  rintro ⟨f, hf, h1, h2⟩
  unfold copyDemos
  simp only [Bool.false_eq_true, if_false]
  rw [(removeAll_spec _ _ (hn.of_map _ |>.filter _) (hn.of_map _ |>.filter _)).2]
  refine ⟨f, ?_, ?_⟩
  · rw [List.mem_filter]; exact ⟨hf, (globbed_iff _ _).2 h1⟩
  · rw [List.mem_filter]; exact fun h => h2 ((globbed_iff _ _).1 h.2)

/-- Some files of the package; the conditions are met, and a copy overwrites a changed one of the same name. -/
theorem C94_demo :
    let files := [("cav_demo.py".toList, "import fastsim\n".toList), ("cav_sweep.py".toList, [] ),
      ("test_demos.py".toList, []), ("__init__.py".toList, [])]
    let target : Dir := fun n => if n = "cav_demo.py".toList then some "changed".toList
      else if n = "notes.txt".toList then some "mine".toList else none
    (files.map Prod.fst).Nodup ∧ (∀ f ∈ files, globbed "test" f.1 = true → globbed "demo" f.1 = true) ∧
    (copyDemos "2.1.0".toList false files (some target)).2.map (fun d => ["cav_demo.py", "notes.txt", "test_demos.py"].map
      fun n => (d n.toList).map String.ofList) =
      some [some "# %% Copied from FASTSim version 'v2.1.0'. Guaranteed compatibility with this version only.\nimport fastsim\n",
        some "mine", none] := by
  decide +kernel

end Fastsim.Props
