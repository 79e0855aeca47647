import Verif.Model.RsCache
import Verif.Props.RustFile

/-!
# C146: clearing the cache of the Rust core
-/

set_option linter.unusedSectionVars false

namespace Fastsim.Spec
open Fastsim

/-- A name of a file or folder. -/
def IsName (n : Txt) : Prop := n ≠ [] ∧ '/' ∉ n ∧ n ≠ ['.'] ∧ n ≠ ['.', '.']

/-- The text of the path of given names from the root. -/
def rooted : List Txt → Txt
  | [] => []
  | n :: ns => '/' :: n ++ rooted ns

/-- The text of the path of given names from the working folder. -/
def below : List Txt → Txt
  | [] => []
  | n :: ns => n ++ rooted ns

/-- In a file system, what contains a folder is a folder. -/
def Tree (dirs : List Txt → Bool) : Prop := ∀ a l, a <+: l → dirs l = true → dirs a = true

end Fastsim.Spec

namespace Fastsim.Props
open Fastsim Spec

variable {B : Type*}

theorem pieces_rooted : ∀ {l : List Txt}, (∀ n ∈ l, IsName n) → pieces (rooted l) = [] :: l
  | [], _ => by simp [rooted, pieces]
  | n :: ns, h => by
    have ih := pieces_rooted fun m hm => h m (List.mem_cons_of_mem _ hm)
    have hn := h n List.mem_cons_self
    rw [rooted, List.cons_append, pieces_slash]
    cases ns with
    | nil => rw [rooted, List.append_nil, pieces_plain hn.2.1]
    | cons m ms =>
      have e : rooted (m :: ms) = '/' :: (m ++ rooted ms) := rfl
      rw [e] at ih ⊢
      rw [pieces_append, pieces_plain hn.2.1]
      rw [pieces_slash] at ih
      rw [(List.cons.inj ih).2]
      rfl

theorem names_kept {l : List Txt} (h : ∀ n ∈ l, IsName n) : (l.filter fun c => decide (c ≠ [] ∧ c ≠ ['.'])) = l :=
  List.filter_eq_self.2 fun n hn => decide_eq_true ⟨(h n hn).1, (h n hn).2.2.1⟩

theorem comps_rooted {l : List Txt} (h : ∀ n ∈ l, IsName n) : comps (rooted l) = l := by
  rw [comps, pieces_rooted h, List.filter_cons_of_neg (by simp), names_kept h]

theorem pieces_below {l : List Txt} (h : ∀ n ∈ l, IsName n) (h0 : l ≠ []) : pieces (below l) = l := by
  cases l with
  | nil => exact absurd rfl h0
  | cons n ns =>
    have := pieces_rooted h
    rw [rooted, List.cons_append, pieces_slash] at this
    exact (List.cons.inj this).2

theorem comps_below {l : List Txt} (h : ∀ n ∈ l, IsName n) : comps (below l) = l := by
  rcases eq_or_ne l [] with rfl | h0
  · simp [below, comps, pieces]
  · rw [comps, pieces_below h h0, names_kept h]

/-- Components of a joined path. -/
theorem comps_join (a b : Txt) (h : b.head? ≠ some '/') : comps (joinPath a b) = comps a ++ comps b := by
  unfold joinPath
  rw [if_neg h]
  split
  · rename_i c
    rcases c with rfl | c
    · simp [comps, pieces]
    · obtain ⟨s, rfl⟩ := List.getLast?_eq_some_iff.1 c
      rw [List.append_assoc, List.singleton_append]
      simp [comps, pieces_append, pieces]
  · simp [comps, pieces_append]

theorem below_head {l : List Txt} (h : ∀ n ∈ l, IsName n) : (below l).head? ≠ some '/' := by
  cases l with
  | nil => simp [below]
  | cons n ns =>
    have hn := h n List.mem_cons_self
    cases n with
    | nil => exact absurd rfl hn.1
    | cons c cs =>
      intro e
      simp only [below, List.cons_append, List.head?_cons, Option.some.injEq] at e
      exact hn.2.1 (e ▸ List.mem_cons_self)

/-- Following names leads to the place they name, if it is a folder. -/
theorem follow_names {dirs : List Txt → Bool} (ht : Tree dirs) : ∀ (l cur : List Txt), (∀ n ∈ l, IsName n) →
    follow dirs cur l = if dirs (cur ++ l) = true then some (cur ++ l) else none
  | [], cur, _ => by simp [follow]
  | n :: ns, cur, h => by
    rw [follow, if_neg (h n List.mem_cons_self).2.2.2, follow_names ht ns _ fun m hm => h m (List.mem_cons_of_mem _ hm)]
    rw [List.append_assoc, List.singleton_append]
    by_cases c : dirs (cur ++ n :: ns) = true
    · rw [if_pos (ht cur _ (List.prefix_append _ _) c)]
    · rw [if_neg c, ite_self]

/-- What names end with. -/
theorem lastPiece_join {r s : List Txt} (hr : ∀ n ∈ r, IsName n) (hs : ∀ n ∈ s, IsName n) (h0 : r ≠ []) :
    ∃ n, IsName n ∧ lastPiece (joinPath (rooted r) (below s)) = some n := by
  have key : ((pieces (joinPath (rooted r) (below s))).filter fun c => decide (c ≠ [])) = r ++ s := by
    have fr : (r.filter fun c => decide (c ≠ [])) = r := List.filter_eq_self.2 fun n hn => decide_eq_true (hr n hn).1
    have fs : (s.filter fun c => decide (c ≠ [])) = s := List.filter_eq_self.2 fun n hn => decide_eq_true (hs n hn).1
    have nr : rooted r ≠ [] := by
      cases r with
      | nil => exact absurd rfl h0
      | cons n ns => simp [rooted]
    have lr : (rooted r).getLast? ≠ some '/' := by
      intro c
      obtain ⟨t, e⟩ := List.getLast?_eq_some_iff.1 c
      have p := pieces_rooted hr
      rw [e, pieces_append] at p
      have : ([] : Txt) ∈ r := by
        have q := congrArg List.getLast? p
        simp only [pieces, List.getLast?_append, List.getLast?_singleton, Option.some_or] at q
        rw [List.getLast?_cons] at q
        cases hl : r.getLast? with
        | none => exact absurd (List.getLast?_eq_none_iff.1 hl) h0
        | some x =>
          rw [hl] at q
          simp only [Option.getD_some, Option.some.injEq] at q
          rw [q]
          exact List.mem_of_getLast? hl
      exact (hr [] this).1 rfl
    unfold joinPath
    rw [if_neg (below_head hs), if_neg (by rintro (c | c); exacts [nr c, lr c]), pieces_append, pieces_rooted hr, List.filter_append,
      List.filter_cons_of_neg (by simp), fr]
    congr 1
    rcases eq_or_ne s [] with rfl | c
    · simp [below, pieces]
    · rw [pieces_below hs c, fs]
  unfold lastPiece
  rw [key]
  cases e : (r ++ s).getLast? with
  | none => exact absurd (List.append_eq_nil_iff.1 (List.getLast?_eq_none_iff.1 e)).1 h0
  | some n =>
    refine ⟨n, ?_, rfl⟩
    rcases List.mem_append.1 (List.mem_of_getLast? e) with c | c
    exacts [hr n c, hs n c]

/-- **C146 (clearing).** With a folder of the data folder that is named from there (or none, for all of it): if there is such a
folder, the call succeeds, and exactly the files and folders in it and the folder itself are gone. If not, the call fails and
nothing is changed. -/
theorem C146_clear (odd : Except RsErr Unit) (t : RsTree B) (ht : Tree t.dirs) {r s : List Txt} (hr : ∀ n ∈ r, IsName n) (h0 : r ≠ []) (hs : ∀ n ∈ s, IsName n) :
    (t.dirs (r ++ s) = true → (clearCache odd t (rooted r) (below s)).2 = .ok () ∧
      (∀ x, (clearCache odd t (rooted r) (below s)).1.files x = if r ++ s <+: x then none else t.files x) ∧
      ∀ x, (clearCache odd t (rooted r) (below s)).1.dirs x = if r ++ s <+: x then false else t.dirs x) ∧
    (t.dirs (r ++ s) = false → clearCache odd t (rooted r) (below s) = (t, .error .err)) := by
  obtain ⟨n, hn, e⟩ := lastPiece_join hr hs h0
  have f : follow t.dirs [] (comps (joinPath (rooted r) (below s))) = if t.dirs (r ++ s) = true then some (r ++ s) else none := by
    rw [comps_join _ _ (below_head hs), comps_rooted hr, comps_below hs]
    exact follow_names ht _ _ fun m hm => (List.mem_append.1 hm).elim (hr m) (hs m)
  constructor
  · intro d
    rw [if_pos d] at f
    have c : ¬(some n = none ∨ some n = some ['.'] ∨ some n = some ['.', '.']) := by
      rintro (c | c | c)
      · cases c
      · exact hn.2.2.1 (Option.some.inj c)
      · exact hn.2.2.2 (Option.some.inj c)
    simp only [clearCache, removeDirAll, f, e, if_neg c]
    exact ⟨trivial, fun _ => trivial, fun _ => trivial⟩
  · intro d
    rw [if_neg (by rw [d]; decide)] at f
    simp only [clearCache, removeDirAll, f]

/-- **C146 (nothing else).** Clearing a folder that is named from the data folder never touches a file outside the data folder,
whether it succeeds or not. -/
theorem C146_inside (odd : Except RsErr Unit) (t : RsTree B) (ht : Tree t.dirs) {r s : List Txt} (hr : ∀ n ∈ r, IsName n) (h0 : r ≠ []) (hs : ∀ n ∈ s, IsName n)
    {x : List Txt} (hx : ¬r <+: x) : (clearCache odd t (rooted r) (below s)).1.files x = t.files x ∧
      (clearCache odd t (rooted r) (below s)).1.dirs x = t.dirs x := by
  have nx : ¬r ++ s <+: x := fun c => hx ((List.prefix_append r s).trans c)
  obtain ⟨a, b⟩ := C146_clear odd t ht hr h0 hs
  cases d : t.dirs (r ++ s) with
  | true => rw [(a d).2.1, (a d).2.2, if_neg nx, if_neg nx]; exact ⟨rfl, rfl⟩
  | false => rw [b d]; exact ⟨rfl, rfl⟩

/-- **C146 (twice).** A folder that was cleared is not there: clearing it again fails and changes nothing. -/
theorem C146_twice (odd : Except RsErr Unit) (t : RsTree B) (ht : Tree t.dirs) {r s : List Txt} (hr : ∀ n ∈ r, IsName n) (h0 : r ≠ []) (hs : ∀ n ∈ s, IsName n)
    (h : t.dirs (r ++ s) = true) :
    clearCache odd (clearCache odd t (rooted r) (below s)).1 (rooted r) (below s) = ((clearCache odd t (rooted r) (below s)).1, .error .err) := by
  have a := ((C146_clear odd t ht hr h0 hs).1 h).2.2
  refine (C146_clear odd _ ?_ hr h0 hs).2 (by rw [a, if_pos (List.prefix_refl _)])
  intro u l hu hl
  rw [a] at hl ⊢
  split at hl
  · cases hl
  · rename_i c
    rw [if_neg fun k => c (k.trans hu)]
    exact ht u l hu hl

/-- **C146 (what was cached is gone).** After the folder of a kind of object was cleared, no object of this kind is read from the
cache, whatever its path of names. -/
theorem C146_gone {T : Type*} (k : Kind T B) (odd : Except RsErr Unit) (t : RsTree B) (ht : Tree t.dirs) {r c p : List Txt} (hr : ∀ n ∈ r, IsName n) (h0 : r ≠ [])
    (hc : ∀ n ∈ c, IsName n) (hp : ∀ n ∈ p, IsName n) (hk : k.cacheDir = below c) (h : t.dirs (r ++ c) = true) (skip : Bool) :
    ∃ e, fromCache k comps (clearCache odd t (rooted r) (below c)).1.files (rooted r) (below p) skip = .error e := by
  have hj : (joinPath (below c) (below p)).head? ≠ some '/' := by
    unfold joinPath
    rw [if_neg (below_head hp)]
    have h1 := below_head hc
    have h2 := below_head hp
    split
    · rename_i q
      cases e : below c with
      | nil => simpa using h2
      | cons a b => rw [e] at h1; simpa using h1
    · rename_i q
      cases e : below c with
      | nil => exact absurd (Or.inl e) q
      | cons a b => rw [e] at h1; simpa using h1
  have g : (clearCache odd t (rooted r) (below c)).1.files (comps (cacheSource k.cacheDir (rooted r) (below p))) = none := by
    rw [((C146_clear odd t ht hr h0 hc).1 h).2.1, if_pos]
    rw [cacheSource, hk, comps_join _ _ hj, comps_join _ _ (below_head hp), comps_rooted hr, comps_below hc, comps_below hp,
      ← List.append_assoc]
    exact List.prefix_append _ _
  unfold fromCache fromFile
  split
  · exact ⟨_, rfl⟩
  · rw [g]
    exact ⟨_, rfl⟩

/-- **C146 (found: absolute paths).** With an absolute path the data folder does not matter: the folder it names is deleted,
wherever it is. -/
theorem C146_absolute (odd : Except RsErr Unit) (t : RsTree B) (ht : Tree t.dirs) (root : Txt) {l : List Txt} (hl : ∀ n ∈ l, IsName n) (h0 : l ≠ [])
    (h : t.dirs l = true) : (clearCache odd t root (rooted l)).2 = .ok () ∧
      ∀ x, (clearCache odd t root (rooted l)).1.files x = if l <+: x then none else t.files x := by
  have hd : (rooted l).head? = some '/' := by
    cases l with
    | nil => exact absurd rfl h0
    | cons n ns => rfl
  have e : joinPath root (rooted l) = rooted l := by unfold joinPath; rw [if_pos hd]
  have f : follow t.dirs [] (comps (rooted l)) = some l := by
    rw [comps_rooted hl, follow_names ht _ _ hl, List.nil_append, if_pos h]
  have g : ∃ n, IsName n ∧ lastPiece (rooted l) = some n := by
    unfold lastPiece
    rw [pieces_rooted hl, List.filter_cons_of_neg (by simp), List.filter_eq_self.2 fun n hn => decide_eq_true (hl n hn).1]
    cases q : l.getLast? with
    | none => exact absurd (List.getLast?_eq_none_iff.1 q) h0
    | some n => exact ⟨n, hl n (List.mem_of_getLast? q), rfl⟩
  obtain ⟨n, hn, g⟩ := g
  have c : ¬(some n = none ∨ some n = some ['.'] ∨ some n = some ['.', '.']) := by
    rintro (c | c | c)
    · cases c
    · exact hn.2.2.1 (Option.some.inj c)
    · exact hn.2.2.2 (Option.some.inj c)
  simp only [clearCache, removeDirAll, e, f, g, if_neg c]
  exact ⟨trivial, fun _ => trivial⟩

/-- **C146 (found: the folder above).** With `..` everything in the folder that contains the data folder is deleted, with the settings
of other programs, whatever the call reports. -/
theorem C146_above (odd : Except RsErr Unit) (t : RsTree B) (ht : Tree t.dirs) {r : List Txt} {a : Txt} (hr : ∀ n ∈ r, IsName n) (ha : IsName a)
    (h : t.dirs (r ++ [a]) = true) :
    ∀ x, (clearCache odd t (rooted (r ++ [a])) "..".toList).1.files x = if r <+: x then none else t.files x := by
  have hra : ∀ n ∈ r ++ [a], IsName n := fun n hn => (List.mem_append.1 hn).elim (hr n) fun c => (List.mem_singleton.1 c) ▸ ha
  have fw : ∀ (l cur : List Txt), (∀ n ∈ l, IsName n) → t.dirs (cur ++ l) = true →
      follow t.dirs cur (l ++ [['.', '.']]) = some (cur ++ l).dropLast := by
    intro l
    induction l with
    | nil =>
      intro cur _ d
      rw [List.append_nil] at d
      have d' : t.dirs cur.dropLast = true := ht _ _ (List.dropLast_prefix cur) d
      simp [follow, d, d']
    | cons n ns ih =>
      intro cur hn d
      rw [List.cons_append, follow, if_pos (ht cur _ (List.prefix_append _ _) d), if_neg (hn n List.mem_cons_self).2.2.2,
        ih _ (fun m hm => hn m (List.mem_cons_of_mem _ hm)) (by simpa using d)]
      simp
  have f : follow t.dirs [] (comps (joinPath (rooted (r ++ [a])) "..".toList)) = some r := by
    rw [comps_join _ _ (by decide), comps_rooted hra]
    have q : comps "..".toList = [['.', '.']] := by decide
    have := fw (r ++ [a]) [] hra h
    rw [List.nil_append, List.dropLast_concat] at this
    rw [q, this]
  have g : lastPiece (joinPath (rooted (r ++ [a])) "..".toList) = some ['.', '.'] := by
    unfold joinPath lastPiece
    rw [if_neg (by decide)]
    split
    · rename_i c
      rcases c with c | c
      · have := pieces_rooted hra
        rw [c] at this
        simp [pieces] at this
      · obtain ⟨s, q⟩ := List.getLast?_eq_some_iff.1 c
        rw [q, List.append_assoc, List.singleton_append, pieces_append]
        simp [pieces]
    · rw [pieces_append]
      simp [pieces]
  intro x
  simp only [clearCache, removeDirAll, f, g, or_true, if_true]

/-- **C146 (the folder itself).** With `.` the data folder is emptied and stays, whatever the call reports. -/
theorem C146_here (odd : Except RsErr Unit) (t : RsTree B) (ht : Tree t.dirs) {r : List Txt} (hr : ∀ n ∈ r, IsName n) (_h0 : r ≠ [])
    (h : t.dirs r = true) : (clearCache odd t (rooted r) ".".toList).2 = odd ∧
    (∀ x, (clearCache odd t (rooted r) ".".toList).1.files x = if r <+: x then none else t.files x) ∧
    ∀ x, (clearCache odd t (rooted r) ".".toList).1.dirs x = if r <+: x ∧ x ≠ r then false else t.dirs x := by
  have f : follow t.dirs [] (comps (joinPath (rooted r) ".".toList)) = some r := by
    have q : comps ".".toList = [] := by decide
    rw [comps_join _ _ (by decide), comps_rooted hr, q, List.append_nil, follow_names ht _ _ hr, List.nil_append, if_pos h]
  have g : lastPiece (joinPath (rooted r) ".".toList) = some ['.'] := by
    unfold joinPath lastPiece
    rw [if_neg (by decide)]
    split
    · rename_i c
      rcases c with c | c
      · rw [c]
        decide
      · obtain ⟨s, q⟩ := List.getLast?_eq_some_iff.1 c
        rw [q, List.append_assoc, List.singleton_append, pieces_append]
        simp [pieces]
    · rw [pieces_append]
      simp [pieces]
  simp only [clearCache, removeDirAll, f, g, true_or, or_true, if_true]
  exact ⟨trivial, fun _ => trivial, fun _ => trivial⟩

namespace CacheDemo

/-- A file system with the data folder of FASTSim, the settings of another program and a file of the user. -/
def tree : RsTree Nat where
  files := fun x =>
    if x = ["home".toList, "fastsim".toList, "vehicles".toList, "a.yaml".toList] then some [1]
    else if x = ["home".toList, "fastsim".toList, "cycles".toList, "b.yaml".toList] then some [2]
    else if x = ["home".toList, "other".toList, "settings".toList] then some [3]
    else none
  dirs := fun x => decide (x ∈ [[], ["home".toList], ["home".toList, "fastsim".toList], ["home".toList, "other".toList],
    ["home".toList, "fastsim".toList, "vehicles".toList], ["home".toList, "fastsim".toList, "cycles".toList]])

/-- The files of the three kinds that are left. -/
def left (t : RsTree Nat) : List (Option (List Nat)) :=
  [t.files ["home".toList, "fastsim".toList, "vehicles".toList, "a.yaml".toList],
   t.files ["home".toList, "fastsim".toList, "cycles".toList, "b.yaml".toList],
   t.files ["home".toList, "other".toList, "settings".toList]]

/-- **C146 (case).** The settings of the theorems are met, and these are the effects of a folder, of none, of the folder of another
program and of the folder above. -/
theorem C146_demo : Tree tree.dirs ∧ (∀ n ∈ ["home".toList, "fastsim".toList], IsName n) ∧ IsName "vehicles".toList ∧
    rooted ["home".toList, "fastsim".toList] = "/home/fastsim".toList ∧ below ["vehicles".toList] = "vehicles".toList ∧
    left (clearCache (.error .err) tree "/home/fastsim".toList "vehicles".toList).1 = [none, some [2], some [3]] ∧
    left (clearCache (.error .err) tree "/home/fastsim".toList []).1 = [none, none, some [3]] ∧
    left (clearCache (.error .err) tree "/home/fastsim".toList "/home/other".toList).1 = [some [1], some [2], none] ∧
    left (clearCache (.error .err) tree "/home/fastsim".toList "..".toList).1 = [none, none, none] := by
  refine ⟨?_, ?_, ?_, by decide +kernel, by decide +kernel, by decide +kernel, by decide +kernel, by decide +kernel, by decide +kernel⟩
  · intro a l ha hl
    have k : ∀ l ∈ [[], ["home".toList], ["home".toList, "fastsim".toList], ["home".toList, "other".toList],
        ["home".toList, "fastsim".toList, "vehicles".toList], ["home".toList, "fastsim".toList, "cycles".toList]],
        ∀ a ∈ l.inits, tree.dirs a = true := by decide +kernel
    exact k l (of_decide_eq_true hl) a ((List.mem_inits a l).2 ha)
  · unfold IsName; decide +kernel
  · unfold IsName; decide +kernel

end CacheDemo

end Fastsim.Props
