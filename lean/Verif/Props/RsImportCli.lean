import Verif.Model.RsImportCli
import Verif.Props.RsTablesMore
import Verif.Props.RustImportRun

/-!
# C132: the import program

What `vehicle-import-cli` refuses, which files it writes, what it leaves alone, and that running it again changes nothing.
-/

set_option linter.unusedSectionVars false

namespace Fastsim.Spec
open Fastsim

/-- The name of the file for the vehicle with number `k` among all imported ones, the output file name of its record being `out`:
`out` for the first, else what follows its last slash with `-k` before the last dot. -/
def NameFor (k : Nat) (out name : Txt) : Prop :=
  (k = 0 ∧ name = out) ∨
    (0 < k ∧ ∃ dir stem ext, out = dir ++ stem ++ '.' :: ext ∧ (dir = [] ∨ dir.getLast? = some '/') ∧ stem ≠ [] ∧ '/' ∉ stem ∧
      '/' ∉ ext ∧ '.' ∉ ext ∧ name = stem ++ '-' :: (toString k).toList ++ '.' :: ext)

section
variable {K B : Type*}

/-- Vehicle `rv` with number `k` is written to `path` as `bytes`. -/
def WrittenAs (kind : Kind (ImportedVeh K) B) (output : Txt) (k : Nat) (rv : InputRecord K × ImportedVeh K) (path : Txt)
    (bytes : List B) : Prop :=
  ∃ name ext f, NameFor k rv.1.outputFileName name ∧ path = joinPath output name ∧ extOf path = some ext ∧
    formatOf kind.csv ext = some f ∧ kind.write f rv.2 = (bytes, true)

/-- Files written one after the other. -/
def writeAll (d : RsDisk Txt B) (w : List (Txt × List B)) : RsDisk Txt B := w.foldl (fun d x => d.put x.1 x.2) d

/-- Nothing the program writes as a vehicle is the input file or in the folder of the data. -/
def OutputApart (input data output : Txt) (l : List (InputRecord K)) : Prop :=
  ∀ r ∈ l, ∀ k name, NameFor k r.outputFileName name → joinPath output name ≠ input ∧
    ∀ n, joinPath output name ≠ slashed data ++ n

end
end Fastsim.Spec

namespace Fastsim.Props
open Fastsim Spec

section
variable {K B : Type*} [Zero K] [One K] [NatCast K] [Add K] [Sub K] [Mul K] [Div K] [Neg K] [LinearOrder K]
variable {N : Net B} {R : ImportFns K} {fit : Fit K} {T : Tables K B} {kind : Kind (ImportedVeh K) B}
variable {recs : List B → List (Option (InputRecord K))} {M : Machine} {a : ImportArgs} {s s' : Tree B}

/-- **C132 (what is refused).** Without input file, or with a folder of data that is not there, nothing is changed; if there is a
file where the results should go, or their folder cannot be made, no file is changed. All of these are errors. -/
theorem C132_refused :
    (s.files a.input = none ∧ s.dirs a.input = false → runImport N R fit T kind recs M a s = (s, .error .err)) ∧
    (∀ p, a.dataDir = some p → s.files p = none → s.dirs p = false →
      runImport N R fit T kind recs M a s = (s, .error .err)) ∧
    (s.dirs a.output = false → (s.files a.output).isSome = true ∨ M.canMkdir a.output = false →
      a.dataDir = none → M.labelData ≠ some a.output →
      (runImport N R fit T kind recs M a s).2 = .error .err ∧ (runImport N R fit T kind recs M a s).1.files = s.files) ∧
    (s.dirs a.output = false → (s.files a.output).isSome = true ∨ M.canMkdir a.output = false → a.dataDir ≠ none →
      runImport N R fit T kind recs M a s = (s, .error .err)) := by
  have out : ∀ s : Tree B, s.dirs a.output = false → (s.files a.output).isSome = true ∨ M.canMkdir a.output = false →
      chooseOutput M a s = .error .err := by
    intro s h1 h2
    unfold chooseOutput Tree.there
    rw [h1]
    rcases h2 with h2 | h2
    · simp [h2]
    · rw [h2]
      cases (s.files a.output).isSome <;> simp
  refine ⟨fun h => ?_, fun p hp h1 h2 => ?_, fun h1 h2 h3 h4 => ?_, fun h1 h2 h3 => ?_⟩
  · unfold runImport Tree.there
    rw [h.1, h.2]; rfl
  · unfold runImport
    split
    · rfl
    · unfold chooseData Tree.there
      rw [hp]
      simp [h1, h2]
  · unfold runImport
    split
    · exact ⟨rfl, rfl⟩
    unfold chooseData
    rw [h3]
    rcases hl : M.labelData with _ | p
    · exact ⟨rfl, rfl⟩
    · dsimp only
      rw [out]
      · exact ⟨rfl, rfl⟩
      · have : a.output ≠ p := fun e => h4 (by rw [hl, e])
        simp [this, h1]
      · exact h2
  · unfold runImport
    split
    · rfl
    unfold chooseData
    obtain ⟨p, hp⟩ := Option.ne_none_iff_exists'.1 h3
    rw [hp]
    dsimp only
    split
    · rename_i heq
      split at heq <;> cases heq
      rfl
    · rename_i heq
      split at heq <;> cases heq
      rw [out _ h1 h2]

/-! ### Names -/

theorem saveName_ok {k : Nat} {out name : Txt} : saveName k out = .ok name → NameFor k out name := by
  unfold saveName
  split
  · rename_i hk
    split
    · intro h; cases h
    · rename_i stem ext hs
      intro h
      have hn := Except.ok.inj h
      right
      refine ⟨hk, out.take (out.length - (lastPart out).length), stem, ext, ?_⟩
      -- what follows the last slash
      have hsp := List.takeWhile_append_dropWhile (p := fun c => decide (c ≠ '/')) (l := out.reverse)
      have hlast : '/' ∉ lastPart out := by
        unfold lastPart
        rw [List.mem_reverse]
        intro hc
        have := List.all_eq_true.1 (List.all_takeWhile (p := fun c => decide (c ≠ '/')) (l := out.reverse)) '/' hc
        simp at this
      have hout : out = (out.reverse.dropWhile fun c => decide (c ≠ '/')).reverse ++ lastPart out := by
        have := congrArg List.reverse hsp
        rw [List.reverse_append, List.reverse_reverse] at this
        exact this.symm
      have hdir : (out.reverse.dropWhile fun c => decide (c ≠ '/')).reverse = [] ∨
          (out.reverse.dropWhile fun c => decide (c ≠ '/')).reverse.getLast? = some '/' := by
        rcases hd : (out.reverse.dropWhile fun c => decide (c ≠ '/')) with _ | ⟨c, t⟩
        · left; rfl
        · right
          have hne : (out.reverse.dropWhile fun c => decide (c ≠ '/')) ≠ [] := by rw [hd]; simp
          have := List.head_dropWhile_not (p := fun c => decide (c ≠ '/')) (l := out.reverse) hne
          simp only [hd, List.head_cons] at this
          have hc : c = '/' := by simpa using this
          rw [hc]; simp
      have htake : out.take (out.length - (lastPart out).length) = (out.reverse.dropWhile fun c => decide (c ≠ '/')).reverse := by
        have hlen := congrArg List.length hout
        rw [List.length_append] at hlen
        have : out.length - (lastPart out).length = (out.reverse.dropWhile fun c => decide (c ≠ '/')).reverse.length := by omega
        rw [this]
        generalize (out.reverse.dropWhile fun c => decide (c ≠ '/')).reverse = D at *
        rw [hout, List.take_left]
      rw [htake]
      generalize (out.reverse.dropWhile fun c => decide (c ≠ '/')).reverse = D at *
      generalize lastPart out = L at *
      unfold stemAndExt at hs
      simp only at hs
      split at hs
      · cases hs
      · rename_i hne
        rw [not_or] at hne
        obtain ⟨hs1, hs2⟩ := Prod.mk.inj hs
        have hs2 := Option.some.inj hs2
        have hdot : '.' ∉ ext := by
          rw [← hs2, List.mem_reverse]
          intro hc
          have := List.all_eq_true.1 (List.all_takeWhile (p := fun c => decide (c ≠ '.')) (l := L.reverse)) '.' hc
          simp at this
        have hsplit := List.takeWhile_append_dropWhile (p := fun c => decide (c ≠ '.')) (l := L.reverse)
        have hdrop : (L.reverse.dropWhile fun c => decide (c ≠ '.')) ≠ [] := by
          intro h0
          rw [h0, List.append_nil] at hsplit
          apply hne.1
          rw [hsplit, List.length_reverse, List.length_reverse]
        obtain ⟨c, t, ht⟩ := List.exists_cons_of_ne_nil hdrop
        have hc : c = '.' := by
          have := List.head_dropWhile_not (p := fun c => decide (c ≠ '.')) (l := L.reverse) hdrop
          simp only [ht, List.head_cons] at this
          simpa using this
        have hL' : L = t.reverse ++ '.' :: ext := by
          have := congrArg List.reverse hsplit
          rw [ht, List.reverse_append, List.reverse_reverse, List.reverse_cons, hs2, hc] at this
          rw [← this]; simp
        have hst : stem = t.reverse := by
          rw [← hs1, hs2, hL']
          refine List.take_left' ?_
          simp only [List.length_append, List.length_cons]
          omega
        have hse : stem ≠ [] := by rw [← hs1]; exact hne.2
        refine ⟨?_, hdir, hse, ?_, ?_, hdot, hn.symm⟩
        · rw [hout, hL', hst]; simp
        · intro hm; exact hlast (by rw [hL', ← hst]; simp [hm])
        · intro hm; exact hlast (by rw [hL']; simp [hm])
  · rename_i hk
    intro h
    exact .inl ⟨by omega, (Except.ok.inj h).symm⟩

/-! ### The files of the vehicles -/

theorem put_put (d : RsDisk Txt B) (p : Txt) (b b' : List B) : (d.put p b).put p b' = d.put p b' := by
  funext q
  unfold RsDisk.put
  split <;> rfl

theorem toFile_ok {creatable : Txt → Bool} {d d' : RsDisk Txt B} {v : ImportedVeh K} {p : Txt}
    (h : toFile kind id creatable d v p = (d', .ok ())) :
    ∃ e f b, extOf p = some e ∧ formatOf kind.csv e = some f ∧ kind.write f v = (b, true) ∧ d' = d.put p b := by
  unfold toFile at h
  rcases he : extOf p with _ | e
  · rw [he] at h; cases h
  rw [he] at h
  dsimp only [id] at h
  split at h
  · cases h
  rcases hf : formatOf kind.csv e with _ | f
  · rw [hf] at h; cases h
  rw [hf] at h
  dsimp only at h
  rw [put_put] at h
  obtain ⟨rfl, h2⟩ := Prod.mk.inj h
  split at h2
  · rename_i hw
    exact ⟨e, f, (kind.write f v).1, rfl, hf, Prod.ext rfl hw, rfl⟩
  · cases h2

theorem saveTo_ok {creatable : Txt → Bool} {output : Txt} {l : List (InputRecord K × ImportedVeh K)} :
    ∀ {i : Nat} {d d' : RsDisk Txt B}, saveTo kind creatable output i l d = (d', .ok ()) →
      ∃ w : List (Txt × List B), d' = writeAll d w ∧ w.length = l.length ∧
        (∀ (k : Nat) rv (x : Txt × List B), l[k]? = some rv → w[k]? = some x → WrittenAs kind output (i + k) rv x.1 x.2) ∧
        ∀ e, saveTo kind creatable output i l e = (writeAll e w, .ok ()) := by
  induction l with
  | nil =>
    intro i d d' h
    cases h
    exact ⟨[], rfl, rfl, fun k rv x h => by simp at h, fun e => rfl⟩
  | cons rv l ih =>
    intro i d d' h
    obtain ⟨r, v⟩ := rv
    unfold saveTo at h
    rcases hn : saveName i r.outputFileName with e | name
    · rw [hn] at h; cases h
    rw [hn] at h
    dsimp only at h
    rcases ht : toFile kind id creatable d v (joinPath output name) with ⟨d1, e | u⟩
    · rw [ht] at h; cases h
    rw [ht] at h
    dsimp only at h
    obtain ⟨w, hw, hl, hk, hall⟩ := ih h
    obtain ⟨e, f, b, h1, h2, h3, h4⟩ := toFile_ok ht
    have hcr : creatable (joinPath output name) = true := by
      by_contra hc
      unfold toFile at ht
      rw [h1] at ht
      simp only [id, Bool.not_eq_true] at hc ht
      rw [if_pos hc] at ht
      cases ht
    refine ⟨(joinPath output name, b) :: w, by rw [hw, h4]; rfl, by simp [hl], fun k rv' x hr hx => ?_, fun g => ?_⟩
    · cases k with
      | zero =>
        simp only [List.getElem?_cons_zero, Option.some.injEq] at hr hx
        subst hr hx
        exact ⟨name, e, f, saveName_ok hn, rfl, h1, h2, h3⟩
      | succ k =>
        have := hk k rv' x (by simpa using hr) (by simpa using hx)
        rwa [show i + 1 + k = i + (k + 1) by omega] at this
    · unfold saveTo
      rw [hn]
      dsimp only
      have : toFile kind id creatable g v (joinPath output name) = (g.put (joinPath output name) b, .ok ()) := by
        unfold toFile
        rw [h1]
        simp only [id]
        rw [if_neg (by rw [hcr]; simp), h2]
        simp only [h3, put_put, if_true]
      rw [this]
      exact hall _

/-- The last file written to a path counts; other files stay. -/
theorem writeAll_spec (w : List (Txt × List B)) : ∀ (d : RsDisk Txt B) (p : Txt),
    (p ∉ w.map Prod.fst → writeAll d w p = d p) ∧
    ∀ k b, w[k]? = some (p, b) → (∀ (j : Nat) (x : Txt × List B), k < j → w[j]? = some x → x.1 ≠ p) → writeAll d w p = some b := by
  induction w with
  | nil => intro d p; exact ⟨fun _ => rfl, fun k b h => by simp at h⟩
  | cons x w ih =>
    intro d p
    have e : writeAll d (x :: w) = writeAll (d.put x.1 x.2) w := rfl
    rw [e]
    refine ⟨fun h => ?_, fun k b h hlast => ?_⟩
    · simp only [List.map_cons, List.mem_cons, not_or] at h
      rw [(ih _ p).1 h.2]
      simp [RsDisk.put, h.1]
    · cases k with
      | zero =>
        simp only [List.getElem?_cons_zero, Option.some.injEq] at h
        subst h
        rw [(ih _ p).1]
        · simp [RsDisk.put]
        · intro hm
          obtain ⟨y, hy, hp⟩ := List.mem_map.1 hm
          obtain ⟨j, hj⟩ := List.mem_iff_getElem?.1 hy
          exact hlast (j + 1) y (by omega) (by simpa using hj) hp
      | succ k =>
        exact (ih _ p).2 k b (by simpa using h) fun j y hj hy => hlast (j + 1) y (by omega) (by simpa using hy)

theorem writeAll_twice (d : RsDisk Txt B) (w : List (Txt × List B)) : writeAll (writeAll d w) w = writeAll d w := by
  funext p
  by_cases hp : p ∈ w.map Prod.fst
  · -- the last one
    have : ∃ k b, w[k]? = some (p, b) ∧ ∀ (j : Nat) (x : Txt × List B), k < j → w[j]? = some x → x.1 ≠ p := by
      clear d
      induction w with
      | nil => simp at hp
      | cons x w ih =>
        by_cases h : p ∈ w.map Prod.fst
        · obtain ⟨k, b, h1, h2⟩ := ih h
          refine ⟨k + 1, b, by simpa using h1, fun j y hj hy => ?_⟩
          cases j with
          | zero => omega
          | succ j => exact h2 j y (by omega) (by simpa using hy)
        · have hx : x.1 = p := by
            rcases List.mem_cons.1 (by simpa using hp : p ∈ x.1 :: w.map Prod.fst) with e | e
            · exact e.symm
            · exact absurd e h
          refine ⟨0, x.2, by simp [← hx], fun j y hj hy => ?_⟩
          cases j with
          | zero => omega
          | succ j =>
            intro e
            exact h (List.mem_map.2 ⟨y, List.mem_of_getElem? (by simpa using hy), e⟩)
    obtain ⟨k, b, h1, h2⟩ := this
    rw [(writeAll_spec w _ p).2 k b h1 h2, (writeAll_spec w _ p).2 k b h1 h2]
  · rw [(writeAll_spec w _ p).1 hp]

theorem inDir_putDir (dir : Txt) (D d : RsDisk Txt B) : inDir dir (putDir dir D d) = D := by
  funext n
  unfold inDir putDir
  rw [if_pos (List.prefix_append _ _), List.drop_left]

theorem putDir_other {dir p : Txt} (D d : RsDisk Txt B) (h : ∀ n, p ≠ slashed dir ++ n) : putDir dir D d p = d p := by
  unfold putDir
  rw [if_neg]
  rintro ⟨t, rfl⟩
  exact h t rfl

theorem putDir_at (dir n : Txt) (D d : RsDisk Txt B) : putDir dir D d (slashed dir ++ n) = D n := by
  unfold putDir
  rw [if_pos (List.prefix_append _ _), List.drop_left]

theorem putDir_self {dir : Txt} {D d : RsDisk Txt B} (h : inDir dir d = D) : putDir dir D d = d := by
  funext p
  unfold putDir
  split
  · rename_i hp
    obtain ⟨t, rfl⟩ := hp
    rw [List.drop_left, ← h]; rfl
  · rfl

theorem readRecords_ok {b : List B} {l : List (InputRecord K)} : readRecords recs b = .ok l ↔ recs b = l.map some := by
  unfold readRecords
  generalize recs b = rows
  rw [mapM_ok]
  constructor
  · intro h
    induction h with
    | nil => rfl
    | @cons a c l m h1 _ ih =>
      cases a with
      | none => cases h1
      | some x => cases h1; rw [ih]; rfl
  · rintro rfl
    induction l with
    | nil => exact .nil
    | cons a l ih => exact .cons rfl ih

/-- A run that succeeds, taken apart. -/
theorem importFromFile_ok {creatable : Txt → Bool} {input data output : Txt} {url : Option Txt} {d d' : RsDisk Txt B}
    (h : importFromFile N R fit T kind recs creatable input data output url d = (d', .ok ())) :
    ∃ b l D Y vs, d input = some b ∧ recs b = l.map some ∧
      populate N (url.getD defaultUrl) (inDir data d) (l.map InputRecord.year).dedup = (D, .ok ()) ∧
      loadAll R T D (l.map InputRecord.year).dedup = .ok Y ∧ importRecords R fit Y l = .ok vs ∧
      saveTo kind creatable output 0 vs (putDir data D d) = (d', .ok ()) := by
  unfold importFromFile at h
  rcases hb : d input with _ | b
  · rw [hb] at h; cases h
  rw [hb] at h
  dsimp only at h
  rcases hl : readRecords recs b with e | l
  · rw [hl] at h; cases h
  rw [hl] at h
  dsimp only at h
  rcases hw : withData N url (inDir data d) (l.map InputRecord.year).dedup (loadAll R T) fun Y => importRecords R fit Y l with
    ⟨D, e | vs⟩
  · rw [hw] at h; cases h
  rw [hw] at h
  obtain ⟨h1, Y, h2, h3⟩ := withData_ok hw
  exact ⟨b, l, D, Y, vs, rfl, readRecords_ok.1 hl, h1, h2, h3, h⟩

theorem runImport_ok (h : runImport N R fit T kind recs M a s = (s', .ok ())) :
    ∃ data s1 s2, chooseData M a s = .ok (data, s1) ∧ chooseOutput M a s1 = .ok s2 ∧ s1.files = s.files ∧ s2.files = s.files ∧
      s'.dirs = s2.dirs ∧ s2.dirs a.output = true ∧
      importFromFile N R fit T kind recs M.creatable a.input data a.output (some (a.cacheUrl.getD defaultUrl)) s.files =
        (s'.files, .ok ()) ∧ s.there a.input = true := by
  unfold runImport at h
  split at h
  · cases h
  rename_i hin
  rcases hd : chooseData M a s with e | ⟨data, s1⟩
  · rw [hd] at h; cases h
  rw [hd] at h
  dsimp only at h
  rcases ho : chooseOutput M a s1 with e | s2
  · rw [ho] at h; cases h
  rw [ho] at h
  dsimp only at h
  have f1 : s1.files = s.files := by
    unfold chooseData at hd
    split at hd
    · split at hd <;> cases hd
      rfl
    · split at hd <;> cases hd
      rfl
  have f2 : s2.files = s1.files ∧ s2.dirs a.output = true := by
    unfold chooseOutput at ho
    split at ho
    · split at ho <;> cases ho
      exact ⟨rfl, by simp⟩
    · split at ho
      · cases ho
      · cases ho
        rename_i hdir
        exact ⟨rfl, by simpa using hdir⟩
  refine ⟨data, s1, s2, rfl, ho, f1, f2.1.trans f1, ?_⟩
  rw [f2.1, f1] at h
  rcases hi : importFromFile N R fit T kind recs M.creatable a.input data a.output (some (a.cacheUrl.getD defaultUrl)) s.files with
    ⟨d, r⟩
  rw [hi] at h
  obtain ⟨rfl, rfl⟩ := Prod.mk.inj h
  exact ⟨rfl, f2.2, rfl, by simpa using hin⟩

/-- **C132 (what a run does).** If the program succeeds, every row of the input file was read as a record; the data of their years
were completed in the folder of the data (the given one, or that of FASTSim), from the given URL or that of FASTSim; each vehicle
imported from them was written to a file of the output folder in the format of its ending, the last one written to a path
counts; and no other file has changed. -/
theorem C132_run (h : runImport N R fit T kind recs M a s = (s', .ok ())) :
    ∃ (data : Txt) (b : List B) (l : List (InputRecord K)) (D : RsDisk Txt B) (Y : Archive K)
      (vs : List (InputRecord K × ImportedVeh K)) (w : List (Txt × List B)), (a.dataDir = some data ∨ (a.dataDir = none ∧ M.labelData = some data)) ∧
      s.files a.input = some b ∧ recs b = l.map some ∧
      populate N (a.cacheUrl.getD defaultUrl) (inDir data s.files) (l.map InputRecord.year).dedup = (D, .ok ()) ∧
      loadAll R T D (l.map InputRecord.year).dedup = .ok Y ∧ importRecords R fit Y l = .ok vs ∧
      w.length = vs.length ∧
      (∀ (k : Nat) rv (x : Txt × List B), vs[k]? = some rv → w[k]? = some x → WrittenAs kind a.output k rv x.1 x.2) ∧
      (∀ k path bytes, w[k]? = some (path, bytes) → (∀ (j : Nat) (x : Txt × List B), k < j → w[j]? = some x → x.1 ≠ path) →
        s'.files path = some bytes) ∧
      (∀ n, slashed data ++ n ∉ w.map Prod.fst → s'.files (slashed data ++ n) = D n) ∧
      (∀ p, p ∉ w.map Prod.fst → (∀ n, p ≠ slashed data ++ n) → s'.files p = s.files p) ∧
      s'.dirs a.output = true := by
  obtain ⟨data, s1, s2, hd, -, -, -, hdirs, hout, hi, -⟩ := runImport_ok h
  obtain ⟨b, l, D, Y, vs, h1, h2, h3, h4, h5, h6⟩ := importFromFile_ok hi
  obtain ⟨w, hw, hl, hk, -⟩ := saveTo_ok h6
  refine ⟨data, b, l, D, Y, vs, w, ?_, h1, h2, h3, h4, h5, hl, fun k rv x e1 e2 => ?_, fun k path bytes e1 e2 => ?_, fun n hn => ?_,
    fun p hp hn => ?_, by rw [hdirs]; exact hout⟩
  · unfold chooseData at hd
    rcases ha : a.dataDir with _ | p
    · rw [ha] at hd
      rcases hm : M.labelData with _ | p
      · rw [hm] at hd; cases hd
      · rw [hm] at hd; cases hd; exact .inr ⟨rfl, rfl⟩
    · rw [ha] at hd
      dsimp only at hd
      split at hd <;> cases hd
      exact .inl rfl
  · have := hk k rv x e1 e2
    rwa [Nat.zero_add] at this
  · rw [hw]
    exact (writeAll_spec w _ path).2 k bytes e1 e2
  · rw [hw, (writeAll_spec w _ _).1 hn, putDir_at]
  · rw [hw, (writeAll_spec w _ _).1 hp, putDir_other _ _ hn]

/-- The records of the vehicles are among those of the input. -/
theorem importRecords_from {Y : Archive K} : ∀ {l : List (InputRecord K)} {vs}, importRecords R fit Y l = .ok vs →
    ∀ rv ∈ vs, rv.1 ∈ l := by
  intro l
  induction l with
  | nil => intro vs h; cases h; simp
  | cons r l ih =>
    intro vs h
    have key : ∃ (x : List (ImportedVeh K)) (rest : List (InputRecord K × ImportedVeh K)), importRecords R fit Y l = .ok rest ∧ vs = x.map (fun v => (r, v)) ++ rest := by
      unfold importRecords at h
      rcases hr : importRecords R fit Y l with e | rest
      · rw [hr] at h
        split at h
        · cases h
        · generalize importRecord R fit r _ _ = x at h
          rcases x with e | x <;> cases h
      · rw [hr] at h
        refine Exists.imp (fun x hx => ⟨rest, rfl, hx⟩) ?_
        split at h
        · exact ⟨[], (Except.ok.inj h).symm⟩
        · generalize importRecord R fit r _ _ = x at h
          rcases x with e | x
          · cases h
          · exact ⟨x, (Except.ok.inj h).symm⟩
    obtain ⟨x, rest, hr, rfl⟩ := key
    intro rv hrv
    rcases List.mem_append.1 hrv with hm | hm
    · obtain ⟨v, -, rfl⟩ := List.mem_map.1 hm
      simp
    · exact List.mem_cons_of_mem _ (ih hr rv hm)

/-- **C132 (again).** If the program succeeded and neither the input file nor the folder of data is where it writes vehicles,
running it again succeeds and changes nothing, with any network. -/
theorem C132_again (h : runImport N R fit T kind recs M a s = (s', .ok ())) {data : Txt}
    (hdata : a.dataDir = some data ∨ (a.dataDir = none ∧ M.labelData = some data))
    (hap : ∀ b l, s.files a.input = some b → recs b = l.map some → OutputApart a.input data a.output l)
    (hin : ∀ n, a.input ≠ slashed data ++ n) (hdir : s.dirs data = true ∨ a.dataDir = none) (N' : Net B) :
    runImport N' R fit T kind recs M a s' = (s', .ok ()) := by
  obtain ⟨data', s1, s2, hd, ho, f1, f2, hdirs, hout, hi, hthere⟩ := runImport_ok h
  have hdd : data' = data := by
    unfold chooseData at hd
    rcases hdata with e | ⟨e, e'⟩
    · rw [e] at hd
      dsimp only at hd
      split at hd <;> cases hd
      rfl
    · rw [e] at hd
      dsimp only at hd
      rw [e'] at hd
      cases hd
      rfl
  subst hdd
  obtain ⟨b, l, D, Y, vs, h1, h2, h3, h4, h5, h6⟩ := importFromFile_ok hi
  obtain ⟨w, hw, hl, hk, hall⟩ := saveTo_ok h6
  have hpaths : ∀ p ∈ w.map Prod.fst, p ≠ a.input ∧ ∀ n, p ≠ slashed data' ++ n := by
    intro p hp
    obtain ⟨x, hx, rfl⟩ := List.mem_map.1 hp
    obtain ⟨k, hxk⟩ := List.mem_iff_getElem?.1 hx
    have hlt : k < vs.length := by rw [← hl]; exact (List.getElem?_eq_some_iff.1 hxk).1
    obtain ⟨name, e, f, hn, hpath, -⟩ := hk k _ x (List.getElem?_eq_getElem hlt) hxk
    have hm := importRecords_from h5 _ (List.getElem_mem hlt)
    have := hap b l h1 h2 _ hm _ _ hn
    rw [hpath]
    exact this
  have hput : inDir data' (s'.files) = D := by
    funext n
    show s'.files (slashed data' ++ n) = D n
    rw [hw, (writeAll_spec w _ _).1 fun hm => (hpaths _ hm).2 n rfl, putDir_at]
  have hfin : s'.files a.input = some b := by
    rw [hw, (writeAll_spec w _ _).1 fun hm => (hpaths _ hm).1 rfl, putDir_other _ _ hin, h1]
  have hcd : chooseData M a s' = .ok (data', s') := by
    unfold chooseData at hd ⊢
    rcases hdata with e | ⟨e, e'⟩
    · rw [e] at hd ⊢
      dsimp only at hd ⊢
      rw [if_pos]
      have hs : s.dirs data' = true := hdir.resolve_right (by rw [e]; simp)
      have hs1 : s1 = s := by
        split at hd <;> cases hd
        rfl
      unfold Tree.there
      rw [hdirs]
      have : s2.dirs data' = true := by
        unfold chooseOutput at ho
        split at ho
        · split at ho <;> cases ho
          simp only
          split
          · rfl
          · rw [hs1]; exact hs
        · split at ho <;> cases ho
          rw [hs1]; exact hs
      rw [this, Bool.or_true]
    · rw [e] at hd ⊢
      dsimp only at hd ⊢
      rw [e'] at hd ⊢
      cases hd
      dsimp only
      have : s'.dirs data' = true := by
        rw [hdirs]
        unfold chooseOutput at ho
        split at ho
        · split at ho <;> cases ho
          simp
        · split at ho <;> cases ho
          simp
      congr 2
      cases s' with
      | mk files dirs =>
        simp only [Tree.mk.injEq, true_and]
        funext q
        split
        · rename_i e; rw [e]; exact this.symm
        · rfl
  have hco : chooseOutput M a s' = .ok s' := by
    unfold chooseOutput Tree.there
    have : s'.dirs a.output = true := by rw [hdirs]; exact hout
    rw [this, Bool.or_true, if_neg (by simp), if_neg (by simp)]
  have hif : importFromFile N' R fit T kind recs M.creatable a.input data' a.output (some (a.cacheUrl.getD defaultUrl)) s'.files =
      (s'.files, .ok ()) := by
    unfold importFromFile
    rw [hfin]
    dsimp only
    rw [readRecords_ok.2 h2]
    dsimp only
    unfold withData
    rw [hput, C124_again h3 (fun y hy => hy) N' _]
    dsimp only
    rw [h4]
    dsimp only
    rw [h5]
    dsimp only
    rw [putDir_self hput, hall, hw, writeAll_twice]
  unfold runImport
  rw [if_neg (by unfold Tree.there; rw [hfin]; simp), hcd]
  dsimp only
  rw [hco]
  dsimp only
  rw [hif]

theorem toFile_error {creatable : Txt → Bool} {d d' : RsDisk Txt B} {v : ImportedVeh K} {p : Txt} {e : RsErr}
    (h : toFile kind id creatable d v p = (d', .error e)) : d' = d ∨ ∃ b, d' = d.put p b := by
  unfold toFile at h
  rcases he : extOf p with _ | x
  · rw [he] at h; cases h; exact .inl rfl
  rw [he] at h
  dsimp only [id] at h
  split at h
  · cases h; exact .inl rfl
  rcases hf : formatOf kind.csv x with _ | f
  · rw [hf] at h; cases h; exact .inr ⟨_, rfl⟩
  rw [hf] at h
  dsimp only at h
  rw [put_put] at h
  exact .inr ⟨_, (Prod.mk.inj h).1.symm⟩

theorem saveTo_error {creatable : Txt → Bool} {output : Txt} {e : RsErr} {l : List (InputRecord K × ImportedVeh K)} :
    ∀ {i : Nat} {d d' : RsDisk Txt B}, saveTo kind creatable output i l d = (d', .error e) →
      ∃ (pre : List (InputRecord K × ImportedVeh K)) (rv : InputRecord K × ImportedVeh K)
        (post : List (InputRecord K × ImportedVeh K)) (w : List (Txt × List B)), l = pre ++ rv :: post ∧ w.length = pre.length ∧
        (∀ (k : Nat) rv (x : Txt × List B), pre[k]? = some rv → w[k]? = some x → WrittenAs kind output (i + k) rv x.1 x.2) ∧
        (d' = writeAll d w ∨ ∃ name b, NameFor (i + pre.length) rv.1.outputFileName name ∧
          d' = (writeAll d w).put (joinPath output name) b) := by
  induction l with
  | nil => intro i d d' h; cases h
  | cons rv l ih =>
    intro i d d' h
    obtain ⟨r, v⟩ := rv
    unfold saveTo at h
    rcases hn : saveName i r.outputFileName with x | name
    · rw [hn] at h
      cases h
      exact ⟨[], (r, v), l, [], rfl, rfl, fun k rv x h => by simp at h, .inl rfl⟩
    rw [hn] at h
    dsimp only at h
    rcases ht : toFile kind id creatable d v (joinPath output name) with ⟨d1, x | u⟩
    · rw [ht] at h
      cases h
      refine ⟨[], (r, v), l, [], rfl, rfl, fun k rv x h => by simp at h, ?_⟩
      rcases toFile_error ht with rfl | ⟨b, rfl⟩
      · exact .inl rfl
      · exact .inr ⟨name, b, saveName_ok hn, rfl⟩
    rw [ht] at h
    dsimp only at h
    obtain ⟨pre, rv, post, w, h1, h2, h3, h4⟩ := ih h
    obtain ⟨x, f, b, g1, g2, g3, g4⟩ := toFile_ok ht
    refine ⟨(r, v) :: pre, rv, post, (joinPath output name, b) :: w, by rw [h1]; rfl, by simp [h2], fun k rv' y hr hy => ?_, ?_⟩
    · cases k with
      | zero =>
        simp only [List.getElem?_cons_zero, Option.some.injEq] at hr hy
        subst hr hy
        exact ⟨name, x, f, saveName_ok hn, rfl, g1, g2, g3⟩
      | succ k =>
        have := h3 k rv' y (by simpa using hr) (by simpa using hy)
        rwa [show i + 1 + k = i + (k + 1) by omega] at this
    · rw [g4] at h4
      rw [List.length_cons, show i + (pre.length + 1) = i + 1 + pre.length by omega]
      exact h4

/-- **C132 (failures).** If the program fails, one of three things holds: no file has changed; or files have changed in the folder
of the data only, no vehicle being written; or the vehicles before some vehicle are all written, and of that one at most its own file
is touched. Those after it are not written. -/
theorem C132_fails {e : RsErr} (h : runImport N R fit T kind recs M a s = (s', .error e)) :
    s'.files = s.files ∨
    ∃ (data : Txt) (b : List B) (l : List (InputRecord K)) (D : RsDisk Txt B),
      (a.dataDir = some data ∨ (a.dataDir = none ∧ M.labelData = some data)) ∧ s.files a.input = some b ∧ recs b = l.map some ∧
      ((∀ p, (∀ n, p ≠ slashed data ++ n) → s'.files p = s.files p) ∨
        ∃ (pre : List (InputRecord K × ImportedVeh K)) (rv : InputRecord K × ImportedVeh K)
          (post : List (InputRecord K × ImportedVeh K)) (w : List (Txt × List B)) (Y : Archive K),
          populate N (a.cacheUrl.getD defaultUrl) (inDir data s.files) (l.map InputRecord.year).dedup = (D, .ok ()) ∧
          loadAll R T D (l.map InputRecord.year).dedup = .ok Y ∧ importRecords R fit Y l = .ok (pre ++ rv :: post) ∧
          w.length = pre.length ∧
          (∀ (k : Nat) rv (x : Txt × List B), pre[k]? = some rv → w[k]? = some x → WrittenAs kind a.output k rv x.1 x.2) ∧
          ((∀ p, s'.files p = writeAll (putDir data D s.files) w p) ∨
            ∃ name, NameFor pre.length rv.1.outputFileName name ∧
              ∀ p, p ≠ joinPath a.output name → s'.files p = writeAll (putDir data D s.files) w p)) := by
  unfold runImport at h
  split at h
  · cases h; exact .inl rfl
  rcases hd : chooseData M a s with x | ⟨data, s1⟩
  · rw [hd] at h; cases h; exact .inl rfl
  rw [hd] at h
  dsimp only at h
  have f1 : s1.files = s.files ∧ (a.dataDir = some data ∨ (a.dataDir = none ∧ M.labelData = some data)) := by
    unfold chooseData at hd
    split at hd
    · rename_i ha
      split at hd <;> cases hd
      exact ⟨rfl, .inl ha⟩
    · rename_i ha
      split at hd
      · cases hd
      · rename_i hm
        cases hd
        exact ⟨rfl, .inr ⟨ha, hm⟩⟩
  rcases ho : chooseOutput M a s1 with x | s2
  · rw [ho] at h; cases h; exact .inl f1.1
  rw [ho] at h
  dsimp only at h
  have f2 : s2.files = s.files := by
    unfold chooseOutput at ho
    split at ho
    · split at ho <;> cases ho
      exact f1.1
    · split at ho <;> cases ho
      exact f1.1
  rw [f2] at h
  unfold importFromFile at h
  rcases hb : s.files a.input with _ | b
  · rw [hb] at h; cases h; exact .inl rfl
  rw [hb] at h
  dsimp only at h
  rcases hl : readRecords recs b with x | l
  · rw [hl] at h; cases h; exact .inl rfl
  rw [hl] at h
  dsimp only at h
  rcases hw : withData N (some (a.cacheUrl.getD defaultUrl)) (inDir data s.files) (l.map InputRecord.year).dedup (loadAll R T)
    (fun Y => importRecords R fit Y l) with ⟨D, x | vs⟩
  · rw [hw] at h
    cases h
    refine .inr ⟨data, b, l, D, f1.2, rfl, readRecords_ok.1 hl, .inl fun p hp => putDir_other _ _ hp⟩
  rw [hw] at h
  dsimp only at h
  rcases hs : saveTo kind M.creatable a.output 0 vs (putDir data D s.files) with ⟨d', r⟩
  rw [hs] at h
  obtain ⟨rfl, rfl⟩ := Prod.mk.inj h
  obtain ⟨p1, Y, p2, p3⟩ := withData_ok hw
  obtain ⟨pre, rv, post, w, e1, e2, e3, e4⟩ := saveTo_error hs
  refine .inr ⟨data, b, l, D, f1.2, rfl, readRecords_ok.1 hl, .inr ⟨pre, rv, post, w, Y, p1, p2, by rw [p3, e1], e2,
    fun k rv x g1 g2 => ?_, ?_⟩⟩
  · have := e3 k rv x g1 g2
    rwa [Nat.zero_add] at this
  · rcases e4 with e4 | ⟨name, c, e4, e5⟩
    · exact .inl fun p => congrFun e4 p
    · rw [Nat.zero_add] at e4
      refine .inr ⟨name, e4, fun p hp => ?_⟩
      show d' p = _
      rw [e5]
      simp [RsDisk.put, hp]

theorem readRecords_bad {b : List B} (h : none ∈ recs b) : readRecords recs b = .error .err := by
  unfold readRecords
  revert h
  generalize recs b = rows
  intro h
  induction rows with
  | nil => cases h
  | cons x l ih =>
    rw [List.mapM_cons]
    cases x with
    | none => rfl
    | some r =>
      have := ih (by simpa using h)
      rw [this]; rfl

/-- **C132 (what cannot be read).** If the input is no file, or one of its rows cannot be read as a record, the program returns an
error (it does not panic), and no file is changed: not even the vehicles of the rows before are written. -/
theorem C132_unreadable (h : s.files a.input = none ∨ ∃ b, s.files a.input = some b ∧ none ∈ recs b) :
    (runImport N R fit T kind recs M a s).2 = .error .err ∧ (runImport N R fit T kind recs M a s).1.files = s.files := by
  unfold runImport
  split
  · exact ⟨rfl, rfl⟩
  have hd : (∃ e, chooseData M a s = .error e ∧ e = .err) ∨ ∃ p s1, chooseData M a s = .ok (p, s1) ∧ s1.files = s.files := by
    unfold chooseData
    split
    · split
      · exact .inr ⟨_, _, rfl, rfl⟩
      · exact .inl ⟨_, rfl, rfl⟩
    · split
      · exact .inl ⟨_, rfl, rfl⟩
      · exact .inr ⟨_, _, rfl, rfl⟩
  rcases hd with ⟨e, hd, rfl⟩ | ⟨data, s1, hd, f1⟩
  · rw [hd]; exact ⟨rfl, rfl⟩
  rw [hd]
  dsimp only
  have ho : (∃ e, chooseOutput M a s1 = .error e ∧ e = .err) ∨ ∃ s2, chooseOutput M a s1 = .ok s2 ∧ s2.files = s1.files := by
    unfold chooseOutput
    split
    · split
      · exact .inr ⟨_, rfl, rfl⟩
      · exact .inl ⟨_, rfl, rfl⟩
    · split
      · exact .inl ⟨_, rfl, rfl⟩
      · exact .inr ⟨_, rfl, rfl⟩
  rcases ho with ⟨e, ho, rfl⟩ | ⟨s2, ho, f2⟩
  · rw [ho]; exact ⟨rfl, f1⟩
  rw [ho]
  dsimp only
  have hi : ∀ url, importFromFile N R fit T kind recs M.creatable a.input data a.output url s2.files =
      (s2.files, .error .err) := by
    intro url
    unfold importFromFile
    rw [f2, f1]
    rcases h with h | ⟨b, h, hb⟩
    · rw [h]
    · rw [h]; dsimp only; rw [readRecords_bad hb]
  rw [hi]
  exact ⟨rfl, by rw [f2, f1]⟩

/-- **C132 (where the files are).** Every vehicle but the first is written straight into the output folder; the first one is
written below it unless its record names an absolute path. -/
theorem C132_inside {k : Nat} {out name output : Txt} (h : NameFor k out name) (ho : output ≠ []) :
    (0 < k → joinPath output name = slashed output ++ name ∧ '/' ∉ name) ∧
    (out.head? ≠ some '/' → joinPath output name = slashed output ++ name) ∧
    (k = 0 → out.head? = some '/' → joinPath output name = out) := by
  have base : name.head? ≠ some '/' → joinPath output name = slashed output ++ name := by
    intro hh
    unfold joinPath slashed
    rw [if_neg hh]
    by_cases hl : output.getLast? = some '/'
    · rw [if_pos (.inr hl), if_pos hl]
    · rw [if_neg (by rintro (e | e) <;> contradiction), if_neg hl]; simp
  have pos : 0 < k → '/' ∉ name ∧ name.head? ≠ some '/' := by
    intro hk
    rcases h with ⟨h0, -⟩ | ⟨-, dir, stem, ext, -, -, h3, h4, h5, -, rfl⟩
    · omega
    have hdig : '/' ∉ Nat.toDigits 10 k := not_mem_digitsOf '/' (by decide)
    refine ⟨by simp [h4, h5, hdig], ?_⟩
    obtain ⟨c, t, rfl⟩ := List.exists_cons_of_ne_nil h3
    intro e
    apply h4
    simp only [List.cons_append, List.head?_cons, Option.some.injEq] at e
    rw [e]; simp
  refine ⟨fun hk => ⟨base (pos hk).2, (pos hk).1⟩, fun hh => ?_, fun hk hh => ?_⟩
  · by_cases hk : 0 < k
    · exact base (pos hk).2
    · rcases h with ⟨-, rfl⟩ | ⟨h0, -⟩
      · exact base hh
      · exact absurd h0 hk
  · rcases h with ⟨-, rfl⟩ | ⟨h0, -⟩
    · unfold joinPath; rw [if_pos hh]
    · omega

/-- **C132 (apart).** With an output folder that neither holds the input file nor lies within, nor around, the folder of the data,
and output names that are no absolute paths, what is written is apart from what is read. -/
theorem C132_apart {input data output : Txt} {l : List (InputRecord K)} (ho : output ≠ [])
    (hr : ∀ r ∈ l, r.outputFileName.head? ≠ some '/') (h1 : ¬ slashed output <+: input) (h2 : ¬ slashed output <+: slashed data)
    (h3 : ¬ slashed data <+: slashed output) : OutputApart input data output l := by
  intro r hm k name hn
  rw [(C132_inside hn ho).2.1 (hr r hm)]
  refine ⟨fun e => h1 ⟨name, e⟩, fun n e => ?_⟩
  rcases List.prefix_or_prefix_of_prefix (List.prefix_append (slashed output) name)
    (e ▸ List.prefix_append (slashed data) n) with h | h
  · exact h2 h
  · exact h3 h

end

/-! ### A concrete case -/

namespace ImportDemo

/-- Numbers as far as they occur below. -/
def cliFns : ImportFns ℚ where
  parse t := if t = "3.5".toList then some (35 / 10) else if t = "2.5".toList then some (25 / 10) else (parseU32 t).map Nat.cast
  round x := ⌊x + 1 / 2⌋

/-- A row of fueleconomy.gov for the Camry. -/
def camryRow (i cyl displ : String) : CsvRow := fun h =>
  if h = "id".toList then some i.toList
  else if h = "year".toList then some "2020".toList
  else if h = "make".toList then some "Toyota".toList
  else if h = "model".toList then some "Camry".toList
  else if h = "drive".toList then some "Front-Wheel Drive".toList
  else if h = "atvType".toList then some []
  else if h = "fuelType1".toList then some "Regular Gasoline".toList
  else if h = "cylinders".toList then some cyl.toList
  else if h = "displ".toList then some displ.toList
  else if h = "trany".toList then some "Automatic (S8)".toList
  else if h = "startStop".toList then some "N".toList
  else if h = "phevBlended".toList then some "false".toList
  else if h = "efid".toList then some "LTYXV03.5M5B".toList
  else some "20".toList

def cliTables : Tables ℚ Nat :=
  ⟨fun _ => [some (camryRow "32204" "6" "3.5"), some (camryRow "32205" "4" "2.5")], fun _ => [some smallTest, some camryTest]⟩

/-- A vehicle file holds the length of the name and the power of the engine. -/
def cliKind : Kind (ImportedVeh ℚ) Nat := ⟨false, [], [],
  fun _ v => ([v.name.length, v.obj.fcMaxKw.num.toNat], true), fun _ _ => .error .err, .ok⟩

def cliArgs : ImportArgs := ⟨"in.csv".toList, "out".toList, some "data".toList, none⟩

def cliMachine : Machine := ⟨fun _ => true, fun _ => true, none⟩

/-- The input file and an empty folder for the data. -/
def cliTree : Tree Nat := ⟨fun p => if p = "in.csv".toList then some [1] else none, fun p => decide (p = "data".toList)⟩

def cliRecs : List Nat → List (Option (InputRecord ℚ)) := fun _ => [some (record "camry.yaml")]

/-- The two Camrys of 2020 are imported, from an archive that is downloaded; run again it changes nothing, also without a net. -/
theorem C132_demo :
    (match runImport someNet cliFns fit cliTables cliKind cliRecs cliMachine cliArgs cliTree with
      | (t, .ok ()) => decide (t.files "out/camry.yaml".toList = some [57, 15050000] ∧
          (t.files "out/camry-1.yaml".toList).isSome ∧ t.files "in.csv".toList = some [1] ∧
          (t.files ("data/".toList ++ dataName 2020 .tests)).isSome ∧ t.dirs "out".toList = true ∧ t.dirs "data".toList = true)
      | (_, .error _) => false) = true ∧
    OutputApart cliArgs.input "data".toList cliArgs.output [record "camry.yaml"] ∧
    (∀ n, cliArgs.input ≠ slashed "data".toList ++ n) ∧
    (match runImport someNet cliFns fit cliTables cliKind cliRecs cliMachine { cliArgs with dataDir := none } cliTree with
      | (_, .ok ()) => false | (_, .error e) => decide (e = .err)) = true := by
  refine ⟨by decide +kernel, C132_apart (by decide +kernel) ?_ (by decide +kernel) (by decide +kernel)
    (by decide +kernel), fun n e => ?_, by decide +kernel⟩
  · intro r hr
    rw [List.mem_singleton.1 hr]
    decide +kernel
  · have h1 : slashed "data".toList = ['d', 'a', 't', 'a', '/'] := by decide +kernel
    have h2 : cliArgs.input.head? = some 'i' := by decide +kernel
    rw [e, h1] at h2
    revert h2
    simp

/-- Found: an absolute name in the first record leaves the output folder; the file it names is replaced. -/
theorem C132_absolute_found :
    (match runImport someNet cliFns fit cliTables cliKind (fun _ => [some (record "/home/camry.yaml")]) cliMachine cliArgs
        { cliTree with files := fun p => if p = "/home/camry.yaml".toList then some [7] else cliTree.files p } with
      | (t, .ok ()) => decide (t.files "/home/camry.yaml".toList = some [57, 15050000] ∧
          (t.files "out/camry-1.yaml".toList).isSome)
      | (_, .error _) => false) = true := by
  decide +kernel

/-- An input of which the second row cannot be read meets the hypothesis of `C132_unreadable`, and is refused. -/
theorem C132_demo_unreadable :
    cliTree.files cliArgs.input = some [1] ∧ (none : Option (InputRecord ℚ)) ∈ [some (record "camry.yaml"), none] ∧
    (match runImport someNet cliFns fit cliTables cliKind (fun _ => [some (record "camry.yaml"), none]) cliMachine cliArgs cliTree with
      | (t, .error e) => decide (e = .err ∧ t.files "out/camry.yaml".toList = none)
      | (_, .ok ()) => false) = true := by
  exact ⟨by decide +kernel, by simp, by decide +kernel⟩

end ImportDemo
end Fastsim.Props
