import Verif.Props.RsWeb
import Verif.Props.RustFile

/-!
# Vehicles from a repository or URL (C126)

Which files of a repository are listed, how often a server is asked, which URL a vehicle comes from, and that a vehicle stored
in the cache first is the vehicle read from its URL.
-/

set_option linter.unusedSectionVars false

namespace Fastsim.Spec
open Fastsim

mutual
/-- The files of a repository at any depth, in their order: path and last part of the URL. -/
inductive FileIn : Txt × Txt → GitObj → Prop
  | file (path last : Txt) : FileIn (path, last) (.file path last)
  | dir {p : Txt × Txt} {l : List GitObj} : FileInList p l → FileIn p (.dir l)
/-- The files of a list of things. -/
inductive FileInList : Txt × Txt → List GitObj → Prop
  | head {p : Txt × Txt} {o : GitObj} {l : List GitObj} : FileIn p o → FileInList p (o :: l)
  | tail {p : Txt × Txt} {o : GitObj} {l : List GitObj} : FileInList p l → FileInList p (o :: l)
end

/-- A name that ends in one of these formats. -/
def VehicleFile (last : Txt) : Prop := ∃ e, extOf last = some e ∧ (formatOf false e = some .yaml ∨ formatOf false e = some .json)

/-- The server asks to come back later. -/
def Busy (status : Nat) : Prop := status = 503 ∨ status = 429 ∨ status = 403

end Fastsim.Spec

namespace Fastsim.Props
open Fastsim Spec

/-! ### The list of vehicles -/

theorem listedFile_ok {path last : Txt} {l : List Txt} :
    listedFile path last = .ok l ↔ (extOf last).isSome = true ∧ ((VehicleFile last ∧ l = [path]) ∨ (¬ VehicleFile last ∧ l = [])) := by
  unfold listedFile VehicleFile
  rcases extOf last with _ | e
  · simp
  · dsimp only
    rcases hf : formatOf false e with _ | f
    · simp [eq_comm, hf]
    · cases f <;> simp [eq_comm, hf]

mutual
theorem listedObj_ok (o : GitObj) : (∃ l, listedObj o = .ok l) ↔ ∀ p, FileIn p o → (extOf p.2).isSome = true := by
  match o with
  | .file path last =>
    rw [listedObj]
    constructor
    · rintro ⟨l, h⟩ p hp
      cases hp
      exact (listedFile_ok.1 h).1
    · intro h
      have := h (path, last) (.file _ _)
      by_cases hv : VehicleFile last
      · exact ⟨_, listedFile_ok.2 ⟨this, Or.inl ⟨hv, rfl⟩⟩⟩
      · exact ⟨_, listedFile_ok.2 ⟨this, Or.inr ⟨hv, rfl⟩⟩⟩
  | .dir l =>
    rw [listedObj, fetchGithubList_ok l]
    constructor
    · rintro h p (_ | hp)
      exact h p hp
    · exact fun h p hp => h p (.dir hp)
  | .other =>
    rw [listedObj]
    exact Iff.intro (fun _ p hp => nomatch hp) fun _ => ⟨_, rfl⟩

theorem fetchGithubList_ok (l : List GitObj) : (∃ m, fetchGithubList l = .ok m) ↔ ∀ p, FileInList p l → (extOf p.2).isSome = true := by
  match l with
  | [] =>
    rw [fetchGithubList]
    exact Iff.intro (fun _ p hp => nomatch hp) fun _ => ⟨_, rfl⟩
  | o :: l =>
    have h1 := listedObj_ok o
    have h2 := fetchGithubList_ok l
    rw [fetchGithubList]
    constructor
    · rintro ⟨m, h⟩ p hp
      rcases ho : listedObj o with e | a
      · rw [ho] at h; cases h
      rw [ho] at h
      dsimp only at h
      rcases hl : fetchGithubList l with e | b
      · rw [hl] at h; cases h
      cases hp with
      | head hp => exact h1.1 ⟨a, ho⟩ p hp
      | tail hp => exact h2.1 ⟨b, hl⟩ p hp
    · intro h
      obtain ⟨a, ha⟩ := h1.2 fun p hp => h p (.head hp)
      obtain ⟨b, hb⟩ := h2.2 fun p hp => h p (.tail hp)
      exact ⟨a ++ b, by rw [ha]; dsimp only; rw [hb]⟩
end

mutual
theorem listedObj_mem (o : GitObj) {l : List Txt} (h : listedObj o = .ok l) (path : Txt) :
    path ∈ l ↔ ∃ last, FileIn (path, last) o ∧ VehicleFile last := by
  match o with
  | .file path' last =>
    rw [listedObj] at h
    constructor
    · intro hm
      rcases (listedFile_ok.1 h).2 with ⟨hv, rfl⟩ | ⟨hv, rfl⟩
      · rw [List.mem_singleton] at hm
        subst hm
        exact ⟨last, .file _ _, hv⟩
      · cases hm
    · rintro ⟨last', hf, hv⟩
      cases hf
      rcases (listedFile_ok.1 h).2 with ⟨-, rfl⟩ | ⟨hn, -⟩
      · simp
      · exact absurd hv hn
  | .dir l' =>
    rw [listedObj] at h
    rw [fetchGithubList_mem l' h path]
    constructor
    · rintro ⟨last, hf, hv⟩
      exact ⟨last, .dir hf, hv⟩
    · rintro ⟨last, _ | hf, hv⟩
      exact ⟨last, hf, hv⟩
  | .other =>
    rw [listedObj] at h
    cases h
    constructor
    · intro h; cases h
    · rintro ⟨last, hf, -⟩; cases hf

theorem fetchGithubList_mem (l : List GitObj) {m : List Txt} (h : fetchGithubList l = .ok m) (path : Txt) :
    path ∈ m ↔ ∃ last, FileInList (path, last) l ∧ VehicleFile last := by
  match l with
  | [] =>
    rw [fetchGithubList] at h
    cases h
    constructor
    · intro h; cases h
    · rintro ⟨last, hf, -⟩; cases hf
  | o :: l =>
    rw [fetchGithubList] at h
    rcases ho : listedObj o with e | a
    · rw [ho] at h; cases h
    rw [ho] at h
    dsimp only at h
    rcases hl : fetchGithubList l with e | b
    · rw [hl] at h; cases h
    rw [hl] at h
    cases h
    rw [List.mem_append, listedObj_mem o ho path, fetchGithubList_mem l hl path]
    constructor
    · rintro (⟨last, hf, hv⟩ | ⟨last, hf, hv⟩)
      · exact ⟨last, .head hf, hv⟩
      · exact ⟨last, .tail hf, hv⟩
    · rintro ⟨last, hf, hv⟩
      cases hf with
      | head hf => exact Or.inl ⟨last, hf, hv⟩
      | tail hf => exact Or.inr ⟨last, hf, hv⟩
end

/-- **C126 (what is listed).** The list has just the paths of the files at any depth that are of format yaml or json. -/
theorem C126_listed {l : List GitObj} {m : List Txt} (h : fetchGithubList l = .ok m) (path : Txt) :
    path ∈ m ↔ ∃ last, FileInList (path, last) l ∧ VehicleFile last := fetchGithubList_mem l h path

/-- **C126 (when there is a list).** There is a list exactly if every file has an extension: one file like `LICENSE` at any
depth makes the listing fail. -/
theorem C126_lists (l : List GitObj) : (∃ m, fetchGithubList l = .ok m) ↔ ∀ p, FileInList p l → (extOf p.2).isSome = true :=
  fetchGithubList_ok l

/-- **C126 (folders).** A folder counts as if what it holds stood in its place. -/
theorem C126_folder (l r : List GitObj) : fetchGithubList (.dir l :: r) = fetchGithubList (l ++ r) := by
  have app : ∀ l : List GitObj, fetchGithubList (l ++ r) = (match fetchGithubList l with
      | .error e => .error e
      | .ok a => match fetchGithubList r with
        | .error e => .error e
        | .ok b => .ok (a ++ b)) := by
    intro l
    induction l with
    | nil =>
      rw [List.nil_append, show fetchGithubList [] = .ok [] by rw [fetchGithubList]]
      dsimp only
      rcases fetchGithubList r with e | b
      · rfl
      · rfl
    | cons o l ih =>
      rw [List.cons_append, fetchGithubList, ih, fetchGithubList]
      rcases listedObj o with e | a
      · rfl
      · dsimp only
        rcases fetchGithubList l with e | b
        · rfl
        · dsimp only
          rcases fetchGithubList r with e | c
          · rfl
          · dsimp only
            rw [List.append_assoc]
  rw [app, fetchGithubList, listedObj]
  rfl

open Classical in
/-- **C126 (order).** Files are listed in the order in which the repository names them. -/
theorem C126_order {l : List (Txt × Txt)} {m : List Txt} (h : fetchGithubList (l.map fun p => .file p.1 p.2) = .ok m) :
    m = (l.filter fun p => decide (VehicleFile p.2)).map Prod.fst := by
  induction l generalizing m with
  | nil =>
    rw [List.map_nil, fetchGithubList] at h
    cases h; rfl
  | cons p l ih =>
    rw [List.map_cons, fetchGithubList, listedObj] at h
    rcases hf : listedFile p.1 p.2 with e | a
    · rw [hf] at h; cases h
    rw [hf] at h
    dsimp only at h
    rcases hl : fetchGithubList (l.map fun p => .file p.1 p.2) with e | b
    · rw [hl] at h; cases h
    rw [hl] at h
    cases h
    rw [ih hl]
    rcases (listedFile_ok.1 hf).2 with ⟨hv, rfl⟩ | ⟨hv, rfl⟩
    · simp [hv]
    · simp [hv]

/-! ### Asking a server -/

theorem go_spec {A : Type*} (answer : Nat → Nat × A) (n i : Nat) :
    ∃ k, i ≤ k ∧ k ≤ i + n ∧ getResponse.go answer n i = (k + 1, answer k) ∧ (∀ j, i ≤ j → j < k → Busy (answer j).1) ∧
      (k < i + n → ¬ Busy (answer k).1) := by
  induction n generalizing i with
  | zero => exact ⟨i, le_rfl, le_rfl, rfl, fun j h1 h2 => absurd h2 (by omega), fun h => absurd h (by omega)⟩
  | succ n ih =>
    rw [getResponse.go]
    by_cases hb : (answer i).1 = 503 ∨ (answer i).1 = 429 ∨ (answer i).1 = 403
    · rw [if_pos hb]
      obtain ⟨k, h1, h2, h3, h4, h5⟩ := ih (i + 1)
      refine ⟨k, by omega, by omega, h3, fun j hj hk => ?_, fun h => h5 (by omega)⟩
      by_cases hji : j = i
      · rw [hji]; exact hb
      · exact h4 j (by omega) hk
    · rw [if_neg hb]
      exact ⟨i, le_rfl, by omega, rfl, fun j h1 h2 => absurd h2 (by omega), fun _ => hb⟩

/-- **C126 (asking again).** A server is asked at least once and at most four times. All answers but the last were busy (503, 429
or 403); the last is returned, and it is busy only if there were four. -/
theorem C126_asked {A : Type*} (answer : Nat → Nat × A) :
    ∃ k, k ≤ 3 ∧ getResponse answer = (k + 1, answer k) ∧ (∀ j, j < k → Busy (answer j).1) ∧ (k < 3 → ¬ Busy (answer k).1) := by
  obtain ⟨k, -, h2, h3, h4, h5⟩ := go_spec answer 3 0
  exact ⟨k, by omega, h3, fun j hj => h4 j (Nat.zero_le _) hj, fun h => h5 (by omega)⟩

/-! ### URLs -/

/-- **C126 (one slash).** With a URL given, just one slash is put between it and the name, however many there are at its end and
before the name. -/
theorem C126_one_slash (u name : Txt) (m n : Nat) (hu : u.getLast? ≠ some '/') (hn : name.head? ≠ some '/') :
    fileUrl (List.replicate n '/' ++ name) (some (u ++ List.replicate m '/')) = u ++ '/' :: name := by
  have drop : ∀ (k : Nat) (s : Txt), s.head? ≠ some '/' → (List.replicate k '/' ++ s).dropWhile (· = '/') = s := by
    intro k s hs
    induction k with
    | zero =>
      cases s with
      | nil => rfl
      | cons c s =>
        have : c ≠ '/' := fun e => hs (by simp [e])
        simp [List.dropWhile_cons, this]
    | succ k ih => simpa [List.replicate_succ, List.dropWhile_cons] using ih
  unfold fileUrl
  dsimp only
  rw [drop n name hn, List.reverse_append, List.reverse_replicate, drop m u.reverse (by rw [List.head?_reverse]; exact hu),
    List.reverse_reverse]

/-- **C126 (without a URL).** The name is put after the address of the repository as it is: with a slash before it there are two
in the URL. -/
theorem C126_two_slashes (name : Txt) : ∃ u, fileUrl name none = u ++ '/' :: name ∧ fileUrl ('/' :: name) none = u ++ '/' :: '/' :: name :=
  ⟨"https://raw.githubusercontent.com/NREL/fastsim-vehicles/main".toList, by
    have : vehicleRepo = "https://raw.githubusercontent.com/NREL/fastsim-vehicles/main".toList ++ ['/'] := by decide +kernel
    constructor <;> (unfold fileUrl; rw [this]; simp)⟩

section
variable {T B : Type*} {k : Kind T B} {parse : Txt → Option ParsedUrl} {call : Txt → Option (List B)}

/-- **C126 (origin).** A vehicle from a repository or URL is what the server gives for the URL of the file, after `init`, and its
`doc` names the URL as it was put together. -/
theorem C126_origin {name : Txt} {url : Option Txt} {t : T} {doc : Txt} (h : fromGithubOrUrl k parse call name url = .ok (t, doc)) :
    doc = "Vehicle from ".toList ++ fileUrl name url ∧ ∃ u e b, parse (fileUrl name url) = some u ∧ u.last.bind extOf = some e ∧
      call u.text = some b ∧ fromReader k b e false = .ok t := by
  unfold fromGithubOrUrl fromUrl at h
  rcases hp : parse (fileUrl name url) with _ | u
  · rw [hp] at h; cases h
  rw [hp] at h
  dsimp only at h
  rcases he : u.last.bind extOf with _ | e
  · rw [he] at h; cases h
  rw [he] at h
  dsimp only at h
  rcases hb : call u.text with _ | b
  · rw [hb] at h; cases h
  rw [hb] at h
  dsimp only at h
  rcases hr : fromReader k b e false with x | t'
  · rw [hr] at h; cases h
  rw [hr] at h
  cases h
  exact ⟨rfl, u, e, b, rfl, he, hb, hr⟩

/-- The extension of a file in a folder. -/
theorem extOf_join (dir n : Txt) (hn : '/' ∉ n) (h0 : n ≠ []) (h1 : n ≠ ['.']) (h2 : n ≠ ['.', '.']) :
    extOf (joinPath dir n) = extOf n := by
  have hd : ∃ d, FolderPart d ∧ joinPath dir n = d ++ n := by
    unfold joinPath
    have : n.head? ≠ some '/' := fun e => hn (List.mem_of_mem_head? e)
    rw [if_neg this]
    split
    · rename_i h
      refine ⟨dir, ?_, rfl⟩
      rcases h with h | h
      · exact Or.inl h
      · obtain ⟨s, hs⟩ := List.getLast?_eq_some_iff.1 h
        exact Or.inr ⟨s, hs⟩
    · exact ⟨dir ++ ['/'], Or.inr ⟨dir, rfl⟩, by simp⟩
  obtain ⟨d, hd, e⟩ := hd
  have a := fileName_plain hd hn h0 h1 h2
  have b := fileName_plain (d := []) (Or.inl rfl) hn h0 h1 h2
  rw [List.nil_append] at b
  unfold extOf
  rw [e, a, b]

/-- **C126 (cache).** What `url_to_cache` stores is read back as the vehicle at the URL: reading the stored file gives what reading
the URL gives. Nothing but that file changes, and it replaces what was there. -/
theorem C126_cache {N : Net B} {d d' : RsDisk Txt B} {dir url : Txt} (h : urlToCache N parse d dir url = (d', .ok ()))
    (hseg : ∀ u n, parse url = some u → u.last = some n → '/' ∉ n ∧ n ≠ [] ∧ n ≠ ['.'] ∧ n ≠ ['.', '.']) :
    ∃ u n, parse url = some u ∧ u.last = some n ∧ (∀ p, p ≠ joinPath dir n → d' p = d p) ∧
      ∀ skip, (fromUrl k parse N.body url skip).map Prod.fst = fromFile k id d' (joinPath dir n) skip := by
  unfold urlToCache at h
  rcases hp : parse url with _ | u
  · rw [hp] at h; cases h
  rw [hp] at h
  dsimp only at h
  rcases hl : u.last with _ | n
  · rw [hl] at h; cases h
  rw [hl] at h
  dsimp only at h
  unfold download at h
  rcases hb : N.body u.text with _ | b
  · rw [hb] at h; cases h
  rw [hb] at h
  dsimp only at h
  by_cases hb0 : b = []
  · rw [if_pos hb0] at h; cases h
  rw [if_neg hb0] at h
  by_cases hc : N.creatable (joinPath dir n) = false
  · rw [if_pos hc] at h; cases h
  rw [if_neg hc] at h
  cases h
  obtain ⟨s1, s2, s3, s4⟩ := hseg u n hp hl
  refine ⟨u, n, rfl, hl, fun p hp' => put_other d b hp', fun skip => ?_⟩
  unfold fromUrl fromFile
  rw [hp]
  dsimp only
  rw [hl, extOf_join dir n s1 s2 s3 s4]
  dsimp only [Option.bind_some]
  rcases extOf n with _ | e
  · rfl
  · dsimp only
    rw [hb, id, put_same]
    dsimp only
    rcases fromReader k b e skip with x | t
    · rfl
    · rfl

end

/-! ### Concrete cases -/

/-- A folder with two vehicles, one of them in a folder, and a readme. -/
def someRepo : List GitObj :=
  [.file "public/a.yaml".toList "a.yaml".toList, .dir [.file "public/x/b.JSON".toList "b.JSON".toList, .other],
    .file "public/README.md".toList "README.md".toList]

/-- The readme is not listed; with a file `LICENSE` in a folder there is no list. The third answer of a server is taken after two
busy ones. A vehicle stored from a URL meets the hypotheses of `C126_cache`. -/
theorem C126_demo :
    (fetchGithubList someRepo).toOption = some ["public/a.yaml".toList, "public/x/b.JSON".toList] ∧
    (fetchGithubList (someRepo ++ [.dir [.file "public/LICENSE".toList "LICENSE".toList]])).toOption = none ∧
    (getResponse fun i => (if i < 2 then 503 else 200, i)) = (3, 200, 2) ∧
    (getResponse fun i => (429, i)) = (4, 429, 3) ∧
    (urlToCache (⟨fun _ => some [1], fun _ _ => none, fun _ => true⟩ : Net Nat)
      (fun t => some ⟨t, (pieces t).getLast?⟩) (fun _ => none) "cache".toList "http://x.y/veh.yaml".toList).2 = .ok () ∧
    (pieces "http://x.y/veh.yaml".toList).getLast? = some "veh.yaml".toList := by
  refine ⟨by decide +kernel, by decide +kernel, by decide +kernel, by decide +kernel, by decide +kernel, by decide +kernel⟩

end Fastsim.Props
