import Verif.Model.RsBuild
import Mathlib.Tactic.Common

/-!
# C136: the check made when the Rust core is built
-/

namespace Fastsim.Spec

/-- Both files can be read and have the same text. -/
def SameText (read : String → Option String) (a b : String) : Prop := ∃ t, read a = some t ∧ read b = some t

/-- The four files that are kept twice, given the folder of the python package and the folder of the crate. -/
def CopiesAgree (read : String → Option String) (python crate : String) : Prop :=
  SameText read (python ++ "/vehdb/2017_Toyota_Highlander_3.5_L.yaml") (crate ++ "/resources/vehicles/2017_Toyota_Highlander_3.5_L.yaml") ∧
  SameText read (python ++ "/longparams.json") (crate ++ "/resources/longparams.json") ∧
  SameText read (python ++ "/cycles/udds.csv") (crate ++ "/resources/cycles/udds.csv") ∧
  SameText read (python ++ "/cycles/hwfet.csv") (crate ++ "/resources/cycles/hwfet.csv")

end Fastsim.Spec

namespace Fastsim.Props
open Spec

theorem comparePairs_ok (read : String → Option String) (l : List (String × String)) :
    comparePairs read l = .ok () ↔ ∀ p ∈ l, SameText read p.1 p.2 := by
  induction l with
  | nil => simp [comparePairs]
  | cons p l ih =>
    obtain ⟨a, b⟩ := p
    simp only [comparePairs, List.mem_cons, forall_eq_or_imp, SameText] at ih ⊢
    rw [← ih]
    cases ha : read a with
    | none => simp
    | some t =>
      cases hb : read b with
      | none => simp
      | some c =>
        by_cases h : t = c
        · subst h; simp
        · simp [h, Ne.symm h]

theorem comparePairs_panic (read : String → Option String) (l : List (String × String)) :
    comparePairs read l = .ok () ∨ comparePairs read l = .error .panic := by
  induction l with
  | nil => exact .inl rfl
  | cons p l ih =>
    obtain ⟨a, b⟩ := p
    simp only [comparePairs]
    split
    · exact .inr rfl
    · split
      · exact .inr rfl
      · split_ifs
        · exact .inr rfl
        · exact ih

theorem join_eq (a b c : String) : a ++ "/" ++ b ++ "/" ++ c = (a ++ "/" ++ b) ++ ("/" ++ c) := by
  simp only [String.append_assoc]

theorem check_ok (fs : BuildFs) {d : String} (hd : fs.cwd = some d) (pre : String) :
    checkFilesConsistent fs pre = .ok () ↔ CopiesAgree fs.read (d ++ "/" ++ pre) d := by
  have e : ∀ a b c : String, a ++ "/" ++ b ++ "/" ++ c = (a ++ "/" ++ b) ++ ("/" ++ c) := join_eq
  simp only [checkFilesConsistent, hd, comparePairs_ok, buildPairs, List.map_cons, List.map_nil, List.mem_cons, List.not_mem_nil,
    or_false, forall_eq_or_imp, forall_eq, CopiesAgree, String.append_assoc]
  rfl

/-- C136. The build goes on exactly if there is no python package at either place, or each of the four files kept twice can be read at
both places and has the same text; the place for publishing comes first. Otherwise it panics. -/
theorem C136_build (fs : BuildFs) {d : String} (hd : fs.cwd = some d) :
    (buildMain fs = .ok () ↔
      (fs.found "../../../../python/fastsim/resources" = false ∧ fs.found "../../python/fastsim/resources" = false) ∨
      (fs.found "../../../../python/fastsim/resources" = true ∧ CopiesAgree fs.read (d ++ "/../../../../python/fastsim/resources") d) ∨
      (fs.found "../../../../python/fastsim/resources" = false ∧ fs.found "../../python/fastsim/resources" = true ∧
        CopiesAgree fs.read (d ++ "/../../python/fastsim/resources") d)) ∧
    (buildMain fs ≠ .ok () → buildMain fs = .error .panic) := by
  have e1 : d ++ "/" ++ publishPath = d ++ "/../../../../python/fastsim/resources" := by
    rw [String.append_assoc]; rfl
  have e2 : d ++ "/" ++ buildPath = d ++ "/../../python/fastsim/resources" := by
    rw [String.append_assoc]; rfl
  constructor
  · rw [← e1, ← e2, ← check_ok fs hd, ← check_ok fs hd]
    change buildMain fs = .ok () ↔ (fs.found publishPath = false ∧ fs.found buildPath = false) ∨
      (fs.found publishPath = true ∧ _) ∨ (fs.found publishPath = false ∧ fs.found buildPath = true ∧ _)
    unfold buildMain
    cases h1 : fs.found publishPath <;> cases h2 : fs.found buildPath <;> simp [h1, h2]
  · intro hne
    unfold buildMain at hne ⊢
    simp only at hne ⊢
    split_ifs at hne ⊢ <;> first | exact absurd rfl hne | skip
    all_goals
      unfold checkFilesConsistent at hne ⊢
      rw [hd] at hne ⊢
      exact (comparePairs_panic _ _).resolve_left hne

/-- C136. Only the two folders and the files named are looked at. -/
theorem C136_only (fs fs' : BuildFs) {d : String} (hd : fs.cwd = some d) (hd' : fs'.cwd = some d)
    (hf : ∀ p ∈ ["../../../../python/fastsim/resources", "../../python/fastsim/resources"], fs.found p = fs'.found p)
    (hr : ∀ p ∈ ["resources/vehicles/2017_Toyota_Highlander_3.5_L.yaml", "resources/longparams.json", "resources/cycles/udds.csv",
      "resources/cycles/hwfet.csv"], fs.read (d ++ "/" ++ p) = fs'.read (d ++ "/" ++ p))
    (hp : ∀ q ∈ ["../../../../python/fastsim/resources", "../../python/fastsim/resources"],
      ∀ p ∈ ["vehdb/2017_Toyota_Highlander_3.5_L.yaml", "longparams.json", "cycles/udds.csv", "cycles/hwfet.csv"],
        fs.read (d ++ "/" ++ q ++ "/" ++ p) = fs'.read (d ++ "/" ++ q ++ "/" ++ p)) :
    buildMain fs = buildMain fs' := by
  simp only [List.mem_cons, List.not_mem_nil, or_false, forall_eq_or_imp, forall_eq] at hf hr hp
  obtain ⟨f1, f2⟩ := hf
  obtain ⟨r1, r2, r3, r4⟩ := hr
  obtain ⟨⟨p1, p2, p3, p4⟩, q1, q2, q3, q4⟩ := hp
  have key : ∀ q, q = publishPath ∨ q = buildPath → checkFilesConsistent fs q = checkFilesConsistent fs' q := by
    rintro q (rfl | rfl)
    · simp only [checkFilesConsistent, hd, hd', buildPairs, List.map_cons, List.map_nil, comparePairs, publishPath, r1, r2, r3, r4, p1, p2, p3, p4]
    · simp only [checkFilesConsistent, hd, hd', buildPairs, List.map_cons, List.map_nil, comparePairs, buildPath, r1, r2, r3, r4, q1, q2, q3, q4]
  unfold buildMain
  have f1' : fs.found publishPath = fs'.found publishPath := f1
  have f2' : fs.found buildPath = fs'.found buildPath := f2
  simp only [f1']
  split_ifs with h1 h2 h2 h2 h2
  all_goals first
    | rfl
    | (rw [f1'] at h2; contradiction)
    | exact key _ (.inl rfl)
    | exact key _ (.inr rfl)
    | (simp_all)

namespace BuildDemo

/-- A checkout: all files have the text of their kind; the file `x` is different. -/
def fsOf (there : Bool) (x : String) : BuildFs :=
  { cwd := some "/c", found := fun p => there && p == "../../python/fastsim/resources"
    read := fun p => if p = x then some "old" else some "new" }

/-- A changed parameter file stops the build if the python package is there, and goes unseen if it is not; a changed cycle that is not
one of the four goes unseen. -/
theorem C136_demo : buildMain (fsOf true "") = .ok () ∧ buildMain (fsOf true "/c/resources/longparams.json") = .error .panic ∧
    buildMain (fsOf false "/c/resources/longparams.json") = .ok () ∧ buildMain (fsOf true "/c/resources/cycles/HHDDTCruiseSmooth.csv") = .ok () := by
  decide +kernel

end BuildDemo
end Fastsim.Props
