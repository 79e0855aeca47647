import Verif.Model.RsFile

/-!
# Model of clearing the cache of the Rust core

`clear_cache` (rust/fastsim-core/src/utils.rs:622-625) on a Unix file system.

Simplifications: a place is the list of names from the root of the file system; there are no links; everything may be deleted.
-/

namespace Fastsim

/-- The components of an absolute path; empty ones and `.` are skipped. -/
def comps (p : Txt) : List Txt := (pieces p).filter fun c => decide (c ≠ [] ∧ c ≠ ['.'])

/-- A file system with folders: what the files contain, and which places are folders. -/
structure RsTree (B : Type*) where
  files : RsDisk (List Txt) B
  dirs : List Txt → Bool

/-- How the system follows a path from folder to folder. The folder above the root is the root. -/
def follow (dirs : List Txt → Bool) : List Txt → List Txt → Option (List Txt)
  | cur, [] => if dirs cur = true then some cur else none
  | cur, c :: cs =>
    if dirs cur = true then follow dirs (if c = ['.', '.'] then cur.dropLast else cur ++ [c]) cs else none

/-- What a path ends with, slashes at the end aside. -/
def lastPiece (p : Txt) : Option Txt := ((pieces p).filter fun c => decide (c ≠ [])).getLast?

/-- `std::fs::remove_dir_all`: first what is in the folder is deleted, then the folder. A folder that is named by `.`, by `..` or as
the root is emptied and cannot be deleted; `odd` is what is reported then, which depends on the version of the library. -/
def removeDirAll {B : Type*} (odd : Except RsErr Unit) (t : RsTree B) (p : Txt) : RsTree B × Except RsErr Unit :=
  match follow t.dirs [] (comps p) with
  | none => (t, .error .err)
  | some l =>
    let files : RsDisk (List Txt) B := fun x => if l <+: x then none else t.files x
    if lastPiece p = none ∨ lastPiece p = some ['.'] ∨ lastPiece p = some ['.', '.'] then
      (⟨files, fun x => if l <+: x ∧ x ≠ l then false else t.dirs x⟩, odd)
    else (⟨files, fun x => if l <+: x then false else t.dirs x⟩, .ok ())

/-- utils.rs:622-625 `clear_cache`; `root` is the data folder of FASTSim (`path_to_cache`, 600-605). -/
def clearCache {B : Type*} (odd : Except RsErr Unit) (t : RsTree B) (root sub : Txt) : RsTree B × Except RsErr Unit :=
  removeDirAll odd t (joinPath root sub)

end Fastsim
