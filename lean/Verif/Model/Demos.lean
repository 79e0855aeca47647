import Verif.Model.Load

/-!
# Copying the demos

`utils/utilities.py`: `copy_demo_files`.

Simplifications: the messages printed are left out; so are files that cannot be read or written, and a target path that
exists but is no directory.
-/

namespace Fastsim

/-- A directory: the contents of its files by name. -/
abbrev Dir := Txt → Option Txt

/-- `fnmatch(name, '*' + w + '*.py')`, as in utils/utilities.py:449-450 -/
def globbed (w : String) (name : Txt) : Bool :=
  decide (".py".toList <:+ name) && decide (w.toList <:+: name.take (name.length - 3))

/-- utils/utilities.py:451-452: `list.remove` for every test; a test that is not in the list is a `ValueError`. -/
def removeAll (tests demos : List (Txt × Txt)) : Except PyErr (List (Txt × Txt)) :=
  match tests with
  | [] => .ok demos
  | t :: tests => if t ∈ demos then removeAll tests (demos.erase t) else .error .valueError

/-- utils/utilities.py:460-461, 471-472: the line that is put in front. -/
def demoHeader (version : Txt) : Txt :=
  "# %% Copied from FASTSim version 'v".toList ++ version ++
    "'. Guaranteed compatibility with this version only.\n".toList

/-- utils/utilities.py:453-476: one round of the loop; `none` is a directory that does not exist yet. -/
def copyDemo (version : Txt) (target : Option Dir) (file : Txt × Txt) : Option Dir :=
  let old : Dir := match target with
    | some d => d
    | none => fun _ => none
  some fun name => if name = file.1 then some (demoHeader version ++ file.2) else old name

/-- utils/utilities.py:435-476 `copy_demo_files`: the outcome and the target directory afterwards. `inside` says that the
target is the directory of the demos itself, `files` are the names and contents of the files in that directory. -/
def copyDemos (version : Txt) (inside : Bool) (files : List (Txt × Txt)) (target : Option Dir) :
    Except PyErr Unit × Option Dir :=
  if inside then (.error .assertionError, target)
  else
    let demos := files.filter fun f => globbed "demo" f.1
    let tests := files.filter fun f => globbed "test" f.1
    match removeAll tests demos with
    | .error e => (.error e, target)
    | .ok l => (.ok (), l.foldl (copyDemo version) target)

end Fastsim
