import Verif.Model.Native

/-!
# C147: the values a python vehicle hands to the Rust core
-/

namespace Fastsim.Spec
open Fastsim

variable {X A : Type*}

mutual

/-- A value without the difference between numpy's and python's numbers and sequences. -/
def plain : PyVal X A → PyVal X A
  | .np x => .float x
  | .float x => .float x
  | .int n => .int n
  | .other a => .other a
  | .arr l => .list (plains l)
  | .list l => .list (plains l)
  | .dict d => .dict (plainItems d)

/-- Its elements. -/
def plains : List (PyVal X A) → List (PyVal X A)
  | [] => []
  | v :: l => plain v :: plains l

/-- Its items. -/
def plainItems : List (String × PyVal X A) → List (String × PyVal X A)
  | [] => []
  | (k, v) :: d => (k, plain v) :: plainItems d

end

mutual

/-- There is no number or array of numpy in a value. -/
def NoNumpy : PyVal X A → Prop
  | .np _ => False
  | .float _ => True
  | .int _ => True
  | .other _ => True
  | .arr _ => False
  | .list l => NoNumpys l
  | .dict d => NoNumpyItems d

/-- Nor in its elements. -/
def NoNumpys : List (PyVal X A) → Prop
  | [] => True
  | v :: l => NoNumpy v ∧ NoNumpys l

/-- Nor in its items. -/
def NoNumpyItems : List (String × PyVal X A) → Prop
  | [] => True
  | (_, v) :: d => NoNumpy v ∧ NoNumpyItems d

end

/-- The numbers of a list of `float`s. -/
def floats : List (PyVal X A) → Option (List X)
  | [] => some []
  | .float x :: l => (floats l).map (x :: ·)
  | _ :: _ => none

/-- How an array of numbers is read by the Rust core (the format of `ndarray`): version one, as many numbers as the extent says. -/
def readArray : PyVal X A → Option (List X)
  | .dict [("v", .int 1), ("dim", .list [.int n]), ("data", .list l)] => if l.length = n then floats l else none
  | _ => none

end Fastsim.Spec

namespace Fastsim.Props
open Fastsim Spec

variable {X A : Type*}

theorem toNatives_length : ∀ l : List (PyVal X A), (toNatives l).length = l.length
  | [] => by rw [toNatives]
  | v :: l => by rw [toNatives, List.length_cons, toNatives_length l, List.length_cons]

theorem toNative_not_list (v : PyVal X A) (l : List (PyVal X A)) : toNative v ≠ .list l := by
  cases v <;> simp [toNative]

/-- A sequence is never taken for a dictionary. -/
theorem toNative_array_ne {n : Nat} {l : List (PyVal X A)} {d : List (String × PyVal X A)} :
    [("v", .int 1), ("dim", .list [.int n]), ("data", .list l)] ≠ toNativeItems d := by
  match d with
  | [] => simp [toNativeItems]
  | [a] => simp [toNativeItems]
  | a :: (k, v) :: d =>
    intro e
    simp only [toNativeItems, List.cons.injEq, Prod.mk.injEq] at e
    exact toNative_not_list v _ e.2.1.2.symm

mutual

theorem native_plain : ∀ v : PyVal X A, toNative (plain v) = toNative v
  | .np x => by simp [plain, toNative]
  | .float x => by simp [plain]
  | .int n => by simp [plain]
  | .other a => by simp [plain]
  | .arr l => by
    have e := natives_plain l
    have h := congrArg List.length e
    rw [toNatives_length, toNatives_length] at h
    simp [plain, toNative, e, h]
  | .list l => by
    have e := natives_plain l
    have h := congrArg List.length e
    rw [toNatives_length, toNatives_length] at h
    simp [plain, toNative, e, h]
  | .dict d => by simp [plain, toNative, items_plain d]

theorem natives_plain : ∀ l : List (PyVal X A), toNatives (plains l) = toNatives l
  | [] => by simp [plains]
  | v :: l => by simp [plains, toNatives, native_plain v, natives_plain l]

theorem items_plain : ∀ d : List (String × PyVal X A), toNativeItems (plainItems d) = toNativeItems d
  | [] => by simp [plainItems]
  | (k, v) :: d => by simp [plainItems, toNativeItems, native_plain v, items_plain d]

end

mutual

theorem native_inj : ∀ v w : PyVal X A, toNative v = toNative w → plain v = plain w
  | .np x, w, e => by cases w <;> simp_all [toNative, plain]
  | .float x, w, e => by cases w <;> simp_all [toNative, plain]
  | .int n, w, e => by cases w <;> simp_all [toNative, plain]
  | .other a, w, e => by cases w <;> simp_all [toNative, plain]
  | .arr l, w, e => by
    cases w with
    | arr m =>
      simp only [toNative, PyVal.dict.injEq, List.cons.injEq, Prod.mk.injEq, PyVal.list.injEq, true_and, and_true] at e
      simp only [plain, natives_inj l m e.2]
    | list m =>
      simp only [toNative, PyVal.dict.injEq, List.cons.injEq, Prod.mk.injEq, PyVal.list.injEq, true_and, and_true] at e
      simp only [plain, natives_inj l m e.2]
    | dict d =>
      simp only [toNative, PyVal.dict.injEq] at e
      exact absurd e toNative_array_ne
    | _ => simp [toNative] at e
  | .list l, w, e => by
    cases w with
    | arr m =>
      simp only [toNative, PyVal.dict.injEq, List.cons.injEq, Prod.mk.injEq, PyVal.list.injEq, true_and, and_true] at e
      simp only [plain, natives_inj l m e.2]
    | list m =>
      simp only [toNative, PyVal.dict.injEq, List.cons.injEq, Prod.mk.injEq, PyVal.list.injEq, true_and, and_true] at e
      simp only [plain, natives_inj l m e.2]
    | dict d =>
      simp only [toNative, PyVal.dict.injEq] at e
      exact absurd e toNative_array_ne
    | _ => simp [toNative] at e
  | .dict d, w, e => by
    cases w with
    | arr m =>
      simp only [toNative, PyVal.dict.injEq] at e
      exact absurd e.symm toNative_array_ne
    | list m =>
      simp only [toNative, PyVal.dict.injEq] at e
      exact absurd e.symm toNative_array_ne
    | dict c =>
      simp only [toNative, PyVal.dict.injEq] at e
      simp only [plain, items_inj d c e]
    | _ => simp [toNative] at e

theorem natives_inj : ∀ l m : List (PyVal X A), toNatives l = toNatives m → plains l = plains m
  | [], [], _ => rfl
  | [], w :: m, e => by simp [toNatives] at e
  | v :: l, [], e => by simp [toNatives] at e
  | v :: l, w :: m, e => by
    simp only [toNatives, List.cons.injEq] at e
    simp only [plains, native_inj v w e.1, natives_inj l m e.2]

theorem items_inj : ∀ d c : List (String × PyVal X A), toNativeItems d = toNativeItems c → plainItems d = plainItems c
  | [], [], _ => rfl
  | [], (k, w) :: c, e => by simp [toNativeItems] at e
  | (k, v) :: d, [], e => by simp [toNativeItems] at e
  | (k, v) :: d, (k', w) :: c, e => by
    simp only [toNativeItems, List.cons.injEq, Prod.mk.injEq] at e
    simp only [plainItems, native_inj v w e.1.2, items_inj d c e.2, e.1.1]

end

/-- **C147 (nothing is lost or mixed up).** Two values are handed over alike exactly if they differ at most in being numbers or
sequences of numpy or of python; in particular no dictionary is handed over as an array. -/
theorem C147_faithful (v w : PyVal X A) : toNative v = toNative w ↔ plain v = plain w :=
  ⟨native_inj v w, fun e => by rw [← native_plain v, e, native_plain w]⟩

mutual

theorem native_clean : ∀ v : PyVal X A, NoNumpy (toNative v)
  | .np x => by simp [toNative, NoNumpy]
  | .float x => by simp [toNative, NoNumpy]
  | .int n => by simp [toNative, NoNumpy]
  | .other a => by simp [toNative, NoNumpy]
  | .arr l => by simp [toNative, NoNumpy, NoNumpys, NoNumpyItems, natives_clean l]
  | .list l => by simp [toNative, NoNumpy, NoNumpys, NoNumpyItems, natives_clean l]
  | .dict d => by simp [toNative, NoNumpy, items_clean d]

theorem natives_clean : ∀ l : List (PyVal X A), NoNumpys (toNatives l)
  | [] => by simp [toNatives, NoNumpys]
  | v :: l => by simp [toNatives, NoNumpys, native_clean v, natives_clean l]

theorem items_clean : ∀ d : List (String × PyVal X A), NoNumpyItems (toNativeItems d)
  | [] => by simp [toNativeItems, NoNumpyItems]
  | (k, v) :: d => by simp [toNativeItems, NoNumpyItems, native_clean v, items_clean d]

end

/-- **C147 (native).** What is handed over has no `np.float64` and no `np.ndarray` in it, at any depth. -/
theorem C147_native (v : PyVal X A) : NoNumpy (toNative v) := native_clean v

theorem floats_native : ∀ l : List X, floats (toNatives (l.map (PyVal.np (A := A)))) = some l ∧
    floats (toNatives (l.map (PyVal.float (A := A)))) = some l
  | [] => by simp [toNatives, floats]
  | x :: l => by simp [toNatives, toNative, floats, floats_native l]

/-- **C147 (arrays).** An array of numbers is read by the Rust core as these numbers, be it one of numpy or a list. -/
theorem C147_array (l : List X) : readArray (toNative (.arr (l.map (PyVal.np (A := A))))) = some l ∧
    readArray (toNative (.list (l.map (PyVal.float (A := A))))) = some l := by
  constructor
  · simp only [toNative, readArray, toNatives_length, if_true, (floats_native (A := A) l).1]
  · simp only [toNative, readArray, toNatives_length, if_true, (floats_native (A := A) l).2]

/-- **C147 (found: matrices).** An array of arrays is not handed over as a matrix: unless it is empty, it is not read as numbers. -/
theorem C147_matrix (r : List (PyVal X A)) (l : List (PyVal X A)) : readArray (toNative (.arr (.arr r :: l))) = none ∧
    readArray (toNative (.list (.list r :: l))) = none := by
  constructor <;> simp [toNative, toNatives, readArray, floats]

/-- **C147 (found: twice).** What was handed over once must not be handed over again: an array is then no longer read as one. -/
theorem C147_twice (l : List (PyVal X A)) : toNative (toNative (.arr l)) ≠ toNative (.arr l) ∧
    readArray (toNative (toNative (.arr l))) = none := by
  constructor
  · simp [toNative, toNativeItems]
  · simp [toNative, toNativeItems, readArray]

/-- **C147 (case).** A vehicle with a number, an array, a dictionary that looks like an array, and an array of whole numbers. -/
theorem C147_demo : readArray (toNative (.arr [.np 1, .np 2] : PyVal Nat Bool)) = some [1, 2] ∧
    readArray (toNative (.dict [("v", .int 1), ("dim", .list [.int 2]), ("data", .list [.float 1, .float 2])] : PyVal Nat Bool)) = none ∧
    readArray (toNative (.arr [.other true] : PyVal Nat Bool)) = none ∧
    toNative (.dict [("mass", .np 3)] : PyVal Nat Bool) = .dict [("mass", .float 3)] := by
  refine ⟨?_, ?_, ?_, ?_⟩ <;> simp [toNative, toNatives, toNativeItems, readArray, floats]

end Fastsim.Props
