import Verif.Model.Cycle

/-!
# Names and rolling averages (`camel_to_snake`, `rollav`, utilities.py:58-90)
-/

namespace Fastsim

/-- `[A-Z]` -/
def isUpC (c : Char) : Bool := 'A' ≤ c ∧ c ≤ 'Z'
/-- `[a-z]` -/
def isLowC (c : Char) : Bool := 'a' ≤ c ∧ c ≤ 'z'
/-- `[a-z0-9]` -/
def isLowDigC (c : Char) : Bool := isLowC c ∨ ('0' ≤ c ∧ c ≤ '9')

/-- `re.sub`: at each position the pattern is tried; a match is replaced and the search goes on behind it, otherwise
the character is copied. `m` gives the replacement and the text behind the match; the patterns below never match the
empty string. `fuel` is the number of characters left at most. -/
def reSub (m : List Char → Option (List Char × List Char)) : Nat → List Char → List Char
  | 0, s => s
  | _ + 1, [] => []
  | n + 1, c :: s =>
    match m (c :: s) with
    | some (out, rest) => out ++ reSub m n rest
    | none => c :: reSub m n s

/-- `'(.)([A-Z][a-z]+)'` replaced by `\1_\2` (utilities.py:89); `.` does not match a line break. -/
def camelPat1 : List Char → Option (List Char × List Char)
  | c :: u :: l :: s =>
    if c ≠ '\n' ∧ isUpC u ∧ isLowC l then
      some (c :: '_' :: u :: l :: s.takeWhile isLowC, s.dropWhile isLowC)
    else none
  | _ => none

/-- `'([a-z0-9])([A-Z])'` replaced by `\1_\2` (utilities.py:90). -/
def camelPat2 : List Char → Option (List Char × List Char)
  | c :: u :: s => if isLowDigC c ∧ isUpC u then some ([c, '_', u], s) else none
  | _ => none

/-- utilities.py:87-90 `camel_to_snake`. `str.lower` is modelled for ASCII. -/
def camelToSnake (s : List Char) : List Char :=
  let s1 := reSub camelPat1 s.length s
  (reSub camelPat2 s1.length s1).map Char.toLower

section
variable {K : Type*}

/-- An argument of `np.concatenate`: a number (a zero-dimensional array) or a one-dimensional array. -/
inductive NpArg (K : Type*) where
  | scalar (x : K)
  | arr (l : List K)

/-- `np.concatenate`: zero-dimensional arrays cannot be concatenated (`ValueError`). -/
def npConcatenate : List (NpArg K) → Except PyErr (List K)
  | [] => .ok []
  | .scalar _ :: _ => .error .valueError
  | .arr l :: as =>
    match npConcatenate as with
    | .error e => .error e
    | .ok l' => .ok (l ++ l')

variable [Zero K] [Add K] [Sub K] [Mul K] [Div K]

/-- The loop of `rollav` (utilities.py:77-84). -/
def rollavLoop (dx x y : List K) (width : Nat) : List K :=
  (List.range x.length).map fun i =>
    let at' (l : List K) (j : Nat) : K := l.getD j 0
    let from' := if i < width then 0 else i - width
    if i = 0 then at' y 0
    else ((List.range (i - from')).map fun j => at' dx (from' + j) * at' y (from' + j)).sum
      / (at' x i - at' x from')

/-- utilities.py:58-84 `rollav` for pandas series `x`; `diff` is `x.diff()` (its first entry, `nan`, is not
represented, so it is a parameter). -/
def rollav (diff : List K → List K) (x y : List K) (width : Nat) : Except PyErr (List K) := do
  if x.length ≠ y.length then .error .assertionError
  let dx ← npConcatenate [.scalar 0, .arr (diff x)]
  .ok (rollavLoop dx x y width)

end

end Fastsim
