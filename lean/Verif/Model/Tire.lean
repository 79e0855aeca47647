import Verif.Model.Units

/-!
# Reading tire codes (`calculate_tire_radius`, utilities.py:381-421)

The pattern `(?i)[P|LT|ST|T]?(([0-9]{2,3}\.)?[0-9]+)/(([0-9]{1,2}\.)?[0-9]+)[B|D|R]?[x|\-| ]?(([0-9]{1,2}\.)?[0-9]+)[A|B|...]*`
is modelled as a backtracking matcher: each part returns the list of all ways to match, in the order in which
Python's `re` tries them, and `re.match` takes the first complete one. The trailing `[...]*` always
matches and contains no group, so it is left out. Python's case-insensitive matching of the letters is
modelled for ASCII only (Python also lets `ſ` match `S`).
-/

namespace Fastsim

/-- `[0-9]` -/
def isDig (c : Char) : Bool := '0' ≤ c ∧ c ≤ '9'

/-- `[P|LT|ST|T]` is a character class (it contains the bar). -/
def prefixClass : List Char := ['P', 'L', 'S', 'T', 'p', 'l', 's', 't', '|']
/-- `[B|D|R]` -/
def buildClass : List Char := ['B', 'D', 'R', 'b', 'd', 'r', '|']
/-- `[x|\-| ]` -/
def sepClass : List Char := ['x', 'X', '-', ' ', '|']

/-- `[...]?` -/
def optClass (cls : List Char) : List Char → List (List Char)
  | c :: s => if c ∈ cls then [s, c :: s] else [c :: s]
  | [] => [[]]

/-- `[0-9]+`, longest match first. -/
def digits1 : List Char → List (List Char × List Char)
  | c :: s => if isDig c then (digits1 s).map (fun p => (c :: p.1, p.2)) ++ [([c], s)] else []
  | [] => []

/-- `[0-9]{n}\.` -/
def dotPrefixN (n : Nat) (s : List Char) : List (List Char × List Char) :=
  match s.drop n with
  | '.' :: r => if (s.take n).all isDig ∧ (s.take n).length = n then [(s.take n ++ ['.'], r)] else []
  | _ => []

/-- `(([0-9]{lo,hi}\.)?[0-9]+)` for `hi = lo + 1` -/
def numPat (lo : Nat) (s : List Char) : List (List Char × List Char) :=
  (dotPrefixN (lo + 1) s ++ dotPrefixN lo s).flatMap (fun p => (digits1 p.2).map fun q => (p.1 ++ q.1, q.2)) ++
    digits1 s

/-- `/` -/
def slash : List Char → List (List Char)
  | '/' :: s => [s]
  | _ => []

/-- All matches of the pattern (utilities.py:394), with the groups 1, 3 and 5. -/
def tireMatches (s : List Char) : List (List Char × List Char × List Char) :=
  (optClass prefixClass s).flatMap fun s =>
  (numPat 2 s).flatMap fun w =>
  (slash w.2).flatMap fun s =>
  (numPat 1 s).flatMap fun a =>
  (optClass buildClass a.2).flatMap fun s =>
  (optClass sepClass s).flatMap fun s =>
  (numPat 1 s).map fun d => (w.1, a.1, d.1)

section
variable {K : Type*} [Zero K] [One K] [NatCast K] [Add K] [Sub K] [Mul K] [Div K] [Neg K] [LinearOrder K]

/-- `float(...)` of digits with an optional point: integer digits before the point, then tenths, hundredths,
and so on. `unit` is the value of the next digit after the point, `none` before it. -/
def readFloat (acc : K) : Option K → List Char → K
  | _, [] => acc
  | none, c :: s =>
    if c = '.' then readFloat acc (some (1 / 10)) s
    else readFloat (acc * 10 + ((c.toNat - '0'.toNat : Nat) : K)) none s
  | some u, c :: s => readFloat (acc + ((c.toNat - '0'.toNat : Nat) : K) * u) (some (u / 10)) s

/-- utilities.py:381-421 `calculate_tire_radius` -/
def calculateTireRadius (code : List Char) (u : LenUnit) : Except PyErr K :=
  match (tireMatches code).head? with
  | none => .error .valueError
  | some (w, a, d) => tireRadius (readFloat 0 none w) (readFloat 0 none a) (readFloat 0 none d) u

end

end Fastsim
