import Verif.Model.Tire
import Verif.Model.RsStep

/-!
# Reading tire codes in the Rust core (`tire_code_to_radius`, rust/fastsim-core/src/utils.rs:500-547)

The pattern is
`(?i)[P|LT|ST|T]?((?:[0-9]{2,3}\.)?[0-9]+)/((?:[0-9]{1,2}\.)?[0-9]+) ?[B|D|R]?[x|\-| ]?((?:[0-9]{1,2}\.)?[0-9]+)[A|B|...]?`,
modelled as in `Model/Tire.lean`. `Regex::captures` looks for the leftmost match anywhere in the text and takes the one a
backtracking matcher would find first there. The trailing class always matches and has no group, so it is left out; case is
modelled for ASCII only.
-/

namespace Fastsim

/-- All matches of the pattern (utils.rs:502) at the start of `s`, with the groups 1, 2 and 3. -/
def rsTireMatches (s : List Char) : List (List Char × List Char × List Char) :=
  (optClass prefixClass s).flatMap fun s =>
  (numPat 2 s).flatMap fun w =>
  (slash w.2).flatMap fun s =>
  (numPat 1 s).flatMap fun a =>
  (optClass [' '] a.2).flatMap fun s =>
  (optClass buildClass s).flatMap fun s =>
  (optClass sepClass s).flatMap fun s =>
  (numPat 1 s).map fun d => (w.1, a.1, d.1)

/-- `TIRE_CODE_REGEX.captures` (utils.rs:532): the first match at the leftmost place that has one. -/
def rsTireSearch : List Char → Option (List Char × List Char × List Char)
  | [] => (rsTireMatches []).head?
  | c :: s => match (rsTireMatches (c :: s)).head? with
    | some r => some r
    | none => rsTireSearch s

section
variable {K : Type*} [Zero K] [One K] [NatCast K] [Add K] [Sub K] [Mul K] [Div K] [Neg K] [LinearOrder K]

/-- utils.rs:530-547 `tire_code_to_radius`. The numbers that the pattern lets through can always be parsed. -/
def rsTireRadius (code : List Char) : Except RsErr K :=
  match rsTireSearch code with
  | none => .error .err
  | some (w, a, d) =>
    let sidewall : K := readFloat 0 none w * readFloat 0 none a / 100
    .ok ((readFloat 0 none d * (254 / 10) / 2 + sidewall) / 1000)

end
end Fastsim
