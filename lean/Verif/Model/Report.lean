import Verif.Model.Post
import Verif.Model.Copy

/-!
# Model of what a finished run reports besides its totals
(`SimDrive.set_post_scalars`: `accel_kw`; `SimDrivePost.get_diagnostics`: names of the energies;
`SimDrivePost.set_battery_wear`: `ess_perc_dead`; `python/fastsim/simdrive.py`)
-/

namespace Fastsim

/-- The groups of `re.search(r'(\w*)_kw(?!h)(\w*)', var)` (simdrive.py:2458-2462, 2483) for a name made of word characters
(every attribute name is): the first group is greedy, so the split is at the last `_kw` that no `h` follows. -/
def splitKw : List Char → Option (List Char × List Char)
  | [] => none
  | c :: cs =>
    match splitKw cs with
    | some (a, b) => some (c :: a, b)
    | none =>
      match c :: cs with
      | '_' :: 'k' :: 'w' :: 'h' :: _ => none
      | '_' :: 'k' :: 'w' :: b => some ([], b)
      | _ => none

/-- `search[1] + '_kj' + search[2]` (simdrive.py:2484-2487); `none` for an attribute that is no power. -/
def energyKey (var : List Char) : Option (List Char) :=
  (splitKw var).map fun p => p.1 ++ ['_', 'k', 'j'] ++ p.2

section Lawless
variable {K : Type*} [Zero K] [One K] [NatCast K] [Add K] [Sub K] [Mul K] [Div K] [Neg K]
  [LinearOrder K]

/-- The loop of `get_diagnostics` over the attributes of the object (simdrive.py:2470-2487): `chans` are its attributes that
are arrays, in their order. -/
def diagLoop (times : List K) (chans : List (List Char × List K)) : PyDict K :=
  chans.foldl (fun out c =>
    match energyKey c.1 with
    | none => out
    | some key =>
      PyDict.set (PyDict.set out (String.ofList (key ++ ['_', 'p', 'o', 's'])) (diagEnergies times c.2).1)
        (String.ofList (key ++ ['_', 'n', 'e', 'g'])) (diagEnergies times c.2).2) []

/-- `get_diagnostics()` (simdrive.py:2450-2496) of a run `s` with attributes `chans`. -/
def diagnostics (kwhPerGge : K) (s : Sim K) (chans : List (List Char × List K)) : PyDict K :=
  PyDict.set (PyDict.set (diagLoop s.cyc.times chans) "dist_miles_final" (totalMiles s)) "mpgge" (diagMpgge kwhPerGge s)

/-- `accel_kw[1:]` as `set_post_scalars` leaves it (simdrive.py:2260-2261); `dts` is `cyc.dt_s[1:]`. -/
def accelTail (V : Veh K) : List (Row K) → List K → List K
  | r0 :: r1 :: rows, dt :: dts =>
    V.vehKg / (2 * dt) * (r1.ach.mpsAch * r1.ach.mpsAch - r0.ach.mpsAch * r0.ach.mpsAch) / 1000
      :: accelTail V (r1 :: rows) dts
  | _, _ => []

/-- `accel_kw` after the run (simdrive.py:2260-2261): the entry of index 0 stays as it was. -/
def accelAfter (V : Veh K) (s : Sim K) : List K :=
  (s.rows.take 1).map (fun r => r.pow.accelKw) ++ accelTail V s.rows (dtS s.cyc).tail

/-- One entry of `ess_perc_dead` (simdrive.py:2522-2527) from the depth of the cycle that ends there; `a` and `b` are
`ess_life_coef_a` and `ess_life_coef_b`. -/
def percDead (F : Fns K) (a b dod : K) : K :=
  if dod ≠ 0 then F.pow a (1 / b) / F.pow dod (1 / b) else 0

/-- `dod_cycs` and `ess_perc_dead` after a call of `set_battery_wear` that leaves `add` in `add_kwh` (simdrive.py:2510-2527);
`old` is the entry of index 0 of `dod_cycs`, which no call changes. -/
def wearReport (F : Fns K) (a b essMaxKwh old : K) (add : List K) : List K × List K :=
  let dod := old :: wearDodTail essMaxKwh add
  (dod, dod.map (percDead F a b))

end Lawless
end Fastsim
