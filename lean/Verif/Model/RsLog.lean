import Verif.Model.RsRun

/-!
# Model of the messages at the end of a run of the Rust core
(`RustSimDrive::walk` in `rust/fastsim-core/src/simdrive/simdrive_impl.rs`, below `impl`, and `IterMaxMin` in
`rust/fastsim-core/src/traits.rs`, below `traits`)

`rsWalk` leaves the two messages out. Here they are, because their arguments can fail. The macros of the `log` crate evaluate
their arguments only if the level is enabled, so the two levels are inputs. The text of the messages is not modelled. A
quotient of floats may be infinite or not a number: `Flt`. Overflow and the sign of zero are left out.
-/

set_option linter.unusedSectionVars false

namespace Fastsim

/-- A float: a number, an infinity or not a number. -/
inductive Flt (K : Type*) where
  | nan
  | ninf
  | fin (x : K)
  | pinf
  deriving DecidableEq, Repr

/-- Which messages are evaluated: `log::max_level()` at the time of the call. -/
structure LogLevel where
  info : Bool
  warn : Bool
  deriving DecidableEq, Repr

section Lawless
variable {K : Type*} [Zero K] [One K] [NatCast K] [Add K] [Sub K] [Mul K] [Div K] [Neg K]
  [LinearOrder K]

/-- `a / b` of two finite floats. -/
def fltDiv (a b : K) : Flt K :=
  if b = 0 then (if a = 0 then .nan else if 0 < a then .pinf else .ninf) else .fin (a / b)

/-- `partial_cmp` of floats. -/
def fltCmp : Flt K → Flt K → Option Ordering
  | .nan, _ => none
  | _, .nan => none
  | .ninf, .ninf => some .eq
  | .ninf, _ => some .lt
  | .pinf, .pinf => some .eq
  | .pinf, _ => some .gt
  | .fin _, .ninf => some .gt
  | .fin _, .pinf => some .lt
  | .fin x, .fin y => some (if x < y then .lt else if x = y then .eq else .gt)

/-- The fold of `max` and `min` (traits:437-443, 447-453): `o` is the outcome of the comparison that replaces the entry kept. -/
def extremeStep (o : Ordering) (acc : Except RsErr (Flt K)) (e : Flt K) : Except RsErr (Flt K) :=
  match acc with
  | .error r => .error r
  | .ok a =>
    match fltCmp e a with
    | none => .error .err
    | some c => if c = o then .ok e else .ok a

/-- `IterMaxMin::max` (traits:435-444): the fold starts with the first entry and visits it again. -/
def rsMax (l : List (Flt K)) : Except RsErr (Flt K) :=
  match l with
  | [] => .error .err
  | x :: _ => l.foldl (extremeStep .gt) (.ok x)

/-- `IterMaxMin::min` (traits:445-454). -/
def rsMin (l : List (Flt K)) : Except RsErr (Flt K) :=
  match l with
  | [] => .error .err
  | x :: _ => l.foldl (extremeStep .lt) (.ok x)

/-- `self.cyc.dt_s() / self.cyc0.dt_s()` (impl:506): arrays of different lengths cannot be divided, as in `rsWalk`. -/
def rsRatios (s : Sim K) : Except RsErr (List (Flt K)) :=
  if (rsDt s.cyc).length = (rsDt s.cyc0).length then .ok (List.zipWith fltDiv (rsDt s.cyc) (rsDt s.cyc0)) else .error .panic

/-- The argument of the first message (impl:503-507); `none`: nothing fails. -/
def rsInfoFails (s : Sim K) : Option RsErr :=
  match rsRatios s with
  | .error e => some e
  | .ok q =>
    match rsMax q with
    | .error e => some e
    | .ok _ => none

/-- The argument of the second message (impl:510-513). -/
def rsWarnFails (s : Sim K) : Option RsErr :=
  match rsMax ((rsDt s.cyc).map Flt.fin) with
  | .error e => some e
  | .ok _ => none

/-- The messages after the loop of `walk` (impl:501-514), with the feature `logging`, which is on by default: the first failure
of an argument that is evaluated. -/
def rsMessages (L : LogLevel) (P : SimParams K) (s : Sim K) : Option RsErr :=
  if (rsDt s.cyc).any fun d => decide (((5 : ℕ) : K) < d) then
    match (if P.missedTrace = true ∧ L.info = true then rsInfoFails s else none) with
    | some e => some e
    | none => if L.warn = true then rsWarnFails s else none
  else none

/-- `walk` (impl:491-516) with its messages. -/
def rsWalkLog (L : LogLevel) (F : Fns K) (H : RsHooks K) (V : Veh K) (P : SimParams K) (s : Sim K) (initSoc : K)
    (aux : Option (List K)) : Except RsErr (Sim K) :=
  match rsWalk F H V P s initSoc aux with
  | .error e => .error e
  | .ok s =>
    match rsMessages L P s with
    | some e => .error e
    | none => .ok s

/-- The charge-balancing loop (impl:413-447) over `rsWalkLog`; see `rsHevLoop`. -/
def rsHevLoopLog (L : LogLevel) (F : Fns K) (H : RsHooks K) (V : Veh K) (P : SimParams K) (aux : Option (List K)) (count : Nat)
    (e soc : K) (s : Sim K) : Except RsErr (Sim K × K) :=
  if h : V.essToFuelOkError < e ∧ count < P.simCountMax then
    match rsWalkLog L F H V P { s with hevCount := count + 1 } soc aux with
    | .error err => .error err
    | .ok s' =>
      if s'.rows.length ≠ s'.cyc.length then .error .panic
      else rsHevLoopLog L F H V P aux (count + 1) (rsEss2Fuel V s')
        (min V.maxSoc (max V.minSoc (s'.rows.getLast?.getD Row.zero).dec.soc)) s'
  else .ok (s, soc)
termination_by P.simCountMax - count
decreasing_by omega

/-- `sim_drive` (impl:395-457) over `rsWalkLog`, without `set_post_scalars`; see `rsDrive`. -/
def rsDriveLog (L : LogLevel) (F : Fns K) (H : RsHooks K) (V : Veh K) (P : SimParams K) (s : Sim K) (initSoc : Option K)
    (aux : Option (List K)) : Except RsErr (Sim K) :=
  let s : Sim K := { s with hevCount := 0 }
  match initSoc with
  | some soc => rsWalkLog L F H V P s soc aux
  | none =>
    match V.ptType with
    | .conv => rsWalkLog L F H V P s ((V.maxSoc + V.minSoc) / 2) aux
    | .hev =>
      match rsHevLoopLog L F H V P aux 0 1 ((V.maxSoc + V.minSoc) / 2) s with
      | .error e => .error e
      | .ok r => rsWalkLog L F H V P r.1 r.2 aux
    | .phev => rsWalkLog L F H V P s V.maxSoc aux
    | .bev => rsWalkLog L F H V P s V.maxSoc aux

/-- `sim_drive_accel` (impl:462-478) over `rsWalkLog`, without `set_post_scalars`; see `rsDriveAccel`. -/
def rsDriveAccelLog (L : LogLevel) (F : Fns K) (H : RsHooks K) (V : Veh K) (P : SimParams K) (s : Sim K) (initSoc : Option K)
    (aux : Option (List K)) : Except RsErr (Sim K) :=
  let auto := match V.ptType with
    | .conv => (V.maxSoc + V.minSoc) / 2
    | .hev => (V.maxSoc + V.minSoc) / 2
    | _ => V.maxSoc
  rsWalkLog L F H V P s (initSoc.getD auto) aux

end Lawless
end Fastsim
