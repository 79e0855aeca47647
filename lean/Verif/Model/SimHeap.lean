import Verif.Model.Run
import Mathlib.Logic.Function.Basic

/-!
# Several `SimDrive` objects in one heap (simdrive.py:184-208, 2309-2370)

numpy arrays are objects: `sim_drive_step` writes into them, `init_arrays` and the constructors make new ones,
and a shallow copy of a `SimDrive` shares them. An object holds the addresses of its arrays; the arrays of one
`Cycle` and the arrays written by `solve_step` (one list of `Row`s) are each held as one cell.
-/

namespace Fastsim

/-- Memory: cells by address, one address space per kind of cell, and the next free address. -/
structure SimHeap (K : Type*) where
  next : Nat
  cyc : Nat → Cyc K
  rows : Nat → List (Row K)
  nums : Nat → List K
  flags : Nat → List Bool
  ints : Nat → List Int
  nats : Nat → List Nat

/-- A `SimDrive` object: addresses of its cycles and arrays, its counters (held by value), its vehicle and
parameters (never written by a simulation). -/
structure SimObj (K : Type*) where
  cyc0 : Nat
  cyc : Nat
  rows : Nat
  aux : Nat
  impose : Nat
  coastDelay : Nat
  idmTarget : Nat
  missIters : Nat
  i : Nat
  hevCount : Nat
  veh : Veh K
  params : SimParams K

/-- What a program can do with an object: `sim_drive_step()`, `init_for_step(init_soc)`. -/
inductive SimAct (K : Type*) where
  | step
  | init (soc : K)

section Lawless
variable {K : Type*} [Zero K] [One K] [NatCast K] [Add K] [Sub K] [Mul K] [Div K] [Neg K]
  [LinearOrder K]

/-- The state of an object as seen through its attributes. -/
def SimObj.read (h : SimHeap K) (o : SimObj K) : Sim K :=
  { cyc0 := h.cyc o.cyc0, cyc := h.cyc o.cyc, rows := h.rows o.rows, aux := h.nums o.aux
    impose := h.flags o.impose, coastDelay := h.ints o.coastDelay, idmTarget := h.nums o.idmTarget
    missIters := h.nats o.missIters, i := o.i, hevCount := o.hevCount }

/-- Writing into the arrays of an object (`self.mps_ach[i] = ...`, simdrive.py:632-2188). `cyc0` is not
written. -/
def SimObj.write (h : SimHeap K) (o : SimObj K) (s : Sim K) : SimHeap K × SimObj K :=
  ({ h with
     cyc := Function.update h.cyc o.cyc s.cyc
     rows := Function.update h.rows o.rows s.rows
     nums := Function.update (Function.update h.nums o.aux s.aux) o.idmTarget s.idmTarget
     flags := Function.update h.flags o.impose s.impose
     ints := Function.update h.ints o.coastDelay s.coastDelay
     nats := Function.update h.nats o.missIters s.missIters },
   { o with i := s.i, hevCount := s.hevCount })

/-- New arrays with the contents of `s` (`init_arrays`, simdrive.py:210-333; `copy.deepcopy`,
simdrive.py:2366-2368). -/
def SimObj.fresh (h : SimHeap K) (o : SimObj K) (s : Sim K) : SimHeap K × SimObj K :=
  ({ h with
     next := h.next + 2
     rows := Function.update h.rows h.next s.rows
     nums := Function.update (Function.update h.nums h.next s.aux) (h.next + 1) s.idmTarget
     flags := Function.update h.flags h.next s.impose
     ints := Function.update h.ints h.next s.coastDelay
     nats := Function.update h.nats h.next s.missIters },
   { o with rows := h.next, aux := h.next, idmTarget := h.next + 1, impose := h.next, coastDelay := h.next
            missIters := h.next, i := s.i, hevCount := s.hevCount })

/-- A new cycle object for `self.cyc` (`cycle.copy_cycle`, simdrive.py:430, 2348-2351). -/
def SimObj.freshCyc (h : SimHeap K) (o : SimObj K) (c : Cyc K) : SimHeap K × SimObj K :=
  ({ h with next := h.next + 1, cyc := Function.update h.cyc h.next c }, { o with cyc := h.next })

/-- A new cycle object for `self.cyc0` (simdrive.py:206, 2340-2346). -/
def SimObj.freshCyc0 (h : SimHeap K) (o : SimObj K) (c : Cyc K) : SimHeap K × SimObj K :=
  ({ h with next := h.next + 1, cyc := Function.update h.cyc h.next c }, { o with cyc0 := h.next })

/-- One action. A step beyond the end of the cycle raises `IndexError`. `init_for_step` makes new arrays
(simdrive.py:408) and, with a driving mode or the missed-trace correction on, a new `self.cyc`
(simdrive.py:428-430); no accessory override. -/
def SimObj.act (F : Fns K) (H : Veh K → SimParams K → Hooks K) (h : SimHeap K) (o : SimObj K) :
    SimAct K → Except PyErr (SimHeap K × SimObj K)
  | .step =>
    if (o.read h).i < (o.read h).cyc.length then
      match simDriveStep F (H o.veh o.params) o.veh o.params (o.read h) with
      | .error e => .error e
      | .ok s => .ok (o.write h s)
    else .error .indexError
  | .init soc =>
    match initForStep o.veh o.params (o.read h) soc none with
    | .error e => .error e
    | .ok s =>
      let r := o.fresh h s
      if o.params.missedTrace || o.params.idmAllow || o.params.coastAllow then .ok (r.2.freshCyc r.1 s.cyc)
      else .ok r

/-- `copy_sim_drive(sd, 'python', deep)` (simdrive.py:2309-2370). `copyVeh` is `copy_vehicle`. Both cycles are
new in any case: the constructor and `Cycle.from_dict` copy them (simdrive.py:204-206, cycle.py:159). With
`deep=False` the arrays are those of the original. -/
def copySimDrive (copyVeh : Veh K → Veh K) (deep : Bool) (h : SimHeap K) (o : SimObj K) :
    SimHeap K × SimObj K :=
  let r := { o with veh := copyVeh o.veh }.freshCyc0 h (o.read h).cyc0
  let r := r.2.freshCyc r.1 (o.read h).cyc
  if deep then r.2.fresh r.1 (o.read h) else r

/-- A program that acts on two objects in any order (`true`: the first), ended by the first exception. -/
def runBoth (F : Fns K) (H : Veh K → SimParams K → Hooks K) :
    List (Bool × SimAct K) → SimHeap K → SimObj K → SimObj K → Except PyErr (SimHeap K × SimObj K × SimObj K)
  | [], h, a, b => .ok (h, a, b)
  | (true, x) :: l, h, a, b =>
    match a.act F H h x with
    | .error e => .error e
    | .ok r => runBoth F H l r.1 r.2 b
  | (false, x) :: l, h, a, b =>
    match b.act F H h x with
    | .error e => .error e
    | .ok r => runBoth F H l r.1 a r.2

end Lawless
end Fastsim
