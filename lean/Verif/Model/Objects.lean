import Mathlib.Data.List.Basic

/-!
# Which objects simulations and vehicles share

simdrive.py (`SimDrive.__init_objects__`, `copy_sim_drive`), vehicle.py (the default of `props`, `copy_vehicle`),
parameters.py (`PhysicalProperties`).

Python objects are cells; an attribute that holds an object is the number of its cell. What an object holds by value is a
value of an unspecified type `V`. Simplifications: one value stands for all attributes of an object; the arrays of
results are left out (see `Model/SimHeap.lean`), and so are shallow copies, copies in other representations, and programs
that put one object into two places by hand, except that a simulation may be given another vehicle.
-/

namespace Fastsim

/-- A `Vehicle`: its attributes and the cell of its physical properties. -/
structure VehCell (V : Type*) where
  attrs : V
  props : Nat

/-- A `SimDrive`: the cells of vehicle, cycles, parameters and physical properties. -/
structure SimRefs where
  veh : Nat
  cyc : Nat
  cyc0 : Nat
  params : Nat
  props : Nat

/-- All objects; `mine` are the cells of the cycles that the program made itself. -/
structure World (V : Type*) where
  vehs : List (VehCell V)
  cycs : List V
  params : List V
  props : List V
  mine : List Nat
  sims : List SimRefs

/-- vehicle.py:234: when the module is loaded there is one `PhysicalProperties()`, the default of all vehicles. -/
def World.start {V : Type*} (stdProps : V) : World V := ⟨[], [], [], [stdProps], [], []⟩

/-- How a program can name an object: `vehs[v]`, `vehs[v].props`, the `k`-th cycle that it made itself, `sd.veh`,
`sd.veh.props`, `sd.cyc`, `sd.cyc0`, `sd.sim_params`, `sd.props`. -/
inductive ObjName where
  | veh (v : Nat)
  | vehProps (v : Nat)
  | cyc (k : Nat)
  | simVeh (s : Nat)
  | simVehProps (s : Nat)
  | simCyc (s : Nat)
  | simCyc0 (s : Nat)
  | simParams (s : Nat)
  | simProps (s : Nat)
  deriving DecidableEq

/-- What a program can do. -/
inductive ObjOp (V : Type*) where
  /-- make a vehicle without an argument `props` -/
  | newVeh (v : V)
  /-- make a vehicle with physical properties of its own -/
  | newVehWith (v p : V)
  /-- make a cycle -/
  | newCyc (c : V)
  /-- `SimDrive(cyc, veh)` -/
  | newSim (cyc : ObjName) (veh : Nat)
  /-- `copy_vehicle(veh)` -/
  | copyVeh (veh : Nat)
  /-- `copy_sim_drive(sd)` -/
  | copySim (sim : Nat)
  /-- `sd.veh = veh` -/
  | useVeh (sim veh : Nat)
  /-- `sd.sim_drive()`, which may leave another cycle in `sd.cyc` -/
  | run (sim : Nat) (c : V)
  /-- change attributes of an object -/
  | set (n : ObjName) (x : V)

/-- A cell. -/
inductive ObjCell where
  | veh (a : Nat)
  | cyc (a : Nat)
  | params (a : Nat)
  | props (a : Nat)
  deriving DecidableEq

variable {V : Type*}

/-- The object that a name stands for. -/
def World.cell (w : World V) : ObjName → Option ObjCell
  | .veh v => if v < w.vehs.length then some (.veh v) else none
  | .vehProps v => w.vehs[v]?.map fun o => .props o.props
  | .cyc k => w.mine[k]?.map .cyc
  | .simVeh s => w.sims[s]?.map fun r => .veh r.veh
  | .simVehProps s => w.sims[s]?.bind fun r => w.vehs[r.veh]?.map fun o => .props o.props
  | .simCyc s => w.sims[s]?.map fun r => .cyc r.cyc
  | .simCyc0 s => w.sims[s]?.map fun r => .cyc r.cyc0
  | .simParams s => w.sims[s]?.map fun r => .params r.params
  | .simProps s => w.sims[s]?.map fun r => .props r.props

/-- What is in a cell. -/
def World.read (w : World V) : ObjCell → Option V
  | .veh a => w.vehs[a]?.map VehCell.attrs
  | .cyc a => w.cycs[a]?
  | .params a => w.params[a]?
  | .props a => w.props[a]?

/-- A cell is changed. -/
def World.write (w : World V) (x : V) : ObjCell → World V
  | .veh a => { w with vehs := w.vehs.modify a fun o => { o with attrs := x } }
  | .cyc a => { w with cycs := w.cycs.set a x }
  | .params a => { w with params := w.params.set a x }
  | .props a => { w with props := w.props.set a x }

/-- What a program sees under a name. -/
def World.look (w : World V) (n : ObjName) : Option V := (w.cell n).bind w.read

/-- simdrive.py:202-208 `SimDrive.__init_objects__`: the vehicle is taken as it is; the cycle is copied twice; parameters
and physical properties are new. (`c` and `c0` are the contents of the two copies.) -/
def World.makeSim (w : World V) (c c0 : V) (veh : Nat) (pars props : V) : World V :=
  { w with
    cycs := w.cycs ++ [c, c0]
    params := w.params ++ [pars]
    props := w.props ++ [props]
    sims := w.sims ++ [⟨veh, w.cycs.length, w.cycs.length + 1, w.params.length, w.props.length⟩] }

/-- vehicle.py:782-840 `copy_vehicle`: `cv` is what becomes of the attributes (`set_derived` is run again, with
the gravity of the properties); the physical properties are copied into a new object. -/
def World.dupVeh (w : World V) (cv : V → V → V) (o : VehCell V) (p : V) : World V :=
  { w with vehs := w.vehs ++ [⟨cv o.attrs p, w.props.length⟩], props := w.props ++ [p] }

/-- One operation; `none` if an object it speaks of does not exist. -/
def World.step (stdParams stdProps : V) (cv : V → V → V) (w : World V) : ObjOp V → Option (World V)
  | .newVeh v => some { w with vehs := w.vehs ++ [⟨v, 0⟩] }
  | .newVehWith v p => some { w with vehs := w.vehs ++ [⟨v, w.props.length⟩], props := w.props ++ [p] }
  | .newCyc c => some { w with cycs := w.cycs ++ [c], mine := w.mine ++ [w.cycs.length] }
  | .newSim c v =>
    match w.cell c, w.vehs[v]? with
    | some (.cyc a), some _ => match w.cycs[a]? with
      | some x => some (w.makeSim x x v stdParams stdProps)
      | none => none
    | _, _ => none
  | .copyVeh v =>
    match w.vehs[v]? with
    | some o => match w.props[o.props]? with
      | some p => some (w.dupVeh cv o p)
      | none => none
    | none => none
  -- simdrive.py:2339-2370: copies of `cyc0` and the vehicle go into a new object; then its cycle, parameters and
  -- physical properties are replaced by copies
  | .copySim s =>
    match w.sims[s]? with
    | none => none
    | some r => match w.vehs[r.veh]?, w.cycs[r.cyc0]?, w.cycs[r.cyc]?, w.params[r.params]?, w.props[r.props]? with
      | some o, some c0, some c, some q, some p => match w.props[o.props]? with
        | none => none
        | some vp =>
          some ((w.dupVeh cv o vp).makeSim c c0 w.vehs.length q p)
      | _, _, _, _, _ => none
  | .useVeh s v =>
    match w.sims[s]?, w.vehs[v]? with
    | some r, some _ => some { w with sims := w.sims.set s { r with veh := v } }
    | _, _ => none
  -- simdrive.py:428-430: `self.cyc` may become a new object; a change of the old one would be seen under the same name
  | .run s c =>
    match w.sims[s]? with
    | some r => some { w with cycs := w.cycs ++ [c], sims := w.sims.set s { r with cyc := w.cycs.length } }
    | none => none
  | .set n x =>
    match w.cell n with
    | some a => some (w.write x a)
    | none => none

/-- A program. -/
def World.exec (stdParams stdProps : V) (cv : V → V → V) (w : World V) : List (ObjOp V) → Option (World V)
  | [] => some w
  | o :: l => match w.step stdParams stdProps cv o with
    | none => none
    | some w => w.exec stdParams stdProps cv l

end Fastsim
