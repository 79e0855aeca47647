import Verif.Model.RsRun

/-!
# Lists of simulations (`SimDriveVec`, rust/fastsim-core/src/simdrive/simdrive_iter.rs, "iter:")

An entry is a whole simulation. Driving one touches nothing but itself, so a run in parallel is an order in which the entries are
taken: those that are under way when one fails are among the ones taken before it.
-/

namespace Fastsim

section
variable {K : Type*} [Zero K] [One K] [NatCast K] [Add K] [Sub K] [Mul K] [Div K] [Neg K] [LinearOrder K]

/-- One simulation of the list: what it drives with, its state, its figures, and the state in which a run that fails leaves it
(which is not modelled, so it is any). -/
structure RsSimDrive (K : Type*) where
  hooks : RsHooks K
  veh : Veh K
  params : SimParams K
  tols : MissTols K
  gge : K
  sim : Sim K
  post : Option (RsPost K)
  broken : Sim K

/-- `sd.sim_drive(None, None)` on one entry (iter:51, 56; impl:395-460), and whether it went well. -/
def RsSimDrive.drive (F : Fns K) (sd : RsSimDrive K) : RsSimDrive K × Option RsErr :=
  match rsSimDrive F sd.hooks sd.veh sd.params sd.tols sd.gge sd.sim none none with
  | .ok (s, p) => ({ sd with sim := s, post := some p }, none)
  | .error e => ({ sd with sim := sd.broken }, some e)

/-- iter:55-58: one after the other, up to the first that fails. -/
def batchSerial (F : Fns K) : List (RsSimDrive K) → List (RsSimDrive K) × Option RsErr
  | [] => ([], none)
  | sd :: l => match sd.drive F with
    | (d, some e) => (d :: l, some e)
    | (d, none) => let r := batchSerial F l; (d :: r.1, r.2)

/-- One entry taken by a thread: after a failure entries are left alone. -/
def batchTake (F : Fns K) (st : List (RsSimDrive K) × Option RsErr) (i : ℕ) : List (RsSimDrive K) × Option RsErr :=
  match st.2, st.1[i]? with
  | none, some sd => let r := sd.drive F; (st.1.set i r.1, r.2)
  | _, _ => st

/-- iter:50-53: the entries in the order `sched` in which the threads take them. -/
def batchParallel (F : Fns K) (sched : List ℕ) (l : List (RsSimDrive K)) : List (RsSimDrive K) × Option RsErr :=
  sched.foldl (batchTake F) (l, none)

/-- iter:47-61 `SimDriveVec::sim_drive` -/
def batchDrive (F : Fns K) (parallelize : Option Bool) (sched : List ℕ) (l : List (RsSimDrive K)) :
    List (RsSimDrive K) × Option RsErr :=
  if parallelize.getD true then batchParallel F sched l else batchSerial F l

/-- iter:63-65 `push` -/
def batchPush (l : List (RsSimDrive K)) (sd : RsSimDrive K) : List (RsSimDrive K) := l ++ [sd]

/-- iter:67-69 `pop` -/
def batchPop (l : List (RsSimDrive K)) : Option (RsSimDrive K) × List (RsSimDrive K) := (l.getLast?, l.dropLast)

/-- iter:71-73 `remove`: `Vec::remove` panics outside the list. -/
def batchRemove (l : List (RsSimDrive K)) (i : ℕ) : Except RsErr (List (RsSimDrive K)) :=
  if i < l.length then .ok (l.eraseIdx i) else .error .panic

/-- iter:75-77 `insert`: `Vec::insert` panics beyond the end. -/
def batchInsert (l : List (RsSimDrive K)) (i : ℕ) (sd : RsSimDrive K) : Except RsErr (List (RsSimDrive K)) :=
  if i ≤ l.length then .ok (l.insertIdx i sd) else .error .panic

end
end Fastsim
