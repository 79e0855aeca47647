import Verif.Model.Run

/-!
# Model of car following (`python/fastsim/simdrive.py`: intelligent driver model)
-/

namespace Fastsim

section Lawless
variable {K : Type*} [Zero K] [One K] [NatCast K] [Add K] [Sub K] [Mul K] [Div K] [Neg K]
  [LinearOrder K]

/-- The equations of `_next_speed_by_idm` (simdrive.py:526-545), with what it reads from the object as
arguments: own speed `v0`, lead speed `vLead` and gap `gap = d0_lead_m - d0_m` at the start of the
step, and the step duration `dt`. `x ** 0.5` is `F.sqrt`, `x ** 2` is `x * x`. -/
def idmSpeed (F : Fns K) (a b headway s0 vDesired delta v0 vLead gap dt : K) : K :=
  if vDesired ≤ 0 then 0
  else
    let a := pabs a
    let b := pabs b
    let headway := max 0 headway
    let s0 := max 0 s0
    let sqrtAb := F.sqrt (a * b)
    let dv0 := v0 - vLead
    let s := max gap (1 / 100)
    let sTarget := s0 + max 0 (v0 * headway + v0 * dv0 / (2 * sqrtAb))
    let accel := a * (1 - F.pow (v0 / vDesired) delta - sTarget / s * (sTarget / s))
    max (v0 + accel * dt) 0

/-- `_next_speed_by_idm(i, ...)` (simdrive.py:507-545) for the current step `i = self.i`. The distances
of the lead vehicle are read from the cache that `init_arrays` (simdrive.py:333) builds from `cyc0`; the
model reads them from `cyc0` itself, i.e. `cyc0` is not replaced between `init_arrays` and the step. -/
def nextSpeedByIdm (F : Fns K) (s : Sim K) (a b headway s0 vDesired delta : K) : K :=
  idmSpeed F a b headway s0 vDesired delta (s.rows.getD (s.i - 1) Row.zero).ach.mpsAch
    (s.cyc0.speeds.getD (s.i - 1) 0)
    ((trapzDistances s.cyc0).getD (s.i - 1) 0 + max 0 s0 - trapzStepStartDistance s.cyc s.i)
    (dtAt s.cyc s.i)

/-- `mps.max()` of a non-empty array. -/
def maxOf : List K → K
  | [] => 0
  | x :: l => l.foldl max x

/-- `_set_speed_for_target_gap_using_idm(i)` (simdrive.py:547-585) for `i = self.i`. -/
def setSpeedForTargetGap (F : Fns K) (P : SimParams K) (s : Sim K) : Sim K :=
  let tgt := s.idmTarget.getD s.i 0
  let vDesired := if 0 < tgt then tgt else maxOf s.cyc0.speeds
  { s with
    cyc := setSpeed s.cyc s.i
      (nextSpeedByIdm F s P.idmAccel P.idmDecel P.idmDtHeadway P.idmMinimumGap vDesired P.idmDelta) }

/-- The loop over the table of desired speeds (simdrive.py:642-646). -/
def lookupTarget (d : K) : (found : K) → List (K × K) → K
  | found, [] => found
  | found, p :: r => if p.1 ≤ d then lookupTarget d p.2 r else found

/-- Choice of the desired speed (simdrive.py:639-649); an empty table raises `IndexError` at line
640. -/
def idmTargetFor (P : SimParams K) (s : Sim K) : Except PyErr K :=
  match P.idmByDistance with
  | none => .ok P.idmVDesired
  | some [] => .error .indexError
  | some (p :: r) => .ok (lookupTarget (npSum ((distM s.cyc).take s.i)) p.2 (p :: r))

/-- The car-following part of `sim_drive_step` (simdrive.py:638-650). -/
def idmHook (F : Fns K) (P : SimParams K) (s : Sim K) : Except PyErr (Sim K) :=
  match idmTargetFor P s with
  | .error e => .error e
  | .ok v => .ok (setSpeedForTargetGap F P { s with idmTarget := s.idmTarget.set s.i v })

end Lawless
end Fastsim
