import Verif.Model.Np

/-!
# Vehicle attributes used by the simulation (`python/fastsim/vehicle.py`)
-/

namespace Fastsim

/-- `veh_pt_type` (vehicle.py constants `CONV, HEV, PHEV, BEV`). -/
inductive PtType where
  | conv | hev | phev | bev
  deriving DecidableEq, Repr

/-- `fc_eff_type`; only the comparison with `H2FC` matters to the simulation. -/
inductive FcType where
  | h2fc | other
  deriving DecidableEq, Repr

/-- Uninterpreted real functions the code takes from numpy: `sqrt`, `exp`,
`sin(arctan g)`, `cos(arctan g)`, `tan(arcsin s)`, `int(ceil(x))` of a non-negative `x`, `log`, and
`x ** y`. -/
structure Fns (K : Type*) where
  sqrt : K → K
  exp : K → K
  sinAtan : K → K
  cosAtan : K → K
  tanAsin : K → K
  ceilNat : K → Nat
  log : K → K
  pow : K → K → K

/-- Vehicle attributes read by `SimDrive` (vehicle.py:144-330 fields, 526-678 derived ones). -/
structure Veh (K : Type*) where
  ptType : PtType
  fcType : FcType
  stopStart : Bool
  noElecSys : Bool
  noElecAux : Bool
  chargingOn : Bool
  vehKg : K
  dragCoef : K
  frontalAreaM2 : K
  vehCgM : K
  driveAxleWeightFrac : K
  wheelBaseM : K
  wheelInertiaKgM2 : K
  numWheels : K
  wheelRrCoef : K
  wheelRadiusM : K
  wheelCoefOfFric : K
  maxTracMps2 : K
  fsMaxKw : K
  fsSecsToPeakPwr : K
  fcMaxKw : K
  fcSecToPeakPwr : K
  /-- `fc_kw_out_array` -/
  fcKwOutArray : List K
  /-- `fc_eff_array` -/
  fcEffArray : List K
  maxFcEffKw : K
  minFcTimeOn : K
  idleFcKw : K
  mcMaxKw : K
  mcSecToPeakPwr : K
  mcKwInArray : List K
  mcKwOutArray : List K
  mcFullEffArray : List K
  mcMaxElecInKw : K
  mcPeakEff : K
  essMaxKw : K
  essMaxKwh : K
  essRoundTripEff : K
  minSoc : K
  maxSoc : K
  essDischgToFcMaxEffPerc : K
  essChgToFcMaxEffPerc : K
  maxAccelBufferMph : K
  maxAccelBufferPercOfUseableSoc : K
  percHighAccBuf : K
  mphFcOn : K
  kwDemandFcOn : K
  maxRegen : K
  maxRegenKwh : K
  regenA : K
  regenB : K
  auxKw : K
  altEff : K
  chgEff : K
  transEff : K
  essToFuelOkError : K

/-- `PhysicalProperties` (parameters.py:30-66) and the solver parameters of `SimDriveParams`
(simdrive.py:25-103) used when a step is solved. -/
structure StepParams (K : Type*) where
  airDensity : K
  aGrav : K
  newtonMaxIter : Nat
  newtonXtol : K
  newtonGain : K

section Lawless
variable {K : Type*} [Zero K] [One K] [NatCast K] [Add K] [Sub K] [Mul K] [Div K] [Neg K]
  [LinearOrder K]

/-- Python's `max(list)`. -/
def listMax : List K → K
  | [] => 0
  | [a] => a
  | a :: l => max a (listMax l)

/-- `np.argmax(arr > x)`: first index with an entry above `x`, `0` if there is none. -/
def argmaxGt (arr : List K) (x : K) : Nat := argmaxBool (arr.map fun a => decide (x < a))

/-- `vals[np.argmax(arr > x) - 1]`; index `-1` is the last element. -/
def lookupM1 (arr vals : List K) (x : K) : K :=
  let k := argmaxGt arr x
  if k = 0 then vals.getLast?.getD 0 else vals.getD (k - 1) 0

/-- `vals[max(1, np.argmax(arr > x) - 1)]`. -/
def lookupMax1 (arr vals : List K) (x : K) : K := vals.getD (max 1 (argmaxGt arr x - 1)) 0

end Lawless

end Fastsim
