import Verif.Model.Run
import Verif.Model.Frame
import Verif.Model.Units

/-!
# Fitting drag and rolling resistance to coast-down coefficients

auxiliaries.py, `abc_to_drag_coeffs` with `simdrive_optimize=True, use_rust=False`. `scipy.optimize.minimize` is
not modelled; the function it minimises is.
-/

namespace Fastsim
section Lawless
variable {K : Type*} [Zero K] [One K] [NatCast K] [Add K] [Sub K] [Mul K] [Div K] [Neg K]
  [LinearOrder K]

/-- auxiliaries.py:62-67: 300 samples, one second apart, speed falling evenly from 70 mph to zero
(`np.linspace(vmax, 0, 300)` computed as start plus index times step). -/
def coastCyc : Cyc K :=
  (List.range 300).map fun k : Nat =>
    { t := (k : K), v := 70 / mphPerMps + (k : K) * ((0 - 70 / mphPerMps) / 299), g := 0, r := 0 }

/-- auxiliaries.py:73 and calibration: `np.poly1d([c, b, a])(mph) * N_PER_LBF` -/
def dynoN (a b c mph : K) : K := ((c * mph + b) * mph + a) * nPerLbf

/-- auxiliaries.py:74-104 `get_err(x)` for `x = (cd, rr)`, on the cycle `cyc`: drag and rolling coefficients are
set on the vehicle, a simulation is made, `impose_coast` is set everywhere, the simulation is run, and the
recorded road load is compared with the coast-down polynomial up to the first speed below 0.1 m/s
(`IndexError` if there is none). -/
def coastDownErr (F : Fns K) (H : Hooks K) (V : Veh K) (P : SimParams K) (cyc : Cyc K) (a b c cd rr : K) :
    Except PyErr K :=
  match simDrive F H { V with dragCoef := cd, wheelRrCoef := rr } P
      { Sim.new cyc with impose := List.replicate cyc.length true } none none with
  | .error e => .error e
  | .ok s =>
    match s.rows.findIdx? fun r => decide (r.ach.mpsAch < 1 / 10) with
    | none => .error .indexError
    | some k => getErrorVal
        ((s.rows.map fun r => 1000 * (r.pow.dragKw + r.pow.rrKw) / r.ach.mpsAch).take k)
        ((s.rows.map fun r => dynoN a b c r.ach.mphAch).take k) (cyc.times.take k)

end Lawless
end Fastsim
