import Verif.Model.Cycle

/-!
# Model of `resample` and `extend_cycle` of `cycle.py`
-/

namespace Fastsim

section Lawless
variable {K : Type*} [Zero K] [One K] [NatCast K] [Add K] [Sub K] [Mul K] [Div K] [Neg K]
  [LinearOrder K]

/-- The three channels of a cycle that `resample` computes (all keys but `time_s`, cycle.py:578-580). -/
inductive Chan where
  | mps
  | grade
  | roadType
  deriving DecidableEq, Repr

/-- `cycle[k]` for a channel `k`. -/
def Sample.chan (s : Sample K) : Chan → K
  | .mps => s.v
  | .grade => s.g
  | .roadType => s.r

/-- How a channel is resampled. -/
inductive ResMode where
  | linear
  | hold
  | next
  | rate
  deriving DecidableEq, Repr

/-- The three optional key sets (`None` acts as the empty set). The check that the keys exist
(cycle.py:559-565) has nothing to reject here, since only existing channels can be named. -/
structure ResKeys where
  hold : List Chan
  next : List Chan
  rate : List Chan

/-- Order of the tests in the loop (cycle.py:581-589). -/
def ResKeys.mode (q : ResKeys) (k : Chan) : ResMode :=
  if k ∈ q.hold then .hold else if k ∈ q.next then .next else if k ∈ q.rate then .rate else .linear

/-- `interp1d(x, y, 0)(t)` (cycle.py:582-583): the value at the last abscissa that is at most `t`;
`ValueError` outside the table (scipy's `bounds_error`). scipy's piecewise constant spline is taken to be this
function; abscissae are assumed strictly increasing. `d` is the value held so far. -/
def holdFrom (t d : K) : List (K × K) → K
  | [] => d
  | p :: r => if p.1 ≤ t then holdFrom t p.2 r else d

/-- `interp1d(x, y, 'next')(t)` (cycle.py:586-587) inside the table: the value at the first abscissa that is at
least `t`. -/
def nextAt (t : K) : List (K × K) → K
  | [] => 0
  | p :: r => if t ≤ p.1 then p.2 else nextAt t r

/-- The range check both `interp1d` calls make. -/
def inTable (t : K) (l : List (K × K)) : Bool :=
  match l.head?, l.getLast? with
  | some a, some b => decide (a.1 ≤ t) && decide (t ≤ b.1)
  | _, _ => false

/-- `interp1d(x, y, 0)` applied to all times. -/
def holdAll (ts : List K) (l : List (K × K)) : Except PyErr (List K) :=
  if ts.all (fun t => inTable t l) then .ok (ts.map fun t => holdFrom t 0 l) else .error .valueError

/-- `interp1d(x, y, 'next')` applied to all times. -/
def nextAll (ts : List K) (l : List (K × K)) : Except PyErr (List K) :=
  if ts.all (fun t => inTable t l) then .ok (ts.map fun t => nextAt t l) else .error .valueError

/-- `np.insert((avg_rate_var * dts_orig).cumsum(), 0, 0.0)` against `cycle['time_s']`
(cycle.py:592-600): accumulated quantity at each original time. -/
def rateTable (l : List (K × K)) : List (K × K) :=
  (l.map Prod.fst).zip (0 :: cumsum (List.zipWith (fun (p q : K × K) =>
    (q.2 + p.2) / (1 + 1) * (q.1 - p.1)) l l.tail))

/-- `step_averages` before padding (cycle.py:595-602). -/
def stepAverages (dt : K) (ts : List K) (l : List (K × K)) : List K :=
  (diff (ts.map fun t => interp t (rateTable l))).map fun x => x / dt

end Lawless

section Floor
variable {K : Type*} [Field K] [LinearOrder K] [FloorRing K]

/-- `np.arange(start_time, end_time + eps, step=new_dt)` (cycle.py:575-577). -/
def resampleTimes (dt start stop : K) : List K := arange start (stop + dt / 10) dt

/-- The `rate_keys` branch (cycle.py:590-620). `step_averages[0]` raises `IndexError` when there is only one new
time; `np.interp` raises `ValueError` when the lengths differ. -/
def rateAll (dt start stop : K) (ts : List K) (l : List (K × K)) : Except PyErr (List K) :=
  match stepAverages dt ts l with
  | [] => .error .indexError
  | a :: r =>
    let padded := a :: (a :: r) ++ [(a :: r).getLastD a]
    let mids := 0 :: arange (start + 1 / 2 * dt) (stop - 1 / 2 * dt + dt / 10) dt ++ [stop]
    if mids.length = padded.length then .ok (ts.map fun t => interp t (mids.zip padded))
    else .error .valueError

/-- One channel of `resample` (cycle.py:578-621). -/
def resampleChan (c : Cyc K) (dt start stop : K) (m : ResMode) (k : Chan) : Except PyErr (List K) :=
  let ts := resampleTimes dt start stop
  let l := c.map fun s => (s.t, s.chan k)
  match m with
  | .linear => .ok (ts.map fun t => interp t l)
  | .hold => holdAll ts l
  | .next => nextAll ts l
  | .rate => rateAll dt start stop ts l

/-- Put the channels back together; all have as many entries as there are times. -/
def zipChannels : List K → List K → List K → List K → Cyc K
  | t :: ts, v :: vs, g :: gs, r :: rs => ⟨t, v, g, r⟩ :: zipChannels ts vs gs rs
  | _, _, _, _ => []

/-- `resample(cycle, new_dt, start_time, end_time, hold_keys, hold_keys_next, rate_keys)` (cycle.py:529-622) with the
optional arguments filled in, for `new_dt > 0`. `end_time` and `new_dt` have their defaults computed in
`resampleDefault`. Channels are computed in the order of `make_cycle`. -/
def resample (c : Cyc K) (dt start stop : K) (q : ResKeys) : Except PyErr (Cyc K) :=
  match resampleChan c dt start stop (q.mode .mps) .mps with
  | .error e => .error e
  | .ok vs =>
    match resampleChan c dt start stop (q.mode .grade) .grade with
    | .error e => .error e
    | .ok gs =>
      match resampleChan c dt start stop (q.mode .roadType) .roadType with
      | .error e => .error e
      | .ok rs => .ok (zipChannels (resampleTimes dt start stop) vs gs rs)

/-- `resample` with defaults for omitted arguments (cycle.py:569-574): the first step of the cycle, time zero, and
the last time. Missing samples raise `IndexError`. -/
def resampleDefault (c : Cyc K) (dt start stop : Option K) (q : ResKeys) : Except PyErr (Cyc K) :=
  let dt' : Except PyErr K := match dt with
    | some x => .ok x
    | none => match c with
      | a :: b :: _ => .ok (b.t - a.t)
      | _ => .error .indexError
  match dt' with
  | .error e => .error e
  | .ok x =>
    match stop, c.getLast? with
    | some y, _ => resample c x (start.getD 0) y q
    | none, some l => resample c x (start.getD 0) l.t q
    | none, none => .error .indexError

/-- `extend_cycle(cyc, absolute_time_s, time_fraction)` (cycle.py:903-927): the last time is read first
(`IndexError` on an empty cycle), then a standing cycle of the extra length, resampled to one second, is appended. -/
def extendCycle (c : Cyc K) (absolute fraction : K) : Except PyErr (Cyc K) :=
  match c.getLast? with
  | none => .error .indexError
  | some l =>
    let extra := absolute + (pyRound (fraction * l.t) : K)
    match resampleDefault ([⟨0, 0, 0, 0⟩, ⟨extra, 0, 0, 0⟩] : Cyc K) (some 1) none none ⟨[], [], []⟩ with
    | .error e => .error e
    | .ok stop => concat [c, stop]

end Floor
end Fastsim
