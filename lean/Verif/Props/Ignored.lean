import Verif.Lemmas.View
import Verif.Props.Real
import Verif.Model.Post
import Verif.Spec.Demo
import Mathlib.Tactic.NormNum

/-!
# C63, C64: data of absent components
-/

set_option linter.unusedSectionVars false

namespace Fastsim.Spec

/-- The battery and motor data of a vehicle other than the two power ratings. -/
structure Electrics (K : Type*) where
  mcSecToPeakPwr : K
  mcKwInArray : List K
  mcKwOutArray : List K
  mcFullEffArray : List K
  mcMaxElecInKw : K
  mcPeakEff : K
  essMaxKwh : K
  essRoundTripEff : K
  minSoc : K
  maxSoc : K
  essDischgToFcMaxEffPerc : K
  essChgToFcMaxEffPerc : K
  maxAccelBufferMph : K
  maxAccelBufferPercOfUseableSoc : K
  percHighAccBuf : K
  mphFcOn : K
  kwDemandFcOn : K
  maxRegen : K
  maxRegenKwh : K
  regenA : K
  regenB : K
  chgEff : K
  essToFuelOkError : K
  stopStart : Bool
  chargingOn : Bool

variable {K : Type*}

/-- The vehicle with other battery and motor data. -/
def withElectrics (V : Veh K) (e : Electrics K) : Veh K :=
  { V with
    mcSecToPeakPwr := e.mcSecToPeakPwr, mcKwInArray := e.mcKwInArray, mcKwOutArray := e.mcKwOutArray
    mcFullEffArray := e.mcFullEffArray, mcMaxElecInKw := e.mcMaxElecInKw, mcPeakEff := e.mcPeakEff
    essMaxKwh := e.essMaxKwh, essRoundTripEff := e.essRoundTripEff, minSoc := e.minSoc, maxSoc := e.maxSoc
    essDischgToFcMaxEffPerc := e.essDischgToFcMaxEffPerc, essChgToFcMaxEffPerc := e.essChgToFcMaxEffPerc
    maxAccelBufferMph := e.maxAccelBufferMph
    maxAccelBufferPercOfUseableSoc := e.maxAccelBufferPercOfUseableSoc, percHighAccBuf := e.percHighAccBuf
    mphFcOn := e.mphFcOn, kwDemandFcOn := e.kwDemandFcOn, maxRegen := e.maxRegen, maxRegenKwh := e.maxRegenKwh
    regenA := e.regenA, regenB := e.regenB, chgEff := e.chgEff, essToFuelOkError := e.essToFuelOkError
    stopStart := e.stopStart, chargingOn := e.chargingOn }

/-- The engine and fuel storage data of a vehicle other than the engine's power rating and the output of best
efficiency (which is zero without an engine). -/
structure EngineData (K : Type*) where
  fsMaxKw : K
  fsSecsToPeakPwr : K
  fcSecToPeakPwr : K
  fcKwOutArray : List K
  fcEffArray : List K
  minFcTimeOn : K
  idleFcKw : K
  mphFcOn : K
  kwDemandFcOn : K
  essToFuelOkError : K

/-- The vehicle with other engine data. -/
def withEngineData (V : Veh K) (e : EngineData K) : Veh K :=
  { V with
    fsMaxKw := e.fsMaxKw, fsSecsToPeakPwr := e.fsSecsToPeakPwr, fcSecToPeakPwr := e.fcSecToPeakPwr
    fcKwOutArray := e.fcKwOutArray, fcEffArray := e.fcEffArray, minFcTimeOn := e.minFcTimeOn
    idleFcKw := e.idleFcKw, mphFcOn := e.mphFcOn, kwDemandFcOn := e.kwDemandFcOn
    essToFuelOkError := e.essToFuelOkError }

variable [Zero K]

/-- A vehicle without a motor and a battery, as `set_derived` leaves a conventional one. -/
structure NoElectrics (V : Veh K) : Prop where
  conv : V.ptType = .conv
  noSys : V.noElecSys = true
  motor : V.mcMaxKw = 0
  battery : V.essMaxKw = 0

/-- The records of a step that tell of the road, the engine and the fuel, and the powers of motor and battery. -/
structure DriveRecord (K : Type*) where
  auxInKw : K
  maxTracMps : K
  fcTransLimKw : K
  curMaxFcKwOut : K
  curMaxFsKwOut : K
  curMaxMcKwOut : K
  curMaxTracKw : K
  curMaxTransKwOut : K
  /-- all powers at the wheels and the transmission; the share of regenerative braking is blanked -/
  pow : Pow K
  ach : Ach K
  mcMechKwOutAch : K
  mcElecKwInAch : K
  roadwayChgKwOutAch : K
  essKwOutAch : K
  fc : FcPow K

/-- The road and engine records of a row. -/
def driveRecord (r : Row K) : DriveRecord K :=
  { auxInKw := r.auxInKw, maxTracMps := r.misc.maxTracMps, fcTransLimKw := r.lims.fcTransLimKw
    curMaxFcKwOut := r.lims.curMaxFcKwOut, curMaxFsKwOut := r.lims.curMaxFsKwOut
    curMaxMcKwOut := r.lims.curMaxMcKwOut, curMaxTracKw := r.lims.curMaxTracKw
    curMaxTransKwOut := r.lims.curMaxTransKwOut, pow := { r.pow with regenContrlLimKwPerc := 0 }
    ach := r.ach, mcMechKwOutAch := r.dec.mcMechKwOutAch, mcElecKwInAch := r.dec.mcElecKwInAch
    roadwayChgKwOutAch := r.dec.roadwayChgKwOutAch, essKwOutAch := r.dec.essKwOutAch, fc := r.fc }

/-- A row without the engine's timer and forced state and the fuel storage limit. -/
def withoutEngineState (r : Row K) : Row K :=
  { r with
    lims := { r.lims with curMaxFsKwOut := 0 }
    hyb := { r.hyb with prevFcTimeOn := 0 }
    forced := { fcForcedOn := false, fcForcedState := 0, mcMechKw4forcedFc := 0 }
    dec := { r.dec with fcTimeOn := 0 } }

/-- Two outcomes of a run: the same exception, or objects that agree on the cycles, the accessory load and all
bookkeeping, and step by step on the part `f` of the records. -/
def SameRun {α : Type*} (f : Row K → α) : Except PyErr (Sim K) → Except PyErr (Sim K) → Prop
  | .error e, .error e' => e = e'
  | .ok s, .ok s' => s.rows.map f = s'.rows.map f ∧ { s with rows := [] } = { s' with rows := [] }
  | _, _ => False

end Fastsim.Spec

namespace Fastsim.Props
open Fastsim Spec

theorem sameRun_of_outRel {K α : Type*} [Zero K] [One K] [NatCast K] [Add K] [Sub K] [Mul K] [Div K] [Neg K]
    [LinearOrder K] {f : Row K → α} {x x' : Except PyErr (Sim K)}
    (h : OutRel (fun r r' => f r = f r') x x') : SameRun f x x' := by
  cases h with
  | error e => rfl
  | ok h =>
    obtain ⟨l, hl, rfl⟩ := h
    exact ⟨forall₂_map hl fun a => a, rfl⟩

section Field
variable {K : Type*} [Field K] [LinearOrder K]
variable {F : Fns K} {V : Veh K}

/-! ### C63 -/

theorem noElec_lims (h : NoElectrics V) (E : StepEnv K) (p : Row K) :
    curMaxMcKwOut F V E p = 0 ∧ curMaxMechMcKwIn F V E p = 0 := by
  have h1 : curMaxEssChgKw F V E p = 0 := by
    unfold curMaxEssChgKw essCapLimChgKw
    simp [h.battery]
  have h2 : curMaxMcKwOut F V E p = max (min (min (mcElecInLimKw F V E p) (mcTransiLimKw V E p)) 0) 0 := by
    unfold curMaxMcKwOut
    simp [h.motor]
  refine ⟨?_, ?_⟩
  · rw [h2]
    exact max_eq_right (min_le_right _ _)
  · unfold curMaxMechMcKwIn
    simp only [h1, if_true]

/-- The wheel and transmission powers without the regenerative share. -/
def noShare (w : Pow K) : Pow K := { w with regenContrlLimKwPerc := 0 }

theorem powerAt_noElec (e : Electrics K) (P : StepParams K) (E : StepEnv K) {p p' : Row K}
    (hp : p.ach = p'.ach) {L L' : Lims K} (hm : L.curMaxMechMcKwIn = 0) (hm' : L'.curMaxMechMcKwIn = 0)
    (h1 : L.curMaxTransKwOut = L'.curMaxTransKwOut) (h2 : L.curMaxTracKw = L'.curMaxTracKw)
    (h3 : L.curMaxFcKwOut = L'.curMaxFcKwOut) (h4 : L.curMaxMcKwOut = L'.curMaxMcKwOut) (v : K) :
    noShare (powerAt F V P E p L v) = noShare (powerAt F (withElectrics V e) P E p' L' v) := by
  have hr : ∀ (V : Veh K) (a b : K), regenBrakeKw V 0 a b = 0 := by
    intro V a b
    unfold regenBrakeKw
    rw [zero_mul]
    exact max_eq_right (min_le_left _ _)
  unfold powerAt noShare
  simp only [hm, hm', hr, h1, h2, h3, h4, hp]
  rfl

theorem gradeLoop_noElec (e : Electrics K) (P : StepParams K) (E : StepEnv K) (v0 m : K) :
    ∀ (n : Nat) (g : K) (r : Nat × K),
    gradeLoop F (withElectrics V e) P E v0 m n g r = gradeLoop F V P E v0 m n g r
  | 0, _, _ => rfl
  | n + 1, g, r => by
    have h : speedCoeffs F (withElectrics V e) P E.dt v0 m g = speedCoeffs F V P E.dt v0 m g := rfl
    simp only [gradeLoop, h, gradeLoop_noElec e P E v0 m n]

theorem setAchSpeed_noElec (e : Electrics K) (P : StepParams K) (E : StepEnv K) {p p' : Row K}
    (hp : p.ach = p'.ach) {L L' : Lims K} (hm : L.curMaxMechMcKwIn = 0) (hm' : L'.curMaxMechMcKwIn = 0)
    (h1 : L.curMaxTransKwOut = L'.curMaxTransKwOut) (h2 : L.curMaxTracKw = L'.curMaxTracKw)
    (h3 : L.curMaxFcKwOut = L'.curMaxFcKwOut) (h4 : L.curMaxMcKwOut = L'.curMaxMcKwOut) {w w' : Pow K}
    (hw : noShare w = noShare w') (st : Stale K) :
    (setAchSpeed F V P E p L w st).1 = (setAchSpeed F (withElectrics V e) P E p' L' w' st).1 ∧
    noShare (setAchSpeed F V P E p L w st).2 = noShare (setAchSpeed F (withElectrics V e) P E p' L' w' st).2 := by
  have hc : w.cycMet = w'.cycMet := (congrArg Pow.cycMet hw :)
  unfold setAchSpeed
  simp only [gradeLoop_noElec, hc, hp, h1]
  split
  · exact ⟨rfl, hw⟩
  · exact ⟨rfl, powerAt_noElec e P E hp hm hm' h1 h2 h3 h4 _⟩

theorem setFc_noElec (h : NoElectrics V) (e : Electrics K) (E : StepEnv K) {M M' : Misc K} {L L' : Lims K}
    {w w' : Pow K} {d d' : Dec K} (hL : L.curMaxFcKwOut = L'.curMaxFcKwOut) (hw : noShare w = noShare w')
    (h1 : d.mcElecKwInAch = d'.mcElecKwInAch) (h2 : d.essKwOutAch = d'.essKwOutAch)
    (h3 : d.roadwayChgKwOutAch = d'.roadwayChgKwOutAch) (h4 : d.mcMechKwOutAch = d'.mcMechKwOutAch) :
    setFcPower V E M L w d = setFcPower (withElectrics V e) E M' L' w' d' := by
  have ht : w.transKwInAch = w'.transKwInAch := (congrArg Pow.transKwInAch hw :)
  have hf : fcKwOutAch V E M L w d = fcKwOutAch (withElectrics V e) E M' L' w' d' := by
    unfold fcKwOutAch
    have h' : (withElectrics V e).noElecSys = true := h.noSys
    simp only [h', h.noSys, Bool.true_or, hL, ht, h1, h2, h3, h4]
    rfl
  unfold setFcPower
  rw [hf]
  rfl

theorem driveRecord_step (h : NoElectrics V) (e : Electrics K) (P : StepParams K) (E : StepEnv K) {p p' : Row K}
    (hroad : E.roadKw = 0) (hp : driveRecord p = driveRecord p') (st : Stale K) :
    driveRecord (solveStep F V P E p st) = driveRecord (solveStep F (withElectrics V e) P E p' st) := by
  have h' : NoElectrics (withElectrics V e) := ⟨h.conv, h.noSys, h.motor, h.battery⟩
  have ha : p.ach = p'.ach := (congrArg DriveRecord.ach hp :)
  have hf : p.fc = p'.fc := (congrArg DriveRecord.fc hp :)
  obtain ⟨a1, a2⟩ := noElec_lims (F := F) h E p
  obtain ⟨b1, b2⟩ := noElec_lims (F := F) h' E p'
  have hmis : (setMisc V E p).maxTracMps = (setMisc (withElectrics V e) E p').maxTracMps := by
    simp only [setMisc, ha]; rfl
  have htr : curMaxTracKw V P (setMisc V E p)
      = curMaxTracKw (withElectrics V e) P (setMisc (withElectrics V e) E p') := by
    unfold curMaxTracKw
    rw [hmis]; rfl
  have hfc : curMaxFcKwOut V E p = curMaxFcKwOut (withElectrics V e) E p' := by
    unfold curMaxFcKwOut fcTransLimKw
    rw [hf]; rfl
  have htrans : curMaxTransKwOut F V P E p (setMisc V E p)
      = curMaxTransKwOut F (withElectrics V e) P E p' (setMisc (withElectrics V e) E p') := by
    unfold curMaxTransKwOut
    simp only [h.noSys, h'.noSys, Bool.true_or, if_true, a1, b1, htr, hfc]
    rfl
  generalize hM : setMisc V E p = M at *
  generalize hM' : setMisc (withElectrics V e) E p' = M' at *
  have hw := powerAt_noElec (F := F) (V := V) e P E ha (L := setCompLims F V P E p M)
    (L' := setCompLims F (withElectrics V e) P E p' M') a2 b2 htrans htr hfc (a1.trans b1.symm)
    (if 0 < st.newtonIters then st.mpsAch else E.mps)
  have hs := setAchSpeed_noElec (F := F) (V := V) e P E ha (L := setCompLims F V P E p M)
    (L' := setCompLims F (withElectrics V e) P E p' M') a2 b2 htrans htr hfc (a1.trans b1.symm) hw st
  have hmech : ∀ {V : Veh K}, NoElectrics V → ∀ (L : Lims K) (w : Pow K) (hy : Hyb K) (f : Forced K),
      mcMechKwOutAch V E L w hy f = 0 := by
    intro V h L w hy f
    unfold mcMechKwOutAch
    simp only [h.motor, if_true]
  have helec : ∀ V : Veh K, mcElecKwInAch V 0 = 0 := by intro V; simp [mcElecKwInAch]
  have hroad : ∀ (V : Veh K) (L : Lims K) (hy : Hyb K) (x : K), roadwayChgKwOutAch V E L hy x = 0 := by
    intro V L hy x; simp [roadwayChgKwOutAch, hroad]
  have hess : ∀ {V : Veh K}, NoElectrics V → ∀ (M : Misc K) (L : Lims K) (w : Pow K) (hy : Hyb K) (x y : K),
      essKwOutAch V E M L w hy x y = 0 := by
    intro V h M L w hy x y
    simp [essKwOutAch, h.battery]
  unfold driveRecord solveStep
  simp only [hM, hM']
  unfold setPowerCalcs
  rw [setFc_noElec h e E (M' := M') (L' := setCompLims F (withElectrics V e) P E p' M') hfc hs.2
    (d' := setDec F (withElectrics V e) E p' M' (setCompLims F (withElectrics V e) P E p' M')
      (setAchSpeed F (withElectrics V e) P E p' (setCompLims F (withElectrics V e) P E p' M')
        (powerAt F (withElectrics V e) P E p' (setCompLims F (withElectrics V e) P E p' M')
          (if 0 < st.newtonIters then st.mpsAch else E.mps)) st).2
      (setHyb (withElectrics V e) E p' (setCompLims F (withElectrics V e) P E p' M')
        (setAchSpeed F (withElectrics V e) P E p' (setCompLims F (withElectrics V e) P E p' M')
        (powerAt F (withElectrics V e) P E p' (setCompLims F (withElectrics V e) P E p' M')
          (if 0 < st.newtonIters then st.mpsAch else E.mps)) st).2)
      (setForced (withElectrics V e) E (setAchSpeed F (withElectrics V e) P E p' (setCompLims F (withElectrics V e) P E p' M')
        (powerAt F (withElectrics V e) P E p' (setCompLims F (withElectrics V e) P E p' M')
          (if 0 < st.newtonIters then st.mpsAch else E.mps)) st).2
        (setHyb (withElectrics V e) E p' (setCompLims F (withElectrics V e) P E p' M')
        (setAchSpeed F (withElectrics V e) P E p' (setCompLims F (withElectrics V e) P E p' M')
        (powerAt F (withElectrics V e) P E p' (setCompLims F (withElectrics V e) P E p' M')
          (if 0 < st.newtonIters then st.mpsAch else E.mps)) st).2)) st)
    (by simp only [setDec, hmech h, hmech h', helec]) (by simp only [setDec, hess h, hess h'])
    (by simp only [setDec, hroad]) (by simp only [setDec, hmech h, hmech h'])]
  simp only [setDec, hmech h, hmech h', helec, hess h, hess h', hroad, hs.1]
  have hs2 := hs.2
  unfold noShare at hs2
  rw [hs2]
  have e1 : (setCompLims F V P E p M).fcTransLimKw = (setCompLims F (withElectrics V e) P E p' M').fcTransLimKw := by
    show fcTransLimKw V E p = fcTransLimKw (withElectrics V e) E p'
    unfold fcTransLimKw; rw [hf]; rfl
  have e2 : (setCompLims F V P E p M).curMaxFsKwOut = (setCompLims F (withElectrics V e) P E p' M').curMaxFsKwOut := by
    show curMaxFsKwOut V E p = curMaxFsKwOut (withElectrics V e) E p'
    unfold curMaxFsKwOut; rw [hf]; rfl
  have e3 : (setCompLims F V P E p M).curMaxFcKwOut = (setCompLims F (withElectrics V e) P E p' M').curMaxFcKwOut := hfc
  have e4 : (setCompLims F V P E p M).curMaxMcKwOut = (setCompLims F (withElectrics V e) P E p' M').curMaxMcKwOut :=
    a1.trans b1.symm
  have e5 : (setCompLims F V P E p M).curMaxTracKw = (setCompLims F (withElectrics V e) P E p' M').curMaxTracKw := htr
  have e6 : (setCompLims F V P E p M).curMaxTransKwOut
      = (setCompLims F (withElectrics V e) P E p' M').curMaxTransKwOut := htrans
  rw [e1, e2, e3, e4, e5, e6, hmis]

theorem driveRecord_view (h : NoElectrics V) (e : Electrics K) (P : StepParams K) :
    RowView F P V (withElectrics V e) (fun r r' => driveRecord r = driveRecord r') where
  zero := rfl
  ach a := (congrArg DriveRecord.ach a :)
  out a := (congrArg (fun d => d.fc.fcKwOutAch) a :)
  step E st hr a := driveRecord_step h e P E hr a st
  reset {r r'} a := by
    have ha : r.ach = r'.ach := (congrArg DriveRecord.ach a :)
    have := congrArg (fun d => { d with ach := { d.ach with newtonIters := 0 } }) a
    exact this
  noElecAux := rfl
  auxKw := rfl
  altEff := rfl
  rr := rfl
  cd := rfl
  area := rfl
  kg := rfl

/-! ### C64 -/

theorem powerAt_engine (e : EngineData K) (P : StepParams K) (E : StepEnv K) {p p' : Row K}
    (hp : p.ach = p'.ach) {L L' : Lims K} (hL : { L with curMaxFsKwOut := 0 } = { L' with curMaxFsKwOut := 0 }) (v : K) :
    powerAt F V P E p L v = powerAt F (withEngineData V e) P E p' L' v := by
  have h0 : L.curMaxMechMcKwIn = L'.curMaxMechMcKwIn := (congrArg Lims.curMaxMechMcKwIn hL :)
  have h1 : L.curMaxTransKwOut = L'.curMaxTransKwOut := (congrArg Lims.curMaxTransKwOut hL :)
  have h2 : L.curMaxTracKw = L'.curMaxTracKw := (congrArg Lims.curMaxTracKw hL :)
  have h3 : L.curMaxFcKwOut = L'.curMaxFcKwOut := (congrArg Lims.curMaxFcKwOut hL :)
  have h4 : L.curMaxMcKwOut = L'.curMaxMcKwOut := (congrArg Lims.curMaxMcKwOut hL :)
  unfold powerAt
  simp only [h0, h1, h2, h3, h4, hp]
  rfl

theorem gradeLoop_engine (e : EngineData K) (P : StepParams K) (E : StepEnv K) (v0 m : K) :
    ∀ (n : Nat) (g : K) (r : Nat × K),
    gradeLoop F (withEngineData V e) P E v0 m n g r = gradeLoop F V P E v0 m n g r
  | 0, _, _ => rfl
  | n + 1, g, r => by
    have h : speedCoeffs F (withEngineData V e) P E.dt v0 m g = speedCoeffs F V P E.dt v0 m g := rfl
    simp only [gradeLoop, h, gradeLoop_engine e P E v0 m n]

/-- Another engine state in a row. -/
def otherEngineState (r : Row K) (a b c : K) (f : Forced K) : Row K :=
  { r with
    lims := { r.lims with curMaxFsKwOut := a }
    hyb := { r.hyb with prevFcTimeOn := b }
    forced := f
    dec := { r.dec with fcTimeOn := c } }

theorem withoutEngineState_iff {r r' : Row K} (h : withoutEngineState r = withoutEngineState r') :
    r' = otherEngineState r r'.lims.curMaxFsKwOut r'.hyb.prevFcTimeOn r'.dec.fcTimeOn r'.forced := by
  obtain ⟨_, _, l, _, _, hy, f, d, _⟩ := r
  obtain ⟨_, _, l', _, _, hy', f', d', _⟩ := r'
  cases l; cases l'; cases hy; cases hy'; cases d; cases d'
  simp only [withoutEngineState, Row.mk.injEq, Lims.mk.injEq, Hyb.mk.injEq, Dec.mk.injEq, true_and, and_true] at h
  simp only [otherEngineState, Row.mk.injEq, Lims.mk.injEq, Hyb.mk.injEq, Dec.mk.injEq, true_and, and_true]
  tauto

theorem lims_engine (h : V.fcMaxKw = 0) (e : EngineData K) (P : StepParams K) (E : StepEnv K) (p : Row K)
    (a b c : K) (f : Forced K) (M : Misc K) :
    { setCompLims F V P E p M with curMaxFsKwOut := 0 }
      = { setCompLims F (withEngineData V e) P E (otherEngineState p a b c f) M with curMaxFsKwOut := 0 } := by
  have h' : (withEngineData V e).fcMaxKw = 0 := h
  have h1 : fcTransLimKw V E p = fcTransLimKw (withEngineData V e) E (otherEngineState p a b c f) := by
    unfold fcTransLimKw
    rw [h, h', zero_div, zero_div]; rfl
  have h2 : curMaxFcKwOut V E p = curMaxFcKwOut (withEngineData V e) E (otherEngineState p a b c f) := by
    unfold curMaxFcKwOut
    rw [h, h', h1]
  have h3 : curMaxElecKw F V E p = curMaxElecKw F (withEngineData V e) E (otherEngineState p a b c f) := by
    unfold curMaxElecKw
    rw [h2]; rfl
  have h4 : curMaxAvailElecKw F V E p
      = curMaxAvailElecKw F (withEngineData V e) E (otherEngineState p a b c f) := by
    unfold curMaxAvailElecKw
    rw [h3]; rfl
  have h5 : mcElecInLimKw F V E p = mcElecInLimKw F (withEngineData V e) E (otherEngineState p a b c f) := by
    unfold mcElecInLimKw
    rw [h3, h4]; rfl
  have h6 : curMaxMcKwOut F V E p = curMaxMcKwOut F (withEngineData V e) E (otherEngineState p a b c f) := by
    unfold curMaxMcKwOut
    rw [h5]; rfl
  have h7 : curMaxMcElecKwIn F V E p = curMaxMcElecKwIn F (withEngineData V e) E (otherEngineState p a b c f) := by
    unfold curMaxMcElecKwIn
    rw [h6]; rfl
  have h8 : curMaxTransKwOut F V P E p M
      = curMaxTransKwOut F (withEngineData V e) P E (otherEngineState p a b c f) M := by
    unfold curMaxTransKwOut
    rw [h2, h3, h6]; rfl
  unfold setCompLims
  simp only [h1, h2, h3, h4, h5, h6, h7, h8]
  rfl

theorem withoutEngineState_step (h : V.fcMaxKw = 0) (hb : V.ptType = .bev) (e : EngineData K) (P : StepParams K)
    (E : StepEnv K) {p p' : Row K} (hp : withoutEngineState p = withoutEngineState p') (st : Stale K) :
    withoutEngineState (solveStep F V P E p st)
      = withoutEngineState (solveStep F (withEngineData V e) P E p' st) := by
  have h' : (withEngineData V e).fcMaxKw = 0 := h
  have hb' : (withEngineData V e).ptType = .bev := hb
  rw [withoutEngineState_iff hp]
  generalize p'.lims.curMaxFsKwOut = a
  generalize p'.hyb.prevFcTimeOn = b
  generalize p'.dec.fcTimeOn = c
  generalize p'.forced = f
  clear hp p'
  have hM : setMisc V E p = setMisc (withEngineData V e) E (otherEngineState p a b c f) := rfl
  have hL := lims_engine (F := F) h e P E p a b c f (setMisc V E p)
  unfold solveStep
  simp only
  rw [← hM]
  generalize setMisc V E p = M at hL
  generalize setCompLims F V P E p M = L at hL
  generalize setCompLims F (withEngineData V e) P E (otherEngineState p a b c f) M = L' at hL
  have hp : p.ach = (otherEngineState p a b c f).ach := rfl
  have hw : setPowerCalcs F V P E p L st
      = setPowerCalcs F (withEngineData V e) P E (otherEngineState p a b c f) L' st := by
    unfold setPowerCalcs
    exact powerAt_engine e P E hp hL _
  have hs : setAchSpeed F V P E p L (setPowerCalcs F V P E p L st) st
      = setAchSpeed F (withEngineData V e) P E (otherEngineState p a b c f) L'
        (setPowerCalcs F (withEngineData V e) P E (otherEngineState p a b c f) L' st) st := by
    rw [hw]
    unfold setAchSpeed
    have h1 : L.curMaxTransKwOut = L'.curMaxTransKwOut := (congrArg Lims.curMaxTransKwOut hL :)
    simp only [gradeLoop_engine, h1, powerAt_engine e P E hp hL]
    rfl
  rw [← hs]
  generalize setAchSpeed F V P E p L (setPowerCalcs F V P E p L st) st = w
  have l1 : L.curEssMaxKwOut = L'.curEssMaxKwOut := (congrArg Lims.curEssMaxKwOut hL :)
  have l2 : L.curMaxEssChgKw = L'.curMaxEssChgKw := (congrArg Lims.curMaxEssChgKw hL :)
  have l3 : L.curMaxMcKwOut = L'.curMaxMcKwOut := (congrArg Lims.curMaxMcKwOut hL :)
  have l4 : L.curMaxElecKw = L'.curMaxElecKw := (congrArg Lims.curMaxElecKw hL :)
  have l5 : L.mcElecInLimKw = L'.mcElecInLimKw := (congrArg Lims.mcElecInLimKw hL :)
  have l6 : L.curMaxMcElecKwIn = L'.curMaxMcElecKwIn := (congrArg Lims.curMaxMcElecKwIn hL :)
  have l7 : L.curMaxMechMcKwIn = L'.curMaxMechMcKwIn := (congrArg Lims.curMaxMechMcKwIn hL :)
  have l8 : L.curMaxFcKwOut = L'.curMaxFcKwOut := (congrArg Lims.curMaxFcKwOut hL :)
  have hy : { setHyb V E p L w.2 with prevFcTimeOn := 0 }
      = { setHyb (withEngineData V e) E (otherEngineState p a b c f) L' w.2 with prevFcTimeOn := 0 } := by
    have c0 : canPwrAllElec V E p.dec.soc L w.2 = canPwrAllElec (withEngineData V e) E p.dec.soc L' w.2 := by
      unfold canPwrAllElec
      rw [h, h', l3, l4, if_pos rfl, if_pos rfl]; rfl
    have c1 : essRegenBuffDischgKw V E p.dec.soc L = essRegenBuffDischgKw (withEngineData V e) E p.dec.soc L' := by
      unfold essRegenBuffDischgKw
      rw [l1]; rfl
    have c2 : maxEssRegenBuffChgKw V E p.dec.soc L = maxEssRegenBuffChgKw (withEngineData V e) E p.dec.soc L' := by
      unfold maxEssRegenBuffChgKw
      rw [l2]; rfl
    have c3 : maxEssAccellBuffDischgKw V E p.dec.soc L
        = maxEssAccellBuffDischgKw (withEngineData V e) E p.dec.soc L' := by
      unfold maxEssAccellBuffDischgKw
      rw [l1]; rfl
    have c4 : essAccelRegenDischgKw V E p.dec.soc L = essAccelRegenDischgKw (withEngineData V e) E p.dec.soc L' := by
      unfold essAccelRegenDischgKw
      rw [l1, l2, c1]; rfl
    have c5 : desiredEssKwOutForAe V E p.dec.soc L w.2
        = desiredEssKwOutForAe (withEngineData V e) E p.dec.soc L' w.2 := by
      unfold desiredEssKwOutForAe
      rw [c0, c1, c4]; rfl
    have c6 : essAeKwOut V E p.dec.soc L w.2 = essAeKwOut (withEngineData V e) E p.dec.soc L' w.2 := by
      unfold essAeKwOut
      rw [c0, c2, c5, l1, l2]
    unfold setHyb
    simp only [c0, c1, c2, c3, c4, c5, c6]
    rfl
  generalize setHyb V E p L w.2 = y at hy
  generalize setHyb (withEngineData V e) E (otherEngineState p a b c f) L' w.2 = y' at hy
  generalize setForced V E w.2 y = fo
  generalize setForced (withEngineData V e) E w.2 y' = fo'
  have y1 : y.canPwrAllElec = y'.canPwrAllElec := (congrArg Hyb.canPwrAllElec hy :)
  have y2 : y.mcElecInKwForMaxFcEff = y'.mcElecInKwForMaxFcEff := (congrArg Hyb.mcElecInKwForMaxFcEff hy :)
  have y3 : y.regenBuffSoc = y'.regenBuffSoc := (congrArg Hyb.regenBuffSoc hy :)
  have y4 : y.accelBuffSoc = y'.accelBuffSoc := (congrArg Hyb.accelBuffSoc hy :)
  have y5 : y.essAccelRegenDischgKw = y'.essAccelRegenDischgKw := (congrArg Hyb.essAccelRegenDischgKw hy :)
  have y6 : y.essRegenBuffDischgKw = y'.essRegenBuffDischgKw := (congrArg Hyb.essRegenBuffDischgKw hy :)
  have y7 : y.essAccelBuffChgKw = y'.essAccelBuffChgKw := (congrArg Hyb.essAccelBuffChgKw hy :)
  have y8 : y.maxEssRegenBuffChgKw = y'.maxEssRegenBuffChgKw := (congrArg Hyb.maxEssRegenBuffChgKw hy :)
  have y9 : y.maxEssAccellBuffDischgKw = y'.maxEssAccellBuffDischgKw :=
    (congrArg Hyb.maxEssAccellBuffDischgKw hy :)
  have y10 : y.erAeKwOut = y'.erAeKwOut := (congrArg Hyb.erAeKwOut hy :)
  have d1 : essDesiredKw4fcEff V E y = essDesiredKw4fcEff (withEngineData V e) E y' := by
    unfold essDesiredKw4fcEff
    rw [y2]; rfl
  have d2 : essKwIfFcReq V E L y = essKwIfFcReq (withEngineData V e) E L' y' := by
    unfold essKwIfFcReq
    rw [d1, y3, y4, y5, y6, y7, y8, y9, l1, l2, l5, l6]; rfl
  have d3 : erKwIfFcReq V E L y = erKwIfFcReq (withEngineData V e) E L' y' := by
    unfold erKwIfFcReq
    rw [d2, l5, l7]
  have d4 : mcElecKwInIfFcReq V E L y = mcElecKwInIfFcReq (withEngineData V e) E L' y' := by
    unfold mcElecKwInIfFcReq
    rw [d2, d3]
  have d5 : mcKwIfFcReq V E L y = mcKwIfFcReq (withEngineData V e) E L' y' := by
    unfold mcKwIfFcReq
    rw [d4]; rfl
  have d6 : mcMechKwOutAch V E L w.2 y fo = mcMechKwOutAch (withEngineData V e) E L' w.2 y' fo' := by
    unfold mcMechKwOutAch
    have n1 : ¬ ((PtType.bev = .hev) ∨ (PtType.bev = .phev)) := by simp
    simp only [hb, hb', n1, false_and, and_false, if_false, d5, l7, l8, y1]
    rfl
  have d7 : ∀ x, mcElecKwInAch V x = mcElecKwInAch (withEngineData V e) x := fun _ => rfl
  have d8 : ∀ x, roadwayChgKwOutAch V E L y x = roadwayChgKwOutAch (withEngineData V e) E L' y' x := by
    intro x
    unfold roadwayChgKwOutAch
    rw [y1, y6, y8, y10, d3]; rfl
  have d9 : ∀ x z, essKwOutAch V E M L w.2 y x z = essKwOutAch (withEngineData V e) E M L' w.2 y' x z := by
    intro x z
    unfold essKwOutAch
    rw [d1, y5, l1, l8]; rfl
  have hd : { setDec F V E p M L w.2 y fo st with fcTimeOn := 0 }
      = { setDec F (withEngineData V e) E (otherEngineState p a b c f) M L' w.2 y' fo' st with fcTimeOn := 0 } := by
    unfold setDec
    simp only [d1, d2, d3, d4, d5, d6, d7, d8, d9, l8]
    rfl
  have hfp : ∀ d d' : Dec K, setFcPower V E M L w.2 d = setFcPower (withEngineData V e) E M L' w.2 d' := by
    intro d d'
    have z : fcKwOutAch V E M L w.2 d = 0 ∧ fcKwOutAch (withEngineData V e) E M L' w.2 d' = 0 := by
      unfold fcKwOutAch
      simp only [h, h', if_true, and_self]
    unfold setFcPower
    simp only [z.1, z.2, if_true, fcKwInAch]
  unfold withoutEngineState
  simp only
  rw [hy, hd, hL, hfp]

theorem withoutEngineState_view (h : V.fcMaxKw = 0) (hb : V.ptType = .bev) (e : EngineData K) (P : StepParams K) :
    RowView F P V (withEngineData V e) (fun r r' => withoutEngineState r = withoutEngineState r') where
  zero := rfl
  ach a := (congrArg Row.ach a :)
  out a := (congrArg (fun d => d.fc.fcKwOutAch) a :)
  step E st _ a := withoutEngineState_step h hb e P E a st
  reset {r r'} a := (congrArg (fun d => { d with ach := { d.ach with newtonIters := 0 } }) a :)
  noElecAux := rfl
  auxKw := rfl
  altEff := rfl
  rr := rfl
  cd := rfl
  area := rfl
  kg := rfl

end Field

section Floor
variable {K : Type*} [Field K] [LinearOrder K] [FloorRing K]
variable {F : Fns K} {V : Veh K} {P : SimParams K}

/-- **C63 (no effect).** In a vehicle without motor and battery the remaining battery and motor data, the
regenerative braking data, the charge limits and the initial charge have no effect: whole runs, in every driving
mode, raise the same exception or end with the same cycles and, step by step, the same speeds, forces, powers,
engine records and fuel use. -/
theorem C63_no_effect (h : NoElectrics V) (e : Electrics K) (s : Sim K) (init init' : Option K)
    (aux : Option (List K)) :
    SameRun driveRecord (simDrive F (realHooks F V P) V P s init aux)
      (simDrive F (realHooks F (withElectrics V e) P) (withElectrics V e) P s init' aux) := by
  have W := driveRecord_view (F := F) h e P.toStepParams
  have hc : (withElectrics V e).ptType = .conv := h.conv
  have key : ∀ soc soc' : K, SameRun driveRecord
      (walk F (realHooks F V P) V P { s with hevCount := 0 } soc aux)
      (walk F (realHooks F (withElectrics V e) P) (withElectrics V e) P { s with hevCount := 0 } soc' aux) := by
    intro soc soc'
    refine sameRun_of_outRel (W.walk (fun _ => W.idm) (fun _ => W.coast)
      ⟨s.rows, ?_, rfl⟩ (fun _ _ => rfl) ?_ aux)
    · exact List.forall₂_same.2 fun _ _ => rfl
    · unfold SameCheck
      simp [h.conv, hc]
  unfold simDrive
  simp only [h.conv, hc]
  cases init <;> cases init' <;> exact key _ _

theorem sameRun_sumDt {s s' : Sim K} {α : Type*} {f : Row K → α} (hr : s.rows.map f = s'.rows.map f)
    (hc : s.cyc = s'.cyc) {g : Row K → K} {g' : α → K} (hg : ∀ r, g r = g' (f r)) : sumDt s g = sumDt s' g := by
  have e : ∀ (l : List (Row K)) (d : List K), List.zipWith (fun r dt => g r * dt) l d
      = List.zipWith (fun x dt => g' x * dt) (l.map f) d := by
    intro l d
    rw [List.zipWith_map_left]
    simp only [hg]
  unfold sumDt
  rw [e, e, hr, hc]

theorem sameRun_map {s s' : Sim K} {α β : Type*} {f : Row K → α} (hr : s.rows.map f = s'.rows.map f)
    {g : Row K → β} (g' : α → β) (hg : ∀ r, g r = g' (f r)) : s.rows.map g = s'.rows.map g := by
  have : g = g' ∘ f := funext hg
  rw [this, ← List.map_map, ← List.map_map, hr]

/-- **C63 (figures).** ... so the fuel economy, the distance, the fuel energy and the energies spent on drag,
climbing, rolling, braking, the transmission, accessories and in the engine are the same. -/
theorem C63_figures (h : NoElectrics V) (e : Electrics K) (s : Sim K) (init init' : Option K)
    (aux : Option (List K)) {t t' : Sim K} (ht : simDrive F (realHooks F V P) V P s init aux = .ok t)
    (ht' : simDrive F (realHooks F (withElectrics V e) P) (withElectrics V e) P s init' aux = .ok t') (gge : K) :
    mpgge gge t = mpgge gge t' ∧ totalMiles t = totalMiles t' ∧ fuelKj t = fuelKj t' ∧ dragKj t = dragKj t' ∧
    ascentKj t = ascentKj t' ∧ rrKj t = rrKj t' ∧ brakeKj t = brakeKj t' ∧ transKj t = transKj t' ∧
    auxKj t = auxKj t' ∧ fcKj t = fcKj t' ∧ mcKj t = mcKj t' ∧ traceMissSpeedMps t = traceMissSpeedMps t' ∧
    Cyc.times t.cyc = Cyc.times t'.cyc := by
  have q := C63_no_effect (F := F) (P := P) h e s init init' aux
  rw [ht, ht'] at q
  obtain ⟨hr, hs⟩ := q
  have hc : t.cyc = t'.cyc := (congrArg Sim.cyc hs :)
  have ha : t.aux = t'.aux := (congrArg Sim.aux hs :)
  have hm : totalMiles t = totalMiles t' := by
    unfold totalMiles; rw [sameRun_map hr (g := fun r : Row K => r.ach.distMi) (fun d => d.ach.distMi) fun _ => rfl]
  have hk : totalFuelKwh t = totalFuelKwh t' := by
    unfold totalFuelKwh; rw [sameRun_map hr (g := fun r : Row K => r.fc.fsKwhOutAch) (fun d => d.fc.fsKwhOutAch) fun _ => rfl]
  refine ⟨?_, hm, ?_, ?_, ?_, ?_, ?_, ?_, ?_, ?_, ?_, ?_, ?_⟩
  · unfold mpgge; rw [hm, hk]
  · exact sameRun_sumDt hr hc (g' := fun d => d.fc.fsKwOutAch) fun _ => rfl
  · exact sameRun_sumDt hr hc (g' := fun d => d.pow.dragKw) fun _ => rfl
  · exact sameRun_sumDt hr hc (g' := fun d => d.pow.ascentKw) fun _ => rfl
  · exact sameRun_sumDt hr hc (g' := fun d => d.pow.rrKw) fun _ => rfl
  · exact sameRun_sumDt hr hc (g' := fun d => d.pow.cycFricBrakeKw) fun _ => rfl
  · exact sameRun_sumDt hr hc (g' := fun d => d.pow.transKwInAch - d.pow.transKwOutAch) fun _ => rfl
  · unfold auxKj; rw [ha, hc]
  · exact sameRun_sumDt hr hc (g' := fun d => d.fc.fcKwInAch - d.fc.fcKwOutAch) fun _ => rfl
  · exact sameRun_sumDt hr hc (g' := fun d => d.mcElecKwInAch - d.mcMechKwOutAch) fun _ => rfl
  · unfold traceMissSpeedMps
    have e : ∀ (l : List (Row K)) (d : List K), List.zipWith (fun (r : Row K) v => pabs (r.ach.mpsAch - v)) l d
        = List.zipWith (fun x v => pabs (x - v)) (l.map fun r => r.ach.mpsAch) d := by
      intro l d; rw [List.zipWith_map_left]
    rw [e, e, sameRun_map hr (g := fun r : Row K => r.ach.mpsAch) (fun d => d.ach.mpsAch) fun _ => rfl, hc]
  · rw [hc]

/-- **C64 (no effect).** In a battery-electric vehicle (no engine power) the remaining engine and fuel storage data
have no effect: whole runs, in every driving mode, raise the same exception or end with the same cycles and the same
records of every step, the state of charge included, except for the engine's timer and forced state and the record of
the fuel storage limit. -/
theorem C64_no_effect (h : V.fcMaxKw = 0) (hb : V.ptType = .bev) (e : EngineData K) (s : Sim K) (init : Option K)
    (aux : Option (List K)) :
    SameRun withoutEngineState (simDrive F (realHooks F V P) V P s init aux)
      (simDrive F (realHooks F (withEngineData V e) P) (withEngineData V e) P s init aux) := by
  have W := withoutEngineState_view (F := F) h hb e P.toStepParams
  have hc : (withEngineData V e).ptType = .bev := hb
  have key : ∀ soc : K, SameRun withoutEngineState
      (walk F (realHooks F V P) V P { s with hevCount := 0 } soc aux)
      (walk F (realHooks F (withEngineData V e) P) (withEngineData V e) P { s with hevCount := 0 } soc aux) := by
    intro soc
    refine sameRun_of_outRel (W.walk (fun _ => W.idm) (fun _ => W.coast)
      ⟨s.rows, ?_, rfl⟩ (fun _ _ => rfl) Iff.rfl aux)
    exact List.forall₂_same.2 fun _ _ => rfl
  unfold simDrive
  simp only [hb, hc]
  cases init <;> exact key _

/-- **C64 (figures).** ... so the battery energy and the consumption per mile are the same, and no fuel is used. -/
theorem C64_figures (h : V.fcMaxKw = 0) (hb : V.ptType = .bev) (e : EngineData K) (s : Sim K) (init : Option K)
    (aux : Option (List K)) {t t' : Sim K} (ht : simDrive F (realHooks F V P) V P s init aux = .ok t)
    (ht' : simDrive F (realHooks F (withEngineData V e) P) (withEngineData V e) P s init aux = .ok t') :
    totalMiles t = totalMiles t' ∧ essDischgKj V t = essDischgKj (withEngineData V e) t' ∧
    batteryKwhPerMi V t = batteryKwhPerMi (withEngineData V e) t' ∧
    electricKwhPerMi V t = electricKwhPerMi (withEngineData V e) t' ∧ fuelKj t = fuelKj t' ∧
    (t.rows.map fun r => r.dec.soc) = t'.rows.map fun r => r.dec.soc := by
  have q := C64_no_effect (F := F) (P := P) h hb e s init aux
  rw [ht, ht'] at q
  obtain ⟨hr, hs⟩ := q
  have hc : t.cyc = t'.cyc := (congrArg Sim.cyc hs :)
  have hm : totalMiles t = totalMiles t' := by
    unfold totalMiles; rw [sameRun_map hr (g := fun r : Row K => r.ach.distMi) (fun d => d.ach.distMi) fun _ => rfl]
  have hsoc : (t.rows.map fun r => r.dec.soc) = t'.rows.map fun r => r.dec.soc :=
    sameRun_map hr (fun d => d.dec.soc) fun _ => rfl
  have hf : t.firstRow.dec.soc = t'.firstRow.dec.soc := by
    have e : ∀ t : Sim K, t.firstRow.dec.soc = (t.rows.map fun r => r.dec.soc).getD 0 0 := by
      intro t
      unfold Sim.firstRow
      cases t.rows <;> rfl
    rw [e, e, hsoc]
  have hl : t.lastRow.dec.soc = t'.lastRow.dec.soc := by
    have e : ∀ t : Sim K, t.lastRow.dec.soc = (t.rows.map fun r => r.dec.soc).getLast?.getD 0 := by
      intro t
      unfold Sim.lastRow
      rw [List.getLast?_map]
      cases t.rows.getLast? <;> rfl
    rw [e, e, hsoc]
  have he : essDischgKj V t = essDischgKj (withEngineData V e) t' := by
    unfold essDischgKj; rw [hf, hl]; rfl
  have hroad : roadwayChgKj t = roadwayChgKj t' := sameRun_sumDt hr hc (g' := fun d => d.dec.roadwayChgKwOutAch) fun _ => rfl
  refine ⟨hm, he, ?_, ?_, sameRun_sumDt hr hc (g' := fun d => d.fc.fsKwOutAch) fun _ => rfl, hsoc⟩
  · unfold batteryKwhPerMi; rw [he, hm]
  · unfold electricKwhPerMi; rw [he, hm, hroad]

end Floor

/-! ### Concrete cases -/
open Demo

/-- A hybrid's battery and motor data. -/
def oddElectrics : Electrics ℚ :=
  { mcSecToPeakPwr := 2, mcKwInArray := [0, 1, 9], mcKwOutArray := [0, 5, 7], mcFullEffArray := [1 / 2, 1 / 3]
    mcMaxElecInKw := 77, mcPeakEff := 1 / 3, essMaxKwh := 12, essRoundTripEff := 1 / 4, minSoc := 1 / 10
    maxSoc := 9 / 10, essDischgToFcMaxEffPerc := 1 / 2, essChgToFcMaxEffPerc := 1 / 2, maxAccelBufferMph := 30
    maxAccelBufferPercOfUseableSoc := 1 / 2, percHighAccBuf := 1 / 5, mphFcOn := 1, kwDemandFcOn := 1
    maxRegen := 1 / 2, maxRegenKwh := 3, regenA := 7, regenB := 2, chgEff := 1 / 2, essToFuelOkError := 1
    stopStart := true, chargingOn := true }

/-- The conventional demo car meets the hypotheses; with a hybrid's leftover battery and motor data and an almost
empty battery it drives alike on the same fuel, although its records of the charge and the share of regenerative
braking are different. -/
theorem C63_demo : NoElectrics conv ∧ NoElectrics (withElectrics conv oddElectrics) ∧
    (rowsOf (run conv (1 / 2))).length = 6 ∧
    (∃ r ∈ rowsOf (run conv (1 / 2)), 20 < r.fc.fsKwOutAch) ∧
    (rowsOf (run conv (1 / 2))).map (fun r => (r.ach.mpsAch, r.fc.fsKwOutAch)) =
      (rowsOf (run (withElectrics conv oddElectrics) (1 / 20))).map (fun r => (r.ach.mpsAch, r.fc.fsKwOutAch)) ∧
    (rowsOf (run conv (1 / 2))).map (fun r => r.pow.regenContrlLimKwPerc) ≠
      (rowsOf (run (withElectrics conv oddElectrics) (1 / 20))).map (fun r => r.pow.regenContrlLimKwPerc) ∧
    (rowsOf (run conv (1 / 2))).map (fun r => r.dec.soc) ≠
      (rowsOf (run (withElectrics conv oddElectrics) (1 / 20))).map (fun r => r.dec.soc) :=
  ⟨⟨rfl, rfl, rfl, rfl⟩, ⟨rfl, rfl, rfl, rfl⟩, by decide +kernel, by decide +kernel, by decide +kernel,
    by decide +kernel, by decide +kernel⟩

/-- **C63 (a battery rating is enough to matter).** The same leftover data in a vehicle with a motor changes the
fuel used. -/
theorem C63_motor_matters :
    (rowsOf (run hev (1 / 2))).map (fun r => r.fc.fsKwOutAch) ≠
      (rowsOf (run (withElectrics hev oddElectrics) (1 / 2))).map (fun r => r.fc.fsKwOutAch) := by decide +kernel

/-- An engine's leftover data. -/
def oddEngine : EngineData ℚ :=
  { fsMaxKw := 3, fsSecsToPeakPwr := 7, fcSecToPeakPwr := 9, fcKwOutArray := [5, 1], fcEffArray := [1 / 3]
    minFcTimeOn := 1, idleFcKw := 12, mphFcOn := 1, kwDemandFcOn := 2, essToFuelOkError := 9 }

/-- The demo electric car meets the hypotheses; with an engine's leftover data it drives alike and uses the same
charge, although the records of the fuel storage limit are different. -/
theorem C64_demo : bev.fcMaxKw = 0 ∧ bev.ptType = .bev ∧
    (rowsOf (run bev (1 / 2))).length = 6 ∧ (∃ r ∈ rowsOf (run bev (1 / 2)), r.dec.soc < 1 / 2) ∧
    (rowsOf (run bev (1 / 2))).map (fun r => (r.ach.mpsAch, r.dec.soc)) =
      (rowsOf (run (withEngineData bev oddEngine) (1 / 2))).map (fun r => (r.ach.mpsAch, r.dec.soc)) ∧
    (rowsOf (run bev (1 / 2))).map (fun r => r.lims.curMaxFsKwOut) ≠
      (rowsOf (run (withEngineData bev oddEngine) (1 / 2))).map (fun r => r.lims.curMaxFsKwOut) :=
  ⟨rfl, rfl, by decide +kernel, by decide +kernel, by decide +kernel, by decide +kernel⟩

/-- **C64 (an engine is enough to matter).** The same leftover data in a hybrid changes the fuel used. -/
theorem C64_engine_matters :
    (rowsOf (run hev (1 / 2))).map (fun r => r.fc.fsKwOutAch) ≠
      (rowsOf (run (withEngineData hev oddEngine) (1 / 2))).map (fun r => r.fc.fsKwOutAch) := by decide +kernel

end Fastsim.Props
