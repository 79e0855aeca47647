import Verif.Model.Objects

/-!
# No object is in two places by accident (for C95)
-/

namespace Fastsim.Props

variable {V : Type*}

/-- No object is in two places, but for the vehicles and the default of their physical properties. -/
structure World.Ok (w : World V) : Prop where
  props0 : 0 < w.props.length
  vehProps : ∀ (v : Nat) o, w.vehs[v]? = some o → o.props < w.props.length
  vehInj : ∀ (v u : Nat) o p, w.vehs[v]? = some o → w.vehs[u]? = some p → o.props = p.props → o.props = 0 ∨ v = u
  simIn : ∀ (s : Nat) r, w.sims[s]? = some r → r.veh < w.vehs.length ∧ r.cyc < w.cycs.length ∧
    r.cyc0 < w.cycs.length ∧ r.params < w.params.length ∧ r.props < w.props.length ∧ r.props ≠ 0
  mineIn : ∀ (k : Nat) a, w.mine[k]? = some a → a < w.cycs.length
  mineInj : ∀ (k j : Nat) a, w.mine[k]? = some a → w.mine[j]? = some a → k = j
  mineSim : ∀ (k : Nat) a (s : Nat) r, w.mine[k]? = some a → w.sims[s]? = some r → a ≠ r.cyc ∧ a ≠ r.cyc0
  simInj : ∀ (s t : Nat) r q, w.sims[s]? = some r → w.sims[t]? = some q → s ≠ t →
    r.cyc ≠ q.cyc ∧ r.cyc0 ≠ q.cyc0 ∧ r.params ≠ q.params ∧ r.props ≠ q.props
  simCyc : ∀ (s t : Nat) r q, w.sims[s]? = some r → w.sims[t]? = some q → r.cyc ≠ q.cyc0
  simProps : ∀ (v s : Nat) o r, w.vehs[v]? = some o → w.sims[s]? = some r → o.props ≠ r.props

theorem ok_start (p : V) : World.Ok (World.start p) := by
  constructor <;> simp [World.start]

theorem ok_ownProps {w : World V} (h : World.Ok w) (v p : V) :
    World.Ok { w with vehs := w.vehs ++ [⟨v, w.props.length⟩], props := w.props ++ [p] } := by
  obtain ⟨h0, h1, h2, h3, h4, h5, h6, h7, h8, h9⟩ := h
  constructor <;> grind

set_option maxHeartbeats 1000000 in
theorem ok_makeSim {w : World V} (h : World.Ok w) (c c0 : V) {v : Nat} (hv : v < w.vehs.length) (q p : V) :
    World.Ok (w.makeSim c c0 v q p) := by
  obtain ⟨h0, h1, h2, h3, h4, h5, h6, h7, h8, h9⟩ := h
  unfold World.makeSim
  constructor <;> grind

theorem ok_write {w : World V} (h : World.Ok w) (x : V) (a : ObjCell) : World.Ok (w.write x a) := by
  obtain ⟨h0, h1, h2, h3, h4, h5, h6, h7, h8, h9⟩ := h
  cases a <;> simp only [World.write] <;> constructor <;> grind

theorem ok_run {w : World V} (h : World.Ok w) {s : Nat} {r : SimRefs} (hr : w.sims[s]? = some r) (c : V) :
    World.Ok { w with cycs := w.cycs ++ [c], sims := w.sims.set s { r with cyc := w.cycs.length } } := by
  obtain ⟨h0, h1, h2, h3, h4, h5, h6, h7, h8, h9⟩ := h
  constructor <;> grind

theorem ok_useVeh {w : World V} (h : World.Ok w) {s v : Nat} {r : SimRefs} (hr : w.sims[s]? = some r)
    (hv : v < w.vehs.length) : World.Ok { w with sims := w.sims.set s { r with veh := v } } := by
  obtain ⟨h0, h1, h2, h3, h4, h5, h6, h7, h8, h9⟩ := h
  constructor <;> grind

/-- What each operation does. -/
theorem step_cases {sp st : V} {cv : V → V → V} {w w' : World V} {o : ObjOp V} (e : w.step sp st cv o = some w') :
    match o with
    | .newVeh v => w' = { w with vehs := w.vehs ++ [⟨v, 0⟩] }
    | .newVehWith v p => w' = { w with vehs := w.vehs ++ [⟨v, w.props.length⟩], props := w.props ++ [p] }
    | .newCyc c => w' = { w with cycs := w.cycs ++ [c], mine := w.mine ++ [w.cycs.length] }
    | .newSim n v => ∃ a x, w.cell n = some (.cyc a) ∧ w.cycs[a]? = some x ∧ v < w.vehs.length ∧
        w' = w.makeSim x x v sp st
    | .copyVeh v => ∃ o p, w.vehs[v]? = some o ∧ w.props[o.props]? = some p ∧ w' = w.dupVeh cv o p
    | .copySim s => ∃ r o c0 c q p vp, w.sims[s]? = some r ∧ w.vehs[r.veh]? = some o ∧ w.cycs[r.cyc0]? = some c0 ∧
        w.cycs[r.cyc]? = some c ∧ w.params[r.params]? = some q ∧ w.props[r.props]? = some p ∧
        w.props[o.props]? = some vp ∧ w' = (w.dupVeh cv o vp).makeSim c c0 w.vehs.length q p
    | .useVeh s v => ∃ r, w.sims[s]? = some r ∧ v < w.vehs.length ∧
        w' = { w with sims := w.sims.set s { r with veh := v } }
    | .run s c => ∃ r, w.sims[s]? = some r ∧
        w' = { w with cycs := w.cycs ++ [c], sims := w.sims.set s { r with cyc := w.cycs.length } }
    | .set n x => ∃ a, w.cell n = some a ∧ w' = w.write x a := by
  cases o <;> simp only [World.step] at e ⊢
  case newVeh => exact (Option.some.inj e).symm
  case newVehWith => exact (Option.some.inj e).symm
  case newCyc => exact (Option.some.inj e).symm
  case newSim n v =>
    split at e
    · rename_i a _ h1 h2
      split at e
      · rename_i x h3
        exact ⟨a, x, h1, h3, (List.getElem?_eq_some_iff.1 h2).1, (Option.some.inj e).symm⟩
      · cases e
    · cases e
  case copyVeh v =>
    split at e
    · rename_i o h1
      split at e
      · rename_i p h2
        exact ⟨o, p, h1, h2, (Option.some.inj e).symm⟩
      · cases e
    · cases e
  case copySim s =>
    split at e
    · cases e
    · rename_i r h1
      split at e
      · rename_i o c0 c q p h2 h3 h4 h5 h6
        split at e
        · cases e
        · rename_i vp h7
          exact ⟨r, o, c0, c, q, p, vp, h1, h2, h3, h4, h5, h6, h7, (Option.some.inj e).symm⟩
      · cases e
  case useVeh s v =>
    split at e
    · rename_i r _ h1 h2
      exact ⟨r, h1, (List.getElem?_eq_some_iff.1 h2).1, (Option.some.inj e).symm⟩
    · cases e
  case run s c =>
    split at e
    · rename_i r h1
      exact ⟨r, h1, (Option.some.inj e).symm⟩
    · cases e
  case set n x =>
    split at e
    · rename_i a h1
      exact ⟨a, h1, (Option.some.inj e).symm⟩
    · cases e

theorem ok_step {sp st : V} {cv : V → V → V} {w w' : World V} (h : World.Ok w) {o : ObjOp V}
    (e : w.step sp st cv o = some w') : World.Ok w' := by
  have hc := step_cases e
  have hh := h
  obtain ⟨h0, h1, h2, h3, h4, h5, h6, h7, h8, h9⟩ := hh
  cases o with
  | newVeh v => dsimp only at hc; subst hc; constructor <;> grind
  | newVehWith v p => dsimp only at hc; subst hc; exact ok_ownProps h v p
  | newCyc c => dsimp only at hc; subst hc; constructor <;> grind
  | newSim c v =>
    obtain ⟨a, x, -, -, hv, rfl⟩ := hc
    exact ok_makeSim h x x hv sp st
  | copyVeh v =>
    obtain ⟨o, p, -, -, rfl⟩ := hc
    exact ok_ownProps h _ p
  | copySim s =>
    obtain ⟨r, o, c0, c, q, p, vp, -, -, -, -, -, -, -, rfl⟩ := hc
    exact ok_makeSim (ok_ownProps h _ vp) c c0 (by simp) q p
  | useVeh s v =>
    obtain ⟨r, hr, hv, rfl⟩ := hc
    exact ok_useVeh h hr hv
  | run s c =>
    obtain ⟨r, hr, rfl⟩ := hc
    exact ok_run h hr c
  | set n x =>
    obtain ⟨a, -, rfl⟩ := hc
    exact ok_write h x a

theorem ok_exec {sp st : V} {cv : V → V → V} {w w' : World V} (h : World.Ok w) {l : List (ObjOp V)}
    (e : w.exec sp st cv l = some w') : World.Ok w' := by
  induction l generalizing w with
  | nil => simp only [World.exec, Option.some.injEq] at e; exact e ▸ h
  | cons o l ih =>
    simp only [World.exec] at e
    split at e
    · cases e
    · rename_i w1 h1
      exact ih (ok_step h h1) e

theorem cell_write (w : World V) (x : V) (a : ObjCell) (n : ObjName) : (w.write x a).cell n = w.cell n := by
  cases a with
  | veh a =>
    have hp : ∀ i : Nat, ((w.vehs.modify a fun o => { o with attrs := x })[i]?).map (fun o => ObjCell.props o.props) =
        (w.vehs[i]?).map fun o => ObjCell.props o.props := by
      intro i
      rw [List.getElem?_modify]
      split
      · cases w.vehs[i]? <;> rfl
      · simp
    cases n <;> simp only [World.cell, World.write, List.length_modify, hp]
  | _ => cases n <;> rfl

theorem cell_read_write (w : World V) (x : V) (a b : ObjCell) (ha : (w.read a).isSome) :
    (w.write x a).read b = if a = b then some x else w.read b := by
  cases a <;> cases b <;> simp only [World.read, World.write] at ha ⊢ <;> grind

end Fastsim.Props
