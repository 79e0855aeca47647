import Verif.Lemmas.Objects

/-!
# C95: which objects simulations and vehicles share
-/

namespace Fastsim.Spec

variable {V : Type*}

/-- `sims[s].veh is vehs[v]` -/
def HoldsVeh (w : World V) (s v : Nat) : Prop := ∃ r, w.sims[s]? = some r ∧ r.veh = v

/-- `vehs[v].props` is the default that was made when the module was loaded. -/
def DefaultProps (w : World V) (v : Nat) : Prop := ∃ o, w.vehs[v]? = some o ∧ o.props = 0

/-- The name stands for vehicle `v`. -/
def NamesVeh (w : World V) (n : ObjName) (v : Nat) : Prop := n = .veh v ∨ ∃ s, n = .simVeh s ∧ HoldsVeh w s v

/-- The name stands for the physical properties of vehicle `v`. -/
def NamesProps (w : World V) (n : ObjName) (v : Nat) : Prop :=
  n = .vehProps v ∨ ∃ s, n = .simVehProps s ∧ HoldsVeh w s v

/-- The sharing there is: a change under one of the names is to be seen under the other. -/
def Shared (w : World V) (m n : ObjName) : Prop :=
  m = n ∨ (∃ v, NamesVeh w m v ∧ NamesVeh w n v) ∨
  ∃ v u, NamesProps w m v ∧ NamesProps w n u ∧ (v = u ∨ (DefaultProps w v ∧ DefaultProps w u))

/-- The operation may change cycle, parameters or physical properties of simulation `s`: it runs it, or edits one of
them under its name. -/
def Touches (s : Nat) (o : ObjOp V) : Prop :=
  (∃ c, o = .run s c) ∨ ∃ n x, o = .set n x ∧ n ∈ [ObjName.simCyc s, .simCyc0 s, .simParams s, .simProps s]

/-- The operation has to do with simulation `s` or vehicle `v`, other than by copying them. -/
def Mentions (s v : Nat) (o : ObjOp V) : Prop :=
  Touches s o ∨ (∃ u, o = .useVeh s u) ∨ (∃ t, o = .useVeh t v) ∨ (∃ c, o = .newSim c v) ∨
  ∃ n x, o = .set n x ∧ n ∈ [ObjName.veh v, .vehProps v, .simVeh s, .simVehProps s]

/-- The worlds a program can make. -/
def Made (sp st : V) (cv : V → V → V) (w : World V) : Prop := ∃ l, (World.start st).exec sp st cv l = some w

end Fastsim.Spec

namespace Fastsim.Props
open Spec

variable {V : Type*}

theorem made_ok {sp st : V} {cv : V → V → V} {w : World V} (h : Made sp st cv w) : World.Ok w := by
  obtain ⟨l, e⟩ := h
  exact ok_exec (ok_start st) e

/-! ### Editing an object -/

set_option maxHeartbeats 2000000 in
theorem cell_shared {w : World V} (h : World.Ok w) {m n : ObjName} {a : ObjCell} (hm : w.cell m = some a) :
    w.cell n = some a ↔ Shared w m n := by
  have hh := h
  obtain ⟨h0, h1, h2, h3, h4, h5, h6, h7, h8, h9⟩ := hh
  cases m <;> cases n <;> simp [World.cell, Shared, NamesVeh, NamesProps, HoldsVeh, DefaultProps] at hm ⊢ <;> grind

theorem read_cell {w : World V} (h : World.Ok w) {n : ObjName} {a : ObjCell} (hn : w.cell n = some a) :
    (w.read a).isSome := by
  obtain ⟨h0, h1, h2, h3, h4, h5, h6, h7, h8, h9⟩ := h
  cases n <;> simp only [World.cell] at hn <;> grind [World.read]

theorem edit_ok {w : World V} (h : World.Ok w) {m : ObjName} {x : V} {a : ObjCell} (ha : w.cell m = some a)
    (n : ObjName) :
    (Shared w m n → (w.write x a).look n = some x) ∧ (¬ Shared w m n → (w.write x a).look n = w.look n) := by
  unfold World.look
  rw [cell_write]
  constructor
  · intro hs
    rw [(cell_shared h ha).2 hs, Option.bind_some, cell_read_write _ _ _ _ (read_cell h ha), if_pos rfl]
  · intro hs
    cases hn : w.cell n with
    | none => rfl
    | some b =>
      rw [Option.bind_some, Option.bind_some, cell_read_write _ _ _ _ (read_cell h ha), if_neg]
      rintro rfl
      exact hs ((cell_shared h ha).1 hn)

/-- An edit is seen under the name that was used and under those that share the object: a vehicle is shared by the
simulations that were given it, and vehicles without physical properties of their own share these. Under every other
name all is as before. -/
theorem C95_edit {sp st : V} {cv : V → V → V} {w w' : World V} (h : Made sp st cv w) {m : ObjName} {x : V}
    (e : w.step sp st cv (.set m x) = some w') (n : ObjName) :
    (Shared w m n → w'.look n = some x) ∧ (¬ Shared w m n → w'.look n = w.look n) := by
  obtain ⟨a, ha, rfl⟩ := step_cases e
  exact edit_ok (made_ok h) ha n

/-! ### What the other operations leave alone -/

theorem getElem?_prefix {α : Type*} {l l' : List α} (h : l <+: l') {i : Nat} {a : α} (e : l[i]? = some a) :
    l'[i]? = some a := by
  obtain ⟨k, rfl⟩ := h
  rw [List.getElem?_append_left (List.getElem?_eq_some_iff.1 e).1, e]

/-- Everything that is in `w` is in `w'`. -/
structure World.Ext (w w' : World V) : Prop where
  vehs : w.vehs <+: w'.vehs
  cycs : w.cycs <+: w'.cycs
  params : w.params <+: w'.params
  props : w.props <+: w'.props
  mine : w.mine <+: w'.mine
  sims : w.sims <+: w'.sims

theorem cell_ext {w w' : World V} (h : World.Ext w w') {n : ObjName} {a : ObjCell} (e : w.cell n = some a) :
    w'.cell n = some a := by
  obtain ⟨h1, h2, h3, h4, h5, h6⟩ := h
  have l1 := h1.length_le
  cases n <;> simp only [World.cell, Option.map_eq_some_iff, Option.bind_eq_some_iff] at e ⊢
  case veh v =>
    split at e
    · rw [if_pos (by omega), e]
    · cases e
  case vehProps v => obtain ⟨o, h, e⟩ := e; exact ⟨o, getElem?_prefix h1 h, e⟩
  case cyc v => obtain ⟨o, h, e⟩ := e; exact ⟨o, getElem?_prefix h5 h, e⟩
  case simVehProps v =>
    obtain ⟨o, h, u, g, e⟩ := e; exact ⟨o, getElem?_prefix h6 h, u, getElem?_prefix h1 g, e⟩
  all_goals obtain ⟨o, h, e⟩ := e; exact ⟨o, getElem?_prefix h6 h, e⟩

theorem read_ext {w w' : World V} (h : World.Ext w w') {a : ObjCell} {x : V} (e : w.read a = some x) :
    w'.read a = some x := by
  obtain ⟨h1, h2, h3, h4, h5, h6⟩ := h
  cases a <;> simp only [World.read, Option.map_eq_some_iff] at e ⊢
  case veh v => obtain ⟨o, h, e⟩ := e; exact ⟨o, getElem?_prefix h1 h, e⟩
  case cyc => exact getElem?_prefix h2 e
  case params => exact getElem?_prefix h3 e
  case props => exact getElem?_prefix h4 e

theorem look_ext {w w' : World V} (h : World.Ext w w') {n : ObjName} {x : V} (e : w.look n = some x) :
    w'.look n = some x := by
  unfold World.look at e ⊢
  obtain ⟨a, h1, h2⟩ := Option.bind_eq_some_iff.1 e
  rw [cell_ext h h1, Option.bind_some, read_ext h h2]

theorem ext_makeSim (w : World V) (c c0 : V) (v : Nat) (q p : V) : World.Ext w (w.makeSim c c0 v q p) := by
  constructor <;> simp [World.makeSim]

theorem ext_dupVeh (w : World V) (cv : V → V → V) (o : VehCell V) (p : V) : World.Ext w (w.dupVeh cv o p) := by
  constructor <;> simp [World.dupVeh]

theorem World.Ext.trans {a b c : World V} (h : World.Ext a b) (g : World.Ext b c) : World.Ext a c :=
  ⟨h.1.trans g.1, h.2.trans g.2, h.3.trans g.3, h.4.trans g.4, h.5.trans g.5, h.6.trans g.6⟩

/-- Only edits, runs and a change of vehicle can change what is seen under a name; a run changes only the cycle of that
simulation, a change of vehicle only what is seen of its vehicle. -/
theorem frame_ok {sp st : V} {cv : V → V → V} {w w' : World V} (h : World.Ok w) {o : ObjOp V}
    (e : w.step sp st cv o = some w') {n : ObjName} {x : V} (hn : w.look n = some x)
    (h1 : ∀ m y, o = .set m y → ¬ Shared w m n) (h2 : ∀ s c, o = .run s c → n ≠ .simCyc s)
    (h3 : ∀ s v, o = .useVeh s v → n ≠ .simVeh s ∧ n ≠ .simVehProps s) : w'.look n = some x := by
  have hc := step_cases e
  cases o with
  | newVeh v => dsimp only at hc; subst hc; exact look_ext (by constructor <;> simp) hn
  | newVehWith v p => dsimp only at hc; subst hc; exact look_ext (by constructor <;> simp) hn
  | newCyc c => dsimp only at hc; subst hc; exact look_ext (by constructor <;> simp) hn
  | newSim c v => obtain ⟨a, y, -, -, hv, rfl⟩ := hc; exact look_ext (ext_makeSim ..) hn
  | copyVeh v => obtain ⟨o, p, -, -, rfl⟩ := hc; exact look_ext (ext_dupVeh ..) hn
  | copySim s =>
    obtain ⟨r, o, c0, c, q, p, vp, -, -, -, -, -, -, -, rfl⟩ := hc
    exact look_ext ((ext_dupVeh ..).trans (ext_makeSim ..)) hn
  | set m y =>
    obtain ⟨a, ha, rfl⟩ := hc
    rw [(edit_ok h ha n).2 (h1 m y rfl), hn]
  | useVeh s v =>
    obtain ⟨r, hr, hv, rfl⟩ := hc
    obtain ⟨g1, g2⟩ := h3 s v rfl
    rw [← hn]
    have : World.cell { w with sims := w.sims.set s { r with veh := v } } n = w.cell n := by
      cases n <;> simp only [World.cell, List.getElem?_set] <;> grind
    unfold World.look
    rw [this]
    congr 1
  | run s c =>
    obtain ⟨r, hr, rfl⟩ := hc
    have g := h2 s c rfl
    obtain ⟨a, k1, k2⟩ := Option.bind_eq_some_iff.1 hn
    have : World.cell { w with cycs := w.cycs ++ [c], sims := w.sims.set s { r with cyc := w.cycs.length } } n =
        w.cell n := by
      cases n <;> simp only [World.cell, List.getElem?_set] <;> grind
    unfold World.look
    rw [this, k1, Option.bind_some]
    exact read_ext (w := w) (w' := { w with cycs := w.cycs ++ [c] }) (by constructor <;> simp) k2

/-- Only edits, runs and a change of vehicle can change what is seen under a name; a run changes only the cycle of that
simulation, a change of vehicle only what is seen of the vehicle of that simulation. -/
theorem C95_frame {sp st : V} {cv : V → V → V} {w w' : World V} (h : Made sp st cv w) {o : ObjOp V}
    (e : w.step sp st cv o = some w') {n : ObjName} {x : V} (hn : w.look n = some x)
    (h1 : ∀ m y, o = .set m y → ¬ Shared w m n) (h2 : ∀ s c, o = .run s c → n ≠ .simCyc s)
    (h3 : ∀ s v, o = .useVeh s v → n ≠ .simVeh s ∧ n ≠ .simVehProps s) : w'.look n = some x :=
  frame_ok (made_ok h) e hn h1 h2 h3

theorem shared_private {w : World V} {m n : ObjName} (h : Shared w m n) (hv : ∀ v, n ≠ .veh v)
    (hp : ∀ v, n ≠ .vehProps v) (hs : ∀ s, n ≠ .simVeh s) (hq : ∀ s, n ≠ .simVehProps s) : m = n := by
  rcases h with h | ⟨v, -, h | ⟨s, h, -⟩⟩ | ⟨v, u, -, h | ⟨s, h, -⟩, -⟩
  · exact h
  · exact absurd h (hv v)
  · exact absurd h (hs s)
  · exact absurd h (hp u)
  · exact absurd h (hq s)

theorem private_ok {sp st : V} {cv : V → V → V} {w w' : World V} (h : World.Ok w) {l : List (ObjOp V)}
    (e : w.exec sp st cv l = some w') {s : Nat} {n : ObjName}
    (hn : n ∈ [ObjName.simCyc s, .simCyc0 s, .simParams s, .simProps s]) (hl : ∀ o ∈ l, ¬ Touches s o) {x : V}
    (hx : w.look n = some x) : w'.look n = some x := by
  induction l generalizing w with
  | nil => simp only [World.exec, Option.some.injEq] at e; exact e ▸ hx
  | cons o l ih =>
    simp only [World.exec] at e
    split at e
    · cases e
    · rename_i w1 h1
      refine ih (ok_step h h1) e (fun o ho => hl o (by simp [ho])) (frame_ok h h1 hx ?_ ?_ ?_)
      · rintro m y rfl hs
        refine hl _ (by simp) (.inr ⟨m, y, rfl, ?_⟩)
        rw [shared_private hs] <;> simp at hn <;> rcases hn with rfl | rfl | rfl | rfl <;> simp
      · rintro t c rfl rfl
        simp at hn
        subst hn
        exact hl _ (by simp) (.inl ⟨c, rfl⟩)
      · rintro t v rfl
        simp at hn
        rcases hn with rfl | rfl | rfl | rfl <;> simp

/-- Cycle, original cycle, parameters and physical properties of a simulation stay as they are in every program that
neither runs this simulation nor edits them under its name: whatever is done with other simulations, with the cycle it
was made from, with its vehicle, or with copies. -/
theorem C95_private {sp st : V} {cv : V → V → V} {w w' : World V} (h : Made sp st cv w) {l : List (ObjOp V)}
    (e : w.exec sp st cv l = some w') {s : Nat} (hl : ∀ o ∈ l, ¬ Touches s o) {n : ObjName}
    (hn : n ∈ [ObjName.simCyc s, .simCyc0 s, .simParams s, .simProps s]) {x : V} (hx : w.look n = some x) :
    w'.look n = some x :=
  private_ok (made_ok h) e hn hl hx

/-- A cycle that the program made changes only when it is edited itself. -/
theorem C95_cycle {sp st : V} {cv : V → V → V} {w w' : World V} (h : Made sp st cv w) {l : List (ObjOp V)}
    (e : w.exec sp st cv l = some w') {k : Nat} (hl : ∀ x, ObjOp.set (.cyc k) x ∉ l) {x : V}
    (hx : w.look (.cyc k) = some x) : w'.look (.cyc k) = some x := by
  replace h := made_ok h
  induction l generalizing w with
  | nil => simp only [World.exec, Option.some.injEq] at e; exact e ▸ hx
  | cons o l ih =>
    simp only [World.exec] at e
    split at e
    · cases e
    · rename_i w1 h1
      refine ih e (fun y hy => hl y (by simp [hy])) (frame_ok h h1 hx ?_ ?_ ?_) (ok_step h h1)
      · rintro m y rfl hs
        have := shared_private hs (by simp) (by simp) (by simp) (by simp)
        subst this
        exact hl y (by simp)
      · rintro t c rfl; simp
      · rintro t v rfl; simp

/-- No run, no new simulation and no copy ever changes a vehicle: only edits of vehicles do. -/
theorem C95_vehicle {sp st : V} {cv : V → V → V} {w w' : World V} (h : Made sp st cv w) {l : List (ObjOp V)}
    (e : w.exec sp st cv l = some w') {v : Nat} (hl : ∀ x, ObjOp.set (.veh v) x ∉ l)
    (hl' : ∀ s x, ObjOp.set (.simVeh s) x ∉ l) {x : V} (hx : w.look (.veh v) = some x) :
    w'.look (.veh v) = some x := by
  replace h := made_ok h
  induction l generalizing w with
  | nil => simp only [World.exec, Option.some.injEq] at e; exact e ▸ hx
  | cons o l ih =>
    simp only [World.exec] at e
    split at e
    · cases e
    · rename_i w1 h1
      refine ih e (fun y hy => hl y (by simp [hy])) (fun s y hy => hl' s y (by simp [hy]))
        (frame_ok h h1 hx ?_ ?_ ?_) (ok_step h h1)
      · rintro m y rfl hs
        rcases hs with rfl | ⟨u, hm | ⟨s, rfl, -⟩, hn | ⟨t, hn, -⟩⟩ | ⟨u, t, -, hn | ⟨k, hn, -⟩, -⟩
        · exact hl y (by simp)
        · cases hn; subst hm; exact hl y (by simp)
        · cases hn
        · exact hl' s y (by simp)
        · cases hn
        · cases hn
        · cases hn
      · rintro t c rfl; simp
      · rintro t v rfl; simp

/-! ### What new simulations and copies are -/

theorem look_makeSim (w : World V) (c c0 : V) {v : Nat} {o : VehCell V} (hv : w.vehs[v]? = some o) (q p : V) :
    (w.makeSim c c0 v q p).look (.simCyc w.sims.length) = some c ∧
    (w.makeSim c c0 v q p).look (.simCyc0 w.sims.length) = some c0 ∧
    (w.makeSim c c0 v q p).look (.simParams w.sims.length) = some q ∧
    (w.makeSim c c0 v q p).look (.simProps w.sims.length) = some p ∧
    (w.makeSim c c0 v q p).look (.simVeh w.sims.length) = some o.attrs ∧
    HoldsVeh (w.makeSim c c0 v q p) w.sims.length v := by
  simp [World.makeSim, World.look, World.cell, World.read, hv, HoldsVeh]

/-- A new simulation has two copies of the cycle it was given, new parameters and physical properties, and the very
vehicle it was given. -/
theorem C95_new_sim {sp st : V} {cv : V → V → V} {w w' : World V} {n : ObjName} {v : Nat}
    (e : w.step sp st cv (.newSim n v) = some w') :
    w'.look (.simCyc w.sims.length) = w.look n ∧ w'.look (.simCyc0 w.sims.length) = w.look n ∧
    w'.look (.simParams w.sims.length) = some sp ∧ w'.look (.simProps w.sims.length) = some st ∧
    w'.look (.simVeh w.sims.length) = w.look (.veh v) ∧ HoldsVeh w' w.sims.length v := by
  obtain ⟨a, x, h1, h2, hv, rfl⟩ := step_cases e
  have hl : w.look n = some x := by simp [World.look, h1, World.read, h2]
  have hv' : w.vehs[v]? = some w.vehs[v] := List.getElem?_eq_getElem hv
  obtain ⟨g1, g2, g3, g4, g5, g6⟩ := look_makeSim w x x hv' sp st
  refine ⟨g1.trans hl.symm, g2.trans hl.symm, g3, g4, ?_, g6⟩
  rw [g5]
  simp [World.look, World.cell, World.read, hv]

/-- A copied vehicle has the attributes `copy_vehicle` makes of the old ones, and physical properties of its own with the
old values; no simulation holds it. -/
theorem C95_copy_vehicle {sp st : V} {cv : V → V → V} {w w' : World V} (h : Made sp st cv w) {v : Nat}
    (e : w.step sp st cv (.copyVeh v) = some w') :
    ∃ x p, w.look (.veh v) = some x ∧ w.look (.vehProps v) = some p ∧
      w'.look (.veh w.vehs.length) = some (cv x p) ∧ w'.look (.vehProps w.vehs.length) = some p ∧
      ¬ DefaultProps w' w.vehs.length ∧ ∀ s, ¬ HoldsVeh w' s w.vehs.length := by
  obtain ⟨o, p, h1, h2, rfl⟩ := step_cases e
  obtain ⟨hlt, -⟩ := List.getElem?_eq_some_iff.1 h1
  have h0 := (made_ok h).props0
  refine ⟨o.attrs, p, ?_, ?_, ?_, ?_, ?_, ?_⟩
  · simp only [World.look, World.cell, World.read, if_pos hlt, Option.bind_some, h1, Option.map_some]
  · simp [World.look, World.cell, World.read, h1, h2]
  · simp [World.look, World.cell, World.read, World.dupVeh]
  · simp [World.look, World.cell, World.read, World.dupVeh]
  · rintro ⟨q, hq, hq0⟩
    simp [World.dupVeh] at hq
    subst hq
    simp at hq0
    simp [hq0] at h0
  · rintro s ⟨r, hr, hv⟩
    have := ((made_ok h).simIn s r hr).1
    omega

/-- A copied simulation sees what the original sees, but its vehicle is a copy as well: a new one with physical
properties of its own, held by no other simulation. -/
theorem C95_copy {sp st : V} {cv : V → V → V} {w w' : World V} (h : Made sp st cv w) {s : Nat}
    (e : w.step sp st cv (.copySim s) = some w') :
    w'.look (.simCyc w.sims.length) = w.look (.simCyc s) ∧ w'.look (.simCyc0 w.sims.length) = w.look (.simCyc0 s) ∧
    w'.look (.simParams w.sims.length) = w.look (.simParams s) ∧
    w'.look (.simProps w.sims.length) = w.look (.simProps s) ∧
    w'.look (.simVehProps w.sims.length) = w.look (.simVehProps s) ∧
    (∃ x p, w.look (.simVeh s) = some x ∧ w.look (.simVehProps s) = some p ∧
      w'.look (.simVeh w.sims.length) = some (cv x p)) ∧
    HoldsVeh w' w.sims.length w.vehs.length ∧ (∀ t, t ≠ w.sims.length → ¬ HoldsVeh w' t w.vehs.length) ∧
    ¬ DefaultProps w' w.vehs.length := by
  obtain ⟨r, o, c0, c, q, p, vp, e1, e2, e3, e4, e5, e6, e7, rfl⟩ := step_cases e
  have h0 := (made_ok h).props0
  have hv : (w.dupVeh cv o vp).vehs[w.vehs.length]? = some ⟨cv o.attrs vp, w.props.length⟩ := by
    simp [World.dupVeh]
  obtain ⟨g1, g2, g3, g4, g5, g6⟩ := look_makeSim (w.dupVeh cv o vp) c c0 hv q p
  refine ⟨g1.trans ?_, g2.trans ?_, g3.trans ?_, g4.trans ?_, ?_, ⟨o.attrs, vp, ?_, ?_, g5⟩, g6, ?_, ?_⟩
  · simp [World.look, World.cell, World.read, e1, e4]
  · simp [World.look, World.cell, World.read, e1, e3]
  · simp [World.look, World.cell, World.read, e1, e5]
  · simp [World.look, World.cell, World.read, e1, e6]
  · simp [World.look, World.cell, World.read, World.makeSim, World.dupVeh, e1, e2, e7]
  · simp [World.look, World.cell, World.read, e1, e2]
  · simp [World.look, World.cell, World.read, e1, e2, e7]
  · rintro t ht ⟨r', hr, hv⟩
    simp only [World.makeSim, World.dupVeh] at hr
    have hlt : t < w.sims.length := by
      have := (List.getElem?_eq_some_iff.1 hr).1
      simp at this
      omega
    rw [List.getElem?_append_left hlt] at hr
    have := ((made_ok h).simIn t r' hr).1
    omega
  · rintro ⟨q, hq, hq0⟩
    simp [World.dupVeh, World.makeSim] at hq
    subst hq
    simp at hq0
    simp [hq0] at h0

/-- `v` is the vehicle of `s` and of no other simulation, and has physical properties of its own. -/
structure Alone (w : World V) (s v : Nat) : Prop where
  holds : HoldsVeh w s v
  only : ∀ t, t ≠ s → ¬ HoldsVeh w t v
  own : ¬ DefaultProps w v

theorem alone_step {sp st : V} {cv : V → V → V} {w w' : World V} (h : World.Ok w) {s v : Nat} (ha : Alone w s v)
    {o : ObjOp V} (ho : ¬ Mentions s v o) (e : w.step sp st cv o = some w') : Alone w' s v := by
  have hc := step_cases e
  obtain ⟨⟨r, hr, rfl⟩, h2, h3⟩ := ha
  have hin := (h.simIn s r hr).1
  have hs := (List.getElem?_eq_some_iff.1 hr).1
  have old : ∀ w' : World V, (∀ (t : Nat) q, w'.sims[t]? = some q → q.veh = r.veh →
        ∃ q', w.sims[t]? = some q' ∧ q'.veh = r.veh) →
      (∃ r', w'.sims[s]? = some r' ∧ r'.veh = r.veh) →
      (∀ q, w'.vehs[r.veh]? = some q → ∃ q', w.vehs[r.veh]? = some q' ∧ q'.props = q.props) → Alone w' s r.veh := by
    intro w' k1 k2 k3
    refine ⟨k2, fun t ht ⟨q, hq, hv⟩ => h2 t ht (k1 t q hq hv), fun ⟨q, hq, h0⟩ => h3 ?_⟩
    obtain ⟨q', hq', hp⟩ := k3 q hq
    exact ⟨q', hq', hp.trans h0⟩
  cases o with
  | newVeh v =>
    dsimp only at hc; subst hc
    exact old _ (fun t q hq hv => ⟨q, hq, hv⟩) ⟨r, hr, rfl⟩ fun q hq => ⟨q, by
      rwa [List.getElem?_append_left hin] at hq, rfl⟩
  | newVehWith v p =>
    dsimp only at hc; subst hc
    exact old _ (fun t q hq hv => ⟨q, hq, hv⟩) ⟨r, hr, rfl⟩ fun q hq => ⟨q, by
      rwa [List.getElem?_append_left hin] at hq, rfl⟩
  | newCyc c =>
    dsimp only at hc; subst hc
    exact old _ (fun t q hq hv => ⟨q, hq, hv⟩) ⟨r, hr, rfl⟩ fun q hq => ⟨q, hq, rfl⟩
  | newSim c u =>
    obtain ⟨a, y, -, -, hv, rfl⟩ := hc
    have hu : u ≠ r.veh := fun hu => ho (.inr (.inr (.inr (.inl ⟨c, by rw [hu]⟩))))
    refine old _ ?_ ⟨r, by simp only [World.makeSim]; rw [List.getElem?_append_left hs, hr], rfl⟩
      fun q hq => ⟨q, hq, rfl⟩
    intro t q hq hv
    simp only [World.makeSim] at hq
    grind
  | copyVeh u =>
    obtain ⟨o, p, -, -, rfl⟩ := hc
    exact old _ (fun t q hq hv => ⟨q, hq, hv⟩) ⟨r, hr, rfl⟩ fun q hq => ⟨q, by
      simp only [World.dupVeh] at hq
      rwa [List.getElem?_append_left hin] at hq, rfl⟩
  | copySim u =>
    obtain ⟨r', o, c0, c, q, p, vp, -, -, -, -, -, -, -, rfl⟩ := hc
    refine old _ ?_ ⟨r, by simp only [World.makeSim, World.dupVeh]; rw [List.getElem?_append_left hs, hr], rfl⟩ ?_
    · intro t q hq hv
      simp only [World.makeSim, World.dupVeh] at hq
      grind
    · intro q hq
      simp only [World.makeSim, World.dupVeh] at hq
      rw [List.getElem?_append_left hin] at hq
      exact ⟨q, hq, rfl⟩
  | useVeh t u =>
    obtain ⟨r', hr', hv, rfl⟩ := hc
    have ht : t ≠ s := fun ht => ho (.inr (.inl ⟨u, by rw [ht]⟩))
    have hu : u ≠ r.veh := fun hu => ho (.inr (.inr (.inl ⟨t, by rw [hu]⟩)))
    refine old _ ?_ ⟨r, by simp only []; rw [List.getElem?_set_ne ht, hr], rfl⟩ fun q hq => ⟨q, hq, rfl⟩
    intro k q hq hv
    simp only [] at hq
    grind
  | run t c =>
    obtain ⟨r', hr', rfl⟩ := hc
    have ht : t ≠ s := fun ht => ho (.inl (.inl ⟨c, by rw [ht]⟩))
    refine old _ ?_ ⟨r, by simp only []; rw [List.getElem?_set_ne ht, hr], rfl⟩ fun q hq => ⟨q, hq, rfl⟩
    intro k q hq hv
    simp only [] at hq
    grind
  | set m x =>
    obtain ⟨a, -, rfl⟩ := hc
    cases a with
    | veh a =>
      refine old _ (fun t q hq hv => ⟨q, hq, hv⟩) ⟨r, hr, rfl⟩ ?_
      intro q hq
      simp only [World.write] at hq
      grind
    | _ => exact old _ (fun t q hq hv => ⟨q, hq, hv⟩) ⟨r, hr, rfl⟩ fun q hq => ⟨q, hq, rfl⟩

theorem holds_unique {w : World V} {s v u : Nat} (h : HoldsVeh w s v) (g : HoldsVeh w s u) : v = u := by
  obtain ⟨r, hr, rfl⟩ := h
  obtain ⟨q, hq, rfl⟩ := g
  rw [hr] at hq
  cases hq
  rfl

theorem alone_names {w : World V} {s v : Nat} (ha : Alone w s v) {m n : ObjName} (h : Shared w m n)
    (hn : n ∈ [ObjName.simCyc s, .simCyc0 s, .simParams s, .simProps s, .simVeh s, .simVehProps s]) :
    m ∈ [ObjName.simCyc s, .simCyc0 s, .simParams s, .simProps s, .simVeh s, .simVehProps s, .veh v, .vehProps v] := by
  rcases h with rfl | ⟨u, hm, hn' | ⟨t, hn', ht⟩⟩ | ⟨a, u, hm, hn' | ⟨t, hn', ht⟩, hau⟩
  · simp at hn ⊢; tauto
  · subst hn'; simp at hn
  · subst hn'
    simp at hn
    subst hn
    have := holds_unique ha.holds ht
    subst this
    rcases hm with rfl | ⟨k, rfl, hk⟩
    · simp
    · by_cases hks : k = t
      · subst hks; simp
      · exact absurd hk (ha.only k hks)
  · subst hn'; simp at hn
  · subst hn'
    simp at hn
    subst hn
    have := holds_unique ha.holds ht
    subst this
    rcases hau with rfl | ⟨-, hd⟩
    · rcases hm with rfl | ⟨k, rfl, hk⟩
      · simp
      · by_cases hks : k = t
        · subst hks; simp
        · exact absurd hk (ha.only k hks)
    · exact absurd hd ha.own

/-- After a simulation has been copied, no program that leaves the copy and its vehicle alone can change anything that is
seen through the copy: neither runs nor edits of the original, its vehicle, its parameters, nor anything else. -/
theorem C95_copy_independent {sp st : V} {cv : V → V → V} {w w1 w' : World V} (h : Made sp st cv w) {s : Nat}
    (e : w.step sp st cv (.copySim s) = some w1) {l : List (ObjOp V)} (e' : w1.exec sp st cv l = some w')
    (hl : ∀ o ∈ l, ¬ Mentions w.sims.length w.vehs.length o) {n : ObjName}
    (hn : n ∈ [ObjName.simCyc w.sims.length, .simCyc0 w.sims.length, .simParams w.sims.length, .simProps w.sims.length,
      .simVeh w.sims.length, .simVehProps w.sims.length]) {x : V} (hx : w1.look n = some x) : w'.look n = some x := by
  have ha : Alone w1 w.sims.length w.vehs.length := by
    obtain ⟨-, -, -, -, -, -, g1, g2, g3⟩ := C95_copy h e
    exact ⟨g1, g2, g3⟩
  have hk : World.Ok w1 := ok_step (made_ok h) e
  clear e
  generalize w.sims.length = t at *
  generalize w.vehs.length = v at *
  induction l generalizing w1 with
  | nil => simp only [World.exec, Option.some.injEq] at e'; exact e' ▸ hx
  | cons o l ih =>
    simp only [World.exec] at e'
    split at e'
    · cases e'
    · rename_i w2 h1
      have hno := hl o (by simp)
      refine ih e' (frame_ok hk h1 hx ?_ ?_ ?_) (ok_step hk h1) (fun o ho => hl o (by simp [ho]))
        (alone_step hk ha hno h1)
      · rintro m y rfl hs
        have := alone_names ha hs hn
        apply hno
        by_cases hm : m ∈ [ObjName.simCyc t, .simCyc0 t, .simParams t, .simProps t]
        · exact .inl (.inr ⟨m, y, rfl, hm⟩)
        · refine .inr (.inr (.inr (.inr ⟨m, y, rfl, ?_⟩)))
          simp at this hm ⊢
          tauto
      · rintro k c rfl rfl
        simp at hn
        subst hn
        exact hno (.inl (.inl ⟨c, rfl⟩))
      · rintro k u rfl
        by_cases hk : k = t
        · subst hk; exact absurd (.inr (.inl ⟨u, rfl⟩)) hno
        · simp at hn
          rcases hn with rfl | rfl | rfl | rfl | rfl | rfl <;> simp <;> exact fun h => hk h.symm

/-- Vehicles made without physical properties have the default; a later edit of the gravity of one is seen in all of
them, but in no simulation. -/
theorem C95_default_shared {sp st : V} {cv : V → V → V} {w w' : World V} (h : Made sp st cv w) {v u : Nat}
    (hv : DefaultProps w v) (hu : DefaultProps w u) {x : V}
    (e : w.step sp st cv (.set (.vehProps v) x) = some w') :
    w'.look (.vehProps u) = some x ∧ ∀ s, w'.look (.simProps s) = w.look (.simProps s) := by
  refine ⟨(C95_edit h e _).1 (.inr (.inr ⟨v, u, .inl rfl, .inl rfl, .inr ⟨hv, hu⟩⟩)), fun s => ?_⟩
  refine (C95_edit h e _).2 fun hs => ?_
  have := shared_private hs (by simp) (by simp) (by simp) (by simp)
  cases this

theorem exists_append_one {α : Type*} (l : List α) (a : α) (i : Nat) (P : α → Prop) :
    (∃ o, (l ++ [a])[i]? = some o ∧ P o) ↔ (∃ o, l[i]? = some o ∧ P o) ∨ (i = l.length ∧ P a) := by
  rcases Nat.lt_trichotomy i l.length with h | h | h
  · rw [List.getElem?_append_left h]
    simp [Nat.ne_of_lt h]
  · subst h; simp
  · rw [List.getElem?_eq_none (by simp; omega), List.getElem?_eq_none (by omega)]
    simp [Nat.ne_of_gt h]

/-- Which vehicles have the default: those that were made without an argument, for ever. -/
theorem C95_default {sp st : V} {cv : V → V → V} {w w' : World V} (h : Made sp st cv w) {o : ObjOp V}
    (e : w.step sp st cv o = some w') (v : Nat) :
    DefaultProps w' v ↔ DefaultProps w v ∨ (v = w.vehs.length ∧ ∃ x, o = .newVeh x) := by
  have hc := step_cases e
  have h0 := (made_ok h).props0
  have hne : w.props.length ≠ 0 := Nat.ne_of_gt h0
  unfold DefaultProps
  cases o with
  | newVeh x => dsimp only at hc; subst hc; rw [exists_append_one]; simp
  | newVehWith x p => dsimp only at hc; subst hc; rw [exists_append_one]; simp [hne]
  | newCyc c => dsimp only at hc; subst hc; simp
  | newSim c u => obtain ⟨a, y, -, -, hv, rfl⟩ := hc; simp [World.makeSim]
  | copyVeh u => obtain ⟨o, p, -, -, rfl⟩ := hc; simp only [World.dupVeh]; rw [exists_append_one]; simp [hne]
  | copySim u =>
    obtain ⟨r', o, c0, c, q, p, vp, -, -, -, -, -, -, -, rfl⟩ := hc
    simp only [World.makeSim, World.dupVeh]; rw [exists_append_one]; simp [hne]
  | useVeh t u => obtain ⟨r', hr', hv, rfl⟩ := hc; simp
  | run t c => obtain ⟨r', hr', rfl⟩ := hc; simp
  | set m x =>
    obtain ⟨a, -, rfl⟩ := hc
    cases a with
    | veh a =>
      simp only [World.write, List.getElem?_modify]
      cases w.vehs[v]? with
      | none => simp
      | some o => by_cases ha : a = v <;> simp [ha]
    | _ => simp [World.write]

/-- Which vehicle a simulation holds: the one it was made with or given last; a copy holds the copied vehicle. -/
theorem C95_holds {sp st : V} {cv : V → V → V} {w w' : World V} {o : ObjOp V}
    (e : w.step sp st cv o = some w') (s v : Nat) :
    HoldsVeh w' s v ↔ (HoldsVeh w s v ∧ ∀ u, o ≠ .useVeh s u) ∨ o = .useVeh s v ∨
      (s = w.sims.length ∧ ((∃ c, o = .newSim c v) ∨ (v = w.vehs.length ∧ ∃ t, o = .copySim t))) := by
  have hc := step_cases e
  unfold HoldsVeh
  cases o with
  | newVeh x => dsimp only at hc; subst hc; simp
  | newVehWith x p => dsimp only at hc; subst hc; simp
  | newCyc c => dsimp only at hc; subst hc; simp
  | newSim c u =>
    obtain ⟨a, y, -, -, hv, rfl⟩ := hc
    simp only [World.makeSim]
    rw [exists_append_one]
    simp
  | copyVeh u => obtain ⟨o, p, -, -, rfl⟩ := hc; simp [World.dupVeh]
  | copySim u =>
    obtain ⟨r', o, c0, c, q, p, vp, -, -, -, -, -, -, -, rfl⟩ := hc
    simp only [World.makeSim, World.dupVeh]
    rw [exists_append_one]
    simp [eq_comm]
  | useVeh t u =>
    obtain ⟨r', hr', hv, rfl⟩ := hc
    have := (List.getElem?_eq_some_iff.1 hr').1
    by_cases hs : t = s
    · subst hs; simp [this]
    · simp [hs]
  | run t c =>
    obtain ⟨r', hr', rfl⟩ := hc
    have := (List.getElem?_eq_some_iff.1 hr').1
    by_cases hs : t = s
    · subst hs; rw [hr']; simp [this]
    · simp [hs]
  | set m x =>
    obtain ⟨a, -, rfl⟩ := hc
    cases a <;> simp [World.write]

/-- A program: two vehicles, a cycle, two simulations of the first vehicle, a copy of one of them; then the cycle, the
vehicle, the parameters of a simulation and the physical properties of the other vehicle are changed. The vehicle has
changed for both simulations but not for the copy, the default gravity for both vehicles but not for the copied one, and
the simulations kept the cycle they were given. -/
theorem C95_demo :
    ((World.start 9).exec 5 9 (fun x _ => x) [.newVeh 1, .newVeh 2, .newCyc 7, .newSim (.cyc 0) 0, .newSim (.cyc 0) 0,
      .copySim 0, .set (.cyc 0) 70, .set (.simVeh 1) 10, .set (.simParams 1) 50, .set (.vehProps 1) 90]).map
      (fun w => ([.simVeh 0, .simVeh 1, .simVeh 2, .veh 0, .veh 1, .veh 2].map w.look,
        [.vehProps 0, .vehProps 1, .vehProps 2, .simProps 0].map w.look,
        [.cyc 0, .simCyc 0, .simCyc0 1, .simCyc 2].map w.look,
        [.simParams 0, .simParams 1, .simParams 2].map w.look)) =
    some ([some 10, some 10, some 1, some 10, some 2, some 1], [some 90, some 90, some 9, some 9],
      [some 70, some 7, some 7, some 7], [some 5, some 50, some 5]) := by
  decide +kernel

end Fastsim.Props
