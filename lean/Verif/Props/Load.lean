import Verif.Lemmas.Load
import Mathlib.Data.Rat.Floor
import Mathlib.Tactic.IntervalCases
import Mathlib.Tactic.Ring

/-!
# C65, C66: loading vehicles
-/

set_option linter.unusedSectionVars false

namespace Fastsim.Spec

/-- `s` is the word `w`, in any capitalisation. -/
def IsWord (w : String) (s : Txt) : Prop := s.map Char.toLower = w.toList

/-- `s` contains the word `w`, in any capitalisation. -/
def HasWord (w : String) (s : Txt) : Prop := ∃ a m b, s = a ++ m ++ b ∧ IsWord w m

variable {K : Type*} [NatCast K] [Div K]

/-- What a user means by a cell of a vehicle table. -/
inductive CellMeans (R : Reader K) : LVal K → LVal K → Prop
  | number (x : K) : CellMeans R (.num x) (.num x)
  | flag (b : Bool) : CellMeans R (.bool b) (.bool b)
  | empty : CellMeans R .nan .nan
  | numeral (s : Txt) (x : K) : '%' ∉ s → ¬ HasWord "true" s → ¬ HasWord "false" s →
      R.float s = some (some x) → CellMeans R (.text s) (.num x)
  | percent (s : Txt) (x : K) : '%' ∉ s → R.float s = some (some x) →
      CellMeans R (.text (s ++ ['%'])) (.num (x / ((100 : Nat) : K)))
  | yes (s : Txt) : IsWord "true" s → CellMeans R (.text s) (.bool true)
  | no (s : Txt) : IsWord "false" s → CellMeans R (.text s) (.bool false)
  | word (s : Txt) : '%' ∉ s → ¬ HasWord "true" s → ¬ HasWord "false" s → R.float s = none →
      CellMeans R (.text s) (.text s)
  | percentName (a b : Txt) : '%' ∉ a → '%' ∉ b → R.float (a ++ b) = none →
      CellMeans R (.text (a ++ '%' :: b)) (.text (a ++ '%' :: b))

/-- The year a name starts with; 0 if it does not start with four digits. -/
def YearIn (s : Txt) (y : Nat) : Prop :=
  (∃ a b c e rest, a < 10 ∧ b < 10 ∧ c < 10 ∧ e < 10 ∧ y = 1000 * a + 100 * b + 10 * c + e ∧
    s = Nat.digitChar a :: Nat.digitChar b :: Nat.digitChar c :: Nat.digitChar e :: rest) ∨
  (y = 0 ∧ ¬ ∃ a b c e rest, a < 10 ∧ b < 10 ∧ c < 10 ∧ e < 10 ∧
    s = Nat.digitChar a :: Nat.digitChar b :: Nat.digitChar c :: Nat.digitChar e :: rest)

/-- The entries of a vehicle dictionary that are not plain numbers. -/
def notPlain : List String :=
  ["scenario_name", "veh_pt_type", "fc_eff_type", "selection", "veh_year", "num_wheels", "stop_start",
   "force_aux_on_fc", "fc_pwr_out_perc", "fc_eff_map", "mc_pwr_out_perc", "mc_eff_map",
   "fc_peak_eff_override", "mc_peak_eff_override", "props"]

/-- `l` is the list written in an entry, or the default if none can be read. -/
def ListIn (R : Reader K) (v : Option (LVal K)) (dflt l : List K) : Prop :=
  (∃ s, v = some (.text s) ∧ R.literal s = some l) ∨
    ((∀ s, v = some (.text s) → R.literal s = none) ∧ l = dflt)

/-- A vehicle dictionary as the documentation asks for it: known names only, all names that have no default, numbers
or empty cells where numbers belong, a known powertrain type, an engine map or a known type of engine, and lists of
matching length. -/
structure Acceptable (R : Reader K) (known required : List String) (enginePowers motorPowers : List K)
    (engineMap : Txt → Option (List K)) (d : PyDict (LVal K)) : Prop where
  distinct : (d.map Prod.fst).Nodup
  names : ∀ p ∈ d, p.1 ∈ known
  present : ∀ k ∈ required, (∃ v, (k, v) ∈ d) ∨
    k ∈ ["fc_pwr_out_perc", "mc_pwr_out_perc", "mc_eff_map", "veh_override_kg", "veh_year"]
  plain : ∀ p ∈ d, p.1 ∉ notPlain → (∃ x, p.2 = .num x) ∨ p.2 = .nan
  whole : ∀ p ∈ d, p.1 = "selection" ∨ p.1 = "num_wheels" → ∃ x, p.2 = .num x
  year : ∀ p ∈ d, p.1 = "veh_year" → (∃ x, p.2 = .num x) ∨ p.2 = .nan
  switches : ∀ p ∈ d, p.1 = "stop_start" ∨ p.1 = "force_aux_on_fc" → (∃ b, p.2 = .bool b) ∨ p.2 = .nan
  pt : ("veh_pt_type", .text "Conv".toList) ∈ d ∨ ("veh_pt_type", .text "HEV".toList) ∈ d ∨
    ("veh_pt_type", .text "PHEV".toList) ∈ d ∨ ("veh_pt_type", .text "BEV".toList) ∈ d
  engine : ∃ t v map pwr, ("fc_eff_type", .text t) ∈ d ∧ ("fc_eff_map", v) ∈ d ∧
    ((∃ s, v = .text s ∧ R.literal s = some map) ∨
      (∀ s, v = .text s → R.literal s = none) ∧ engineMap t = some map) ∧
    ListIn R (List.lookup "fc_pwr_out_perc" d) enginePowers pwr ∧ pwr.length = map.length
  motor : ∃ pwr, ListIn R (List.lookup "mc_pwr_out_perc" d) motorPowers pwr ∧ pwr.length = 11

end Fastsim.Spec

namespace Fastsim.Props
open Spec

variable {K : Type*} [Zero K] [One K] [NatCast K] [Add K] [Sub K] [Mul K] [Div K] [Neg K]
  [LinearOrder K]

/-! ### Cells -/

theorem mentions_iff (w : String) (s : Txt) : mentions w s = true ↔ HasWord w s := by
  unfold mentions HasWord IsWord lowerTxt
  rw [decide_eq_true_iff]
  constructor
  · rintro ⟨a, b, h⟩
    obtain ⟨p, q, hs, hp, hq⟩ := List.map_eq_append_iff.1 h.symm
    obtain ⟨p1, p2, hp', h1, h2⟩ := List.map_eq_append_iff.1 hp
    exact ⟨p1, p2, q, by rw [hs, hp'], h2⟩
  · rintro ⟨a, m, b, rfl, h⟩
    exact ⟨a.map Char.toLower, b.map Char.toLower, by simp [h]⟩

theorem mentions_self {w : String} {s : Txt} (h : IsWord w s) : HasWord w s :=
  ⟨[], s, [], by simp, h⟩

theorem percent_not_word {w : String} (hw : '%' ∉ w.toList) {s : Txt} (h : IsWord w s) : '%' ∉ s := by
  intro hm
  apply hw
  unfold IsWord at h
  rw [← h]
  exact List.mem_map.2 ⟨'%', hm, by decide⟩

/-- Cells are read as they are meant: numbers, percentages, truth values and words. -/
theorem C65_cells (R : Reader K) {v w : LVal K} (h : CellMeans R v w) : cleanData R v = w := by
  cases h with
  | number | flag | empty => rfl
  | numeral s x hp ht hf hx =>
    have e1 : mentions "true" s = false := by
      rw [← Bool.not_eq_true, mentions_iff]; exact ht
    have e2 : mentions "false" s = false := by
      rw [← Bool.not_eq_true, mentions_iff]; exact hf
    simp [cleanData, cleanText, hp, e1, e2, hx]
  | percent s x hp hx =>
    have e : (s ++ ['%']).filter (· ≠ '%') = s := by
      rw [List.filter_append]
      have : s.filter (· ≠ '%') = s := List.filter_eq_self.2 fun c hc => by
        simp only [ne_eq, decide_eq_true_eq]; rintro rfl; exact hp hc
      rw [this]; simp
    simp only [cleanData, cleanText, List.mem_append, List.mem_singleton, or_true, if_true, e, hx]
  | yes s hs =>
    have hp := percent_not_word (by decide) hs
    have e1 := (mentions_iff "true" s).2 (mentions_self hs)
    simp [cleanData, cleanText, hp, e1]
  | no s hs =>
    have hp := percent_not_word (by decide) hs
    have e1 : mentions "true" s = false := by
      unfold mentions lowerTxt
      rw [show s.map Char.toLower = _ from hs]
      decide
    have e2 := (mentions_iff "false" s).2 (mentions_self hs)
    simp [cleanData, cleanText, hp, e1, e2]
  | word s hp ht hf hx =>
    have e1 : mentions "true" s = false := by
      rw [← Bool.not_eq_true, mentions_iff]; exact ht
    have e2 : mentions "false" s = false := by
      rw [← Bool.not_eq_true, mentions_iff]; exact hf
    simp [cleanData, cleanText, hp, e1, e2, hx]
  | percentName a b ha hb hx =>
    have e : (a ++ '%' :: b).filter (· ≠ '%') = a ++ b := by
      rw [List.filter_append, List.filter_cons]
      have h1 : a.filter (· ≠ '%') = a := List.filter_eq_self.2 fun c hc => by
        simp only [ne_eq, decide_eq_true_eq]; rintro rfl; exact ha hc
      have h2 : b.filter (· ≠ '%') = b := List.filter_eq_self.2 fun c hc => by
        simp only [ne_eq, decide_eq_true_eq]; rintro rfl; exact hb hc
      rw [h1, h2]; simp
    simp only [cleanData, cleanText, List.mem_append, List.mem_cons, true_or, or_true, if_true, e, hx]

/-- A name that contains the letters "true" is not kept: it becomes a truth value. -/
theorem C65_name_lost (R : Reader K) {s : Txt} (hp : '%' ∉ s) (h : HasWord "true" s) :
    cleanData R (.text s) = .bool true := by
  simp [cleanData, cleanText, hp, (mentions_iff "true" s).2 h]

/-- Reading a cell that has been read already changes nothing. -/
theorem C66_clean_twice (R : Reader K) (v : LVal K) : cleanData R (cleanData R v) = cleanData R v := by
  have shape : ∀ s : Txt, cleanText R s = .text s ∨ (∃ x, cleanText R s = .num x) ∨ cleanText R s = .nan ∨
      ∃ b, cleanText R s = .bool b := by
    intro s
    unfold cleanText
    split
    · split <;> simp
    · split
      · simp
      · split
        · simp
        · split <;> simp
  have key : ∀ s : Txt, cleanData R (cleanText R s) = cleanText R s := by
    intro s
    rcases shape s with e | ⟨x, e⟩ | e | ⟨b, e⟩ <;> rw [e]
    · exact e
    all_goals rfl
  cases v with
  | text s => exact key s
  | pyNone => exact key _
  | _ => rfl

/-! ### Dictionaries -/

theorem get?_some_mem {V : Type*} {d : PyDict V} {k : String} {v : V} (h : d.get? k = some v) :
    k ∈ d.keys := by
  by_contra hn
  rw [(PyDict.get?_eq_none d k).2 hn] at h
  cases h

theorem plain_float : ∀ k ∈ requiredKeys ++ optionalKeys, k ∉ notPlain → keyType k = some .float := by
  decide +kernel

theorem plain_other {k : String} (hk : k ∉ notPlain) (hm : k ≠ "veh_override_kg") :
    k ∉ ["fc_eff_type", "fc_eff_map", "fc_pwr_out_perc", "mc_pwr_out_perc", "mc_eff_map",
    "stop_start", "veh_override_kg", "veh_year", "fc_peak_eff_override", "mc_peak_eff_override"] := by
  simp only [notPlain, List.mem_cons, List.not_mem_nil, or_false, not_or] at hk ⊢
  tauto

/-- Every number written for a plain attribute is the number the vehicle gets. -/
theorem C65_numbers {R : Reader K} {d a : PyDict (LVal K)} (h : fromDict R d = .ok a) {k : String} {x : K}
    (hk : k ∉ notPlain) (hv : d.get? k = some (.num x)) : a.get? k = some (.num x) := by
  obtain ⟨e, he, hc, hkeys, -⟩ := fromDict_ok h
  have hek : e.get? k = some (.num x) := by
    by_cases hm : k = "veh_override_kg"
    · subst hm
      rcases he.mass with ⟨h1, -⟩ | ⟨-, h2⟩
      · rw [hv] at h1; simp at h1
      · rw [h2, hv]
    · rw [he.other k (plain_other hk hm), hv]
  rcases convertAll_get hc k with ⟨h1, -⟩ | ⟨v, w, h1, h2, h3⟩
  · rw [hek] at h1; cases h1
  · rw [hek] at h1
    cases h1
    have ht := plain_float k (List.mem_append.2 (hkeys k (get?_some_mem h2))) hk
    have hp : k ≠ "props" := fun e => hk (by rw [e]; decide)
    simp only [convertEntry, if_neg hp, ht, convert, toFloat, reduceCtorEq, and_false, if_false] at h3
    cases h3
    exact h2

theorem entry_of {R : Reader K} {d a : PyDict (LVal K)} (hc : convertAll R d = .ok a) {k : String} {v : LVal K}
    (hv : d.get? k = some v) : ∃ w, a.get? k = some w ∧ convertEntry R (k, v) = .ok (k, w) := by
  rcases convertAll_get hc k with ⟨h1, -⟩ | ⟨v', w, h1, h2, h3⟩
  · rw [hv] at h1; cases h1
  · rw [hv] at h1; cases h1; exact ⟨w, h2, h3⟩

theorem entry_conv {R : Reader K} {d a : PyDict (LVal K)} (hc : convertAll R d = .ok a) {k : String} {v w : LVal K}
    {t : KType} (hv : d.get? k = some v) (hp : k ≠ "props") (hn : v ≠ .pyNone) (ht : keyType k = some t)
    (hw : convert R t v = .ok w) : a.get? k = some w := by
  obtain ⟨w', h1, h2⟩ := entry_of hc hv
  simp only [convertEntry, if_neg hp, hn, and_false, if_false, ht, hw] at h2
  cases h2
  exact h1

/-- The name and the powertrain type are kept. -/
theorem C65_texts {R : Reader K} {d a : PyDict (LVal K)} (h : fromDict R d = .ok a) {k : String} {s : Txt}
    (hk : k = "scenario_name" ∨ k = "veh_pt_type" ∨ k = "fc_eff_type") (hv : d.get? k = some (.text s)) :
    a.get? k = some (.text s) := by
  obtain ⟨e, he, hc, -, -⟩ := fromDict_ok h
  have hek : e.get? k = some (.text s) := by
    rcases hk with rfl | rfl | rfl
    · rw [he.other _ (by decide), hv]
    · rw [he.other _ (by decide), hv]
    · obtain ⟨t, l, h1, -, h3, -, -⟩ := he.engine
      rw [hv] at h1; cases h1; exact h3
  refine entry_conv hc hek (t := .str) ?_ (by simp) ?_ rfl
  · rcases hk with rfl | rfl | rfl <;> decide
  · rcases hk with rfl | rfl | rfl <;> decide +kernel

/-- Whole numbers are kept. -/
theorem C65_whole_numbers {R : Reader K} {d a : PyDict (LVal K)} (h : fromDict R d = .ok a) {k : String}
    {x : K} (hk : k = "selection" ∨ k = "num_wheels" ∨ k = "veh_year") (hx : R.trunc x = x)
    (hv : d.get? k = some (.num x)) : a.get? k = some (.num x) := by
  obtain ⟨e, he, hc, -, -⟩ := fromDict_ok h
  have hek : e.get? k = some (.num x) := by
    rcases hk with rfl | rfl | rfl
    · rw [he.other _ (by decide), hv]
    · rw [he.other _ (by decide), hv]
    · rcases he.year with ⟨h1 | h1, -⟩ | ⟨y, h1, h2⟩ | ⟨b, h1, -⟩
      · rw [hv] at h1; cases h1
      · rw [hv] at h1; cases h1
      · rw [hv] at h1; cases h1; rw [h2, hx]
      · rw [hv] at h1; cases h1
  refine entry_conv hc hek (t := .int) ?_ (by simp) ?_ (by simp [convert, toInt, hx])
  · rcases hk with rfl | rfl | rfl <;> decide
  · rcases hk with rfl | rfl | rfl <;> decide +kernel

/-- Switches are kept. -/
theorem C65_switches {R : Reader K} {d a : PyDict (LVal K)} (h : fromDict R d = .ok a) {k : String} {b : Bool}
    (hk : k = "stop_start" ∨ k = "force_aux_on_fc") (hv : d.get? k = some (.bool b)) :
    a.get? k = some (.bool b) := by
  obtain ⟨e, he, hc, -, -⟩ := fromDict_ok h
  have hek : e.get? k = some (.bool b) := by
    rcases hk with rfl | rfl
    · rcases he.stop with ⟨h1, -⟩ | ⟨h1, -⟩ | ⟨-, h2⟩
      · rw [hv] at h1; cases h1
      · rw [hv] at h1; cases h1
      · rw [h2, hv]
    · rw [he.other _ (by decide), hv]
  refine entry_conv hc hek (t := .bool) ?_ (by simp) ?_ rfl
  · rcases hk with rfl | rfl <;> decide
  · rcases hk with rfl | rfl <;> decide +kernel

/-- An empty cell leaves the stop-start system off. -/
theorem C65_blank_stop_start {R : Reader K} {d a : PyDict (LVal K)} (h : fromDict R d = .ok a)
    (hv : d.get? "stop_start" = some .nan) : a.get? "stop_start" = some (.bool false) := by
  obtain ⟨e, he, hc, -, -⟩ := fromDict_ok h
  have hek : e.get? "stop_start" = some (.bool false) := by
    rcases he.stop with ⟨h1, -⟩ | ⟨-, h2⟩ | ⟨⟨_, h1⟩ | ⟨_, h1⟩, -⟩
    · rw [hv] at h1; cases h1
    · exact h2
    · rw [hv] at h1; cases h1
    · rw [hv] at h1; cases h1
  exact entry_conv hc hek (t := .bool) (by decide) (by simp) (by decide +kernel) rfl

/-- An empty cell switches "accessories on the engine" on, not off. -/
theorem C65_blank_force_aux {R : Reader K} {d a : PyDict (LVal K)} (h : fromDict R d = .ok a)
    (hv : d.get? "force_aux_on_fc" = some .nan) : a.get? "force_aux_on_fc" = some (.bool true) := by
  obtain ⟨e, he, hc, -, -⟩ := fromDict_ok h
  have hek : e.get? "force_aux_on_fc" = some .nan := by rw [he.other _ (by decide), hv]
  exact entry_conv hc hek (t := .bool) (by decide) (by simp) (by decide +kernel) rfl

/-- An empty or missing mass override is no override. -/
theorem C65_blank_mass {R : Reader K} {d a : PyDict (LVal K)} (h : fromDict R d = .ok a)
    (hv : d.get? "veh_override_kg" = none ∨ d.get? "veh_override_kg" = some .nan) :
    a.get? "veh_override_kg" = some .pyNone := by
  obtain ⟨e, he, hc, -, -⟩ := fromDict_ok h
  have hek : e.get? "veh_override_kg" = some .pyNone := by
    rcases he.mass with ⟨-, h2⟩ | ⟨⟨_, h1⟩ | ⟨_, h1⟩, -⟩
    · exact h2
    · rcases hv with hv | hv <;> rw [hv] at h1 <;> cases h1
    · rcases hv with hv | hv <;> rw [hv] at h1 <;> cases h1
  obtain ⟨w, h1, h2⟩ := entry_of hc hek
  have : convertEntry R ("veh_override_kg", (.pyNone : LVal K)) = .ok ("veh_override_kg", .pyNone) := by
    simp [convertEntry, mayBeNone]
  rw [this] at h2
  cases h2
  exact h1

theorem digit_exists {c : Char} (h : c.isDigit = true) : ∃ n, n < 10 ∧ c = Nat.digitChar n ∧
    c.toNat - '0'.toNat = n := by
  have h1 : 48 ≤ c.val.toNat ∧ c.val.toNat ≤ 57 := by
    simp only [Char.isDigit, ge_iff_le, Bool.and_eq_true, decide_eq_true_eq] at h
    exact ⟨h.1, h.2⟩
  have h2 : c.toNat = c.val.toNat := rfl
  have hc : Char.ofNat c.toNat = c := Char.ofNat_toNat c
  obtain ⟨n, hn⟩ : ∃ n, c.toNat = 48 + n := ⟨c.toNat - 48, by omega⟩
  have hlt : n < 10 := by omega
  refine ⟨n, hlt, ?_, ?_⟩
  · rw [← hc, hn]
    interval_cases n <;> rfl
  · rw [hn]; show 48 + n - 48 = n; omega

theorem digitChar_digit {n : Nat} (h : n < 10) : (Nat.digitChar n).isDigit = true ∧
    (Nat.digitChar n).toNat - '0'.toNat = n := by
  interval_cases n <;> decide

theorem yearOfName_spec (s : Txt) : YearIn s (yearOfName s) := by
  by_cases hd : (s.take 4).length = 4 ∧ (s.take 4).all Char.isDigit
  · left
    have hv : yearOfName s = digitsNum (s.take 4) := by unfold yearOfName; rw [if_pos hd]
    obtain ⟨hl, ha⟩ := hd
    rcases s with _ | ⟨c1, _ | ⟨c2, _ | ⟨c3, _ | ⟨c4, rest⟩⟩⟩⟩
    all_goals try (simp at hl; done)
    simp only [List.take_succ_cons, List.take_zero, List.all_cons, List.all_nil, Bool.and_true,
      Bool.and_eq_true] at ha
    obtain ⟨a1, a2, a3, a4⟩ := ha
    obtain ⟨n1, l1, e1, v1⟩ := digit_exists a1
    obtain ⟨n2, l2, e2, v2⟩ := digit_exists a2
    obtain ⟨n3, l3, e3, v3⟩ := digit_exists a3
    obtain ⟨n4, l4, e4, v4⟩ := digit_exists a4
    refine ⟨n1, n2, n3, n4, rest, l1, l2, l3, l4, ?_, by rw [← e1, ← e2, ← e3, ← e4]⟩
    rw [hv]
    simp only [List.take_succ_cons, List.take_zero, digitsNum, List.foldl_cons, List.foldl_nil, v1, v2, v3, v4]
    ring
  · right
    refine ⟨by unfold yearOfName; rw [if_neg hd], ?_⟩
    rintro ⟨a, b, c, e, rest, la, lb, lc, le, rfl⟩
    apply hd
    simp [(digitChar_digit la).1, (digitChar_digit lb).1, (digitChar_digit lc).1, (digitChar_digit le).1]

/-- Without a year the one at the beginning of the name is taken, otherwise 0. -/
theorem C65_year {R : Reader K} {d a : PyDict (LVal K)} (h : fromDict R d = .ok a) {s : Txt}
    (hv : d.get? "veh_year" = none ∨ d.get? "veh_year" = some .nan)
    (hn : d.get? "scenario_name" = some (.text s)) (htr : ∀ n : Nat, R.trunc (n : K) = (n : K)) :
    ∃ y : Nat, YearIn s y ∧ a.get? "veh_year" = some (.num (y : K)) := by
  obtain ⟨e, he, hc, -, -⟩ := fromDict_ok h
  refine ⟨yearOfName s, yearOfName_spec s, ?_⟩
  have hek : e.get? "veh_year" = some (.num ((yearOfName s : Nat) : K)) := by
    rcases he.year with ⟨-, n, h1, h2⟩ | ⟨y, h1, -⟩ | ⟨b, h1, -⟩
    · rw [hn] at h1; cases h1; exact h2
    · rcases hv with hv | hv <;> rw [hv] at h1 <;> cases h1
    · rcases hv with hv | hv <;> rw [hv] at h1 <;> cases h1
  exact entry_conv hc hek (t := .int) (by decide) (by simp) (by decide +kernel) (by simp [convert, toInt, htr])

/-- A list written for the engine map is the engine map. -/
theorem C65_engine_map {R : Reader K} {d a : PyDict (LVal K)} (h : fromDict R d = .ok a) {s : Txt} {l : List K}
    (hv : d.get? "fc_eff_map" = some (.text s)) (hl : R.literal s = some l) :
    a.get? "fc_eff_map" = some (.arr l) := by
  obtain ⟨e, he, hc, -, -⟩ := fromDict_ok h
  obtain ⟨t, l', h1, h2, -, h4, -⟩ := he.engine
  have : l' = l := by
    rcases h2 with h2 | ⟨h2, -⟩
    · rw [hv] at h2; simp only [readArray, hl] at h2; cases h2; rfl
    · rw [hv] at h2; simp only [readArray, hl] at h2; cases h2
  subst this
  exact entry_conv hc h4 (t := .array) (by decide) (by simp) (by decide +kernel) rfl

/-- Without a list the engine gets the map of its type. -/
theorem C65_engine_default {R : Reader K} {d a : PyDict (LVal K)} (h : fromDict R d = .ok a) {v : LVal K} {s : Txt}
    (hv : d.get? "fc_eff_map" = some v) (hr : ∀ s, v = .text s → R.literal s = none)
    (ht : d.get? "fc_eff_type" = some (.text s)) :
    ∃ l, builtinFcMap (engineOf s) = some l ∧ a.get? "fc_eff_map" = some (.arr l) := by
  obtain ⟨e, he, hc, -, -⟩ := fromDict_ok h
  obtain ⟨t, l, h1, h2, -, h4, -⟩ := he.engine
  have hno : readArray R (d.get? "fc_eff_map") = none := by
    rw [hv]
    cases v with
    | text s => exact hr s rfl
    | _ => rfl
  rw [ht] at h1
  cases h1
  rcases h2 with h2 | ⟨-, -, h2⟩
  · rw [hno] at h2; cases h2
  · exact ⟨l, h2, entry_conv hc h4 (t := .array) (by decide) (by simp) (by decide +kernel) rfl⟩

/-- A list written for the powers of engine or motor is kept. -/
theorem C65_powers {R : Reader K} {d a : PyDict (LVal K)} (h : fromDict R d = .ok a) {k : String} {s : Txt}
    {l : List K} (hk : k = "fc_pwr_out_perc" ∨ k = "mc_pwr_out_perc" ∨ k = "mc_eff_map")
    (hv : d.get? k = some (.text s)) (hl : R.literal s = some l) : a.get? k = some (.arr l) := by
  obtain ⟨e, he, hc, -, -⟩ := fromDict_ok h
  have hek : e.get? k = some (.arr l) := by
    rcases hk with rfl | rfl | rfl
    · rw [he.powers, hv]; simp [listOr, readArray, hl]
    · rw [he.motor, hv]; simp [listOr, readArray, hl]
    · rw [he.map, hv]; simp [listOrNone, readArray, hl]
  refine entry_conv hc hek (t := .array) ?_ (by simp) ?_ rfl
  · rcases hk with rfl | rfl | rfl <;> decide
  · rcases hk with rfl | rfl | rfl <;> decide +kernel

/-- A peak efficiency strictly between 0 and 1 is kept, any other number is dropped. -/
theorem C65_peaks {R : Reader K} {d a : PyDict (LVal K)} (h : fromDict R d = .ok a) {k : String} {x : K}
    (hk : k = "fc_peak_eff_override" ∨ k = "mc_peak_eff_override") (hv : d.get? k = some (.num x)) :
    a.get? k = some (if 0 < x ∧ x < 1 then .num x else .pyNone) := by
  obtain ⟨e, he, hc, -, -⟩ := fromDict_ok h
  have hek : e.get? k = some (if 0 < x ∧ x < 1 then .num x else .pyNone) := by
    rcases hk with rfl | rfl
    · rw [he.fcPeak, hv]; simp [peakOf, toFloat]
    · rw [he.mcPeak, hv]; simp [peakOf, toFloat]
  have hp : k ≠ "props" := by rcases hk with rfl | rfl <;> decide
  by_cases hx : 0 < x ∧ x < 1
  · rw [if_pos hx] at hek ⊢
    refine entry_conv hc hek (t := .float) hp (by simp) ?_ rfl
    rcases hk with rfl | rfl <;> decide +kernel
  · rw [if_neg hx] at hek ⊢
    obtain ⟨w, h1, h2⟩ := entry_of hc hek
    have : convertEntry R (k, (.pyNone : LVal K)) = .ok (k, .pyNone) := by
      have hm : mayBeNone k = true := by rcases hk with rfl | rfl <;> decide
      simp [convertEntry, hm]
    rw [this] at h2
    cases h2
    exact h1

/-- A load that succeeds gives a whole vehicle: every attribute the vehicle needs is there and no unknown one, the
powertrain type is one of the four, the engine map has as many entries as its powers and the motor has eleven
powers. -/
theorem C65_complete {R : Reader K} {d a : PyDict (LVal K)} (h : fromDict R d = .ok a) :
    (∀ k ∈ requiredKeys, ∃ v, a.get? k = some v) ∧
    (∀ k v, a.get? k = some v → k ∈ requiredKeys ∨ k ∈ optionalKeys) ∧
    (∀ k v, d.get? k = some v → ∃ w, a.get? k = some w) ∧
    (∃ s, a.get? "veh_pt_type" = some (.text s) ∧
      s ∈ ["Conv".toList, "HEV".toList, "PHEV".toList, "BEV".toList]) ∧
    (∃ m p, a.get? "fc_eff_map" = some (.arr m) ∧ a.get? "fc_pwr_out_perc" = some (.arr p) ∧
      m.length = p.length) ∧
    ∃ p, a.get? "mc_pwr_out_perc" = some (.arr p) ∧ p.length = 11 := by
  have h0 := h
  obtain ⟨e, he, hc, hk, hr⟩ := fromDict_ok h
  refine ⟨fun k hk => ?_, fun k v hv => hk k (get?_some_mem hv), fun k v hv => ?_, ?_, ?_, ?_⟩
  · rcases hg : a.get? k with _ | v
    · exact absurd (hr k hk) ((PyDict.get?_eq_none a k).1 hg)
    · exact ⟨v, rfl⟩
  · have hek : ∃ w, e.get? k = some w := by
      by_cases ho : k ∉ ["fc_eff_type", "fc_eff_map", "fc_pwr_out_perc", "mc_pwr_out_perc", "mc_eff_map",
        "stop_start", "veh_override_kg", "veh_year", "fc_peak_eff_override", "mc_peak_eff_override"]
      · exact ⟨v, by rw [he.other k ho, hv]⟩
      · rw [not_not] at ho
        obtain ⟨t, l, -, -, h3, h4, -⟩ := he.engine
        simp only [List.mem_cons, List.not_mem_nil, or_false] at ho
        rcases ho with rfl | rfl | rfl | rfl | rfl | rfl | rfl | rfl | rfl | rfl
        · exact ⟨_, h3⟩
        · exact ⟨_, h4⟩
        · exact ⟨_, he.powers⟩
        · exact ⟨_, he.motor⟩
        · exact ⟨_, he.map⟩
        · rcases he.stop with ⟨h1, -⟩ | ⟨-, h2⟩ | ⟨-, h2⟩
          · rw [hv] at h1; cases h1
          · exact ⟨_, h2⟩
          · exact ⟨_, h2.trans hv⟩
        · rcases he.mass with ⟨-, h2⟩ | ⟨-, h2⟩
          · exact ⟨_, h2⟩
          · exact ⟨_, h2.trans hv⟩
        · rcases he.year with ⟨-, n, -, h2⟩ | ⟨y, -, h2⟩ | ⟨b, -, h2⟩ <;> exact ⟨_, h2⟩
        · exact ⟨_, by rw [he.fcPeak, hv]; rfl⟩
        · exact ⟨_, by rw [he.mcPeak, hv]; rfl⟩
    obtain ⟨w, hw⟩ := hek
    obtain ⟨w', h1, -⟩ := entry_of hc hw
    exact ⟨w', h1⟩
  · obtain ⟨s, hs, hm⟩ := he.pt
    exact ⟨s, C65_texts h0 (.inr (.inl rfl)) hs, hm⟩
  · obtain ⟨t, l, -, -, -, h4, h5⟩ := he.engine
    exact ⟨l, _, entry_conv hc h4 (t := .array) (by decide) (by simp) (by decide +kernel) rfl,
      entry_conv hc he.powers (t := .array) (by decide) (by simp) (by decide +kernel) rfl, h5.symm⟩
  · exact ⟨_, entry_conv hc he.motor (t := .array) (by decide) (by simp) (by decide +kernel) rfl, he.motorLen⟩

theorem listIn_iff {R : Reader K} {v : Option (LVal K)} {dflt l : List K} (h : ListIn R v dflt l) :
    listOr R v dflt = l := by
  unfold listOr
  rcases h with ⟨s, rfl, hl⟩ | ⟨hn, rfl⟩
  · simp [readArray, hl]
  · have : readArray R v = none := by
      rcases v with _ | v
      · rfl
      · cases v with
        | text s => exact hn s rfl
        | _ => rfl
    rw [this]

/-- Every dictionary that is as the documentation asks for is loaded. -/
theorem C65_accepts {R : Reader K} {d : PyDict (LVal K)}
    (h : Acceptable R (requiredKeys ++ optionalKeys) requiredKeys defaultFcPwrOutPerc defaultMcPwrOutPerc
      (fun t => builtinFcMap (engineOf t)) d) : ∃ a, fromDict R d = .ok a := by
  have hget : ∀ {k : String} {v : LVal K}, (k, v) ∈ d → d.get? k = some v :=
    fun hm => PyDict.get?_of_mem h.distinct hm
  obtain ⟨t, v, map, pwr, ht, hv, hmap, hpwr, hlen⟩ := h.engine
  obtain ⟨mp, hmp, hml⟩ := h.motor
  -- the engine map
  have h1 : loadEngineMap R d = .ok ((d.set "fc_eff_type" (.text t)).set "fc_eff_map" (.arr map)) := by
    unfold loadEngineMap
    rw [hget ht]
    have hg : (d.set "fc_eff_type" (.text (strOf R (.text t)))).get? "fc_eff_map" = some v := by
      rw [PyDict.get?_set, if_neg (by decide), hget hv]
    simp only [hg]
    rcases hmap with ⟨s, rfl, hl⟩ | ⟨hn, hb⟩
    · simp only [readArray, hl]; rfl
    · have : readArray R (some v) = none := by
        cases v with
        | text s => exact hn s rfl
        | _ => rfl
      simp only [this, show strOf R (.text t) = t from rfl, hb]
  generalize hd1 : (d.set "fc_eff_type" (.text t)).set "fc_eff_map" (.arr map) = d1 at h1
  have g1 : ∀ k, k ≠ "fc_eff_type" → k ≠ "fc_eff_map" → d1.get? k = d.get? k := fun k a b => by
    rw [← hd1, PyDict.get?_set, if_neg b, PyDict.get?_set, if_neg a]
  have m1 : d1.get? "fc_eff_map" = some (.arr map) := by rw [← hd1, PyDict.get?_set, if_pos rfl]
  have h2 : loadEnginePowers R d1 = .ok (d1.set "fc_pwr_out_perc" (.arr pwr)) := by
    unfold loadEnginePowers
    change (if (listOr R _ defaultFcPwrOutPerc).length = _ then
      Except.ok (d1.set _ (.arr (listOr R _ defaultFcPwrOutPerc))) else _) = _
    rw [g1 _ (by decide) (by decide), listIn_iff (v := d.get? "fc_pwr_out_perc") hpwr, m1]
    exact if_pos hlen
  generalize hd2 : d1.set "fc_pwr_out_perc" (.arr pwr) = d2 at h2
  have g2 : ∀ k, k ≠ "fc_pwr_out_perc" → d2.get? k = d1.get? k := fun k a => by
    rw [← hd2, PyDict.get?_set, if_neg a]
  have h3 : loadMotorPowers R d2 = .ok (d2.set "mc_pwr_out_perc" (.arr mp)) := by
    unfold loadMotorPowers
    change (if (listOr R _ defaultMcPwrOutPerc).length = _ then
      Except.ok (d2.set _ (.arr (listOr R _ defaultMcPwrOutPerc))) else _) = _
    rw [g2 _ (by decide), g1 _ (by decide) (by decide), listIn_iff (v := d.get? "mc_pwr_out_perc") hmp]
    exact if_pos hml
  generalize hd3 : d2.set "mc_pwr_out_perc" (.arr mp) = d3 at h3
  have g3 : ∀ k, k ≠ "mc_pwr_out_perc" → d3.get? k = d2.get? k := fun k a => by
    rw [← hd3, PyDict.get?_set, if_neg a]
  have g4 : ∀ k, k ≠ "mc_eff_map" → (loadMotorMap R d3).get? k = d3.get? k := fun k a => by
    rw [loadMotorMap_eq, PyDict.get?_set, if_neg a]
  have hall : ∀ k, k ∉ preparedKeys → (loadMotorMap R d3).get? k = d.get? k := fun k hk => by
    simp only [preparedKeys, List.mem_cons, List.not_mem_nil, or_false, not_or] at hk
    rw [g4 _ hk.2.2.2.2.1, g3 _ hk.2.2.2.1, g2 _ hk.2.2.1, g1 _ hk.1 hk.2.1]
  have hsw : ∀ k, k ∈ ["stop_start", "veh_override_kg", "veh_year"] → (loadMotorMap R d3).get? k = d.get? k := by
    intro k hk
    simp only [List.mem_cons, List.not_mem_nil, or_false] at hk
    rcases hk with rfl | rfl | rfl <;>
      rw [g4 _ (by decide), g3 _ (by decide), g2 _ (by decide), g1 _ (by decide) (by decide)]
  generalize hd4 : loadMotorMap R d3 = d4 at hall hsw g4
  -- switches, mass, year and powertrain type
  obtain ⟨d5, h5⟩ : ∃ d5, loadStopStart d4 = .ok d5 := by
    unfold loadStopStart
    rw [hsw "stop_start" (by decide)]
    rcases hg : d.get? "stop_start" with _ | w
    · exact ⟨_, rfl⟩
    · rcases h.switches _ (PyDict.get?_mem hg) (.inl rfl) with ⟨b, e⟩ | e <;> simp only at e <;> subst e <;>
        exact ⟨_, rfl⟩
  have f5 := (loadStopStart_ok h5).1
  obtain ⟨d6, h6⟩ : ∃ d6, loadMassOverride d5 = .ok d6 := by
    unfold loadMassOverride
    rw [f5 _ (by decide), hsw "veh_override_kg" (by decide)]
    rcases hg : d.get? "veh_override_kg" with _ | w
    · exact ⟨_, rfl⟩
    · rcases h.plain _ (PyDict.get?_mem hg) (show "veh_override_kg" ∉ notPlain by decide) with ⟨b, e⟩ | e <;> simp only at e <;> subst e <;>
        exact ⟨_, rfl⟩
  have f6 := (loadMassOverride_ok h6).1
  obtain ⟨d7, h7⟩ : ∃ d7, loadYear R d6 = .ok d7 := by
    obtain ⟨n, hn⟩ : ∃ n, d6.get? "scenario_name" = some n := by
      rcases h.present "scenario_name" (by decide) with ⟨n, hn⟩ | hn
      · exact ⟨n, by rw [f6 _ (by decide), f5 _ (by decide), hall _ (by decide), hget hn]⟩
      · exact absurd hn (by decide)
    unfold loadYear
    simp only [hn]
    rw [f6 _ (by decide), f5 _ (by decide), hsw "veh_year" (by decide)]
    rcases hg : d.get? "veh_year" with _ | w
    · exact ⟨_, rfl⟩
    · rcases h.year _ (PyDict.get?_mem hg) rfl with ⟨b, e⟩ | e <;> simp only at e <;> subst e <;> exact ⟨_, rfl⟩
  have f7 := (loadYear_ok h7).1
  have h8 : checkPtType d7 = .ok d7 := by
    unfold checkPtType
    rw [f7 _ (by decide), f6 _ (by decide), f5 _ (by decide), hall _ (by decide)]
    rcases h.pt with hp | hp | hp | hp <;> rw [hget hp] <;> rfl
  have hprep : prepare R d = .ok (loadPeak R "mc_peak_eff_override" (loadPeak R "fc_peak_eff_override" d7)) := by
    unfold prepare
    simp only [bind, Except.bind, h1, h2, h3, hd4, h5, h6, h7, h8]
  obtain ⟨e, he⟩ : ∃ e, prepare R d = .ok e := ⟨_, hprep⟩
  have st := prepare_ok he
  have si := prepare_setIn he
  have hnd : e.keys.Nodup := si.nodup h.distinct
  have hknown : ∀ k ∈ e.keys, k ∈ requiredKeys ++ optionalKeys := by
    intro k hk
    rcases (si.keys k).2 hk with hk | hk
    · obtain ⟨p, hp, rfl⟩ := List.mem_map.1 hk
      exact h.names p hp
    · have : ∀ k ∈ preparedKeys, k ∈ requiredKeys ++ optionalKeys := by decide +kernel
      exact this k hk
  have hconv : ∀ p ∈ e, ∃ q, convertEntry R p = .ok q := by
    rintro ⟨k, w⟩ hp
    have hew : e.get? k = some w := PyDict.get?_of_mem hnd hp
    have hk := hknown k (List.mem_map.2 ⟨(k, w), hp, rfl⟩)
    have by_type : ∀ {t : KType}, keyType k = some t → (∃ u, convert R t w = .ok u) →
        ∃ q, convertEntry R (k, w) = .ok q := by
      rintro t ht ⟨u, hu⟩
      unfold convertEntry
      simp only [ht, hu]
      split
      · exact ⟨_, rfl⟩
      · split <;> exact ⟨_, rfl⟩
    by_cases hpre : k ∈ preparedKeys
    · obtain ⟨t, l, -, -, q3, q4, -⟩ := st.engine
      simp only [preparedKeys, List.mem_cons, List.not_mem_nil, or_false] at hpre
      have peak : ∀ {x : Option (LVal K)}, some w = x.map (peakOf R) → ∃ u, convert R .float w = .ok u := by
        rintro (_ | x) hx
        · cases hx
        · simp only [Option.map_some, Option.some.injEq] at hx
          rw [hx]
          unfold peakOf
          split
          · split <;> exact ⟨_, rfl⟩
          · exact ⟨_, rfl⟩
      rcases hpre with rfl | rfl | rfl | rfl | rfl | rfl | rfl | rfl | rfl | rfl
      · exact by_type (t := .str) (by decide +kernel) ⟨_, rfl⟩
      · exact by_type (t := .array) (by decide +kernel) ⟨_, rfl⟩
      · exact by_type (t := .array) (by decide +kernel) ⟨_, rfl⟩
      · exact by_type (t := .array) (by decide +kernel) ⟨_, rfl⟩
      · exact by_type (t := .array) (by decide +kernel) ⟨_, rfl⟩
      · refine by_type (t := .bool) (by decide +kernel) ?_
        rcases st.stop with ⟨-, q⟩ | ⟨-, q⟩ | ⟨⟨x, q⟩ | ⟨b, q⟩, q'⟩
        · rw [hew] at q; cases q
        · rw [hew] at q; cases q; exact ⟨_, rfl⟩
        · rw [hew, q] at q'; cases q'; exact ⟨_, rfl⟩
        · rw [hew, q] at q'; cases q'; exact ⟨_, rfl⟩
      · refine by_type (t := .float) (by decide +kernel) ?_
        rcases st.mass with ⟨-, q⟩ | ⟨⟨x, q⟩ | ⟨b, q⟩, q'⟩
        · rw [hew] at q; cases q; exact ⟨_, rfl⟩
        · rw [hew, q] at q'; cases q'; exact ⟨_, rfl⟩
        · rw [hew, q] at q'; cases q'; exact ⟨_, rfl⟩
      · refine by_type (t := .int) (by decide +kernel) ?_
        rcases st.year with ⟨-, n, -, q⟩ | ⟨x, -, q⟩ | ⟨b, -, q⟩ <;> rw [hew] at q <;> cases q <;> exact ⟨_, rfl⟩
      · exact by_type (t := .float) (by decide +kernel) (peak (hew.symm.trans st.fcPeak))
      · exact by_type (t := .float) (by decide +kernel) (peak (hew.symm.trans st.mcPeak))
    · have hd : (k, w) ∈ d := PyDict.get?_mem (by rw [← st.other k hpre, hew])
      by_cases hpl : k ∈ notPlain
      · simp only [notPlain, List.mem_cons, List.not_mem_nil, or_false] at hpl
        rcases hpl with rfl | rfl | rfl | rfl | rfl | rfl | rfl | rfl | rfl | rfl | rfl | rfl | rfl | rfl | rfl
        · exact by_type (t := .str) (by decide +kernel) ⟨_, rfl⟩
        · exact by_type (t := .str) (by decide +kernel) ⟨_, rfl⟩
        · exact absurd (by decide) hpre
        · obtain ⟨x, hx⟩ := h.whole _ hd (.inl rfl)
          simp only at hx; subst hx
          exact by_type (t := .int) (by decide +kernel) ⟨_, rfl⟩
        · exact absurd (by decide) hpre
        · obtain ⟨x, hx⟩ := h.whole _ hd (.inr rfl)
          simp only at hx; subst hx
          exact by_type (t := .int) (by decide +kernel) ⟨_, rfl⟩
        · exact absurd (by decide) hpre
        · refine by_type (t := .bool) (by decide +kernel) ?_
          rcases h.switches _ hd (.inr rfl) with ⟨b, e⟩ | e <;> simp only at e <;> subst e <;> exact ⟨_, rfl⟩
        · exact absurd (by decide) hpre
        · exact absurd (by decide) hpre
        · exact absurd (by decide) hpre
        · exact absurd (by decide) hpre
        · exact absurd (by decide) hpre
        · exact absurd (by decide) hpre
        · exact ⟨_, by unfold convertEntry; rw [if_pos rfl]⟩
      · refine by_type (plain_float k hk hpl) ?_
        rcases h.plain _ hd hpl with ⟨x, e⟩ | e <;> simp only at e <;> subst e <;> exact ⟨_, rfl⟩
  obtain ⟨a, ha, hak⟩ := convertAll_succeeds hconv
  refine ⟨a, ?_⟩
  unfold fromDict
  simp only [bind, Except.bind, he, ha]
  unfold construct
  rw [if_pos]
  rw [hak]
  refine ⟨fun k hk => List.mem_append.1 (hknown k hk), fun k hk => ?_⟩
  rcases h.present k hk with ⟨v, hv⟩ | hk'
  · exact (si.keys k).1 (List.mem_map.2 ⟨(k, v), hv, rfl⟩)
  · simp only [List.mem_cons, List.not_mem_nil, or_false] at hk'
    rcases hk' with rfl | rfl | rfl | rfl | rfl
    · exact get?_some_mem st.powers
    · exact get?_some_mem st.motor
    · exact get?_some_mem st.map
    · rcases st.mass with ⟨-, q⟩ | ⟨⟨x, q⟩ | ⟨b, q⟩, q'⟩
      · exact get?_some_mem q
      · exact get?_some_mem (q'.trans q)
      · exact get?_some_mem (q'.trans q)
    · rcases st.year with ⟨-, n, -, q⟩ | ⟨x, -, q⟩ | ⟨b, -, q⟩ <;> exact get?_some_mem q

/-! ### Tables -/

/-- The new and the old name of a column stand for the same attribute. -/
theorem C65_old_names : ∀ p ∈ newToOld, columnKey p.2 = p.1 ∧ columnKey p.1 = p.1 ∧
    allowedColumn p.1 ∧ allowedColumn p.2 := by
  decide +kernel

theorem rowDict_fold_get (l : List (String × LVal K)) (d : PyDict (LVal K)) (k : String) :
    (l.foldl (fun d p => d.set (columnKey p.1) p.2) d).get? k =
      match (l.reverse.find? fun p => columnKey p.1 = k) with
      | some p => some p.2
      | none => d.get? k := by
  induction l generalizing d with
  | nil => rfl
  | cons p l ih =>
    rw [List.foldl_cons, ih, List.reverse_cons, List.find?_append, PyDict.get?_set]
    cases List.find? (fun p => decide (columnKey p.1 = k)) l.reverse with
    | some q => rfl
    | none =>
      by_cases hk : columnKey p.1 = k
      · simp [List.find?_cons, hk]
      · have hk' : ¬ k = columnKey p.1 := fun e => hk e.symm
        simp [List.find?_cons, hk, hk']

/-- The dictionary of a row has the cell of every column, if no two columns stand for the same attribute. -/
theorem rowDict_get {cols : List String} {row : List (LVal K)} (hn : (cols.map columnKey).Nodup)
    {i : Nat} {c : String} {v : LVal K} (hc : cols[i]? = some c) (hv : row[i]? = some v) :
    (rowDict cols row).get? (columnKey c) = some v := by
  unfold rowDict
  rw [rowDict_fold_get]
  have hz : (cols.zip row)[i]? = some (c, v) := by
    rw [List.getElem?_zip_eq_some]; exact ⟨hc, hv⟩
  rcases hf : (cols.zip row).reverse.find? (fun p => decide (columnKey p.1 = columnKey c)) with _ | q
  · rw [List.find?_eq_none] at hf
    have := hf (c, v) (List.mem_reverse.2 (List.mem_of_getElem? hz))
    simp at this
  · have h1 := List.find?_some hf
    have h2 := List.mem_reverse.1 (List.mem_of_find?_eq_some hf)
    obtain ⟨j, hj⟩ := List.mem_iff_getElem?.1 h2
    obtain ⟨q1, q2⟩ := q
    rw [List.getElem?_zip_eq_some] at hj
    simp only [decide_eq_true_eq] at h1
    have hij : j = i := by
      have e1 : (cols.map columnKey)[j]? = some (columnKey c) := by
        rw [List.getElem?_map, hj.1, Option.map_some, h1]
      have e2 : (cols.map columnKey)[i]? = some (columnKey c) := by
        rw [List.getElem?_map, hc, Option.map_some]
      obtain ⟨l1, e1⟩ := List.getElem?_eq_some_iff.1 e1
      obtain ⟨l2, e2⟩ := List.getElem?_eq_some_iff.1 e2
      exact (List.Nodup.getElem_inj_iff hn).1 (e1.trans e2.symm)
    subst hij
    rw [hv] at hj
    obtain ⟨-, hj⟩ := hj
    cases hj
    rw [hf]

/-- A vehicle loaded from a table is the one of the row with its number: every number or percentage written for a
plain attribute is the number the vehicle gets. -/
theorem C65_table {R : Reader K} {T : VehTable K} {vnum : K} {a : PyDict (LVal K)}
    (h : (fromTable R T vnum).1 = .ok a) (hn : (T.cols.map columnKey).Nodup) :
    ∃ row ∈ T.rows, List.lookup "selection" (T.cols.zip row) = some (.num vnum) ∧
      ∀ (i : Nat) c v x, T.cols[i]? = some c → row[i]? = some v → CellMeans R v (.num x) →
        columnKey c ∉ notPlain → a.get? (columnKey c) = some (.num x) := by
  unfold fromTable at h
  split at h
  · cases h
  · split at h
    · cases h
    · split at h
      · cases h
      · next i hi =>
        unfold VehTable.find at hi
        obtain ⟨hl, hsel, -⟩ := List.findIdx?_eq_some_iff_getElem.1 hi
        refine ⟨T.rows[i], List.getElem_mem _, of_decide_eq_true hsel, ?_⟩
        intro j c v x hc hv hm hk
        refine C65_numbers h hk ?_
        have hr : (T.clean R i).rows.getD i [] = (T.rows[i]).map (cleanData R) := by
          unfold VehTable.clean
          rw [List.getD_eq_getElem?_getD, List.getElem?_modify_eq, List.getElem?_eq_getElem hl]
          rfl
        rw [hr]
        refine rowDict_get hn hc ?_
        rw [List.getElem?_map, hv, Option.map_some, C65_cells R hm]

/-- A table whose columns bear other names for the same attributes gives the same vehicle. -/
theorem C65_renamed {R : Reader K} {T T' : VehTable K} (hr : T'.rows = T.rows)
    (hc : List.Forall₂ (fun c c' => columnKey c' = columnKey c ∧ (c' = "selection" ↔ c = "selection") ∧
      (allowedColumn c' ↔ allowedColumn c)) T.cols T'.cols) (vnum : K) :
    (fromTable R T' vnum).1 = (fromTable R T vnum).1 := by
  have hsel : ("selection" ∈ T'.cols ↔ "selection" ∈ T.cols) ∧
      ((∀ c ∈ T'.cols, allowedColumn c) ↔ ∀ c ∈ T.cols, allowedColumn c) := by
    clear hr
    generalize T.cols = l at hc
    generalize T'.cols = l' at hc
    induction hc with
    | nil => simp
    | cons h _ ih =>
      rw [List.mem_cons, List.mem_cons, List.forall_mem_cons, List.forall_mem_cons, ih.1, ih.2, h.2.2,
        eq_comm, h.2.1, eq_comm]
      exact ⟨Iff.rfl, Iff.rfl⟩
  have hcell : ∀ row : List (LVal K), T'.cell row "selection" = T.cell row "selection" := by
    clear hsel hr
    intro row
    unfold VehTable.cell
    generalize T.cols = l at hc
    generalize T'.cols = l' at hc
    induction hc generalizing row with
    | nil => rfl
    | @cons c c' _ _ h _ ih =>
      cases row with
      | nil => rfl
      | cons v row =>
        rw [List.zip_cons_cons, List.zip_cons_cons, List.lookup_cons, List.lookup_cons, ih]
        have : ("selection" == c') = ("selection" == c) := by
          rw [Bool.eq_iff_iff, beq_iff_eq, beq_iff_eq, eq_comm, h.2.1, eq_comm]
        rw [this]
  have hdict : ∀ row : List (LVal K), rowDict T'.cols row = rowDict T.cols row := by
    clear hsel hr hcell
    intro row
    unfold rowDict
    generalize ([] : PyDict (LVal K)) = d
    generalize T.cols = l at hc
    generalize T'.cols = l' at hc
    induction hc generalizing row d with
    | nil => rfl
    | cons h _ ih =>
      cases row with
      | nil => rfl
      | cons v row =>
        rw [List.zip_cons_cons, List.zip_cons_cons, List.foldl_cons, List.foldl_cons, ih, h.1]
  have hfind : T'.find vnum = T.find vnum := by
    unfold VehTable.find
    rw [hr]
    congr 1
    funext row
    rw [hcell]
  unfold fromTable
  simp only [hsel.1, hsel.2, hfind]
  split
  · rfl
  · split
    · rfl
    · cases T.find vnum with
      | none => rfl
      | some i =>
        show fromDict R (rowDict T'.cols _) = fromDict R (rowDict T.cols _)
        rw [hdict]
        simp only [VehTable.clean, hr]

theorem lookup_zip_map {V W : Type*} (f : V → W) (k : String) (cols : List String) (row : List V) :
    List.lookup k (cols.zip (row.map f)) = (List.lookup k (cols.zip row)).map f := by
  induction cols generalizing row with
  | nil => rfl
  | cons c cols ih =>
    cases row with
    | nil => rfl
    | cons v row =>
      rw [List.map_cons, List.zip_cons_cons, List.zip_cons_cons, List.lookup_cons, List.lookup_cons, ih]
      cases k == c <;> rfl

/-- What loading vehicles leaves of a table: rows as they were or cleaned, the latter only where a vehicle number
stands. -/
def Worn (R : Reader K) (T T' : VehTable K) : Prop :=
  T'.cols = T.cols ∧ List.Forall₂ (fun row row' => row' = row ∨
    (∃ w, List.lookup "selection" (T.cols.zip row) = some (.num w)) ∧ row' = row.map (cleanData R))
    T.rows T'.rows

theorem worn_refl (R : Reader K) (T : VehTable K) : Worn R T T :=
  ⟨rfl, List.forall₂_same.2 fun _ _ => .inl rfl⟩

theorem clean_clean_row (R : Reader K) (row : List (LVal K)) :
    (row.map (cleanData R)).map (cleanData R) = row.map (cleanData R) := by
  rw [List.map_map]
  exact List.map_congr_left fun v _ => C66_clean_twice R v

theorem worn_cell {R : Reader K} {T : VehTable K} {row row' : List (LVal K)}
    (h : row' = row ∨ (∃ w, List.lookup "selection" (T.cols.zip row) = some (.num w)) ∧
      row' = row.map (cleanData R)) :
    List.lookup "selection" (T.cols.zip row') = List.lookup "selection" (T.cols.zip row) := by
  rcases h with rfl | ⟨⟨w, hw⟩, rfl⟩
  · rfl
  · rw [lookup_zip_map, hw]; rfl

theorem worn_find {R : Reader K} {T T' : VehTable K} (h : Worn R T T') (v : K) : T'.find v = T.find v := by
  obtain ⟨hc, hr⟩ := h
  unfold VehTable.find VehTable.cell
  rw [hc]
  generalize T.rows = l at hr
  generalize T'.rows = l' at hr
  induction hr with
  | nil => rfl
  | cons hx _ ih =>
    rw [List.findIdx?_cons, List.findIdx?_cons, ih, worn_cell hx]

theorem worn_load {R : Reader K} {T T' : VehTable K} (h : Worn R T T') (v : K) :
    (fromTable R T' v).1 = (fromTable R T v).1 ∧ Worn R T (fromTable R T' v).2 := by
  have hf := worn_find h v
  have h0 := h
  obtain ⟨hc, hr⟩ := h
  unfold fromTable
  simp only [hc, hf]
  split
  · exact ⟨rfl, h0⟩
  · split
    · exact ⟨rfl, h0⟩
    · rcases hfi : T.find v with _ | i
      · exact ⟨rfl, h0⟩
      · simp only
        have hfi' := hfi
        unfold VehTable.find at hfi'
        obtain ⟨hl, hsel, -⟩ := List.findIdx?_eq_some_iff_getElem.1 hfi'
        have hl' : i < T'.rows.length := by rw [← hr.length_eq]; exact hl
        have hrow := List.Forall₂.get hr hl hl'
        simp only [List.get_eq_getElem] at hrow
        have hsel : List.lookup "selection" (T.cols.zip T.rows[i]) = some (.num v) :=
          of_decide_eq_true hsel
        have hcl : (T'.rows[i]).map (cleanData R) = (T.rows[i]).map (cleanData R) := by
          rcases hrow with e | ⟨-, e⟩
          · rw [e]
          · rw [e, clean_clean_row]
        constructor
        · have g : ∀ (S : VehTable K) (hs : i < S.rows.length),
              (S.clean R i).rows.getD i [] = (S.rows[i]).map (cleanData R) := fun S hs => by
            unfold VehTable.clean
            rw [List.getD_eq_getElem?_getD, List.getElem?_modify_eq, List.getElem?_eq_getElem hs]
            rfl
          rw [g T hl, g T' hl', hcl]
          show fromDict R (rowDict T'.cols _) = fromDict R (rowDict T.cols _)
          rw [hc]
        · refine ⟨hc, ?_⟩
          show List.Forall₂ _ T.rows (T'.rows.modify i _)
          rw [List.forall₂_iff_get] at hr ⊢
          refine ⟨by rw [List.length_modify]; exact hr.1, fun j h1 h2 => ?_⟩
          simp only [List.get_eq_getElem, List.getElem_modify]
          by_cases hij : i = j
          · subst hij
            rw [if_pos rfl, hcl]
            exact .inr ⟨⟨v, hsel⟩, rfl⟩
          · rw [if_neg hij]
            rw [List.length_modify] at h2
            exact hr.2 j h1 h2

/-- Loading vehicles, in any number and order, does not change what any vehicle of the table is loaded as, although
the table itself is changed. -/
theorem C66_repeatable (R : Reader K) (T : VehTable K) (loads : List K) (vnum : K) :
    (fromTable R (loads.foldl (fun T w => (fromTable R T w).2) T) vnum).1 = (fromTable R T vnum).1 := by
  suffices h : ∀ T', Worn R T T' → Worn R T (loads.foldl (fun T w => (fromTable R T w).2) T') from
    (worn_load (h T (worn_refl R T)) vnum).1
  induction loads with
  | nil => exact fun _ h => h
  | cons w loads ih => exact fun T' h => ih _ (worn_load h w).2

end Fastsim.Props
