import Verif.Model.Copy
import Mathlib.Data.List.Nodup

/-! Lemmas about Python dictionaries. -/

namespace Fastsim
namespace PyDict
variable {V : Type*}

theorem get?_nil (k : String) : get? ([] : PyDict V) k = none := rfl

theorem get?_cons (k k' : String) (v : V) (d : PyDict V) :
    get? ((k, v) :: d) k' = if k' = k then some v else get? d k' := by
  unfold get?
  rw [List.lookup_cons]
  by_cases h : k' = k
  · simp [h]
  · have : (k' == k) = false := by simpa using h
    simp [this, h]

theorem get?_set (d : PyDict V) (k k' : String) (v : V) :
    get? (set d k v) k' = if k' = k then some v else get? d k' := by
  induction d with
  | nil => unfold set; rw [get?_cons]
  | cons p d ih =>
    obtain ⟨a, b⟩ := p
    unfold set
    by_cases h : a = k
    · rw [if_pos h, get?_cons, get?_cons]
      subst h
      by_cases h' : k' = a <;> simp [h']
    · rw [if_neg h, get?_cons, get?_cons, ih]
      by_cases h' : k' = a
      · subst h'; simp [h]
      · simp [h']

theorem mem_keys_set (d : PyDict V) (k k' : String) (v : V) :
    k' ∈ keys (set d k v) ↔ k' = k ∨ k' ∈ keys d := by
  induction d with
  | nil => simp [set, keys]
  | cons p d ih =>
    obtain ⟨a, b⟩ := p
    unfold set
    unfold keys at ih ⊢
    by_cases h : a = k
    · subst h; simp
    · rw [if_neg h, List.map_cons, List.mem_cons, ih, List.map_cons, List.mem_cons]
      tauto

theorem get?_eq_none (d : PyDict V) (k : String) : get? d k = none ↔ k ∉ keys d := by
  induction d with
  | nil => simp [get?_nil, keys]
  | cons p d ih =>
    obtain ⟨a, b⟩ := p
    rw [get?_cons]
    unfold keys at ih ⊢
    by_cases h : k = a
    · simp [h]
    · simp only [if_neg h, ih, List.map_cons, List.mem_cons]; tauto

theorem get?_mem {d : PyDict V} {k : String} {v : V} (h : get? d k = some v) : (k, v) ∈ d := by
  induction d with
  | nil => simp [get?_nil] at h
  | cons p d ih =>
    obtain ⟨a, b⟩ := p
    rw [get?_cons] at h
    by_cases hk : k = a
    · rw [if_pos hk] at h; cases h; subst hk; simp
    · rw [if_neg hk] at h; exact List.mem_cons_of_mem _ (ih h)

theorem get?_of_mem {d : PyDict V} (hd : (keys d).Nodup) {k : String} {v : V} (h : (k, v) ∈ d) :
    get? d k = some v := by
  induction d with
  | nil => simp at h
  | cons p d ih =>
    obtain ⟨a, b⟩ := p
    unfold keys at hd ih
    rw [List.map_cons, List.nodup_cons] at hd
    rw [get?_cons]
    rcases List.mem_cons.1 h with e | hm
    · cases e; simp
    · have : k ≠ a := by
        rintro rfl
        exact hd.1 (List.mem_map.2 ⟨_, hm, rfl⟩)
      rw [if_neg this]; exact ih hd.2 hm

theorem get?_iff {d : PyDict V} (hd : (keys d).Nodup) {k : String} {v : V} :
    get? d k = some v ↔ (k, v) ∈ d := ⟨get?_mem, get?_of_mem hd⟩

theorem mem_keys_foldl (f : String → String) (d acc : PyDict V) (k : String) :
    k ∈ keys (d.foldl (fun acc kv => set acc (f kv.1) kv.2) acc) ↔
      k ∈ keys acc ∨ ∃ kv ∈ d, f kv.1 = k := by
  induction d generalizing acc with
  | nil => simp
  | cons p d ih =>
    rw [List.foldl_cons, ih, mem_keys_set]
    simp only [List.mem_cons, exists_eq_or_imp]
    constructor
    · rintro ((h | h) | h)
      · exact Or.inr (Or.inl h.symm)
      · exact Or.inl h
      · exact Or.inr (Or.inr h)
    · rintro (h | h | h)
      · exact Or.inl (Or.inr h)
      · exact Or.inl (Or.inl h.symm)
      · exact Or.inr h

theorem get?_foldl (f : String → String) (d acc : PyDict V) (hn : (d.map fun kv => f kv.1).Nodup)
    (k : String) :
    (∀ kv ∈ d, f kv.1 = k → get? (d.foldl (fun acc kv => set acc (f kv.1) kv.2) acc) k = some kv.2) ∧
    ((∀ kv ∈ d, f kv.1 ≠ k) →
      get? (d.foldl (fun acc kv => set acc (f kv.1) kv.2) acc) k = get? acc k) := by
  induction d generalizing acc with
  | nil => simp
  | cons p d ih =>
    rw [List.map_cons, List.nodup_cons] at hn
    obtain ⟨i1, i2⟩ := ih (set acc (f p.1) p.2) hn.2
    rw [List.foldl_cons]
    constructor
    · intro kv hm hk
      rcases List.mem_cons.1 hm with rfl | hm
      · rw [i2, get?_set, if_pos hk.symm]
        intro q hq e
        exact hn.1 (List.mem_map.2 ⟨q, hq, e.trans hk.symm⟩)
      · exact i1 kv hm hk
    · intro h
      rw [i2 (fun q hq => h q (List.mem_cons_of_mem _ hq)), get?_set, if_neg]
      exact fun e => h p List.mem_cons_self e.symm

end PyDict
end Fastsim
