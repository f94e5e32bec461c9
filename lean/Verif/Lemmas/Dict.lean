import Verif.Py.Basic
namespace Verif.Dict
variable {κ : Type _} {α : Type _} [DecidableEq κ]

theorem set_eq_append (d : Dict κ α) (k : κ) (v : α) (h : k ∉ d.keys) : d.set k v = d ++ [(k, v)] := by
  induction d with
  | nil => rfl
  | cons kv d ih =>
    obtain ⟨k', v'⟩ := kv
    simp only [keys, List.map_cons, List.mem_cons, not_or] at h
    rw [set, if_neg (fun e => h.1 e.symm), ih h.2]; rfl

theorem get?_set_self (d : Dict κ α) (k : κ) (v : α) : (d.set k v).get? k = some v := by
  induction d with
  | nil => simp [set, get?]
  | cons kv d ih =>
    obtain ⟨k', v'⟩ := kv
    rw [set]; split
    · rename_i h; simp [get?, h]
    · rename_i h; simp [get?, h, ih]

theorem get?_set_ne (d : Dict κ α) (k k₂ : κ) (v : α) (h : k₂ ≠ k) : (d.set k v).get? k₂ = d.get? k₂ := by
  induction d with
  | nil => simp [set, get?, Ne.symm h]
  | cons kv d ih =>
    obtain ⟨k', v'⟩ := kv
    rw [set]; split
    · rename_i e; subst e; simp [get?, Ne.symm h]
    · simp [get?, ih]

theorem get?_set (d : Dict κ α) (k k₂ : κ) (v : α) :
    (d.set k v).get? k₂ = if k = k₂ then some v else d.get? k₂ := by
  split
  · rename_i h; subst h; exact get?_set_self d k v
  · rename_i h; exact get?_set_ne d k k₂ v (Ne.symm h)

theorem keys_set_of_mem (d : Dict κ α) (k : κ) (v : α) (h : k ∈ d.keys) : (d.set k v).keys = d.keys := by
  induction d with
  | nil => simp [keys] at h
  | cons kv d ih =>
    obtain ⟨k', v'⟩ := kv
    rw [set]; split
    · simp [keys]
    · rename_i hne
      simp only [keys, List.map_cons, List.mem_cons] at h ih ⊢
      rcases h with h | h
      · exact absurd h.symm hne
      · rw [ih h]

theorem keys_set_of_not_mem (d : Dict κ α) (k : κ) (v : α) (h : k ∉ d.keys) :
    (d.set k v).keys = d.keys ++ [k] := by
  rw [set_eq_append d k v h]; simp [keys]

theorem nodup_set (d : Dict κ α) (k : κ) (v : α) (h : d.keys.Nodup) : (d.set k v).keys.Nodup := by
  by_cases hk : k ∈ d.keys
  · rw [keys_set_of_mem d k v hk]; exact h
  · rw [keys_set_of_not_mem d k v hk]
    rw [List.nodup_append]
    refine ⟨h, by simp, ?_⟩
    intro a ha b hb
    simp at hb; subst hb
    exact fun e => hk (e ▸ ha)

theorem mem_keys_set (d : Dict κ α) (k k₂ : κ) (v : α) : k₂ ∈ (d.set k v).keys ↔ k₂ = k ∨ k₂ ∈ d.keys := by
  by_cases hk : k ∈ d.keys
  · rw [keys_set_of_mem d k v hk]
    constructor
    · exact .inr
    · rintro (rfl | h)
      · exact hk
      · exact h
  · rw [keys_set_of_not_mem d k v hk]; simp [or_comm]

theorem get?_eq_none (d : Dict κ α) (k : κ) : d.get? k = none ↔ k ∉ d.keys := by
  induction d with
  | nil => simp [get?, keys]
  | cons kv d ih =>
    obtain ⟨k', v'⟩ := kv
    rw [get?]; split
    · rename_i h; simp [keys, h]
    · rename_i h
      simp only [keys, List.map_cons, List.mem_cons, not_or] at ih ⊢
      rw [ih]; simp [Ne.symm h]

theorem get?_some_of_mem (d : Dict κ α) (h : d.keys.Nodup) (k : κ) (v : α) (hm : (k, v) ∈ d) :
    d.get? k = some v := by
  induction d with
  | nil => simp at hm
  | cons kv d ih =>
    obtain ⟨k', v'⟩ := kv
    simp only [keys, List.map_cons, List.nodup_cons] at h
    simp only [List.mem_cons, Prod.mk.injEq] at hm
    rcases hm with ⟨rfl, rfl⟩ | hm
    · simp [get?]
    · rw [get?, if_neg, ih h.2 hm]
      intro e
      exact h.1 (e ▸ List.mem_map_of_mem (f := Prod.fst) hm)

theorem mem_of_get? (d : Dict κ α) (k : κ) (v : α) (h : d.get? k = some v) : (k, v) ∈ d := by
  induction d with
  | nil => simp [get?] at h
  | cons kv d ih =>
    obtain ⟨k', v'⟩ := kv
    rw [get?] at h
    split at h
    · rename_i e; simp at h; simp [e, h]
    · simp [ih h]

/-- Inserting items with fresh, pairwise different keys appends them. -/
theorem foldl_set_fresh (l : List β) (key : β → κ) (val : β → α) (d : Dict κ α)
    (h : (d.keys ++ l.map key).Nodup) :
    l.foldl (fun d b => d.set (key b) (val b)) d = d ++ l.map fun b => (key b, val b) := by
  induction l generalizing d with
  | nil => simp
  | cons b l ih =>
    have hb : key b ∉ d.keys := by
      intro hm
      rw [List.nodup_append] at h
      exact h.2.2 _ hm _ (by simp) rfl
    rw [List.foldl_cons, set_eq_append d _ _ hb, ih]
    · simp
    · simpa [keys] using h

theorem ofList_nodup (l : List (κ × α)) (h : (l.map Prod.fst).Nodup) : ofList l = l := by
  have := foldl_set_fresh l Prod.fst Prod.snd [] (by simpa [keys] using h)
  simpa [ofList] using this

end Verif.Dict
