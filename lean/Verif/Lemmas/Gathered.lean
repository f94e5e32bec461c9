import Verif.Spec.CastepDoc
import Verif.Lemmas.Tables
import Verif.Lemmas.Elastic
/-
Values gathered under keys.
-/
namespace Verif
open Spec

variable {α β : Type}

/-- The values under a key. -/
def valsOf (es : List (Key × α)) (k : Key) : List α := (es.filter (·.1 = k)).map Prod.snd

theorem gathered_eq (es : List (Key × α)) (f : Key → List α → β) : gathered es f = (es.map Prod.fst).eraseDups.map fun k => (k, f k (valsOf es k)) := rfl

theorem gathered_keys (es : List (Key × α)) (f : Key → List α → β) : (gathered es f).keys = (es.map Prod.fst).eraseDups := by
  rw [gathered_eq, Dict.keys, List.map_map]; exact List.map_id' _

theorem gathered_get (es : List (Key × α)) (f : Key → List α → β) {k : Key} (hk : k ∈ es.map Prod.fst) : (gathered es f).get? k = some (f k (valsOf es k)) := by
  refine Dict.get?_some_of_mem _ ?_ _ _ ?_
  · rw [gathered_keys]; exact Elastic.nodup_dups _ _ (Nat.le_refl _)
  · rw [gathered_eq]; exact List.mem_map.2 ⟨k, List.mem_eraseDups.2 hk, rfl⟩

theorem gathered_none (es : List (Key × α)) (f : Key → List α → β) {k : Key} (hk : k ∉ es.map Prod.fst) : (gathered es f).get? k = none := by
  rw [Dict.get?_eq_none, gathered_keys, List.mem_eraseDups]; exact hk

theorem valsOf_none {es : List (Key × α)} {k : Key} (hk : k ∉ es.map Prod.fst) : valsOf es k = [] := by
  rw [valsOf, List.filter_eq_nil_iff.2, List.map_nil]
  intro e he h
  exact hk (List.mem_map.2 ⟨e, he, by simpa using h⟩)

theorem valsOf_snoc (es : List (Key × α)) (k k' : Key) (a : α) : valsOf (es ++ [(k, a)]) k' = valsOf es k' ++ (if k = k' then [a] else []) := by
  rw [valsOf, List.filter_append, List.map_append, valsOf]
  split <;> simp [*]

theorem gathered_snoc (es : List (Key × α)) (f : Key → List α → β) (k : Key) (a : α) :
    gathered (es ++ [(k, a)]) f = (gathered es f).set k (f k (valsOf es k ++ [a])) := by
  rw [gathered_eq]
  refine (Dict.eq_of_keys _ _ ?_ (Elastic.nodup_dups _ _ (Nat.le_refl _)) _ ?_).symm
  · have e : ((es ++ [(k, a)]).map Prod.fst).eraseDups = (es.map Prod.fst).eraseDups ++ ([k].removeAll (es.map Prod.fst)).eraseDups := by
      rw [List.map_append, List.eraseDups_append]; rfl
    rw [e]
    by_cases hk : k ∈ es.map Prod.fst
    · rw [Dict.keys_set_of_mem _ _ _ (by rw [gathered_keys, List.mem_eraseDups]; exact hk), gathered_keys]
      have : [k].removeAll (es.map Prod.fst) = [] := by
        rw [List.removeAll, List.filter_eq_nil_iff]
        simpa using hk
      rw [this]; simp
    · rw [Dict.keys_set_of_not_mem _ _ _ (by rw [gathered_keys, List.mem_eraseDups]; exact hk), gathered_keys]
      have : [k].removeAll (es.map Prod.fst) = [k] := by
        rw [List.removeAll, List.filter_eq_self]
        simpa using hk
      rw [this, List.eraseDups_cons]; rfl
  · intro k' hk'
    rw [Dict.get?_set, valsOf_snoc]
    split
    · rename_i h; rw [h]
    · rename_i h
      rw [List.append_nil]
      refine gathered_get es f ?_
      rw [List.mem_eraseDups, List.map_append] at hk'
      rcases List.mem_append.1 hk' with h' | h'
      · exact h'
      · exact absurd (List.mem_singleton.1 h').symm h

end Verif
