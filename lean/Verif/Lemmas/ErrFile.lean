import Verif.Lemmas.Header
import Verif.Lemmas.SettingVal
import Verif.Spec.ErrFile
import Verif.Model.Tables
/- Error files. -/
namespace Verif
open Spec

theorem lstrip_spec (s : Str) : (∃ g, s = g ++ Str.lstrip s ∧ Blank g) ∧ ∀ c, (Str.lstrip s).head? = some c → isSpace c = false := by
  refine ⟨⟨s.takeWhile isSpace, ?_, ?_⟩, ?_⟩
  · exact (List.takeWhile_append_dropWhile (p := isSpace) (l := s)).symm
  · intro c hc
    exact List.all_eq_true.1 List.all_takeWhile c hc
  · intro c hc
    have := List.head?_dropWhile_not (p := isSpace) s
    rw [show Str.lstrip s = s.dropWhile isSpace from rfl] at hc
    rw [hc] at this
    simpa using this

theorem stripped_iff (s t : Str) : Str.strip s = t ↔ Stripped s t := by
  constructor
  · rintro rfl
    obtain ⟨⟨g', e', h'⟩, hl⟩ := rstripped_rstrip (Str.lstrip s)
    obtain ⟨⟨g, e, h⟩, hh⟩ := lstrip_spec s
    have es : Str.strip s = Str.rstrip (Str.lstrip s) := rfl
    rw [es]
    refine ⟨⟨g, g', ?_, h, h'⟩, ?_, hl⟩
    · rw [List.append_assoc, ← e', ← e]
    · intro c hc
      apply hh c
      rw [e']
      cases hq : Str.rstrip (Str.lstrip s) with
      | nil => rw [hq] at hc; cases hc
      | cons d q => rw [hq] at hc; simpa using hc
  · rintro ⟨⟨g, g', rfl, h, h'⟩, h1, h2⟩
    have es : ∀ s, Str.strip s = Str.rstrip (Str.lstrip s) := fun _ => rfl
    by_cases ht : t = []
    · subst ht
      rw [strip_nil_iff]
      intro c hc
      simp only [List.append_nil, List.mem_append] at hc
      rcases hc with hc | hc
      · exact h c hc
      · exact h' c hc
    · rw [es, show Str.lstrip (g ++ t ++ g') = t ++ g' from ?_, rstrip_iff]
      · exact ⟨⟨g', rfl, h'⟩, h2⟩
      · show List.dropWhile isSpace _ = _
        rw [List.append_assoc, List.dropWhile_append_of_pos h]
        cases t with
        | nil => exact absurd rfl ht
        | cons d t =>
          rw [List.cons_append, List.dropWhile_cons_of_neg]
          rw [h1 d rfl]; simp

theorem err_message : ∀ (pre : List Str) (mark : Str) (post : List Str) (acc : Str),
    (∀ l ∈ pre, ¬ Occurs (py"Current trace stack") l) → Occurs (py"Current trace stack") mark →
    ErrFile.message (pre ++ mark :: post) acc = .ok (acc ++ pre.flatten, post)
  | [], mark, post, acc, _, hm => by
    rw [List.nil_append, ErrFile.message, if_pos ((Str.contains_iff _ _).2 hm)]
    simp
  | l :: pre, mark, post, acc, hp, hm => by
    rw [List.cons_append, ErrFile.message, if_neg (fun e => hp l (by simp) ((Str.contains_iff _ _).1 e)),
      err_message pre mark post _ (fun x hx => hp x (by simp [hx])) hm]
    simp

theorem err_none : ∀ (pre : List Str) (acc : Str), (∀ l ∈ pre, ¬ Occurs (py"Current trace stack") l) →
    ErrFile.message pre acc = .error .stopIteration
  | [], _, _ => rfl
  | l :: pre, acc, hp => by
    rw [ErrFile.message, if_neg (fun e => hp l (by simp) ((Str.contains_iff _ _).1 e))]
    exact err_none pre _ fun x hx => hp x (by simp [hx])

end Verif
