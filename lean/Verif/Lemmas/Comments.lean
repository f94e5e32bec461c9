import Verif.Model.Utility
import Verif.Lemmas.Match
import Verif.Spec.Text
/-
Comment patterns.
-/
namespace Verif
open Re Spec

theorem lang_lit (c w : Str) : Lang (litRe c) w ↔ w = c := by
  induction c generalizing w with
  | nil => rfl
  | cons a c ih =>
    have h1 : ∀ v : Str, Lang (.set ⟨false, [.ch a], false⟩) v ↔ v = [a] := by
      intro v
      simp only [Lang, CSet.has, List.any_cons, List.any_nil, CItem.has, Bool.or_false]
      constructor
      · rintro ⟨b, hb, rfl⟩; simp at hb; rw [hb]
      · rintro rfl; exact ⟨a, by simp, rfl⟩
    cases c with
    | nil => exact h1 w
    | cons b c =>
      show (∃ u v, w = u ++ v ∧ Lang (.set ⟨false, [.ch a], false⟩) u ∧ Lang (litRe (b :: c)) v) ↔ _
      constructor
      · rintro ⟨u, v, rfl, hu, hv⟩
        rw [(h1 u).1 hu, (ih v).1 hv]; rfl
      · rintro rfl
        exact ⟨[a], b :: c, rfl, (h1 _).2 rfl, (ih _).2 rfl⟩

theorem lang_alt (rs : List Re) (h : rs ≠ []) (w : Str) : Lang (altRe rs) w ↔ ∃ r ∈ rs, Lang r w := by
  induction rs with
  | nil => exact absurd rfl h
  | cons r rs ih =>
    cases rs with
    | nil => simp [altRe]
    | cons q rs =>
      show (Lang r w ∨ Lang (altRe (q :: rs)) w) ↔ _
      rw [ih (by simp)]
      simp

theorem plain_lit (c : Str) : plain (litRe c) = true := by
  induction c with
  | nil => rfl
  | cons a c ih =>
    cases c with
    | nil => rfl
    | cons b c => simpa [litRe, plain] using ih

theorem plain_alt (rs : List Re) (h : ∀ r ∈ rs, plain r = true) : plain (altRe rs) = true := by
  induction rs with
  | nil => rfl
  | cons r rs ih =>
    cases rs with
    | nil => exact h r (by simp)
    | cons q rs =>
      show (plain r && plain (altRe (q :: rs))) = true
      rw [h r (by simp), ih fun x hx => h x (by simp [hx])]; rfl

theorem plain_marks (cs : List Str) : plain (altRe (cs.map litRe)) = true :=
  plain_alt _ fun r hr => by
    obtain ⟨c, -, rfl⟩ := List.mem_map.1 hr
    exact plain_lit c

theorem lang_marks (cs : List Str) (h : cs ≠ []) (w : Str) : Lang (altRe (cs.map litRe)) w ↔ w ∈ cs := by
  rw [lang_alt _ (by simpa using h)]
  constructor
  · rintro ⟨r, hr, hl⟩
    obtain ⟨c, hc, rfl⟩ := List.mem_map.1 hr
    rw [(lang_lit c w).1 hl]; exact hc
  · intro hw
    exact ⟨litRe w, List.mem_map.2 ⟨w, hw, rfl⟩, (lang_lit w w).2 rfl⟩

/-- A marker starts here. -/
theorem comment_at (cs : List Str) (h : cs ≠ []) (pre post : Str) :
    ((commentRe cs).matchAt pre post).isSome ↔ ∃ c ∈ cs, ∃ v, post = c ++ v := by
  rw [Pat.isSome_plain _ (by exact plain_marks cs)]
  simp only [commentRe, Lang, lang_marks cs h]
  constructor
  · rintro ⟨w, v, e, hw⟩; exact ⟨w, hw, v, e⟩
  · rintro ⟨w, hw, v, e⟩; exact ⟨w, v, e, hw⟩

/-- A run of whitespace. -/
theorem lang_spaces (w : Str) :
    Lang (.rep true 0 none (.set ⟨false, [.space], false⟩)) w ↔ ∀ c ∈ w, isSpace c = true := by
  simp only [Lang, CSet.has, CItem.has, List.any_cons, List.any_nil, Bool.or_false]
  constructor
  · rintro ⟨ws, rfl, -, -, h⟩ c hc
    obtain ⟨u, hu, hcu⟩ := List.mem_flatten.1 hc
    obtain ⟨d, hd, rfl⟩ := h u hu
    simp at hcu; subst hcu; simpa using hd
  · intro h
    refine ⟨w.map fun c => [c], ?_, by simp, by simp, ?_⟩
    · induction w with
      | nil => rfl
      | cons a w ih => simp at h ⊢; exact ih h.2
    · intro u hu
      obtain ⟨c, hc, rfl⟩ := List.mem_map.1 hu
      exact ⟨c, by simpa using h c hc, rfl⟩

/-- The line starts with a comment. -/
theorem comment_initial (cs : List Str) (h : cs ≠ []) (line : Str) :
    ((commentInitRe cs).match_ line).isSome ↔
      CommentInitial cs line := by
  rw [Pat.match_, Pat.isSome_bol _ _ rfl (by simp [plain, nullable, plain_marks])]
  show (∃ w rest, line = w ++ rest ∧ ∃ u v, w = u ++ v ∧ Lang (.rep true 0 none (.set ⟨false, [.space], false⟩)) u ∧
    Lang (altRe (cs.map litRe)) v) ↔ _
  simp only [lang_spaces, lang_marks cs h]
  constructor
  · rintro ⟨w, v, e, u, c, rfl, hu, hc⟩; exact ⟨u, c, hc, v, e, hu⟩
  · rintro ⟨u, c, hc, v, e, hu⟩; exact ⟨u ++ c, v, e, u, c, rfl, hu, hc⟩

theorem Spec.Uncommented.unique {cs : List Str} {s t t' : Str} (h : Uncommented cs s t) (h' : Uncommented cs s t') :
    t = t' := by
  rcases h with ⟨rfl, h⟩ | ⟨⟨c, hc, v, e⟩, h⟩
  · rcases h' with ⟨rfl, -⟩ | ⟨⟨c, hc, v, e⟩, -⟩
    · rfl
    · exact absurd e (h _ c hc v)
  · rcases h' with ⟨rfl, h'⟩ | ⟨⟨c', hc', v', e'⟩, h'⟩
    · exact absurd e (h' _ c hc v)
    · have h1 := h t' c' hc' v' e'
      have h2 := h' t c hc v e
      have : t ++ (c ++ v) = t' ++ (c' ++ v') := by rw [← List.append_assoc, ← List.append_assoc, ← e, ← e']
      exact (List.append_inj this (by omega)).1

theorem splitHead_spec (cs : List Str) (h : cs ≠ []) (s : Str) :
    Uncommented cs s ((commentRe cs).splitHead s) := by
  have hnone : ∀ pre post, (commentRe cs).matchAt pre post = none → ¬ ∃ c ∈ cs, ∃ v, post = c ++ v := by
    intro pre post hm hc
    have := (comment_at cs h pre post).2 hc
    rw [hm] at this; cases this
  rcases Pat.search_spec (commentRe cs) s with ⟨h1, h2⟩ | ⟨u, v, x, h1, h2, h3, h4⟩
  · left
    refine ⟨by rw [Pat.splitHead, h1], ?_⟩
    intro u c hc v e
    exact hnone _ _ (h2 u (c ++ v) (by rw [e, List.append_assoc])) ⟨c, hc, v, rfl⟩
  · right
    have hb : (commentRe cs).splitHead s = u := by
      rw [Pat.splitHead, h2]
      simp only
      rw [(Pat.matchAt_some h3).2.1, List.reverse_reverse]
    rw [hb]
    refine ⟨?_, ?_⟩
    · obtain ⟨c, hc, w, e⟩ := (comment_at cs h _ _).1 (by rw [h3]; rfl)
      exact ⟨c, hc, w, by rw [h1, e, List.append_assoc]⟩
    · intro u' c hc w e
      refine Decidable.byContradiction fun hl => ?_
      exact hnone _ _ (h4 u' (c ++ w) (by rw [e, List.append_assoc]) (by omega)) ⟨c, hc, w, rfl⟩


/-! ### rstrip -/

theorem rstripped_rstrip (s : Str) : RStripped s (Str.rstrip s) := by
  refine ⟨⟨(s.reverse.takeWhile isSpace).reverse, ?_, ?_⟩, ?_⟩
  · rw [Str.rstrip, ← List.reverse_append, List.takeWhile_append_dropWhile, List.reverse_reverse]
  · intro c hc
    have hc := List.mem_reverse.1 hc
    revert hc
    generalize s.reverse = l
    induction l with
    | nil => intro hc; simp at hc
    | cons a l ih =>
      intro hc
      rw [List.takeWhile_cons] at hc
      split at hc
      · rcases List.mem_cons.1 hc with rfl | hc
        · assumption
        · exact ih hc
      · simp at hc
  · intro c hc
    rw [Str.rstrip, List.getLast?_reverse] at hc
    have := List.head?_dropWhile_not isSpace s.reverse
    rw [hc] at this
    simpa using this

theorem Spec.RStripped.unique {s t t' : Str} (h : RStripped s t) (h' : RStripped s t') : t = t' := by
  obtain ⟨⟨g, e, hg⟩, hl⟩ := h
  obtain ⟨⟨g', e', hg'⟩, hl'⟩ := h'
  have key : ∀ (t t' g g' : Str), t ++ g = t' ++ g' → (∀ c ∈ g', isSpace c = true) →
      (∀ c, t.getLast? = some c → isSpace c = false) → t.length ≤ t'.length := by
    intro t t' g g' e hg' hl
    refine Decidable.byContradiction fun hn => ?_
    rcases List.eq_nil_or_concat t with rfl | ⟨u, c, rfl⟩
    · simp at hn
    · rw [List.concat_eq_append] at *
      have hc := hl c (by simp)
      have h1 : t'.length ≤ u.length := by simp at hn; omega
      have h2 : t' ++ g' = u ++ (c :: g) := by rw [← e]; simp
      obtain ⟨d, rfl⟩ : ∃ d, u = t' ++ d := by
        have : t' <+: u := by
          apply List.prefix_of_prefix_length_le (l₃ := t' ++ g') ⟨g', rfl⟩ ⟨c :: g, h2.symm⟩ h1
        obtain ⟨d, hd⟩ := this
        exact ⟨d, hd.symm⟩
      rw [List.append_assoc] at h2
      have h3 := List.append_cancel_left h2
      have := hg' c (by rw [h3]; simp)
      rw [hc] at this; cases this
  have h1 := key t t' g g' (by rw [← e, ← e']) hg' hl
  have h2 := key t' t g' g (by rw [← e, ← e']) hg hl'
  exact (List.append_inj (e.symm.trans e') (by omega)).1

theorem rstrip_iff (s t : Str) : Str.rstrip s = t ↔ RStripped s t :=
  ⟨fun h => h ▸ rstripped_rstrip s, fun h => (rstripped_rstrip s).unique h⟩

theorem rstrip_nil_iff (s : Str) : Str.rstrip s = [] ↔ Blank s := by
  rw [rstrip_iff]
  constructor
  · rintro ⟨⟨g, e, hg⟩, -⟩; rw [List.nil_append] at e; subst e; exact hg
  · intro h; exact ⟨⟨s, rfl, h⟩, by intro c hc; cases hc⟩

theorem rstrip_idem (s : Str) : Str.rstrip (Str.rstrip s) = Str.rstrip s :=
  (rstrip_iff _ _).2 ⟨⟨[], (List.append_nil _).symm, by intro c hc; cases hc⟩, (rstripped_rstrip s).2⟩

end Verif
