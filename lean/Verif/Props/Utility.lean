import Verif.Lemmas.Comments
import Verif.Lemmas.Strings
/-
Properties C20–C22: comments and canonical text.
-/
namespace Verif.Props
open Verif Verif.Spec

/-! ### C20 -/

/-- C20: exactly the lines that are neither blank nor comment-initial are kept, in order, without
their trailing whitespace. -/
theorem C20_initial (lines : List Str) (cs : List Str) (hcs : cs ≠ []) (out : List Str) :
    strip_comments lines cs false = out ↔ Kept cs lines out := by
  have key : ∀ l, ((commentInitRe cs).match_ l).isNone = true ↔ ¬ CommentInitial cs l := by
    intro l
    rw [← comment_initial cs hcs l]
    cases (commentInitRe cs).match_ l <;> simp
  have hd : Kept cs lines (strip_comments lines cs false) := by
    simp only [strip_comments, Bool.false_eq_true, if_false, strip_initial_comments]
    induction lines with
    | nil => exact .nil
    | cons l ls ih =>
      cases hk : ((commentInitRe cs).match_ l).isNone with
      | false =>
        rw [List.filter_cons_of_neg (by simp [hk])]
        refine .drop (.inr ?_) ih
        by_cases hc : CommentInitial cs l
        · exact hc
        · rw [(key l).2 hc] at hk; cases hk
      | true =>
        have hc := (key l).1 hk
        rw [List.filter_cons_of_pos (by simp [hk]), List.map_cons]
        by_cases hb : Blank l
        · rw [List.filter_cons_of_neg (by simp [(rstrip_nil_iff l).2 hb])]
          exact .drop (.inl hb) ih
        · have hne : Str.rstrip l ≠ [] := fun e => hb ((rstrip_nil_iff l).1 e)
          rw [List.filter_cons_of_pos (by simpa using hne)]
          exact .keep hb hc (rstripped_rstrip l) ih
  constructor
  · rintro rfl; exact hd
  · intro h
    revert hd
    generalize strip_comments lines cs false = o
    intro hd
    induction h generalizing o with
    | nil => cases hd; rfl
    | drop hb _ ih =>
      cases hd with
      | drop _ h => exact ih _ h
      | keep h1 h2 _ _ => rcases hb with hb | hb <;> contradiction
    | keep h1 h2 h3 _ ih =>
      cases hd with
      | drop h _ => rcases h with hb | hb <;> contradiction
      | keep _ _ h3' h4 => rw [ih _ h4, h3.unique h3']

/-- C20 with `remove_inline`: of each line exactly the text before the first marker, without
trailing whitespace, where something is left. -/
theorem C20_inline (lines : List Str) (cs : List Str) (hcs : cs ≠ []) (out : List Str) :
    strip_comments lines cs true = out ↔ KeptInline cs lines out := by
  have hd : KeptInline cs lines (strip_comments lines cs true) := by
    simp only [strip_comments, if_true]
    induction lines with
    | nil => exact .nil
    | cons l ls ih =>
      rw [strip_inline_comments]
      have hs := splitHead_spec cs hcs l
      split
      · rename_i he
        exact .drop hs ((rstrip_nil_iff _).1 (by simpa using he)) ih
      · rename_i he
        exact .keep hs (fun hb => he (by simp [(rstrip_nil_iff _).2 hb])) (rstripped_rstrip _) ih
  constructor
  · rintro rfl; exact hd
  · intro h
    revert hd
    generalize strip_comments lines cs true = o
    intro hd
    induction h generalizing o with
    | nil => cases hd; rfl
    | drop h1 h2 _ ih =>
      cases hd with
      | drop _ _ h => exact ih _ h
      | keep g1 g2 _ _ => rw [g1.unique h1] at g2; contradiction
    | keep h1 h2 h3 _ ih =>
      cases hd with
      | drop g1 g2 _ => rw [g1.unique h1] at g2; contradiction
      | keep g1 _ g3 g4 =>
        rw [g1.unique h1] at g3
        rw [ih _ g4, h3.unique g3]

/-- C20: stripping twice is stripping once. -/
theorem C20_idempotent (lines : List Str) (cs : List Str) (hcs : cs ≠ []) (inl : Bool) :
    strip_comments (strip_comments lines cs inl) cs inl = strip_comments lines cs inl := by
  cases inl with
  | false =>
    rw [C20_initial _ cs hcs]
    have h := (C20_initial lines cs hcs _).1 rfl
    revert h
    generalize strip_comments lines cs false = o
    intro h
    induction h with
    | nil => exact .nil
    | drop _ _ ih => exact ih
    | @keep l t ls out h1 h2 h3 _ ih =>
      obtain ⟨⟨g, e, hg⟩, h4⟩ := h3
      refine .keep ?_ ?_ ⟨⟨[], (List.append_nil _).symm, by intro c hc; cases hc⟩, h4⟩ ih
      · intro hb
        apply h1
        rw [e]
        intro c hc
        rcases List.mem_append.1 hc with hc | hc
        · exact hb c hc
        · exact hg c hc
      · rintro ⟨u, c, hc, v, e', hu⟩
        exact h2 ⟨u, c, hc, v ++ g, by rw [e, e', List.append_assoc (u ++ c)], hu⟩
  | true =>
    rw [C20_inline _ cs hcs]
    have h := (C20_inline lines cs hcs _).1 rfl
    revert h
    generalize strip_comments lines cs true = o
    intro h
    induction h with
    | nil => exact .nil
    | drop _ _ _ ih => exact ih
    | @keep l u t ls out h1 h2 h3 _ ih =>
      obtain ⟨⟨g, e, hg⟩, h4⟩ := h3
      have hnb : ¬ Blank t := by
        intro hb
        apply h2
        rw [e]
        intro c hc
        rcases List.mem_append.1 hc with hc | hc
        · exact hb c hc
        · exact hg c hc
      refine .keep (u := t) (.inl ⟨rfl, ?_⟩) hnb ⟨⟨[], (List.append_nil _).symm, by intro c hc; cases hc⟩, h4⟩ ih
      intro a c hc v e'
      rcases h1 with ⟨rfl, h1⟩ | ⟨⟨c', hc', v', el⟩, h1⟩
      · exact h1 a c hc (v ++ g) (by rw [e, e', List.append_assoc (a ++ c)])
      · have := h1 a c hc (v ++ g ++ c' ++ v') (by rw [el, e, e']; simp)
        rw [e, e'] at this
        simp only [List.length_append] at this
        -- the marker is empty, so nothing of the line was left
        have hce : c = [] := List.length_eq_zero_iff.1 (by omega)
        subst hce
        have := h1 [] [] hc l rfl
        have : u = [] := List.length_eq_zero_iff.1 (by simpa using this)
        subst this
        exact h2 (by intro c hc; cases hc)

example : strip_comments [py"  # note ", py"a = 1 ! unit  ", py"", py"  b #"] [py"#", py"!"] false
    = [py"a = 1 ! unit", py"  b #"] := by decide +kernel
example : strip_comments [py"  # note ", py"a = 1 ! unit  ", py"", py"  b #"] [py"#", py"!"] true
    = [py"a = 1", py"  b"] := by decide +kernel
/-- The relation is met by that result. -/
example : Kept [py"#"] [py"#x", py" y "] [py" y"] := by
  refine .drop (.inr ⟨[], py"#", by simp, py"x", rfl, by intro c hc; cases hc⟩)
    (.keep ?_ ?_ ⟨⟨py" ", rfl, ?_⟩, ?_⟩ .nil)
  · intro h; exact absurd (h 121 (by simp)) (by decide)
  · rw [← comment_initial _ (by simp)]; decide +kernel
  · intro c hc; simp at hc; subst hc; decide
  · intro c hc; simp at hc; subst hc; decide

/-! ### C21 -/

/-- C21: the key is the words of letters and digits, in lower case, joined by single underscores. -/
theorem C21_words (s : Str) (ws : List Str) (h : Words isAlnum s ws) :
    normalise_key s = Str.join (py"_") (ws.map Str.lower) := by
  rw [normalise_key_eq, alnumWords, wordsAux_of h]

/-- C21: every text has such words, so the previous theorem determines every key. -/
theorem C21_words_exist (s : Str) : ∃ ws, Words isAlnum s ws := ⟨_, words_wordsAux isAlnum s⟩

/-- C21: normalising twice is normalising once. -/
theorem C21_idempotent (s : Str) : normalise_key (normalise_key s) = normalise_key s := by
  rw [normalise_key_eq (normalise_key s), alnumWords_key, normalise_key_eq s, List.map_map]
  congr 1
  apply List.map_congr_left
  intro w _
  exact lower_idem w

/-- C21: case does not matter. -/
theorem C21_case (s : Str) : normalise_key (Str.lower s) = normalise_key s := by
  have : alnumWords (Str.lower s) = (alnumWords s).map Str.lower := (wordsAux_lower s []).symm
  rw [normalise_key_eq, normalise_key_eq, this, List.map_map]
  congr 1
  apply List.map_congr_left
  intro w _
  exact lower_idem w

/-- C21: two texts get the same key exactly when their words agree up to case. -/
theorem C21_same (s t : Str) (ws vs : List Str) (hs : Words isAlnum s ws) (ht : Words isAlnum t vs) :
    normalise_key s = normalise_key t ↔ ws.map Str.lower = vs.map Str.lower := by
  constructor
  · intro h
    have := congrArg alnumWords h
    rwa [alnumWords_key, alnumWords_key, alnumWords, alnumWords, wordsAux_of hs, wordsAux_of ht] at this
  · intro h; rw [C21_words s ws hs, C21_words t vs ht, h]

/-- C21: only lower-case letters, digits and single underscores between them. -/
theorem C21_alphabet (s : Str) :
    (∀ c ∈ normalise_key s, isLower c = true ∨ isDigit c = true ∨ c = 95) ∧
    (normalise_key s).head? ≠ some 95 ∧ (normalise_key s).getLast? ≠ some 95 ∧
    ∀ u v, normalise_key s ≠ u ++ py"__" ++ v := by
  have hw : ∀ w ∈ (alnumWords s).map Str.lower, w ≠ [] ∧ ∀ c ∈ w, isLower c = true ∨ isDigit c = true := by
    intro w hw
    obtain ⟨v, hv, rfl⟩ := List.mem_map.1 hw
    obtain ⟨h1, h2⟩ := alnumWords_mem hv
    refine ⟨by simpa [Str.lower] using h1, ?_⟩
    intro c hc
    obtain ⟨d, hd, rfl⟩ := List.mem_map.1 hc
    have := h2 d hd
    simp only [isAlnum, isAlpha, Bool.or_eq_true] at this
    rcases this with (h | h) | h
    rotate_left
    · left; simp only [lowerC, h, if_true]
      simp only [isUpper, isLower, Bool.and_eq_true, decide_eq_true_eq] at h ⊢; omega
    · right
      have : isUpper d = false := by
        cases hu : isUpper d with
        | false => rfl
        | true => simp only [isUpper, isDigit, Bool.and_eq_true, decide_eq_true_eq] at h hu; omega
      simpa [lowerC, this] using h
    · left
      have : isUpper d = false := by
        cases hu : isUpper d with
        | false => rfl
        | true => simp only [isUpper, isLower, Bool.and_eq_true, decide_eq_true_eq] at h hu; omega
      simpa [lowerC, this] using h
  rw [normalise_key_eq]
  obtain ⟨h1, h2, h3, h4⟩ := Str.join_clean _ 95 _ hw
  have h95 : ¬ (isLower 95 = true ∨ isDigit 95 = true) := by decide
  refine ⟨fun c hc => by rcases h1 c hc with (h | h) | h <;> simp [h], fun h => h95 (h2 95 h), fun h => h95 (h3 95 h), ?_⟩
  intro u v e
  rcases h4 u 95 95 v e with h | h <;> exact h95 h

example : normalise_key (py" Total (Energy) [eV]__x ") = py"total_energy_ev_x" := by decide +kernel

/-! ### C22 -/

/-- C22: the words of the input, joined by single spaces. -/
theorem C22_words (s : Str) (ws : List Str) (h : Words (fun c => !isSpace c) s ws) :
    normalise_string s = Str.join (py" ") ws := by
  have := wordsAux_of h
  simp only [Bool.not_not] at this
  rw [normalise_string, split_strip, Str.split]
  rw [show (fun c => isSpace c) = isSpace from rfl] at this
  rw [this]

theorem C22_words_exist (s : Str) : ∃ ws, Words (fun c => !isSpace c) s ws := ⟨_, words_wordsAux _ s⟩

/-- C22: the only whitespace in the output is single blanks between words. -/
theorem C22_clean (s : Str) :
    (∀ c ∈ normalise_string s, isSpace c = true → c = 32) ∧
    (∀ c, (normalise_string s).head? = some c → isSpace c = false) ∧
    (∀ c, (normalise_string s).getLast? = some c → isSpace c = false) ∧
    ∀ u a b v, normalise_string s = u ++ [a, b] ++ v → isSpace a = false ∨ isSpace b = false := by
  obtain ⟨l, lead, -, h2, -, h4, -⟩ := Str.split_spec s
  have hw : ∀ w ∈ Str.split s, w ≠ [] ∧ ∀ c ∈ w, isSpace c = false := by
    rw [h2]
    intro w hw
    obtain ⟨q, hq, rfl⟩ := List.mem_map.1 hw
    exact ⟨(h4 q hq).1, (h4 q hq).2.1⟩
  rw [normalise_string, split_strip]
  obtain ⟨h1, h2, h3, h4⟩ := Str.join_clean _ 32 _ hw
  refine ⟨fun c hc hs => ?_, h2, h3, h4⟩
  rcases h1 c hc with h | h
  · rw [h] at hs; cases hs
  · exact h

/-- C22: normalising twice is normalising once. -/
theorem C22_idempotent (s : Str) : normalise_string (normalise_string s) = normalise_string s := by
  obtain ⟨l, lead, -, h2, -, h4, -⟩ := Str.split_spec s
  rw [normalise_string, split_strip]
  congr 1
  rw [normalise_string, split_strip, Str.split]
  apply Str.wordsAux_join _ _ (by decide)
  rw [h2]
  intro w hw
  obtain ⟨q, hq, rfl⟩ := List.mem_map.1 hw
  exact ⟨(h4 q hq).1, (h4 q hq).2.1⟩

example : normalise_string [9, 65, 66, 32, 0xA0, 10, 67, 32] = py"AB C" := by decide +kernel

end Verif.Props
