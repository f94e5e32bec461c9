import Verif.Py.Basic
/-
`str.split()`.
-/
namespace Verif.Str

/-- Text divided into its words and the whitespace after each. -/
theorem wordsAux_spec (p : Nat → Bool) : ∀ (s cur : Str), (∀ c ∈ cur, p c = false) →
    ∃ (l : List (Str × Str)) (lead : Str), cur.reverse ++ s = lead ++ l.flatMap (fun q => q.1 ++ q.2) ∧
      (cur ≠ [] → lead = []) ∧
      wordsAux p cur s = l.map Prod.fst ∧ (∀ c ∈ lead, p c = true) ∧
      (∀ q ∈ l, q.1 ≠ [] ∧ (∀ c ∈ q.1, p c = false) ∧ ∀ c ∈ q.2, p c = true) ∧
      (∀ q ∈ l.dropLast, q.2 ≠ []) := by
  intro s
  induction s with
  | nil =>
    intro cur hc
    cases cur with
    | nil => exact ⟨[], [], by simp, by simp, by simp [wordsAux], by simp, by simp, by simp⟩
    | cons a cur =>
      exact ⟨[((a :: cur).reverse, [])], [], by simp, by simp, by simp [wordsAux], by simp, by
        intro q hq; simp only [List.mem_singleton] at hq; subst hq
        exact ⟨by simp, fun d hd => hc d (List.mem_reverse.1 hd), by simp⟩, by simp⟩
  | cons c s ih =>
    intro cur hcur
    by_cases hc : p c = true
    · obtain ⟨l, lead, h1, -, h2, h3, h4, h5⟩ := ih [] (by simp)
      simp only [List.reverse_nil, List.nil_append] at h1
      cases cur with
      | nil =>
        refine ⟨l, c :: lead, by simp [h1], by simp, by simp [wordsAux, hc, h2], ?_, h4, h5⟩
        intro d hd
        rcases List.mem_cons.1 hd with rfl | hd
        · exact hc
        · exact h3 d hd
      | cons a cur =>
        refine ⟨((a :: cur).reverse, c :: lead) :: l, [], by simp [h1], by simp, by simp [wordsAux, hc, h2],
          by simp, ?_, ?_⟩
        · intro q hq
          rcases List.mem_cons.1 hq with rfl | hq
          · refine ⟨by simp, fun d hd => hcur d (List.mem_reverse.1 hd), ?_⟩
            intro d hd
            rcases List.mem_cons.1 hd with rfl | hd
            · exact hc
            · exact h3 d hd
          · exact h4 q hq
        · intro q hq
          cases l with
          | nil => simp at hq
          | cons b l =>
            rw [List.dropLast_cons_cons] at hq
            rcases List.mem_cons.1 hq with rfl | hq
            · simp
            · exact h5 q hq
    · have hc' : p c = false := by simpa using hc
      obtain ⟨l, lead, h1, h0, h2, h3, h4, h5⟩ := ih (c :: cur) (by
        intro d hd
        rcases List.mem_cons.1 hd with rfl | hd
        · exact hc'
        · exact hcur d hd)
      obtain rfl := h0 (by simp)
      exact ⟨l, [], by simpa using h1, by simp, by simp [wordsAux, hc', h2], by simp, h4, h5⟩

/-- A text is whitespace followed by its words, each followed by whitespace. -/
theorem split_spec (s : Str) : ∃ (l : List (Str × Str)) (lead : Str),
    s = lead ++ l.flatMap (fun q => q.1 ++ q.2) ∧ split s = l.map Prod.fst ∧
      (∀ c ∈ lead, isSpace c = true) ∧
      (∀ q ∈ l, q.1 ≠ [] ∧ (∀ c ∈ q.1, isSpace c = false) ∧ ∀ c ∈ q.2, isSpace c = true) ∧
      (∀ q ∈ l.dropLast, q.2 ≠ []) := by
  obtain ⟨l, lead, h1, -, h2, h3, h4, h5⟩ := wordsAux_spec isSpace s [] (by simp)
  exact ⟨l, lead, by simpa using h1, h2, h3, h4, h5⟩

/-- Reading one word. -/
theorem wordsAux_word (p : Nat → Bool) (w g rest cur : Str) (hw : ∀ c ∈ w, p c = false)
    (hg : ∀ c, g.head? = some c → p c = true) (hne : g ≠ [] ∨ rest = []) (hnw : cur.reverse ++ w ≠ []) :
    wordsAux p cur (w ++ (g ++ rest)) = (cur.reverse ++ w) :: wordsAux p [] (g ++ rest) := by
  induction w generalizing cur with
  | nil =>
    cases g with
    | nil =>
      simp at hne; subst hne
      cases cur with
      | nil => simp at hnw
      | cons a cur => simp [wordsAux]
    | cons c g =>
      have := hg c rfl
      cases cur with
      | nil => simp at hnw
      | cons a cur => simp [wordsAux, this]
  | cons c w ih =>
    rw [List.cons_append, wordsAux, if_neg (by simp [hw c (by simp)]), ih (c :: cur) (fun d hd => hw d (by simp [hd]))]
    · simp
    · simp

theorem wordsAux_skip (p : Nat → Bool) (g rest : Str) (hg : ∀ c ∈ g, p c = true) :
    wordsAux p [] (g ++ rest) = wordsAux p [] rest := by
  induction g with
  | nil => rfl
  | cons c g ih => rw [List.cons_append, wordsAux, if_pos (hg c (by simp))]; simp; exact ih fun d hd => hg d (by simp [hd])

/-- Words separated by whitespace are what `split` finds. -/
theorem split_words (lead : Str) (l : List (Str × Str)) (hlead : ∀ c ∈ lead, isSpace c = true)
    (h : ∀ q ∈ l, q.1 ≠ [] ∧ (∀ c ∈ q.1, isSpace c = false) ∧ ∀ c ∈ q.2, isSpace c = true)
    (hs : ∀ q ∈ l.dropLast, q.2 ≠ []) :
    split (lead ++ l.flatMap fun q => q.1 ++ q.2) = l.map Prod.fst := by
  rw [split, wordsAux_skip _ _ _ hlead]
  clear hlead
  induction l with
  | nil => simp [wordsAux]
  | cons q l ih =>
    obtain ⟨h1, h2, h3⟩ := h q (by simp)
    rw [List.flatMap_cons, List.append_assoc, wordsAux_word]
    · rw [wordsAux_skip _ _ _ h3]
      simp only [List.reverse_nil, List.nil_append, List.map_cons]
      refine congrArg _ (ih (fun r hr => h r (by simp [hr])) ?_)
      intro r hr
      apply hs
      cases l with
      | nil => simp at hr
      | cons b l => rw [List.dropLast_cons_cons]; exact List.mem_cons_of_mem _ hr
    · exact h2
    · intro c hc; exact h3 c (List.mem_of_mem_head? hc)
    · cases l with
      | nil => right; rfl
      | cons b l => left; exact hs q (by simp)
    · simpa using h1

end Verif.Str
