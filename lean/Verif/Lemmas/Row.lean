import Verif.Lemmas.Words
/-
Matching the rows of a table from left to right: what a pattern gets from a line that consists of given fields.
-/
namespace Verif
open Re NumRe AtomRe Spec

/-- A text after a field, with the fields that are left. -/
def After (s : Str) (ws : List Str) : Prop := (∀ c, s.head? = some c → isSpace c = true) ∧ Fields s ws

/-- The pattern matches and `C` holds of its groups. -/
def Gets (r : Re) (pre s : Str) (caps : List (Nat × Str)) (C : List (Nat × Str) → Prop) : Prop :=
  ∃ t, run r ⟨pre, s, caps⟩ some = some t ∧ C t.caps

/-- Nothing of a word before the text. -/
def Clear (pre : Str) : Prop := ∀ c, pre.head? = some c → isSpace c = true

theorem clear_nil : Clear [] := by intro c h; cases h

theorem After.endsNumber {s : Str} {ws : List Str} (h : After s ws) : EndsNumber s := endsNumber_of_space h.1

theorem After.spaceNext {s w : Str} {ws : List Str} (h : After s (w :: ws)) : SpaceNext s := by
  cases s with
  | nil =>
    have := (fields_iff _ _).1 h.2
    cases this
  | cons c s => exact ⟨c, s, rfl, h.1 c rfl⟩

/-- The gap before the next field, the field, and what is after it. -/
theorem fields_next {s w : Str} {ws : List Str} (h : Fields s (w :: ws)) :
    ∃ g s', s = g ++ (w ++ s') ∧ Blank g ∧ w ≠ [] ∧ (∀ c ∈ w, isSpace c = false) ∧ After s' ws := by
  cases h with
  | cons h1 h2 h3 h4 h5 =>
    refine ⟨_, _, List.append_assoc _ _ _, ?_, h2, ?_, ?_, h5⟩
    · intro c hc; simpa using h1 c hc
    · intro c hc; simpa using h3 c hc
    · intro c hc; simpa using h4 c hc

theorem After.next {s w : Str} {ws : List Str} (h : After s (w :: ws)) :
    ∃ g s', s = g ++ (w ++ s') ∧ Blank g ∧ g ≠ [] ∧ w ≠ [] ∧ (∀ c ∈ w, isSpace c = false) ∧ After s' ws := by
  obtain ⟨g, s', e, h1, h2, h3, h4⟩ := fields_next h.2
  refine ⟨g, s', e, h1, ?_, h2, h3, h4⟩
  rintro rfl
  cases w with
  | nil => exact h2 rfl
  | cons c w =>
    have := h.1 c (by rw [e]; rfl)
    rw [h3 c (by simp)] at this
    cases this

theorem stops_word {w s : Str} (hne : w ≠ []) (h : ∀ c ∈ w, isSpace c = false) : Stops sp (w ++ s) := by
  intro c hc
  cases w with
  | nil => exact absurd rfl hne
  | cons d w =>
    simp at hc; subst hc
    rw [has_sp]; exact h d (by simp)

theorem clear_gap {g pre : Str} (hg : Blank g) (h : g ≠ [] ∨ Clear pre) : Clear (g.reverse ++ pre) := by
  intro c hc
  cases hh : g.reverse with
  | nil =>
    rw [hh] at hc
    rcases h with h | h
    · simp at hh; exact absurd hh h
    · exact h c hc
  | cons d q =>
    rw [hh] at hc; simp at hc; subst hc
    exact hg d (by have : d ∈ g.reverse := by rw [hh]; simp
                   simpa using this)

namespace Gets

theorem last {r : Re} {pre s caps C} (h : Gets (.seq r .eps) pre s caps C) : Gets r pre s caps C := by
  obtain ⟨t, h1, h2⟩ := h
  refine ⟨t, ?_, h2⟩
  rw [run_seq] at h1
  simpa using h1

theorem eps {pre s caps} {C : List (Nat × Str) → Prop} (h : C caps) : Gets .eps pre s caps C := ⟨⟨pre, s, caps⟩, by simp, h⟩

theorem assoc {a b c : Re} {pre s caps C} (h : Gets (.seq a (.seq b c)) pre s caps C) :
    Gets (.seq (.seq a b) c) pre s caps C := by
  obtain ⟨t, h1, h2⟩ := h
  exact ⟨t, by simpa using h1, h2⟩

theorem bol {r : Re} {s caps C} (h : Gets r [] s caps C) : Gets (.seq .bol r) [] s caps C := by
  obtain ⟨t, h1, h2⟩ := h
  exact ⟨t, by rw [run_seq, run_bol]; exact h1, h2⟩

/-- A blank class before the next field. -/
theorem start {r : Re} {s w : Str} {ws : List Str} {pre caps C} (hs : Fields s (w :: ws)) (hp : Clear pre)
    (h : ∀ pre' s', Clear pre' → After s' ws → Gets r pre' (w ++ s') caps C) :
    Gets (.seq (star sp) r) pre s caps C := by
  obtain ⟨g, s', rfl, h1, h2, h3, h4⟩ := fields_next hs
  obtain ⟨t, h5, h6⟩ := h (g.reverse ++ pre) s' (clear_gap h1 (.inr hp)) h4
  refine ⟨t, ?_, h6⟩
  rw [run_seq]
  exact run_star_all sp g _ _ _ _ _ _ (fun c hc => by rw [has_sp]; exact h1 c hc) (stops_word h2 h3) (by simp) h5

/-- `\s*` between two fields. -/
theorem gap {r : Re} {s w : Str} {ws : List Str} {pre caps C} (hs : After s (w :: ws))
    (h : ∀ pre' s', Clear pre' → After s' ws → Gets r pre' (w ++ s') caps C) :
    Gets (.seq (star sp) r) pre s caps C := by
  obtain ⟨g, s', rfl, h1, hg, h2, h3, h4⟩ := hs.next
  obtain ⟨t, h5, h6⟩ := h (g.reverse ++ pre) s' (clear_gap h1 (.inl hg)) h4
  refine ⟨t, ?_, h6⟩
  rw [run_seq]
  exact run_star_all sp g _ _ _ _ _ _ (fun c hc => by rw [has_sp]; exact h1 c hc) (stops_word h2 h3) (by simp) h5

/-- `\s+` between two fields. -/
theorem gap1 {r : Re} {s w : Str} {ws : List Str} {pre caps C} (hs : After s (w :: ws))
    (h : ∀ pre' s', Clear pre' → After s' ws → Gets r pre' (w ++ s') caps C) :
    Gets (.seq (plus sp) r) pre s caps C := by
  obtain ⟨g, s', rfl, h1, hg, h2, h3, h4⟩ := hs.next
  obtain ⟨t, h5, h6⟩ := h (g.reverse ++ pre) s' (clear_gap h1 (.inl hg)) h4
  refine ⟨t, ?_, h6⟩
  rw [run_seq]
  exact run_plus_all sp 1 g _ _ _ _ _ _ (by cases g with | nil => exact absurd rfl hg | cons c g => simp)
    (fun c hc => by rw [has_sp]; exact h1 c hc) (stops_word h2 h3) (by simp) h5

/-- `\s*` where there is no blank. -/
theorem skip {r : Re} {w s : Str} {pre caps C} (hne : w ≠ []) (hw : ∀ c ∈ w, isSpace c = false)
    (h : Gets r pre (w ++ s) caps C) : Gets (.seq (star sp) r) pre (w ++ s) caps C := by
  obtain ⟨t, h5, h6⟩ := h
  refine ⟨t, ?_, h6⟩
  rw [run_seq, run_star_stop _ _ _ _ _ _ _ (stops_word hne hw)]
  exact h5

/-- `\s*` at the end of the text. -/
theorem rest {r : Re} {s : Str} {pre caps C} (hs : After s []) (h : ∀ pre', Gets r pre' [] caps C) :
    Gets (.seq (star sp) r) pre s caps C := by
  have hb : Blank s := blank_of_fields hs.2
  obtain ⟨t, h5, h6⟩ := h (s.reverse ++ pre)
  refine ⟨t, ?_, h6⟩
  rw [run_seq]
  have := run_star_all sp s pre [] none caps (fun t => run r t some) t
    (fun c hc => by rw [has_sp]; exact hb c hc) (by intro c hc; cases hc) (by simp) h5
  rwa [List.append_nil] at this

theorem eol {pre caps} {C : List (Nat × Str) → Prop} (h : C caps) : Gets .eol pre [] caps C :=
  ⟨⟨pre, [], caps⟩, by rw [run_eol]; rfl, h⟩

/-- `\s*\s*$` -/
theorem finish {s : Str} {pre caps} {C : List (Nat × Str) → Prop} (hs : After s []) (h : C caps) :
    Gets (.seq (star sp) (.seq (star sp) .eol)) pre s caps C :=
  rest hs fun _ => rest (s := []) ⟨(by intro c h; cases h), fields_blank (by intro c h; cases h)⟩ fun _ => eol h

/-- A character. -/
theorem char {r : Re} {cs : CSet} {c : Nat} {s : Str} {pre caps C} (hc : cs.has c = true)
    (h : Gets r (c :: pre) s caps C) : Gets (.seq (.set cs) r) pre (c :: s) caps C := by
  obtain ⟨t, h5, h6⟩ := h
  exact ⟨t, by rw [run_seq, run_set_cons, if_pos hc]; exact h5, h6⟩

/-- A labelled number. -/
theorem num {r : Re} {i : Nat} {n : Numeral} {s : Str} {ws : List Str} {pre caps C} (hs : After s (n.text :: ws))
    (hn : n.Valid) (h : ∀ pre' s', After s' ws → Gets r pre' s' ((i, n.text) :: caps) C) :
    Gets (.seq (LF i) r) pre s caps C := by
  obtain ⟨g, s', rfl, h1, hg, h2, h3, h4⟩ := hs.next
  obtain ⟨t, h5, h6⟩ := h ((g ++ n.text).reverse ++ pre) s' h4
  refine ⟨t, ?_, h6⟩
  rw [run_seq]
  exact run_LF i g n h1 hg hn _ _ _ _ _ h4.endsNumber h5

/-- `\s*\s+?` before a labelled number. -/
theorem gapNum {r : Re} {i : Nat} {n : Numeral} {s : Str} {ws : List Str} {pre caps C} (hs : After s (n.text :: ws))
    (hn : n.Valid) (h : ∀ pre' s', After s' ws → Gets r pre' s' ((i, n.text) :: caps) C) :
    Gets (.seq (star sp) (.seq (LF i) r)) pre s caps C := by
  obtain ⟨g, s', rfl, h1, hg, h2, h3, h4⟩ := hs.next
  obtain ⟨g0, c, rfl⟩ : ∃ g0 c, g = g0 ++ [c] := ⟨_, _, (List.dropLast_concat_getLast hg).symm⟩
  obtain ⟨t, h5, h6⟩ := h (([c] ++ n.text).reverse ++ (g0.reverse ++ pre)) s' h4
  refine ⟨t, ?_, h6⟩
  rw [run_seq]
  have hc : isSpace c = true := h1 c (by simp)
  have key : ∀ (g0 pre : Str), Blank g0 →
      run (.seq (LF i) r) ⟨g0.reverse ++ pre, [c] ++ (n.text ++ s'), caps⟩ some = some t →
      run (star sp) ⟨pre, g0 ++ ([c] ++ (n.text ++ s')), caps⟩ (fun t => run (.seq (LF i) r) t some) = some t := by
    intro g0
    induction g0 with
    | nil =>
      intro pre _ hk
      rw [List.nil_append, List.cons_append, List.nil_append, run_star_cons _ _ (by simp) _ _ _ _ _ (by rw [has_sp]; exact hc),
        Option.map_none, run_star_stop _ _ _ _ _ _ _ (stops_word h2 h3), run_seq, LF, run_seq,
        run_plus_stop _ _ _ _ _ _ _ _ (stops_word h2 h3), Option.none_or]
      exact hk
    | cons d g0 ih =>
      intro pre hb hk
      rw [List.cons_append, run_star_cons _ _ (by simp) _ _ _ _ _ (by rw [has_sp]; exact hb d (by simp)), Option.map_none,
        ih (d :: pre) (fun x hx => hb x (by simp [hx])) (by simpa using hk)]
      rfl
  have := key g0 pre (fun x hx => h1 x (by simp [hx])) (by
    rw [run_seq]
    exact run_LF i [c] n (by intro x hx; simp at hx; subst hx; exact hc) (by simp) hn _ _ _ _ _ h4.endsNumber h5)
  simpa using this

/-- A number in a group of its own. -/
theorem field {r : Re} {i : Nat} {n : Numeral} {s : Str} {ws : List Str} {pre caps C} (hn : n.Valid) (hp : Clear pre)
    (hs : After s ws) (h : Gets r (n.text.reverse ++ pre) s ((i, n.text) :: caps) C) :
    Gets (.seq (.group i N) r) pre (n.text ++ s) caps C := by
  obtain ⟨t, h5, h6⟩ := h
  refine ⟨t, ?_, h6⟩
  rw [run_seq, run_group]
  apply run_N n hn _ _ _ _ _ ?_ hs.endsNumber
  · rw [upTo_append]; exact h5
  · intro hc
    have := hp _ hc
    simp [isSpace] at this

/-- A name of an atom in a group of its own. -/
theorem atom {r : Re} {i : Nat} {a : AtomName} {s w : Str} {ws : List Str} {pre caps C} (ha : a.Valid) (hl : a.label = none)
    (hp : Clear pre) (hs : After s (w :: ws)) (hw : w.head? ≠ some 91)
    (h : Gets r (a.text.reverse ++ pre) s ((i, a.text) :: caps) C) :
    Gets (.seq (.group i A) r) pre (a.text ++ s) caps C := by
  obtain ⟨t, h5, h6⟩ := h
  refine ⟨t, ?_, h6⟩
  rw [run_seq, run_group]
  apply run_A a ha _ _ _ _ _ (fun c hc => isSpace_not_word (hp c hc)) hs.spaceNext
  · intro _ g q e hg hq
    obtain ⟨g', s', e', h1, hg', h2, h3, h4⟩ := hs.next
    cases w with
    | nil => exact h2 rfl
    | cons d w =>
      cases q with
      | nil => cases hq
      | cons b q =>
        cases hq
        rw [e] at e'
        rcases List.append_eq_append_iff.1 e' with ⟨x, rfl, e2⟩ | ⟨x, rfl, e2⟩
        · cases x with
          | nil => simp at e2; exact hw (by simp [← e2.1])
          | cons y x =>
            have h9 : y = 91 := by
              have := congrArg List.head? e2
              simpa using this.symm
            have := h1 y (by simp)
            rw [h9] at this
            simp [isSpace] at this
        · cases x with
          | nil => simp at e2; exact hw (by simp [e2.1])
          | cons y x =>
            have h9 : y = d := by
              have := congrArg List.head? e2
              simpa using this.symm
            have := hg y (by simp)
            rw [h9, h3 d (by simp)] at this
            cases this
  · rw [upTo_append]; exact h5

/-- Digits in a group of their own. -/
theorem digits {r : Re} {i : Nat} {d s : Str} {ws : List Str} {pre caps C} (hd : Numeral.AllDigits d) (hne : d ≠ [])
    (hs : After s ws) (h : Gets r (d.reverse ++ pre) s ((i, d) :: caps) C) :
    Gets (.seq (.group i (plus dig)) r) pre (d ++ s) caps C := by
  obtain ⟨t, h5, h6⟩ := h
  refine ⟨t, ?_, h6⟩
  rw [run_seq, run_group]
  apply run_plus_all dig 1 d _ _ _ _ _ _ (by cases d with | nil => exact absurd rfl hne | cons c s => simp)
    (fun c h => (allDigits_iff d).1 hd c h) hs.endsNumber.stops (by simp)
  rw [upTo_append]; exact h5

end Gets

/-- A pattern that gets something matches. -/
theorem Gets.match_ {p : Pat} {s : Str} {C : List (Nat × Str) → Prop} (h : Gets p.re [] s [] C) :
    ∃ m, p.match_ s = some m ∧ C m.caps ∧ m.names = p.names := by
  obtain ⟨t, h1, h2⟩ := h
  refine ⟨_, by rw [Pat.match_, Pat.matchAt_eq, h1]; rfl, h2, rfl⟩

end Verif
