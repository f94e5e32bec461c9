import Verif.Py.Basic
/-
`str.title` on single words.
-/
namespace Verif

theorem upperC_eq {c d : Nat} (hd : isUpper d = true) : upperC c = d ↔ lowerC c = d + 32 := by
  simp only [isUpper, Bool.and_eq_true, decide_eq_true_eq] at hd
  simp only [upperC, lowerC, isLower, isUpper, Bool.and_eq_true, decide_eq_true_eq]
  split <;> split <;> omega

theorem lowerC_alpha {c d : Nat} (hd : isUpper d = true) (h : upperC c = d) : isAlpha c = true := by
  simp only [isUpper, Bool.and_eq_true, decide_eq_true_eq] at hd
  simp only [upperC, isLower, Bool.and_eq_true, decide_eq_true_eq] at h
  simp only [isAlpha, isLower, isUpper, Bool.or_eq_true, Bool.and_eq_true, decide_eq_true_eq]
  split at h <;> omega

theorem alpha_of_lower {c d : Nat} (hd : isLower d = true) (h : lowerC c = d) : isAlpha c = true := by
  simp only [isLower, Bool.and_eq_true, decide_eq_true_eq] at hd
  simp only [lowerC, isUpper, Bool.and_eq_true, decide_eq_true_eq] at h
  simp only [isAlpha, isLower, isUpper, Bool.or_eq_true, Bool.and_eq_true, decide_eq_true_eq]
  split at h <;> omega

theorem titleFrom_word (w : Str) (hw : ∀ c ∈ w, isLower c = true) (s : Str) :
    Str.titleFrom true s = w ↔ Str.lower s = w := by
  induction w generalizing s with
  | nil => cases s <;> simp [Str.titleFrom, Str.lower]
  | cons d w ih =>
    cases s with
    | nil => simp [Str.titleFrom, Str.lower]
    | cons c s =>
      simp only [Str.titleFrom, Str.lower, List.map_cons, List.cons.injEq, if_true]
      constructor
      · rintro ⟨h1, h2⟩
        rw [alpha_of_lower (hw d (by simp)) h1] at h2
        exact ⟨h1, (ih (fun c hc => hw c (by simp [hc])) s).1 h2⟩
      · rintro ⟨h1, h2⟩
        refine ⟨h1, ?_⟩
        rw [alpha_of_lower (hw d (by simp)) h1]
        exact (ih (fun c hc => hw c (by simp [hc])) s).2 h2

theorem title_word (d : Nat) (w : Str) (hd : isUpper d = true) (hw : ∀ c ∈ w, isLower c = true) (s : Str) :
    Str.title s = d :: w ↔ Str.lower s = (d + 32) :: w := by
  cases s with
  | nil => simp [Str.title, Str.titleFrom, Str.lower]
  | cons c s =>
    simp only [Str.title, Str.titleFrom, Str.lower, List.map_cons, List.cons.injEq, Bool.false_eq_true, if_false]
    rw [← upperC_eq hd]
    constructor
    · rintro ⟨h1, h2⟩
      rw [lowerC_alpha hd h1] at h2
      exact ⟨h1, (titleFrom_word w hw s).1 h2⟩
    · rintro ⟨h1, h2⟩
      refine ⟨h1, ?_⟩
      rw [lowerC_alpha hd h1]
      exact (titleFrom_word w hw s).2 h2

theorem title_one (s : Str) : Str.title s = [49] ↔ s = [49] := by
  cases s with
  | nil => simp [Str.title, Str.titleFrom]
  | cons c s =>
    cases s with
    | nil =>
      simp only [Str.title, Str.titleFrom, upperC, isLower, Bool.and_eq_true, decide_eq_true_eq, Bool.false_eq_true,
        if_false, List.cons.injEq, and_true]
      split <;> omega
    | cons d s => simp [Str.title, Str.titleFrom]

end Verif
